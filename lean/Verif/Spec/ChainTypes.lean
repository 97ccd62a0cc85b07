import Verif.Spec.OldTypes
import Verif.Lemmas.History

/-!
# Types that chains define for themselves

A chain comes with a list of its own types (as in the JSON files of `network/`).  Types are structures, enums, lists of names or other names
for types; a definition may hold for a range of versions of the runtime only.  Type texts may then have these names beside those of Substrate.
-/

namespace Spec
open ScaleGo (Str TypeDef)
open ScaleGo.Spec (Range SameName)

/-- A definition of a type. -/
inductive Decl where
  /-- fields with their types -/
  | struct (fs : List (Str × Str))
  /-- variants with what they carry -/
  | enum (vs : List (Str × Str))
  /-- values by name, numbered from 0 on -/
  | values (vs : List Str)
  /-- values by name, with numbers of their own -/
  | numbers (vs : List (Str × Nat))
  /-- another name for a type -/
  | same (t : Str)

/-- The definition as it is given to the library. -/
def Decl.row : Decl → TypeDef
  | .struct fs => { kind := b!"struct", mapping := fs.map fun f => [f.1, f.2] }
  | .enum vs => { kind := b!"enum", mapping := vs.map fun f => [f.1, f.2] }
  | .values vs => { kind := b!"enum", values := vs }
  | .numbers vs => { kind := b!"enum", mapping := vs.map fun f => [f.1, ScaleGo.natToDec f.2] }
  | .same t => { kind := b!"string", typeString := t }

/-- A type of the chain. -/
structure ChainType where
  name : Str
  range : Option Range := none
  decl : Decl

/-- Restrictions: tuples, lengths of arrays, texts that get other names, what variants carry, and names. -/
structure Limits where
  tuple : List Str → Prop
  length : Nat → Prop
  other : Str → Prop
  payload : Str → Prop
  word : Str → Prop

/-- Any names at all. -/
def Limits.names (lim : Limits) : Names where
  type w _ := lim.word w
  compact w _ _ := lim.word w
  free _ := True

/-- What a definition says, given what is known. -/
inductive Declares (lim : Limits) (N : Names) : Decl → Shape Str → Prop
  | struct (fs : List (Str × Str)) : Declares lim N (.struct fs) (.struct fs)
  | enum (vs : List (Str × Str)) : vs ≠ [] → (vs.map Prod.fst).Nodup → vs.length ≤ 256 →
      (∀ p ∈ vs, (TypeOver lim.names p.2 ∨ p.2 = b!"Null") ∧ lim.payload p.2) →
      Declares lim N (.enum vs) (.enum (vs.zipIdx.map fun p => (p.2, p.1.1, .one p.1.2)))
  | values (vs : List Str) : vs.Nodup → [] ∉ vs → vs.length ≤ 256 → Declares lim N (.values vs) (.names vs.zipIdx)
  | numbers (vs : List (Str × Nat)) : vs ≠ [] → (vs.map Prod.fst).Nodup → (vs.map Prod.snd).Nodup → (∀ p ∈ vs, p.2 < 256) →
      Declares lim N (.numbers vs) (.names vs)
  | name {w sh} : N.type w sh → Declares lim N (.same w) sh
  | text {t sh} : MeansOver lim.names lim.tuple lim.length t sh → ¬ lim.word t → sh ≠ .null → (∀ n d, sh ≠ .compact n d) → lim.other t →
      Declares lim N (.same t) sh

/-- The definition that holds in a version. -/
def InForce (l : List ChainType) (v : Int) (e : ChainType) : Prop :=
  match e.range with
  | some r => r.Has v
  | none => ∀ f ∈ l, SameName f.name e.name → ∀ r, f.range = some r → ¬ r.Has v

/-- The names with those of the chain. -/
def extend (lim : Limits) (N : Names) (l : List ChainType) (v : Int) : Names where
  type w sh := (∃ e ∈ l, e.name = w ∧ InForce l v e ∧ Declares lim N e.decl sh) ∨ N.type w sh ∧ ∀ e ∈ l, SameName e.name w → ¬ InForce l v e
  compact w n d := (∃ e ∈ l, e.name = w ∧ (∀ f ∈ l, SameName f.name w → f.range = none) ∧ ∃ u, e.decl = .same u ∧ N.compact u n d) ∨
    N.compact w n d ∧ ∀ e ∈ l, ¬ SameName e.name w
  free t := N.free t ∧ ∀ e ∈ l, ¬ SameName e.name t

/-- The names of Substrate with those of several such lists. -/
def vocabulary (lim : Limits) (ls : List (List ChainType)) (v : Int) : Names := ls.foldl (fun N l => extend lim N l v) substrate

/-- The names of types that nobody may define. -/
def coreNames : List Str := [b!"Vec", b!"Option", b!"Compact", b!"Struct", b!"empty", b!"Null", b!"Bytes", b!"u8", b!"u32", b!"bool", b!"Moment"]

/-- A list of definitions that can be added, when those of `past` have been added before. -/
structure Proper (lim : Limits) (N : Names) (past l : List ChainType) : Prop where
  names : ∀ e ∈ l, lim.word e.name
  core : ∀ e ∈ l, ∀ w ∈ coreNames, ¬ SameName e.name w
  fits : ∀ e ∈ l, ∀ r, e.range = some r → r.lo < 2 ^ 32 ∧ ∀ h, r.hi = some h → h < 2 ^ 32
  /-- each has a meaning -/
  stands : ∀ e ∈ l, ∃ sh, Declares lim N e.decl sh
  /-- no two definitions of one name hold in the same versions, but for one without versions -/
  apart : l.Pairwise fun e f => SameName e.name f.name →
    (e.range = none ↔ f.range ≠ none) ∨ ∃ r s, e.range = some r ∧ f.range = some s ∧ ∀ v, ¬ (r.Has v ∧ s.Has v)
  /-- what has been defined for a range of versions is not defined again -/
  fresh : ∀ e ∈ l, ∀ f ∈ past, SameName f.name e.name → f.range = none
  /-- another name is given to types that are not defined along with it, nor for a range of versions only -/
  settled : ∀ e ∈ l, ∀ t, e.decl = .same t → (∀ f ∈ l, ¬ SameName f.name t) ∧ ∀ f ∈ past, SameName f.name t → f.range = none

/-- The same for several lists, one after the other. -/
def ProperAll (lim : Limits) (ls : List (List ChainType)) (v : Int) : Prop :=
  ∀ past l rest, ls = past ++ l :: rest → Proper lim (vocabulary lim past v) past.flatten l

end Spec
