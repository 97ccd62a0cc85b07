import Verif.Lemmas.Names
import Verif.Lemmas.Dec
import Verif.Spec.Bytes

/-! # Lookups after a history of registrations -/

namespace ScaleGo

namespace Spec

/-- What a custom definition other than an alias says: a struct, an enum with or without payloads, or a set. -/
inductive Defines : TypeDef → Cls → Prop where
  | struct (d : TypeDef) (fs : List (Str × Str)) (hk : d.kind = b!"struct") (hf : fs ≠ [])
      (hm : d.mapping = fs.map (fun p => [p.1, p.2])) : Defines d (.struct (some fs))
  | emptyStruct (d : TypeDef) (hk : d.kind = b!"struct") (hm : d.mapping = []) : Defines d (.struct none)
  | enum (d : TypeDef) (fs : List (Str × Str)) (hk : d.kind = b!"enum") (hf : fs ≠ [])
      (hm : d.mapping = fs.map (fun p => [p.1, p.2])) : Defines d (.enum d.values (some fs))
  | plainEnum (d : TypeDef) (hk : d.kind = b!"enum") (hm : d.mapping = []) : Defines d (.enum d.values none)
  | set (d : TypeDef) (hk : d.kind = b!"set") : Defines d (.set d.values d.bits)

/-- A range of spec versions; without upper end it is open. -/
structure Range where
  lo : Nat
  hi : Option Nat

def Range.Has (r : Range) (v : Int) : Prop := (r.lo : Int) ≤ v ∧ ∀ h, r.hi = some h → v ≤ (h : Int)

/-- One registration: a name, possibly for a range of versions only, and what it is defined as. -/
structure Entry where
  name : Str
  range : Option Range
  cls : Cls

/-- Upper end of a range text: a numeral, or `?` for an open range. -/
def UpperText : Option Nat → Str → Prop
  | some h, t => _root_.Spec.IsNumeral t h
  | none, t => t = b!"?"

/-- The text of a range as written after `#`. -/
def RangeText (r : Range) (t : Str) : Prop :=
  ∃ lo hi, _root_.Spec.IsNumeral lo r.lo ∧ UpperText r.hi hi ∧ t = lo ++ b!"-" ++ hi

/-- The key under which an entry is written. -/
def KeyText (e : Entry) (key : Str) : Prop :=
  match e.range with
  | none => key = e.name
  | some r => ∃ t, RangeText r t ∧ key = e.name ++ b!"#" ++ t

/-- `c` is what the earliest entry of this name with a range containing `v` says. -/
inductive FirstRange (s : Str) (v : Int) : List Entry → Cls → Prop where
  | here (e : Entry) (r : Range) (l : List Entry) (hn : SameName e.name s) (hr : e.range = some r) (hv : r.Has v) :
      FirstRange s v (e :: l) e.cls
  | later (e : Entry) (l : List Entry) (c : Cls) (hno : ∀ r, SameName e.name s → e.range = some r → ¬ r.Has v)
      (h : FirstRange s v l c) : FirstRange s v (e :: l) c

/-- No entry of this name has a range containing `v`. -/
def NoRange (s : Str) (v : Int) (l : List Entry) : Prop :=
  ∀ e ∈ l, ∀ r, SameName e.name s → e.range = some r → ¬ r.Has v

/-- `c` is what the latest entry of this name without range says. -/
inductive LastPlain (s : Str) : List Entry → Cls → Prop where
  | here (e : Entry) (l : List Entry) (hn : SameName e.name s) (hr : e.range = none)
      (hno : ∀ e' ∈ l, SameName e'.name s → e'.range ≠ none) : LastPlain s (e :: l) e.cls
  | later (e : Entry) (l : List Entry) (c : Cls) (h : LastPlain s l c) : LastPlain s (e :: l) c

/-- No entry of this name without range. -/
def NoPlain (s : Str) (l : List Entry) : Prop := ∀ e ∈ l, SameName e.name s → e.range ≠ none

end Spec

open ScaleGo.Spec

/-- Registering one after the other, each with its own call of `RegCustomTypes`. -/
def registerAll (fuel : Nat) : RegState → List (Str × TypeDef) → Res RegState
  | st, [] => .ok st
  | st, (k, d) :: l => do
    let st ← regCustomTypes fuel st [(k, d)]
    registerAll fuel st l

theorem mappingRows_pairs (fs : List (Str × Str)) : mappingRows (fs.map (fun p => [p.1, p.2])) = .ok fs := by
  induction fs with
  | nil => rfl
  | cons p fs ih => simp [mappingRows, ih]

/-- A definition without V14 mark is registered under its lower-case key, whatever else is in the registry. -/
theorem regPlain_defines (st : RegState) (key : Str) {d : TypeDef} {c : Cls} (h : Defines d c) :
    regPlain st key d = .ok { st with env := regCustomKey st.env key c } := by
  cases h with
  | struct fs hk hf hm => simp [regPlain, hk, hm, mappingRows_pairs, newStruct, hf]
  | emptyStruct hk hm => simp [regPlain, hk, hm, mappingRows, newStruct]
  | enum fs hk hf hm => simp [regPlain, hk, hm, mappingRows_pairs, newStruct, hf]
  | plainEnum hk hm => simp [regPlain, hk, hm, mappingRows, newStruct]
  | set hk => simp [regPlain, hk]

theorem Spec.Defines.kind_ne {d : TypeDef} {c : Cls} (h : Defines d c) : d.kind ≠ b!"string" := by
  cases h <;> simp_all

theorem regEntry_defines (fuel : Nat) (all : List (Str × TypeDef)) (st : RegState) (key : Str) {d : TypeDef} {c : Cls}
    (hv : d.v14 = false) (h : Defines d c) :
    regEntry fuel all st key d = .ok (some { st with env := regCustomKey st.env (toLower key) c }) := by
  unfold regEntry v14Key
  simp only [hv, if_true, Res.ok_bind]
  rw [if_neg h.kind_ne, regPlain_defines _ _ h]
  rfl

theorem regCustomTypes_one (fuel : Nat) (st : RegState) (key : Str) {d : TypeDef} {c : Cls}
    (hv : d.v14 = false) (h : Defines d c) :
    regCustomTypes fuel st [(key, d)] = .ok { st with env := regCustomKey st.env (toLower key) c } := by
  unfold regCustomTypes regLoop
  rw [regEntry_defines fuel _ st key hv h]
  rfl

theorem splitSepAux_one (c : UInt8) : ∀ (a cur r : Str), c ∉ a →
    splitSepAux [c] 0 cur (a ++ c :: r) = (cur.reverse ++ a) :: splitSep r [c] := by
  intro a
  induction a with
  | nil =>
    intro cur r _
    simp [splitSepAux, splitSep]
  | cons x a ih =>
    intro cur r h
    simp only [List.mem_cons, not_or] at h
    rw [List.cons_append]
    unfold splitSepAux
    rw [if_neg (by simp [List.isPrefixOf, h.1]), ih _ _ h.2]
    simp

/-- Splitting at a single byte. -/
theorem splitSep_one (c : UInt8) (a r : Str) (h : c ∉ a) : splitSep (a ++ c :: r) [c] = a :: splitSep r [c] := by
  have := splitSepAux_one c a [] r h
  simpa [splitSep] using this

theorem numeral_absent {s : Str} {n : Nat} (h : _root_.Spec.IsNumeral s n) (c : UInt8) (hc : c.toNat < 48 ∨ 57 < c.toNat) :
    c ∉ s := by
  intro hm
  have := h.2.1 c hm
  omega

theorem stringToInt_numeral {s : Str} {n : Nat} (h : _root_.Spec.IsNumeral s n) (hn : n < 2 ^ 32) : stringToInt s = n := by
  unfold stringToInt
  rw [decToInt_of_digits (isNumeral_digits h), isNumeral_decToNat h]
  simp only [Option.map_some]
  rw [if_pos]
  · rfl
  · simp only [Int.ofNat_eq_natCast]; omega

theorem toLower_append (a b : Str) : toLower (a ++ b) = toLower a ++ toLower b := by simp [toLower]

theorem toLower_fixed {s : Str} (h : ∀ c ∈ s, c.toNat < 65 ∨ 90 < c.toNat) : toLower s = s := by
  unfold toLower
  conv_rhs => rw [← List.map_id s]
  refine List.map_congr_left (fun c hc => ?_)
  unfold lowerByte
  have := h c hc
  rw [if_neg (by omega)]
  rfl

theorem upperText_low {h : Option Nat} {t : Str} (ht : UpperText h t) :
    (∀ c ∈ t, c.toNat < 65 ∨ 90 < c.toNat) ∧ 45 ∉ t ∧ 35 ∉ t := by
  cases h with
  | some n =>
    refine ⟨fun c hc => ?_, numeral_absent ht 45 (by decide), numeral_absent ht 35 (by decide)⟩
    have := ht.2.1 c hc
    omega
  | none =>
    obtain rfl : t = _ := ht
    decide

theorem rangeText_low {r : Range} {t : Str} (h : RangeText r t) :
    (∀ c ∈ t, c.toNat < 65 ∨ 90 < c.toNat) ∧ 35 ∉ t := by
  obtain ⟨lo, hi, hlo, hhi, rfl⟩ := h
  obtain ⟨h1, h2, h3⟩ := upperText_low hhi
  have h4 := numeral_absent hlo 35 (by decide)
  constructor
  · intro c hc
    simp only [List.mem_append, List.mem_singleton] at hc
    rcases hc with (hc | rfl) | hc
    · have := hlo.2.1 c hc; omega
    · decide
    · exact h1 c hc
  · simp [h3, h4]

/-- Range bounds as the code reads them. -/
def Spec.Range.codeHi (r : Range) : Int := match r.hi with | some h => h | none => 99999999

/-- Spec versions are unsigned 32-bit numbers. -/
def Spec.Range.Fits (r : Range) : Prop := r.lo < 2 ^ 32 ∧ ∀ h, r.hi = some h → h < 2 ^ 32

theorem specialRange_text {r : Range} {t : Str} (hf : r.Fits) (h : RangeText r t) :
    specialRange t = ((r.lo : Int), r.codeHi) := by
  obtain ⟨lo, hi, hlo, hhi, rfl⟩ := h
  have h45 := numeral_absent hlo 45 (by decide)
  obtain ⟨_, h2, _⟩ := upperText_low hhi
  unfold specialRange
  rw [show lo ++ b!"-" ++ hi = lo ++ 45 :: hi by simp, splitSep_one 45 lo hi h45,
    splitSep_absent 45 (by decide) h2]
  simp only [stringToInt_numeral hlo hf.1]
  unfold Spec.Range.codeHi
  cases hr : r.hi with
  | some n =>
    rw [hr] at hhi
    have hne : hi ≠ b!"?" := by
      rintro rfl
      have := hhi.2.1 63 (by simp)
      simp at this
    simp only [if_neg hne, stringToInt_numeral hhi (hf.2 n hr)]
  | none =>
    rw [hr] at hhi
    simp only [if_pos (show hi = b!"?" from hhi)]

/-- What the code stores for an entry. -/
def storeEntry (env : Env) (e : Entry) : Env :=
  match e.range with
  | none => setReg env (toLower e.name) e.cls
  | some r => addSpecial env (toLower e.name) ((r.lo : Int), r.codeHi, e.cls)

/-- Names are identifiers and versions are unsigned 32-bit numbers. -/
def Spec.Entry.Fits (e : Entry) : Prop := PlainName e.name ∧ ∀ r, e.range = some r → r.Fits

/-- Names without `#` and versions that are unsigned 32-bit numbers. -/
def Spec.Entry.Keyed (e : Entry) : Prop := 35 ∉ e.name ∧ ∀ r, e.range = some r → r.Fits

theorem Spec.Entry.Fits.keyed {e : Entry} (h : e.Fits) : e.Keyed := ⟨h.1.absent.2.1, h.2⟩

theorem hash_lower {s : Str} (h : 35 ∉ s) : 35 ∉ toLower s := by
  have : ∀ b : UInt8, lowerByte b = 35 → b = 35 :=
    fun b => forall_byte (P := fun b => lowerByte b = 35 → b = 35) (by decide +kernel) b
  intro hm
  simp only [toLower, List.mem_map] at hm
  obtain ⟨b, hb, hb'⟩ := hm
  exact h (this b hb' ▸ hb)

theorem regCustomKey_entry (env : Env) {e : Entry} {key : Str} (hf : e.Keyed) (hk : KeyText e key) :
    regCustomKey env (toLower key) e.cls = storeEntry env e := by
  unfold KeyText at hk
  unfold storeEntry
  have h35 := hash_lower hf.1
  cases hr : e.range with
  | none =>
    rw [hr] at hk
    simp only at hk
    subst hk
    unfold regCustomKey
    rw [splitSep_absent 35 (by decide) h35]
  | some r =>
    rw [hr] at hk
    obtain ⟨t, ht, rfl⟩ := hk
    obtain ⟨hl, h35t⟩ := rangeText_low ht
    rw [toLower_append, toLower_append, toLower_fixed hl]
    unfold regCustomKey
    rw [show toLower e.name ++ toLower b!"#" ++ t = toLower e.name ++ 35 :: t by simp [toLower, lowerByte],
      splitSep_one 35 _ _ h35, splitSep_absent 35 (by decide) h35t]
    simp only [specialRange_text (hf.2 r hr) ht]

/-- `r` is the definition of `e` as given to `RegCustomTypes`. -/
def Spec.Registers (e : Entry) (r : Str × TypeDef) : Prop := KeyText e r.1 ∧ Defines r.2 e.cls ∧ r.2.v14 = false

theorem registerAll_entries (fuel : Nat) (st : RegState) (es : List Entry) (rs : List (Str × TypeDef))
    (hf : ∀ e ∈ es, e.Fits) (h : List.Forall₂ Registers es rs) :
    registerAll fuel st rs = .ok { st with env := es.foldl storeEntry st.env } := by
  induction h generalizing st with
  | nil => rfl
  | @cons e r es rs hr _ ih =>
    obtain ⟨k, d⟩ := r
    obtain ⟨h1, h2, h3⟩ := hr
    unfold registerAll
    rw [regCustomTypes_one fuel st k h3 h2, regCustomKey_entry st.env (hf e (by simp)).keyed h1]
    simp only [Res.ok_bind]
    rw [ih _ (fun e he => hf e (by simp [he]))]
    rfl

/-! ## Lookups -/

theorem storeEntry_special (env : Env) (e : Entry) (k : Str) :
    (storeEntry env e).special k =
      env.special k ++ (match e.range with
        | some r => if toLower e.name = k then [((r.lo : Int), r.codeHi, e.cls)] else []
        | none => []) := by
  unfold storeEntry
  cases e.range with
  | none => simp [setReg]
  | some r =>
    simp only [addSpecial]
    by_cases h : toLower e.name = k
    · subst h; simp
    · simp [h, Ne.symm h]

theorem storeEntry_reg (env : Env) (e : Entry) (k : Str) :
    (storeEntry env e).reg k = if e.range = none ∧ toLower e.name = k then some e.cls else env.reg k := by
  unfold storeEntry
  cases e.range with
  | none =>
    simp only [setReg]
    by_cases h : toLower e.name = k
    · subst h; simp
    · simp [h, Ne.symm h]
  | some r => simp [addSpecial]

theorem storeAll_ext (env : Env) (es : List Entry) : (es.foldl storeEntry env).ext = env.ext := by
  induction es generalizing env with
  | nil => rfl
  | cons e es ih =>
    rw [List.foldl_cons, ih]
    unfold storeEntry
    split <;> rfl

theorem findSpecial_append (v : Int) (a b : List (Int × Int × Cls)) :
    findSpecial v (a ++ b) = (findSpecial v a).or (findSpecial v b) := by
  induction a with
  | nil => simp [findSpecial]
  | cons x a ih =>
    obtain ⟨lo, hi, c⟩ := x
    simp only [List.cons_append, findSpecial]
    split
    · simp
    · exact ih

/-- The open end is read as 99999999. -/
theorem range_has_iff {r : Range} {v : Int} (hv : v ≤ 99999999) : r.Has v ↔ (v ≥ (r.lo : Int) ∧ v ≤ r.codeHi) := by
  unfold Spec.Range.Has Spec.Range.codeHi
  cases r.hi <;> simp [hv]

theorem storeAll_first {s : Str} {v : Int} {es : List Entry} {c : Cls} (hv : v ≤ 99999999) (h : FirstRange s v es c) :
    ∀ env : Env, findSpecial v (env.special (toLower s)) = none →
      findSpecial v ((es.foldl storeEntry env).special (toLower s)) = some c := by
  have keep : ∀ (l : List Entry) (env : Env) (c : Cls), findSpecial v (env.special (toLower s)) = some c →
      findSpecial v ((l.foldl storeEntry env).special (toLower s)) = some c := by
    intro l
    induction l with
    | nil => intro env c h; exact h
    | cons e l ih =>
      intro env c h
      rw [List.foldl_cons]
      refine ih _ c ?_
      rw [storeEntry_special, findSpecial_append, h]
      rfl
  induction h with
  | here e r l hn hr hh =>
    intro env hnone
    rw [List.foldl_cons]
    refine keep l _ _ ?_
    rw [storeEntry_special, findSpecial_append, hnone, hr]
    have := (toLower_eq_iff _ _).2 hn
    simp only [this, if_true, Option.none_or, findSpecial]
    rw [if_pos ((range_has_iff hv).1 hh)]
  | later e l c hno _ ih =>
    intro env hnone
    rw [List.foldl_cons]
    refine ih _ ?_
    rw [storeEntry_special, findSpecial_append, hnone, Option.none_or]
    cases hr : e.range with
    | none => rfl
    | some r =>
      simp only
      split
      · rename_i hn
        have := hno r ((toLower_eq_iff _ _).1 hn) hr
        rw [range_has_iff hv] at this
        simp only [findSpecial, if_neg this]
      · rfl

theorem storeAll_none {s : Str} {v : Int} {es : List Entry} (hv : v ≤ 99999999) (h : NoRange s v es) (env : Env) :
    findSpecial v ((es.foldl storeEntry env).special (toLower s)) = findSpecial v (env.special (toLower s)) := by
  induction es generalizing env with
  | nil => rfl
  | cons e l ih =>
    rw [List.foldl_cons, ih (fun e he => h e (by simp [he])), storeEntry_special, findSpecial_append]
    cases hr : e.range with
    | none => simp [findSpecial]
    | some r =>
      simp only
      split
      · rename_i hn
        have := h e (by simp) r ((toLower_eq_iff _ _).1 hn) hr
        rw [range_has_iff hv] at this
        simp only [findSpecial, if_neg this, Option.or_none]
      · simp [findSpecial]

theorem storeAll_noPlain {s : Str} {es : List Entry} (h : NoPlain s es) (env : Env) :
    (es.foldl storeEntry env).reg (toLower s) = env.reg (toLower s) := by
  induction es generalizing env with
  | nil => rfl
  | cons e l ih =>
    rw [List.foldl_cons, ih (fun e he => h e (by simp [he])), storeEntry_reg, if_neg]
    rintro ⟨h1, h2⟩
    exact h e (by simp) ((toLower_eq_iff _ _).1 h2) h1

theorem storeAll_last {s : Str} {es : List Entry} {c : Cls} (h : LastPlain s es c) :
    ∀ env : Env, (es.foldl storeEntry env).reg (toLower s) = some c := by
  induction h with
  | here e l hn hr hno =>
    intro env
    rw [List.foldl_cons, storeAll_noPlain hno, storeEntry_reg, if_pos ⟨hr, (toLower_eq_iff _ _).2 hn⟩]
  | later e l c _ ih => intro env; rw [List.foldl_cons]; exact ih _

end ScaleGo
