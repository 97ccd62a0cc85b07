import Verif.Props.C10
import Verif.Props.C11
import Verif.Props.C13
import Verif.Props.C16
import Verif.Props.C21
import Verif.Props.C22
import Verif.Props.C23
import Verif.Props.C25
import Verif.Props.C27
import Verif.Props.C48
import Verif.Props.C50
import Verif.Props.C51

/-! # C28: SCALE conformance for all composite types

`Shape` is one layer of a type description; parts are referred to by their type texts, so that recursive definitions are
possible. `Scale` assigns to a type text the byte strings of its values according to the SCALE specification, together with
a Go value to encode and the Go value a decode should return. -/

namespace Spec
open ScaleGo (Val Cls Str uintAccepts uintValue Denotes U128Input GoRange compactU32Accepts CompactInput shown)

/-- What a variant of an enum carries: nothing, one value of a type, or named fields. Types are referred to by an `α`. -/
inductive Payload (α : Type)
  | unit
  | one (ty : α)
  | fields (fs : List (Str × α))

/-- One layer of a type. The variants of an enum are given with their index. -/
inductive Shape (α : Type)
  | uint (w : Nat)
  | u128
  | u256
  | int (w : Nat)
  | bool
  | null
  | unit
  | compact32
  | compact (bound : Nat) (decimal : Bool)
  | bytes (kind : Cls)
  | hash (n : Nat)
  | account
  | balance
  | era
  | byteArray (n : Nat)
  | bitVec
  | names (cases : List (Str × Nat))
  | optionBool
  | same (el : α)
  | seq (el : α)
  | option (el : α)
  | struct (fields : List (Str × α))
  | enum (variants : List (Nat × Str × Payload α))
  | array (n : Nat) (el : α)
  | result (okTy errTy : α)

/-- Bytes `b` of the Go value `v` for types without parts; decoding should return `r`. -/
def Leaf {α : Type} : Shape α → Val → Val → Str → Prop
  | .uint w, v, r, b => ∃ n : Nat, n < 2 ^ (8 * w) ∧ uintAccepts w v = true ∧ Denotes v n ∧ r = uintValue w n ∧ b = leBytes w n
  | .u128, v, r, b => ∃ (n : Nat) (s : Str), n < 2 ^ 128 ∧ U128Input v n ∧ IsNumeral s n ∧ r = .str s ∧ b = leBytes 16 n
  | .u256, v, r, b =>
    ∃ n : Nat, n < 2 ^ 256 ∧ ((∃ c e, v = .dec c e) ∨ ∃ i, v = .big i) ∧ Denotes v n ∧ r = .dec n 0 ∧ b = leBytes 32 n
  | .int w, v, r, b => ∃ i w', SignedRange (8 * w) i ∧ v = .sint w' i ∧ GoRange (.sint w' i) ∧ r = .big i ∧ b = signedBytes w i
  | .bool, v, r, b => ∃ x : Bool, v = .bool x ∧ r = .bool x ∧ b = [if x then 1 else 0]
  | .null, _, r, b => r = .nil ∧ b = []
  | .unit, _, r, b => r = .str b!"NULL" ∧ b = []
  | .compact32, v, r, b => ∃ n : Nat, n < 2 ^ 32 ∧ compactU32Accepts v = true ∧ Denotes v n ∧ r = .int n ∧ IsCompact n b
  | .compact bound decimal, v, r, b =>
    ∃ n : Nat, n < bound ∧ CompactInput v n ∧ r = (if decimal then .dec n 0 else .uint 8 n) ∧ IsCompact n b
  | .bytes kind, v, r, b => ∃ c p, p.length < 2 ^ 32 ∧ IsCompact p.length c ∧ v = .str (shown kind p) ∧ r = v ∧ b = c ++ p
  | .hash n, v, r, b => b.length = n ∧ v = .str (b!"0x" ++ hexText b) ∧ r = v
  | .account, v, r, b => b.length = 32 ∧ v = .str (b!"0x" ++ hexText b) ∧ r = v
  | .balance, v, r, b => ∃ n : Nat, n < 2 ^ 128 ∧ U128Input v n ∧ r = .dec n 0 ∧ b = leBytes 16 n
  | .era, v, r, b => (b = [0] ∨ ∃ x y, x ≠ 0 ∧ b = [x, y]) ∧ v = .str (hexText b) ∧ r = v
  | .byteArray n, v, r, b => b.length = n ∧ v = .str (shown .bytes b) ∧ r = v
  | .bitVec, v, r, b =>
    ∃ n c p, n < 2 ^ 32 ∧ p.length = (n + 7) / 8 ∧ IsCompact n c ∧ v = .str (bitText p) ∧ r = v ∧ b = c ++ p
  | .names cases, v, r, b => ∃ name n, (name, n) ∈ cases ∧ v = .str name ∧ r = v ∧ b = [UInt8.ofNat n]
  | .optionBool, v, r, b => (v = .nil ∧ r = .nil ∧ b = [0]) ∨ ∃ x : Bool, v = .bool x ∧ r = .bool x ∧ b = [if x then 1 else 2]
  | _, _, _, _ => False

/-- How a decoded list is represented: nil when empty. -/
def listValue : List Val → Val
  | [] => .nilSlice
  | l => .slice l

/-- A part of a composite value: field name, type, Go value to encode, Go value decoded, bytes. -/
structure Part (α : Type) where
  name : Str
  ty : α
  inp : Val
  out : Val
  bytes : Str

def allBytes {α : Type} (ps : List (Part α)) : Str := (ps.map (·.bytes)).flatten
def inputs {α : Type} (ps : List (Part α)) : List Val := ps.map (·.inp)
def outputs {α : Type} (ps : List (Part α)) : List Val := ps.map (·.out)
def fieldTypes {α : Type} (ps : List (Part α)) : List (Str × α) := ps.map fun p => (p.name, p.ty)
def fieldOutputs {α : Type} (ps : List (Part α)) : List (Str × Val) := ps.map fun p => (p.name, p.out)

/-- `Scale shape ok ty v r b`: the SCALE bytes of `v` as a `ty` are `b`; decoding should return `r`. Every layer also meets
the side condition `ok`. -/
inductive Scale {α : Type} (shape : α → Shape α → Prop) (ok : Shape α → Val → Val → Str → Prop) : α → Val → Val → Str → Prop
  | leaf {ty sh v r b} : shape ty sh → Leaf sh v r b → ok sh v r b → Scale shape ok ty v r b
  | same {ty el v r b} : shape ty (.same el) → Scale shape ok el v r b → Scale shape ok ty v r b
  | seq {ty el c} (ps : List (Part α)) : shape ty (.seq el) → ps.length < 2 ^ 32 → IsCompact ps.length c →
      (∀ p ∈ ps, Scale shape ok el p.inp p.out p.bytes) →
      ok (.seq el) (.slice (inputs ps)) (listValue (outputs ps)) (c ++ allBytes ps) →
      Scale shape ok ty (.slice (inputs ps)) (listValue (outputs ps)) (c ++ allBytes ps)
  | none {ty el} : shape ty (.option el) → Scale shape ok ty .nil .nil [0]
  | some {ty el v r b} : shape ty (.option el) → Scale shape ok el v r b → ok (.option el) v r (1 :: b) →
      Scale shape ok ty v r (1 :: b)
  | struct {ty m} (ps : List (Part α)) : shape ty (.struct (fieldTypes ps)) → (ps.map (·.name)).Nodup →
      (m.map Prod.fst).Nodup → (∀ p ∈ ps, (p.name, p.inp) ∈ m) → (∀ p ∈ ps, Scale shape ok p.ty p.inp p.out p.bytes) →
      Scale shape ok ty (.map m) (.map (fieldOutputs ps)) (allBytes ps)
  | unitVariant {ty vs v} (i : Nat) (name : Str) : shape ty (.enum vs) → (i, name, .unit) ∈ vs →
      Scale shape ok ty (.map [(name, v)]) (.map [(name, .str b!"NULL")]) [UInt8.ofNat i]
  | variant {ty vs t v r b} (i : Nat) (name : Str) : shape ty (.enum vs) → (i, name, .one t) ∈ vs →
      Scale shape ok t v r b → Scale shape ok ty (.map [(name, v)]) (.map [(name, r)]) (UInt8.ofNat i :: b)
  | fields {ty vs m} (i : Nat) (name : Str) (ps : List (Part α)) : shape ty (.enum vs) →
      (i, name, .fields (fieldTypes ps)) ∈ vs → (ps.map (·.name)).Nodup → (m.map Prod.fst).Nodup →
      (∀ p ∈ ps, (p.name, p.inp) ∈ m) → (∀ p ∈ ps, Scale shape ok p.ty p.inp p.out p.bytes) →
      Scale shape ok ty (.map [(name, .map m)]) (.map [(name, .map (fieldOutputs ps))]) (UInt8.ofNat i :: allBytes ps)
  | array {ty n el} (ps : List (Part α)) : shape ty (.array n el) → ps.length = n →
      (∀ p ∈ ps, Scale shape ok el p.inp p.out p.bytes) →
      ok (.array n el) (.slice (inputs ps)) (.slice (outputs ps)) (allBytes ps) →
      Scale shape ok ty (.slice (inputs ps)) (.slice (outputs ps)) (allBytes ps)
  | resultOk {ty a e v r b} : shape ty (.result a e) → Scale shape ok a v r b → ok (.result a e) v r b →
      Scale shape ok ty (.map [(b!"Ok", v)]) (.map [(b!"Ok", r)]) (0 :: b)
  | resultErr {ty a e v r b} : shape ty (.result a e) → Scale shape ok e v r b → ok (.result a e) v r b →
      Scale shape ok ty (.map [(b!"Error", v)]) (.map [(b!"Error", r)]) (1 :: b)

end Spec

namespace ScaleGo
open Spec (Shape Payload Part Scale Leaf allBytes inputs outputs fieldTypes fieldOutputs listValue)

/-- The text `u` of a variant of an enum definition of the library describes the payload. -/
def VariantIs (env : Env) (u : Str) : Payload Str → Prop
  | .unit => False
  | .one t => u = t ∧ t ≠ [] ∧ ¬ LooksLikeRows t
  | .fields fs => LooksLikeRows u ∧ 4 < u.length ∧ fs ≠ [] ∧ env.ext.rows u = some (fs.map fun f => [f.1, f.2])

/-- Inner classes of `Compact<T>`: bound of the values and whether a decimal is returned. -/
def compactKinds : List (Cls × Nat × Bool) := [(.u32, 2 ^ 32, false), (.u64, 2 ^ 64, false), (.u128, 2 ^ 128, true), (.balance, 2 ^ 128, true)]

/-- The library's class `cls`, with generic arguments `s` for decoding and `s'` for encoding, is meant to be of shape `sh`. -/
def ClassIs (env : Env) (cls : Cls) (s s' : Str) : Shape Str → Prop
  | .uint w => w ∈ [1, 2, 4, 8] ∧ cls = uintClass w
  | .u128 => cls = .u128
  | .u256 => cls = .u256
  | .int w => w ∈ [1, 2, 4, 8, 16, 32] ∧ cls = .intFixed w
  | .bool => cls = .bool
  | .null => False
  | .unit => cls = .empty
  | .same _ => False
  | .compact32 => cls = .compactU32
  | .compact bound decimal => ∃ t icls isub, cls = .compact t ∧ effSub t s ≠ [] ∧ (icls, bound, decimal) ∈ compactKinds ∧
      Resolves env [] 0 (effSub t s) icls isub
  | .bytes kind => kind ∈ [.bytes, .hexBytes, .string] ∧ cls = kind
  | .hash n => cls = .hash n
  | .account => cls = .accountId
  | .balance => cls = .balance
  | .era => cls = .era
  | .byteArray n => cls = .fixedU8 n ∨ 0 < n ∧ ∃ el, cls = .fixedArray n el ∧ Spec.asciiLower el = b!"u8"
  | .bitVec => cls = .bitVec
  | .names cases => (∃ vs tm, cls = .enum vs (some tm) ∧ CLike tm ∧ cases = tm.map (fun p => (p.1, Spec.digitsValue p.2)) ∧
      (cases.map Prod.fst).Nodup ∧ (cases.map Prod.snd).Nodup ∧ ∀ p ∈ cases, p.2 < 256) ∨
      ∃ vs, cls = .enum vs none ∧ cases = vs.zipIdx ∧ vs.Nodup ∧ [] ∉ vs ∧ vs.length ≤ 256
  | .optionBool => ∃ t, cls = .option t ∧ effSub t s = b!"bool" ∧ effSub t s' = b!"bool"
  | .seq el => vecElem cls s = some el ∧ vecElem cls s' = some el
  | .option el => el ≠ [] ∧ el ≠ b!"bool" ∧ ∃ t, cls = .option t ∧ effSub t s = el ∧ effSub t s' = el
  | .struct fs => cls = .struct (some fs) ∨ fs = [] ∧ cls = .struct none
  | .enum variants => ∃ vs tm, cls = .enum vs (some tm) ∧ ¬ CLike tm ∧ ∀ v ∈ variants, v.1 < 256 ∧
      ∃ u, tm[v.1]? = some (v.2.1, u) ∧ (∀ j w, tm[j]? = some (v.2.1, w) → j = v.1) ∧ VariantIs env u v.2.2
  | .array n el => cls = .fixedArray n el ∧ Spec.asciiLower el ≠ b!"u8"
  | .result a e => ∃ t, cls = .result t ∧ effSub t s = a ++ b!"," ++ e ∧ effSub t s' = a ++ b!"," ++ e

/-- The library looks `ty` up, for decoding and for encoding, as a type of shape `sh`. -/
def HasShape (env : Env) (ctx : Ctx) (ectx : ECtx) (ty : Str) (sh : Shape Str) : Prop :=
  (∃ cls s s', Resolves env ctx.module ctx.spec ty cls s ∧ EncResolves env ectx ty cls s' ∧ ClassIs env cls s s' sh) ∨
  (sh = .null ∧ (∃ s, Resolves env ctx.module ctx.spec ty .null s) ∧ Spec.asciiLower ty = b!"null")

/-- Every type text that `shape` describes is looked up accordingly. -/
def Describes (env : Env) (ctx : Ctx) (ectx : ECtx) (shape : Str → Shape Str → Prop) : Prop :=
  ∀ ty sh, shape ty sh → HasShape env ctx ectx ty sh

/-- The full claim. -/
def C28Claim : Prop :=
  ∀ (env : Env) (ctx : Ctx) (ectx : ECtx) (shape : Str → Shape Str → Prop), LenOK env ctx → LenEncOK env →
    Describes env ctx ectx shape → ∀ (ty : Str) (v r : Val) (b : Str), Scale shape (fun _ _ _ _ => True) ty v r b →
    Encodes env ectx ty v b ∧ Decodes env ctx ty b r []

/-- Layers for which the library follows the specification. What is excluded, by layer: `i8`, wide signed integers and the
smallest signed value; compacts from 2^30 (`Compact<u32>`) and 2^63; byte strings of 2^30 bytes and more, texts that begin
with `0x`, non-text strings; the largest balance; bit sequences of other than one bit; lists longer than 524288; `Some` of
a value that Go-wise is empty; empty arrays; `Result` of types that are not `plain`. -/
def SupportedBy {α : Type} (plain : α → Prop) : Shape α → Val → Val → Str → Prop
  | .int w, v, r, _ => w ∈ [2, 4, 8] ∧ (∃ w' i, v = .sint w' i ∧ w ≤ w') ∧ r ≠ .big (-(2 ^ (8 * w - 1)))
  | .compact32, _, r, _ => ∀ n : Nat, r = .int n → n < 2 ^ 30
  | .compact _ _, _, r, _ => ∀ n : Nat, r = .uint 8 n ∨ r = .dec n 0 → n < 2 ^ 63
  | .bytes kind, _, _, b => ∀ c p, b = c ++ p → Spec.IsCompact p.length c →
      p.length < 2 ^ 30 ∧ ¬ (kind = .bytes ∧ Spec.IsText p ∧ ∃ t, p = b!"0x" ++ t) ∧ ¬ (kind = .string ∧ ¬ Spec.IsText p)
  | .balance, _, r, _ => r ≠ .dec (2 ^ 128 - 1) 0
  | .byteArray _, _, _, b => ¬ (Spec.IsText b ∧ ∃ t, b = b!"0x" ++ t)
  | .bitVec, _, _, b => ∃ x, b = [4, x]
  | .seq _, _, r, _ => ∀ l, r = .slice l → l.length ≤ 524288
  | .option _, v, _, _ => ¬ CountsAsNone v
  | .array n _, _, _, _ => 0 < n
  | .result a e, _, _, _ => plain a ∧ plain e
  | _, _, _, _ => True

/-- The same for type texts: a `Result` is supported when the texts of its types contain no commas. -/
abbrev Supported : Shape Str → Val → Val → Str → Prop := SupportedBy fun t => (44 : UInt8) ∉ t

theorem digitByte_of {c : UInt8} (h : 48 ≤ c.toNat ∧ c.toNat ≤ 57) : digitByte (c.toNat - 48) = c := by
  have := forall_byte (P := fun c => 48 ≤ c.toNat ∧ c.toNat ≤ 57 → digitByte (c.toNat - 48) = c) (by decide +kernel)
  exact this c h

theorem numeral_eq : ∀ (k : Nat) (s : Str) (n : Nat), s.length = k → Spec.IsNumeral s n → s = natToDec n := by
  intro k
  induction k with
  | zero => intro s n hl h; exact absurd (List.length_eq_zero_iff.mp hl) h.1
  | succ k ih =>
    intro s n hl h
    obtain ⟨hne, hd, hz, hv⟩ := h
    have hs := (List.dropLast_concat_getLast hne).symm
    generalize s.dropLast = s' at hs
    generalize s.getLast hne = c at hs
    subst hs
    have hc := hd c (by simp)
    have hval : Spec.digitsValue s' * 10 + (c.toNat - 48) = n := by
      rw [← hv]; simp [Spec.digitsValue]
    cases s' with
    | nil =>
      simp [Spec.digitsValue] at hval
      rw [List.nil_append, natToDec_lt (by omega), ← hval, digitByte_of hc]
    | cons x s'' =>
      have hx : x ≠ 48 := by
        rintro rfl
        have := hz (by simp)
        simp at this
      have h' : Spec.IsNumeral (x :: s'') (Spec.digitsValue (x :: s'')) :=
        ⟨by simp, fun y hy => hd y (by simp at hy ⊢; tauto), fun e => absurd (by simpa using e) hx, rfl⟩
      have e := ih (x :: s'') _ (by simp at hl ⊢; omega) h'
      have hpos : Spec.digitsValue (x :: s'') ≠ 0 := by
        intro h0
        rw [h0] at e
        exact hx (by have : natToDec 0 = [48] := by decide
                     rw [this] at e; exact (List.cons.inj e).1)
      rw [natToDec_ge (by omega : 10 ≤ n), show n / 10 = Spec.digitsValue (x :: s'') by omega, ← e,
        show n % 10 = c.toNat - 48 by omega, digitByte_of hc]

/-- A number has one numeral. -/
theorem numeral_unique {s t : Str} {n : Nat} (hs : Spec.IsNumeral s n) (ht : Spec.IsNumeral t n) : s = t :=
  (numeral_eq _ s n rfl hs).trans (numeral_eq _ t n rfl ht).symm

theorem bool_decodes {env : Env} {ctx : Ctx} {ty s : Str} (x : Bool) (h : Resolves env ctx.module ctx.spec ty .bool s) :
    Decodes env ctx ty [if x then 1 else 0] (.bool x) [] := by
  refine decodes_of_read h fun r pre suf cs hl => ?_
  show processBool _ = _
  unfold processBool
  rw [nextBytes_at pre _ suf cs 1 (by simp) hl]
  cases x <;> rfl

theorem bool_encodes {env : Env} {ctx : ECtx} {ty s : Str} (x : Bool) (h : EncResolves env ctx ty .bool s) :
    Encodes env ctx ty (.bool x) [if x then 1 else 0] := by
  refine encodes_of_cls h fun r => ?_
  cases x <;> rfl

theorem null_decodes {env : Env} {ctx : Ctx} {ty s : Str} (h : Resolves env ctx.module ctx.spec ty .null s) :
    Decodes env ctx ty [] .nil [] := by
  refine decodes_of_read h fun r pre suf cs hl => ?_
  show Res.ok _ = _
  simp

theorem equalFold_null (ty : Str) : equalFold ty b!"Null" = true ↔ Spec.asciiLower ty = b!"null" := by
  unfold equalFold
  rw [toLower_eq_spec]
  have : toLower b!"Null" = b!"null" := by decide
  rw [this]
  simp

theorem null_encodes {env : Env} {ctx : ECtx} {ty : Str} (v : Val) (h : Spec.asciiLower ty = b!"null") :
    Encodes env ctx ty v [] := by
  refine ⟨1, fun n hn => ?_⟩
  obtain ⟨n, rfl⟩ : ∃ k, n = k + 1 := ⟨n - 1, by omega⟩
  rw [enc, if_pos ((equalFold_null ty).mpr h)]
  rfl

theorem leaf_holds {env : Env} {ctx : Ctx} {ectx : ECtx} (hL : LenOK env ctx) (hL' : LenEncOK env) {ty : Str} {sh : Shape Str} {v r : Val}
    {b : Str} (hsh : HasShape env ctx ectx ty sh) (hl : Leaf sh v r b) (hok : Supported sh v r b) :
    Encodes env ectx ty v b ∧ Decodes env ctx ty b r [] := by
  rcases hsh with ⟨cls, s, s', hD, hE, hc⟩ | ⟨rfl, ⟨s, hD⟩, hE⟩
  swap
  · obtain ⟨rfl, rfl⟩ := hl
    exact ⟨null_encodes v hE, null_decodes hD⟩
  cases sh with
  | uint w =>
    obtain ⟨n, hn, ha, hd, rfl, rfl⟩ := hl
    obtain ⟨hw, rfl⟩ := hc
    exact ⟨C07_encode env ectx ty w n s' v hw hn hE ha hd, C07_decode env ctx ty w n s hw hn hD⟩
  | u128 =>
    obtain ⟨n, t, hn, hi, hs, rfl, rfl⟩ := hl
    obtain rfl := hc
    obtain ⟨t', ht', hd⟩ := C10_decode env ctx ty s n hn hD
    rw [numeral_unique hs ht']
    exact ⟨C10_encode env ectx ty s' v n hn hE hi, hd⟩
  | u256 =>
    obtain ⟨n, hn, hi, hd, rfl, rfl⟩ := hl
    obtain rfl := hc
    exact ⟨C11_encode env ectx ty s' v n hn hE hi hd, C11_decode env ctx ty s n hn hD⟩
  | int w =>
    obtain ⟨i, w', hi, rfl, hg, rfl, rfl⟩ := hl
    obtain ⟨_, rfl⟩ := hc
    obtain ⟨hw, ⟨w2, i2, he, hww⟩, hmin⟩ := hok
    cases he
    exact C13_roundtrip_partial env ectx ctx ty s' s w w' i hw hww hi (fun e => hmin (by rw [e])) hE hD hg
  | bool =>
    obtain ⟨x, rfl, rfl, rfl⟩ := hl
    obtain rfl := hc
    exact ⟨bool_encodes x hE, bool_decodes x hD⟩
  | null => exact hc.elim
  | unit =>
    obtain ⟨rfl, rfl⟩ := hl
    obtain rfl := hc
    refine ⟨encodes_of_cls hE fun r => rfl, decodes_of_read hD fun r pre suf cs hl => ?_⟩
    show Res.ok _ = _
    simp
  | compact32 =>
    obtain ⟨n, hn, ha, hd, rfl, hb⟩ := hl
    obtain rfl := hc
    have hn' := hok n rfl
    obtain ⟨b', hb', he⟩ := C14_encode env ectx ty s' v n hn' hE ha hd
    obtain rfl := isCompact_unique hb hb'
    exact ⟨he, C14_decode env ctx ty s n b (by omega) hb hD⟩
  | compact bound decimal =>
    obtain ⟨n, hn, hi, rfl, hb⟩ := hl
    obtain ⟨t, icls, isub, rfl, hs, hk, hr⟩ := hc
    have hn' : n < 2 ^ 63 := hok n (by cases decimal <;> simp)
    have hin : CompactInner icls n (if decimal then .dec n 0 else .uint 8 n) := by
      simp only [compactKinds, List.mem_cons, Prod.mk.injEq, List.not_mem_nil, or_false] at hk
      rcases hk with ⟨rfl, rfl, rfl⟩ | ⟨rfl, rfl, rfl⟩ | ⟨rfl, rfl, rfl⟩ | ⟨rfl, rfl, rfl⟩ <;> exact ⟨hn, rfl⟩
    obtain ⟨b', hb', he, hd⟩ := C16_roundtrip_partial env ectx ctx ty t s s' isub icls n v _ hE hD hs hr hin hi hn'
    rw [isCompact_unique hb hb']
    exact ⟨he, hd⟩
  | bytes kind =>
    obtain ⟨c, p, hp, hcp, rfl, rfl, rfl⟩ := hl
    obtain ⟨hk, rfl⟩ := hc
    obtain ⟨h1, h2, h3⟩ := hok c p rfl hcp
    exact (C19_roundtrip_partial env ctx ectx ty s s' cls p c hk hD hE hL hL' h1 hcp h2 h3).symm
  | hash n =>
    obtain ⟨rfl, rfl, rfl⟩ := hl
    obtain rfl := hc
    exact ⟨C50_encode_hash env ectx ty s' _ _ b (isHexOf_decoded b) hE, C50_decode_hash env ctx ty s _ b rfl hD⟩
  | account =>
    obtain ⟨hb, rfl, rfl⟩ := hl
    obtain rfl := hc
    exact ⟨C50_encode_account env ectx ty s' _ b (isHexOf_decoded b) hE, C50_decode_account env ctx ty s b hb hD⟩
  | balance =>
    obtain ⟨n, hn, hi, rfl, rfl⟩ := hl
    obtain rfl := hc
    refine ⟨C51_encode env ectx ty s' v n hn hE hi, C51_decode_partial env ctx ty s n hn (fun e => hok ?_) hD⟩
    rw [e]
    rfl
  | era =>
    obtain ⟨hb, rfl, rfl⟩ := hl
    obtain rfl := hc
    refine ⟨C48_encode env ectx ty s' b hE, ?_⟩
    rcases hb with rfl | ⟨x, y, hx, rfl⟩
    · exact C48_decode_immortal env ctx ty s hD
    · exact C48_decode_mortal env ctx ty s x y hx hD
  | byteArray n =>
    obtain ⟨rfl, rfl, rfl⟩ := hl
    rcases hc with rfl | ⟨h0, el, rfl, hel⟩
    · exact ⟨C25_encode_u8_partial env ectx ty s' [] b _ b.length (.inl rfl) hE hok, C25_decode_u8 env ctx ty s [] b _ (.inl rfl) hD⟩
    · exact ⟨C25_encode_u8_partial env ectx ty s' el b _ b.length (.inr rfl) hE hok,
        C25_decode_u8 env ctx ty s el b _ (.inr ⟨rfl, h0, hel⟩) hD⟩
  | bitVec =>
    obtain ⟨n, c, p, hn, hp, hcp, rfl, rfl, rfl⟩ := hl
    obtain rfl := hc
    obtain ⟨x, hx⟩ := hok
    have h1 : Spec.IsCompact 1 [4] := .inl ⟨by decide, by decide⟩
    obtain ⟨rfl, rfl, hp'⟩ := isCompact_prefix hcp h1 (x := p) (y := [x]) hx
    subst hp'
    exact (C27_roundtrip_partial env ctx ectx ty s s' [4] x hD hE hL hL' h1).symm
  | names cases =>
    obtain ⟨name, n, hm, rfl, rfl, rfl⟩ := hl
    rcases hc with ⟨vs, tm, rfl, hcl, rfl, hd1, hd2, hlt⟩ | ⟨vs, rfl, rfl, hd, hne, hlen⟩
    · obtain ⟨⟨nm, t⟩, hmem, he⟩ := List.mem_map.mp hm
      cases he
      rw [List.map_map] at hd1 hd2
      have hlt' : ∀ p ∈ tm, Spec.digitsValue p.2 < 256 := fun p hp => hlt _ (List.mem_map.mpr ⟨p, hp, rfl⟩)
      exact ⟨C23_encode_clike env ectx ty s' vs tm _ t hcl hd1 (hlt' _ hmem) hmem hE,
        C23_decode_clike env ctx ty s vs tm _ t hcl hd2 hlt' hmem hD⟩
    · have hn := List.mem_zipIdx_iff_getElem?.1 hm
      have hlt : n < 256 := by
        have := (List.getElem?_eq_some_iff.mp hn).1
        simp only at this
        omega
      refine ⟨C23_encode_names env ectx ty s' vs n name hd hlen hn hE, (C23_decode_names env ctx ty s vs _ hD).1 name ?_ ?_⟩
      · rw [byte_toNat hlt]; exact hn
      · rintro rfl; exact hne (List.mem_of_getElem? hn)
  | optionBool =>
    obtain ⟨t, rfl, e1, e2⟩ := hc
    rcases hl with ⟨rfl, rfl, rfl⟩ | ⟨x, rfl, rfl, rfl⟩
    · exact ⟨C21_encode_none env ectx ty t s' .nil hE (.inl rfl), C21_decode_none env ctx ty t s hD⟩
    · exact C21_bool env ctx ectx ty t s s' x e1 e2 hD hE
  | _ => exact absurd hl (by simp [Leaf])

theorem listValue_eq (l : List Val) : listValue l = mkSlice l := by cases l <;> rfl

/-- The fields of a composite value as seen by the decoder. -/
def decFields (ps : List (Part Str)) : List Field := ps.map fun p => ⟨p.name, p.ty, p.out, p.bytes, []⟩

/-- The fields of a composite value as seen by the encoder. -/
def encFieldsOf (ps : List (Part Str)) : List Field := ps.map fun p => ⟨p.name, p.ty, p.inp, p.bytes, []⟩

theorem calls_nil (ps : List (Part Str)) : callsOf (decFields ps) = [] := by
  induction ps with
  | nil => rfl
  | cons p ps ih =>
    simp only [callsOf, decFields, List.map_cons, List.flatten_cons, List.nil_append] at ih ⊢
    exact ih

theorem nil_flatten (ps : List (Part Str)) : (ps.map fun _ => ([] : List Str)).flatten = [] := by
  induction ps with
  | nil => rfl
  | cons p ps ih => simp

/-- Encoding and decoding follow the specification, at every depth, for supported layers. -/
theorem C28_partial (env : Env) (ctx : Ctx) (ectx : ECtx) (shape : Str → Shape Str → Prop) (hL : LenOK env ctx) (hL' : LenEncOK env)
    (hs : Describes env ctx ectx shape) (ty : Str) (v r : Val) (b : Str) (h : Scale shape Supported ty v r b) :
    Encodes env ectx ty v b ∧ Decodes env ctx ty b r [] := by
  induction h with
  | leaf hsh hl hok => exact leaf_holds hL hL' (hs _ _ hsh) hl hok
  | @seq ty el c ps hsh hlen hc _ hok ih =>
    obtain ⟨cls, s, s', hD, hE, hv, hv'⟩ | ⟨h, _⟩ := hs _ _ hsh
    swap
    · cases h
    have hle : ps.length ≤ 524288 := by
      cases ps with
      | nil => simp
      | cons p ps => simpa [outputs] using hok _ rfl
    constructor
    · have := C20_encode env ectx ty s' el cls (ps.map fun p => (p.inp, p.bytes)) c hv' hE hL' (by simp; omega) (by simpa using hc)
        (by simpa using fun p hp => (ih p hp).1)
      simpa [inputs, allBytes, List.map_map, Function.comp_def] using this
    · have := C20_decode env ctx ty s el cls (ps.map fun p => (p.out, p.bytes, [])) c hv hD hL (by simpa using hle) (by simpa using hc)
        (by simpa using fun p hp => (ih p hp).2)
      rw [listValue_eq]
      simpa [nil_flatten, outputs, allBytes, List.map_map, Function.comp_def] using this
  | @none ty el hsh =>
    obtain ⟨cls, s, s', hD, hE, _, _, t, rfl, _⟩ | ⟨h, _⟩ := hs _ _ hsh
    swap
    · cases h
    exact ⟨C21_encode_none env ectx ty t s' .nil hE (.inl rfl), C21_decode_none env ctx ty t s hD⟩
  | @some ty el v r b hsh _ hok ih =>
    obtain ⟨cls, s, s', hD, hE, hne, hnb, t, rfl, e1, e2⟩ | ⟨h, _⟩ := hs _ _ hsh
    swap
    · cases h
    exact ⟨C21_encode_some_partial env ectx ty t s' el b v e2 hnb hE hok ih.1,
      C21_decode_some env ctx ty t s el b 1 r [] e1 hne hnb (by decide) hD ih.2⟩
  | same hsh _ _ =>
    obtain ⟨cls, s, s', hD, hE, hc⟩ | ⟨h, _⟩ := hs _ _ hsh
    · exact hc.elim
    · cases h
  | @struct ty m ps hsh hd hm hf _ ih =>
    obtain ⟨cls, s, s', hD, hE, rfl | ⟨hnil, rfl⟩⟩ | ⟨h, _⟩ := hs _ _ hsh
    rotate_left
    · obtain rfl : ps = [] := by simpa [fieldTypes] using hnil
      refine ⟨encodes_of_cls hE fun r => rfl, decodes_of_read hD fun r pre suf cs hl => ?_⟩
      show Res.ok _ = _
      simp [fieldOutputs, allBytes]
    · cases h
    constructor
    · have := C22_encode env ectx ty s' (encFieldsOf ps) m hm (by simpa [encFieldsOf] using hf)
        (by simpa [encFieldsOf, declOf, fieldTypes, List.map_map, Function.comp_def] using hE) (by simpa [encFieldsOf] using fun p hp => (ih p hp).1)
      simpa [encFieldsOf, bytesOf, allBytes, List.map_map, Function.comp_def] using this
    · have := C22_decode env ctx ty s (decFields ps) (by simpa [decFields, List.map_map, Function.comp_def] using hd)
        (by simpa [decFields, declOf, fieldTypes, List.map_map, Function.comp_def] using hD) (by simpa [decFields] using fun p hp => (ih p hp).2)
      rw [calls_nil] at this
      simpa [decFields, bytesOf, allBytes, valuesOf, fieldOutputs, List.map_map, Function.comp_def] using this
  | unitVariant i name hsh hi =>
    obtain ⟨cls, s, s', hD, hE, vl, tm, rfl, hnc, hf⟩ | ⟨h, _⟩ := hs _ _ hsh
    · obtain ⟨_, u, _, _, h⟩ := hf _ hi
      exact h.elim
    · cases h
  | @variant ty vs t v r b i name hsh hi _ ih =>
    obtain ⟨cls, s, s', hD, hE, vl, tm, rfl, hnc, hf⟩ | ⟨h, _⟩ := hs _ _ hsh
    swap
    · cases h
    obtain ⟨hi256, u, hti, hu, rfl, hne, hrows⟩ := hf _ hi
    dsimp only at hi256 hti hu
    exact ⟨enum_encode_data env ectx ty s' vl tm i _ _ b _ v hnc hu hi256 hti hrows (by simp) (by simp) hE ih.1,
      C23_decode_data env ctx ty s vl tm _ _ _ b r [] hnc (by rw [byte_toNat hi256]; exact hti) hne hrows hD ih.2⟩
  | @fields ty vs m i name ps hsh hi hdn hm hfm _ ih =>
    obtain ⟨cls, s, s', hD, hE, vl, tm, rfl, hnc, hf⟩ | ⟨h, _⟩ := hs _ _ hsh
    swap
    · cases h
    obtain ⟨hi256, t', hti, hu, hrows, hlen, hne, hj⟩ := hf _ hi
    dsimp only at hi256 hti hu
    have hps : ps ≠ [] := by rintro rfl; exact hne rfl
    constructor
    · have := enum_encode_struct env ectx ty s' vl tm i name t' [(name, .map m)] m (encFieldsOf ps) hnc hu hi256 hti hrows hlen
        (by simpa [encFieldsOf] using hps) (by simpa [encFieldsOf, fieldTypes, List.map_map, Function.comp_def] using hj)
        (by simp) (by simp) hm (by simpa [encFieldsOf] using hfm) hE (by simpa [encFieldsOf] using fun p hp => (ih p hp).1)
      simpa [encFieldsOf, bytesOf, allBytes, List.map_map, Function.comp_def] using this
    · have := C23_decode_struct env ctx ty s vl tm (UInt8.ofNat i) name t' (decFields ps) hnc (by rw [byte_toNat hi256]; exact hti) hrows hlen
        (by simpa [decFields] using hps) (by simpa [decFields, List.map_map, Function.comp_def] using hdn)
        (by simpa [decFields, fieldTypes, List.map_map, Function.comp_def] using hj) hD (by simpa [decFields] using fun p hp => (ih p hp).2)
      rw [calls_nil] at this
      simpa [decFields, bytesOf, allBytes, valuesOf, fieldOutputs, List.map_map, Function.comp_def] using this
  | @array ty n el ps hsh hlen _ hok ih =>
    obtain ⟨cls, s, s', hD, hE, rfl, hel⟩ | ⟨h, _⟩ := hs _ _ hsh
    swap
    · cases h
    have h0 : 0 < n := hok
    constructor
    · have := C25_encode env ectx ty s' el (ps.map fun p => (p.inp, p.bytes)) n hE (by simpa using hlen)
        (by simpa using fun p hp => (ih p hp).1)
      simpa [inputs, allBytes, List.map_map, Function.comp_def] using this
    · have := C25_decode_partial env ctx ty s el (ps.map fun p => (p.out, p.bytes, [])) n hD hel (by simpa using hlen) (by omega)
        (by simpa using fun p hp => (ih p hp).2)
      simpa [nil_flatten, outputs, allBytes, List.map_map, Function.comp_def] using this
  | @resultOk ty a e v r b hsh _ hok ih =>
    obtain ⟨cls, s, s', hD, hE, t, rfl, e1, e2⟩ | ⟨h, _⟩ := hs _ _ hsh
    swap
    · cases h
    obtain ⟨ha, he⟩ : (44 : UInt8) ∉ a ∧ (44 : UInt8) ∉ e := hok
    exact ⟨(C24_result_encode env ectx ty t s' a e hE e2 ha he).1 b v ih.1,
      (C24_result_partial env ctx ty t s a e hD e1 ha he).1 b r [] ih.2⟩
  | @resultErr ty a e v r b hsh _ hok ih =>
    obtain ⟨cls, s, s', hD, hE, t, rfl, e1, e2⟩ | ⟨h, _⟩ := hs _ _ hsh
    swap
    · cases h
    obtain ⟨ha, he⟩ : (44 : UInt8) ∉ a ∧ (44 : UInt8) ∉ e := hok
    exact ⟨(C24_result_encode env ectx ty t s' a e hE e2 ha he).2 b v ih.1,
      (C24_result_partial env ctx ty t s a e hD e1 ha he).2.1 b r [] ih.2⟩

/-- A description by a finite table. -/
def tableShape (l : List (Str × Shape Str)) (ty : Str) (sh : Shape Str) : Prop := (ty, sh) ∈ l

theorem describes_table {env : Env} {ctx : Ctx} {ectx : ECtx} {l : List (Str × Shape Str)} (h : ∀ p ∈ l, HasShape env ctx ectx p.1 p.2) :
    Describes env ctx ectx (tableShape l) := fun ty sh hs => h (ty, sh) hs

/-- The full claim is false: `Some` of an empty byte string is encoded as `None`. -/
theorem C28_claim_false : ¬ C28Claim := by
  intro hc
  have he : EncResolves (baseEnv dummyExt) ECtx.none b!"Option<Vec<u8>>" (.option []) b!"Vec<u8>" :=
    ⟨by unfold Resolves; kernel_rfl, by decide⟩
  have hs : Describes (baseEnv dummyExt) ⟨[], 0, none⟩ ECtx.none
      (tableShape [(b!"Option<Vec<u8>>", .option b!"Vec<u8>"), (b!"Vec<u8>", .bytes .bytes)]) := by
    refine describes_table fun p hp => ?_
    simp only [List.mem_cons, List.not_mem_nil, or_false] at hp
    rcases hp with rfl | rfl
    · exact .inl ⟨.option [], b!"Vec<u8>", b!"Vec<u8>", by unfold Resolves; kernel_rfl, he, by decide, by decide, [], rfl, by decide,
        by decide⟩
    · exact .inl ⟨.bytes, [], [], by unfold Resolves; kernel_rfl, ⟨by unfold Resolves; kernel_rfl, by decide⟩, by decide, rfl⟩
  have hb : Scale (tableShape [(b!"Option<Vec<u8>>", .option b!"Vec<u8>"), (b!"Vec<u8>", .bytes .bytes)]) (fun _ _ _ _ => True)
      b!"Option<Vec<u8>>" (.str []) (.str []) [1, 0] := by
    refine .some (el := b!"Vec<u8>") (by simp [tableShape]) (.leaf (sh := .bytes .bytes) (by simp [tableShape]) ?_ trivial) trivial
    exact ⟨[0], [], by decide, .inl ⟨by decide, by decide⟩, by rfl, rfl, rfl⟩
  have h1 := (hc _ _ _ _ ⟨[], by unfold Resolves; kernel_rfl⟩ ⟨[], by unfold Resolves; kernel_rfl, by decide⟩ hs _ _ _ _ hb).1
  have h2 := C21_encode_none (baseEnv dummyExt) ECtx.none _ _ _ (.str []) he (.inr (.inr (.inl rfl)))
  exact absurd (encodes_unique h1 h2) (by decide)

/-- A registry with a recursive type: `Tree` is a struct of a `u16` and a list of trees. -/
def treeEnv (ext : Ext) : Env := addTypes (baseEnv ext) [(b!"tree", .struct (some [(b!"v", b!"u16"), (b!"kids", b!"Vec<Tree>")]))]

def treeShape : Str → Shape Str → Prop :=
  tableShape [(b!"Tree", .struct [(b!"v", b!"u16"), (b!"kids", b!"Vec<Tree>")]), (b!"Vec<Tree>", .seq b!"Tree"), (b!"u16", .uint 2)]

theorem tree_describes (ext : Ext) : Describes (treeEnv ext) ⟨[], 0, none⟩ ECtx.none treeShape := by
  refine describes_table fun p hp => ?_
  simp only [List.mem_cons, List.not_mem_nil, or_false] at hp
  rcases hp with rfl | rfl | rfl
  · exact .inl ⟨_, [], [], by unfold Resolves; kernel_rfl, ⟨by unfold Resolves; kernel_rfl, by decide⟩, .inl rfl⟩
  · exact .inl ⟨.vec [], b!"Tree", b!"Tree", by unfold Resolves; kernel_rfl, ⟨by unfold Resolves; kernel_rfl, by decide⟩, by decide, by decide⟩
  · exact .inl ⟨.u16, [], [], by unfold Resolves; kernel_rfl, ⟨by unfold Resolves; kernel_rfl, by decide⟩, by decide, by rfl⟩

/-- A leaf of the tree: number 7 without children. -/
def leafVal (n : Nat) : Val := .map [(b!"v", .uint 2 n), (b!"kids", .slice [])]
def leafOut (n : Nat) : Val := .map [(b!"v", .uint 2 n), (b!"kids", .nilSlice)]

theorem tree_leaf (n : Nat) (hn : n < 2 ^ 16) : Scale treeShape Supported b!"Tree" (leafVal n) (leafOut n) (Spec.leBytes 2 n ++ [0]) := by
  have := Scale.struct (shape := treeShape) (ok := Supported) (ty := b!"Tree") (m := [(b!"v", .uint 2 n), (b!"kids", .slice [])])
    [⟨b!"v", b!"u16", .uint 2 n, .uint 2 n, Spec.leBytes 2 n⟩, ⟨b!"kids", b!"Vec<Tree>", .slice [], .nilSlice, [0]⟩]
    (by simp [tableShape, treeShape, fieldTypes]) (by simp) (by simp) (by simp) (by
      intro p hp
      simp only [List.mem_cons, List.not_mem_nil, or_false] at hp
      rcases hp with rfl | rfl
      · exact .leaf (sh := .uint 2) (by simp [tableShape, treeShape]) ⟨n, hn, rfl, rfl, rfl, rfl⟩ trivial
      · exact Scale.seq (el := b!"Tree") (c := [0]) [] (by simp [tableShape, treeShape]) (by decide) (.inl ⟨by decide, by decide⟩) (by simp)
          (fun l h => by cases h))
  simpa [leafVal, leafOut, fieldOutputs, allBytes] using this

/-- A tree with a child is well-typed, and so encodes and decodes as specified. -/
example (ext : Ext) : Encodes (treeEnv ext) ECtx.none b!"Tree" (.map [(b!"v", .uint 2 1), (b!"kids", .slice [leafVal 515])]) [1, 0, 4, 3, 2, 0] ∧
    Decodes (treeEnv ext) ⟨[], 0, none⟩ b!"Tree" [1, 0, 4, 3, 2, 0] (.map [(b!"v", .uint 2 1), (b!"kids", .slice [leafOut 515])]) [] := by
  refine C28_partial _ _ _ treeShape ⟨[], by unfold Resolves; kernel_rfl⟩ ⟨[], by unfold Resolves; kernel_rfl, by decide⟩ (tree_describes ext) _ _ _ _ ?_
  refine Scale.struct (shape := treeShape) (ok := Supported) (ty := b!"Tree")
    [⟨b!"v", b!"u16", .uint 2 1, .uint 2 1, [1, 0]⟩, ⟨b!"kids", b!"Vec<Tree>", .slice [leafVal 515], .slice [leafOut 515], [4, 3, 2, 0]⟩]
    (by simp [tableShape, treeShape, fieldTypes]) (by decide) (by simp) (by simp) ?_
  intro p hp
  simp only [List.mem_cons, List.not_mem_nil, or_false] at hp
  rcases hp with rfl | rfl
  · exact .leaf (sh := .uint 2) (by simp [tableShape, treeShape]) ⟨1, by decide, rfl, rfl, rfl, by decide⟩ trivial
  · exact Scale.seq (el := b!"Tree") (c := [4]) [⟨[], [], leafVal 515, leafOut 515, [3, 2, 0]⟩] (by simp [tableShape, treeShape]) (by decide)
      (.inl ⟨by decide, by decide⟩) (by simpa [show Spec.leBytes 2 515 = [3, 2] by decide] using tree_leaf 515 (by decide)) (fun l h => by cases h; decide)

end ScaleGo
