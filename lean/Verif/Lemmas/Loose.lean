import Verif.Lemmas.Took
import Verif.Props.C28

/-! # Which byte strings the decoder accepts

`Accepts` describes, apart from the library, the language of byte strings and values that turns out to be that of the decoder:
SCALE, with the laxities of the library. -/

namespace Spec
open ScaleGo (Val Cls Str uintValue shown)

/-- Little-endian number. -/
def leSum (b : Str) : Nat := b.foldr (fun x acc => x.toNat + 256 * acc) 0

/-- A compact number in any of its forms, the shortest or not. -/
def AnyCompact (c : Str) : Prop := ∃ x r, c = x :: r ∧ r.length + 1 = compactLen x

/-- The number a compact form stands for. -/
def compactNumber : Str → Nat
  | [] => 0
  | x :: r => if x.toNat % 4 = 3 then leSum r else leSum (x :: r) / 4

/-- The number as a 64-bit signed integer. -/
def compactInt (c : Str) : Int := twos 64 (compactNumber c % 2 ^ 64)

/-- Byte strings accepted for types without parts, with the value returned. -/
def Loose {α : Type} : Shape α → Val → Str → Prop
  | .uint w, r, b => b.length = w ∧ r = uintValue w (leSum b)
  | .u128, r, b => b.length = 16 ∧ ∃ s, IsNumeral s (leSum b) ∧ r = .str s
  | .u256, r, b => b.length = 32 ∧ r = .dec (leSum b) 0
  | .int w, r, b => b.length = w ∧ r = .big (if w = 1 then 0 else if leSum b ≤ 2 ^ (8 * w - 1) then leSum b else (leSum b : Int) - 2 ^ (8 * w))
  | .bool, r, b => ∃ x : UInt8, b = [x] ∧ r = .bool (x = 1)
  | .null, r, b => r = .nil ∧ b = []
  | .unit, r, b => r = .str b!"NULL" ∧ b = []
  | .compact32, r, b => AnyCompact b ∧ r = .int (compactInt b)
  | .compact bound decimal, r, b => AnyCompact b ∧
      (r = (if decimal then .dec (compactNumber b % bound : Nat) 0 else .uint 8 (compactNumber b % bound)) ∨
       decimal = true ∧ compactNumber b % bound = bound - 1 ∧ r = .dec (-1) 0)
  | .bytes kind, r, b => ∃ c p : Str, AnyCompact c ∧ (p.length : Int) = compactInt c ∧ r = .str (shown kind p) ∧ b = c ++ p
  | .hash n, r, b => b.length = n ∧ r = .str (b!"0x" ++ hexText b)
  | .account, r, b => b.length = 32 ∧ r = .str (b!"0x" ++ hexText b)
  | .balance, r, b => b.length = 16 ∧ r = .dec (if leSum b = 2 ^ 128 - 1 then -1 else leSum b) 0
  | .era, r, b => (b = [0] ∨ ∃ x y, x ≠ 0 ∧ b = [x, y]) ∧ r = .str (hexText b)
  | .byteArray n, r, b => b.length = n ∧ r = .str (shown .bytes b)
  | .bitVec, r, b => ∃ c p : Str, AnyCompact c ∧ 8 * (p.length : Int) - 8 < compactInt c ∧ compactInt c ≤ 8 * (p.length : Int) ∧
      r = .str (bitText p) ∧ b = c ++ p
  | .names cases, r, b => ∃ x : UInt8, b = [x] ∧
      ((∃ name, (name, x.toNat) ∈ cases ∧ r = .str name) ∨ x.toNat ∉ cases.map Prod.snd ∧ r = .str [])
  | .optionBool, r, b => ∃ x : UInt8, b = [x] ∧ r = if x = 0 then .nil else .bool (x = 1)
  | _, _, _ => False

/-- `Accepts shape ok ty r b`: as a `ty`, the bytes `b` are accepted and give `r`. Every layer also meets the side condition `ok`.
The Go value to encode in a `Part` plays no role. -/
inductive Accepts {α : Type} (shape : α → Shape α → Prop) (ok : Shape α → Val → Str → Prop) : α → Val → Str → Prop
  | leaf {ty sh r b} : shape ty sh → Loose sh r b → ok sh r b → Accepts shape ok ty r b
  | seq {ty el c} (ps : List (Part α)) : shape ty (.seq el) → AnyCompact c → compactInt c ≤ 524288 → ps.length = (compactInt c).toNat →
      (∀ p ∈ ps, Accepts shape ok el p.out p.bytes) → ok (.seq el) (listValue (outputs ps)) (c ++ allBytes ps) →
      Accepts shape ok ty (listValue (outputs ps)) (c ++ allBytes ps)
  | none {ty el} : shape ty (.option el) → Accepts shape ok ty .nil [0]
  | some {ty el r b} (x : UInt8) : shape ty (.option el) → x ≠ 0 → Accepts shape ok el r b → ok (.option el) r (x :: b) →
      Accepts shape ok ty r (x :: b)
  | struct {ty} (ps : List (Part α)) : shape ty (.struct (fieldTypes ps)) → (∀ p ∈ ps, Accepts shape ok p.ty p.out p.bytes) →
      Accepts shape ok ty (.map (fieldOutputs ps)) (allBytes ps)
  | variant {ty vs t r b} (x : UInt8) (name : Str) : shape ty (.enum vs) → (x.toNat, name, .one t) ∈ vs → Accepts shape ok t r b →
      Accepts shape ok ty (.map [(name, r)]) (x :: b)
  | fields {ty vs} (x : UInt8) (name : Str) (ps : List (Part α)) : shape ty (.enum vs) → (x.toNat, name, .fields (fieldTypes ps)) ∈ vs →
      (∀ p ∈ ps, Accepts shape ok p.ty p.out p.bytes) →
      Accepts shape ok ty (.map [(name, .map (fieldOutputs ps))]) (x :: allBytes ps)
  | array {ty n el} (ps : List (Part α)) : shape ty (.array n el) → 0 < n → ps.length = n →
      (∀ p ∈ ps, Accepts shape ok el p.out p.bytes) → Accepts shape ok ty (.slice (outputs ps)) (allBytes ps)
  | emptyArray {ty el} (x : UInt8) : shape ty (.array 0 el) → ok (.array 0 el) .nil [x] → Accepts shape ok ty .nil [x]
  | resultOk {ty a e r b} : shape ty (.result a e) → Accepts shape ok a r b → Accepts shape ok ty (.map [(b!"Ok", r)]) (0 :: b)
  | resultErr {ty a e r b} : shape ty (.result a e) → Accepts shape ok e r b → Accepts shape ok ty (.map [(b!"Error", r)]) (1 :: b)

/-- The types a layer refers to. -/
def partsOf {α : Type} : Shape α → List α
  | .seq el => [el]
  | .option el => [el]
  | .struct fs => fs.map Prod.snd
  | .enum vs => vs.flatMap fun v => match v.2.2 with
    | .unit => []
    | .one t => [t]
    | .fields fs => fs.map Prod.snd
  | .array _ el => [el]
  | .result a e => [a, e]
  | .same el => [el]
  | _ => []

/-- Names of fields are different, sizes are those of Go integers, and the texts of the types of a `Result` contain no commas. -/
def Tidy : Shape Str → Prop
  | .struct fs => (fs.map Prod.fst).Nodup
  | .enum vs => ∀ v ∈ vs, ∀ fs, v.2.2 = .fields fs → (fs.map Prod.fst).Nodup
  | .hash n => n < 2 ^ 63
  | .byteArray n => n < 2 ^ 63
  | .result a e => (44 : UInt8) ∉ a ∧ (44 : UInt8) ∉ e
  | _ => True

/-- Every type referred to is described, and every layer is tidy. -/
def Whole (shape : Str → Shape Str → Prop) : Prop :=
  ∀ ty sh, shape ty sh → (∀ t ∈ partsOf sh, ∃ sh', shape t sh') ∧ Tidy sh

end Spec

namespace ScaleGo
open _root_.Spec (Shape Payload Part Loose Accepts AnyCompact compactNumber compactInt leSum listValue fieldTypes fieldOutputs outputs allBytes partsOf Tidy Whole)

theorem leSum_eq (b : Str) : leSum b = leNat b := by
  induction b with
  | nil => rfl
  | cons x b ih => simp only [leSum, List.foldr_cons, leNat] at ih ⊢; rw [ih]

theorem leBytes_leSum (b : Str) : Spec.leBytes b.length (leSum b) = b := by
  rw [leSum_eq, ← lePut_eq_spec, lePut_leNat]

theorem leSum_lt (b : Str) : leSum b < 2 ^ (8 * b.length) := by
  rw [leSum_eq, ← pow256]; exact leNat_lt b

theorem wrap64_twos (n : Nat) : wrap64 ((n % 2 ^ 64 : Nat) : Int) = Spec.twos 64 (n % 2 ^ 64) := by
  unfold wrap64 Spec.twos
  rw [Int.bmod_def]
  have := Nat.mod_lt n (show 2 ^ 64 > 0 by decide)
  split <;> split <;> omega

theorem readInto_take (w : Nat) (b : Str) : readInto w (b.take w) = readInto w b := by
  unfold readInto
  rw [List.take_take, Nat.min_self, List.length_take]
  congr 2
  omega

theorem readInto_value (w : Nat) (b : Str) : leNat (readInto w b) = leNat b % 256 ^ w := by
  unfold readInto
  rw [leNat_pad]
  by_cases h : w ≤ b.length
  · have e : b.take w = lePut w (leNat b) := by
      conv => lhs; rw [← lePut_leNat b]
      rw [lePut_take _ _ _ h]
    rw [e, leNat_lePut]
  · rw [List.take_of_length_le (by omega)]
    exact (Nat.mod_eq_of_lt (Nat.lt_of_lt_of_le (leNat_lt b) (Nat.pow_le_pow_right (by decide) (by omega)))).symm

theorem readInto_length (w : Nat) (b : Str) : (readInto w b).length = w := by
  unfold readInto
  rw [List.length_append, List.length_take, List.length_replicate]; omega

theorem nextBytes_whole (w : Nat) (cb : Str) (hw : w < 2 ^ 63) (hl : cb.length < 2 ^ 63) :
    ∃ st, nextBytes w ⟨⟨cb, 0⟩, []⟩ = .ok (cb.take w, st) := by
  unfold nextBytes getNextBytes
  have e : wrap64 ((0 : Nat) + (w : Int)) = w := by rw [show ((0 : Nat) : Int) + (w : Int) = ((w : Nat) : Int) by simp, wrap64_nat hw]
  dsimp only
  rw [e]
  by_cases h : cb.length < w
  · rw [if_pos (by omega), if_pos (by omega)]
    rw [List.take_of_length_le (by omega)]
    exact ⟨_, rfl⟩
  · rw [if_neg (by omega), if_pos (by omega)]
    exact ⟨_, rfl⟩

theorem balance_reads (c : Str) (hc : c.length = 16) (st : St) :
    (if bytesToHex c = b!"ffffffffffffffffffffffffffffffff" then Res.ok (Val.dec (-1) 0, st)
      else do
        let u ← U128.fromBytes c
        .ok (.dec u.big 0, st)) = .ok (.dec (if leSum c = 2 ^ 128 - 1 then -1 else leSum c) 0, st) := by
  have hlt : leSum c < 2 ^ 128 := by have := leSum_lt c; rwa [hc] at this
  have hff := all_ff (leSum c) hlt
  rw [show Spec.leBytes 16 (leSum c) = c by rw [← hc]; exact leBytes_leSum c] at hff
  by_cases h : leSum c = 2 ^ 128 - 1
  · rw [if_pos (hff.mpr h), if_pos h]
  · rw [if_neg (fun e => h (hff.mp e)), if_neg h]
    obtain ⟨u, hu, hval⟩ := U128.fromBytes_spec c hc
    simp only [hu, Res.ok_bind, U128.big_eq, hval, leSum_eq]

end ScaleGo
