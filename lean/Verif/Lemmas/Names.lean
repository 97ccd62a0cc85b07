import Verif.Lemmas.Strings
import Verif.Lemmas.Hex
import Verif.Model.Register
import Mathlib.Data.List.Forall2

/-! # Lookup of plain names -/

namespace ScaleGo

namespace Spec

/-- ASCII letter, digit or underscore. -/
def isNameByte (b : UInt8) : Bool :=
  (65 ≤ b.toNat && b.toNat ≤ 90) || (97 ≤ b.toNat && b.toNat ≤ 122) || (48 ≤ b.toNat && b.toNat ≤ 57) || b == 95

/-- A non-empty identifier. -/
def PlainName (s : Str) : Prop := s ≠ [] ∧ s.all isNameByte = true

instance (s : Str) : Decidable (PlainName s) := inferInstanceAs (Decidable (_ ∧ _))

/-- The same letter, up to its case. -/
def SameLetter (x y : UInt8) : Prop :=
  x = y ∨ (65 ≤ x.toNat ∧ x.toNat ≤ 90 ∧ y.toNat = x.toNat + 32) ∨ (65 ≤ y.toNat ∧ y.toNat ≤ 90 ∧ x.toNat = y.toNat + 32)

/-- The same name, up to letter case. -/
def SameName (a b : Str) : Prop := List.Forall₂ SameLetter a b

end Spec

open Spec

theorem lowerByte_eq_iff (x y : UInt8) : lowerByte x = lowerByte y ↔ SameLetter x y := by
  have hx := x.toNat_lt
  have hy := y.toNat_lt
  unfold lowerByte SameLetter
  constructor
  · intro h
    have h' := congrArg UInt8.toNat h
    split at h' <;> split at h' <;> try simp only [UInt8.toNat_ofNat'] at h'
    · left; exact UInt8.toNat_inj.1 (by omega)
    · right; left; omega
    · right; right; omega
    · left; exact UInt8.toNat_inj.1 h'
  · rintro (rfl | ⟨h1, h2, h3⟩ | ⟨h1, h2, h3⟩)
    · rfl
    · rw [if_pos ⟨h1, h2⟩, if_neg (by omega), ← h3]; simp
    · rw [if_neg (by omega), if_pos ⟨h1, h2⟩, ← h3]; simp

theorem toLower_eq_iff (a b : Str) : toLower a = toLower b ↔ SameName a b := by
  unfold SameName toLower
  induction a generalizing b with
  | nil => cases b <;> simp
  | cons x a ih =>
    cases b with
    | nil => simp
    | cons y b => simp [lowerByte_eq_iff, ih]

theorem replaceAll_absent {s old new : Str} (c : UInt8) (hc : c ∈ old) (hs : c ∉ s) : replaceAll s old new = s := by
  unfold replaceAll
  induction s with
  | nil => rfl
  | cons x s ih =>
    unfold replaceAllAux
    rw [if_neg, ih (fun h => hs (by simp [h]))]
    intro hp
    rw [List.isPrefixOf_iff_prefix] at hp
    exact hs (hp.subset hc)

theorem not_hasPrefix_of_absent {s p : Str} (c : UInt8) (hc : c ∈ p) (hs : c ∉ s) : hasPrefix s p = false := by
  unfold hasPrefix
  rw [Bool.eq_false_iff]
  intro hp
  rw [List.isPrefixOf_iff_prefix] at hp
  exact hs (hp.subset hc)

theorem contains_of_absent {s p : Str} (c : UInt8) (hc : c ∈ p) (hs : c ∉ s) : contains s p = false := by
  induction s with
  | nil =>
    cases p with
    | nil => simp at hc
    | cons => rfl
  | cons x s ih =>
    unfold contains
    rw [ih (fun h => hs (by simp [h]))]
    simp only [Bool.or_false]
    exact not_hasPrefix_of_absent (s := x :: s) c hc hs

theorem splitSep_absent {s sep : Str} (c : UInt8) (hc : c ∈ sep) (hs : c ∉ s) : splitSep s sep = [s] := by
  suffices h : ∀ cur, splitSepAux sep 0 cur s = [cur.reverse ++ s] by simpa [splitSep] using h []
  induction s with
  | nil => intro cur; simp [splitSepAux]
  | cons x s ih =>
    intro cur
    unfold splitSepAux
    rw [if_neg, ih (fun h => hs (by simp [h]))]
    · simp
    · intro hp
      rw [List.isPrefixOf_iff_prefix] at hp
      exact hs (hp.subset hc)

theorem dropWhile_none {p : UInt8 → Bool} {s : Str} (h : ∀ b ∈ s, p b = false) : s.dropWhile p = s := by
  cases s with
  | nil => rfl
  | cons x s => rw [List.dropWhile_cons_of_neg (by simp [h x (by simp)])]

theorem trimSpace_none {s : Str} (h : ∀ b ∈ s, isSpace b = false) : trimSpace s = s := by
  unfold trimSpace
  rw [dropWhile_none h, dropWhile_none (by simpa using h), List.reverse_reverse]

/-- Bytes that occur in no identifier. -/
theorem nameByte_ne {b : UInt8} (h : isNameByte b = true) :
    isSpace b = false ∧ b ≠ 35 ∧ b ≠ 38 ∧ b ≠ 40 ∧ b ≠ 41 ∧ b ≠ 44 ∧ b ≠ 45 ∧ b ≠ 58 ∧ b ≠ 59 ∧ b ≠ 60 ∧ b ≠ 62 ∧ b ≠ 91 ∧ b ≠ 93 ∧ b ≠ 10 := by
  have := forall_byte (P := fun b => isNameByte b = true → isSpace b = false ∧ b ≠ 35 ∧ b ≠ 38 ∧ b ≠ 40 ∧ b ≠ 41 ∧ b ≠ 44 ∧ b ≠ 45 ∧ b ≠ 58 ∧
    b ≠ 59 ∧ b ≠ 60 ∧ b ≠ 62 ∧ b ≠ 91 ∧ b ≠ 93 ∧ b ≠ 10) (by decide +kernel)
  exact this b h

theorem Spec.PlainName.absent {s : Str} (h : PlainName s) :
    (∀ b ∈ s, isSpace b = false) ∧ 35 ∉ s ∧ 38 ∉ s ∧ 40 ∉ s ∧ 41 ∉ s ∧ 44 ∉ s ∧ 45 ∉ s ∧ 58 ∉ s ∧ 59 ∉ s ∧ 60 ∉ s ∧ 62 ∉ s ∧ 91 ∉ s ∧ 93 ∉ s ∧ 10 ∉ s := by
  have h2 := List.all_eq_true.1 h.2
  refine ⟨fun b hb => (nameByte_ne (h2 b hb)).1, ?_⟩
  refine ⟨?_, ?_, ?_, ?_, ?_, ?_, ?_, ?_, ?_, ?_, ?_, ?_, ?_⟩ <;> intro hb <;> have := nameByte_ne (h2 _ hb) <;> simp at this

theorem lower_nameByte {b : UInt8} (h : isNameByte b = true) : isNameByte (lowerByte b) = true := by
  have := forall_byte (P := fun b => isNameByte b = true → isNameByte (lowerByte b) = true) (by decide +kernel)
  exact this b h

theorem Spec.PlainName.lower {s : Str} (h : PlainName s) : PlainName (toLower s) := by
  refine ⟨by simpa [toLower] using h.1, ?_⟩
  have h2 := List.all_eq_true.1 h.2
  simp only [toLower, List.all_map, List.all_eq_true, Function.comp]
  exact fun b hb => lower_nameByte (h2 b hb)

/-- `ConvertType` leaves a plain name alone, unless it begins with `BoundedBTreeSet`. -/
theorem convertType_plain {s : Str} (h : PlainName s) (hb : hasPrefix s b!"BoundedBTreeSet" = false) : convertType s = s := by
  obtain ⟨hsp, h35, h38, h40, h41, h44, h45, h58, h59, h60, h62, h91, h93, h10⟩ := h.absent
  have ne60 : ∀ t : Str, 60 ∈ t → s ≠ t := by rintro t ht rfl; exact h60 ht
  have ne58 : ∀ t : Str, 58 ∈ t → s ≠ t := by rintro t ht rfl; exact h58 ht
  have ne40 : ∀ t : Str, 40 ∈ t → s ≠ t := by rintro t ht rfl; exact h40 ht
  have hvec : equalFold s b!"Vec<u8>" = false := by
    unfold equalFold
    rw [beq_eq_false_iff_ne]
    intro he
    have : (60 : UInt8) ∈ toLower s := by rw [he]; decide
    exact (h.lower.absent.2.2.2.2.2.2.2.2.2.1) this
  unfold convertType
  simp only [trimSpace_none hsp, replaceAll_absent 58 (show (58 : UInt8) ∈ b!"T::" by decide) h58,
    replaceAll_absent 60 (show (60 : UInt8) ∈ b!"VecDeque<" by decide) h60,
    replaceAll_absent 60 (show (60 : UInt8) ∈ b!"<T>" by decide) h60,
    replaceAll_absent 60 (show (60 : UInt8) ∈ b!"<T as Trait>::" by decide) h60,
    replaceAll_absent 60 (show (60 : UInt8) ∈ b!"<T, I>" by decide) h60,
    replaceAll_absent 10 (show (10 : UInt8) ∈ b!"\n" by decide) h10,
    replaceAll_absent 38 (show (38 : UInt8) ∈ b!"&'static[u8]" by decide) h38, hb, hvec,
    Bool.false_eq_true, if_false]
  rw [if_neg, if_neg (ne60 _ (by decide)), if_neg (ne60 _ (by decide)), if_neg (ne60 _ (by decide)),
    if_neg (ne60 _ (by decide)), if_neg (ne60 _ (by decide)), if_neg (ne58 _ (by decide))]
  rintro (rfl | rfl)
  · exact ne40 _ (by decide) rfl
  · exact ne60 _ (by decide) rfl

theorem endsWith_absent {s : Str} {c : UInt8} (h : c ∉ s) : endsWith s c = false := by
  unfold endsWith
  rw [beq_eq_false_iff_ne]
  intro he
  exact h (List.mem_of_getLast? he)

theorem head?_absent {s : Str} {c : UInt8} (h : c ∉ s) : s.head? ≠ some c := by
  intro he
  exact h (List.mem_of_head? he)

/-- `getCodecInstant` on a plain name that no module override applies to. -/
theorem getCodecInstant_plain (env : Env) {m s : Str} (spec : Int) (h : PlainName s)
    (hm : moduleType (toLower s) m = toLower s) :
    getCodecInstant env m s spec = .ok ((findSpecial spec (env.special (toLower s))).or (env.reg (toLower s))) := by
  unfold getCodecInstant
  simp only [hm, toLower_idem]
  cases findSpecial spec (env.special (toLower s)) with
  | some c => simp
  | none =>
    simp only [Option.none_or]
    have hl := h.lower
    obtain ⟨_, _, _, _, _, _, _, _, _, _, _, h91, _⟩ := hl.absent
    cases hr : env.reg (toLower s) with
    | some c => rfl
    | none =>
      simp only
      rw [if_neg (by intro he; rw [he] at h91; exact h91 (by decide))]
      split
      · rename_i he; exact absurd he hl.1
      · rename_i c rest he
        rw [if_neg]
        rintro ⟨rfl, -⟩
        rw [he] at h91
        exact h91 (by simp)

/-- `GetCodecClass` on a plain name: the version ranges of the lower-case name, then its registry entry. -/
theorem getCodecClass_plain (env : Env) {m s : Str} (spec : Int) (h : PlainName s)
    (hb : hasPrefix s b!"BoundedBTreeSet" = false) (hm : moduleType (toLower s) m = toLower s) :
    getCodecClass env m spec s =
      .ok (((findSpecial spec (env.special (toLower s))).or (env.reg (toLower s))).map (fun c => (c, []))) := by
  obtain ⟨hsp, h35, h38, h40, h41, h44, h45, h58, h59, h60, h62, h91, h93, h10⟩ := h.absent
  unfold getCodecClass getCodecClassAux
  simp only [convertType_plain h hb]
  rw [if_neg h.1]
  simp only [lookupWhole, lookupParts, partsOf, endsWith_absent h62, Bool.false_eq_true, if_false, Res.ok_bind,
    getCodecInstant_plain env spec h hm]
  cases (findSpecial spec (env.special (toLower s))).or (env.reg (toLower s)) with
  | some c => rfl
  | none =>
    simp only [Option.map_none]
    rw [if_neg, if_neg]
    · simp [contains_of_absent 58 (show (58 : UInt8) ∈ b!"::" by decide) h58]
    · rintro ⟨_, hh, _⟩; exact head?_absent h40 hh

theorem moduleType_nil (t : Str) : moduleType t [] = t := rfl

end ScaleGo
