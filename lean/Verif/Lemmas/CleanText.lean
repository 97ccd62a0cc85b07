import Verif.Lemmas.TextChars
import Verif.Props.C64

/-! # Type texts of a portable registry mean themselves

The texts composed from the paths of portable types are left alone by `ConvertType`, provided the paths consist of ordinary
identifiers. -/

namespace ScaleGo

open ScaleGo.Spec

/-- An identifier: letters, digits and underscores, not beginning with a digit. -/
def Spec.Ident (s : Str) : Prop := PlainName s ∧ ∀ c r, s = c :: r → isDigit c = false

/-- The words that come before `<`. -/
def openWords : List Str := [b!"Vec", b!"compact", b!"option", b!"Result", b!"WrapperOpaque"]

/-- The bytes of type texts. -/
def isTextByte (c : UInt8) : Bool := isNameByte c || c ∈ b!":@<>[]; ,"

/-- The two bytes do not follow each other. -/
def NoPair (x y : UInt8) (t : Str) : Prop := ∀ p q, t ≠ p ++ x :: y :: q

theorem NoPair.append {x y : UInt8} {a b : Str} (ha : NoPair x y a) (hb : NoPair x y b)
    (h : ¬ (a.getLast? = some x ∧ b.head? = some y)) : NoPair x y (a ++ b) := by
  intro p q e
  rcases List.append_eq_append_iff.1 e with ⟨l, e1, e2⟩ | ⟨l, e1, e2⟩
  · exact hb l q e2
  · cases l with
    | nil => exact hb [] q (by simpa using e2.symm)
    | cons c l =>
      simp only [List.cons_append, List.cons.injEq] at e2
      obtain ⟨rfl, e2⟩ := e2
      cases l with
      | nil =>
        refine h ⟨by rw [e1]; simp, ?_⟩
        rw [List.nil_append] at e2
        rw [← e2]; rfl
      | cons d l =>
        simp only [List.cons_append, List.cons.injEq] at e2
        obtain ⟨rfl, e2⟩ := e2
        exact ha p l e1

theorem NoPair.left {x y : UInt8} {t : Str} (h : x ∉ t) : NoPair x y t := by
  intro p q e
  exact h (by rw [e]; simp)

theorem NoPair.right {x y : UInt8} {t : Str} (h : y ∉ t) : NoPair x y t := by
  intro p q e
  exact h (by rw [e]; simp)

theorem NoPair.left_one {x y z : UInt8} : NoPair x y [z] := by
  intro p q e
  have := congrArg List.length e
  simp at this
  omega

/-- Properties of type texts that survive composition. -/
structure Body (t : Str) : Prop where
  bytes : ∀ c ∈ t, isTextByte c = true
  colons : NoPair 58 58 t
  comma : NoPair 44 32 t
  opened : ∀ p q, t = p ++ 60 :: q → (∃ w ∈ openWords, w <:+ p) ∧ 2 ≤ q.length ∧ ¬ b!"T>" <+: q

theorem prefix_two {a b : UInt8} {q r : Str} (h : 2 ≤ q.length) : [a, b] <+: q ++ r ↔ [a, b] <+: q := by
  match q, h with
  | x :: y :: q, _ => simp [List.cons_prefix_cons]

theorem Body.append {a b : Str} (ha : Body a) (hb : Body b) (h1 : ¬ (a.getLast? = some 58 ∧ b.head? = some 58))
    (h2 : ¬ (a.getLast? = some 44 ∧ b.head? = some 32)) : Body (a ++ b) := by
  refine ⟨?_, ha.colons.append hb.colons h1, ha.comma.append hb.comma h2, ?_⟩
  · intro c hc
    rcases List.mem_append.1 hc with hc | hc
    · exact ha.bytes c hc
    · exact hb.bytes c hc
  · intro p q e
    rcases List.append_eq_append_iff.1 e with ⟨l, e1, e2⟩ | ⟨l, e1, e2⟩
    · obtain ⟨⟨w, hw, hs⟩, h3⟩ := hb.opened l q e2
      exact ⟨⟨w, hw, e1 ▸ hs.trans (List.suffix_append _ _)⟩, h3⟩
    · cases l with
      | nil =>
        obtain ⟨⟨w, hw, hs⟩, h3⟩ := hb.opened [] q (by simpa using e2.symm)
        exact ⟨⟨w, hw, hs.trans (List.nil_suffix)⟩, h3⟩
      | cons c l =>
        simp only [List.cons_append, List.cons.injEq] at e2
        obtain ⟨rfl, rfl⟩ := e2
        obtain ⟨h3, h4, h5⟩ := ha.opened p l e1
        exact ⟨h3, by simp; omega, fun h => h5 ((prefix_two h4).1 h)⟩

/-- A text without `<`. -/
theorem Body.plain {t : Str} (h : ∀ c ∈ t, isTextByte c = true) (h1 : NoPair 58 58 t) (h2 : NoPair 44 32 t) (h3 : (60 : UInt8) ∉ t) : Body t :=
  ⟨h, h1, h2, fun p q e => absurd (by rw [e]; simp) h3⟩

/-- A text that is complete. -/
structure Clean (t : Str) : Prop where
  body : Body t
  head : ∃ c r, t = c :: r ∧ (isNameByte c = true ∧ isDigit c = false ∨ c = 91)
  last : ∃ c r, t = r ++ [c] ∧ (isNameByte c = true ∨ c = 62 ∨ c = 93)
  other : t ≠ b!"T"
  opening : ¬ b!"T>" <+: t
  bounded : ¬ b!"BoundedBTreeSet" <+: t

theorem nameByte_text {c : UInt8} (h : isNameByte c = true) : isTextByte c = true := by simp [isTextByte, h]

theorem nameByte_not {c : UInt8} (h : isNameByte c = true) : c ∉ b!":@<>[]; ," := by
  have := forall_byte (P := fun c => isNameByte c = true → c ∉ b!":@<>[]; ,") (by decide +kernel)
  exact this c h

theorem Clean.head? {t : Str} (h : Clean t) : t.head? ≠ some 58 ∧ t.head? ≠ some 32 := by
  obtain ⟨c, r, rfl, hc⟩ := h.head
  have : c ≠ 58 ∧ c ≠ 32 := by
    rcases hc with ⟨hc, _⟩ | rfl
    · have := nameByte_not hc
      constructor <;> rintro rfl <;> exact this (by decide)
    · decide
  simpa using this

theorem Clean.last? {t : Str} (h : Clean t) : t.getLast? ≠ some 58 ∧ t.getLast? ≠ some 44 := by
  obtain ⟨c, r, rfl, hc⟩ := h.last
  have : c ≠ 58 ∧ c ≠ 44 := by
    rcases hc with hc | rfl | rfl
    · have := nameByte_not hc
      constructor <;> rintro rfl <;> exact this (by decide)
    · decide
    · decide
  simpa using this

theorem Clean.ne_nil {t : Str} (h : Clean t) : t ≠ [] := by
  obtain ⟨c, r, rfl, _⟩ := h.head
  simp

theorem Clean.trimmed {t : Str} (h : Clean t) : Trimmed t := by
  have ns : ∀ c, isTextByte c = true → c ≠ 32 → isSpace c = false :=
    forall_byte (P := fun c => isTextByte c = true → c ≠ 32 → isSpace c = false) (by decide +kernel)
  obtain ⟨c, r, e1, _⟩ := h.head
  obtain ⟨d, q, e2, hd⟩ := h.last
  refine ⟨⟨c, r, e1, ns c (h.body.bytes c (by rw [e1]; simp)) ?_⟩, ⟨d, q, e2, ns d (h.body.bytes d (by rw [e2]; simp)) ?_⟩⟩
  · intro e; exact h.head?.2 (by rw [e1, e]; rfl)
  · rintro rfl
    rcases hd with hd | hd | hd
    · exact nameByte_not hd (by decide)
    · cases hd
    · cases hd

theorem suffix_of_suffix {a b c : Str} (h1 : a <:+ c) (h2 : b <:+ c) : a <:+ b ∨ b <:+ a := List.suffix_or_suffix_of_suffix h1 h2

/-- Complete texts mean themselves, except `Vec<u8>`. -/
theorem Clean.whole {t : Str} (h : Clean t) : (∀ x ∈ abbreviations, ¬ x <:+: t) ∧ t ∉ spellings := by
  have byte : ∀ {x : Str} {c : UInt8}, c ∈ x → isTextByte c = false → ¬ x <:+: t := by
    intro x c hc hb hi
    rw [h.body.bytes c (hi.subset hc)] at hb
    cases hb
  have pair : ∀ {x : Str}, b!"::" <:+: x → ¬ x <:+: t := by
    intro x hx hi
    obtain ⟨p, q, e⟩ := hx.trans hi
    exact h.body.colons p q (by rw [← e]; simp)
  refine ⟨?_, ?_⟩
  · intro x hx
    simp only [abbreviations, List.mem_cons, List.not_mem_nil, or_false] at hx
    rcases hx with rfl | rfl | rfl | rfl | rfl | rfl | rfl
    · exact pair ⟨b!"T", [], rfl⟩
    · rintro ⟨p, q, e⟩
      obtain ⟨⟨w, hw, hs⟩, _⟩ := h.body.opened (p ++ b!"VecDeque") q (by rw [← e]; simp)
      have h2 : b!"VecDeque" <:+ p ++ b!"VecDeque" := List.suffix_append _ _
      have key : ∀ w ∈ openWords, ¬ (w <:+ b!"VecDeque" ∨ b!"VecDeque" <:+ w) := by decide
      exact key w hw (suffix_of_suffix hs h2)
    · rintro ⟨p, q, e⟩
      obtain ⟨_, _, h3⟩ := h.body.opened p (b!"T>" ++ q) (by rw [← e]; simp)
      exact h3 (List.prefix_append _ _)
    · exact pair ⟨b!"<T as Trait>", [], rfl⟩
    · rintro ⟨p, q, e⟩
      exact h.body.comma (p ++ b!"<T") (b!"I>" ++ q) (by rw [← e]; simp)
    · exact byte (c := 10) (by decide) (by decide)
    · exact byte (c := 38) (by decide) (by decide)
  · intro hm
    have key : ∀ x ∈ spellings, (∃ r, x = 60 :: r) ∨ (∃ r, x = 40 :: r) ∨ b!"::" <:+: x := by
      intro x hx
      simp only [spellings, List.mem_cons, List.not_mem_nil, or_false] at hx
      rcases hx with rfl | rfl | rfl | rfl | rfl | rfl | rfl | rfl
      · exact .inr (.inl ⟨_, rfl⟩)
      all_goals first | exact .inl ⟨_, rfl⟩ | exact .inr (.inr ⟨b!"wasm", b!"PrefabWasmModule", rfl⟩)
    obtain ⟨c, r, e, hc⟩ := h.head
    rcases key t hm with ⟨s, e'⟩ | ⟨s, e'⟩ | hp
    · rw [e'] at e
      obtain ⟨rfl, _⟩ := List.cons.inj e
      rcases hc with ⟨hc, _⟩ | hc
      · exact nameByte_not hc (by decide)
      · cases hc
    · rw [e'] at e
      obtain ⟨rfl, _⟩ := List.cons.inj e
      rcases hc with ⟨hc, _⟩ | hc
      · exact absurd hc (by decide)
      · cases hc
    · exact pair (List.infix_refl _) hp

theorem Clean.verbatim {t : Str} (h : Clean t) (hv : ¬ SameName t b!"Vec<u8>") : Verbatim t :=
  ⟨h.trimmed, h.whole.1, h.whole.2, h.bounded, hv⟩

/-- Lists of bytes have another name. -/
theorem Clean.convert_bytes {t : Str} (h : Clean t) (hv : SameName t b!"Vec<u8>") : convertType t = b!"Bytes" := by
  have hr : ∀ x new, x ∈ abbreviations → replaceAll t x new = t := fun x new hx => replaceAll_not_infix (h.whole.1 x hx)
  have hb : hasPrefix t b!"BoundedBTreeSet" = false := by
    unfold hasPrefix
    rw [Bool.eq_false_iff]
    intro hp
    exact h.bounded (List.isPrefixOf_iff_prefix.1 hp)
  have hv : equalFold t b!"Vec<u8>" = true := by
    unfold equalFold
    rw [beq_iff_eq]
    exact (toLower_eq_iff _ _).2 hv
  unfold convertType
  simp only [trimSpace_trimmed h.trimmed, hr b!"T::" [] (by decide +kernel), hr b!"VecDeque<" b!"Vec<" (by decide +kernel),
    hr b!"<T>" [] (by decide +kernel), hr b!"<T as Trait>::" [] (by decide +kernel), hr b!"<T, I>" [] (by decide +kernel),
    hr b!"\n" b!" " (by decide +kernel), hr b!"&'static[u8]" b!"Bytes" (by decide +kernel), hb, hv, Bool.false_eq_true, if_false, if_true]
  decide

theorem Clean.convert {t : Str} (h : Clean t) : convertType t = t ∨ convertType t = b!"Bytes" := by
  by_cases hv : SameName t b!"Vec<u8>"
  · exact .inr (h.convert_bytes hv)
  · exact .inl (convertType_verbatim (h.verbatim hv))

/-- So do their lower-case forms. -/
theorem Clean.verbatim_lower {t : Str} (h : Clean t) (hv : ¬ SameName t b!"Vec<u8>") : Verbatim (toLower t) := by
  have lb : ∀ c ∈ toLower t, isTextByte c = true ∧ ¬ (65 ≤ c.toNat ∧ c.toNat ≤ 90) := by
    intro c hc
    obtain ⟨d, hd, rfl⟩ := List.mem_map.1 hc
    have key := forall_byte (P := fun d => isTextByte d = true → isTextByte (lowerByte d) = true ∧
      ¬ (65 ≤ (lowerByte d).toNat ∧ (lowerByte d).toNat ≤ 90)) (by decide +kernel)
    exact key d (h.body.bytes d hd)
  have byte : ∀ {x : Str}, (∃ c ∈ x, ¬ (isTextByte c = true ∧ ¬ (65 ≤ c.toNat ∧ c.toNat ≤ 90))) → ¬ x <:+: toLower t := by
    rintro x ⟨c, hc, hn⟩ hi
    exact hn (lb c (hi.subset hc))
  refine ⟨trimmed_lower h.trimmed, ?_, ?_, ?_, ?_⟩
  · intro x hx
    exact byte ((by decide : ∀ x ∈ abbreviations, ∃ c ∈ x, ¬ (isTextByte c = true ∧ ¬ (65 ≤ c.toNat ∧ c.toNat ≤ 90))) x hx)
  · intro hm
    exact byte ((by decide : ∀ x ∈ spellings, ∃ c ∈ x, ¬ (isTextByte c = true ∧ ¬ (65 ≤ c.toNat ∧ c.toNat ≤ 90))) _ hm) (List.infix_refl _)
  · intro hp
    exact byte (by decide) hp.isInfix
  · intro hs
    refine hv ?_
    rw [← toLower_eq_iff] at hs ⊢
    rw [← hs, toLower_idem]

/-! ## Composition -/

theorem Clean.ofIdent {s : Str} (h : Ident s) (hT : s ≠ b!"T") (hb : ¬ b!"BoundedBTreeSet" <+: s) : Clean s := by
  have hn : ∀ c ∈ s, isNameByte c = true := List.all_eq_true.1 h.1.2
  have no : ∀ c ∈ b!":@<>[]; ,", c ∉ s := fun c hc hm => nameByte_not (hn c hm) hc
  refine ⟨.plain (fun c hc => nameByte_text (hn c hc)) (.left (no _ (by decide))) (.left (no _ (by decide))) (no _ (by decide)), ?_, ?_, hT, ?_, hb⟩
  · obtain ⟨c, r, e⟩ := List.exists_cons_of_ne_nil h.1.1
    exact ⟨c, r, e, .inl ⟨hn c (by rw [e]; simp), h.2 c r e⟩⟩
  · refine ⟨s.getLast h.1.1, s.dropLast, (List.dropLast_concat_getLast h.1.1).symm, .inl (hn _ (List.getLast_mem h.1.1))⟩
  · intro hp
    exact no 62 (by decide) (hp.subset (by decide))

/-- `word<text>` -/
theorem Clean.generic {w s : Str} (hw : w ∈ openWords) (hs : Clean s) : Clean (w ++ b!"<" ++ s ++ b!">") := by
  have hwp : ∀ w ∈ openWords, (∀ c ∈ w, isNameByte c = true) ∧ (∃ c r, w = c :: r ∧ isDigit c = false ∧ c ≠ 84 ∧ c ≠ 66) := by
    intro w hw
    simp only [openWords, List.mem_cons, List.not_mem_nil, or_false] at hw
    rcases hw with rfl | rfl | rfl | rfl | rfl <;> exact ⟨by decide, _, _, rfl, by decide, by decide, by decide⟩
  obtain ⟨hwn, cw, rw', ew, hd, hT, hB⟩ := hwp w hw
  have hwt : ∀ c ∈ b!":@<>[]; ,", c ∉ w := fun c hc hm => nameByte_not (hwn c hm) hc
  have e : w ++ b!"<" ++ s ++ b!">" = w ++ 60 :: (s ++ [62]) := by simp
  rw [e]
  have hsl := hs.last?
  have hsh := hs.head?
  refine ⟨⟨?_, ?_, ?_, ?_⟩, ?_, ?_, ?_, ?_, ?_⟩
  · intro c hc
    simp only [List.mem_append, List.mem_cons, List.not_mem_nil, or_false] at hc
    rcases hc with hc | rfl | hc | rfl
    · exact nameByte_text (hwn c hc)
    · decide
    · exact hs.body.bytes c hc
    · decide
  · have h1 : NoPair 58 58 (s ++ [62]) := hs.body.colons.append (.left (by decide)) (by simp)
    have h2 : NoPair 58 58 (60 :: (s ++ [62])) := NoPair.append (a := [60]) (.left (by decide)) h1 (by simp)
    exact NoPair.append (.left (hwt _ (by decide))) h2 (by simp)
  · have h1 : NoPair 44 32 (s ++ [62]) := hs.body.comma.append (.left (by decide)) (by simp)
    have h2 : NoPair 44 32 (60 :: (s ++ [62])) := NoPair.append (a := [60]) (.left (by decide)) h1 (by simp)
    exact NoPair.append (.left (hwt _ (by decide))) h2 (by simp)
  · intro p q e
    have first : p = w → s ++ [62] = q → (∃ w ∈ openWords, w <:+ p) ∧ 2 ≤ q.length ∧ ¬ b!"T>" <+: q := by
      intro e1 e2
      refine ⟨⟨w, hw, e1 ▸ List.suffix_refl _⟩, ?_, ?_⟩
      · have := List.length_pos_iff.2 hs.ne_nil
        rw [← e2]; simp; omega
      · rw [← e2]
        intro hp
        match s, hs.ne_nil with
        | [x], _ =>
          simp only [List.cons_append, List.nil_append, List.cons_prefix_cons] at hp
          exact hs.other (by rw [← hp.1])
        | x :: y :: s, _ => exact hs.opening ((prefix_two (by simp)).1 hp)
    rcases List.append_eq_append_iff.1 e with ⟨l, e1, e2⟩ | ⟨l, e1, e2⟩
    · cases l with
      | nil =>
        simp only [List.nil_append, List.cons.injEq, true_and] at e2
        rw [List.append_nil] at e1
        exact first e1 e2
      | cons c l =>
        simp only [List.cons_append, List.cons.injEq] at e2
        obtain ⟨rfl, e2⟩ := e2
        rcases List.append_eq_append_iff.1 e2 with ⟨k, e3, e4⟩ | ⟨k, e3, e4⟩
        · cases k with
          | nil => simp at e4
          | cons d k => simp at e4
        · cases k with
          | nil => simp at e4
          | cons d k =>
            simp only [List.cons_append, List.cons.injEq] at e4
            obtain ⟨rfl, rfl⟩ := e4
            obtain ⟨⟨w', hw', h3⟩, h4, h5⟩ := hs.body.opened l k e3
            refine ⟨⟨w', hw', h3.trans ?_⟩, by simp; omega, fun h => h5 ((prefix_two h4).1 h)⟩
            rw [e1]
            exact ⟨w ++ [60], by simp⟩
    · cases l with
      | nil =>
        simp only [List.nil_append, List.cons.injEq, true_and] at e2
        rw [List.append_nil] at e1
        exact first e1.symm e2.symm
      | cons c l =>
        simp only [List.cons_append, List.cons.injEq] at e2
        exact absurd (by rw [e1, ← e2.1]; simp) (hwt 60 (by decide))
  · exact ⟨cw, _, by rw [ew]; rfl, .inl ⟨hwn _ (by rw [ew]; simp), hd⟩⟩
  · exact ⟨62, w ++ 60 :: s, by simp, .inr (.inl rfl)⟩
  · rw [ew]; simp
  · rw [ew]
    intro h
    simp only [List.cons_append, List.cons_prefix_cons] at h
    exact hT h.1.symm
  · rw [ew]
    intro h
    simp only [List.cons_append, List.cons_prefix_cons] at h
    exact hB h.1.symm

theorem digit_name {c : UInt8} (h : isDigit c = true) : isNameByte c = true :=
  forall_byte (P := fun c => isDigit c = true → isNameByte c = true) (by decide +kernel) c h

/-- A prefix without a byte ends before it. -/
theorem prefix_before {x a b : Str} {c : UInt8} (hx : c ∉ x) (hp : x <+: a ++ c :: b) : x <+: a := by
  obtain ⟨u, e⟩ := hp
  rcases List.append_eq_append_iff.1 e with ⟨l, e1, e2⟩ | ⟨l, e1, e2⟩
  · exact ⟨l, e1.symm⟩
  · cases l with
    | nil => exact ⟨[], by simpa using e1⟩
    | cons d l =>
      have := (List.cons.inj e2).1
      exact absurd (by rw [e1, this]; simp) hx

/-- The digits of a number. -/
theorem Body.digits (n : Nat) : Body (natToDec n) := by
  have hn : ∀ c ∈ natToDec n, isNameByte c = true := fun c hc => digit_name (List.all_eq_true.1 (natToDec_digits n) c hc)
  have no : ∀ c ∈ b!":@<>[]; ,", c ∉ natToDec n := fun c hc hm => nameByte_not (hn c hm) hc
  exact .plain (fun c hc => nameByte_text (hn c hc)) (.left (no _ (by decide))) (.left (no _ (by decide))) (no _ (by decide))

/-- `[text; n]` -/
theorem Clean.array {s : Str} (n : Nat) (hs : Clean s) : Clean (b!"[" ++ s ++ b!"; " ++ natToDec n ++ b!"]") := by
  have lit : ∀ t ∈ [b!"[", b!"; ", b!"]"], Body t ∧ t.head? ≠ some 58 ∧ t.head? ≠ some 32 ∧ t.getLast? ≠ some 58 ∧ t.getLast? ≠ some 44 := by
    intro t ht
    simp only [List.mem_cons, List.not_mem_nil, or_false] at ht
    rcases ht with rfl | rfl | rfl <;>
      exact ⟨.plain (by decide) (.left (by decide)) (.left (by decide)) (by decide), by decide, by decide, by decide, by decide⟩
  have l1 := lit b!"[" (by simp)
  have l2 := lit b!"; " (by simp)
  have l3 := lit b!"]" (by simp)
  have e : b!"[" ++ s ++ b!"; " ++ natToDec n ++ b!"]" = b!"[" ++ (s ++ (b!"; " ++ (natToDec n ++ b!"]"))) := by simp only [List.append_assoc]
  have b1 : Body (natToDec n ++ b!"]") := (Body.digits n).append l3.1 (fun h => l3.2.1 h.2) (fun h => l3.2.2.1 h.2)
  have b2 : Body (b!"; " ++ (natToDec n ++ b!"]")) := l2.1.append b1 (fun h => l2.2.2.2.1 h.1) (fun h => l2.2.2.2.2 h.1)
  have b3 : Body (s ++ (b!"; " ++ (natToDec n ++ b!"]"))) := hs.body.append b2 (fun h => hs.last?.1 h.1) (fun h => hs.last?.2 h.1)
  have b4 : Body (b!"[" ++ (s ++ (b!"; " ++ (natToDec n ++ b!"]")))) := l1.1.append b3 (fun h => l1.2.2.2.1 h.1) (fun h => l1.2.2.2.2 h.1)
  rw [e]
  refine ⟨b4, ⟨91, _, rfl, .inr rfl⟩, ⟨93, b!"[" ++ (s ++ (b!"; " ++ natToDec n)), by simp, .inr (.inr rfl)⟩, ?_, ?_, ?_⟩
  · intro h; cases (List.cons.inj h).1
  · rintro ⟨r, h⟩; cases (List.cons.inj h).1
  · rintro ⟨r, h⟩; cases (List.cons.inj h).1

/-- Two texts with a comma between. -/
theorem Clean.comma {a b : Str} (ha : Clean a) (hb : Clean b) : Clean (a ++ b!"," ++ b) := by
  have l : Body b!"," := .plain (by decide) (.left (by decide)) (.right (by decide)) (by decide)
  have e : a ++ b!"," ++ b = a ++ (b!"," ++ b) := by simp only [List.append_assoc]
  have b1 : Body (b!"," ++ b) := l.append hb.body (fun h => hb.head?.1 h.2) (fun h => hb.head?.2 h.2)
  rw [e]
  refine ⟨ha.body.append b1 (fun h => ha.last?.1 h.1) (fun h => ha.last?.2 h.1), ?_, ?_, ?_, fun h => ha.opening (prefix_before (by decide) h),
    fun h => ha.bounded (prefix_before (by decide) h)⟩
  · obtain ⟨c, r, e, h⟩ := ha.head
    exact ⟨c, r ++ (b!"," ++ b), by rw [e]; rfl, h⟩
  · obtain ⟨c, r, e, h⟩ := hb.last
    exact ⟨c, a ++ (b!"," ++ r), by rw [e]; simp, h⟩
  · intro h
    have : (44 : UInt8) ∈ b!"T" := by rw [← h]; simp
    revert this
    decide

/-- `Tuple:` and any number of texts. -/
theorem Clean.tuple {ts : List Str} (hne : ts ≠ []) (h : ∀ t ∈ ts, Clean t) : Clean (b!"Tuple:" ++ ts.flatten) := by
  have key : ∀ {ts : List Str}, ts ≠ [] → (∀ t ∈ ts, Clean t) → Body ts.flatten ∧ (ts.flatten.head? ≠ some 58 ∧ ts.flatten.head? ≠ some 32) ∧
      ∃ c r, ts.flatten = r ++ [c] ∧ (isNameByte c = true ∨ c = 62 ∨ c = 93) := by
    intro ts
    induction ts with
    | nil => intro h; exact absurd rfl h
    | cons t ts ih =>
      intro _ h
      have ht := h t (by simp)
      have hh : (t ++ ts.flatten).head? = t.head? := by
        obtain ⟨c, r, e, _⟩ := ht.head
        rw [e]; rfl
      rw [List.flatten_cons, hh]
      cases ts with
      | nil =>
        rw [List.flatten_nil, List.append_nil]
        exact ⟨ht.body, ht.head?, ht.last⟩
      | cons u us =>
        obtain ⟨h1, h2, c, r, e, h3⟩ := ih (by simp) (fun t ht => h t (by simp at ht ⊢; tauto))
        refine ⟨ht.body.append h1 (fun h => ht.last?.1 h.1) (fun h => ht.last?.2 h.1), ht.head?, c, t ++ r, by rw [e]; simp, h3⟩
  obtain ⟨h1, h2, c, r, e, h3⟩ := key hne h
  have l : Body b!"Tuple:" := .plain (by decide) (fun p q => by
    intro e
    have hl := congrArg List.length e
    have h2 := congrArg List.reverse e
    simp at h2
    have hq : q = [] ∨ ∃ c r, q.reverse = c :: r := by
      rcases List.eq_nil_or_concat q with h | ⟨q', c, h⟩
      · exact .inl h
      · exact .inr ⟨c, q'.reverse, by rw [h]; simp⟩
    rcases hq with rfl | ⟨c, r, hq⟩
    · simp at h2
    · rw [hq] at h2
      have : (58 : UInt8) ∈ b!"elpuT" := by
        have := (List.cons.inj h2).2
        rw [show (b!"elpuT" : Str) = r ++ 58 :: 58 :: p.reverse from this]
        simp
      revert this
      decide) (.left (by decide)) (by decide)
  refine ⟨l.append h1 (fun h => h2.1 h.2) (fun h => h2.2 h.2), ⟨84, _, rfl, .inl ⟨by decide, by decide⟩⟩, ⟨c, b!"Tuple:" ++ r, by rw [e]; simp, h3⟩, ?_, ?_, ?_⟩
  · intro h; have := congrArg List.length h; simp at this
  · rintro ⟨r, h⟩; cases (List.cons.inj (List.cons.inj h).2).1
  · rintro ⟨r, h⟩; cases (List.cons.inj h).1

/-- Identifiers joined by colons. -/
theorem Clean.joined {l : List Str} (hne : l ≠ []) (h : ∀ s ∈ l, Ident s) (hT : joinSep b!":" l ≠ b!"T")
    (hb : ¬ b!"BoundedBTreeSet" <+: joinSep b!":" l) : Clean (joinSep b!":" l) := by
  have hbyte : ∀ c ∈ joinSep b!":" l, isNameByte c = true ∨ c = 58 := by
    intro c hc
    rcases mem_joinSep hc with hc | ⟨s, hs, hc⟩
    · exact .inr (by simpa using hc)
    · exact .inl (List.all_eq_true.1 (h s hs).1.2 c hc)
  have no : ∀ c ∈ b!"@<>[]; ,", c ∉ joinSep b!":" l := by
    intro c hc hm
    rcases hbyte c hm with hn | rfl
    · exact nameByte_not hn (by simp at hc ⊢; tauto)
    · revert hc; decide
  have key : ∀ {l : List Str}, l ≠ [] → (∀ s ∈ l, Ident s) → NoPair 58 58 (joinSep b!":" l) ∧
      (∃ c r, joinSep b!":" l = c :: r ∧ isNameByte c = true ∧ isDigit c = false) ∧ ∃ c r, joinSep b!":" l = r ++ [c] ∧ isNameByte c = true := by
    intro l
    induction l with
    | nil => intro h; exact absurd rfl h
    | cons s l ih =>
      intro _ h
      have hs := h s (by simp)
      have hn : ∀ c ∈ s, isNameByte c = true := List.all_eq_true.1 hs.1.2
      obtain ⟨c, r, e⟩ := List.exists_cons_of_ne_nil hs.1.1
      have hc : isNameByte c = true ∧ isDigit c = false := ⟨hn c (by rw [e]; simp), hs.2 c r e⟩
      have h58 : (58 : UInt8) ∉ s := fun hm => nameByte_not (hn _ hm) (by decide)
      cases l with
      | nil =>
        exact ⟨.left h58, ⟨c, r, e, hc⟩, s.getLast hs.1.1, s.dropLast, (List.dropLast_concat_getLast hs.1.1).symm, hn _ (List.getLast_mem hs.1.1)⟩
      | cons t l =>
        obtain ⟨h1, ⟨d, q, e2, hd⟩, d', q', e3, hd'⟩ := ih (by simp) (fun s hs => h s (by simp at hs ⊢; tauto))
        have ej : joinSep b!":" (s :: t :: l) = s ++ (58 :: joinSep b!":" (t :: l)) := by
          show s ++ b!":" ++ joinSep b!":" (t :: l) = _
          simp
        rw [ej]
        refine ⟨?_, ⟨c, r ++ 58 :: joinSep b!":" (t :: l), by rw [e]; rfl, hc⟩, d', s ++ 58 :: q', by rw [e3]; simp, hd'⟩
        have h2 : NoPair 58 58 (58 :: joinSep b!":" (t :: l)) := by
          refine NoPair.append (a := [58]) (.left_one) h1 ?_
          rintro ⟨_, h⟩
          rw [e2] at h
          cases h
          exact absurd hd.1 (by decide)
        refine NoPair.append (.left h58) h2 ?_
        rintro ⟨h, _⟩
        exact h58 (List.mem_of_getLast? h)
  obtain ⟨h1, ⟨c, r, e, hc⟩, d, q, e', hd⟩ := key hne h
  refine ⟨.plain ?_ h1 (.left (no _ (by decide))) (no _ (by decide)), ⟨c, r, e, .inl hc⟩, ⟨d, q, e', .inl hd⟩, hT, ?_, hb⟩
  · intro c hc
    rcases hbyte c hc with hn | rfl
    · exact nameByte_text hn
    · decide
  · intro hp
    exact no 62 (by decide) (hp.subset (by decide))

/-- A name with a number. -/
theorem Clean.numbered {s : Str} (n : Nat) (hs : Clean s) : Clean (s ++ b!"@" ++ natToDec n) := by
  have l : Body b!"@" := .plain (by decide) (.left (by decide)) (.left (by decide)) (by decide)
  have e : s ++ b!"@" ++ natToDec n = s ++ (b!"@" ++ natToDec n) := by simp only [List.append_assoc]
  have b1 : Body (b!"@" ++ natToDec n) := l.append (Body.digits n) (by simp) (by simp)
  rw [e]
  refine ⟨hs.body.append b1 (fun h => hs.last?.1 h.1) (fun h => hs.last?.2 h.1), ?_, ?_, ?_, fun h => hs.opening (prefix_before (by decide) h),
    fun h => hs.bounded (prefix_before (by decide) h)⟩
  · obtain ⟨c, r, e, h⟩ := hs.head
    exact ⟨c, r ++ (b!"@" ++ natToDec n), by rw [e]; rfl, h⟩
  · refine ⟨(natToDec n).getLast (natToDec_ne_nil n), s ++ (b!"@" ++ (natToDec n).dropLast), ?_, .inl ?_⟩
    · simp only [List.append_assoc, List.dropLast_concat_getLast]
    · exact digit_name (List.all_eq_true.1 (natToDec_digits n) _ (List.getLast_mem _))
  · intro h
    have : (64 : UInt8) ∈ b!"T" := by rw [← h]; simp
    revert this
    decide

/-! ## The texts of portable types -/

/-- The names of the portable types are ordinary. -/
structure PlainNames (cfg : SiCfg) : Prop where
  segments : ∀ i, ∀ s ∈ (cfg.types i).path, Ident s
  pre : cfg.pathPrefix ≠ [] → Ident cfg.pathPrefix
  named : ∀ i, ((∃ fs, (cfg.types i).typ = .composite fs) ∨ ∃ vs, (cfg.types i).typ = .variant vs) → (cfg.types i).path ≠ []
  primitive : ∀ i p, (cfg.types i).typ = .primitive p → Ident p ∧ p ≠ b!"T" ∧ ¬ b!"BoundedBTreeSet" <+: p
  crate : ∀ i, (cfg.types i).path.head? = some b!"primitive_types" →
    lastOf (cfg.types i).path ≠ b!"T" ∧ ¬ b!"BoundedBTreeSet" <+: lastOf (cfg.types i).path
  whole : ∀ i, (cfg.types i).path ≠ [] → pathName cfg (cfg.types i) ≠ b!"T" ∧ ¬ b!"BoundedBTreeSet" <+: pathName cfg (cfg.types i)
  range : ∀ i, (cfg.types i).typ ≠ .range

theorem pathName_joined {cfg : SiCfg} {t : SiType} (h : t.path ≠ []) :
    pathName cfg t = joinSep b!":" (if cfg.pathPrefix = [] then t.path else cfg.pathPrefix :: t.path) := by
  unfold pathName
  split
  · rfl
  · rw [joinSep_cons h]

theorem pathName_clean {cfg : SiCfg} (h : PlainNames cfg) {i : Nat} (hp : (cfg.types i).path ≠ []) : Clean (pathName cfg (cfg.types i)) := by
  obtain ⟨h1, h2⟩ := h.whole i hp
  rw [pathName_joined hp] at h1 h2 ⊢
  refine .joined ?_ ?_ h1 h2
  · split
    · exact hp
    · simp
  · split
    · exact h.segments i
    · next hne =>
      intro s hs
      rcases List.mem_cons.1 hs with rfl | hs
      · exact h.pre hne
      · exact h.segments i s hs

theorem generateName_clean {cfg : SiCfg} (h : PlainNames cfg) {i : Nat} (hp : (cfg.types i).path ≠ []) :
    Clean (generateName cfg (cfg.types i) (some i)) := by
  unfold generateName
  simp only
  split
  · exact (pathName_clean h hp).numbered i
  · exact pathName_clean h hp

/-- The name of a portable type is complete or empty. -/
theorem name_clean {cfg : SiCfg} (h : PlainNames cfg) {i : Nat} {n : Str} (hn : nameSiType cfg (cfg.types i) (some i) = .ok n) : n = [] ∨ Clean n := by
  unfold nameSiType at hn
  split at hn
  · next e =>
    cases hn
    exact .inr (generateName_clean h (h.named i (.inl ⟨_, e⟩)))
  · next e =>
    split at hn
    · cases hn
    · next e' =>
      have : (cfg.types i).path ≠ [] := by rw [e']; simp
      split at hn
      · cases hn; exact .inl rfl
      · split at hn
        · cases hn; exact .inl rfl
        · split at hn
          · cases hn; exact .inl rfl
          · cases hn; exact .inr (generateName_clean h this)
  · cases hn; exact .inl rfl

theorem clean_word {s : Str} (h1 : PlainName s) (h2 : isDigit (s.headD 0) = false) (hT : s ≠ b!"T") (hb : ¬ b!"BoundedBTreeSet" <+: s) : Clean s :=
  .ofIdent ⟨h1, fun c r e => by rw [e] at h2; exact h2⟩ hT hb

theorem lastOf_mem {l : List Str} (h : l ≠ []) : lastOf l ∈ l := by
  unfold lastOf
  rw [List.getLastD_eq_getLast?, List.getLast?_eq_getLast_of_ne_nil h]
  exact List.getLast_mem h

/-- Every text of a portable type is complete. -/
theorem text_clean {cfg : SiCfg} {A : Nat → Prop} (h : PlainNames cfg) {i : Nat} {t : Str} (ht : Text cfg A i t) : Clean t := by
  induction ht with
  | name _ hn hne => exact (name_clean h hn).resolve_left hne
  | @emptyName i _ ho hn =>
    exfalso
    have hne : ∀ (hp : (cfg.types i).path ≠ []), generateName cfg (cfg.types i) (some i) ≠ [] := fun hp => (generateName_clean h hp).ne_nil
    rcases ho with ⟨fs, e, _⟩ | ⟨vs, p, ps, e, ep, h1, h2, h3⟩
    · simp only [nameSiType, e] at hn
      exact hne (h.named i (.inl ⟨_, e⟩)) (Res.ok.inj hn)
    · simp only [nameSiType, e, ep, h1, h2, Bool.or_self, Bool.false_eq_true, if_false] at hn
      have hc : palletCall (p :: ps) = false := by
        rw [Bool.eq_false_iff]
        intro hc
        exact h3 (.inl (by rw [ep]; exact palletCall_last hc))
      have hl : (sliceIndex (lastOf (p :: ps)) [b!"Call", b!"Event"]).isSome = false := by
        rw [Bool.eq_false_iff]
        intro hc
        have := sliceIndex_mem_iff.1 hc
        simp only [List.mem_cons, List.not_mem_nil, or_false] at this
        exact h3 (this.imp (by rw [ep]; exact id) (by rw [ep]; exact .inl))
      rw [hc, hl] at hn
      exact hne (by rw [ep]; simp) (Res.ok.inj hn)
  | @override i _ hne =>
    have key : overriderTypesName (cfg.types i) = [] ∨ overriderTypesName (cfg.types i) = b!"SubstrateFixedU64" ∨
        overriderTypesName (cfg.types i) = b!"SubstrateFixedI128" := by
      unfold overriderTypesName
      split
      · split
        · exact .inr (.inl rfl)
        · split
          · exact .inr (.inr rfl)
          · exact .inl rfl
      · exact .inl rfl
    rcases key with e | e | e
    · exact absurd e hne
    · rw [e]; exact clean_word (by decide) (by decide) (by decide) (by decide)
    · rw [e]; exact clean_word (by decide) (by decide) (by decide) (by decide)
  | primitive e => obtain ⟨h1, h2, h3⟩ := h.primitive _ _ e; exact .ofIdent h1 h2 h3
  | @primitiveTypes i e =>
    obtain ⟨h2, h3⟩ := h.crate _ e
    exact .ofIdent (h.segments i _ (lastOf_mem (by rintro e'; rw [e'] at e; cases e))) h2 h3
  | account _ _ _ => exact clean_word (by decide) (by decide) (by decide) (by decide)
  | @wrapper _ _ _ _ _ s _ _ _ _ _ ih =>
    have := Clean.generic (w := b!"WrapperOpaque") (by decide) ih
    rwa [show b!"WrapperOpaque" ++ b!"<" ++ s ++ b!">" = b!"WrapperOpaque<" ++ s ++ b!">" from by simp] at this
  | newtype _ _ _ _ _ ih => exact ih
  | selfNewtype _ _ _ => exact clean_word (by decide) (by decide) (by decide) (by decide)
  | arrayZero _ _ => exact clean_word (by decide) (by decide) (by decide) (by decide)
  | @array _ n _ _ _ _ _ _ ih => exact ih.array n
  | sequence _ _ _ ih => exact .generic (by decide) ih
  | compact _ _ _ ih => exact .generic (by decide) ih
  | tupleNil _ _ => exact clean_word (by decide) (by decide) (by decide) (by decide)
  | tuple ps _ _ hne _ ih =>
    refine .tuple (by simpa using hne) ?_
    intro t ht
    obtain ⟨p, hp, rfl⟩ := List.mem_map.1 ht
    exact ih p hp
  | bits _ _ => exact clean_word (by decide) (by decide) (by decide) (by decide)
  | range _ e => exact absurd e (h.range _)
  | option _ _ _ _ _ _ ih => exact .generic (by decide) ih
  | @result _ _ _ _ _ _ _ _ _ s s' _ _ _ _ _ _ _ _ ih1 ih2 =>
    have := Clean.generic (w := b!"Result") (by decide) (ih1.comma ih2)
    rwa [show b!"Result" ++ b!"<" ++ (s ++ b!"," ++ s') ++ b!">" = b!"Result<" ++ s ++ b!"," ++ s' ++ b!">" from by simp] at this
  | call _ _ _ => exact clean_word (by decide) (by decide) (by decide) (by decide)
  | nothing _ _ => exact clean_word (by decide) (by decide) (by decide) (by decide)
  | dealtPrimitive _ _ => exact clean_word (by decide) (by decide) (by decide) (by decide)

end ScaleGo
