import Verif.Lemmas.CleanText
import Verif.Spec.OldTypes

/-! # Rust type texts mean themselves -/

namespace ScaleGo
open _root_.Spec (Names substrate TypeOver RustType Means runtimeTypes compactTypes commaText)
open ScaleGo.Spec

/-- The words that come before `<`. -/
def wrapWords : List Str := [b!"Vec", b!"Option", b!"Compact"]

/-- The bytes of Rust type texts. -/
def isRustByte (c : UInt8) : Bool := isNameByte c || c ∈ b!"<>[]; ,()"

/-- Properties of Rust type texts that survive composition. -/
structure NeatBody (t : Str) : Prop where
  bytes : ∀ c ∈ t, isRustByte c = true
  opened : ∀ p q, t = p ++ 60 :: q → (∃ w ∈ wrapWords, w <:+ p) ∧ 2 ≤ q.length ∧ ¬ b!"T>" <+: q ∧ ¬ b!"T," <+: q

theorem NeatBody.append {a b : Str} (ha : NeatBody a) (hb : NeatBody b) : NeatBody (a ++ b) := by
  refine ⟨?_, ?_⟩
  · intro c hc
    rcases List.mem_append.1 hc with hc | hc
    · exact ha.bytes c hc
    · exact hb.bytes c hc
  · intro p q e
    rcases List.append_eq_append_iff.1 e with ⟨l, e1, e2⟩ | ⟨l, e1, e2⟩
    · obtain ⟨⟨w, hw, hs⟩, h3⟩ := hb.opened l q e2
      exact ⟨⟨w, hw, e1 ▸ hs.trans (List.suffix_append _ _)⟩, h3⟩
    · cases l with
      | nil =>
        obtain ⟨⟨w, hw, hs⟩, h3⟩ := hb.opened [] q (by simpa using e2.symm)
        exact ⟨⟨w, hw, hs.trans (List.nil_suffix)⟩, h3⟩
      | cons c l =>
        simp only [List.cons_append, List.cons.injEq] at e2
        obtain ⟨rfl, rfl⟩ := e2
        obtain ⟨h3, h4, h5, h6⟩ := ha.opened p l e1
        exact ⟨h3, by simp; omega, fun h => h5 ((prefix_two h4).1 h), fun h => h6 ((prefix_two h4).1 h)⟩

/-- A text without `<`. -/
theorem NeatBody.plain {t : Str} (h : ∀ c ∈ t, isRustByte c = true) (h3 : (60 : UInt8) ∉ t) : NeatBody t :=
  ⟨h, fun p q e => absurd (by rw [e]; simp) h3⟩

/-- A text that is complete. -/
structure Neat (t : Str) : Prop where
  body : NeatBody t
  head : ∃ c r, t = c :: r ∧ (isNameByte c = true ∨ c = 91 ∨ c = 40)
  last : ∃ c r, t = r ++ [c] ∧ (isNameByte c = true ∨ c = 62 ∨ c = 93 ∨ c = 41)
  unit : t ≠ b!"()"
  other : t ≠ b!"T"
  opening : ¬ b!"T>" <+: t ∧ ¬ b!"T," <+: t
  bounded : ¬ b!"BoundedBTreeSet" <+: t

theorem rustByte_of {c : UInt8} (h : isNameByte c = true) : isRustByte c = true := by simp [isRustByte, h]

theorem nameByte_notRust {c : UInt8} (h : isNameByte c = true) : c ∉ b!"<>[]; ,()" := by
  have := forall_byte (P := fun c => isNameByte c = true → c ∉ b!"<>[]; ,()") (by decide +kernel)
  exact this c h

theorem Neat.ne_nil {t : Str} (h : Neat t) : t ≠ [] := by
  obtain ⟨c, r, rfl, _⟩ := h.head
  simp

theorem Neat.trimmed {t : Str} (h : Neat t) : Trimmed t := by
  have ns : ∀ c, isNameByte c = true ∨ c = 91 ∨ c = 40 ∨ c = 62 ∨ c = 93 ∨ c = 41 → isSpace c = false :=
    forall_byte (P := fun c => isNameByte c = true ∨ c = 91 ∨ c = 40 ∨ c = 62 ∨ c = 93 ∨ c = 41 → isSpace c = false) (by decide +kernel)
  obtain ⟨c, r, e1, hc⟩ := h.head
  obtain ⟨d, q, e2, hd⟩ := h.last
  exact ⟨⟨c, r, e1, ns c (by tauto)⟩, d, q, e2, ns d (by tauto)⟩

/-- Complete texts mean themselves, except `Vec<u8>`. -/
theorem Neat.whole {t : Str} (h : Neat t) : (∀ x ∈ abbreviations, ¬ x <:+: t) ∧ t ∉ spellings := by
  have byte : ∀ {x : Str} {c : UInt8}, c ∈ x → isRustByte c = false → ¬ x <:+: t := by
    intro x c hc hb hi
    rw [h.body.bytes c (hi.subset hc)] at hb
    cases hb
  refine ⟨?_, ?_⟩
  · intro x hx
    simp only [abbreviations, List.mem_cons, List.not_mem_nil, or_false] at hx
    rcases hx with rfl | rfl | rfl | rfl | rfl | rfl | rfl
    · exact byte (c := 58) (by decide) (by decide)
    · rintro ⟨p, q, e⟩
      obtain ⟨⟨w, hw, hs⟩, _⟩ := h.body.opened (p ++ b!"VecDeque") q (by rw [← e]; simp)
      have h2 : b!"VecDeque" <:+ p ++ b!"VecDeque" := List.suffix_append _ _
      have key : ∀ w ∈ wrapWords, ¬ (w <:+ b!"VecDeque" ∨ b!"VecDeque" <:+ w) := by decide
      exact key w hw (suffix_of_suffix hs h2)
    · rintro ⟨p, q, e⟩
      obtain ⟨_, _, h3, _⟩ := h.body.opened p (b!"T>" ++ q) (by rw [← e]; simp)
      exact h3 (List.prefix_append _ _)
    · exact byte (c := 58) (by decide) (by decide)
    · rintro ⟨p, q, e⟩
      obtain ⟨_, _, _, h3⟩ := h.body.opened p (b!"T, I>" ++ q) (by rw [← e]; simp)
      exact h3 ⟨b!" I>" ++ q, by simp⟩
    · exact byte (c := 10) (by decide) (by decide)
    · exact byte (c := 38) (by decide) (by decide)
  · intro hm
    have key : ∀ x ∈ spellings, x = b!"()" ∨ ∃ c ∈ x, isRustByte c = false := by decide +kernel
    rcases key t hm with e | ⟨c, hc, hb⟩
    · exact h.unit e
    · exact byte hc hb (List.infix_refl _)

theorem Neat.verbatim {t : Str} (h : Neat t) (hv : ¬ SameName t b!"Vec<u8>") : Verbatim t :=
  ⟨h.trimmed, h.whole.1, h.whole.2, h.bounded, hv⟩

/-- Lists of bytes have another name. -/
theorem Neat.convert_bytes {t : Str} (h : Neat t) (hv : SameName t b!"Vec<u8>") : convertType t = b!"Bytes" := by
  have hr : ∀ x new, x ∈ abbreviations → replaceAll t x new = t := fun x new hx => replaceAll_not_infix (h.whole.1 x hx)
  have hb : hasPrefix t b!"BoundedBTreeSet" = false := by
    unfold hasPrefix
    rw [Bool.eq_false_iff]
    intro hp
    exact h.bounded (List.isPrefixOf_iff_prefix.1 hp)
  have hv : equalFold t b!"Vec<u8>" = true := by
    unfold equalFold
    rw [beq_iff_eq]
    exact (toLower_eq_iff _ _).2 hv
  unfold convertType
  simp only [trimSpace_trimmed h.trimmed, hr b!"T::" [] (by decide +kernel), hr b!"VecDeque<" b!"Vec<" (by decide +kernel),
    hr b!"<T>" [] (by decide +kernel), hr b!"<T as Trait>::" [] (by decide +kernel), hr b!"<T, I>" [] (by decide +kernel),
    hr b!"\n" b!" " (by decide +kernel), hr b!"&'static[u8]" b!"Bytes" (by decide +kernel), hb, hv, Bool.false_eq_true, if_false, if_true]
  decide

/-- The lower-case forms mean themselves too. -/
theorem Neat.verbatim_lower {t : Str} (h : Neat t) (hv : ¬ SameName t b!"Vec<u8>") : Verbatim (toLower t) := by
  have lb : ∀ c ∈ toLower t, isRustByte c = true ∧ ¬ (65 ≤ c.toNat ∧ c.toNat ≤ 90) := by
    intro c hc
    obtain ⟨d, hd, rfl⟩ := List.mem_map.1 hc
    have key := forall_byte (P := fun d => isRustByte d = true → isRustByte (lowerByte d) = true ∧
      ¬ (65 ≤ (lowerByte d).toNat ∧ (lowerByte d).toNat ≤ 90)) (by decide +kernel)
    exact key d (h.body.bytes d hd)
  have byte : ∀ {x : Str}, (∃ c ∈ x, ¬ (isRustByte c = true ∧ ¬ (65 ≤ c.toNat ∧ c.toNat ≤ 90))) → ¬ x <:+: toLower t := by
    rintro x ⟨c, hc, hn⟩ hi
    exact hn (lb c (hi.subset hc))
  refine ⟨trimmed_lower h.trimmed, ?_, ?_, ?_, ?_⟩
  · intro x hx
    exact byte ((by decide : ∀ x ∈ abbreviations, ∃ c ∈ x, ¬ (isRustByte c = true ∧ ¬ (65 ≤ c.toNat ∧ c.toNat ≤ 90))) x hx)
  · intro hm
    rcases (by decide : ∀ x ∈ spellings, x = b!"()" ∨ ∃ c ∈ x, ¬ (isRustByte c = true ∧ ¬ (65 ≤ c.toNat ∧ c.toNat ≤ 90))) _ hm with e | e
    · refine h.unit ?_
      have hl : t.length = 2 := by
        have := congrArg List.length e
        simpa [toLower] using this
      match t, hl with
      | [x, y], _ =>
        have e' : [lowerByte x, lowerByte y] = [40, 41] := e
        have key := forall_byte (P := fun d => (lowerByte d = 40 → d = 40) ∧ (lowerByte d = 41 → d = 41)) (by decide +kernel)
        rw [(key x).1 (List.cons.inj e').1, (key y).2 (List.cons.inj (List.cons.inj e').2).1]
    · exact byte e (List.infix_refl _)
  · intro hp
    exact byte (by decide) hp.isInfix
  · intro hs
    refine hv ?_
    rw [← toLower_eq_iff] at hs ⊢
    rw [← hs, toLower_idem]

/-! ## Composition -/

theorem Neat.word {s : Str} (h : PlainName s) (hT : s ≠ b!"T") (hb : ¬ b!"BoundedBTreeSet" <+: s) : Neat s := by
  have hn : ∀ c ∈ s, isNameByte c = true := List.all_eq_true.1 h.2
  have no : ∀ c ∈ b!"<>[]; ,()", c ∉ s := fun c hc hm => nameByte_notRust (hn c hm) hc
  refine ⟨.plain (fun c hc => rustByte_of (hn c hc)) (no _ (by decide)), ?_, ?_, ?_, hT, ⟨?_, ?_⟩, hb⟩
  · obtain ⟨c, r, e⟩ := List.exists_cons_of_ne_nil h.1
    exact ⟨c, r, e, .inl (hn c (by rw [e]; simp))⟩
  · exact ⟨s.getLast h.1, s.dropLast, (List.dropLast_concat_getLast h.1).symm, .inl (hn _ (List.getLast_mem h.1))⟩
  · rintro rfl; exact no 40 (by decide) (by decide)
  · exact fun hp => no 62 (by decide) (hp.subset (by decide))
  · exact fun hp => no 44 (by decide) (hp.subset (by decide))

/-- `word<text>` -/
theorem Neat.generic {w s : Str} (hw : w ∈ wrapWords) (hs : Neat s) : Neat (generic w s) := by
  have hwp : ∀ w ∈ wrapWords, (∀ c ∈ w, isNameByte c = true) ∧ (∃ c r, w = c :: r ∧ c ≠ 84 ∧ c ≠ 66 ∧ c ≠ 40) := by
    intro w hw
    simp only [wrapWords, List.mem_cons, List.not_mem_nil, or_false] at hw
    rcases hw with rfl | rfl | rfl <;> exact ⟨by decide, _, _, rfl, by decide, by decide, by decide⟩
  obtain ⟨hwn, cw, rw', ew, hT, hB, hP⟩ := hwp w hw
  have hwt : ∀ c ∈ b!"<>[]; ,()", c ∉ w := fun c hc hm => nameByte_notRust (hwn c hm) hc
  unfold Spec.generic
  refine ⟨⟨?_, ?_⟩, ?_, ?_, ?_, ?_, ?_, ?_⟩
  · intro c hc
    simp only [List.mem_append, List.mem_cons, List.not_mem_nil, or_false] at hc
    rcases hc with hc | rfl | hc | rfl
    · exact rustByte_of (hwn c hc)
    · decide
    · exact hs.body.bytes c hc
    · decide
  · intro p q e
    have first : p = w → s ++ [62] = q → (∃ w ∈ wrapWords, w <:+ p) ∧ 2 ≤ q.length ∧ ¬ b!"T>" <+: q ∧ ¬ b!"T," <+: q := by
      intro e1 e2
      refine ⟨⟨w, hw, e1 ▸ List.suffix_refl _⟩, ?_, ?_⟩
      · have := List.length_pos_iff.2 hs.ne_nil
        rw [← e2]; simp; omega
      · rw [← e2]
        match s, hs.ne_nil with
        | [x], _ =>
          refine ⟨fun hp => ?_, fun hp => ?_⟩
          · simp only [List.cons_append, List.nil_append, List.cons_prefix_cons] at hp
            exact hs.other (by rw [← hp.1])
          · simp only [List.cons_append, List.nil_append, List.cons_prefix_cons] at hp
            exact hs.other (by rw [← hp.1])
        | x :: y :: s, _ =>
          exact ⟨fun hp => hs.opening.1 ((prefix_two (by simp)).1 hp), fun hp => hs.opening.2 ((prefix_two (by simp)).1 hp)⟩
    rcases List.append_eq_append_iff.1 e with ⟨l, e1, e2⟩ | ⟨l, e1, e2⟩
    · cases l with
      | nil =>
        simp only [List.nil_append, List.cons.injEq, true_and] at e2
        rw [List.append_nil] at e1
        exact first e1 e2
      | cons c l =>
        simp only [List.cons_append, List.cons.injEq] at e2
        obtain ⟨rfl, e2⟩ := e2
        rcases List.append_eq_append_iff.1 e2 with ⟨k, e3, e4⟩ | ⟨k, e3, e4⟩
        · cases k with
          | nil => simp at e4
          | cons d k => simp at e4
        · cases k with
          | nil => simp at e4
          | cons d k =>
            simp only [List.cons_append, List.cons.injEq] at e4
            obtain ⟨rfl, rfl⟩ := e4
            obtain ⟨⟨w', hw', h3⟩, h4, h5, h6⟩ := hs.body.opened l k e3
            refine ⟨⟨w', hw', h3.trans ?_⟩, by simp; omega, fun h => h5 ((prefix_two h4).1 h), fun h => h6 ((prefix_two h4).1 h)⟩
            rw [e1]
            exact ⟨w ++ [60], by simp⟩
    · cases l with
      | nil =>
        simp only [List.nil_append, List.cons.injEq, true_and] at e2
        rw [List.append_nil] at e1
        exact first e1.symm e2.symm
      | cons c l =>
        simp only [List.cons_append, List.cons.injEq] at e2
        exact absurd (by rw [e1, ← e2.1]; simp) (hwt 60 (by decide))
  · exact ⟨cw, _, by rw [ew]; rfl, .inl (hwn _ (by rw [ew]; simp))⟩
  · exact ⟨62, w ++ 60 :: s, by simp, .inr (.inl rfl)⟩
  · rw [ew]
    intro h
    exact hP (List.cons.inj h).1
  · rw [ew]
    intro h
    exact hT (List.cons.inj h).1
  · rw [ew]
    refine ⟨fun h => ?_, fun h => ?_⟩ <;>
    · simp only [List.cons_append, List.cons_prefix_cons] at h
      exact hT h.1.symm
  · rw [ew]
    intro h
    simp only [List.cons_append, List.cons_prefix_cons] at h
    exact hB h.1.symm

theorem NeatBody.digits (n : Nat) : NeatBody (natToDec n) := by
  have hn : ∀ c ∈ natToDec n, isNameByte c = true := fun c hc => digit_name (List.all_eq_true.1 (natToDec_digits n) c hc)
  exact .plain (fun c hc => rustByte_of (hn c hc)) (fun hm => nameByte_notRust (hn _ hm) (by decide))

/-- `[text; n]` -/
theorem Neat.array {s : Str} (n : Nat) (hs : Neat s) : Neat (arrayText s 1 n) := by
  have e : arrayText s 1 n = b!"[" ++ (s ++ (b!"; " ++ (natToDec n ++ b!"]"))) := by simp [arrayText]
  have l : ∀ t ∈ [b!"[", b!"; ", b!"]"], NeatBody t := by
    intro t ht
    simp only [List.mem_cons, List.not_mem_nil, or_false] at ht
    rcases ht with rfl | rfl | rfl <;> exact .plain (by decide) (by decide)
  rw [e]
  refine ⟨(l _ (by simp)).append (hs.body.append ((l _ (by simp)).append ((NeatBody.digits n).append (l _ (by simp))))), ⟨91, _, rfl, .inr (.inl rfl)⟩,
    ⟨93, b!"[" ++ (s ++ (b!"; " ++ natToDec n)), by simp, .inr (.inr (.inl rfl))⟩, ?_, ?_, ⟨?_, ?_⟩, ?_⟩
  · intro h; cases (List.cons.inj h).1
  · intro h; cases (List.cons.inj h).1
  · rintro ⟨r, h⟩; cases (List.cons.inj h).1
  · rintro ⟨r, h⟩; cases (List.cons.inj h).1
  · rintro ⟨r, h⟩; cases (List.cons.inj h).1

/-- `(text, text)` -/
theorem Neat.tuple {ms : List Str} (hne : ms ≠ []) (h : ∀ m ∈ ms, Neat m) : Neat (b!"(" ++ commaText ms ++ b!")") := by
  have l : ∀ t ∈ [b!"(", b!", ", b!")"], NeatBody t := by
    intro t ht
    simp only [List.mem_cons, List.not_mem_nil, or_false] at ht
    rcases ht with rfl | rfl | rfl <;> exact .plain (by decide) (by decide)
  have key : ∀ {ms : List Str}, ms ≠ [] → (∀ m ∈ ms, Neat m) → NeatBody (commaText ms) ∧ commaText ms ≠ [] := by
    intro ms
    induction ms with
    | nil => intro h; exact absurd rfl h
    | cons m ms ih =>
      intro _ h
      have hm := h m (by simp)
      cases ms with
      | nil => exact ⟨hm.body, hm.ne_nil⟩
      | cons n ms =>
        obtain ⟨h1, _⟩ := ih (by simp) fun x hx => h x (by simp at hx ⊢; tauto)
        exact ⟨(hm.body.append (l _ (by simp))).append h1, by simp [commaText]⟩
  obtain ⟨hb, hn⟩ := key hne h
  have e : b!"(" ++ commaText ms ++ b!")" = 40 :: (commaText ms ++ [41]) := by simp
  refine ⟨((l _ (by simp)).append hb).append (l _ (by simp)), ⟨40, _, e, .inr (.inr rfl)⟩, ⟨41, b!"(" ++ commaText ms, rfl, .inr (.inr (.inr rfl))⟩, ?_, ?_, ⟨?_, ?_⟩, ?_⟩
  · rw [e]
    intro h
    have h2 : commaText ms ++ [41] = [] ++ [41] := (List.cons.inj h).2
    exact hn (List.append_cancel_right h2)
  · rw [e]; intro h; cases (List.cons.inj h).1
  · rw [e]; rintro ⟨r, h⟩; cases (List.cons.inj h).1
  · rw [e]; rintro ⟨r, h⟩; cases (List.cons.inj h).1
  · rw [e]; rintro ⟨r, h⟩; cases (List.cons.inj h).1

/-! ## Rust types -/

theorem generic_text (w t : Str) : w ++ b!"<" ++ t ++ b!">" = generic w t := by simp [generic]

theorem vec_text (t : Str) : b!"Vec<" ++ t ++ b!">" = generic b!"Vec" t := by simp [generic]
theorem option_text (t : Str) : b!"Option<" ++ t ++ b!">" = generic b!"Option" t := by simp [generic]
theorem compact_text (t : Str) : b!"Compact<" ++ t ++ b!">" = generic b!"Compact" t := by simp [generic]
theorem array_text (t : Str) (n : Nat) : b!"[" ++ t ++ b!"; " ++ natToDec n ++ b!"]" = arrayText t 1 n := by simp [arrayText]

/-- Words that can serve as names. -/
structure Word (w : Str) : Prop where
  plain : PlainName w
  long : 2 ≤ w.length
  bounded : ¬ b!"BoundedBTreeSet" <+: w
  deque : ¬ b!"VecDeque" <:+ w
  null : toLower w ≠ b!"null"
  origin : toLower w ≠ b!"origincaller"
  u8 : toLower w = b!"u8" → w = b!"u8"
  bool : toLower w = b!"bool" → w = b!"bool"

/-- Collections of names that are words and include the most basic types; the types of the compact names are names too. -/
structure Wordy (N : Names) : Prop where
  word : ∀ {w sh}, N.type w sh → Word w
  compact : ∀ {w n d}, N.compact w n d → ∃ sh, N.type w sh
  u8 : N.type b!"u8" (.uint 1)
  u32 : N.type b!"u32" (.uint 4)
  bool : N.type b!"bool" .bool

theorem Word.neat {w : Str} (h : Word w) : Neat w := .word h.plain (by rintro rfl; exact absurd h.long (by decide)) h.bounded

/-- The names of Substrate. -/
theorem substrate_wordy : Wordy substrate where
  word {w sh} h := by
    have : ∀ w ∈ runtimeTypes.map Prod.fst, PlainName w ∧ 2 ≤ w.length ∧ ¬ b!"BoundedBTreeSet" <+: w ∧ ¬ b!"VecDeque" <:+ w ∧ toLower w ≠ b!"null" ∧
      toLower w ≠ b!"origincaller" ∧ (toLower w = b!"u8" → w = b!"u8") ∧ (toLower w = b!"bool" → w = b!"bool") := by decide +kernel
    obtain ⟨h1, h2, h3, h4, h5, h6, h7, h8⟩ := this w (List.mem_map.2 ⟨_, h, rfl⟩)
    exact ⟨h1, h2, h3, h4, h5, h6, h7, h8⟩
  compact {w n d} h := by
    have := (by decide +kernel : ∀ p ∈ compactTypes, runtimeTypes.any (fun q => q.1 == p.1) = true) _ h
    obtain ⟨⟨w', sh⟩, hq, e⟩ := List.any_eq_true.1 this
    cases beq_iff_eq.1 e
    exact ⟨sh, hq⟩
  u8 := by simp [substrate, runtimeTypes]
  u32 := by simp [substrate, runtimeTypes]
  bool := by simp [substrate, runtimeTypes]

section
variable {N : Names} (hN : Wordy N)
include hN

theorem compacts_word {w : Str} {n : Nat} {d : Bool} (h : N.compact w n d) : Word w := by
  obtain ⟨sh, h⟩ := hN.compact h
  exact hN.word h

theorem over_neat {t : Str} (h : TypeOver N t) : Neat t := by
  induction h with
  | name h => exact (hN.word h).neat
  | compact32 => exact .generic (w := b!"Compact") (s := b!"u32") (by decide) (hN.word hN.u32).neat
  | compact h => rw [compact_text]; exact .generic (by decide) (compacts_word hN h).neat
  | vec _ ih => rw [vec_text]; exact .generic (by decide) ih
  | option _ ih => rw [option_text]; exact .generic (by decide) ih
  | array n _ ih => rw [array_text]; exact .array n ih
  | tuple ms hne _ ih => exact .tuple hne ih

end

theorem rust_neat {t : Str} (h : RustType t) : Neat t := over_neat substrate_wordy h

end ScaleGo
