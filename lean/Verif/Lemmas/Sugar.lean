import Verif.Lemmas.NeatText
import Mathlib.Data.List.Infix

/-! # Rewriting of generic type texts -/

namespace ScaleGo
open _root_.Spec (Names substrate TypeOver RustType commaText TraitMark GenericMark Marked SugarOver Sugar)
open ScaleGo.Spec

/-- The rewritings, in the order of the library. -/
def rewritings : List (Str × Str) :=
  [(b!"T::", []), (b!"VecDeque<", b!"Vec<"), (b!"<T>", []), (b!"<T as Trait>::", []), (b!"<T, I>", [])]

/-- The marks that are rewritten. -/
def knownMarks : List Str := rewritings.map Prod.fst

theorem replaceAll_token {pat new r : Str} (tok : Str) (h : ∀ s ∈ tok.tails, s ≠ [] → ¬ pat <+: s ++ r) :
    replaceAll (tok ++ r) pat new = tok ++ replaceAll r pat new := by
  unfold replaceAll
  induction tok with
  | nil => rfl
  | cons c tok ih =>
    have h1 : pat.isPrefixOf (c :: (tok ++ r)) = false := by
      rw [Bool.eq_false_iff]
      intro hp
      exact h (c :: tok) (by simp) (by simp) (List.isPrefixOf_iff_prefix.1 hp)
    show replaceAllAux pat new 0 (c :: (tok ++ r)) = _
    rw [replaceAllAux, h1]
    simp only [Bool.false_eq_true, if_false, List.cons_append]
    rw [ih fun s hs => h s (by simp [hs])]

theorem replaceAll_here {pat new r : Str} (hp : pat ≠ []) : replaceAll (pat ++ r) pat new = new ++ replaceAll r pat new := by
  obtain ⟨c, p, rfl⟩ := List.exists_cons_of_ne_nil hp
  unfold replaceAll
  have h1 : (c :: p).isPrefixOf (c :: (p ++ r)) = true := List.isPrefixOf_iff_prefix.2 ⟨r, rfl⟩
  show replaceAllAux (c :: p) new 0 (c :: (p ++ r)) = _
  rw [replaceAllAux, if_pos h1]
  have : (c :: p).length - 1 = p.length := by simp
  rw [this, replaceAllAux_skip]

/-- A token without the first character of the pattern. -/
theorem replaceAll_other {pat new r tok : Str} {c : UInt8} (hc : pat.head? = some c) (h : c ∉ tok) :
    replaceAll (tok ++ r) pat new = tok ++ replaceAll r pat new := by
  refine replaceAll_token tok fun s hs hne hp => ?_
  obtain ⟨x, s, rfl⟩ := List.exists_cons_of_ne_nil hne
  cases pat with
  | nil => cases hc
  | cons d pat =>
    cases hc
    obtain ⟨t, ht⟩ := hp
    have : x = c := (List.cons.inj ht).1.symm
    subst this
    exact h (((List.mem_tails _ _).1 hs).subset (by simp))

/-- A token none of whose ends agrees with the pattern. -/
theorem replaceAll_clash {pat new r tok : Str} (h : ∀ s ∈ tok.tails, s ≠ [] → ¬ pat <+: s ∧ ¬ s <+: pat) :
    replaceAll (tok ++ r) pat new = tok ++ replaceAll r pat new := by
  refine replaceAll_token tok fun s hs hne hp => ?_
  obtain ⟨h1, h2⟩ := h s hs hne
  rcases List.prefix_or_prefix_of_prefix hp (List.prefix_append s r) with h | h
  · exact h1 h
  · exact h2 h

/-- The texts that follow a type. -/
def Follow (r : Str) : Prop := ∀ c ∈ r.head?, c ∈ b!">;,)]<"

/-- A token whose ends that begin the pattern cannot be continued by what follows a type. -/
theorem replaceAll_word {pat new r tok : Str} (hr : Follow r)
    (h : ∀ s ∈ tok.tails, s ≠ [] → ¬ pat <+: s ∧ (s <+: pat → ((pat.drop s.length).head?.any fun c => !(b!">;,)]<").contains c) = true)) :
    replaceAll (tok ++ r) pat new = tok ++ replaceAll r pat new := by
  refine replaceAll_token tok fun s hs hne hp => ?_
  obtain ⟨h1, h2⟩ := h s hs hne
  rcases List.prefix_or_prefix_of_prefix hp (List.prefix_append s r) with h | h
  · exact h1 h
  · have hn := h2 h
    obtain ⟨p, rfl⟩ := h
    rw [List.prefix_append_right_inj] at hp
    rw [List.drop_left] at hn
    obtain ⟨t, rfl⟩ := hp
    cases p with
    | nil => cases hn
    | cons d p =>
      have : d ∈ b!">;,)]<" := hr _ rfl
      simp at this hn
      tauto

/-- Texts that do not begin like the parameters of a type. -/
def Begins (r : Str) : Prop := ∃ c d t, r = c :: d :: t ∧ (c ≠ 84 ∨ d ∉ b!"> ,")

theorem Begins.append {r : Str} (h : Begins r) (s : Str) : Begins (r ++ s) := by
  obtain ⟨c, d, t, rfl, h⟩ := h
  exact ⟨c, d, t ++ s, rfl, h⟩

/-- A token whose ends that begin the pattern cannot be continued by a type. -/
theorem replaceAll_open {pat new r tok : Str} (hr : Begins r)
    (h : ∀ s ∈ tok.tails, s ≠ [] → ¬ pat <+: s ∧ (s <+: pat → s = [60] ∧ ((b!"> ,").any fun d => ([60, 84, d] : Str).isPrefixOf pat) = true)) :
    replaceAll (tok ++ r) pat new = tok ++ replaceAll r pat new := by
  refine replaceAll_token tok fun s hs hne hp => ?_
  obtain ⟨h1, h2⟩ := h s hs hne
  rcases List.prefix_or_prefix_of_prefix hp (List.prefix_append s r) with h | h
  · exact h1 h
  · obtain ⟨rfl, hq⟩ := h2 h
    obtain ⟨d, hd, hq⟩ := List.any_eq_true.1 hq
    rw [List.isPrefixOf_iff_prefix] at hq
    obtain ⟨c, e, t, rfl, hr⟩ := hr
    obtain ⟨u, hu⟩ := hq.trans hp
    simp only [List.cons_append, List.nil_append, List.cons.injEq, true_and] at hu
    obtain ⟨rfl, rfl, -⟩ := hu
    rcases hr with h | h
    · exact h rfl
    · exact h hd

/-! ## One rewriting -/

theorem word_kept {w : Str} (hw : Word w) : ∀ p ∈ rewritings, ∀ s ∈ w.tails, s ≠ [] →
    ¬ p.1 <+: s ∧ (s <+: p.1 → ((p.1.drop s.length).head?.any fun c => !(b!">;,)]<").contains c) = true) := by
  intro p hp s hs hne
  rw [List.mem_tails] at hs
  have hn : ∀ c ∈ s, isNameByte c = true := fun c hc => List.all_eq_true.1 hw.plain.2 c (hs.subset hc)
  refine ⟨fun h => ?_, fun h => ?_⟩
  · obtain ⟨c, hc, hb⟩ := (by decide +kernel : ∀ p ∈ rewritings, ∃ c ∈ p.1, isNameByte c = false) p hp
    rw [hn c (h.subset hc)] at hb
    cases hb
  · refine (by decide +kernel : ∀ p ∈ rewritings, ∀ s ∈ p.1.inits, s ≠ [] → (∀ c ∈ s, isNameByte c = true) → s ≠ b!"VecDeque" →
      ((p.1.drop s.length).head?.any fun c => !(b!">;,)]<").contains c) = true) p hp s ((List.mem_inits _ _).2 h) hne hn ?_
    rintro rfl
    exact hw.deque hs

theorem marks_kept : ∀ p ∈ rewritings, ∀ m ∈ [b!"T::", b!"<T as Trait>::", b!"<T>", b!"<T, I>"], m ≠ p.1 → ∀ s ∈ m.tails, s ≠ [] → ¬ p.1 <+: s ∧ ¬ s <+: p.1 := by
  decide +kernel

theorem opens_kept : ∀ p ∈ rewritings, ∀ m ∈ [b!"Vec<", b!"VecDeque<", b!"Option<", b!"Compact<", b!"[", b!"("], m ≠ p.1 → ∀ s ∈ m.tails, s ≠ [] →
    ¬ p.1 <+: s ∧ (s <+: p.1 → s = [60] ∧ ((b!"> ,").any fun d => ([60, 84, d] : Str).isPrefixOf p.1) = true) := by decide +kernel

theorem closes_kept : ∀ p ∈ rewritings, ∀ c ∈ p.1.head?, c ∈ b!"TV<" := by decide +kernel

theorem marks_removed : ∀ p ∈ rewritings, p.1 ≠ b!"VecDeque<" → p.2 = [] := by decide +kernel

theorem word_begins {w : Str} (hw : Word w) : Begins w := by
  match w, hw.long, hw.plain with
  | c :: d :: t, _, h =>
    refine ⟨c, d, t, rfl, .inr fun hd => nameByte_notRust (List.all_eq_true.1 h.2 d (by simp)) ?_⟩
    exact (by decide : ∀ d ∈ b!"> ,", d ∈ b!"<>[]; ,()") d hd

theorem marked_begins {D : Str → Prop} {r w : Str} (h : Marked D r w) (hw : Word w) : Begins r := by
  obtain ⟨p, s, hp, -, rfl⟩ := h
  rw [List.append_assoc]
  rcases hp with rfl | ⟨rfl | rfl | rfl, -⟩
  · exact (word_begins hw).append s
  · exact ⟨84, 58, _, rfl, .inr (by decide)⟩
  · exact ⟨60, 84, _, rfl, .inl (by decide)⟩
  · exact ⟨60, 84, _, rfl, .inl (by decide)⟩

theorem compact_words {N : Names} (hN : Wordy N) {w : Str} (h : w = b!"u32" ∨ ∃ n d, N.compact w n d) : Word w := by
  rcases h with rfl | ⟨n, d, h⟩
  · exact hN.word hN.u32
  · exact compacts_word hN h

theorem comma_begins {ms : List Str} (hne : ms ≠ []) (h : ∀ m ∈ ms, Begins m) : Begins (commaText ms) := by
  cases ms with
  | nil => exact absurd rfl hne
  | cons m ms =>
    cases ms with
    | nil => exact h m (by simp)
    | cons n ms =>
      show Begins (m ++ b!", " ++ commaText (n :: ms))
      rw [List.append_assoc]
      exact (h m (by simp)).append _

theorem sugar_begins {N : Names} (hN : Wordy N) {D : Str → Prop} {r t : Str} (h : SugarOver N D r t) : Begins r := by
  induction h with
  | name h hm => exact marked_begins hm (hN.word h)
  | compact h hm => exact ⟨67, 111, _, rfl, .inl (by decide)⟩
  | vec _ _ => exact ⟨86, 101, _, rfl, .inl (by decide)⟩
  | deque _ _ _ => exact ⟨86, 101, _, rfl, .inl (by decide)⟩
  | option _ _ => exact ⟨79, 112, _, rfl, .inl (by decide)⟩
  | array n _ ih =>
    obtain ⟨c, d, t, rfl, -⟩ := ih
    exact ⟨91, c, _, rfl, .inl (by decide)⟩
  | tuple ps hne _ ih =>
    obtain ⟨c, d, t, e, -⟩ : Begins _ := comma_begins (ms := ps.map Prod.fst) (by simpa using hne) (by
      intro m hm
      obtain ⟨p, hp, rfl⟩ := List.mem_map.1 hm
      exact ih p hp)
    rw [e]
    exact ⟨40, c, _, rfl, .inl (by decide)⟩

section
variable {D : Str → Prop} {pat new : Str} (hp : (pat, new) ∈ rewritings)
include hp

theorem close_step {tok : Str} (h : ∀ c ∈ tok, c ∉ b!"TV<") (r : Str) : replaceAll (tok ++ r) pat new = tok ++ replaceAll r pat new := by
  cases e : pat.head? with
  | none =>
    exfalso
    exact (by decide +kernel : ∀ p ∈ rewritings, p.1.head? ≠ none) _ hp e
  | some c => exact replaceAll_other e fun hc => h c hc (closes_kept _ hp c e)

theorem open_step {tok r : Str} (hm : tok ∈ [b!"Vec<", b!"VecDeque<", b!"Option<", b!"Compact<", b!"[", b!"("]) (hne : tok ≠ pat) (hr : Begins r) :
    replaceAll (tok ++ r) pat new = tok ++ replaceAll r pat new := replaceAll_open hr (opens_kept _ hp tok hm hne)

theorem pat_ne : pat ≠ [] := fun e => (by decide +kernel : ∀ p ∈ rewritings, p.1 ≠ []) _ hp e

theorem mark_step {m : Str} (hm : m ∈ [b!"T::", b!"<T as Trait>::", b!"<T>", b!"<T, I>"]) (r : Str) :
    replaceAll (m ++ r) pat new = (if m = pat then [] else m) ++ replaceAll r pat new := by
  by_cases e : m = pat
  · subst e
    have : new = [] := marks_removed _ hp (fun h => absurd hm (by rw [show m = b!"VecDeque<" from h]; decide))
    rw [if_pos rfl, replaceAll_here (pat_ne hp), this]
  · rw [if_neg e]
    exact replaceAll_clash (marks_kept _ hp m hm e)

theorem opt_mark_step {m : Str} (hm : m = [] ∨ m ∈ [b!"T::", b!"<T as Trait>::", b!"<T>", b!"<T, I>"]) (r : Str) :
    replaceAll (m ++ r) pat new = (if m = pat then [] else m) ++ replaceAll r pat new := by
  rcases hm with rfl | hm
  · simp
  · exact mark_step hp hm r

theorem marked_step (hD : ∀ x, D x → x ∈ knownMarks) {r w : Str} (h : Marked D r w) (hw : Word w) :
    ∃ mid, Marked (fun x => D x ∧ x ≠ pat) mid w ∧ ∀ f, Follow f → replaceAll (r ++ f) pat new = mid ++ replaceAll f pat new := by
  obtain ⟨p, s, h1, h2, rfl⟩ := h
  have h1' : p = [] ∨ p ∈ [b!"T::", b!"<T as Trait>::", b!"<T>", b!"<T, I>"] := by
    rcases h1 with h | ⟨rfl | rfl | rfl, h⟩
    · exact .inl h
    · exact .inr (by simp)
    · exact .inr (by simp)
    · exact absurd (hD _ h) (by decide)
  have h2' : s = [] ∨ s ∈ [b!"T::", b!"<T as Trait>::", b!"<T>", b!"<T, I>"] := by
    rcases h2 with h | ⟨rfl | rfl, h⟩
    · exact .inl h
    · exact .inr (by simp)
    · exact .inr (by simp)
  refine ⟨(if p = pat then [] else p) ++ w ++ (if s = pat then [] else s), ⟨_, _, ?_, ?_, rfl⟩, ?_⟩
  · by_cases e : p = pat
    · simp [e]
    · rw [if_neg e]
      exact h1.imp_right fun h => ⟨h.1, h.2, e⟩
  · by_cases e : s = pat
    · simp [e]
    · rw [if_neg e]
      exact h2.imp_right fun h => ⟨h.1, h.2, e⟩
  · intro f hf
    have hf' : Follow (s ++ f) := by
      rcases h2 with rfl | ⟨rfl | rfl, -⟩
      · exact hf
      · intro c hc; cases hc; decide
      · intro c hc; cases hc; decide
    rw [show p ++ w ++ s ++ f = p ++ (w ++ (s ++ f)) by simp, opt_mark_step hp h1', replaceAll_word hf' (word_kept hw _ hp), opt_mark_step hp h2']
    simp

theorem sugar_step {N : Names} (hN : Wordy N) (hD : ∀ x, D x → x ∈ knownMarks) {r t : Str} (h : SugarOver N D r t) :
    ∃ mid, SugarOver N (fun x => D x ∧ x ≠ pat) mid t ∧ ∀ f, Follow f → replaceAll (r ++ f) pat new = mid ++ replaceAll f pat new := by
  have gt : ∀ f, Follow (b!">" ++ f) := fun f c hc => by cases hc; decide
  have gen : ∀ {tok mid r f : Str}, tok ∈ [b!"Vec<", b!"VecDeque<", b!"Option<", b!"Compact<", b!"[", b!"("] → tok ≠ pat → Begins r →
      (∀ f, Follow f → replaceAll (r ++ f) pat new = mid ++ replaceAll f pat new) →
      replaceAll (tok ++ r ++ b!">" ++ f) pat new = tok ++ mid ++ b!">" ++ replaceAll f pat new := by
    intro tok mid r f h1 h2 h3 h4
    rw [show tok ++ r ++ b!">" ++ f = tok ++ (r ++ (b!">" ++ f)) by simp, open_step hp h1 h2 (h3.append _), h4 _ (gt f),
      close_step hp (by decide)]
    simp
  have small : ∀ {tok : Str}, tok ∈ [b!"Vec<", b!"Option<", b!"Compact<", b!"[", b!"("] → tok ≠ pat := fun h e =>
    (by decide +kernel : ∀ p ∈ rewritings, p.1 ∉ [b!"Vec<", b!"Option<", b!"Compact<", b!"[", b!"("]) _ hp (e ▸ h)
  induction h with
  | name h hm =>
    obtain ⟨mid, h1, h2⟩ := marked_step hp hD hm (hN.word h)
    exact ⟨mid, .name h h1, h2⟩
  | compact h hm =>
    obtain ⟨mid, h1, h2⟩ := marked_step hp hD hm (compact_words hN h)
    exact ⟨_, .compact h h1, fun f hf => gen (by simp) (small (by simp)) (marked_begins hm (compact_words hN h)) h2⟩
  | vec h ih =>
    obtain ⟨mid, h1, h2⟩ := ih
    exact ⟨_, .vec h1, fun f hf => gen (by simp) (small (by simp)) (sugar_begins hN h) h2⟩
  | option h ih =>
    obtain ⟨mid, h1, h2⟩ := ih
    exact ⟨_, .option h1, fun f hf => gen (by simp) (small (by simp)) (sugar_begins hN h) h2⟩
  | @deque r t hd h ih =>
    obtain ⟨mid, h1, h2⟩ := ih
    by_cases e : b!"VecDeque<" = pat
    · subst e
      have hn : new = b!"Vec<" := by
        have := (by decide +kernel : ∀ p ∈ rewritings, p.1 = b!"VecDeque<" → p.2 = b!"Vec<") _ hp rfl
        exact this
      subst hn
      refine ⟨_, .vec h1, fun f hf => ?_⟩
      rw [show b!"VecDeque<" ++ r ++ b!">" ++ f = b!"VecDeque<" ++ (r ++ (b!">" ++ f)) by simp, replaceAll_here (by simp), h2 _ (gt f),
        close_step hp (by decide)]
      simp
    · exact ⟨_, .deque ⟨hd, e⟩ h1, fun f hf => gen (by simp) e (sugar_begins hN h) h2⟩
  | @array r t n h ih =>
    obtain ⟨mid, h1, h2⟩ := ih
    refine ⟨_, .array n h1, fun f hf => ?_⟩
    have hd : ∀ c ∈ natToDec n, c ∉ b!"TV<" := fun c hc => by
      have := List.all_eq_true.1 (natToDec_digits n) c hc
      exact forall_byte (P := fun c => isDigit c = true → c ∉ b!"TV<") (by decide +kernel) c this
    rw [show b!"[" ++ r ++ b!"; " ++ natToDec n ++ b!"]" ++ f = b!"[" ++ (r ++ (b!"; " ++ (natToDec n ++ (b!"]" ++ f)))) by simp,
      open_step hp (by simp) (small (by simp)) ((sugar_begins hN h).append _), h2 _ (fun c hc => by cases hc; decide), close_step hp (by decide),
      close_step hp hd, close_step hp (by decide)]
    simp
  | tuple ps hne h ih =>
    choose! m h1 h2 using ih
    have key : ∀ (qs : List (Str × Str)), (∀ q ∈ qs, q ∈ ps) → qs ≠ [] → ∀ f, Follow f →
        replaceAll (commaText (qs.map Prod.fst) ++ f) pat new = commaText (qs.map m) ++ replaceAll f pat new := by
      intro qs
      induction qs with
      | nil => intro _ h; exact absurd rfl h
      | cons q qs ih =>
        intro hq _ f hf
        cases qs with
        | nil => exact h2 q (hq q (by simp)) f hf
        | cons q' qs =>
          have := ih (fun x hx => hq x (by simp at hx ⊢; tauto)) (by simp) f hf
          simp only [List.map_cons, commaText] at this ⊢
          rw [List.append_assoc, List.append_assoc, h2 q (hq q (by simp)) _ (fun c hc => by cases hc; decide), close_step hp (by decide), this]
          simp
    have hb : Begins (commaText (ps.map Prod.fst)) := comma_begins (by simpa using hne) (by
      intro x hx
      obtain ⟨p, hp, rfl⟩ := List.mem_map.1 hx
      exact sugar_begins hN (h p hp))
    refine ⟨b!"(" ++ commaText (ps.map m) ++ b!")", ?_, fun f hf => ?_⟩
    · have := SugarOver.tuple (N := N) (D := fun x => D x ∧ x ≠ pat) (ps.map fun p => (m p, p.2)) (by simpa using hne) (by
        intro x hx
        obtain ⟨p, hp, rfl⟩ := List.mem_map.1 hx
        exact h1 p hp)
      simpa [Function.comp_def] using this
    · rw [show b!"(" ++ commaText (ps.map Prod.fst) ++ b!")" ++ f = b!"(" ++ (commaText (ps.map Prod.fst) ++ (b!")" ++ f)) by simp,
        open_step hp (by simp) (small (by simp)) (hb.append _), key ps (fun _ h => h) hne _ (fun c hc => by cases hc; decide),
        close_step hp (by decide)]
      simp

end

/-! ## All rewritings -/

theorem marked_clean {D : Str → Prop} (hD : ∀ x, ¬ D x) {r w : Str} (h : Marked D r w) : r = w := by
  obtain ⟨p, s, h1, h2, rfl⟩ := h
  rcases h1 with rfl | ⟨-, h⟩
  · rcases h2 with rfl | ⟨-, h⟩
    · simp
    · exact absurd h (hD _)
  · exact absurd h (hD _)

theorem sugar_clean {N : Names} {D : Str → Prop} (hD : ∀ x, ¬ D x) {r t : Str} (h : SugarOver N D r t) : r = t := by
  induction h with
  | name _ hm => exact marked_clean hD hm
  | compact _ hm => rw [marked_clean hD hm]
  | vec _ ih => rw [ih]
  | deque h _ _ => exact absurd h (hD _)
  | option _ ih => rw [ih]
  | array n _ ih => rw [ih]
  | tuple ps _ _ ih =>
    have : ps.map Prod.fst = ps.map Prod.snd := List.map_congr_left ih
    rw [this]

theorem sugar_over {N : Names} {D : Str → Prop} {r t : Str} (h : SugarOver N D r t) : TypeOver N t := by
  induction h with
  | name h _ => exact .name h
  | compact h _ =>
    rcases h with rfl | ⟨n, d, h⟩
    · exact .compact32
    · exact .compact h
  | vec _ ih => exact .vec ih
  | deque _ _ ih => exact .vec ih
  | option _ ih => exact .option ih
  | array n _ ih => exact .array n ih
  | tuple ps hne _ ih =>
    refine .tuple _ (by simpa using hne) fun m hm => ?_
    obtain ⟨p, hp, rfl⟩ := List.mem_map.1 hm
    exact ih p hp

theorem sugar_trimmed {N : Names} (hN : Wordy N) {D : Str → Prop} {r t : Str} (h : SugarOver N D r t) : Trimmed r := by
  have wrap : ∀ {a : UInt8} {b c : Str} {d : UInt8}, isSpace a = false → isSpace d = false → Trimmed (a :: b ++ c ++ [d]) := fun ha hd =>
    ⟨⟨_, _, rfl, ha⟩, ⟨_, _, rfl, hd⟩⟩
  cases h with
  | name h hm =>
    obtain ⟨p, s, h1, h2, rfl⟩ := hm
    obtain ⟨⟨x, u, e1, hx⟩, ⟨y, z, e2, hy⟩⟩ := (hN.word h).neat.trimmed
    constructor
    · rcases h1 with rfl | ⟨rfl | rfl | rfl, -⟩
      · exact ⟨x, u ++ s, by simp [e1], hx⟩
      · exact ⟨84, _, rfl, by decide⟩
      · exact ⟨60, _, rfl, by decide⟩
      · exact ⟨60, _, rfl, by decide⟩
    · rcases h2 with rfl | ⟨rfl | rfl, -⟩
      · exact ⟨y, p ++ z, by simp [e2], hy⟩
      · exact ⟨62, p ++ t ++ b!"<T", by simp, by decide⟩
      · exact ⟨62, p ++ t ++ b!"<T, I", by simp, by decide⟩
  | compact _ _ => exact wrap (by decide) (by decide)
  | vec _ => exact wrap (by decide) (by decide)
  | deque _ _ => exact wrap (by decide) (by decide)
  | option _ => exact wrap (by decide) (by decide)
  | array n _ => exact ⟨⟨91, _, rfl, by decide⟩, ⟨93, _, rfl, by decide⟩⟩
  | tuple ps _ _ => exact wrap (by decide) (by decide)

/-- Texts of generic code are rewritten to the texts without the marks. -/
theorem convert_sugar {N : Names} (hN : Wordy N) {r t : Str} (h : SugarOver N (· ∈ knownMarks) r t) : convertType r = convertType t := by
  have step : ∀ {D : Str → Prop} {p new r : Str}, (p, new) ∈ rewritings → (∀ x, D x → x ∈ knownMarks) → SugarOver N D r t →
      SugarOver N (fun x => D x ∧ x ≠ p) (replaceAll r p new) t := by
    intro D p new r hp hD h
    obtain ⟨m, h1, h2⟩ := sugar_step hp hN hD h
    have := h2 [] (fun c hc => by cases hc)
    rw [List.append_nil] at this
    rw [this]
    simpa [replaceAll, replaceAllAux] using h1
  have all : ∀ {r}, SugarOver N (· ∈ knownMarks) r t →
      replaceAll (replaceAll (replaceAll (replaceAll (replaceAll r b!"T::" []) b!"VecDeque<" b!"Vec<") b!"<T>" []) b!"<T as Trait>::" []) b!"<T, I>" [] = t := by
    intro r h
    have h1 := step (p := b!"T::") (new := []) (by simp [rewritings]) (fun _ h => h) h
    have h2 := step (p := b!"VecDeque<") (new := b!"Vec<") (by simp [rewritings]) (fun _ h => h.1) h1
    have h3 := step (p := b!"<T>") (new := []) (by simp [rewritings]) (fun _ h => h.1.1) h2
    have h4 := step (p := b!"<T as Trait>::") (new := []) (by simp [rewritings]) (fun _ h => h.1.1.1) h3
    have h5 := step (p := b!"<T, I>") (new := []) (by simp [rewritings]) (fun _ h => h.1.1.1.1) h4
    refine sugar_clean ?_ h5
    rintro x ⟨⟨⟨⟨⟨h, h1⟩, h2⟩, h3⟩, h4⟩, h5⟩
    simp only [knownMarks, rewritings, List.map_cons, List.map_nil, List.mem_cons, List.not_mem_nil, or_false] at h
    tauto
  have rest : ∀ r, Trimmed r → replaceAll (replaceAll (replaceAll (replaceAll (replaceAll r b!"T::" []) b!"VecDeque<" b!"Vec<") b!"<T>" []) b!"<T as Trait>::" []) b!"<T, I>" [] = t →
      convertType r = (let name := replaceAll t b!"\n" b!" "
  let name := replaceAll name b!"&'static[u8]" b!"Bytes"
  let name := if hasPrefix name b!"BoundedBTreeSet" then replaceAll name b!"BoundedBTreeSet" b!"BTreeSet" else name
  let name := if equalFold name b!"Vec<u8>" then b!"Bytes" else name
  if name = b!"()" ∨ name = b!"<InherentOfflineReport as InherentOfflineReport>::Inherent" then b!"Null"
  else if name = b!"<Lookup as StaticLookup>::Source" then b!"Address"
  else if name = b!"<Balance as HasCompact>::Type" then b!"Compact<Balance>"
  else if name = b!"<BlockNumber as HasCompact>::Type" then b!"Compact<BlockNumber>"
  else if name = b!"<Moment as HasCompact>::Type" then b!"Compact<Moment>"
  else if name = b!"<T as Trait<I>>::Proposal" then b!"Proposal"
  else if name = b!"wasm::PrefabWasmModule" then b!"PrefabWasmModule"
  else name) := by
    intro r hr e
    unfold convertType
    rw [trimSpace_trimmed hr]
    dsimp only
    rw [e]
  have ht := over_neat hN (sugar_over h)
  have same : ∀ x new, x ∈ abbreviations → replaceAll t x new = t := fun x new hx => replaceAll_not_infix (ht.whole.1 x hx)
  rw [rest r (sugar_trimmed hN h) (all h), rest t ht.trimmed (by
    rw [same b!"T::" [] (by decide +kernel), same b!"VecDeque<" b!"Vec<" (by decide +kernel), same b!"<T>" [] (by decide +kernel),
      same b!"<T as Trait>::" [] (by decide +kernel), same b!"<T, I>" [] (by decide +kernel)])]

end ScaleGo
