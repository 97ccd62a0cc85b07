import Verif.Lemmas.Parts
import Verif.Lemmas.KernelRfl

/-! # C35: tuple text is split at its top-level commas -/

namespace ScaleGo

namespace Spec

/-- Texts in which brackets are balanced: the general shape of a type text. -/
inductive Balanced : Str → Prop where
  | nil : Balanced []
  | plain (c : UInt8) (r : Str) (hc : isBracket c = false) (h : Balanced r) : Balanced (c :: r)
  | nest (o c : UInt8) (i r : Str) (ho : (o, c) = (60, 62) ∨ (o, c) = (40, 41)) (hi : Balanced i) (h : Balanced r) :
      Balanced (o :: (i ++ c :: r))

/-- A member of a tuple: balanced, and every comma is inside some bracket pair. -/
inductive Member : Str → Prop where
  | nil : Member []
  | plain (c : UInt8) (r : Str) (hc : isBracket c = false) (h44 : c ≠ 44) (h : Member r) : Member (c :: r)
  | nest (o c : UInt8) (i r : Str) (ho : (o, c) = (60, 62) ∨ (o, c) = (40, 41)) (hi : Balanced i) (h : Member r) :
      Member (o :: (i ++ c :: r))

/-- A member in which a bracket pair with commas directly inside it contains no further brackets. -/
inductive Innermost : Str → Prop where
  | nil : Innermost []
  | plain (c : UInt8) (r : Str) (hc : isBracket c = false) (h44 : c ≠ 44) (h35 : c ≠ 35) (h10 : c ≠ 10) (h : Innermost r) :
      Innermost (c :: r)
  | group (o c : UInt8) (i r : Str) (ho : (o, c) = (60, 62) ∨ (o, c) = (40, 41))
      (hi : ∀ x ∈ i, isBracket x = false ∧ x ≠ 35 ∧ x ≠ 10) (h : Innermost r) : Innermost (o :: (i ++ c :: r))
  | nest (o c : UInt8) (i r : Str) (ho : (o, c) = (60, 62) ∨ (o, c) = (40, 41)) (hi : Innermost i) (h : Innermost r) :
      Innermost (o :: (i ++ c :: r))

/-- No white space at the ends, and not empty. -/
def Trimmed (s : Str) : Prop := (∃ c r, s = c :: r ∧ isSpace c = false) ∧ (∃ c r, s = r ++ [c] ∧ isSpace c = false)

/-- A tuple text: the members, each between blanks, separated by commas, in parentheses. -/
def tupleBody : List (Nat × Str × Nat) → Str
  | [] => []
  | [(l, m, r)] => List.replicate l 32 ++ m ++ List.replicate r 32
  | (l, m, r) :: x :: xs => List.replicate l 32 ++ m ++ List.replicate r 32 ++ 44 :: tupleBody (x :: xs)

/-- Members numbered from `k + 1`. -/
def columns (k : Nat) : List Str → List (Str × Str)
  | [] => []
  | m :: ms => (b!"col" ++ natToDec (k + 1), m) :: columns (k + 1) ms

end Spec

open ScaleGo.Spec

/-- C35 in full: the fields of a tuple text are its members in order. -/
def C35Claim : Prop := ∀ ms : List (Nat × Str × Nat), (∀ x ∈ ms, Member x.2.1 ∧ Trimmed x.2.1) →
  buildStruct (40 :: (tupleBody ms ++ [41])) = columns 0 (ms.map (·.2.1))

/-! ## Hiding, byte by byte -/

def nextBracket : Str → Option UInt8
  | [] => none
  | c :: cs => if isBracket c then some c else nextBracket cs

def nextClose (t : Str) : Bool := match nextBracket t with | some c => isClose c | none => false
def nextOpen (t : Str) : Bool := match nextBracket t with | some c => isOpen c | none => false

def hideB : Bool → Str → Str
  | _, [] => []
  | p, c :: cs =>
    if isBracket c then c :: hideB (isOpen c) cs
    else (if c = 44 ∧ (p && nextClose cs) = true then 35 else c) :: hideB p cs

def goodB : Bool → Str → Prop
  | _, [] => True
  | p, c :: cs =>
    if isBracket c then goodB (isOpen c) cs
    else (c = 44 → (p && nextOpen cs) = false) ∧ goodB p cs

theorem nextBracket_plain {s Y : Str} (hs : ∀ c ∈ s, isBracket c = false) : nextBracket (s ++ Y) = nextBracket Y := by
  induction s with
  | nil => rfl
  | cons c s ih => simp [nextBracket, hs c (by simp), ih (fun d hd => hs d (by simp [hd]))]

theorem hideB_plain {s Y : Str} (p : Bool) (hs : ∀ c ∈ s, isBracket c = false) :
    hideB p (s ++ Y) = (if (p && nextClose Y) = true then hide s else s) ++ hideB p Y := by
  induction s with
  | nil => split <;> rfl
  | cons c s ih =>
    have hs' : ∀ d ∈ s, isBracket d = false := fun d hd => hs d (by simp [hd])
    rw [List.cons_append, hideB, if_neg (by simp [hs c (by simp)]), ih hs']
    have e : nextClose (s ++ Y) = nextClose Y := by unfold nextClose; rw [nextBracket_plain hs']
    rw [e]
    by_cases hp : (p && nextClose Y) = true
    · rw [if_pos hp, if_pos hp]
      simp [hide, hp]
    · rw [if_neg hp, if_neg hp]
      simp [hp]

theorem nextClose_txt (b : UInt8) (s : Str) (L : List Seg) (hb : isBracket b = true) : nextClose (txt ((b, s) :: L)) = isClose b := by
  simp [nextClose, txt, nextBracket, hb]

theorem nextOpen_txt (b : UInt8) (s : Str) (L : List Seg) (hb : isBracket b = true) : nextOpen (txt ((b, s) :: L)) = isOpen b := by
  simp [nextOpen, txt, nextBracket, hb]

theorem hideB_txt {L : List Seg} (hL : SegOK L) (p : Bool) : hideB p (txt L) = txt (hs L) := by
  induction L generalizing p with
  | nil => rfl
  | cons x L ih =>
    obtain ⟨b, s⟩ := x
    have hb := (hL (b, s) (by simp)).1
    have hs' := (hL (b, s) (by simp)).2
    rw [txt, hideB, if_pos hb, hideB_plain _ hs', ih hL.tail]
    cases L with
    | nil => simp [hs, txt, nextClose, nextBracket]
    | cons y L =>
      obtain ⟨b', s'⟩ := y
      rw [nextClose_txt _ _ _ (hL (b', s') (by simp)).1, hs, txt]

theorem goodB_plain {s Y : Str} (p : Bool) (hs : ∀ c ∈ s, isBracket c = false) (h : goodB p (s ++ Y)) :
    (44 ∈ s → (p && nextOpen Y) = false) ∧ goodB p Y := by
  induction s with
  | nil => exact ⟨by simp, h⟩
  | cons c s ih =>
    have hs' : ∀ d ∈ s, isBracket d = false := fun d hd => hs d (by simp [hd])
    rw [List.cons_append, goodB, if_neg (by simp [hs c (by simp)])] at h
    obtain ⟨h1, h2⟩ := ih hs' h.2
    have e : nextOpen (s ++ Y) = nextOpen Y := by unfold nextOpen; rw [nextBracket_plain hs']
    refine ⟨fun hm => ?_, h2⟩
    rcases List.mem_cons.1 hm with hc | hm
    · have := h.1 hc.symm
      rwa [e] at this
    · exact h1 hm

theorem goodB_txt {L : List Seg} (hL : SegOK L) (p : Bool) (h : goodB p (txt L)) : Good L := by
  induction L generalizing p with
  | nil => intro A b s b' s' B he; simp at he
  | cons x L ih =>
    obtain ⟨b0, s0⟩ := x
    have hb0 := (hL (b0, s0) (by simp)).1
    have hs0 := (hL (b0, s0) (by simp)).2
    rw [txt, goodB, if_pos hb0] at h
    obtain ⟨h1, h2⟩ := goodB_plain _ hs0 h
    have ih := ih hL.tail _ h2
    intro A b s b' s' B he hb hb'
    cases A with
    | nil =>
      simp only [List.nil_append, List.cons.injEq, Prod.mk.injEq] at he
      obtain ⟨⟨rfl, rfl⟩, rfl⟩ := he
      intro hm
      have := h1 hm
      rw [nextOpen_txt _ _ _ (hL (b', s') (by simp)).1, hb, hb'] at this
      simp at this
    | cons a A =>
      simp only [List.cons_append, List.cons.injEq] at he
      exact ih A b s b' s' B he.2 hb hb'

theorem hideCommas_eq {t : Str} (hg : goodB false t) (hn : 10 ∉ t) : hideCommas t = hideB false t := by
  have he := toSegs_txt t
  obtain ⟨h1, h2⟩ := toSegs_ok t
  rw [← he] at hg hn ⊢
  generalize (toSegs t).1 = s0 at *
  generalize (toSegs t).2 = L at *
  obtain ⟨_, h3⟩ := goodB_plain _ h1 hg
  rw [hideCommas_segs h1 h2 (goodB_txt h2 _ h3) hn, hideB_plain _ h1, hideB_txt h2]
  simp

/-! ## Members -/

def hasBracket (s : Str) : Bool := s.any isBracket

theorem pair_brackets {o c : UInt8} (h : (o, c) = (60, 62) ∨ (o, c) = (40, 41)) : isOpen o = true ∧ isClose c = true := by
  rcases h with h | h <;> cases h <;> decide

theorem open_bracket {o : UInt8} (h : isOpen o = true) : isBracket o = true := by simp [isBracket, h]
theorem close_bracket {o : UInt8} (h : isClose o = true) : isBracket o = true := by simp [isBracket, h]

theorem Spec.Innermost.good {m : Str} (h : Innermost m) : ∀ (p : Bool) (r : Str),
    goodB (p && !hasBracket m) r → goodB p (m ++ r) := by
  induction h with
  | nil => intro p r hr; simpa [hasBracket] using hr
  | plain c m hc h44 h35 h10 h ih =>
    intro p r hr
    rw [List.cons_append, goodB, if_neg (by simp [hc])]
    refine ⟨fun h => absurd h h44, ih p r ?_⟩
    simpa [hasBracket, hc] using hr
  | group o c i m ho hi h ih =>
    intro p r hr
    obtain ⟨h1, h2⟩ := pair_brackets ho
    have e : o :: (i ++ c :: m) ++ r = o :: (i ++ c :: (m ++ r)) := by simp
    rw [e, goodB, if_pos (open_bracket h1)]
    have hr' : goodB false r := by simpa [hasBracket, open_bracket h1] using hr
    have hrest : goodB true (c :: (m ++ r)) := by
      rw [goodB, if_pos (close_bracket h2), close_not_open h2]
      exact ih false r (by simpa using hr')
    have : ∀ s : Str, (∀ x ∈ s, isBracket x = false) → goodB true (s ++ c :: (m ++ r)) := by
      intro s hs
      induction s with
      | nil => exact hrest
      | cons x s ihs =>
        have hs' : ∀ d ∈ s, isBracket d = false := fun d hd => hs d (by simp [hd])
        rw [List.cons_append, goodB, if_neg (by simp [hs x (by simp)])]
        refine ⟨fun _ => ?_, ihs hs'⟩
        unfold nextOpen
        rw [nextBracket_plain hs', nextBracket, if_pos (close_bracket h2)]
        simp [close_not_open h2]
    rw [h1]
    exact this i (fun x hx => (hi x hx).1)
  | nest o c i m ho hi h ihi ih =>
    intro p r hr
    obtain ⟨h1, h2⟩ := pair_brackets ho
    have e : o :: (i ++ c :: m) ++ r = o :: (i ++ c :: (m ++ r)) := by simp
    rw [e, goodB, if_pos (open_bracket h1)]
    refine ihi _ _ ?_
    rw [goodB, if_pos (close_bracket h2), close_not_open h2]
    refine ih _ _ ?_
    simpa [hasBracket, open_bracket h1] using hr

def unhide (s : Str) : Str := s.map (fun c => if c = 35 then 44 else c)

theorem unhide_hide {s : Str} (h : ∀ x ∈ s, x ≠ 35) : unhide (hide s) = s := by
  unfold unhide hide
  rw [List.map_map]
  conv_rhs => rw [← List.map_id s]
  refine List.map_congr_left (fun c hc => ?_)
  simp only [Function.comp]
  by_cases h4 : c = 44
  · simp [h4]
  · simp [h4, h c hc]

theorem Spec.Innermost.hidden {m : Str} (h : Innermost m) : ∃ m', 44 ∉ m' ∧ unhide m' = m ∧
    ∀ (p : Bool) (r : Str), hideB p (m ++ r) = m' ++ hideB (p && !hasBracket m) r := by
  induction h with
  | nil => exact ⟨[], by simp, rfl, fun p r => by simp [hasBracket]⟩
  | plain c m hc h44 h35 h10 h ih =>
    obtain ⟨m', h1, h2, h3⟩ := ih
    refine ⟨c :: m', by simp [h1, Ne.symm h44], by simp only [unhide, List.map_cons, if_neg h35] at h2 ⊢; rw [h2], fun p r => ?_⟩
    rw [List.cons_append, hideB, if_neg (by simp [hc]), h3, if_neg (by tauto)]
    simp [hasBracket, hc]
  | group o c i m ho hi h ih =>
    obtain ⟨m', h1, h2, h3⟩ := ih
    obtain ⟨ho1, hc1⟩ := pair_brackets ho
    have o35 : o ≠ 35 := by rintro rfl; exact absurd ho1 (by decide)
    have c35 : c ≠ 35 := by rintro rfl; exact absurd hc1 (by decide)
    have o44 : o ≠ 44 := by rintro rfl; exact absurd ho1 (by decide)
    have c44 : c ≠ 44 := by rintro rfl; exact absurd hc1 (by decide)
    have hh : 44 ∉ hide i := by
      intro hm
      simp only [hide, List.mem_map] at hm
      obtain ⟨d, _, hd⟩ := hm
      split at hd
      · exact absurd hd (by decide)
      · exact absurd hd ‹_›
    refine ⟨o :: (hide i ++ c :: m'), ?_, ?_, fun p r => ?_⟩
    · simp only [List.mem_cons, List.mem_append, not_or]
      exact ⟨Ne.symm o44, hh, Ne.symm c44, h1⟩
    · have := unhide_hide (s := i) (fun x hx => (hi x hx).2.1)
      simp only [unhide, List.map_cons, List.map_append, if_neg o35, if_neg c35] at h2 this ⊢
      rw [this, h2]
    · have e : o :: (i ++ c :: m) ++ r = o :: (i ++ c :: (m ++ r)) := by simp
      rw [e, hideB, if_pos (open_bracket ho1), ho1, hideB_plain _ (fun x hx => (hi x hx).1), hideB, if_pos (close_bracket hc1),
        close_not_open hc1, h3]
      have : nextClose (c :: (m ++ r)) = true := by simp [nextClose, nextBracket, close_bracket hc1, hc1]
      simp [this, hasBracket, open_bracket ho1]
  | nest o c i m ho hi h ihi ih =>
    obtain ⟨i', i1, i2, i3⟩ := ihi
    obtain ⟨m', h1, h2, h3⟩ := ih
    obtain ⟨ho1, hc1⟩ := pair_brackets ho
    have o35 : o ≠ 35 := by rintro rfl; exact absurd ho1 (by decide)
    have c35 : c ≠ 35 := by rintro rfl; exact absurd hc1 (by decide)
    have o44 : o ≠ 44 := by rintro rfl; exact absurd ho1 (by decide)
    have c44 : c ≠ 44 := by rintro rfl; exact absurd hc1 (by decide)
    refine ⟨o :: (i' ++ c :: m'), ?_, ?_, fun p r => ?_⟩
    · simp only [List.mem_cons, List.mem_append, not_or]
      exact ⟨Ne.symm o44, i1, Ne.symm c44, h1⟩
    · simp only [unhide, List.map_cons, List.map_append, if_neg o35, if_neg c35] at h2 i2 ⊢
      rw [i2, h2]
    · have e : o :: (i ++ c :: m) ++ r = o :: (i ++ c :: (m ++ r)) := by simp
      rw [e, hideB, if_pos (open_bracket ho1), ho1, i3, hideB, if_pos (close_bracket hc1), close_not_open hc1, h3]
      simp [hasBracket, open_bracket ho1]

theorem Spec.Innermost.newline {m : Str} (h : Innermost m) : 10 ∉ m := by
  have key : ∀ {o c : UInt8}, (o, c) = (60, 62) ∨ (o, c) = (40, 41) → o ≠ 10 ∧ c ≠ 10 := by
    intro o c h
    rcases h with h | h <;> cases h <;> decide
  induction h with
  | nil => simp
  | plain c m hc h44 h35 h10 h ih => simp [ih, Ne.symm h10]
  | group o c i m ho hi h ih =>
    have : 10 ∉ i := fun hx => (hi 10 hx).2.2 rfl
    have := key ho
    simp_all [Ne.symm this.1, Ne.symm this.2]
  | nest o c i m ho hi h ihi ih =>
    have := key ho
    simp_all [Ne.symm this.1, Ne.symm this.2]

theorem Spec.Innermost.append {a b : Str} (ha : Innermost a) (hb : Innermost b) : Innermost (a ++ b) := by
  induction ha with
  | nil => exact hb
  | plain c m hc h44 h35 h10 h ih => exact .plain c _ hc h44 h35 h10 ih
  | group o c i m ho hi h ih => simpa using Innermost.group o c i _ ho hi ih
  | nest o c i m ho hi h ihi ih => simpa using Innermost.nest o c i _ ho hi ih

theorem Spec.Innermost.spaces (n : Nat) : Innermost (List.replicate n 32) := by
  induction n with
  | zero => exact .nil
  | succ n ih => exact .plain 32 _ (by decide) (by decide) (by decide) (by decide) ih

/-! ## Splitting -/

theorem splitSepAux_comma_segs {a r : Str} (h : 44 ∉ a) : ∀ cur, splitSepAux b!"," 0 cur (a ++ 44 :: r) = (cur.reverse ++ a) :: splitSep r b!"," := by
  induction a with
  | nil => intro cur; rw [List.nil_append, splitSepAux, if_pos (by rfl)]; simp [splitSep]
  | cons c a ih =>
    intro cur
    have hc : (44 : UInt8) ≠ c := by intro hc; exact h (by simp [hc])
    rw [List.cons_append, splitSepAux, if_neg, ih (fun hm => h (by simp [hm]))]
    · simp
    · have : (b!"," : Str) = [44] := rfl
      rw [this]
      simp [List.isPrefixOf, hc]

theorem splitSep_comma_segs {a r : Str} (h : 44 ∉ a) : splitSep (a ++ 44 :: r) b!"," = a :: splitSep r b!"," := by
  have := splitSepAux_comma_segs (r := r) h []
  simpa [splitSep] using this

theorem isSpace_unhide {c : UInt8} : isSpace (if c = 35 then 44 else c) = isSpace c := by
  split
  · rename_i h; rw [h]; decide
  · rfl

theorem trim_piece {m m' : Str} {l r : Nat} (he : unhide m' = m) (ht : Trimmed m) :
    trimSpace (List.replicate l 32 ++ m' ++ List.replicate r 32) = m' := by
  obtain ⟨⟨c, s, h1, h2⟩, ⟨d, t, h3, h4⟩⟩ := ht
  have dl : ∀ (n : Nat) (x : Str), (List.replicate n 32 ++ x).dropWhile isSpace = x.dropWhile isSpace := by
    intro n x
    induction n with
    | zero => rfl
    | succ n ih => rw [List.replicate_succ, List.cons_append, List.dropWhile_cons_of_pos (by decide), ih]
  have hm1 : ∃ c' s', m' = c' :: s' ∧ isSpace c' = false := by
    cases m' with
    | nil => rw [h1] at he; simp [unhide] at he
    | cons c' s' =>
      rw [h1] at he
      simp only [unhide, List.map_cons, List.cons.injEq] at he
      exact ⟨c', s', rfl, by rw [← isSpace_unhide, he.1, h2]⟩
  have hm2 : ∃ d' t', m' = t' ++ [d'] ∧ isSpace d' = false := by
    rcases List.eq_nil_or_concat m' with rfl | ⟨t', d', rfl⟩
    · rw [h1] at he; simp [unhide] at he
    · rw [h3] at he
      simp only [unhide, List.concat_eq_append, List.map_append, List.map_cons, List.map_nil] at he
      have := (List.append_inj' he rfl).2
      simp only [List.cons.injEq, and_true] at this
      exact ⟨d', t', by simp, by rw [← isSpace_unhide, this, h4]⟩
  obtain ⟨c', s', e1, e2⟩ := hm1
  obtain ⟨d', t', e3, e4⟩ := hm2
  unfold trimSpace
  rw [List.append_assoc, dl]
  have : (m' ++ List.replicate r 32).dropWhile isSpace = m' ++ List.replicate r 32 := by
    rw [e1, List.cons_append, List.dropWhile_cons_of_neg (by simp [e2])]
  rw [this, List.reverse_append, List.reverse_replicate, dl, e3]
  simp [e4]

/-- **C35** (part). A tuple text is decoded as its members in order, whatever their number and however they are spaced,
when in every member a bracket pair that has commas directly inside it contains no further brackets (and the text has no
`#`). The members may otherwise nest without bound. -/
theorem C35_partial (ms : List (Nat × Str × Nat)) (h : ∀ x ∈ ms, Innermost x.2.1 ∧ Trimmed x.2.1) :
    buildStruct (40 :: (tupleBody ms ++ [41])) = columns 0 (ms.map (·.2.1)) := by
  have hin : ((40 :: (tupleBody ms ++ [41])).drop 1).dropLast = tupleBody ms := by simp
  unfold buildStruct
  rw [hin]
  have hpiece : ∀ x ∈ ms, Innermost (List.replicate x.1 32 ++ x.2.1 ++ List.replicate x.2.2 32) :=
    fun x hx => ((Innermost.spaces _).append (h x hx).1).append (Innermost.spaces _)
  have key : ∀ (ms : List (Nat × Str × Nat)), (∀ x ∈ ms, Innermost (List.replicate x.1 32 ++ x.2.1 ++ List.replicate x.2.2 32)) →
      goodB false (tupleBody ms) ∧ 10 ∉ tupleBody ms := by
    intro ms hms
    induction ms with
    | nil => exact ⟨trivial, by simp [tupleBody]⟩
    | cons x ms ih =>
      obtain ⟨l, m, r⟩ := x
      have hx := hms (l, m, r) (by simp)
      obtain ⟨ih1, ih2⟩ := ih (fun y hy => hms y (by simp [hy]))
      cases ms with
      | nil =>
        refine ⟨?_, hx.newline⟩
        have := hx.good false [] (by simp [goodB])
        simpa [tupleBody] using this
      | cons y ms =>
        refine ⟨?_, ?_⟩
        · refine hx.good false _ ?_
          simp only [Bool.false_and]
          rw [goodB, if_neg (by decide)]
          exact ⟨fun _ => by simp, ih1⟩
        · have := hx.newline
          simp only [tupleBody, List.mem_append, List.mem_cons, not_or] at this ih2 ⊢
          exact ⟨this, by decide, ih2⟩
  obtain ⟨k1, k2⟩ := key ms hpiece
  rw [hideCommas_eq k1 k2]
  suffices ∀ (ms : List (Nat × Str × Nat)), (∀ x ∈ ms, Innermost x.2.1 ∧ Trimmed x.2.1) → ∀ k,
      buildFields k (splitSep (hideB false (tupleBody ms)) b!",") = columns k (ms.map (·.2.1)) from this ms h 0
  intro ms
  have piece : ∀ (l r : Nat) (m : Str), Innermost m → Trimmed m → ∃ q,
      44 ∉ q ∧ (∀ t, hideB false (List.replicate l 32 ++ m ++ List.replicate r 32 ++ t) = q ++ hideB false t) ∧
      trimSpace q ≠ [] ∧ replaceAll (trimSpace q) b!"#" b!"," = m := by
    intro l r m hm ht
    obtain ⟨m', h1, h2, h3⟩ := hm.hidden
    obtain ⟨l', l1, l2, l3⟩ := (Innermost.spaces l).hidden
    obtain ⟨r', r1, r2, r3⟩ := (Innermost.spaces r).hidden
    have nosp : ∀ (n : Nat) (q : Str), unhide q = List.replicate n 32 → q = List.replicate n 32 := by
      intro n
      induction n with
      | zero => intro q hq; simpa [unhide] using hq
      | succ n ih =>
        intro q hq
        cases q with
        | nil => simp [unhide, List.replicate_succ] at hq
        | cons c q =>
          simp only [unhide, List.map_cons, List.replicate_succ, List.cons.injEq] at hq
          rw [List.replicate_succ, ← ih q hq.2]
          congr 1
          have := hq.1
          split at this
          · exact absurd this (by decide)
          · exact this
    obtain rfl := nosp l l' l2
    obtain rfl := nosp r r' r2
    refine ⟨List.replicate l 32 ++ m' ++ List.replicate r 32, ?_, fun t => ?_, ?_, ?_⟩
    · simp only [List.mem_append, not_or]; exact ⟨⟨l1, h1⟩, r1⟩
    · rw [List.append_assoc, List.append_assoc, l3, Bool.false_and, h3, Bool.false_and, r3, Bool.false_and]; simp
    · rw [trim_piece h2 ht]
      rintro rfl
      obtain ⟨⟨c, s, e, _⟩, _⟩ := ht
      rw [← h2] at e
      simp [unhide] at e
    · rw [trim_piece h2 ht]
      have : (b!"#" : Str) = [35] := rfl
      have e2 : (b!"," : Str) = [44] := rfl
      rw [this, e2, replaceAll_byte]
      exact h2
  induction ms with
  | nil => intro _ k; rfl
  | cons x ms ih =>
    intro hms k
    obtain ⟨l, m, r⟩ := x
    obtain ⟨hx1, hx2⟩ := hms (l, m, r) (by simp)
    obtain ⟨q, q1, q2, q3, q4⟩ := piece l r m hx1 hx2
    cases ms with
    | nil =>
      have e : hideB false (tupleBody [(l, m, r)]) = q := by
        have := q2 []
        simpa [tupleBody, hideB] using this
      rw [e, splitSep_absent 44 (by decide) q1]
      simp only [buildFields, if_neg q3, q4, columns, List.map_cons, List.map_nil]
    | cons y ms =>
      have e : hideB false (tupleBody ((l, m, r) :: y :: ms)) = q ++ 44 :: hideB false (tupleBody (y :: ms)) := by
        rw [tupleBody, q2, hideB, if_neg (by decide), if_neg (by simp)]
      rw [e, splitSep_comma_segs q1, buildFields]
      simp only [if_neg q3, q4]
      rw [ih (fun z hz => hms z (by simp [hz]))]
      rfl

/-- The texts of the theorem are members in the sense of the claim. -/
theorem Spec.Innermost.balanced {m : Str} (h : Innermost m) : Balanced m := by
  induction h with
  | nil => exact .nil
  | plain c m hc h44 h35 h10 h ih => exact .plain c m hc ih
  | group o c i m ho hi h ih =>
    refine .nest o c i m ho ?_ ih
    clear ih h ho
    induction i with
    | nil => exact .nil
    | cons x i ih => exact .plain x i (hi x (by simp)).1 (ih (fun y hy => hi y (by simp [hy])))
  | nest o c i m ho hi h ihi ih => exact .nest o c i m ho ihi ih

theorem Spec.Innermost.member {m : Str} (h : Innermost m) : Member m := by
  induction h with
  | nil => exact .nil
  | plain c m hc h44 h35 h10 h ih => exact .plain c m hc h44 ih
  | group o c i m ho hi h ih =>
    refine .nest o c i m ho ?_ ih
    clear ih h ho
    induction i with
    | nil => exact .nil
    | cons x i ih => exact .plain x i (hi x (by simp)).1 (ih (fun y hy => hi y (by simp [hy])))
  | nest o c i m ho hi h ihi ih => exact .nest o c i m ho hi.balanced ih

/-- **C35** (part), seen through the class lookup: a tuple text that is not itself a registered name is looked up as the
structure of its members. -/
theorem C35_lookup_partial (env : Env) (module : Str) (spec : Int) (ms : List (Nat × Str × Nat))
    (h : ∀ x ∈ ms, Innermost x.2.1 ∧ Trimmed x.2.1) (hne : ms ≠ [])
    (hconv : convertType (40 :: (tupleBody ms ++ [41])) = 40 :: (tupleBody ms ++ [41]))
    (hreg : lookupParts env module spec (40 :: (tupleBody ms ++ [41])) = .ok none)
    (hstruct : ∃ fs, getCodecInstant env module b!"Struct" spec = .ok (some (.struct fs))) :
    getCodecClass env module spec (40 :: (tupleBody ms ++ [41])) =
      .ok (some (.struct (some (columns 0 (ms.map (·.2.1)))), [])) := by
  have hb := C35_partial ms h
  have hbody : tupleBody ms ≠ [] := by
    cases ms with
    | nil => exact absurd rfl hne
    | cons x ms =>
      obtain ⟨l, m, r⟩ := x
      obtain ⟨_, ⟨c, s, e, _⟩, _⟩ := h (l, m, r) (by simp)
      simp only at e
      cases ms with
      | nil => simp [tupleBody, e]
      | cons y ms => simp [tupleBody]
  generalize hT : 40 :: (tupleBody ms ++ [41]) = T at *
  have hlast : endsWith T 41 = true := by rw [← hT, ← List.cons_append]; unfold endsWith; rw [List.getLast?_concat]; decide
  have hlast' : endsWith T 62 = false := by rw [← hT, ← List.cons_append]; unfold endsWith; rw [List.getLast?_concat]; decide
  have hhead : T.head? = some 40 := by rw [← hT]; rfl
  have hTne : T ≠ [] := by rw [← hT]; simp
  have hT2 : T ≠ b!"()" := by
    rw [← hT]
    intro he
    have := congrArg List.length he
    have hl : 0 < (tupleBody ms).length := List.length_pos_of_ne_nil hbody
    have e2 : (b!"()" : Str).length = 2 := rfl
    rw [e2] at this
    simp at this
    exact hbody this
  obtain ⟨fs, hfs⟩ := hstruct
  unfold getCodecClass getCodecClassAux
  dsimp only
  rw [hconv, if_neg hTne]
  simp only [lookupWhole, hlast', Bool.false_eq_true, if_false, hreg]
  rw [if_pos ⟨hT2, hhead, hlast⟩]
  simp only [lookupTuple, hfs, hb]
  rfl

/-- What happens instead: a comma after an inner bracket pair is taken for a separator. -/
theorem C35_comma_after_inner : buildStruct b!"(BTreeMap<(u8,u16),u8>,u32)" =
    [(b!"col1", b!"BTreeMap<(u8,u16)"), (b!"col2", b!"u8>"), (b!"col3", b!"u32")] := by kernel_rfl

/-- A pair is hidden everywhere when it is first met, so an enclosing pair with the same text inside is no longer found. -/
theorem C35_repeated_inner : buildStruct b!"(X<B,C>,Y<A,Z<B,C>>)" =
    [(b!"col1", b!"X<B,C>"), (b!"col2", b!"Y<A"), (b!"col3", b!"Z<B,C>>")] := by kernel_rfl

/-- The character that stands for a hidden comma is turned into a comma wherever it occurs. -/
theorem C35_hash_sign : buildStruct b!"(A#B)" = [(b!"col1", b!"A,B")] := by kernel_rfl

theorem Spec.Balanced.name {s r : Str} (hs : ∀ c ∈ s, isBracket c = false) (hr : Balanced r) : Balanced (s ++ r) := by
  induction s with
  | nil => exact hr
  | cons c s ih => exact .plain c _ (hs c (by simp)) (ih (fun d hd => hs d (by simp [hd])))

theorem Spec.Member.name {s r : Str} (hs : ∀ c ∈ s, isBracket c = false ∧ c ≠ 44) (hr : Member r) : Member (s ++ r) := by
  induction s with
  | nil => exact hr
  | cons c s ih => exact .plain c _ (hs c (by simp)).1 (hs c (by simp)).2 (ih (fun d hd => hs d (by simp [hd])))

theorem Spec.Innermost.name {s r : Str} (hs : ∀ c ∈ s, isBracket c = false ∧ c ≠ 44 ∧ c ≠ 35 ∧ c ≠ 10) (hr : Innermost r) : Innermost (s ++ r) := by
  induction s with
  | nil => exact hr
  | cons c s ih =>
    have := hs c (by simp)
    exact .plain c _ this.1 this.2.1 this.2.2.1 this.2.2.2 (ih (fun d hd => hs d (by simp [hd])))

/-- C35 does not hold: `(BTreeMap<(u8,u16),u8>,u32)` has two members, the code makes three fields of it. -/
theorem C35_claim_false : ¬ C35Claim := by
  intro h
  have h1 : Member b!"BTreeMap<(u8,u16),u8>" :=
    Member.name (s := b!"BTreeMap") (by decide +kernel)
      (.nest 60 62 b!"(u8,u16),u8" [] (.inl rfl)
        (.nest 40 41 b!"u8,u16" b!",u8" (.inr rfl) (Balanced.name (s := b!"u8,u16") (r := []) (by decide +kernel) .nil)
          (Balanced.name (s := b!",u8") (r := []) (by decide +kernel) .nil)) .nil)
  have h2 : Member b!"u32" := Member.name (s := b!"u32") (r := []) (by decide +kernel) .nil
  have t1 : Trimmed b!"BTreeMap<(u8,u16),u8>" := ⟨⟨66, b!"TreeMap<(u8,u16),u8>", rfl, by decide⟩, ⟨62, b!"BTreeMap<(u8,u16),u8", rfl, by decide⟩⟩
  have t2 : Trimmed b!"u32" := ⟨⟨117, b!"32", rfl, by decide⟩, ⟨50, b!"u3", rfl, by decide⟩⟩
  have := h [(0, b!"BTreeMap<(u8,u16),u8>", 0), (0, b!"u32", 0)] (by
    intro x hx
    simp only [List.mem_cons, List.not_mem_nil, or_false] at hx
    rcases hx with rfl | rfl
    · exact ⟨h1, t1⟩
    · exact ⟨h2, t2⟩)
  have e : (40 :: (tupleBody [(0, b!"BTreeMap<(u8,u16),u8>", 0), (0, b!"u32", 0)] ++ [41]) : Str) = b!"(BTreeMap<(u8,u16),u8>,u32)" := by kernel_rfl
  rw [e, C35_comma_after_inner] at this
  exact absurd (congrArg List.length this) (by decide)

/-- The hypotheses are met by `(AccountId, Vec<(u16,u32)>, BTreeMap<u8,Vec>)`. -/
example : buildStruct b!"(AccountId, Vec<(u16,u32)>, BTreeMap<u8,Vec>)" =
    columns 0 [b!"AccountId", b!"Vec<(u16,u32)>", b!"BTreeMap<u8,Vec>"] := by
  have h := C35_partial [(0, b!"AccountId", 0), (1, b!"Vec<(u16,u32)>", 0), (1, b!"BTreeMap<u8,Vec>", 0)] (by
    intro x hx
    simp only [List.mem_cons, List.not_mem_nil, or_false] at hx
    rcases hx with rfl | rfl | rfl
    · exact ⟨Innermost.name (s := b!"AccountId") (r := []) (by decide +kernel) .nil,
        ⟨65, b!"ccountId", rfl, by decide⟩, ⟨100, b!"AccountI", rfl, by decide⟩⟩
    · exact ⟨Innermost.name (s := b!"Vec") (by decide +kernel)
          (.nest 60 62 b!"(u16,u32)" [] (.inl rfl) (.group 40 41 b!"u16,u32" [] (.inr rfl) (by decide +kernel) .nil) .nil),
        ⟨86, b!"ec<(u16,u32)>", rfl, by decide⟩, ⟨62, b!"Vec<(u16,u32)", rfl, by decide⟩⟩
    · exact ⟨Innermost.name (s := b!"BTreeMap") (by decide +kernel)
          (.group 60 62 b!"u8,Vec" [] (.inl rfl) (by decide +kernel) .nil),
        ⟨66, b!"TreeMap<u8,Vec>", rfl, by decide⟩, ⟨62, b!"BTreeMap<u8,Vec", rfl, by decide⟩⟩)
  have e : (40 :: (tupleBody [(0, b!"AccountId", 0), (1, b!"Vec<(u16,u32)>", 0), (1, b!"BTreeMap<u8,Vec>", 0)] ++ [41]) : Str) =
      b!"(AccountId, Vec<(u16,u32)>, BTreeMap<u8,Vec>)" := by kernel_rfl
  rw [e] at h
  exact h

end ScaleGo
