import Verif.Lemmas.Names

/-! # Texts cut at their brackets, and what `hideCommas` does to them -/

namespace ScaleGo

namespace Spec

def isOpen (b : UInt8) : Bool := b == 60 || b == 40
def isClose (b : UInt8) : Bool := b == 62 || b == 41
def isBracket (b : UInt8) : Bool := isOpen b || isClose b

end Spec

open ScaleGo.Spec

/-- A bracket and the bracket-free text after it. -/
abbrev Seg := UInt8 × Str

def txt : List Seg → Str
  | [] => []
  | (b, s) :: L => b :: (s ++ txt L)

theorem txt_append (A B : List Seg) : txt (A ++ B) = txt A ++ txt B := by
  induction A with
  | nil => rfl
  | cons x A ih => obtain ⟨b, s⟩ := x; simp [txt, ih]

def SegOK (L : List Seg) : Prop := ∀ x ∈ L, isBracket x.1 = true ∧ ∀ c ∈ x.2, isBracket c = false

/-- Cut a text at its brackets. -/
def toSegs : Str → Str × List Seg
  | [] => ([], [])
  | c :: cs =>
    let r := toSegs cs
    if isBracket c then ([], (c, r.1) :: r.2) else (c :: r.1, r.2)

theorem toSegs_txt (t : Str) : (toSegs t).1 ++ txt (toSegs t).2 = t := by
  induction t with
  | nil => rfl
  | cons c cs ih =>
    unfold toSegs
    dsimp only
    split
    · simp [txt, ih]
    · simp [ih]

theorem toSegs_ok (t : Str) : (∀ c ∈ (toSegs t).1, isBracket c = false) ∧ SegOK (toSegs t).2 := by
  induction t with
  | nil => simp [toSegs, SegOK]
  | cons c cs ih =>
    unfold toSegs
    dsimp only
    split
    · rename_i h
      refine ⟨by simp, ?_⟩
      intro x hx
      rcases List.mem_cons.1 hx with rfl | hx
      · exact ⟨h, ih.1⟩
      · exact ih.2 x hx
    · rename_i h
      refine ⟨?_, ih.2⟩
      intro x hx
      rcases List.mem_cons.1 hx with rfl | hx
      · simpa using h
      · exact ih.1 x hx

/-- Replace commas. -/
def hide (s : Str) : Str := s.map (fun c => if c = 44 then 35 else c)

theorem hide_hide (s : Str) : hide (hide s) = hide s := by
  simp only [hide, List.map_map]
  congr 1
  funext c
  simp only [Function.comp]
  split <;> simp_all

theorem hide_id {s : Str} (h : 44 ∉ s) : hide s = s := by
  unfold hide
  conv_rhs => rw [← List.map_id s]
  refine List.map_congr_left (fun c hc => ?_)
  rw [if_neg (by rintro rfl; exact h hc)]
  rfl

theorem hide_append (a b : Str) : hide (a ++ b) = hide a ++ hide b := by simp [hide]

theorem replaceAll_byte (s : Str) (a b : UInt8) : replaceAll s [a] [b] = s.map (fun c => if c = a then b else c) := by
  unfold replaceAll
  induction s with
  | nil => rfl
  | cons c s ih =>
    unfold replaceAllAux
    by_cases h : c = a
    · subst h; simp [List.isPrefixOf, ih]
    · rw [if_neg (by simp [List.isPrefixOf, Ne.symm h]), ih]; simp [h]

theorem hide_eq (s : Str) : replaceAll s b!"," b!"#" = hide s := replaceAll_byte s 44 35

def hideSegs (P : List Seg) : List Seg := P.map (fun x => (x.1, hide x.2))

theorem hide_txt {P : List Seg} (h : SegOK P) : hide (txt P) = txt (hideSegs P) := by
  induction P with
  | nil => rfl
  | cons x P ih =>
    obtain ⟨b, s⟩ := x
    have hb := (h (b, s) (by simp)).1
    have : b ≠ 44 := by rintro rfl; exact absurd hb (by decide : ¬ isBracket 44 = true)
    have ih := ih (fun y hy => h y (by simp [hy]))
    simp only [txt, hideSegs, List.map_cons] at ih ⊢
    rw [← ih]
    simp [hide, this]

/-! ## Alignment of occurrences -/

theorem align {s s' X Y : Str} (hs : ∀ c ∈ s, isBracket c = false) (hs' : ∀ c ∈ s', isBracket c = false)
    (hX : ∃ c X', X = c :: X' ∧ isBracket c = true) (hY : Y = [] ∨ ∃ c Y', Y = c :: Y' ∧ isBracket c = true)
    (h : s ++ X <+: s' ++ Y) : s = s' ∧ X <+: Y := by
  induction s generalizing s' with
  | nil =>
    cases s' with
    | nil => exact ⟨rfl, by simpa using h⟩
    | cons c s' =>
      obtain ⟨d, X', rfl, hd⟩ := hX
      simp only [List.nil_append, List.cons_append, List.cons_prefix_cons] at h
      have := hs' c (by simp)
      rw [← h.1, hd] at this
      simp at this
  | cons a s ih =>
    cases s' with
    | nil =>
      rcases hY with rfl | ⟨d, Y', rfl, hd⟩
      · simp at h
      · simp only [List.nil_append, List.cons_append, List.cons_prefix_cons] at h
        have := hs a (by simp)
        rw [h.1, hd] at this
        simp at this
    | cons c s' =>
      simp only [List.cons_append, List.cons_prefix_cons] at h
      obtain ⟨h1, h2⟩ := ih (fun x hx => hs x (by simp [hx])) (fun x hx => hs' x (by simp [hx])) h.2
      exact ⟨by rw [h.1, h1], h2⟩

theorem txt_head {L : List Seg} (h : SegOK L) : txt L = [] ∨ ∃ c Y, txt L = c :: Y ∧ isBracket c = true := by
  cases L with
  | nil => exact .inl rfl
  | cons x L => exact .inr ⟨x.1, _, rfl, (h x (by simp)).1⟩

theorem SegOK.tail {x : Seg} {L : List Seg} (h : SegOK (x :: L)) : SegOK L := fun y hy => h y (by simp [hy])

theorem prefix_segs {P L : List Seg} {c : UInt8} (hP : SegOK P) (hc : isBracket c = true) (hL : SegOK L) :
    txt P ++ [c] <+: txt L ↔ ∃ s B, L = P ++ (c, s) :: B := by
  induction P generalizing L with
  | nil =>
    cases L with
    | nil => simp [txt]
    | cons x L =>
      obtain ⟨b, s⟩ := x
      simp only [txt, List.nil_append, List.cons_prefix_cons, List.nil_prefix, and_true]
      constructor
      · rintro rfl; exact ⟨s, L, rfl⟩
      · rintro ⟨_, _, h⟩; cases h; rfl
  | cons x P ih =>
    obtain ⟨b, s⟩ := x
    cases L with
    | nil => simp [txt]
    | cons y L =>
      obtain ⟨b', s'⟩ := y
      have hX : ∃ d X', txt P ++ [c] = d :: X' ∧ isBracket d = true := by
        rcases txt_head hP.tail with h | ⟨d, Y, h, hd⟩
        · exact ⟨c, [], by simp [h], hc⟩
        · exact ⟨d, Y ++ [c], by simp [h], hd⟩
      simp only [txt, List.cons_append, List.cons_prefix_cons, List.append_assoc]
      constructor
      · rintro ⟨rfl, h⟩
        obtain ⟨rfl, h2⟩ := align (hP (b, s) (by simp)).2 (hL (b, s') (by simp)).2 hX (txt_head hL.tail) h
        obtain ⟨s1, B, rfl⟩ := (ih hP.tail hL.tail).1 h2
        exact ⟨s1, B, rfl⟩
      · rintro ⟨s1, B, h⟩
        cases h
        refine ⟨rfl, ?_⟩
        rw [List.prefix_append_right_inj]
        exact (ih hP.tail hL.tail).2 ⟨s1, B, rfl⟩

/-! ## `ReplaceAll` of a bracketed part -/

/-- All occurrences of the pattern `P c` are replaced by `P' c`, from left to right. -/
inductive Repl (P P' : List Seg) (c : UInt8) : List Seg → List Seg → Prop where
  | nil : Repl P P' c [] []
  | hit (s : Str) (B B' : List Seg) (h : Repl P P' c B B') : Repl P P' c (P ++ (c, s) :: B) (P' ++ (c, s) :: B')
  | miss (x : Seg) (L L' : List Seg) (hn : ¬ ∃ s B, x :: L = P ++ (c, s) :: B) (h : Repl P P' c L L') :
      Repl P P' c (x :: L) (x :: L')

theorem replaceAllAux_skip (p q : Str) (X Y : Str) : replaceAllAux p q X.length (X ++ Y) = replaceAllAux p q 0 Y := by
  induction X with
  | nil => rfl
  | cons x X ih => simp only [List.length_cons, List.cons_append, replaceAllAux]; exact ih

theorem replaceAllAux_plain {p q s Y : Str} (hp : ∃ c p', p = c :: p' ∧ isBracket c = true)
    (hs : ∀ c ∈ s, isBracket c = false) : replaceAllAux p q 0 (s ++ Y) = s ++ replaceAllAux p q 0 Y := by
  induction s with
  | nil => rfl
  | cons x s ih =>
    rw [List.cons_append]
    rw [replaceAllAux.eq_3]
    rw [if_neg, ih (fun c hc => hs c (by simp [hc]))]
    · rfl
    · obtain ⟨c, p', rfl, hc⟩ := hp
      intro h
      simp only [List.isPrefixOf, Bool.and_eq_true, beq_iff_eq] at h
      have := hs x (by simp)
      rw [← h.1, hc] at this
      simp at this

theorem replace_segs (P P' : List Seg) (c : UInt8) (hP : SegOK P) (hc : isClose c = true) (hne : P ≠ [])
    (hop : ∀ x ∈ P, isOpen x.1 = true) : ∀ (n : Nat) (L : List Seg), L.length ≤ n → SegOK L →
      ∃ L', Repl P P' c L L' ∧ replaceAllAux (txt P ++ [c]) (txt P' ++ [c]) 0 (txt L) = txt L' := by
  have hbc : isBracket c = true := by simp [isBracket, hc]
  have hp : ∃ d p', txt P ++ [c] = d :: p' ∧ isBracket d = true := by
    cases P with
    | nil => exact absurd rfl hne
    | cons x P => exact ⟨x.1, _, rfl, (hP x (by simp)).1⟩
  intro n
  induction n with
  | zero =>
    intro L hl _
    obtain rfl : L = [] := List.eq_nil_of_length_eq_zero (by omega)
    exact ⟨[], .nil, rfl⟩
  | succ n ih =>
    intro L hl hL
    cases L with
    | nil => exact ⟨[], .nil, rfl⟩
    | cons x L =>
      by_cases hm : ∃ s B, x :: L = P ++ (c, s) :: B
      · obtain ⟨s, B, he⟩ := hm
        have hB : SegOK B := fun y hy => hL y (by rw [he]; simp [hy])
        have hsok : ∀ d ∈ s, isBracket d = false := (hL (c, s) (by rw [he]; simp)).2
        have hlen : B.length ≤ n := by
          have := congrArg List.length he
          simp at this hl
          have : 0 < P.length := List.length_pos_of_ne_nil hne
          omega
        obtain ⟨B', h1, h2⟩ := ih B hlen hB
        refine ⟨P' ++ (c, s) :: B', by rw [he]; exact .hit s B B' h1, ?_⟩
        rw [he, txt_append, txt_append]
        have e1 : txt P ++ txt ((c, s) :: B) = (txt P ++ [c]) ++ (s ++ txt B) := by simp [txt]
        have e2 : txt P' ++ txt ((c, s) :: B') = (txt P' ++ [c]) ++ (s ++ txt B') := by simp [txt]
        rw [e1, e2]
        obtain ⟨d, p', hd, _⟩ := id hp
        have hstep : replaceAllAux (txt P ++ [c]) (txt P' ++ [c]) 0 ((txt P ++ [c]) ++ (s ++ txt B)) =
            (txt P' ++ [c]) ++ replaceAllAux (txt P ++ [c]) (txt P' ++ [c]) 0 (s ++ txt B) := by
          generalize hq : txt P' ++ [c] = q
          rw [hd, List.cons_append]
          rw [replaceAllAux.eq_3]
          rw [if_pos (by rw [List.isPrefixOf_iff_prefix, ← List.cons_append]; exact List.prefix_append _ _)]
          congr 1
          have := replaceAllAux_skip (d :: p') q p' (s ++ txt B)
          simpa using this
        rw [hstep, replaceAllAux_plain hp hsok, h2]
      · obtain ⟨b, s⟩ := x
        obtain ⟨L', h1, h2⟩ := ih L (by simpa using hl) hL.tail
        refine ⟨(b, s) :: L', .miss _ _ _ hm h1, ?_⟩
        simp only [txt]
        rw [replaceAllAux]
        rw [if_neg, replaceAllAux_plain hp (hL (b, s) (by simp)).2, h2]
        intro h
        rw [List.isPrefixOf_iff_prefix] at h
        exact hm ((prefix_segs hP hbc hL).1 h)

/-! ## Some innermost parts hidden -/

def headClose (L : List Seg) : Prop := ∃ c s B, L = (c, s) :: B ∧ isClose c = true

/-- `L'` is `L` with the commas of some innermost bracket pairs hidden. -/
inductive Mid : List Seg → List Seg → Prop where
  | nil : Mid [] []
  | keep (b : UInt8) (s : Str) (L L' : List Seg) (h : Mid L L') : Mid ((b, s) :: L) ((b, s) :: L')
  | hid (b : UInt8) (s : Str) (L L' : List Seg) (ho : isOpen b = true) (hc : headClose L) (h : Mid L L') :
      Mid ((b, s) :: L) ((b, hide s) :: L')

theorem Mid.refl (L : List Seg) : Mid L L := by
  induction L with
  | nil => exact .nil
  | cons x L ih => exact .keep _ _ _ _ ih

theorem Mid.headClose {L L' : List Seg} (h : Mid L L') : headClose L ↔ ScaleGo.headClose L' := by
  cases h with
  | nil => rfl
  | keep b s L L' h =>
    constructor <;> rintro ⟨c, t, B, he, hc⟩ <;> cases he <;> exact ⟨_, _, _, rfl, hc⟩
  | hid b s L L' ho _ h =>
    constructor <;> rintro ⟨c, t, B, he, hc⟩ <;> cases he <;> exact ⟨_, _, _, rfl, hc⟩

theorem bracket_hide (s : Str) (h : ∀ c ∈ s, isBracket c = false) : ∀ c ∈ hide s, isBracket c = false := by
  intro c hc
  simp only [hide, List.mem_map] at hc
  obtain ⟨d, hd, rfl⟩ := hc
  split
  · decide
  · exact h d hd

theorem Mid.ok {L L' : List Seg} (h : Mid L L') (hL : SegOK L) : SegOK L' := by
  induction h with
  | nil => exact hL
  | keep b s L L' h ih =>
    intro x hx
    rcases List.mem_cons.1 hx with rfl | hx
    · exact hL _ (by simp)
    · exact ih hL.tail x hx
  | hid b s L L' ho hc h ih =>
    intro x hx
    rcases List.mem_cons.1 hx with rfl | hx
    · exact ⟨(hL (b, s) (by simp)).1, bracket_hide s (hL (b, s) (by simp)).2⟩
    · exact ih hL.tail x hx

theorem Mid.trans {A B C : List Seg} (h : Mid A B) (h' : Mid B C) : Mid A C := by
  induction h generalizing C with
  | nil => exact h'
  | keep b s L L' h ih =>
    cases h' with
    | keep _ _ _ M h2 => exact .keep _ _ _ _ (ih h2)
    | hid _ _ _ M ho hc h2 => exact .hid _ _ _ _ ho (h.headClose.2 hc) (ih h2)
  | hid b s L L' ho hc h ih =>
    cases h' with
    | keep _ _ _ M h2 => exact .hid _ _ _ _ ho hc (ih h2)
    | hid _ _ _ M ho2 hc2 h2 => rw [hide_hide]; exact .hid _ _ _ _ ho hc (ih h2)

/-- A pattern whose only commas are in its last segment. -/
def LastOnly (P : List Seg) : Prop := ∀ A x B, P = A ++ x :: B → B ≠ [] → 44 ∉ x.2

theorem LastOnly.tail {x : Seg} {P : List Seg} (h : LastOnly (x :: P)) : LastOnly P :=
  fun A y B he hB => h (x :: A) y B (by rw [he]; rfl) hB

theorem mid_pattern {P : List Seg} (hP : LastOnly P) (hop : ∀ x ∈ P, isOpen x.1 = true) {B B' : List Seg} (hB : headClose B) (h : Mid B B') :
    Mid (P ++ B) (hideSegs P ++ B') := by
  induction P with
  | nil => exact h
  | cons x P ih =>
    obtain ⟨b, s⟩ := x
    cases P with
    | nil => exact .hid _ _ _ _ (hop (b, s) (by simp)) hB h
    | cons y P =>
      have : hide s = s := hide_id (hP [] (b, s) (y :: P) rfl (by simp))
      simp only [hideSegs, List.map_cons, this, List.cons_append]
      exact .keep _ _ _ _ (ih hP.tail (fun z hz => hop z (by simp [hz])))

theorem Repl.mid {P : List Seg} {c : UInt8} {L L' : List Seg} (hP : LastOnly P) (hop : ∀ x ∈ P, isOpen x.1 = true)
    (hc : isClose c = true) (h : Repl P (hideSegs P) c L L') : Mid L L' := by
  induction h with
  | nil => exact .nil
  | hit s B B' h ih => exact mid_pattern hP hop ⟨c, s, B, rfl, hc⟩ (.keep _ _ _ _ ih)
  | miss x L L' hn h ih => exact .keep _ _ _ _ ih

/-- An occurrence present when a pattern is replaced is replaced. -/
theorem Repl.progress {P P' : List Seg} {c : UInt8} (hlen : P'.length = P.length) (hne : P ≠ []) (hop : ∀ x ∈ P, isOpen x.1 = true)
    (hc : isClose c = true) {M L' : List Seg} (h : Repl P P' c M L') :
    ∀ (A : List Seg) (s : Str) (B : List Seg), M = A ++ (P ++ (c, s) :: B) →
      L'[A.length + P.length - 1]? = P'[P.length - 1]? := by
  have hm : 0 < P.length := List.length_pos_of_ne_nil hne
  induction h with
  | nil => intro A s B he; simp at he
  | hit s1 B1 B1' h ih =>
    intro A s B he
    by_cases hA : A = []
    · subst hA
      simp only [List.length_nil, Nat.zero_add]
      rw [List.getElem?_append_left (by omega)]
    · have hA' : 0 < A.length := List.length_pos_of_ne_nil hA
      by_cases hcmp : A.length ≤ P.length
      · exfalso
        have e1 : (P ++ (c, s1) :: B1)[P.length]? = some (c, s1) := by simp
        rw [he, List.getElem?_append_right hcmp, List.getElem?_append_left (by omega)] at e1
        have := hop _ (List.mem_of_getElem? e1)
        simp only [isOpen, isClose, Bool.or_eq_true, beq_iff_eq] at this hc
        rcases this with rfl | rfl <;> rcases hc with h | h <;> exact absurd h (by decide)
      · obtain ⟨A2, rfl⟩ : ∃ A2, A = P ++ (c, s1) :: A2 := by
          have hp : P ++ [(c, s1)] <+: A := by
            have h1 : P ++ [(c, s1)] <+: A ++ (P ++ (c, s) :: B) := by rw [← he]; exact ⟨B1, by simp⟩
            exact List.prefix_of_prefix_length_le h1 (List.prefix_append _ _) (by simp; omega)
          obtain ⟨A2, h2⟩ := hp
          exact ⟨A2, by rw [← h2]; simp⟩
        have he' : B1 = A2 ++ (P ++ (c, s) :: B) := by
          simp only [List.append_assoc, List.cons_append, List.append_cancel_left_eq, List.cons.injEq, true_and] at he
          exact he
        have := ih A2 s B he'
        rw [← this, List.getElem?_append_right (by simp; omega)]
        simp only [List.length_append, List.length_cons, hlen]
        have e : P.length + (A2.length + 1) + P.length - 1 - P.length = (A2.length + P.length - 1) + 1 := by omega
        rw [e, List.getElem?_cons_succ]
  | miss x L L1 hn h ih =>
    intro A s B he
    cases A with
    | nil => exact absurd ⟨s, B, he⟩ hn
    | cons a A =>
      simp only [List.cons_append, List.cons.injEq] at he
      have := ih A s B he.2
      rw [← this]
      have e : (a :: A).length + P.length - 1 = (A.length + P.length - 1) + 1 := by simp; omega
      rw [e, List.getElem?_cons_succ]

end ScaleGo
