import Verif.Lemmas.Segs

/-! # `findParts` and `hideCommas` on texts cut at their brackets; texts whose commas are innermost -/

namespace ScaleGo

open ScaleGo.Spec

theorem open_not_close {b : UInt8} (h : isOpen b = true) : isClose b = false := by
  simp only [isOpen, Bool.or_eq_true, beq_iff_eq] at h
  rcases h with rfl | rfl <;> decide

theorem close_not_open {b : UInt8} (h : isClose b = true) : isOpen b = false := by
  simp only [isClose, Bool.or_eq_true, beq_iff_eq] at h
  rcases h with rfl | rfl <;> decide

theorem open_of_bracket {b : UInt8} (h : isBracket b = true) (hc : isClose b = false) : isOpen b = true := by
  simpa [isBracket, hc] using h

/-- The segments up to the first closing bracket. -/
def takeRun : List Seg → Option (List Seg × Seg × List Seg)
  | [] => none
  | x :: L => if isClose x.1 then some ([], x, L) else (takeRun L).map (fun r => (x :: r.1, r.2))

theorem takeRun_some {L P : List Seg} {x : Seg} {R : List Seg} (h : takeRun L = some (P, x, R)) :
    L = P ++ x :: R ∧ isClose x.1 = true ∧ ∀ y ∈ P, isClose y.1 = false := by
  induction L generalizing P with
  | nil => simp [takeRun] at h
  | cons y L ih =>
    unfold takeRun at h
    split at h
    · rename_i hc; cases h; exact ⟨rfl, hc, by simp⟩
    · rename_i hc
      cases hr : takeRun L with
      | none => simp [hr] at h
      | some r =>
        obtain ⟨P1, x1, R1⟩ := r
        simp [hr] at h
        obtain ⟨rfl, rfl, rfl⟩ := h
        obtain ⟨h1, h2, h3⟩ := ih hr
        refine ⟨by rw [h1]; rfl, h2, ?_⟩
        intro z hz
        rcases List.mem_cons.1 hz with rfl | hz
        · simpa using hc
        · exact h3 z hz

theorem takeRun_none {L : List Seg} (h : takeRun L = none) : ∀ y ∈ L, isClose y.1 = false := by
  induction L with
  | nil => simp
  | cons y L ih =>
    unfold takeRun at h
    split at h
    · cases h
    · rename_i hc
      intro z hz
      rcases List.mem_cons.1 hz with rfl | hz
      · simpa using hc
      · exact ih (by simpa using h) z hz

theorem not_close_iff (c : UInt8) : (c = 62 ∨ c = 41) ↔ isClose c = true := by simp [isClose]
theorem open_iff (c : UInt8) : (c = 60 ∨ c = 40) ↔ isOpen c = true := by simp [isOpen]

theorem takeToClose_plain {s Y : Str} (hs : ∀ c ∈ s, isBracket c = false) (hn : 10 ∉ s) :
    takeToClose (s ++ Y) = (takeToClose Y).map (fun p => (s ++ p.1, p.2)) := by
  induction s with
  | nil => rw [List.nil_append]; cases takeToClose Y <;> rfl
  | cons c s ih =>
    have hc := hs c (by simp)
    have hcl : isClose c = false := by simp only [isBracket, Bool.or_eq_false_iff] at hc; exact hc.2
    rw [List.cons_append, takeToClose, if_neg (by rw [not_close_iff, hcl]; simp), if_neg (by rintro rfl; simp at hn),
      ih (fun d hd => hs d (by simp [hd])) (by intro h; exact hn (by simp [h]))]
    cases takeToClose Y <;> simp

theorem takeToClose_segs {L : List Seg} (hL : SegOK L) (hn : 10 ∉ txt L) :
    takeToClose (txt L) = (takeRun L).map (fun r => (txt r.1 ++ [r.2.1.1], r.2.1.2 ++ txt r.2.2)) := by
  induction L with
  | nil => rfl
  | cons x L ih =>
    obtain ⟨b, s⟩ := x
    simp only [txt, List.mem_cons, List.mem_append, not_or] at hn
    rw [txt, takeToClose, takeRun]
    by_cases hc : isClose b = true
    · rw [if_pos ((not_close_iff b).2 hc), if_pos hc]; rfl
    · rw [if_neg (fun h => hc ((not_close_iff b).1 h)), if_neg (Ne.symm hn.1), if_neg hc,
        takeToClose_plain (hL (b, s) (by simp)).2 hn.2.1, ih hL.tail hn.2.2]
      cases takeRun L with
      | none => rfl
      | some r => simp [txt]

/-- `P c` occurs in `L` behind `A`, as an opening bracket with everything up to the first closing one. -/
structure IsPart (L A P : List Seg) (c : UInt8) : Prop where
  ne : P ≠ []
  opens : ∀ x ∈ P, isOpen x.1 = true
  close : isClose c = true
  occ : ∃ s B, L = A ++ (P ++ (c, s) :: B)

theorem parts_spec : ∀ (n : Nat) (s : Str) (L : List Seg), (s ++ txt L).length < n → (∀ c ∈ s, isBracket c = false) →
    SegOK L → 10 ∉ s ++ txt L →
    (∀ p ∈ findPartsAux n (s ++ txt L), ∃ A P c, IsPart L A P c ∧ p = txt P ++ [c]) ∧
    (∀ A b t c u B, L = A ++ (b, t) :: (c, u) :: B → isOpen b = true → isClose c = true →
      ∃ A1 P, IsPart L A1 P c ∧ A ++ [(b, t)] = A1 ++ P ∧ txt P ++ [c] ∈ findPartsAux n (s ++ txt L)) := by
  intro n
  induction n with
  | zero => intro s L h; omega
  | succ n ih =>
    intro s L hlen hs hL hn
    cases s with
    | cons d s =>
      have hd := hs d (by simp)
      have ho : isOpen d = false := by simp only [isBracket, Bool.or_eq_false_iff] at hd; exact hd.1
      have e : findPartsAux (n + 1) (d :: s ++ txt L) = findPartsAux n (s ++ txt L) := by
        rw [List.cons_append, findPartsAux, if_neg (by rw [open_iff, ho]; simp)]
      rw [e]
      exact ih s L (by simp at hlen ⊢; omega) (fun c hc => hs c (by simp [hc])) hL (by intro h; exact hn (by simp at h ⊢; tauto))
    | nil =>
      cases L with
      | nil =>
        refine ⟨by simp [txt, findPartsAux], ?_⟩
        intro A b t c u B he
        simp at he
      | cons x L =>
        obtain ⟨b0, t0⟩ := x
        simp only [List.nil_append, txt] at hlen hn ⊢
        have ht0 := (hL (b0, t0) (by simp)).2
        have hb0 := (hL (b0, t0) (by simp)).1
        have hn' : 10 ∉ t0 ++ txt L := by intro h; exact hn (by simp at h ⊢; tauto)
        have hnt : 10 ∉ t0 := fun h => hn' (by simp [h])
        have hnL : 10 ∉ txt L := fun h => hn' (by simp [h])
        have hlen' : (t0 ++ txt L).length < n := by simp at hlen ⊢; omega
        by_cases hob : isOpen b0 = true
        · rw [findPartsAux, if_pos ((open_iff b0).2 hob), takeToClose_plain ht0 hnt, takeToClose_segs hL.tail hnL]
          cases hr : takeRun L with
          | none =>
            obtain ⟨h1, h2⟩ := ih t0 L hlen' ht0 hL.tail hn'
            have hno := takeRun_none hr
            refine ⟨?_, ?_⟩
            · intro p hp
              obtain ⟨A, P, c, hpart, hpe⟩ := h1 p hp
              obtain ⟨s', B, ho⟩ := hpart.occ
              exact ⟨(b0, t0) :: A, P, c, ⟨hpart.ne, hpart.opens, hpart.close, s', B, by rw [ho]; rfl⟩, hpe⟩
            · intro A b t c u B he hb hc
              have hmem : (c, u) ∈ L := by
                cases A with
                | nil => simp at he; rw [he.2]; simp
                | cons a A => simp at he; rw [he.2]; simp
              rw [hno _ hmem] at hc
              simp at hc
          | some r =>
            obtain ⟨P0, ⟨c0, s0⟩, R⟩ := r
            obtain ⟨hLe, hc0, hP0⟩ := takeRun_some hr
            simp only at hc0
            have hlR : (s0 ++ txt R).length < n := by
              rw [hLe, txt_append] at hlen'
              simp [txt] at hlen' ⊢
              omega
            have hR : SegOK R := fun y hy => hL y (by rw [hLe]; simp [hy])
            have hs0 : ∀ d ∈ s0, isBracket d = false := (hL (c0, s0) (by rw [hLe]; simp)).2
            have hnR : 10 ∉ s0 ++ txt R := by
              intro h
              apply hnL
              rw [hLe, txt_append]
              simp [txt] at h ⊢
              tauto
            obtain ⟨h1, h2⟩ := ih s0 R hlR hs0 hR hnR
            have hopens : ∀ x ∈ (b0, t0) :: P0, isOpen x.1 = true := by
              intro x hx
              rcases List.mem_cons.1 hx with rfl | hx
              · exact hob
              · exact open_of_bracket (hL x (by rw [hLe]; simp [hx])).1 (hP0 x hx)
            have hfirst : IsPart ((b0, t0) :: L) [] ((b0, t0) :: P0) c0 :=
              ⟨by simp, hopens, hc0, s0, R, by rw [hLe]; rfl⟩
            have hmemeq : b0 :: (t0 ++ (txt P0 ++ [c0])) = txt ((b0, t0) :: P0) ++ [c0] := by simp [txt]
            have lift : ∀ {A P : List Seg} {c : UInt8}, IsPart R A P c →
                IsPart ((b0, t0) :: L) ((b0, t0) :: P0 ++ (c0, s0) :: A) P c := by
              intro A P c hpart
              obtain ⟨s', B, ho⟩ := hpart.occ
              exact ⟨hpart.ne, hpart.opens, hpart.close, s', B, by rw [hLe, ho]; simp⟩
            refine ⟨?_, ?_⟩
            · intro p hp
              simp only [Option.map_some, List.mem_cons] at hp
              rcases hp with rfl | hp
              · exact ⟨[], (b0, t0) :: P0, c0, hfirst, hmemeq⟩
              · obtain ⟨A, P, c, hpart, hpe⟩ := h1 p hp
                exact ⟨_, P, c, lift hpart, hpe⟩
            · intro A b t c u B he hb hc
              simp only [Option.map_some, List.mem_cons]
              have he' : ((b0, t0) :: P0) ++ (c0, s0) :: R = A ++ (b, t) :: (c, u) :: B := by rw [← he, hLe]; rfl
              generalize hQ : (b0, t0) :: P0 = Q at *
              have hQne : 0 < Q.length := by rw [← hQ]; simp
              rcases Nat.lt_trichotomy (A.length + 1) Q.length with hlt | heq | hgt
              · exfalso
                have := congrArg (·[A.length + 1]?) he'
                rw [List.getElem?_append_left hlt, List.getElem?_append_right (by omega)] at this
                simp at this
                have := hopens _ (List.mem_of_getElem? this)
                rw [close_not_open hc] at this
                simp at this
              · have e2 : A ++ [(b, t)] ++ (c, u) :: B = Q ++ (c0, s0) :: R := by rw [he']; simp
                obtain ⟨h3, h4⟩ := List.append_inj e2 (by simp [heq])
                simp only [List.cons.injEq, Prod.mk.injEq] at h4
                refine ⟨[], Q, ?_, by simpa using h3, .inl ?_⟩
                · rw [h4.1.1]; exact hfirst
                · rw [h4.1.1, hmemeq]
              · rcases Nat.lt_or_ge Q.length A.length with hlt | hge
                · obtain ⟨A2, rfl⟩ : ∃ A2, A = Q ++ (c0, s0) :: A2 := by
                    have hp : Q ++ [(c0, s0)] <+: A := by
                      have h1 : Q ++ [(c0, s0)] <+: A ++ (b, t) :: (c, u) :: B := by rw [← he']; exact ⟨R, by simp⟩
                      exact List.prefix_of_prefix_length_le h1 (List.prefix_append _ _) (by simp; omega)
                    obtain ⟨A2, h2⟩ := hp
                    exact ⟨A2, by rw [← h2]; simp⟩
                  simp only [List.append_assoc, List.cons_append, List.append_cancel_left_eq, List.cons.injEq, true_and] at he'
                  obtain ⟨A1, P, h3, h4, h5⟩ := h2 A2 b t c u B he' hb hc
                  exact ⟨_, P, lift h3, by simp [h4], .inr h5⟩
                · exfalso
                  have hAQ : A.length = Q.length := by omega
                  obtain ⟨_, h4⟩ := List.append_inj he' hAQ.symm
                  simp only [List.cons.injEq, Prod.mk.injEq] at h4
                  rw [← h4.1.1, close_not_open hc0] at hb
                  simp at hb
        · rw [findPartsAux, if_neg (fun h => hob ((open_iff b0).1 h))]
          obtain ⟨h1, h2⟩ := ih t0 L hlen' ht0 hL.tail hn'
          refine ⟨?_, ?_⟩
          · intro p hp
            obtain ⟨A, P, c, hpart, hpe⟩ := h1 p hp
            obtain ⟨s', B, ho⟩ := hpart.occ
            exact ⟨(b0, t0) :: A, P, c, ⟨hpart.ne, hpart.opens, hpart.close, s', B, by rw [ho]; rfl⟩, hpe⟩
          · intro A b t c u B he hb hc
            cases A with
            | nil =>
              simp only [List.nil_append, List.cons.injEq, Prod.mk.injEq] at he
              rw [← he.1.1] at hb
              exact absurd hb hob
            | cons a A =>
              simp only [List.cons_append, List.cons.injEq] at he
              obtain ⟨A1, P, h3, h4, h5⟩ := h2 A b t c u B he.2 hb hc
              obtain ⟨s', B', ho⟩ := h3.occ
              exact ⟨(b0, t0) :: A1, P, ⟨h3.ne, h3.opens, h3.close, s', B', by rw [ho]; rfl⟩,
                by rw [← he.1]; simp [h4], h5⟩

/-! ## Folding over the parts -/

/-- An opening bracket followed by another opening bracket has no comma between. -/
def Good (L : List Seg) : Prop := ∀ A b s b' s' B, L = A ++ (b, s) :: (b', s') :: B → isOpen b = true → isOpen b' = true → 44 ∉ s

theorem IsPart.lastOnly {L A P : List Seg} {c : UInt8} (h : IsPart L A P c) (hg : Good L) : LastOnly P := by
  intro A1 x B hP hB
  obtain ⟨s, B1, ho⟩ := h.occ
  obtain ⟨y, B2, rfl⟩ : ∃ y B2, B = y :: B2 := by cases B with | nil => exact absurd rfl hB | cons y B2 => exact ⟨y, B2, rfl⟩
  subst hP
  exact hg (A ++ A1) x.1 x.2 y.1 y.2 (B2 ++ (c, s) :: B1) (by rw [ho]; simp) (h.opens x (by simp)) (h.opens y (by simp))

theorem IsPart.ok {L A P : List Seg} {c : UInt8} (h : IsPart L A P c) (hL : SegOK L) : SegOK P := by
  obtain ⟨s, B, ho⟩ := h.occ
  exact fun x hx => hL x (by rw [ho]; simp [hx])

theorem txt_inj {P P' : List Seg} {c c' : UInt8} (hP : SegOK P) (hP' : SegOK P') (hc : isBracket c = true) (hc' : isBracket c' = true)
    (h : txt P ++ [c] = txt P' ++ [c']) : P = P' ∧ c = c' := by
  have ok : ∀ {P : List Seg} {c : UInt8}, SegOK P → isBracket c = true → SegOK (P ++ [(c, [])]) := by
    intro P c hP hc x hx
    rcases List.mem_append.1 hx with hx | hx
    · exact hP x hx
    · rw [List.mem_singleton.1 hx]; exact ⟨hc, by simp⟩
  have e : ∀ (P : List Seg) (c : UInt8), txt (P ++ [(c, [])]) = txt P ++ [c] := by intro P c; rw [txt_append]; simp [txt]
  obtain ⟨s, B, h1⟩ := (prefix_segs hP hc (ok hP' hc')).1 (by rw [e, h]; exact List.prefix_rfl)
  obtain ⟨s', B', h2⟩ := (prefix_segs hP' hc' (ok hP hc)).1 (by rw [e, h]; exact List.prefix_rfl)
  have l1 := congrArg List.length h1
  have l2 := congrArg List.length h2
  simp at l1 l2
  obtain ⟨h3, h4⟩ := List.append_inj h1 (by omega)
  simp at h4
  exact ⟨h3.symm, h4.1.1.symm⟩

theorem Mid.append {X Y Z : List Seg} (h : Mid (X ++ Y) Z) : ∃ X' Y', Z = X' ++ Y' ∧ X'.length = X.length ∧ Mid Y Y' := by
  induction X generalizing Z with
  | nil => exact ⟨[], Z, rfl, rfl, h⟩
  | cons x X ih =>
    cases h with
    | keep b s L L' h =>
      obtain ⟨X', Y', rfl, hl, hm⟩ := ih h
      exact ⟨(b, s) :: X', Y', rfl, by simp [hl], hm⟩
    | hid b s L L' ho hc h =>
      obtain ⟨X', Y', rfl, hl, hm⟩ := ih h
      exact ⟨(b, hide s) :: X', Y', rfl, by simp [hl], hm⟩

theorem Mid.pattern {P Y Z : List Seg} (hP : LastOnly P) (h : Mid (P ++ Y) Z) :
    ∃ Y', Mid Y Y' ∧ (Z = P ++ Y' ∨ Z = hideSegs P ++ Y') := by
  induction P generalizing Z with
  | nil => exact ⟨Z, h, .inl rfl⟩
  | cons x P ih =>
    have key : ∀ {b : UInt8} {s : Str}, x = (b, s) → P ≠ [] → hide s = s := by
      rintro b s rfl hne
      exact hide_id (hP [] (b, s) P rfl hne)
    cases h with
    | keep b s L L' h =>
      obtain ⟨Y', hm, rfl | rfl⟩ := ih hP.tail h
      · exact ⟨Y', hm, .inl rfl⟩
      · cases P with
        | nil => exact ⟨Y', hm, .inl rfl⟩
        | cons y P =>
          refine ⟨Y', hm, .inr ?_⟩
          have := key rfl (by simp)
          simp [hideSegs, this]
    | hid b s L L' ho hc h =>
      obtain ⟨Y', hm, rfl | rfl⟩ := ih hP.tail h
      · cases P with
        | nil => exact ⟨Y', hm, .inr rfl⟩
        | cons y P =>
          refine ⟨Y', hm, .inl ?_⟩
          rw [key rfl (by simp)]; rfl
      · exact ⟨Y', hm, .inr rfl⟩

theorem Mid.persist {L L' : List Seg} (h : Mid L L') : ∀ (k : Nat) (b : UInt8) (s : Str), L[k]? = some (b, hide s) → L'[k]? = some (b, hide s) := by
  induction h with
  | nil => simp
  | keep b s L L' h ih =>
    intro k b' s' hk
    cases k with
    | zero => simpa using hk
    | succ k => simpa using ih k b' s' (by simpa using hk)
  | hid b s L L' ho hc h ih =>
    intro k b' s' hk
    cases k with
    | zero =>
      simp at hk ⊢
      exact ⟨hk.1, by rw [hk.2, hide_hide]⟩
    | succ k => simpa using ih k b' s' (by simpa using hk)

theorem hideSegs_last {P : List Seg} (h : P ≠ []) : ∃ b s, (hideSegs P)[P.length - 1]? = some (b, hide s) ∧ P[P.length - 1]? = some (b, s) := by
  have hm : 0 < P.length := List.length_pos_of_ne_nil h
  obtain ⟨x, hx⟩ : ∃ x, P[P.length - 1]? = some x := ⟨_, List.getElem?_eq_getElem (by omega)⟩
  exact ⟨x.1, x.2, by simp [hideSegs, hx], hx⟩

theorem replaceAll_part {s0 : Str} {L P : List Seg} {c : UInt8} (hs0 : ∀ d ∈ s0, isBracket d = false) (hL : SegOK L) (hP : SegOK P)
    (hne : P ≠ []) (hop : ∀ x ∈ P, isOpen x.1 = true) (hc : isClose c = true) :
    ∃ L', Repl P (hideSegs P) c L L' ∧
      replaceAll (s0 ++ txt L) (txt P ++ [c]) (replaceAll (txt P ++ [c]) b!"," b!"#") = s0 ++ txt L' := by
  obtain ⟨L', h1, h2⟩ := replace_segs P (hideSegs P) c hP hc hne hop L.length L (Nat.le_refl _) hL
  refine ⟨L', h1, ?_⟩
  have hc44 : c ≠ 44 := by rintro rfl; exact absurd hc (by decide)
  have e : hide (txt P ++ [c]) = txt (hideSegs P) ++ [c] := by rw [hide_append, hide_txt hP]; simp [hide, hc44]
  rw [hide_eq, e]
  unfold replaceAll
  rw [replaceAllAux_plain ?_ hs0, h2]
  cases P with
  | nil => exact absurd rfl hne
  | cons x P => exact ⟨x.1, _, rfl, (hP x (by simp)).1⟩

theorem fold_parts {s0 : Str} {L : List Seg} (hs0 : ∀ d ∈ s0, isBracket d = false) (hL : SegOK L) (hg : Good L) :
    ∀ (ps : List Str), (∀ p ∈ ps, ∃ A P c, IsPart L A P c ∧ p = txt P ++ [c]) → ∀ L1, Mid L L1 →
      ∃ L2, ps.foldl (fun t part => replaceAll t part (replaceAll part b!"," b!"#")) (s0 ++ txt L1) = s0 ++ txt L2 ∧ Mid L1 L2 ∧
        ∀ A P c, IsPart L A P c → txt P ++ [c] ∈ ps → L2[A.length + P.length - 1]? = (hideSegs P)[P.length - 1]? := by
  intro ps
  induction ps with
  | nil => intro _ L1 _; exact ⟨L1, rfl, Mid.refl _, by simp⟩
  | cons p ps ih =>
    intro hps L1 hm
    obtain ⟨A0, P0, c0, hpart, hpe⟩ := hps p (by simp)
    obtain ⟨L', hrep, hre⟩ := replaceAll_part hs0 (hm.ok hL) (hpart.ok hL) hpart.ne hpart.opens hpart.close
    have hmid := hrep.mid (hpart.lastOnly hg) hpart.opens hpart.close
    obtain ⟨L2, h1, h2, h3⟩ := ih (fun q hq => hps q (by simp [hq])) L' (hm.trans hmid)
    refine ⟨L2, ?_, hmid.trans h2, ?_⟩
    · rw [List.foldl_cons, hpe, hre, h1]
    · intro A P c hp hmem
      rcases List.mem_cons.1 hmem with he | hmem
      · have hcb : isBracket c = true := by simp [isBracket, hp.close]
        have hcb0 : isBracket c0 = true := by simp [isBracket, hpart.close]
        obtain ⟨rfl, rfl⟩ := txt_inj (hp.ok hL) (hpart.ok hL) hcb hcb0 (by rw [he, hpe])
        obtain ⟨s, B, ho⟩ := hp.occ
        rw [ho] at hm
        obtain ⟨A', Z, rfl, hAl, hm2⟩ := hm.append
        obtain ⟨b, t, hb1, hb2⟩ := hideSegs_last hp.ne
        have hm0 : 0 < P.length := List.length_pos_of_ne_nil hp.ne
        obtain ⟨Y', hY, hZ | hZ⟩ := hm2.pattern (hp.lastOnly hg)
        · obtain ⟨s', B', rfl⟩ : ∃ s' B', Y' = (c, s') :: B' := by
            cases hY with
            | keep _ _ _ M h => exact ⟨_, _, rfl⟩
            | hid _ _ _ M ho hc h => exact ⟨_, _, rfl⟩
          have := hrep.progress (by simp [hideSegs]) hp.ne hp.opens hp.close A' s' B' (by rw [hZ])
          rw [hAl] at this
          rw [hb1]
          exact h2.persist _ b t (by rw [this, hb1])
        · have hk : (A' ++ Z)[A.length + P.length - 1]? = some (b, hide t) := by
            rw [List.getElem?_append_right (by omega), hZ, List.getElem?_append_left (by simp [hideSegs]; omega)]
            have : A.length + P.length - 1 - A'.length = P.length - 1 := by omega
            rw [this, hb1]
          rw [hb1]
          exact h2.persist _ b t (hmid.persist _ b t hk)
      · exact h3 A P c hp hmem

/-- Hide the commas of every innermost pair. -/
def hs : List Seg → List Seg
  | [] => []
  | [x] => [x]
  | x :: y :: L => (x.1, if isOpen x.1 && isClose y.1 then hide x.2 else x.2) :: hs (y :: L)

theorem hs_eq {L L2 : List Seg} (h : Mid L L2)
    (hall : ∀ A b s c t B, L = A ++ (b, s) :: (c, t) :: B → isOpen b = true → isClose c = true → L2[A.length]? = some (b, hide s)) :
    L2 = hs L := by
  induction h with
  | nil => rfl
  | keep b s L L' h ih =>
    have ih := ih (fun A b' s' c t B he hb hc => by
      have := hall ((b, s) :: A) b' s' c t B (by rw [he]; rfl) hb hc
      simpa using this)
    cases L with
    | nil => rw [ih]; rfl
    | cons y L =>
      rw [hs, ih]
      split
      · rename_i hh
        simp only [Bool.and_eq_true] at hh
        have := hall [] b s y.1 y.2 L rfl hh.1 hh.2
        simp at this
        rw [← this]
      · rfl
  | hid b s L L' ho hc h ih =>
    have ih := ih (fun A b' s' c t B he hb hc => by
      have := hall ((b, s) :: A) b' s' c t B (by rw [he]; rfl) hb hc
      simpa using this)
    obtain ⟨c, t, B, rfl, hcc⟩ := hc
    rw [hs, ih]
    simp [ho, hcc]

theorem hideCommas_segs {s0 : Str} {L : List Seg} (hs0 : ∀ d ∈ s0, isBracket d = false) (hL : SegOK L) (hg : Good L)
    (hn : 10 ∉ s0 ++ txt L) : hideCommas (s0 ++ txt L) = s0 ++ txt (hs L) := by
  obtain ⟨h1, h2⟩ := parts_spec ((s0 ++ txt L).length + 1) s0 L (by omega) hs0 hL hn
  obtain ⟨L2, h3, h4, h5⟩ := fold_parts hs0 hL hg (findParts (s0 ++ txt L)) h1 L (Mid.refl L)
  unfold hideCommas
  rw [h3]
  congr 2
  refine hs_eq h4 ?_
  intro A b s c t B he hb hc
  obtain ⟨A1, P, hp, hA, hmem⟩ := h2 A b s c t B he hb hc
  have := h5 A1 P c hp hmem
  have hl := congrArg List.length hA
  simp at hl
  have hm0 : 0 < P.length := List.length_pos_of_ne_nil hp.ne
  obtain ⟨b', s', e1, e2⟩ := hideSegs_last hp.ne
  have e3 : (A ++ [(b, s)])[A.length]? = some (b, s) := by simp
  rw [hA, List.getElem?_append_right (by omega)] at e3
  have e4 : A.length - A1.length = P.length - 1 := by omega
  rw [e4, e2] at e3
  cases e3
  rw [e1] at this
  rw [← this]
  congr 1
  omega

end ScaleGo
