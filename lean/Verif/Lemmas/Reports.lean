import Verif.Lemmas.Inv
import Verif.Lemmas.Shift
import Mathlib.Data.List.Forall2

/-! # Reported calls: what a decoding step adds to the list of nested calls -/

namespace ScaleGo

namespace Spec

/-- A map that represents a decoded call. -/
def callShape : List (Str × Val) → Option Val
  | [a, b, c, (n, .params ps)] => some (.map [a, b, c, (n, .params ps)])
  | _ => none

mutual
/-- The calls inside a decoded value, inner calls before the calls containing them, left to right. -/
def callsIn : Val → List Val
  | .slice l => callsInL l
  | .map fs => callsInM fs ++ (callShape fs).toList
  | .params ps => callsInP ps
  | _ => []
def callsInL : List Val → List Val
  | [] => []
  | v :: l => callsIn v ++ callsInL l
def callsInM : List (Str × Val) → List Val
  | [] => []
  | (_, v) :: l => callsIn v ++ callsInM l
def callsInP : List (Str × Str × Val) → List Val
  | [] => []
  | (_, _, v) :: l => callsIn v ++ callsInP l
end

/-- Some of the texts `new`, in order, stand in relation `G` to the values `vs`. -/
def Cov (G : Val → Str → Prop) (vs : List Val) (new : List Str) : Prop :=
  ∃ some, List.Sublist some new ∧ List.Forall₂ G vs some

end Spec

open ScaleGo.Spec

theorem Spec.Cov.nil (G : Val → Str → Prop) (new : List Str) : Cov G [] new := ⟨[], List.nil_sublist _, .nil⟩

theorem Spec.Cov.append {G : Val → Str → Prop} {v w : List Val} {a b : List Str} (h : Cov G v a) (k : Cov G w b) :
    Cov G (v ++ w) (a ++ b) := by
  obtain ⟨x, x1, x2⟩ := h
  obtain ⟨y, y1, y2⟩ := k
  exact ⟨x ++ y, x1.append y1, List.rel_append x2 y2⟩

theorem Spec.Cov.sub {G : Val → Str → Prop} {v : List Val} {a b : List Str} (h : Cov G v a) (k : List.Sublist a b) : Cov G v b := by
  obtain ⟨x, x1, x2⟩ := h
  exact ⟨x, x1.trans k, x2⟩

theorem Spec.Cov.of_nil {G : Val → Str → Prop} {v : List Val} (h : Cov G v []) : v = [] := by
  obtain ⟨x, x1, x2⟩ := h
  rw [List.sublist_nil.1 x1] at x2
  cases x2
  rfl

def NotParams : Val → Prop
  | .params _ => False
  | _ => True

/-- Whatever a step returns, it has only advanced, and value and newly reported calls satisfy `P`. -/
def Rep {α : Type} (st : St) (x : Res (α × St)) (P : α → List Str → Prop) : Prop :=
  ∀ a st', x = .ok (a, st') → Adv st st' ∧ ∃ new, st'.calls = st.calls ++ new ∧ P a new

theorem Rep.ok {α : Type} {st : St} {a : α} {P : α → List Str → Prop} (h : InB st) (hp : P a []) : Rep st (.ok (a, st)) P := by
  intro b s e; cases e; exact ⟨Adv.refl h, [], by simp, hp⟩

theorem Rep.panic {α : Type} {st : St} {P : α → List Str → Prop} : Rep st (.panic : Res (α × St)) P := by intro b s e; cases e

theorem Rep.diverge {α : Type} {st : St} {P : α → List Str → Prop} : Rep st (.diverge : Res (α × St)) P := by intro b s e; cases e

theorem Rep.bind {α β : Type} {st : St} {x : Res (α × St)} {f : α × St → Res (β × St)} {P : α → List Str → Prop}
    {Q : β → List Str → Prop} (h : Rep st x P)
    (hf : ∀ a s l, P a l → InB s → Rep s (f (a, s)) (fun b l2 => Q b (l ++ l2))) : Rep st (x >>= f) Q := by
  intro b s e
  rw [Res.bind_eq_ok] at e
  obtain ⟨⟨a, s1⟩, e1, e2⟩ := e
  obtain ⟨h1, l, h2, h3⟩ := h a s1 e1
  obtain ⟨h4, l2, h5, h6⟩ := hf a s1 l h3 h1.inB b s e2
  exact ⟨h1.trans h4, l ++ l2, by rw [h5, h2, List.append_assoc], h6⟩

theorem Rep.pure {α β : Type} {st : St} {x : Res α} {f : α → Res (β × St)} {Q : β → List Str → Prop}
    (hf : ∀ a, x = .ok a → Rep st (f a) Q) : Rep st (x >>= f) Q := by
  intro b s e
  rw [Res.bind_eq_ok] at e
  obtain ⟨a, e1, e2⟩ := e
  exact hf a e1 b s e2

theorem Rep.mono {α : Type} {st : St} {x : Res (α × St)} {P Q : α → List Str → Prop} (h : Rep st x P)
    (hpq : ∀ a l, P a l → Q a l) : Rep st x Q := by
  intro a s e
  obtain ⟨h1, l, h2, h3⟩ := h a s e
  exact ⟨h1, l, h2, hpq a l h3⟩

/-- A step that reports nothing. -/
def Quiet {α : Type} : α → List Str → Prop := fun _ l => l = []

theorem Rep.quiet {α β : Type} {st : St} {x : Res (α × St)} {f : α × St → Res (β × St)} {Q : β → List Str → Prop}
    (h : Rep st x Quiet) (hf : ∀ a s, InB s → Rep s (f (a, s)) Q) : Rep st (x >>= f) Q := by
  refine h.bind (fun a s l hl hs => ?_)
  rw [show l = [] from hl]
  simpa using hf a s hs

theorem nextBytes_rep (n : Int) {st : St} (h : InB st) : Rep st (nextBytes n st) Quiet := by
  intro b s e
  refine ⟨nextBytes_post n h b s e, [], ?_, rfl⟩
  unfold nextBytes at e
  rw [Res.bind_eq_ok] at e
  obtain ⟨⟨b', c⟩, _, e2⟩ := e
  cases e2
  simp

theorem getNextU8_rep {st : St} (h : InB st) : Rep st (getNextU8 st) Quiet :=
  (nextBytes_rep 1 h).quiet (fun _ _ h => Rep.ok h rfl)

theorem processCompactBytes_rep {st : St} (h : InB st) : Rep st (processCompactBytes st) Quiet := by
  unfold processCompactBytes
  refine (nextBytes_rep 1 h).quiet (fun b s h => ?_)
  dsimp only
  split
  · exact Rep.ok h rfl
  · exact (nextBytes_rep _ h).quiet (fun _ _ h => Rep.ok h rfl)
  · exact (nextBytes_rep _ h).quiet (fun _ _ h => Rep.ok h rfl)
  · exact (nextBytes_rep _ h).quiet (fun _ _ h => Rep.ok h rfl)

/-- The postcondition of a decoding step: the calls in the value are among the reported ones, in the same order, and every
reported text satisfies `G`. -/
def PP (G : Val → Str → Prop) (v : Val) (new : List Str) : Prop :=
  Cov G (callsIn v) new ∧ NotParams v ∧ ∀ raw ∈ new, ∃ c, G c raw

theorem Rep.leaf {G : Val → Str → Prop} {st : St} {v : Val} (h : InB st) (h1 : callsIn v = []) (h2 : NotParams v) :
    Rep st (.ok (v, st)) (PP G) := Rep.ok h ⟨by rw [h1]; exact Cov.nil _ _, h2, by simp⟩

theorem processCompactU32_rep {G : Val → Str → Prop} {st : St} (h : InB st) : Rep st (processCompactU32 st) (PP G) := by
  unfold processCompactU32
  exact (processCompactBytes_rep h).quiet (fun _ _ h => Rep.leaf h rfl trivial)

theorem callsInM_append (a b : List (Str × Val)) : callsInM (a ++ b) = callsInM a ++ callsInM b := by
  induction a with
  | nil => simp [callsInM]
  | cons p a ih => obtain ⟨n, v⟩ := p; simp [callsInM, ih]

theorem callShape_none {fs : List (Str × Val)} (h : ∀ p ∈ fs, NotParams p.2) : callShape fs = none := by
  unfold callShape
  split
  · rename_i n i x y m ps
    exact (h (m, .params ps) (by simp)).elim
  · rfl

theorem callsIn_map {fs : List (Str × Val)} (h : ∀ p ∈ fs, NotParams p.2) : callsIn (.map fs) = callsInM fs := by
  rw [callsIn, callShape_none h]; simp

theorem mapSet_fresh {m : List (Str × Val)} {k : Str} {v : Val} (h : k ∉ m.map Prod.fst) : mapSet m k v = m ++ [(k, v)] := by
  induction m with
  | nil => rfl
  | cons p m ih =>
    obtain ⟨k', v'⟩ := p
    simp only [List.map_cons, List.mem_cons, not_or] at h
    rw [mapSet, if_neg (Ne.symm h.1), ih h.2]
    rfl

/-- Postcondition of a loop filling a map. -/
def PF (G : Val → Str → Prop) (acc : List (Str × Val)) (m : List (Str × Val)) (new : List Str) : Prop :=
  (∃ l, callsInM m = callsInM acc ++ l ∧ Cov G l new) ∧ (∀ p ∈ m, NotParams p.2) ∧ ∀ raw ∈ new, ∃ c, G c raw

theorem mkSlice_pp {G : Val → Str → Prop} {vs : List Val} {new : List Str} (h : Cov G (callsInL vs) new ∧ ∀ raw ∈ new, ∃ c, G c raw) :
    PP G (mkSlice vs) new := by
  unfold mkSlice
  split
  · exact ⟨Cov.nil _ _, trivial, h.2⟩
  · exact ⟨by simpa [callsIn] using h.1, trivial, h.2⟩

/-- A step whose result is dropped or turned into a leaf. -/
theorem drop_pp {G : Val → Str → Prop} {v : Val} {new : List Str} (h1 : callsIn v = []) (h2 : NotParams v)
    (h3 : ∀ raw ∈ new, ∃ c, G c raw) : PP G v new := by
  exact ⟨by rw [h1]; exact Cov.nil _ _, h2, h3⟩

theorem one_pp {G : Val → Str → Prop} {n : Str} {v : Val} {new : List Str} (h : PP G v new) : PP G (.map [(n, v)]) new := by
  refine ⟨?_, trivial, h.2.2⟩
  rw [callsIn_map (by intro p hp; rw [List.mem_singleton.1 hp]; exact h.2.1)]
  simpa [callsInM] using h.1

section
variable {r : Rec} {G : Val → Str → Prop} {md : Option MD} {spec : Int}
  (hr : ∀ ctx ty st, ctx.md = md → ctx.spec = spec → InB st → Rep st (r ctx ty st) (PP G))
include hr

theorem procN_rep {ctx : Ctx} (h1 : ctx.md = md) (h2 : ctx.spec = spec) (ty : Str) (n : Nat) {st : St} (h : InB st) :
    Rep st (procN r ctx ty n st)
      (fun vs new => Cov G (callsInL vs) new ∧ ∀ raw ∈ new, ∃ c, G c raw) := by
  induction n generalizing st with
  | zero => exact Rep.ok h ⟨Cov.nil _ _, by simp⟩
  | succ n ih =>
    refine (hr ctx ty st h1 h2 h).bind (fun v s l hl hs => (ih hs).bind (fun vs s2 l2 hl2 hs2 => Rep.ok hs2 ⟨?_, ?_⟩))
    · simp only [callsInL, List.append_nil]
      exact hl.1.append hl2.1
    · simp only [List.append_nil, List.mem_append]
      rintro raw (hm | hm)
      · exact hl.2.2 raw hm
      · exact hl2.2 raw hm

theorem procFields_rep {ctx : Ctx} (h1 : ctx.md = md) (h2 : ctx.spec = spec) (fs : List (Str × Str)) (acc : List (Str × Val))
    (hd : (acc.map Prod.fst ++ fs.map Prod.fst).Nodup) (hacc : ∀ p ∈ acc, NotParams p.2) {st : St} (h : InB st) :
    Rep st (procFields r ctx fs acc st) (PF G acc) := by
  induction fs generalizing acc st with
  | nil => exact Rep.ok h ⟨⟨[], by simp, Cov.nil _ _⟩, hacc, by simp⟩
  | cons f fs ih =>
    obtain ⟨n, t⟩ := f
    rw [procFields]
    have hn : n ∉ acc.map Prod.fst := by
      intro hm
      have := List.nodup_append.1 hd
      exact this.2.2 n hm n (by simp) rfl
    refine (hr ctx t st h1 h2 h).bind (fun v s l hl hs => ?_)
    dsimp only
    rw [mapSet_fresh hn]
    refine (ih (acc ++ [(n, v)]) (by simpa using hd) ?_ hs).mono ?_
    · intro p hp
      rcases List.mem_append.1 hp with hp | hp
      · exact hacc p hp
      · rw [List.mem_singleton.1 hp]; exact hl.2.1
    · rintro m l2 ⟨g1, g2, g3⟩
      refine ⟨?_, g2, ?_⟩
      · obtain ⟨x, x1, x2⟩ := g1
        refine ⟨callsIn v ++ x, ?_, hl.1.append x2⟩
        rw [x1, callsInM_append]
        simp [callsInM]
      · rintro raw hm
        rcases List.mem_append.1 hm with hm | hm
        · exact hl.2.2 raw hm
        · exact g3 raw hm

theorem procRows_rep {ctx : Ctx} (h1 : ctx.md = md) (h2 : ctx.spec = spec) (rows : List (List Str)) (acc : List (Str × Val))
    (hd : (acc.map Prod.fst ++ rows.map (fun r => r.headD [])).Nodup) (hacc : ∀ p ∈ acc, NotParams p.2) {st : St} (h : InB st) :
    Rep st (procRows r ctx rows acc st) (PF G acc) := by
  induction rows generalizing acc st with
  | nil => exact Rep.ok h ⟨⟨[], by simp, Cov.nil _ _⟩, hacc, by simp⟩
  | cons f fs ih =>
    match f with
    | [] => exact Rep.panic
    | [_] => exact Rep.panic
    | n :: t :: rest =>
      rw [procRows]
      have hn : n ∉ acc.map Prod.fst := by
        intro hm
        have := List.nodup_append.1 hd
        exact this.2.2 n hm n (by simp) rfl
      refine (hr ctx t st h1 h2 h).bind (fun v s l hl hs => ?_)
      dsimp only
      rw [mapSet_fresh hn]
      refine (ih (acc ++ [(n, v)]) (by simpa using hd) ?_ hs).mono ?_
      · intro p hp
        rcases List.mem_append.1 hp with hp | hp
        · exact hacc p hp
        · rw [List.mem_singleton.1 hp]; exact hl.2.1
      · rintro m l2 ⟨g1, g2, g3⟩
        refine ⟨?_, g2, ?_⟩
        · obtain ⟨x, x1, x2⟩ := g1
          refine ⟨callsIn v ++ x, ?_, hl.1.append x2⟩
          rw [x1, callsInM_append]
          simp [callsInM]
        · rintro raw hm
          rcases List.mem_append.1 hm with hm | hm
          · exact hl.2.2 raw hm
          · exact g3 raw hm

theorem procPairs_rep (ext : Ext) {ctx : Ctx} (h1 : ctx.md = md) (h2 : ctx.spec = spec) (parts : List Str) (n : Nat) {st : St} (h : InB st) :
    Rep st (procPairs ext r ctx parts n st)
      (fun vs new => Cov G (callsInL vs) new ∧ ∀ raw ∈ new, ∃ c, G c raw) := by
  induction n generalizing st with
  | zero => exact Rep.ok h ⟨Cov.nil _ _, by simp⟩
  | succ n ih =>
    rw [procPairs]
    refine (hr ctx _ st h1 h2 h).bind (fun k s l hl hs => ?_)
    dsimp only
    split
    · refine (hr ctx _ s h1 h2 hs).bind (fun v s2 l2 hl2 hs2 => (ih hs2).bind (fun vs s3 l3 hl3 hs3 => Rep.ok hs3 ⟨?_, ?_⟩))
      · have hv : callsIn (.map [(ext.toStr k, v)]) = callsIn v := by
          rw [callsIn_map (by intro p hp; rw [List.mem_singleton.1 hp]; exact hl2.2.1)]
          simp [callsInM]
        simp only [callsInL, hv, List.append_nil]
        exact (hl2.1.append hl3.1).sub (List.sublist_append_right _ _)
      · simp only [List.append_nil, List.mem_append]
        rintro raw (hm | hm | hm)
        · exact hl.2.2 raw hm
        · exact hl2.2.2 raw hm
        · exact hl3.2 raw hm
    · exact Rep.panic

theorem procArgs_rep {ctx : Ctx} (h1 : ctx.md = md) (h2 : ctx.spec = spec) (fs : List (Str × Str)) {st : St} (h : InB st) :
    Rep st (procArgs r ctx fs st)
      (fun ps new => Cov G (callsInP ps) new ∧ ∀ raw ∈ new, ∃ c, G c raw) := by
  induction fs generalizing st with
  | nil => exact Rep.ok h ⟨Cov.nil _ _, by simp⟩
  | cons f fs ih =>
    obtain ⟨n, t⟩ := f
    rw [procArgs]
    refine (hr ctx t st h1 h2 h).bind (fun v s l hl hs => (ih hs).bind (fun vs s2 l2 hl2 hs2 => Rep.ok hs2 ⟨?_, ?_⟩))
    · simp only [callsInP, List.append_nil]
      exact hl.1.append hl2.1
    · simp only [List.append_nil, List.mem_append]
      rintro raw (hm | hm)
      · exact hl.2.2 raw hm
      · exact hl2.2 raw hm

theorem processVec_rep {ctx : Ctx} (h1 : ctx.md = md) (h2 : ctx.spec = spec) (sub : Str) {st : St} (h : InB st) :
    Rep st (processVec r ctx sub st) (PP G) := by
  unfold processVec
  refine (hr ctx _ st h1 h2 h).bind (fun v s l hl hs => ?_)
  dsimp only
  refine Rep.pure (fun n _ => ?_)
  split
  · exact Rep.panic
  · refine (procN_rep hr h1 h2 sub _ hs).bind (fun vs s2 l2 hl2 hs2 => Rep.ok hs2 ?_)
    simp only [List.append_nil]
    refine mkSlice_pp ⟨?_, ?_⟩
    · exact hl2.1.sub (List.sublist_append_right _ _)
    · intro raw hm
      rcases List.mem_append.1 hm with hm | hm
      · exact hl.2.2 raw hm
      · exact hl2.2 raw hm

theorem processBytes_rep {ctx : Ctx} (h1 : ctx.md = md) (h2 : ctx.spec = spec) {st : St} (h : InB st) :
    Rep st (processBytes r ctx st) (PP G) := by
  unfold processBytes
  refine (hr ctx _ st h1 h2 h).bind (fun v s l hl hs => Rep.pure (fun n _ => ?_))
  exact (nextBytes_rep _ hs).quiet (fun _ _ h => Rep.ok h (drop_pp rfl trivial (by simpa using hl.2.2)))

theorem processEnum_rep (ext : Ext) (hrows : ∀ sub rows, variantRows ext sub = some rows → (rows.map (fun r => r.headD [])).Nodup)
    {ctx : Ctx} (h1 : ctx.md = md) (h2 : ctx.spec = spec) (vs : List Str) (tm : Option (List (Str × Str))) {st : St} (h : InB st) :
    Rep st (processEnum ext r ctx vs tm st) (PP G) := by
  unfold processEnum
  refine (nextBytes_rep 1 h).quiet (fun b s hs => ?_)
  have hval : Rep s (match vs[(b.headD 0).toNat]? with
      | some v => .ok (if v = [] then Val.nil else .str v, s)
      | none => .panic) (PP G) := by
    split
    · split <;> exact Rep.leaf hs rfl trivial
    · exact Rep.panic
  dsimp only
  cases tm with
  | none => exact hval
  | some tm =>
    dsimp only
    split
    · exact Rep.leaf hs rfl trivial
    · split
      · exact Rep.panic
      · split
        · exact hval
        · split
          · rename_i rows hv
            refine (procRows_rep hr h1 h2 rows [] (by simpa using hrows _ rows hv) (by simp) hs).bind
              (fun m s2 l hl hs2 => Rep.ok hs2 ?_)
            simp only [List.append_nil]
            refine one_pp ⟨?_, trivial, hl.2.2⟩
            obtain ⟨x, x1, x2⟩ := hl.1
            rw [callsIn_map hl.2.1, x1]
            simpa [callsInM] using x2
          · refine (hr ctx _ s h1 h2 hs).bind (fun v s2 l hl hs2 => Rep.ok hs2 ?_)
            simp only [List.append_nil]
            exact one_pp hl

end


/-- The raw text that a call decoded between two states reports. -/
def rawBetween (st st' : St) : Str := bytesToHex ((st'.cur.data.drop st.cur.off).take (st'.cur.off - st.cur.off))

theorem nextBytes_two {st st' : St} {b : Str} (hin : InB st) (h : nextBytes 2 st = .ok (b, st')) :
    b = (st.cur.data.drop st.cur.off).take 2 ∧ min 2 (st.cur.data.drop st.cur.off).length ≤ st'.cur.off - st.cur.off := by
  unfold nextBytes at h
  rw [Res.bind_eq_ok] at h
  obtain ⟨⟨b', c⟩, h1, h2⟩ := h
  cases h2
  unfold getNextBytes at h1
  unfold InB at hin
  dsimp only at h1 ⊢
  obtain ⟨k, e1, e2, e3⟩ := wrap64_spec ((st.cur.off : Int) + 2)
  generalize wrap64 ((st.cur.off : Int) + 2) = e at e1 e2 e3 h1
  split at h1
  · cases h1
    refine ⟨(List.take_of_length_le ?_).symm, ?_⟩ <;> simp only [List.length_drop] <;> omega
  · split at h1
    · cases h1
      have he : e.toNat - st.cur.off = 2 := by omega
      rw [he]
      exact ⟨rfl, by omega⟩
    · cases h1

theorem bytesToHex_take (n : Nat) (b : Str) : (bytesToHex b).take (2 * n) = bytesToHex (b.take n) := by
  induction n generalizing b with
  | zero => simp [bytesToHex]
  | succ n ih =>
    cases b with
    | nil => simp [bytesToHex]
    | cons c b =>
      have := ih b
      simp only [bytesToHex, List.take_succ_cons] at this ⊢
      rw [← this]
      rfl

/-- The reported text of a call starts with its index. -/
theorem raw_index {st s1 st' : St} {b : Str} (hin : InB st) (h : nextBytes 2 st = .ok (b, s1)) (h2 : Adv s1 st') :
    (rawBetween st st').take 4 = bytesToHex b := by
  obtain ⟨e1, e2⟩ := nextBytes_two hin h
  have h0 := nextBytes_post 2 hin b s1 h
  obtain ⟨a1, a2, a3⟩ := h0
  obtain ⟨b1, b2, b3⟩ := h2
  unfold rawBetween
  have h4 := bytesToHex_take 2 ((st'.cur.data.drop st.cur.off).take (st'.cur.off - st.cur.off))
  simp only [Nat.reduceMul] at h4
  rw [h4, e1, b1, a1, List.take_take]
  have key : (st.cur.data.drop st.cur.off).take (min 2 (st'.cur.off - st.cur.off)) = (st.cur.data.drop st.cur.off).take 2 := by
    by_cases hk : 2 ≤ st'.cur.off - st.cur.off
    · rw [Nat.min_eq_left hk]
    · rw [Nat.min_eq_right (by omega), List.take_of_length_le (by omega), List.take_of_length_le (by omega)]
  rw [key]

section
variable {r : Rec} {G : Val → Str → Prop} {md : Option MD} {spec : Int}
  (hr : ∀ ctx ty st, ctx.md = md → ctx.spec = spec → InB st → Rep st (r ctx ty st) (PP G))
  (hf : ∀ ty st, InB st → Rep st (r Ctx.fresh ty st) (PP (fun _ _ => False)))
  (hc : ∀ ctx st v st', ctx.md = md → ctx.spec = spec → InB st → processCall r ctx st = .ok (v, st') → G v (rawBetween st st'))
include hr

theorem processCall_shape {ctx : Ctx} (h1 : ctx.md = md) (h2 : ctx.spec = spec) {st st' : St} {v : Val} (h : InB st)
    (he : processCall r ctx st = .ok (v, st')) : Adv st st' ∧ NotParams v ∧ ∃ new,
      st'.calls = st.calls ++ new ++ [rawBetween st st'] ∧
      (∀ G', (∀ c raw, G c raw → G' c raw) → G' v (rawBetween st st') → Cov G' (callsIn v) (new ++ [rawBetween st st'])) ∧ ∀ raw ∈ new, ∃ c, G c raw := by
  unfold processCall at he
  dsimp only at he
  rw [Res.bind_eq_ok] at he
  obtain ⟨⟨b, s1⟩, e1, e2⟩ := he
  have hadv := nextBytes_post 2 h b s1 e1
  have hq := nextBytes_rep 2 h b s1 e1
  obtain ⟨_, l, hl, hl0⟩ := hq
  have hl0 : l = [] := hl0
  rw [hl0, List.append_nil] at hl
  dsimp only at e2
  split at e2
  · cases e2
  · rename_i m hm
    rw [Res.bind_eq_ok] at e2
    obtain ⟨⟨ps, s2⟩, e3, e4⟩ := e2
    obtain ⟨g1, new, g2, g3, g4⟩ := procArgs_rep hr (ctx := { ctx with module := ((m.callIndex (bytesToHex b)).getD ⟨[], [], []⟩).moduleName })
      h1 h2 _ hadv.inB ps s2 e3
    cases e4
    have hfin : Adv s1 { s2 with calls := s2.calls ++ [bytesToHex ((s2.cur.data.drop st.cur.off).take (s2.cur.off - st.cur.off))] } := g1
    refine ⟨hadv.trans hfin, trivial, new, ?_, ?_, g4⟩
    · show s2.calls ++ _ = _
      rw [g2, hl]
      rfl
    · intro G' hG hv
      obtain ⟨x, x1, x2⟩ := g3
      rw [callsIn]
      refine Cov.append ⟨x, x1, ?_⟩ ⟨_, List.Sublist.refl _, .cons hv .nil⟩
      simpa [callsInM, callsIn] using x2.imp hG

include hc
theorem processCall_rep {ctx : Ctx} (h1 : ctx.md = md) (h2 : ctx.spec = spec) {st : St} (h : InB st) :
    Rep st (processCall r ctx st) (PP G) := by
  intro v st' he
  obtain ⟨g1, g2, new, g3, g4, g5⟩ := processCall_shape hr h1 h2 h he
  refine ⟨g1, new ++ [rawBetween st st'], by rw [g3, List.append_assoc],
    g4 G (fun _ _ h => h) (hc ctx st v st' h1 h2 h he), g2, ?_⟩
  intro raw hm
  rcases List.mem_append.1 hm with hm | hm
  · exact g5 raw hm
  · rw [List.mem_singleton.1 hm]
    exact ⟨v, hc ctx st v st' h1 h2 h he⟩

/-- Each class: what its decoder reports, given that of the recursive call. -/
theorem process_rep (hf : ∀ ty st, InB st → Rep st (r Ctx.fresh ty st) (PP (fun _ _ => False))) (ext : Ext)
    (hrows : ∀ sub rows, variantRows ext sub = some rows → (rows.map (fun r => r.headD [])).Nodup)
    {ctx : Ctx} (h1 : ctx.md = md) (h2 : ctx.spec = spec) (cls : Cls)
    (hcls : ∀ tm, cls = .struct (some tm) → (tm.map Prod.fst).Nodup) (sub : Str) {st : St} (h : InB st) :
    Rep st (process ext r ctx cls sub st) (PP G) := by
  cases cls <;> simp only [process]
  case null => exact Rep.leaf h rfl trivial
  case empty => exact Rep.leaf h rfl trivial
  case u8 => exact (getNextU8_rep h).quiet (fun _ _ h => Rep.leaf h rfl trivial)
  case u16 => exact (nextBytes_rep _ h).quiet (fun _ _ h => Rep.leaf h rfl trivial)
  case u32 => exact (nextBytes_rep _ h).quiet (fun _ _ h => Rep.leaf h rfl trivial)
  case u64 => exact (nextBytes_rep _ h).quiet (fun _ _ h => Rep.leaf h rfl trivial)
  case u128 =>
    exact (nextBytes_rep _ h).quiet (fun _ _ h => Rep.pure (fun _ _ => Rep.pure (fun _ _ => Rep.leaf h rfl trivial)))
  case u256 =>
    refine (nextBytes_rep _ h).quiet (fun _ _ h => ?_)
    dsimp only
    split
    · exact Rep.leaf h rfl trivial
    · exact Rep.panic
  case float64 =>
    unfold processFloat; split
    · exact Rep.panic
    · exact Rep.leaf h rfl trivial
  case float32 =>
    unfold processFloat; split
    · exact Rep.panic
    · exact Rep.leaf h rfl trivial
  case hash n => exact (nextBytes_rep _ h).quiet (fun _ _ h => Rep.leaf h rfl trivial)
  case address =>
    refine (nextBytes_rep _ h).quiet (fun _ _ h => ?_)
    dsimp only
    split
    · exact (nextBytes_rep _ h).quiet (fun _ _ h => Rep.leaf h rfl trivial)
    · exact (nextBytes_rep _ h).quiet (fun _ _ h => Rep.leaf h rfl trivial)
  case genericAddress =>
    refine (nextBytes_rep _ h).quiet (fun _ _ h => ?_)
    dsimp only
    split
    · exact (nextBytes_rep _ h).quiet (fun _ _ h => Rep.leaf h rfl trivial)
    · split
      · exact (nextBytes_rep _ h).quiet (fun _ _ h => Rep.leaf h rfl trivial)
      · split
        · exact (nextBytes_rep _ h).quiet (fun _ _ h => Rep.leaf h rfl trivial)
        · split
          · exact (nextBytes_rep _ h).quiet (fun _ _ h => Rep.leaf h rfl trivial)
          · exact (nextBytes_rep _ h).quiet (fun _ _ h => Rep.leaf h rfl trivial)
  case option t =>
    unfold processOption
    refine (nextBytes_rep _ h).quiet (fun _ _ h => ?_)
    dsimp only
    split
    · split
      · exact Rep.leaf h rfl trivial
      · exact hr _ _ _ h1 h2 h
    · exact Rep.leaf h rfl trivial
  case struct tm =>
    unfold processStruct
    have hd : ((tm.getD []).map Prod.fst).Nodup := by
      cases tm with
      | none => simp
      | some tm => exact hcls tm rfl
    refine (procFields_rep hr h1 h2 _ [] (by simpa using hd) (by simp) h).bind (fun m s l hl hs => Rep.ok hs ?_)
    simp only [List.append_nil]
    refine ⟨?_, trivial, hl.2.2⟩
    obtain ⟨x, x1, x2⟩ := hl.1
    rw [callsIn_map hl.2.1, x1]
    simpa [callsInM] using x2
  case enum vs tm => exact processEnum_rep hr ext hrows h1 h2 _ _ h
  case bytes => exact processBytes_rep hr h1 h2 h
  case string => exact processBytes_rep hr h1 h2 h
  case hexBytes =>
    unfold processHexBytes
    refine (hr _ _ _ h1 h2 h).bind (fun v s l hl hs => Rep.pure (fun n _ => ?_))
    exact (nextBytes_rep _ hs).quiet (fun _ _ h => Rep.ok h (drop_pp rfl trivial (by simpa using hl.2.2)))
  case vec t => exact processVec_rep hr h1 h2 _ h
  case boundedVec t => exact processVec_rep hr h1 h2 _ h
  case authoritiesChange => exact processVec_rep hr h1 h2 _ h
  case set vs bits =>
    unfold processSet
    exact (hr _ _ _ h1 h2 h).bind (fun v s l hl hs => Rep.ok hs (drop_pp rfl trivial (by simpa using hl.2.2)))
  case compact t =>
    unfold processCompact
    refine (processCompactBytes_rep h).quiet (fun a s hs => ?_)
    dsimp only
    split
    · exact Rep.leaf hs rfl trivial
    · refine Rep.pure (fun p hp => Rep.pure (fun q hq => ?_))
      obtain ⟨v, s2⟩ := p
      obtain ⟨_, new, _, k1, k2, k3⟩ := hf _ _ (Nat.zero_le _) v s2 hp
      have hn : new = [] := List.eq_nil_iff_forall_not_mem.2 (fun x hx => (k3 x hx).choose_spec)
      rw [hn] at k1
      have k1 : callsIn v = [] := k1.of_nil
      unfold compactDivide at hq
      dsimp only at hq
      have hb : callsIn q = [] ∧ NotParams q := by
        split at hq
        · cases hq; exact ⟨rfl, trivial⟩
        · cases hq; exact ⟨rfl, trivial⟩
        · cases hq; exact ⟨rfl, trivial⟩
        · cases hq; exact ⟨rfl, trivial⟩
        · cases hq; exact ⟨rfl, trivial⟩
        · split at hq
          · cases hq; exact ⟨rfl, trivial⟩
          · cases hq
        · cases hq; exact ⟨k1, k2⟩
      exact Rep.leaf hs hb.1 hb.2
  case compactU32 => exact processCompactU32_rep h
  case compactMoment =>
    unfold processCompactMoment
    exact (processCompactU32_rep (G := G) h).bind (fun v s l hl h => Rep.pure (fun _ _ =>
      Rep.ok h (drop_pp rfl trivial (by simpa using hl.2.2))))
  case bool => exact (nextBytes_rep _ h).quiet (fun _ _ h => Rep.leaf h rfl trivial)
  case moment => exact (nextBytes_rep _ h).quiet (fun _ _ h => Rep.leaf h rfl trivial)
  case accountId => exact (nextBytes_rep _ h).quiet (fun _ _ h => Rep.leaf h rfl trivial)
  case call => exact processCall_rep hr hc h1 h2 h
  case era =>
    refine (nextBytes_rep _ h).quiet (fun _ _ h => ?_)
    dsimp only
    split
    · exact Rep.leaf h rfl trivial
    · exact (nextBytes_rep _ h).quiet (fun _ _ h => Rep.leaf h rfl trivial)
  case balance =>
    refine (nextBytes_rep _ h).quiet (fun _ _ h => ?_)
    dsimp only
    split
    · exact Rep.leaf h rfl trivial
    · exact Rep.pure (fun _ _ => Rep.leaf h rfl trivial)
  case logDigest =>
    unfold processLogDigest
    refine (nextBytes_rep _ h).quiet (fun _ _ h => ?_)
    dsimp only
    split
    · exact Rep.panic
    · refine (hr _ _ _ h1 h2 h).bind (fun v s l hl hs => Rep.ok hs ?_)
      simp only [List.append_nil]
      refine ⟨?_, trivial, hl.2.2⟩
      rw [callsIn_map (by
        intro p hp
        simp only [List.mem_cons, List.not_mem_nil, or_false] at hp
        rcases hp with rfl | rfl
        · trivial
        · exact hl.2.1)]
      simpa [callsInM, callsIn] using hl.1
  case lockIdentifier => exact (nextBytes_rep _ h).quiet (fun _ _ h => Rep.leaf h rfl trivial)
  case ecdsaSignature => exact (nextBytes_rep _ h).quiet (fun _ _ h => Rep.leaf h rfl trivial)
  case ethereumAddress => exact (nextBytes_rep _ h).quiet (fun _ _ h => Rep.pure (fun _ _ => Rep.leaf h rfl trivial))
  case data =>
    unfold processData
    refine (nextBytes_rep _ h).quiet (fun _ _ h => ?_)
    dsimp only
    split
    · exact Rep.leaf h rfl trivial
    · split
      · exact (nextBytes_rep _ h).quiet (fun _ _ h => Rep.leaf h rfl trivial)
      · split
        · split
          · refine (hr _ _ _ h1 h2 h).bind (fun v s l hl hs => Rep.ok hs ?_)
            simp only [List.append_nil]
            exact one_pp hl
          · exact Rep.panic
        · exact Rep.leaf h rfl trivial
  case opaqueCall =>
    unfold processOpaqueCall
    refine (processBytes_rep hr h1 h2 h).bind (fun v s l hl hs => ?_)
    dsimp only
    split
    · intro w s3 he
      rw [Res.bind_eq_ok] at he
      obtain ⟨⟨v2, s2⟩, e1, e2⟩ := he
      obtain ⟨_, new, k1, k2, k3, k4⟩ := hr _ _ _ (by exact h1) (by exact h2) (Nat.zero_le _) v2 s2 e1
      cases e2
      refine ⟨⟨rfl, Nat.le_refl _, hs⟩, new, ?_, ?_, k3, ?_⟩
      · show s.calls ++ s2.calls = s.calls ++ new
        rw [k1]; rfl
      · exact k2.sub (List.sublist_append_right _ _)
      · intro raw hm
        rcases List.mem_append.1 hm with hm | hm
        · exact hl.2.2 raw hm
        · exact k4 raw hm
    · exact Rep.panic
  case bitVec =>
    unfold processBitVec
    refine (hr _ _ _ h1 h2 h).bind (fun v s l hl hs => Rep.pure (fun n _ => ?_))
    exact (nextBytes_rep _ hs).quiet (fun _ _ h => Rep.ok h (drop_pp rfl trivial (by simpa using hl.2.2)))
  case lookupSource =>
    unfold processLookupSource
    have hs : Rep st (lookupSkip st) Quiet := by
      unfold lookupSkip
      split
      · exact (nextBytes_rep _ h).quiet (fun _ _ h => Rep.ok h rfl)
      · exact Rep.ok h rfl
    refine hs.quiet (fun _ _ h => (nextBytes_rep _ h).quiet (fun _ _ h => ?_))
    dsimp only
    split
    · exact Rep.panic
    · split
      · exact (nextBytes_rep _ h).quiet (fun _ _ h => Rep.leaf h rfl trivial)
      · split
        · exact Rep.panic
        · refine Rep.pure (fun v _ => ?_)
          split
          · exact Rep.leaf h rfl trivial
          · exact Rep.panic
  case btreeMap t =>
    unfold processBTreeMap
    refine (hr _ _ _ h1 h2 h).bind (fun v s l hl hs => Rep.pure (fun n _ => ?_))
    dsimp only
    split
    · exact Rep.panic
    · refine (procPairs_rep hr ext h1 h2 _ _ hs).bind (fun vs s2 l2 hl2 hs2 => Rep.ok hs2 ?_)
      simp only [List.append_nil]
      refine mkSlice_pp ⟨?_, ?_⟩
      · exact hl2.1.sub (List.sublist_append_right _ _)
      · intro raw hm
        rcases List.mem_append.1 hm with hm | hm
        · exact hl.2.2 raw hm
        · exact hl2.2 raw hm
  case box t => exact hr _ _ _ h1 h2 h
  case result t =>
    unfold processResult
    refine (nextBytes_rep _ h).quiet (fun _ _ h => ?_)
    dsimp only
    have one : ∀ (n t : Str), Rep _ (r ctx t _ >>= fun p => .ok (.map [(n, p.1)], p.2)) (PP G) := fun n t =>
      (hr _ t _ h1 h2 h).bind (fun v s l hl hs => Rep.ok hs (by simpa using one_pp (n := n) hl))
    split
    · split
      · exact one _ _
      · split
        · exact one _ _
        · exact Rep.panic
    · exact Rep.panic
  case wrapperOpaque t =>
    unfold processWrapper
    refine (hr _ _ _ h1 h2 h).bind (fun v s l hl hs => (hr _ _ _ h1 h2 hs).mono (fun a l2 hp => ⟨?_, hp.2.1, ?_⟩))
    · exact hp.1.sub (List.sublist_append_right _ _)
    · intro raw hm
      rcases List.mem_append.1 hm with hm | hm
      · exact hl.2.2 raw hm
      · exact hp.2.2 raw hm
  case range t =>
    unfold processRange
    refine (hr _ _ _ h1 h2 h).bind (fun v s l hl hs => (hr _ _ _ h1 h2 hs).bind (fun w s2 l2 hl2 hs2 => Rep.ok hs2 ?_))
    simp only [List.append_nil]
    refine ⟨?_, trivial, ?_⟩
    · rw [callsIn_map (by
        intro p hp
        simp only [List.mem_cons, List.not_mem_nil, or_false] at hp
        rcases hp with rfl | rfl
        · exact hl.2.1
        · exact hl2.2.1)]
      simpa [callsInM] using hl.1.append hl2.1
    · intro raw hm
      rcases List.mem_append.1 hm with hm | hm
      · exact hl.2.2 raw hm
      · exact hl2.2.2 raw hm
  case fixedU64 => exact (nextBytes_rep _ h).quiet (fun _ _ h => Rep.leaf h rfl trivial)
  case fixedI128 =>
    unfold processFixedI128
    refine (hr _ _ _ h1 h2 h).bind (fun v s l hl hs => ?_)
    dsimp only
    split
    · exact Rep.ok hs (drop_pp rfl trivial (by simpa using hl.2.2))
    · exact Rep.panic
  case intFixed n =>
    refine (nextBytes_rep _ h).quiet (fun _ _ h => ?_)
    dsimp only
    split
    · exact Rep.panic
    · split
      · exact Rep.leaf h rfl trivial
      · exact Rep.leaf h rfl trivial
  case fixedU8 n => exact (nextBytes_rep _ h).quiet (fun _ _ h => Rep.leaf h rfl trivial)
  case fixedArray n t =>
    unfold processFixedArray
    split
    · split
      · exact (nextBytes_rep _ h).quiet (fun _ _ h => Rep.leaf h rfl trivial)
      · refine (procN_rep hr h1 h2 _ _ h).bind (fun vs s l hl hs => Rep.ok hs ?_)
        simp only [List.append_nil]
        exact ⟨by simpa [callsIn] using hl.1, trivial, hl.2⟩
    · exact (getNextU8_rep h).quiet (fun _ _ h => Rep.leaf h rfl trivial)

end

end ScaleGo
