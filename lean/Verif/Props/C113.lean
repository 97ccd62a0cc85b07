import Verif.Props.C59

/-! # C113: compact numbers of declared types

English claim: a compact number whose type is declared in the metadata, such as `Compact<Perbill>` where
`struct Perbill(u32)`, is read as the number it stands for, and as a value of the same Go type wherever the
declarations stand in the type table.

What an index of the metadata stands for is `Layer` (see C59), which mentions neither names nor texts nor the order
in which types are dealt with. -/

namespace ScaleGo
open _root_.Spec (Shape Layer Leaf IsCompact)
open ScaleGo.Spec

/-- The full claim: bytes of the same compact number are read as the same value. -/
def C113Claim : Prop :=
  ∀ (cfg cfg' : SiCfg) (fuel : Nat) (reg : RegState) (st st' : SiState) (ctx : Ctx) (i i' k k' : Nat) (sh : Shape Nat) (t t' : Str),
    Ready reg → processSiType cfg fuel reg = .ok st → processSiType cfg' fuel reg = .ok st' →
    (cfg.types i).typ = .compact k → (cfg'.types i').typ = .compact k' → Layer cfg.types i sh → Layer cfg'.types i' sh →
    st.ids i = some t → st'.ids i' = some t' →
    ∀ (data : Str) (n : Nat) (v v' : Val) (s s' : St), pau st.reg.env n ctx t ⟨⟨data, 0⟩, []⟩ = .ok (v, s) →
      pau st'.reg.env n ctx t' ⟨⟨data, 0⟩, []⟩ = .ok (v', s') → v = v'

/-- `struct a::Perbill(u32)` before `Compact<Perbill>`. -/
def earlyCfg : SiCfg where
  types := fun i => match i with
    | 0 => { path := [b!"a", b!"Perbill"], typ := .composite [⟨[], 1, []⟩] }
    | 1 => { typ := .primitive b!"U32" }
    | 2 => { typ := .compact 0 }
    | _ => {}
  count := 3

/-- `struct a::Perbill(u32)` after `Compact<Perbill>`. -/
def lateCfg : SiCfg where
  types := fun i => match i with
    | 0 => { typ := .compact 2 }
    | 1 => { typ := .primitive b!"U32" }
    | 2 => { path := [b!"a", b!"Perbill"], typ := .composite [⟨[], 1, []⟩] }
    | _ => {}
  count := 3

theorem early_reads : ∃ st, processSiType earlyCfg 5 rowsReg = .ok st ∧ st.ids 2 = some b!"compact<U32>" ∧ ∀ n,
    pau st.reg.env (n + 9) ⟨[], 0, none⟩ b!"compact<U32>" ⟨⟨[8], 0⟩, []⟩ = .ok (.int 2, ⟨⟨[8], 1⟩, []⟩) :=
  ⟨_, rfl, rfl, fun n => by kernel_rfl⟩

theorem late_reads : ∃ st, processSiType lateCfg 5 rowsReg = .ok st ∧ st.ids 0 = some b!"compact<a:Perbill>" ∧ ∀ n,
    pau st.reg.env (n + 9) ⟨[], 0, none⟩ b!"compact<a:Perbill>" ⟨⟨[8], 0⟩, []⟩ = .ok (.uint 8 2, ⟨⟨[8], 1⟩, []⟩) :=
  ⟨_, rfl, rfl, fun n => by kernel_rfl⟩

/-- The same number is read as an `int` or as a `uint64`. -/
theorem C113_claim_false : ¬ C113Claim := by
  intro h
  obtain ⟨st, h1, h2, h3⟩ := early_reads
  obtain ⟨st', h1', h2', h3'⟩ := late_reads
  have bare : ∀ (c : SiCfg) (k : Nat), (c.types k).typ = .composite [⟨[], 1, []⟩] → (c.types k).path = [b!"a", b!"Perbill"] →
      (c.types 1).typ = .primitive b!"U32" → _root_.Spec.Bare c.types k b!"U32" := by
    intro c k e1 e2 e3
    refine .newtype e1 (by rw [e2]; decide) (by unfold _root_.Spec.tail; rw [e2]; decide) (.primitive e3)
  have := h earlyCfg lateCfg 5 rowsReg st st' ⟨[], 0, none⟩ 2 0 0 2 .compact32 _ _ rows_ready h1 h1' rfl rfl
    (.compact rfl (bare earlyCfg 0 rfl rfl rfl) (by simp [_root_.Spec.compactNumbers, _root_.Spec.compactShapes]))
    (.compact rfl (bare lateCfg 2 rfl rfl rfl) (by simp [_root_.Spec.compactNumbers, _root_.Spec.compactShapes])) h2 h2' [8] 9 _ _ _ _ (h3 0) (h3' 0)
  cases this

/-- Which Go value a compact number is read as: `small` says that the text counts as that of `Compact<u32>`. -/
def compactGo : Shape Nat → Bool → Nat → Val
  | .uint 4, true, n => .int n
  | .u128, _, n => .dec n 0
  | _, _, n => .uint 8 n

/-- The numbers below the bound of a compact type, as far as the library can give them back. -/
def CompactFits (w : Shape Nat) (n : Nat) : Prop := w = .uint 4 ∧ n < 2 ^ 32 ∨ w = .uint 8 ∧ n < 2 ^ 63 ∨ w = .u128 ∧ n < 2 ^ 63

section
variable (cfg : SiCfg) (dup : Str → Nat) (A : Nat → Prop) (fuel : Nat) (reg : RegState) (st : SiState) (ctx : Ctx) (ectx : ECtx)
  (hd : countNames cfg 0 cfg.count (fun _ => 0) = .ok dup) (hr : Ready reg) (hE : EarlyOK { cfg with dup := dup } A)
  (hT : Tidy { cfg with dup := dup } A reg.env.reg) (hm : Untouched { cfg with dup := dup } ctx.module)
  (h : processSiType cfg fuel reg = .ok st)
include hd hr hE hT hm h

/-- For all metadata with names that do not get in each other's way: the compact form of a number of the metadata, however deeply
declared, has a text `compact<s>` and reads as the number. The Go type is determined by the number type, except for 32 bits, where it
depends on whether `s` is the name of `u32` or that of a declaration. -/
theorem C113_reads (i k : Nat) (w : Shape Nat) (t : Str) (hl : Late { cfg with dup := dup } A i) (hc : (cfg.types i).typ = .compact k)
    (hk : Covered { cfg with dup := dup } A k w) (hi : st.ids i = some t) (n : Nat) (hn : CompactFits w n) (b : Str) (hb : IsCompact n b) :
    ∃ s, t = b!"compact<" ++ s ++ b!">" ∧ ((w = .uint 4 → n < 2 ^ 30) → Encodes st.reg.env ectx t (.int n) b) ∧
      Decodes st.reg.env ctx t b (compactGo w (Spec.asciiLower s = b!"u32") n) [] := by
  unfold processSiType at h
  rw [hd] at h
  have hL := process_loaded hE h hT hr.stock fun _ => hr.unseen
  obtain ⟨l1, l2⟩ := len_ok hT hr.stock hL hr.special (ctx := ctx)
  have ht := text_other (hL.ids i t hi) hl (by rw [hc]; simp) (by rw [hc]; simp)
  simp only [hc, reduceCtorEq, false_and, exists_false, false_or, or_false, SiDef.compact.injEq] at ht
  obtain ⟨k', s, rfl, hs, rfl⟩ := ht
  refine ⟨s, rfl, ?_⟩
  have hne : w ≠ .null := by rcases hn with ⟨rfl, _⟩ | ⟨rfl, _⟩ | ⟨rfl, _⟩ <;> simp
  have hvs := view hk hT.names hs hne
  have shape : ∀ {sh : Shape Nat} {sh' : Shape Str}, View { cfg with dup := dup } A (generic b!"compact" s) sh →
      (∀ x, Like (Spelled { cfg with dup := dup } A) sh x → x = sh') → HasShape st.reg.env ctx ectx (generic b!"compact" s) sh' := by
    intro sh sh' hv hx
    obtain ⟨c, u, h1, x, h2, h3⟩ := view_looksUp hT hr.stock hL hr.special hr.rows hv
    cases hx x h3
    have hno := view_notOverridden hT hm hv
    have hcv : convertType (generic b!"compact" s) = generic b!"compact" s := by
      rcases view_convert hT.names hv with ⟨h, _⟩ | h
      · rcases h with h | h <;> exact absurd (List.cons.inj h).1 (by decide)
      · exact h
    refine .inl ⟨c, u, u, h1 _ _ (by rw [hcv]; exact hno), ⟨h1 _ _ (notOverridden_nil _), ?_⟩, h2⟩
    rw [← toLower_eq_spec]
    exact fun e => absurd (List.cons.inj e).1 (by decide)
  by_cases h32 : w = .uint 4 ∧ toLower s = b!"u32"
  · obtain ⟨rfl, e⟩ := h32
    have hn32 : n < 2 ^ 32 := by simpa [CompactFits] using hn
    rw [← toLower_eq_spec, e]
    have hmem : (s, Shape.compact32) ∈ _root_.Spec.compactShapes := by
      cases hvs with
      | stock h =>
        simp only [stockShapes, _root_.Spec.primitiveShapes, _root_.Spec.crateShapes, List.cons_append, List.nil_append, List.mem_cons, Prod.mk.injEq,
          List.not_mem_nil, or_false] at h
        simp at h
        rcases h with rfl | rfl <;> simp [_root_.Spec.compactShapes]
      | own _ _ _ _ h => cases h
      | renamed _ _ _ _ h hne _ _ =>
        have := hT.fresh _ _ h hne
        rw [e, hr.stock.entry (b!"u32", .u32) (by decide +kernel)] at this
        cases this
      | compact h => simp [_root_.Spec.compactShapes] at h
      | wrapped _ _ h => simp [wrappedShapes] at h
    have hsh : HasShape st.reg.env ctx ectx (generic b!"compact" s) .compact32 := shape (.compact hmem) fun x h => h
    refine ⟨fun h30 => (leaf_holds l1 l2 hsh (v := .int n) (r := .int n) ⟨n, hn32, rfl, rfl, rfl, hb⟩ ?_).1, ?_⟩
    · intro m hm'
      cases hm'
      exact h30 rfl
    · rcases hsh with ⟨c, u, u', h1, _, h2⟩ | ⟨h, _⟩
      · cases h2
        exact C14_decode _ _ _ _ n b (by omega) hb h1
      · cases h
  · obtain ⟨bound, dec, hw, hb', hgo, h63⟩ : ∃ bound dec, (w, Shape.compact bound dec) ∈ wrappedShapes ∧ n < bound ∧
        compactGo w (decide (Spec.asciiLower s = b!"u32")) n = (if dec then .dec n 0 else .uint 8 n) ∧ n < 2 ^ 63 := by
      rcases hn with ⟨rfl, hn⟩ | ⟨rfl, hn⟩ | ⟨rfl, hn⟩
      · refine ⟨2 ^ 32, false, by simp [wrappedShapes], hn, ?_, by omega⟩
        rw [← toLower_eq_spec, decide_eq_false fun e => h32 ⟨rfl, e⟩]
        rfl
      · exact ⟨2 ^ 64, false, by simp [wrappedShapes], by omega, rfl, by omega⟩
      · exact ⟨2 ^ 128, true, by simp [wrappedShapes], by omega, rfl, by omega⟩
    have hsh : HasShape st.reg.env ctx ectx (generic b!"compact" s) (.compact bound dec) :=
      shape (.wrapped hs hk hw fun e e' => h32 ⟨e, e'⟩) fun x h => h
    rw [hgo]
    have := leaf_holds l1 l2 hsh (v := .int n) ⟨n, hb', rfl, rfl, hb⟩ (by
      intro m hm'
      cases dec <;> simp at hm' <;> omega)
    exact ⟨fun _ => this.1, this.2⟩

/-- For numbers of 64 and 128 bits the claim holds for all such metadata: the Go type depends on nothing but the number type. -/
theorem C113_partial (i k : Nat) (w : Shape Nat) (t : Str) (hl : Late { cfg with dup := dup } A i) (hc : (cfg.types i).typ = .compact k)
    (hk : Covered { cfg with dup := dup } A k w) (h4 : w ≠ .uint 4) (hi : st.ids i = some t) (n : Nat) (hn : CompactFits w n) (b : Str)
    (hb : IsCompact n b) :
    Encodes st.reg.env ectx t (.int n) b ∧ (w = .uint 8 → Decodes st.reg.env ctx t b (.uint 8 n) []) ∧
      (w = .u128 → Decodes st.reg.env ctx t b (.dec n 0) []) := by
  obtain ⟨s, _, h1, h2⟩ := C113_reads cfg dup A fuel reg st ctx ectx hd hr hE hT hm h i k w t hl hc hk hi n hn b hb
  refine ⟨h1 fun e => absurd e h4, ?_⟩
  rcases hn with ⟨rfl, _⟩ | ⟨rfl, _⟩ | ⟨rfl, _⟩
  · exact absurd rfl h4
  · simpa [compactGo] using h2
  · simpa [compactGo] using h2
end

/-! ## Examples -/

/-- `Compact<Moment>` before `struct a::Moment(p)`. -/
def momentCfg (p : Str) : SiCfg where
  types := fun i => match i with
    | 0 => { typ := .compact 2 }
    | 1 => { typ := .primitive p }
    | 2 => { path := [b!"a", b!"Moment"], typ := .composite [⟨[], 1, []⟩] }
    | _ => {}
  count := 3

def momentDup : Str → Nat := fun k => if k = b!"a:Moment" then 0 + 1 else 0

theorem moment_counted (p : Str) : countNames (momentCfg p) 0 (momentCfg p).count (fun _ => 0) = .ok momentDup := rfl

/-- The configuration with the counted names. -/
def moment (p : Str) : SiCfg := { momentCfg p with dup := momentDup }

/-- The primitive type has its text from the start. -/
def momentEarly (i : Nat) : Prop := i = 1

theorem moment_cases {P : Nat → Prop} (h0 : P 0) (h1 : P 1) (h2 : P 2) (h : ∀ k, P (k + 3)) : ∀ i, P i
  | 0 => h0 | 1 => h1 | 2 => h2 | (k + 3) => h k

theorem moment_paths (p : Str) : ∀ i, ((moment p).types i).path ∈ [[], [b!"a", b!"Moment"]] := by
  refine moment_cases ?_ ?_ ?_ (fun k => ?_)
  rotate_right
  · exact List.mem_cons_self
  all_goals simp [moment, momentCfg]

theorem moment_names (p : Str) : ∀ i n, nameSiType (moment p) ((moment p).types i) (some i) = .ok n → n = [] ∨ i = 2 ∧ n = b!"a:Moment" := by
  refine moment_cases ?_ ?_ ?_ (fun k n h => ?_)
  rotate_right
  · cases h
    exact .inl rfl
  all_goals intro n h; cases h; first | exact .inl rfl | exact .inr ⟨rfl, rfl⟩

theorem moment_typ (p : Str) : ∀ i, ((moment p).types i).typ ∈ [.none, .compact 2, .primitive p, .composite [⟨[], 1, []⟩]] := by
  refine moment_cases ?_ ?_ ?_ (fun k => ?_)
  rotate_right
  · exact List.mem_cons_self
  all_goals simp [moment, momentCfg]

theorem moment_early (p : Str) : EarlyOK (moment p) momentEarly where
  inside := by rintro i rfl; show 1 < 3; decide
  kind := by
    rintro i rfl
    exact .inl ⟨_, rfl, rfl⟩
  wrapper := by
    intro i n q ps h
    have := moment_paths p i
    revert h
    unfold IsWrapper
    generalize ((moment p).types i).path = q at this
    intro h
    exfalso
    revert q
    decide
  extrinsic := by
    intro i name q h
    have := moment_paths p i
    revert h
    unfold IsExtrinsic
    generalize ((moment p).types i).path = q at this
    intro h
    exfalso
    revert q
    decide
  core := by
    rintro i h rfl
    cases h

theorem moment_plain {p : Str} (hp : p = b!"U32" ∨ p = b!"U64") : PlainNames (moment p) where
  segments := by
    intro i
    have := moment_paths p i
    generalize ((moment p).types i).path = q at this
    intro s hs
    refine ident_of ?_
    revert q
    intro q hq
    revert s
    revert q
    decide
  pre := fun h => absurd rfl h
  named := by
    refine moment_cases ?_ ?_ ?_ (fun k => ?_)
    rotate_right
    · rintro (⟨_, h⟩ | ⟨_, h⟩) <;> cases h
    all_goals rintro (⟨_, h⟩ | ⟨_, h⟩) <;> first | (cases h; done) | (intro e; cases e)
  primitive := by
    intro i q h
    have := moment_typ p i
    rw [h] at this
    simp only [List.mem_cons, reduceCtorEq, List.not_mem_nil, or_false, false_or, SiDef.primitive.injEq] at this
    subst this
    rcases hp with rfl | rfl <;> exact ⟨ident_of (by decide), by decide⟩
  crate := by
    intro i
    have := moment_paths p i
    generalize ((moment p).types i).path = q at this
    revert q
    decide
  whole := by
    intro i
    unfold pathName
    rw [show (moment p).pathPrefix = [] from rfl]
    have := moment_paths p i
    generalize ((moment p).types i).path = q at this
    revert q
    decide
  range := by
    intro i h
    have := moment_typ p i
    rw [h] at this
    simp at this

theorem moment_tidy {p : Str} (hp : p = b!"U32" ∨ p = b!"U64") : Tidy (moment p) momentEarly rowsReg.env.reg where
  names := moment_plain hp
  unversioned := fun _ => rfl
  apart := by
    intro i n h hne
    obtain ⟨rfl, rfl⟩ := (moment_names p i n h).resolve_left hne
    refine ⟨?_, by decide, by decide, by decide, by decide⟩
    intro j m h' e
    rcases moment_names p j m h' with rfl | ⟨rfl, rfl⟩
    · cases e
    · rfl
  fresh := by
    intro i n h hne
    obtain ⟨rfl, rfl⟩ := (moment_names p i n h).resolve_left hne
    decide +kernel
  tuples := by
    intro i j ks ls ts us h
    have := moment_typ p i
    rw [h] at this
    simp at this
  freshTuples := by
    intro i ks ts h
    have := moment_typ p i
    rw [h] at this
    simp at this
  closed := by
    intro i hi
    obtain ⟨k, rfl⟩ := Nat.exists_eq_add_of_le' hi
    rfl

theorem moment_late (p : Str) {i : Nat} (h : i ≠ 1) : Late (moment p) momentEarly i := by
  refine ⟨h, ?_⟩
  have := moment_paths p i
  generalize ((moment p).types i).path = q at this
  revert q
  decide

theorem moment_newtype {p : Str} {w : Shape Nat} (hw : (p, w) ∈ [(b!"U32", Shape.uint 4), (b!"U64", .uint 8)]) :
    Covered (moment p) momentEarly 2 w := by
  have hnw : ¬ IsWrapper ((moment p).types 2) := by
    show ¬ IsWrapper _
    have := moment_paths p 2
    unfold IsWrapper
    generalize ((moment p).types 2).path = q at this
    revert q
    decide
  refine .newtype (f := ⟨[], 1, []⟩) (moment_late p (by decide)) ⟨_, rfl, hnw, ?_, ?_⟩ rfl (by decide) ?_ (.primitive rfl rfl ?_ ?_)
  · show lastOf [b!"a", b!"Moment"] ≠ _
    decide
  · rfl
  · simp only [List.mem_cons, Prod.mk.injEq, List.not_mem_nil, or_false] at hw
    rcases hw with ⟨_, rfl⟩ | ⟨_, rfl⟩ <;> trivial
  · show ([] : List Str).head? ≠ _
    decide
  · simp only [List.mem_cons, Prod.mk.injEq, List.not_mem_nil, or_false] at hw
    rcases hw with ⟨rfl, rfl⟩ | ⟨rfl, rfl⟩ <;> simp [_root_.Spec.primitiveShapes]

/-- A moment of 2^40 milliseconds is written and read as a `uint64`. -/
example : ∃ st, processSiType (momentCfg b!"U64") 5 rowsReg = .ok st ∧ st.ids 0 = some b!"compact<a:Moment>" ∧
    Encodes st.reg.env ECtx.none b!"compact<a:Moment>" (.int (2 ^ 40)) [11, 0, 0, 0, 0, 0, 1] ∧
    Decodes st.reg.env enumCtx b!"compact<a:Moment>" [11, 0, 0, 0, 0, 0, 1] (.uint 8 (2 ^ 40)) [] := by
  obtain ⟨st, h, hi⟩ : ∃ st, processSiType (momentCfg b!"U64") 5 rowsReg = .ok st ∧ st.ids 0 = some b!"compact<a:Moment>" := ⟨_, rfl, rfl⟩
  have := C113_partial (momentCfg b!"U64") momentDup momentEarly 5 rowsReg st enumCtx ECtx.none (moment_counted _) rows_ready (moment_early _)
    (moment_tidy (.inr rfl)) (fun _ n _ _ => notOverridden_nil n) h 0 2 (.uint 8) _ (moment_late _ (by decide)) rfl (moment_newtype (by simp)) (by simp)
    hi (2 ^ 40) (.inr (.inl ⟨rfl, by decide⟩)) [11, 0, 0, 0, 0, 0, 1]
    (.inr (.inr (.inr ⟨by decide, 6, by decide, by decide, by decide, by decide, by decide⟩)))
  exact ⟨st, h, hi, this.1, this.2.1 rfl⟩

/-- With 32 bits, and declared later, it is a `uint64` too; `early_reads` shows an `int`. -/
example : ∃ st, processSiType (momentCfg b!"U32") 5 rowsReg = .ok st ∧ st.ids 0 = some b!"compact<a:Moment>" ∧
    Decodes st.reg.env enumCtx b!"compact<a:Moment>" [8] (.uint 8 2) [] := by
  obtain ⟨st, h, hi⟩ : ∃ st, processSiType (momentCfg b!"U32") 5 rowsReg = .ok st ∧ st.ids 0 = some b!"compact<a:Moment>" := ⟨_, rfl, rfl⟩
  obtain ⟨s, e, _, h2⟩ := C113_reads (momentCfg b!"U32") momentDup momentEarly 5 rowsReg st enumCtx ECtx.none (moment_counted _) rows_ready
    (moment_early _) (moment_tidy (.inl rfl)) (fun _ n _ _ => notOverridden_nil n) h 0 2 (.uint 4) _ (moment_late _ (by decide)) rfl
    (moment_newtype (by simp)) hi 2 (.inl ⟨rfl, by decide⟩) [8] (.inl ⟨by decide, by decide⟩)
  have e' : b!"compact<" ++ (b!"a:Moment" ++ b!">") = b!"compact<" ++ (s ++ b!">") := by rw [← List.append_assoc _ s, ← e]; rfl
  obtain rfl := List.append_cancel_right (List.append_cancel_left e')
  exact ⟨st, h, hi, h2⟩

end ScaleGo
