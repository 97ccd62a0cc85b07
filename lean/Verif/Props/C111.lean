import Verif.Props.C55
import Verif.Props.C56
import Verif.Lemmas.Steps
import Verif.Lemmas.FrameOn
import Verif.Lemmas.KernelRfl

/-!
# C111: primitive types of metadata keep their own text

English claim: after `ProcessSiType` the text of a portable primitive type is the name of that primitive, whatever the other
types are.

The claim is false.  `expandComposite` expands the first parameter of an opaque wrapper, and the parameters `Signature` and
`Address` of the extrinsic type, without looking whether the parameter already has a text (types/scaleInfo.go:241-253).  The
expansion of a primitive type ends in the branch for unknown definitions and replaces its text by `NULL`
(types/scaleInfo.go:505-508).  All types expanded later read nothing where they should read this primitive. -/

namespace ScaleGo

/-- The full claim. -/
def C111Claim : Prop :=
  ∀ (cfg : SiCfg) (fuel : Nat) (reg : RegState) (st : SiState), processSiType cfg fuel reg = .ok st →
    ∀ p name, p < cfg.count → (cfg.types p).typ = .primitive name → (cfg.types p).path = [] → st.ids p = some name

/-- The types expanded even if they have a text: the parameter of an opaque wrapper and the parameters of the extrinsic. -/
inductive Spec.Reopened (cfg : SiCfg) (p : Nat) : Prop
  | wrapper (i : Nat) (n : Str) (ps : List (Str × Nat)) : 2 ≤ (cfg.types i).path.length →
      (cfg.types i).path.getLastD [] = b!"WrapperKeepOpaque" ∨ (cfg.types i).path.getLastD [] = b!"WrapperOpaque" →
      (cfg.types i).params = (n, p) :: ps → Reopened cfg p
  | extrinsic (i : Nat) (n : Str) : 2 ≤ (cfg.types i).path.length → (cfg.types i).path.head? = some b!"sp_runtime" →
      (cfg.types i).path.getLastD [] = b!"UncheckedExtrinsic" → (n, p) ∈ (cfg.types i).params →
      toLower n = b!"signature" ∨ toLower n = b!"address" → Reopened cfg p

/-! ## What is true -/

theorem found_named {name : Str} {p : Nat} : ∀ {l : List (Str × Nat)}, findParameter name l = some p → ∃ n, (n, p) ∈ l ∧ equalFold n name = true
  | [], h => by cases h
  | (a, b) :: l, h => by
    unfold findParameter at h
    split at h
    · next e => cases h; exact ⟨a, List.mem_cons_self .., e⟩
    · obtain ⟨n, hn, e⟩ := found_named h
      exact ⟨n, List.mem_cons_of_mem _ hn, e⟩

theorem earlyOK_one {cfg : SiCfg} {p : Nat} {name : Str} (hp : p < cfg.count) (ht : (cfg.types p).typ = .primitive name)
    (hpath : (cfg.types p).path = []) (hr : ¬ Spec.Reopened cfg p) : EarlyOK cfg (· = p) := by
  refine ⟨fun i h => h ▸ hp, fun i h => .inl ⟨name, h ▸ ht, h ▸ hpath⟩, ?_, ?_, ?_⟩
  · rintro i n q ps hw he rfl
    exact hr (.wrapper i n ps hw.1 hw.2 he)
  · rintro i nm q hx hnm he rfl
    obtain ⟨n, hm, e⟩ := found_named he
    refine hr (.extrinsic i n hx.1 hx.2.1 hx.2.2 hm ?_)
    have e : toLower n = toLower nm := by simpa [equalFold] using e
    rw [e]
    rcases hnm with rfl | rfl
    · exact .inl rfl
    · exact .inr rfl
  · rintro i h rfl
    rw [hpath] at h
    cases h

/-- A primitive type that is not expanded again keeps its name. -/
theorem C111_partial (cfg : SiCfg) (fuel : Nat) (reg : RegState) (st : SiState) (h : processSiType cfg fuel reg = .ok st)
    (p : Nat) (name : Str) (hp : p < cfg.count) (ht : (cfg.types p).typ = .primitive name) (hpath : (cfg.types p).path = [])
    (hr : ¬ Spec.Reopened cfg p) : st.ids p = some name := by
  unfold processSiType at h
  rw [Res.bind_eq_ok] at h
  obtain ⟨dup, _, h⟩ := h
  have hr' : ¬ Spec.Reopened { cfg with dup := dup } p := fun h => hr (by
    cases h with
    | wrapper i n ps h1 h2 h3 => exact .wrapper i n ps h1 h2 h3
    | extrinsic i n h1 h2 h3 h4 h5 => exact .extrinsic i n h1 h2 h3 h4 h5)
  obtain ⟨hok, hall⟩ := registerTypes_text (earlyOK_one (cfg := { cfg with dup := dup }) hp ht hpath hr') h (fun i t ht => by cases ht)
  obtain ⟨t, hs⟩ := hall p hp (by show (cfg.types p).typ ≠ _; rw [ht]; simp)
  have htext := hok.text p t hs
  rw [hs]
  have ht : ({ cfg with dup := dup }.types p).typ = .primitive name := ht
  cases htext with
  | primitive e => rw [ht] at e; cases e; rfl
  | primitiveTypes e => exact absurd (show (cfg.types p).path.head? = _ from e) (by rw [hpath]; exact fun h => nomatch h)
  | account e => rw [ht] at e; cases e
  | _ => contradiction

/-- In every case the text is the name or `NULL`. -/
theorem C111_either (cfg : SiCfg) (fuel : Nat) (reg : RegState) (st : SiState) (h : processSiType cfg fuel reg = .ok st)
    (p : Nat) (name : Str) (hp : p < cfg.count) (ht : (cfg.types p).typ = .primitive name) (hpath : (cfg.types p).path = []) :
    st.ids p = some name ∨ st.ids p = some b!"NULL" := by
  obtain ⟨dup, _, hok, hall⟩ := process_text h
  obtain ⟨t, hs⟩ := hall p hp (by rw [ht]; simp)
  rw [hs]
  have ht' : ({ cfg with dup := dup }.types p).typ = .primitive name := ht
  have hpath' : ({ cfg with dup := dup }.types p).path = [] := hpath
  have htext := hok.text p t hs
  generalize ({ cfg with dup := dup } : SiCfg) = c at *
  cases htext with
  | primitive e => rw [ht'] at e; cases e; exact .inl rfl
  | dealtPrimitive => exact .inr rfl
  | primitiveTypes e => rw [hpath'] at e; cases e
  | name _ e he =>
    unfold nameSiType at e
    rw [ht'] at e
    cases e
    exact absurd rfl he
  | emptyName _ e =>
    rcases e with ⟨fs, e, _⟩ | ⟨vs, _, _, e, _⟩ <;> rw [ht'] at e <;> cases e
  | override _ e =>
    unfold overriderTypesName at e
    rw [ht'] at e
    exact absurd rfl e
  | account e | wrapper _ e | newtype _ e | selfNewtype _ e | arrayZero _ e | array _ e | sequence _ e | compact _ e | tupleNil _ e
  | tuple _ _ e | bits _ e | range _ e | option _ e | result _ e | call _ e | nothing _ e => rw [ht'] at e; cases e

/-! ## What is wrong -/

/-- Expanding an opaque wrapper over a primitive type replaces the text of the primitive, whatever was registered before. -/
theorem C111_wrapper_wrong (cfg : SiCfg) (fuel i p : Nat) (n name : Str) (ps : List (Str × Nat)) (fs : List SiField) (st : SiState)
    (hi : (cfg.types i).typ = .composite fs) (ho : overriderTypesName (cfg.types i) = [])
    (hx : ¬ ((cfg.types i).path.head? = some b!"sp_runtime" ∧ (cfg.types i).path.getLastD [] = b!"UncheckedExtrinsic"))
    (h2 : 2 ≤ (cfg.types i).path.length)
    (hw : (cfg.types i).path.getLastD [] = b!"WrapperKeepOpaque" ∨ (cfg.types i).path.getLastD [] = b!"WrapperOpaque")
    (hp : (cfg.types i).params = (n, p) :: ps) (ht : (cfg.types p).typ = .primitive name) :
    ∃ st', dealOneSiType cfg (fuel + 2) false i st = .ok (b!"WrapperOpaque<NULL>", st') ∧ st'.ids p = some b!"NULL" ∧
      st'.ids i = some b!"WrapperOpaque<NULL>" ∧ st'.reg = st.reg := by
  have hne : i ≠ p := fun e => by rw [e, ht] at hi; cases hi
  have hop : overriderTypesName (cfg.types p) = [] := by unfold overriderTypesName; rw [ht]
  have hsl : (sliceIndex (lastOf (cfg.types i).path) [b!"WrapperKeepOpaque", b!"WrapperOpaque"]).isSome = true :=
    sliceIndex_mem_iff.2 (by simpa [lastOf] using hw)
  have hrec : dealOneSiType cfg (fuel + 1) false p st = .ok (b!"NULL", st.setId p b!"NULL") := by
    unfold dealOneSiType
    simp only [hop, ne_eq, not_true_eq_false, if_false, Bool.false_eq_true]
    unfold dealDef
    rw [ht]
  refine ⟨(st.setId p b!"NULL").setId i b!"WrapperOpaque<NULL>", ?_, ?_, ?_, rfl⟩
  · unfold dealOneSiType
    simp only [ho, ne_eq, not_true_eq_false, if_false, Bool.false_eq_true]
    unfold dealDef
    rw [hi]
    simp only
    unfold expandComposite expandExtrinsicParams
    rw [if_neg (fun h => hx h.2), Res.ok_bind, if_pos ⟨h2, hsl⟩, hp]
    simp only
    rw [hrec]
    rfl
  · simp [SiState.setId, Ne.symm hne]
  · simp [SiState.setId]

/-- If the wrapper has a text, then the primitive type has lost its own. -/
def LostBy (w p : Nat) (st : SiState) : Prop := st.ids w ≠ none → st.ids p = some b!"NULL"

theorem lostBy_frame (cfg : SiCfg) (w p : Nat) : FrameOn cfg (fun a b => LostBy w p a → LostBy w p b) (fun i => i ≠ w ∧ i ≠ p) where
  refl := fun _ h => h
  trans := fun _ _ _ h1 h2 h => h2 (h1 h)
  setId := fun st i t hS h hw => by
    simp only [SiState.setId, if_neg (Ne.symm hS.1), if_neg (Ne.symm hS.2)] at hw ⊢
    exact h hw
  register := fun st key d st' _ h hJ => by
    unfold LostBy
    rw [register_ids h]
    exact hJ

theorem joinSep_last (sep : Str) : ∀ l : List Str, lastOf l <:+ joinSep sep l
  | [] => List.suffix_refl _
  | [a] => List.suffix_refl _
  | a :: b :: l => by
    have := joinSep_last sep (b :: l)
    rw [joinSep]
    exact this.trans (List.suffix_append _ _)

theorem wrapper_override {t : SiType} (h : IsWrapper t) : overriderTypesName t = [] := by
  have hs : ∀ full, joinSep b!":" t.path = full → (¬ b!"WrapperKeepOpaque" <:+ full) → (¬ b!"WrapperOpaque" <:+ full) → False := by
    intro full e h1 h2
    have := joinSep_last b!":" t.path
    rw [e] at this
    rcases h.2 with hl | hl <;> rw [hl] at this
    · exact h1 this
    · exact h2 this
  unfold overriderTypesName
  split
  · rw [if_neg (fun e => hs _ e.1 (by decide) (by decide)), if_neg (fun e => hs _ e.1 (by decide) (by decide))]
  · rfl

theorem deal_lost {cfg : SiCfg} {w p : Nat} {n name : Str} {ps : List (Str × Nat)} {fs : List SiField}
    (hc : (cfg.types w).typ = .composite fs) (hw : IsWrapper (cfg.types w)) (hps : (cfg.types w).params = (n, p) :: ps)
    (hp : (cfg.types p).typ = .primitive name) (fuel : Nat) (b : Bool) (i : Nat) (st : SiState) (r : Str × SiState)
    (hr : dealOneSiType cfg fuel b i st = .ok r) : LostBy w p st → LostBy w p r.2 := by
  have hne : w ≠ p := fun e => by rw [e, hp] at hc; cases hc
  have hop : overriderTypesName (cfg.types p) = [] := by unfold overriderTypesName; rw [hp]
  induction fuel generalizing b i st r with
  | zero => cases hr
  | succ fuel ih =>
    intro hJ
    have main : dealDef cfg (dealOneSiType cfg fuel) i (cfg.types i) st = .ok r → LostBy w p r.2 := by
      intro hr
      by_cases hip : i = p
      · unfold dealDef at hr
        rw [hip, hp] at hr
        cases hr
        intro _
        simp [SiState.setId]
      by_cases hiw : i = w
      · unfold dealDef at hr
        rw [hiw, hc] at hr
        simp only at hr
        unfold expandComposite expandExtrinsicParams at hr
        have hx : ¬ IsExtrinsic (cfg.types w) := by
          intro hx
          rcases hw.2 with e | e <;> exact absurd (hx.2.2.symm.trans e) (by decide)
        have hsl : (sliceIndex (lastOf (cfg.types w).path) [b!"WrapperKeepOpaque", b!"WrapperOpaque"]).isSome = true :=
          sliceIndex_mem_iff.2 (by simpa using hw.2)
        unfold IsExtrinsic at hx
        rw [if_neg hx, Res.ok_bind, if_pos ⟨hw.1, hsl⟩, hps] at hr
        simp only at hr
        rw [Res.bind_eq_ok] at hr
        obtain ⟨a, ha, hr⟩ := hr
        cases hr
        intro _
        simp only [SiState.setId, if_neg (Ne.symm hne)]
        cases fuel with
        | zero => cases ha
        | succ fuel =>
          unfold dealOneSiType at ha
          simp only [hop, ne_eq, not_true_eq_false, if_false, Bool.false_eq_true] at ha
          unfold dealDef at ha
          rw [hp] at ha
          cases ha
          simp [SiState.setId]
      exact dealDef_on (lostBy_frame cfg w p) (fun b i st r h => ih b i st r h) ⟨hiw, hip⟩ hr hJ
    unfold dealOneSiType at hr
    simp only at hr
    split at hr
    · next e =>
      cases hr
      refine (lostBy_frame cfg w p).setId _ _ _ ⟨?_, ?_⟩ hJ
      · rintro rfl; exact e (wrapper_override hw)
      · rintro rfl; exact e hop
    · split at hr
      · rw [Res.bind_eq_ok] at hr
        obtain ⟨nm, _, hr⟩ := hr
        split at hr
        · cases hr; exact hJ
        · exact main hr
      · exact main hr

/-- A primitive type that is the parameter of any opaque wrapper of the registry ends with the text `NULL`. -/
theorem C111_lost (cfg : SiCfg) (fuel : Nat) (reg : RegState) (st : SiState) (h : processSiType cfg fuel reg = .ok st)
    (w p : Nat) (n name : Str) (ps : List (Str × Nat)) (fs : List SiField) (hlt : w < cfg.count)
    (hc : (cfg.types w).typ = .composite fs) (h2 : 2 ≤ (cfg.types w).path.length) (hcrate : (cfg.types w).path.head? ≠ some b!"primitive_types")
    (hw : (cfg.types w).path.getLastD [] = b!"WrapperKeepOpaque" ∨ (cfg.types w).path.getLastD [] = b!"WrapperOpaque")
    (hps : (cfg.types w).params = (n, p) :: ps) (hp : (cfg.types p).typ = .primitive name) : st.ids p = some b!"NULL" := by
  obtain ⟨_, _, _, hall⟩ := process_text h
  obtain ⟨t, ht⟩ := hall w hlt (by rw [hc]; simp)
  unfold processSiType at h
  rw [Res.bind_eq_ok] at h
  obtain ⟨dup, _, h⟩ := h
  have deal := @deal_lost { cfg with dup := dup } w p n name ps fs hc ⟨h2, hw⟩ hps hp
  generalize hcfg : ({ cfg with dup := dup } : SiCfg) = c at h deal
  have hc : (c.types w).typ = .composite fs := by rw [← hcfg]; exact hc
  have hcrate : (c.types w).path.head? ≠ some b!"primitive_types" := by rw [← hcfg]; exact hcrate
  unfold registerTypes at h
  rw [Res.bind_eq_ok] at h
  obtain ⟨s1, h1, h⟩ := h
  rw [Res.bind_eq_ok] at h
  obtain ⟨s2, h2, h⟩ := h
  rw [Res.bind_eq_ok] at h
  obtain ⟨s3, h3, h⟩ := h
  have prim : ∀ {i : Nat} {text : Str} {a b : SiState}, i ≠ w → registerPrimitive c i text a = .ok b → a.ids w = none → b.ids w = none := by
    intro i text a b hi hr ha
    unfold registerPrimitive at hr
    split at hr
    · cases hr
    · rw [register_ids hr]
      simp only [SiState.setId, if_neg (Ne.symm hi)]
      exact ha
  have e1 : s1.ids w = none := by
    refine siLoop_frame (I := fun a b => a.ids w = none → b.ids w = none) (fun _ h => h) (fun _ _ _ h1 h2 h => h2 (h1 h)) ?_ _ _ _ _ h1 rfl
    intro i a b hr
    unfold passPrimitive at hr
    split at hr
    · next q hq => exact prim (fun e => by rw [e, hc] at hq; cases hq) hr
    · cases hr; exact id
  have e2 : s2.ids w = none := by
    refine siLoop_frame (I := fun a b => a.ids w = none → b.ids w = none) (fun _ h => h) (fun _ _ _ h1 h2 h => h2 (h1 h)) ?_ _ _ _ _ h2 e1
    intro i a b hr
    unfold passPrimitiveTypes at hr
    split at hr
    · next hq => exact prim (fun e => by rw [e] at hq; exact hcrate hq) hr
    · cases hr; exact id
  have j3 : LostBy w p s3 := by
    refine siLoop_frame (I := fun a b => LostBy w p a → LostBy w p b) (fun _ h => h) (fun _ _ _ h1 h2 h => h2 (h1 h)) ?_ _ _ _ _ h3
      (fun hne => absurd e2 hne)
    intro i a b hr
    unfold passSpCore at hr
    split at hr
    · rw [Res.bind_eq_ok] at hr
      obtain ⟨x, hx, hr⟩ := hr
      cases hr
      exact deal _ _ _ _ _ hx
    · cases hr; exact id
  have j4 : LostBy w p st := by
    refine siLoop_frame (I := fun a b => LostBy w p a → LostBy w p b) (fun _ h => h) (fun _ _ _ h1 h2 h => h2 (h1 h)) ?_ _ _ _ _ h j3
    intro i a b hr
    unfold passRest at hr
    split at hr
    · cases hr; exact id
    · rw [Res.bind_eq_ok] at hr
      obtain ⟨x, hx, hr⟩ := hr
      cases hr
      exact deal _ _ _ _ _ hx
  exact j4 (by rw [ht]; simp)

/-- A number, an opaque wrapper over this number, and a struct with two fields of the number. -/
def reopened : SiCfg where
  types := fun i => match i with
    | 0 => { typ := .primitive b!"U32" }
    | 1 => { typ := .composite [⟨[], 3, []⟩, ⟨[], 0, []⟩], path := [b!"frame_support", b!"WrapperOpaque"], params := [(b!"T", 0)] }
    | 2 => { typ := .composite [⟨b!"a", 0, []⟩, ⟨b!"b", 0, []⟩], path := [b!"pallet", b!"Point"] }
    | 3 => { typ := .compact 0 }
    | _ => {}
  count := 4

theorem reopened_run : ∃ st, processSiType reopened 3 ⟨baseEnv dummyExt, fun _ => none⟩ = .ok st ∧
    st.ids 0 = some b!"NULL" ∧ st.ids 1 = some b!"WrapperOpaque<NULL>" ∧ st.ids 3 = some b!"compact<NULL>" ∧
    st.reg.env.reg b!"pallet:point" = some (.struct (some [(b!"a", b!"NULL"), (b!"b", b!"NULL")])) := by
  refine ⟨_, rfl, ?_, ?_, ?_, ?_⟩ <;> kernel_rfl

/-- Two numbers of four bytes decode as two nulls and no byte is read. -/
theorem C111_struct_wrong : ∃ st, processSiType reopened 3 ⟨baseEnv dummyExt, fun _ => none⟩ = .ok st ∧
    pau st.reg.env 8 ⟨[], 0, none⟩ b!"pallet:Point" ⟨⟨[1, 0, 0, 0, 2, 0, 0, 0], 0⟩, []⟩ =
      .ok (.map [(b!"a", .nil), (b!"b", .nil)], ⟨⟨[1, 0, 0, 0, 2, 0, 0, 0], 0⟩, []⟩) := by
  refine ⟨_, rfl, ?_⟩
  kernel_rfl

theorem C111_claim_false : ¬ C111Claim := by
  intro h
  obtain ⟨st, h1, h2, _⟩ := reopened_run
  have := h reopened 3 _ st h1 0 b!"U32" (by decide) rfl rfl
  rw [h2] at this
  cases this

/-! ## Examples -/

/-- A number, a struct of this number, and an opaque wrapper over the struct. -/
def keptCfg : SiCfg where
  types := fun i => match i with
    | 0 => { typ := .primitive b!"U32" }
    | 1 => { typ := .composite [⟨b!"a", 0, []⟩, ⟨b!"b", 0, []⟩], path := [b!"pallet", b!"Point"] }
    | 2 => { typ := .composite [⟨[], 0, []⟩, ⟨[], 1, []⟩], path := [b!"frame_support", b!"WrapperOpaque"], params := [(b!"T", 1)] }
    | _ => {}
  count := 3

/-- `C111_partial` on a registry where another type is expanded again. -/
example (st : SiState) (h : processSiType keptCfg 3 ⟨baseEnv dummyExt, fun _ => none⟩ = .ok st) : st.ids 0 = some b!"U32" := by
  refine C111_partial _ _ _ _ h 0 _ (by decide) rfl rfl ?_
  intro hr
  cases hr with
  | wrapper i n ps h1 h2 h3 =>
    match i, h1, h2, h3 with
    | 0, h1, _, _ => cases h1
    | 1, _, h2, _ => exact absurd h2 (by decide)
    | 2, _, _, h3 => cases h3
    | _ + 3, h1, _, _ => cases h1
  | extrinsic i n h1 h2 =>
    match i, h1, h2 with
    | 0, h1, _ => cases h1
    | 1, _, h2 => cases h2
    | 2, _, h2 => cases h2
    | _ + 3, h1, _ => cases h1

example : ∃ st, processSiType keptCfg 3 ⟨baseEnv dummyExt, fun _ => none⟩ = .ok st := ⟨_, rfl⟩

/-- `C111_wrapper_wrong` on the wrapper of `reopened`. -/
example (st : SiState) : ∃ st', dealOneSiType reopened 5 false 1 st = .ok (b!"WrapperOpaque<NULL>", st') ∧ st'.ids 0 = some b!"NULL" := by
  obtain ⟨st', h1, h2, _⟩ := C111_wrapper_wrong reopened 3 1 0 b!"T" b!"U32" [] _ st rfl rfl (by decide) (by decide) (by decide) rfl rfl
  exact ⟨st', h1, h2⟩

/-- `C111_lost` on the wrapper of `reopened`. -/
example (st : SiState) (h : processSiType reopened 3 ⟨baseEnv dummyExt, fun _ => none⟩ = .ok st) : st.ids 0 = some b!"NULL" :=
  C111_lost reopened 3 _ st h 1 0 b!"T" b!"U32" [] _ (by decide) rfl (by decide) (by decide) (by decide) rfl rfl

end ScaleGo
