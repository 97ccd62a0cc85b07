import Verif.Lemmas.Asks
import Verif.Lemmas.Strings
import Verif.Lemmas.BuiltinIndex
import Verif.Lemmas.BuiltinTexts
import Verif.Props.C75

/-!
# C76: the built-in definitions mention known types only

Decoding panics when it meets a type text that is not registered.  Six texts mentioned by `source/base.go` are not known, and
29 of the 782 definitions lead to them, among them `VersionedXcm` and the Ethereum block types.
-/

namespace ScaleGo

open Builtin (types texts textIndex)

/-- The text has a decoder. -/
def Spec.Known (env : Env) (spec : Int) (t : Str) : Prop := ∃ c sub, getCodecClass env [] spec t = .ok (some (c, sub))

/-- Texts that decoding the first one may lead to. -/
inductive Spec.LeadsTo (env : Env) (spec : Int) : Str → Str → Prop
  | refl (t : Str) : LeadsTo env spec t t
  | step {t u w : Str} {c : Cls} {sub : Str} : LeadsTo env spec t u → getCodecClass env [] spec u = .ok (some (c, sub)) →
      w ∈ asks pairRows c sub → LeadsTo env spec t w

/-- The full property. -/
def C76Claim : Prop := ∀ (ext : Ext) (order : List Str) (l : List (Str × TypeDef)) (st : RegState), LoadsInOrder ext order l st →
  ∀ (spec : Int), ∀ p ∈ types, ∀ u, Spec.LeadsTo st.env spec p.1 u → Spec.Known st.env spec u

/-- Texts that are mentioned but not known. -/
def Spec.unknownTexts : List Str :=
  [b!"HashMap<Text, Text>", b!"H64", b!"Raw", b!"ContractContractSpec", b!"ResponseV2Result", b!"(U32, XcmTraitsErrorV3)>"]

/-- Definitions that lead to one of them. -/
def Spec.brokenNames : List Str :=
  [b!"BlockTrace", b!"BlockTraceEvent", b!"BlockTraceEventData", b!"BlockV0", b!"BlockV1", b!"BlockV2",
   b!"ContractExecResultSuccessTo255", b!"ContractExecResultTo255", b!"ContractProject", b!"EthBlock", b!"EthHeader",
   b!"EthRichBlock", b!"EthRichHeader", b!"EthSubResult", b!"InstructionV2", b!"InstructionV3", b!"QueryStatus", b!"RelayTo",
   b!"RelayedFrom", b!"ResponseV2", b!"ResponseV2Result", b!"TraceBlockResponse", b!"VersionedResponse", b!"VersionedXcm",
   b!"XcmV2", b!"XcmV3", b!"ethereum::Block", b!"ethereum::Header", b!"xcm::VersionedXcm"]

/-! ## What `asks` lists is all a decoder asks for -/

theorem procN_same {rec rec' : Rec} {ctx : Ctx} {ty : Str} (h : rec ctx ty = rec' ctx ty) (n : Nat) : procN rec ctx ty n = procN rec' ctx ty n := by
  induction n with
  | zero => rfl
  | succ n ih => funext st; simp only [procN, h, ih]

theorem procFields_same {rec rec' : Rec} {ctx : Ctx} : ∀ {l : List (Str × Str)} (_ : ∀ p ∈ l, rec ctx p.2 = rec' ctx p.2),
    ∀ acc, procFields rec ctx l acc = procFields rec' ctx l acc
  | [], _, _ => rfl
  | (n, t) :: l, h, acc => by
    funext st
    simp only [procFields, h (n, t) List.mem_cons_self]
    congr 1
    funext p
    exact congrFun (procFields_same (fun p hp => h p (List.mem_cons_of_mem _ hp)) _) _

theorem procRows_same {rec rec' : Rec} {ctx : Ctx} : ∀ {l : List (List Str)} (_ : ∀ t ∈ rowTypes l, rec ctx t = rec' ctx t),
    ∀ acc, procRows rec ctx l acc = procRows rec' ctx l acc
  | [], _, _ => rfl
  | (n :: t :: r) :: l, h, acc => by
    funext st
    rw [rowTypes] at h
    simp only [procRows, h t List.mem_cons_self]
    congr 1
    funext p
    exact congrFun (procRows_same (fun p hp => h p (List.mem_cons_of_mem _ hp)) _) _
  | [] :: l, _, acc => rfl
  | [_] :: l, _, acc => rfl

theorem procPairs_same {ext : Ext} {rec rec' : Rec} {ctx : Ctx} {parts : List Str} (h : ∀ t ∈ parts.take 2, rec ctx t = rec' ctx t)
    (hp : parts ≠ []) (n : Nat) : procPairs ext rec ctx parts n = procPairs ext rec' ctx parts n := by
  induction n with
  | zero => rfl
  | succ n ih =>
    funext st
    match parts, hp with
    | [a], _ => simp only [procPairs, List.headD_cons, h a (by simp)]
    | a :: b :: r, _ => simp only [procPairs, List.headD_cons, h a (by simp), h b (by simp), ih]

/-- A decoder uses its children only at the texts that `asks` lists: changing the decoder everywhere else changes nothing. -/
theorem C76_asks (ext : Ext) (rec rec' : Rec) (ctx : Ctx) (cls : Cls) (opt : Str) (hc : cls = .call → ctx.md = none)
    (h : ∀ t ∈ asks ext.rows cls opt, ∀ ctx', ctx' = ctx ∨ ctx' = Ctx.fresh ∨ ctx' = ⟨[], ctx.spec, ctx.md⟩ → rec ctx' t = rec' ctx' t) : process ext rec ctx cls opt = process ext rec' ctx cls opt := by
  cases cls <;> simp only [process, asks] at h ⊢
  case call =>
    funext st
    simp only [processCall, hc rfl]
  case option t =>
    funext st
    simp only [processOption]
    split at h
    · rename_i h1
      rcases h1 with h1 | h1 <;> simp only [h1] <;> simp
    · rw [h _ (by simp) ctx (.inl rfl)]
  case struct tm =>
    funext st
    simp only [processStruct]
    rw [procFields_same (fun p hp => h p.2 (List.mem_map.mpr ⟨p, hp, rfl⟩) ctx (.inl rfl))]
  case enum vs tm =>
    funext st
    cases tm with
    | none => rfl
    | some tm =>
      simp only [processEnum]
      congr 1
      funext b
      simp only at h
      split at h
      · rename_i hcl; simp only [hcl, if_true]
      · rename_i hcl
        simp only [hcl]
        cases hi : tm[(b.1.headD 0).toNat]? with
        | none => rfl
        | some p =>
          obtain ⟨name, sub⟩ := p
          have hm : ∀ t ∈ variantAsks ext.rows sub, rec ctx t = rec' ctx t := fun t ht =>
            h t (List.mem_flatMap.mpr ⟨_, List.mem_of_getElem? hi, ht⟩) ctx (.inl rfl)
          dsimp only
          by_cases hs : sub = []
          · simp only [hs, if_true]
          · simp only [hs, if_false]
            unfold variantAsks at hm
            rw [if_neg hs] at hm
            change ∀ t ∈ (match variantRows ext sub with
              | some l => rowTypes l
              | none => [sub]), _ at hm
            cases hv : variantRows ext sub with
            | none => simp only [hv] at hm ⊢; rw [hm sub (by simp)]
            | some rows => simp only [hv] at hm ⊢; rw [procRows_same hm]
  case bytes => funext st; simp only [processBytes, h _ (List.mem_singleton.mpr rfl) ctx (.inl rfl)]
  case hexBytes => funext st; simp only [processHexBytes, h _ (List.mem_singleton.mpr rfl) ctx (.inl rfl)]
  case string => funext st; simp only [processBytes, h _ (List.mem_singleton.mpr rfl) ctx (.inl rfl)]
  case bitVec => funext st; simp only [processBitVec, h _ (List.mem_singleton.mpr rfl) ctx (.inl rfl)]
  case vec t =>
    funext st
    simp only [processVec, h _ List.mem_cons_self ctx (.inl rfl)]
    simp only [procN_same (h _ (List.mem_cons_of_mem _ List.mem_cons_self) ctx (.inl rfl))]
  case boundedVec t =>
    funext st
    simp only [processVec, h _ List.mem_cons_self ctx (.inl rfl)]
    simp only [procN_same (h _ (List.mem_cons_of_mem _ List.mem_cons_self) ctx (.inl rfl))]
  case authoritiesChange =>
    funext st
    simp only [processVec, h _ List.mem_cons_self ctx (.inl rfl)]
    simp only [procN_same (h _ (List.mem_cons_of_mem _ List.mem_cons_self) ctx (.inl rfl))]
  case set vs bits => funext st; simp only [processSet, h _ (List.mem_singleton.mpr rfl) ctx (.inl rfl)]
  case compact t =>
    funext st
    simp only [processCompact]
    split at h
    · rename_i h1; simp only [h1, if_true]
    · rename_i h1; simp only [h1, if_false, h _ (List.mem_singleton.mpr rfl) Ctx.fresh (.inr (.inl rfl))]
  case logDigest =>
    funext st
    simp only [processLogDigest]
    congr 1
    funext b
    cases hi : logDigestValues[(b.1.headD 0).toNat]? with
    | none => rfl
    | some t => simp only [h t (List.mem_of_getElem? hi) ctx (.inl rfl)]
  case data =>
    funext st
    simp only [processData]
    congr 1
    funext b
    split
    · rfl
    · split
      · rfl
      · split
        · cases hi : dataTM[(b.1.headD 0).toNat - 32]? with
          | none => rfl
          | some p => simp only [h p.2 (List.mem_map.mpr ⟨_, List.mem_of_getElem? hi, rfl⟩) ctx (.inl rfl)]
        · rfl
  case opaqueCall =>
    funext st
    simp only [processOpaqueCall, processBytes, h _ List.mem_cons_self ctx (.inl rfl), h _ (List.mem_cons_of_mem _ List.mem_cons_self) ⟨[], ctx.spec, ctx.md⟩ (.inr (.inr rfl))]
  case lookupSource => funext st; simp only [processLookupSource, h _ (List.mem_singleton.mpr rfl) Ctx.fresh (.inr (.inl rfl))]
  case btreeMap t =>
    funext st
    simp only [processBTreeMap, h _ List.mem_cons_self ctx (.inl rfl)]
    simp only [procPairs_same (ext := ext) (fun t ht => h t (List.mem_cons_of_mem _ ht) ctx (.inl rfl)) (splitSepAux_ne_nil _ _ _ _)]
  case box t => exact h _ (List.mem_singleton.mpr rfl) ctx (.inl rfl)
  case result t =>
    funext st
    simp only [processResult]
    congr 1
    funext b
    split
    · rename_i a e hs
      rw [hs] at h
      simp only [h a (by simp) ctx (.inl rfl), h e (by simp) ctx (.inl rfl)]
    · rfl
  case wrapperOpaque t =>
    funext st
    simp only [processWrapper, h _ List.mem_cons_self ctx (.inl rfl), h _ (List.mem_cons_of_mem _ List.mem_cons_self) ctx (.inl rfl)]
  case range t =>
    funext st
    simp only [processRange, h _ List.mem_cons_self ctx (.inl rfl), h _ (List.mem_cons_of_mem _ List.mem_cons_self) ctx (.inl rfl)]
  case fixedI128 => funext st; simp only [processFixedI128, h _ (List.mem_singleton.mpr rfl) ctx (.inl rfl)]
  case fixedArray n t =>
    funext st
    simp only [processFixedArray]
    split
    · rename_i hn
      split
      · rfl
      · rename_i hu
        rw [if_pos ⟨hn, by simpa using hu⟩] at h
        rw [procN_same (h _ (List.mem_singleton.mpr rfl) ctx (.inl rfl))]
    · rfl

/-! ## The closure -/

theorem getCodecInstant_spec {env : Env} (hs : env.special = fun _ => []) (m t : Str) (spec : Int) :
    getCodecInstant env m t spec = getCodecInstant env m t 0 := by
  simp only [getCodecInstant, hs, findSpecial]

theorem getCodecClass_spec {env : Env} (hs : env.special = fun _ => []) (m t : Str) (spec : Int) :
    getCodecClass env m spec t = getCodecClass env m 0 t := by
  unfold getCodecClass
  generalize t.length + 1 = fuel
  induction fuel generalizing t with
  | zero => rfl
  | succ fuel ih =>
    simp only [getCodecClassAux, lookupWhole, lookupParts, lookupTuple, getCodecInstant_spec hs m _ spec, ih]

theorem getCodecInstant_ext {env env' : Env} (hr : env.reg = env'.reg) (hs : env.special = env'.special) (m t : Str) (spec : Int) :
    getCodecInstant env m t spec = getCodecInstant env' m t spec := by
  simp only [getCodecInstant, hs, hr]

theorem getCodecClass_ext {env env' : Env} (hr : env.reg = env'.reg) (hs : env.special = env'.special) (m t : Str) (spec : Int) :
    getCodecClass env m spec t = getCodecClass env' m spec t := by
  unfold getCodecClass
  generalize t.length + 1 = fuel
  induction fuel generalizing t with
  | zero => rfl
  | succ fuel ih =>
    simp only [getCodecClassAux, lookupWhole, lookupParts, lookupTuple, getCodecInstant_ext hr hs m _ spec, ih]

/-- The registry by search trees. -/
def fastEnv : Env := ⟨fastReg, fun _ => [], dummyExt⟩

theorem loaded_class (ext : Ext) (spec : Int) (t : Str) :
    getCodecClass (loadedEnv ext) [] spec t = getCodecClass fastEnv [] 0 t := by
  rw [getCodecClass_spec rfl, getCodecClass_ext (env' := fastEnv)]
  · exact loadedReg_fast
  · rfl

/-- One entry of the table is right. -/
def okText (p : Str × Nat) : Bool :=
  match getCodecClass fastEnv [] 0 p.1 with
  | .ok (some (c, sub)) =>
    let l := (asks pairRows c sub).map (fastGet textIndex texts)
    (match p.2 with
      | 0 => l.all (· == some 0)
      | 1 => false
      | n + 2 => l.all Option.isSome && l.any (· == some (n + 1)))
  | .ok none => p.2 == 1
  | _ => false

theorem okTexts0 : Builtin.texts0.all okText = true := by kernel_rfl
theorem okTexts1 : Builtin.texts1.all okText = true := by kernel_rfl
theorem okTexts2 : Builtin.texts2.all okText = true := by kernel_rfl
theorem okTexts3 : Builtin.texts3.all okText = true := by kernel_rfl
theorem okTexts4 : Builtin.texts4.all okText = true := by kernel_rfl
theorem okTexts5 : Builtin.texts5.all okText = true := by kernel_rfl
theorem okTexts6 : Builtin.texts6.all okText = true := by kernel_rfl
theorem okTexts7 : Builtin.texts7.all okText = true := by kernel_rfl
theorem okTexts8 : Builtin.texts8.all okText = true := by kernel_rfl
theorem okTexts9 : Builtin.texts9.all okText = true := by kernel_rfl
theorem okTexts10 : Builtin.texts10.all okText = true := by kernel_rfl
theorem okTexts11 : Builtin.texts11.all okText = true := by kernel_rfl
theorem okTexts12 : Builtin.texts12.all okText = true := by kernel_rfl
theorem okTexts13 : Builtin.texts13.all okText = true := by kernel_rfl
theorem okTexts14 : Builtin.texts14.all okText = true := by kernel_rfl

theorem okTexts : texts.all okText = true := by
  have happ : ∀ a b : List (Str × Nat), a.all okText = true → b.all okText = true → (a ++ b).all okText = true := by
    intro a b ha hb
    rw [List.all_append, ha, hb]
    rfl
  unfold texts
  exact (happ _ _ (happ _ _ (happ _ _ (happ _ _ (happ _ _ (happ _ _ (happ _ _ (happ _ _ (happ _ _ (happ _ _ (happ _ _ (happ _ _ (happ _ _ (happ _ _ okTexts0 okTexts1) okTexts2) okTexts3) okTexts4) okTexts5) okTexts6) okTexts7) okTexts8) okTexts9) okTexts10) okTexts11) okTexts12) okTexts13) okTexts14)

theorem textIndex_ok : (Nat.ble textIndex.size texts.length && allAt textIndex 0 (texts.map fun p => keyCode p.1)) = true := by
  kernel_rfl

theorem texts_get {t : Str} {n : Nat} (h : fastGet textIndex texts t = some n) : okText (t, n) = true := by
  rw [← indexed textIndex_ok] at h
  exact List.all_eq_true.mp okTexts _ (mem_of_tableGet h)

/-- The numbers of the built-in names. -/
theorem names_ok : types.all (fun p => match fastGet textIndex texts p.1 with
    | some n => (n == 0) == !(Spec.brokenNames.contains p.1)
    | none => false) = true := by kernel_rfl

theorem unknown_ok : texts.all (fun p => (p.2 == 1) == Spec.unknownTexts.contains p.1) = true := by kernel_rfl

theorem okText_zero {t : Str} (h : okText (t, 0) = true) : ∃ c sub, getCodecClass fastEnv [] 0 t = .ok (some (c, sub)) ∧
    ∀ u ∈ asks pairRows c sub, fastGet textIndex texts u = some 0 := by
  unfold okText at h
  split at h
  · rename_i c sub hc
    refine ⟨c, sub, hc, fun u hu => ?_⟩
    simpa using List.all_eq_true.mp h _ (List.mem_map.mpr ⟨u, hu, rfl⟩)
  · simp at h
  · cases h

theorem okText_one {t : Str} (h : okText (t, 1) = true) : getCodecClass fastEnv [] 0 t = .ok none := by
  unfold okText at h
  split at h
  · simp at h
  · assumption
  · cases h

theorem okText_more {t : Str} {n : Nat} (h : okText (t, n + 2) = true) : ∃ c sub, getCodecClass fastEnv [] 0 t = .ok (some (c, sub)) ∧
    (∀ u ∈ asks pairRows c sub, ∃ m, fastGet textIndex texts u = some m) ∧
    ∃ u ∈ asks pairRows c sub, fastGet textIndex texts u = some (n + 1) := by
  unfold okText at h
  split at h
  · rename_i c sub hc
    simp only [Bool.and_eq_true] at h
    refine ⟨c, sub, hc, fun u hu => ?_, ?_⟩
    · exact Option.isSome_iff_exists.mp (List.all_eq_true.mp h.1 _ (List.mem_map.mpr ⟨u, hu, rfl⟩))
    · obtain ⟨o, ho, he⟩ := List.any_eq_true.mp h.2
      obtain ⟨u, hu, rfl⟩ := List.mem_map.mp ho
      exact ⟨u, hu, by simpa using he⟩
  · simp at h
  · cases h

/-- Everything mentioned is in the table. -/
theorem leadsTo_texts {ext : Ext} {spec : Int} {t u : Str} (h : Spec.LeadsTo (loadedEnv ext) spec t u)
    (ht : ∃ n, fastGet textIndex texts t = some n) : ∃ n, fastGet textIndex texts u = some n := by
  induction h with
  | refl => exact ht
  | step _ hc hw ih =>
    obtain ⟨n, hn⟩ := ih
    have hok := texts_get hn
    rw [loaded_class] at hc
    match n with
    | 0 =>
      obtain ⟨c', sub', hc', ha⟩ := okText_zero hok
      rw [hc] at hc'
      cases hc'
      exact ⟨0, ha _ hw⟩
    | 1 =>
      rw [okText_one hok] at hc
      cases hc
    | n + 2 =>
      obtain ⟨c', sub', hc', ha, _⟩ := okText_more hok
      rw [hc] at hc'
      cases hc'
      exact ha _ hw

theorem leadsTo_good {ext : Ext} {spec : Int} {t u : Str} (h : Spec.LeadsTo (loadedEnv ext) spec t u)
    (ht : fastGet textIndex texts t = some 0) : fastGet textIndex texts u = some 0 := by
  induction h with
  | refl => exact ht
  | step _ hc hw ih =>
    rw [loaded_class] at hc
    obtain ⟨c', sub', hc', ha⟩ := okText_zero (texts_get ih)
    rw [hc] at hc'
    cases hc'
    exact ha _ hw

theorem leadsTo_bad (ext : Ext) (spec : Int) : ∀ (n : Nat) (t v : Str), fastGet textIndex texts t = some (n + 1) →
    Spec.LeadsTo (loadedEnv ext) spec v t → ∃ u, Spec.LeadsTo (loadedEnv ext) spec v u ∧ getCodecClass (loadedEnv ext) [] spec u = .ok none := by
  intro n
  induction n with
  | zero =>
    intro t v ht h
    exact ⟨t, h, by rw [loaded_class]; exact okText_one (texts_get ht)⟩
  | succ n ih =>
    intro t v ht h
    obtain ⟨c, sub, hc, _, u, hu, hn⟩ := okText_more (texts_get ht)
    exact ih u v hn (h.step (by rw [loaded_class]; exact hc) hu)

theorem loaded_exact (ext : Ext) (spec : Int) (p : Str × TypeDef) (hp : p ∈ types) :
    (∀ u, Spec.LeadsTo (loadedEnv ext) spec p.1 u → Spec.Known (loadedEnv ext) spec u) ↔ p.1 ∉ Spec.brokenNames := by
  have h := List.all_eq_true.mp names_ok p hp
  cases hn : fastGet textIndex texts p.1 with
  | none => rw [hn] at h; cases h
  | some n =>
    rw [hn] at h
    cases n with
    | zero =>
      have hb : p.1 ∉ Spec.brokenNames := by simpa using h
      refine ⟨fun _ => hb, fun _ u hu => ?_⟩
      obtain ⟨c, sub, hc, _⟩ := okText_zero (texts_get (leadsTo_good hu hn))
      exact ⟨c, sub, by rw [loaded_class]; exact hc⟩
    | succ n =>
      have hb : p.1 ∈ Spec.brokenNames := by simpa using h
      refine ⟨fun hall => ?_, fun hn => absurd hb hn⟩
      obtain ⟨u, hu, hc⟩ := leadsTo_bad ext spec n p.1 p.1 hn (.refl _)
      obtain ⟨c, sub, hk⟩ := hall u hu
      rw [hc] at hk
      cases hk

theorem loaded_unknown (ext : Ext) (spec : Int) (p : Str × TypeDef) (hp : p ∈ types) (u : Str)
    (h : Spec.LeadsTo (loadedEnv ext) spec p.1 u) : Spec.Known (loadedEnv ext) spec u ∨ u ∈ Spec.unknownTexts := by
  have h0 := List.all_eq_true.mp names_ok p hp
  obtain ⟨n, hn⟩ := leadsTo_texts h (by
    cases hn : fastGet textIndex texts p.1 with
    | none => rw [hn] at h0; cases h0
    | some n => exact ⟨n, rfl⟩)
  have hok := texts_get hn
  match n with
  | 0 =>
    obtain ⟨c, sub, hc, _⟩ := okText_zero hok
    exact .inl ⟨c, sub, by rw [loaded_class]; exact hc⟩
  | 1 =>
    rw [← indexed textIndex_ok] at hn
    have := List.all_eq_true.mp unknown_ok _ (mem_of_tableGet hn)
    exact .inr (by simpa using this)
  | n + 2 =>
    obtain ⟨c, sub, hc, _⟩ := okText_more hok
    exact .inl ⟨c, sub, by rw [loaded_class]; exact hc⟩

theorem loads_env {ext : Ext} {order : List Str} {l : List (Str × TypeDef)} {st : RegState} (h : LoadsInOrder ext order l st) :
    st.env = loadedEnv ext := by
  obtain ⟨ho, hl, fuel, h⟩ := h
  rw [C75_any_order ext order ho l hl fuel] at h
  cases h
  rfl

/-- Exactly the listed definitions lead to an unknown type. -/
theorem C76_exact (ext : Ext) (order : List Str) (l : List (Str × TypeDef)) (st : RegState) (hs : LoadsInOrder ext order l st) (spec : Int)
    (p : Str × TypeDef) (hp : p ∈ types) :
    (∀ u, Spec.LeadsTo st.env spec p.1 u → Spec.Known st.env spec u) ↔ p.1 ∉ Spec.brokenNames := by
  rw [loads_env hs]
  exact loaded_exact ext spec p hp

/-- The texts mentioned but unknown are the six listed. -/
theorem C76_unknown (ext : Ext) (order : List Str) (l : List (Str × TypeDef)) (st : RegState) (hs : LoadsInOrder ext order l st) (spec : Int)
    (p : Str × TypeDef) (hp : p ∈ types) (u : Str) (h : Spec.LeadsTo st.env spec p.1 u) : Spec.Known st.env spec u ∨ u ∈ Spec.unknownTexts := by
  rw [loads_env hs] at h ⊢
  exact loaded_unknown ext spec p hp u h

/-- A run of the loader. -/
theorem loads_once (ext : Ext) : LoadsInOrder ext (types.map Prod.fst) (inheritLoop (types.map Prod.fst) types) ⟨loadedEnv ext, fun _ => none⟩ :=
  ⟨.refl _, .refl _, 0, C75_any_order ext _ (.refl _) _ (.refl _) 0⟩

/-- The claim fails. -/
theorem C76_claim_false : ¬ C76Claim := by
  intro h
  have hb : (types.any fun p => Spec.brokenNames.contains p.1) = true := by kernel_rfl
  obtain ⟨p, hp, hm⟩ := List.any_eq_true.mp hb
  exact (loaded_exact dummyExt 0 p hp).mp (h dummyExt _ _ _ (loads_once _) 0 p hp) (by simpa using hm)

/-- All other definitions mention known types only. -/
theorem C76_partial (ext : Ext) (order : List Str) (l : List (Str × TypeDef)) (st : RegState) (hs : LoadsInOrder ext order l st) (spec : Int)
    (p : Str × TypeDef) (hp : p ∈ types) (hb : p.1 ∉ Spec.brokenNames) (u : Str) (h : Spec.LeadsTo st.env spec p.1 u) :
    Spec.Known st.env spec u :=
  (C76_exact ext order l st hs spec p hp).mpr hb u h

/-- Decoding one of the six texts panics. -/
theorem C76_unknown_panics (ext : Ext) (ctx : Ctx) (hm : ctx.module = []) (fuel : Nat) (t : Str) (ht : t ∈ Spec.unknownTexts) (st : St) :
    pau (loadedEnv ext) (fuel + 1) ctx t st = .panic := by
  have h1 : (Spec.unknownTexts.all fun t => match getCodecClass fastEnv [] 0 t with
    | .ok none => true
    | _ => false) = true := by kernel_rfl
  have h2 := List.all_eq_true.mp h1 t ht
  rw [pau, hm, loaded_class]
  split at h2
  · rename_i h3
    rw [h3]
    rfl
  · cases h2

/-- Most definitions are fine, and a listed one is there. -/
example : (types.filter fun p => !(Spec.brokenNames.contains p.1)).length = 753 := by kernel_rfl
example : (types.any fun p => p.1 == b!"VersionedXcm" && Spec.brokenNames.contains p.1) = true := by kernel_rfl

end ScaleGo
