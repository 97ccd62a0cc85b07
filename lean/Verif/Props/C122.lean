import Verif.Props.C120
import Verif.Lemmas.ExtrinsicInv
import Verif.Props.C37

/-! # C122: decoding extrinsics and lists of events ends, and there are fewer events than bytes -/

namespace ScaleGo

/-- The types that the extrinsic decoder asks for itself: of the signed part, of the extensions, of the arguments of calls. -/
inductive Spec.ExtrinsicAsks (env : Env) (md : MD) (opt : ExtOpt) : Ctx → Str → Prop
  | fixed {u} : u ∈ [b!"Compact<u32>", signerType env md, b!"ExtrinsicSignature", b!"EraExtrinsic", b!"Compact<U64>", b!"Compact<Balance>", b!"U8"] →
      ExtrinsicAsks env md opt ⟨opt.module, opt.spec, some md⟩ u
  | configured {p u} : p ∈ opt.signedExtensions → u ∈ p.2.map Prod.snd → ExtrinsicAsks env md opt ⟨opt.module, opt.spec, some md⟩ u
  | extension {x u} : md.extrinsic = some x → u ∈ x.signedExtensions.map Prod.snd → ExtrinsicAsks env md opt ⟨opt.module, opt.spec, some md⟩ u
  | argument {k e u} : md.callIndex k = some e → u ∈ e.args.map Prod.snd → ExtrinsicAsks env md opt ⟨e.moduleName, opt.spec, some md⟩ u

/-- The types that the event decoder asks for itself. -/
inductive Spec.EventAsks (md : MD) (spec : Int) (module : Str) : Ctx → Str → Prop
  | count : EventAsks md spec module ⟨module, spec, some md⟩ b!"Compact<u32>"
  | first : EventAsks md spec module ⟨[], spec, some md⟩ b!"U32"
  | later {k e u} : md.eventIndex k = some e → u ∈ [b!"U32", b!"Vec<Hash>"] → EventAsks md spec module ⟨e.moduleName, spec, some md⟩ u
  | argument {k e u} : md.eventIndex k = some e → u ∈ e.args → EventAsks md spec module ⟨e.moduleName, spec, some md⟩ u

open ScaleGo.Spec (AbsentAsks DataAsks Halts MayAsk ExtrinsicAsks EventAsks)

theorem Ends.res {α β : Type} {r : Res α} {k : Nat → α → St → Res (β × St)} {st : St} (hr : r ≠ .diverge)
    (hk : ∀ a, r = .ok a → Ends (fun n s => k n a s) st) : Ends (fun n s => r >>= fun a => k n a s) st := by
  cases r with
  | ok a => exact hk a rfl
  | panic => exact ⟨0, .panic, by simp, fun n _ => rfl⟩
  | diverge => exact absurd rfl hr

/-- The type is decoded or refused from everywhere. -/
def EndsAll (env : Env) (c : Ctx) (u : Str) : Prop := ∀ st, InB st → EndsAt env c u st

theorem asInt_ne (v : Val) : asInt v ≠ .diverge := by
  unfold asInt
  split <;> simp

theorem goStr_ne (v : Val) : goStr v ≠ .diverge := by
  unfold goStr
  split <;> simp

theorem goNonce_ne (v : Val) : goNonce v ≠ .diverge := by
  unfold goNonce
  split <;> simp

theorem sigLoop_ne : ∀ (m : List (Str × Val)) (acc : Str), signatureOf.sigLoop acc m ≠ .diverge
  | [], _ => by simp [signatureOf.sigLoop]
  | (_, v) :: m, acc => by
    cases v
    case str s => exact sigLoop_ne m s
    all_goals simp [signatureOf.sigLoop]

theorem signatureOf_ne (v : Val) : signatureOf v ≠ .diverge := by
  unfold signatureOf
  split
  · simp
  · exact sigLoop_ne _ _
  · simp

theorem decFromVal_ne (ext : Ext) (v : Val) : decFromVal ext v ≠ .diverge := by
  unfold decFromVal
  split <;> try simp
  split <;> simp

theorem topicStrs_ne : ∀ l : List Val, topicStrs l ≠ .diverge
  | [] => by simp [topicStrs]
  | v :: l => by
    cases v
    case str s =>
      rw [topicStrs]
      exact bind_ne_diverge (topicStrs_ne l) fun _ => by simp
    all_goals simp [topicStrs]

theorem topicsOf_ne (v : Val) : topicsOf v ≠ .diverge := by
  unfold topicsOf
  split
  · simp
  · simp
  · exact topicStrs_ne _
  · simp

section
variable {env : Env} {ctx : Ctx}

theorem ends_asked {u : Str} {st : St} {β : Type} {k : Nat → Val × St → Res (β × St)} (h : EndsAll env ctx u) (hin : InB st)
    (hk : ∀ v s, InB s → Ends (fun n s => k n (v, s)) s) : Ends (fun n s => pau env n ctx u s >>= k n) st :=
  Ends.bind (f := fun n => pau env n ctx u) (h st hin) fun n v s e => hk v s (pau_post env n _ _ _ hin _ _ e).inB

theorem ends_tip {st : St} (h : EndsAll env ctx b!"Compact<Balance>") (hin : InB st) : Ends (fun n => readTip env.ext (pau env n) ctx) st := by
  unfold readTip
  exact ends_asked h hin fun v s _ => .res (k := fun _ d s => .ok (d, s)) (decFromVal_ne _ _) fun _ _ => .ok

theorem tip_inB {n : Nat} {st s1 : St} {t : Int × Int} (hin : InB st) (h : readTip env.ext (pau env n) ctx st = .ok (t, s1)) : InB s1 := by
  unfold readTip at h
  rw [Res.bind_eq_ok] at h
  obtain ⟨⟨v, s⟩, h1, h2⟩ := h
  dsimp only at h2
  rw [Res.bind_eq_ok] at h2
  obtain ⟨d, _, h3⟩ := h2
  obtain ⟨_, rfl⟩ := ok_inj h3
  exact (pau_post env n _ _ _ hin _ _ h1).inB

theorem procFields_inB {n : Nat} {fs : List (Str × Str)} {acc m : List (Str × Val)} {st s1 : St} (hin : InB st)
    (h : procFields (pau env n) ctx fs acc st = .ok (m, s1)) : InB s1 :=
  (procFields_post (pau_post env n) _ _ _ hin _ _ h).inB

theorem ends_fields {fs : List (Str × Str)} {acc : List (Str × Val)} {st : St} (h : ∀ u ∈ fs.map Prod.snd, EndsAll env ctx u) (hin : InB st) :
    Ends (fun n => procFields (pau env n) ctx fs acc) st :=
  endsAll_procFields (R := rem st) _ _ st (fun u hm st' ha _ => h u hm st' ha) hin (Nat.le_refl _)

theorem ends_configured {ids : List Str} : ∀ (l : List (Str × List (Str × Str))) (acc : List (Str × Val)) (st : St),
    (∀ p ∈ l, ∀ u ∈ p.2.map Prod.snd, EndsAll env ctx u) → InB st → Ends (fun n => readConfigured (pau env n) ctx ids l acc) st
  | [], acc, st, _, _ => .ok
  | (a, fs) :: l, acc, st, h, hin => by
    have hl := fun acc st hin => ends_configured (ids := ids) l acc st (fun p hp => h p (by simp [hp])) hin
    by_cases hc : (sliceIndex a ids).isSome = true
    · simp only [readConfigured, readAdditional, if_pos hc]
      exact Ends.bind (f := fun n => procFields (pau env n) ctx fs acc) (ends_fields (h (a, fs) (by simp)) hin)
        fun n v s e => hl v s (procFields_inB hin e)
    · simp only [readConfigured, if_neg hc]
      exact hl acc st hin

theorem ends_metaExts {check : List Str} (hb : EndsAll env ctx b!"Compact<Balance>") : ∀ (l : List (Str × Str)) (tip : Int × Int)
    (acc : List (Str × Val)) (st : St), (∀ u ∈ l.map Prod.snd, EndsAll env ctx u) → InB st →
    Ends (fun n => readMetaExts env.ext (pau env n) ctx check l tip acc) st
  | [], tip, acc, st, _, _ => .ok
  | (a, t) :: l, tip, acc, st, h, hin => by
    have hl := fun tip acc st hin => ends_metaExts (check := check) hb l tip acc st (fun u hu => h u (by simp at hu ⊢; exact .inr hu)) hin
    by_cases hc : a ∈ enabledExts ∨ (sliceIndex a check).isSome = true
    · by_cases hp : a = b!"ChargeTransactionPayment"
      · simp only [readMetaExts, if_pos hc, if_pos hp]
        exact Ends.bind (f := fun n => readTip env.ext (pau env n) ctx) (ends_tip hb hin) fun n v s e => hl v acc s (tip_inB hin e)
      · simp only [readMetaExts, if_pos hc, if_neg hp]
        exact ends_asked (h t (by simp)) hin fun v s hs => hl tip _ s hs
    · simp only [readMetaExts, if_neg hc]
      exact hl tip acc st hin

theorem ends_args {fs : List (Str × Str)} {st : St} (h : ∀ u ∈ fs.map Prod.snd, EndsAll env ctx u) (hin : InB st) :
    Ends (fun n => procArgs (pau env n) ctx fs) st :=
  endsAll_procArgs (R := rem st) _ st (fun u hm st' ha _ => h u hm st' ha) hin (Nat.le_refl _)

theorem ends_tip4 {md : MD} {st : St} (h : EndsAll env ctx b!"Compact<Balance>") (hin : InB st) :
    Ends (fun n => readTip4 env.ext (pau env n) ctx md) st := by
  unfold readTip4
  split
  · split
    · exact ends_tip h hin
    · exact .ok
  · exact ends_tip h hin

theorem tip4_inB {md : MD} {n : Nat} {st s1 : St} {t : Int × Int} (hin : InB st) (h : readTip4 env.ext (pau env n) ctx md st = .ok (t, s1)) :
    InB s1 := by
  unfold readTip4 at h
  split at h
  · split at h
    · exact tip_inB hin h
    · obtain ⟨_, rfl⟩ := ok_inj h
      exact hin
  · exact tip_inB hin h

end

section
variable {env : Env} {md : MD} {opt : ExtOpt}

theorem ends_exts4 {tip : Int × Int} {st : St} (h : ∀ c u, ExtrinsicAsks env md opt c u → EndsAll env c u) (hin : InB st) :
    Ends (fun n => readExts4 env.ext (pau env n) ⟨opt.module, opt.spec, some md⟩ md opt tip) st := by
  unfold readExts4
  split
  · split
    · exact .panic
    · exact Ends.bind (f := fun n => readConfigured (pau env n) _ _ opt.signedExtensions [])
        (ends_configured _ _ _ (fun p hp u hu => h _ _ (.configured hp hu)) hin) fun n v s e => .ok
  · split
    · split
      · exact .panic
      · rename_i x hx
        exact ends_metaExts (h _ _ (.fixed (by simp))) _ _ _ _ (fun u hu => h _ _ (.extension hx hu)) hin
    · exact .ok

theorem ends_exts5 {st : St} (h : ∀ c u, ExtrinsicAsks env md opt c u → EndsAll env c u) (hin : InB st) :
    Ends (fun n => readExts5 env.ext (pau env n) ⟨opt.module, opt.spec, some md⟩ md opt) st := by
  unfold readExts5
  split
  · exact .panic
  · rename_i x hx
    exact ends_metaExts (h _ _ (.fixed (by simp))) _ _ _ _ (fun u hu => h _ _ (.extension hx hu)) hin

theorem ends_signed4 {st : St} (h : ∀ c u, ExtrinsicAsks env md opt c u → EndsAll env c u) (hin : InB st) :
    Ends (fun n => readSigned4 env (pau env n) ⟨opt.module, opt.spec, some md⟩ md opt) st := by
  have hf := fun u hu => h _ _ (.fixed (u := u) hu)
  unfold readSigned4
  refine ends_asked (hf _ (by simp)) hin fun v s hin => ?_
  refine ends_asked (hf _ (by simp)) hin fun v s hin => ?_
  refine Ends.res (signatureOf_ne _) fun sig _ => ?_
  refine ends_asked (hf _ (by simp)) hin fun v s hin => ?_
  refine Ends.res (goStr_ne _) fun era _ => ?_
  refine ends_asked (hf _ (by simp)) hin fun v s hin => ?_
  refine Ends.res (goNonce_ne _) fun nonce _ => ?_
  refine Ends.bind (f := fun n => readTip4 env.ext (pau env n) _ md) (ends_tip4 (hf _ (by simp)) hin) fun n v s e => ?_
  exact Ends.bind (f := fun n => readExts4 env.ext (pau env n) _ md opt _) (ends_exts4 h (tip4_inB hin e)) fun n v s e => .ok

theorem ends_signed5 {st : St} (h : ∀ c u, ExtrinsicAsks env md opt c u → EndsAll env c u) (hin : InB st) :
    Ends (fun n => readSigned5 env (pau env n) ⟨opt.module, opt.spec, some md⟩ md opt) st := by
  have hf := fun u hu => h _ _ (.fixed (u := u) hu)
  unfold readSigned5
  refine ends_asked (hf _ (by simp)) hin fun v s hin => ?_
  refine ends_asked (hf _ (by simp)) hin fun v s hin => ?_
  refine ends_asked (hf _ (by simp)) hin fun v s hin => ?_
  refine Ends.res (asInt_ne _) fun ev _ => ?_
  refine Ends.res (signatureOf_ne _) fun sig _ => ?_
  refine ends_asked (hf _ (by simp)) hin fun v s hin => ?_
  refine Ends.res (goStr_ne _) fun era _ => ?_
  refine ends_asked (hf _ (by simp)) hin fun v s hin => ?_
  refine Ends.res (goNonce_ne _) fun nonce _ => ?_
  exact Ends.bind (f := fun n => readExts5 env.ext (pau env n) _ md opt) (ends_exts5 h hin) fun n v s e => .ok

theorem ends_signed {v : Str} {st : St} (h : ∀ c u, ExtrinsicAsks env md opt c u → EndsAll env c u) (hin : InB st) :
    Ends (fun n => readSigned env (pau env n) ⟨opt.module, opt.spec, some md⟩ md opt v) st := by
  unfold readSigned
  split
  · exact .ok
  · split
    · exact Ends.bind (f := fun n => readSigned4 env (pau env n) _ md opt) (ends_signed4 h hin) fun n v s e => .ok
    · split
      · exact Ends.bind (f := fun n => readSigned5 env (pau env n) _ md opt) (ends_signed5 h hin) fun n v s e => .ok
      · exact .panic

theorem ends_readCall {st : St} (h : ∀ c u, ExtrinsicAsks env md opt c u → EndsAll env c u) (hin : InB st) :
    Ends (fun n => readCall (pau env n) ⟨opt.module, opt.spec, some md⟩ md) st := by
  unfold readCall
  refine Ends.bind (f := fun _ => nextBytes 2) (endsNext _ _) fun n b s e => ?_
  have hs := (nextBytes_post 2 hin _ _ e).inB
  dsimp only
  by_cases hb : bytesToHex b = []
  · simp only [hb, if_true]
    exact .panic
  · simp only [if_neg hb]
    cases he : md.callIndex (bytesToHex b) with
    | none => exact .panic
    | some x =>
      have h1 : Ends (fun n => procArgs (pau env n) ⟨x.moduleName, opt.spec, some md⟩ x.args) s :=
        ends_args (fun u hu => h _ _ (.argument he hu)) hs
      obtain ⟨N, r, hr, h1⟩ := h1
      refine ⟨N, r >>= fun p => .ok ((bytesToHex b, x, p.1, bytesToHex ((p.2.cur.data.drop s.cur.off).take (p.2.cur.off - s.cur.off))), p.2),
        bind_ne_diverge hr fun _ => by simp, fun n hn => ?_⟩
      have h1 := h1 n hn
      dsimp only at h1 ⊢
      rw [h1]

theorem ends_readLength {st : St} (h : EndsAll env ⟨opt.module, opt.spec, some md⟩ b!"Compact<u32>") (hin : InB st) :
    Ends (fun n => readLength (pau env n) ⟨opt.module, opt.spec, some md⟩) st := by
  unfold readLength
  refine ends_asked h hin fun v s hs => Ends.res (asInt_ne _) fun i _ => ?_
  refine ⟨0, _, ?_, fun _ _ => rfl⟩
  split <;> simp

theorem readLength_inB {r : Rec} (hr : RecInv r) {ctx : Ctx} {st s1 : St} {i : Int} (hin : InB st) (h : readLength r ctx st = .ok (i, s1)) :
    InB s1 := by
  unfold readLength at h
  rw [Res.bind_eq_ok] at h
  obtain ⟨⟨v, s⟩, h1, h2⟩ := h
  dsimp only at h2
  rw [Res.bind_eq_ok] at h2
  obtain ⟨d, _, h3⟩ := h2
  split at h3
  · cases h3
    exact Nat.zero_le _
  · cases h3
    exact (hr _ _ _ hin _ _ h1).inB

theorem ends_extrinsic {st : St} (h : ∀ c u, ExtrinsicAsks env md opt c u → EndsAll env c u) (hin : InB st) :
    Ends (fun n => processExtrinsic env (pau env n) md opt) st := by
  unfold processExtrinsic
  refine Ends.bind (f := fun n => readLength (pau env n) _) (ends_readLength (h _ _ (.fixed (by simp))) hin) fun n v s e => ?_
  have hin := readLength_inB (pau_post env n) hin e
  refine Ends.bind (f := fun _ => nextBytes 1) (endsNext _ _) fun n v s e => ?_
  have hin := (nextBytes_post 1 hin _ _ e).inB
  refine Ends.bind (f := fun n => readSigned env (pau env n) _ md opt _) (ends_signed h hin) fun n v s e => ?_
  have hin := (readSigned_post (pau_post env n) _ _ _ _ _ hin _ _ e).inB
  exact Ends.bind (f := fun n => readCall (pau env n) _ md) (ends_readCall h hin) fun n v s e => .ok

end

/-! ## Events -/

section
variable {env : Env} {md : MD} {spec : Int}

theorem u8_ne (st : St) : getNextU8 st ≠ .diverge := by
  unfold getNextU8
  exact bind_ne_diverge (nextBytes_ne _ _) fun _ => by simp

theorem ends_phase {ctx : Ctx} {st : St} (h : EndsAll env ctx b!"U32") (hin : InB st) : Ends (fun n => readPhase (pau env n) ctx) st := by
  unfold readPhase
  refine Ends.bind (f := fun _ => getNextU8) (.of_ne (u8_ne _)) fun n p s e => ?_
  have hs := (getNextU8_post hin _ _ e).inB
  by_cases hp : p = 0
  · subst hp
    refine Ends.congr (g := fun n s => pau env n ctx b!"U32" s >>= fun q => match q.1 with
      | .uint 4 n => .ok ((0, (n : Int)), q.2)
      | _ => .panic) (fun _ => rfl) (ends_asked h hs fun v s _ => ?_)
    refine ⟨0, _, ?_, fun _ _ => rfl⟩
    dsimp only
    split <;> simp
  · simp only [if_neg hp]
    exact .ok

theorem ends_eventArgs {ctx : Ctx} : ∀ (ts ns : List Str) (st : St), (∀ u ∈ ts, EndsAll env ctx u) → InB st →
    Ends (fun n => readEventArgs (pau env n) ctx ts ns) st
  | [], _, _, _, _ => .ok
  | t :: ts, ns, st, h, hin => by
    simp only [readEventArgs]
    refine ends_asked (h t (by simp)) hin fun v s hs => ?_
    exact Ends.bind (f := fun n => readEventArgs (pau env n) ctx ts ns.tail) (ends_eventArgs ts _ s (fun u hu => h u (by simp [hu])) hs)
      fun n v s e => .ok

theorem ends_topics {ctx : Ctx} {st : St} (h : EndsAll env ctx b!"Vec<Hash>") (hin : InB st) : Ends (fun n => readTopics (pau env n) ctx md) st := by
  unfold readTopics
  split
  · exact ends_asked h hin fun v s hs => .res (k := fun _ d s => .ok (d, s)) (topicsOf_ne _) fun _ _ => .ok
  · exact .ok

theorem ends_event {module : Str} {i : Nat} {st : St} (h0 : EndsAll env ⟨module, spec, some md⟩ b!"U32")
    {m0 : Str} (h : ∀ c u, EventAsks md spec m0 c u → EndsAll env c u) (hin : InB st) :
    Ends (fun n => processEvent (pau env n) spec md module i) st := by
  unfold processEvent
  refine Ends.bind (f := fun n => readPhase (pau env n) _) (ends_phase h0 hin) fun n v s e => ?_
  have hin := (readPhase_post (pau_post env n) _ hin _ _ e).inB
  refine Ends.bind (f := fun _ => nextBytes 2) (endsNext _ _) fun n b s e => ?_
  have hin := (nextBytes_post 2 hin _ _ e).inB
  dsimp only
  cases he : md.eventIndex (bytesToHex b) with
  | none => exact .panic
  | some x =>
    refine Ends.congr (g := fun n s' => readEventArgs (pau env n) ⟨x.moduleName, spec, some md⟩ x.args
        (if x.argsName.length = x.args.length then x.argsName else []) s' >>= fun p =>
      readTopics (pau env n) ⟨x.moduleName, spec, some md⟩ md p.2 >>= fun q =>
      .ok ((⟨i, v.1, v.2, bytesToHex b, x.moduleName, x.eventName, p.1, q.1,
        bytesToHex ((p.2.cur.data.drop s.cur.off).take (p.2.cur.off - s.cur.off))⟩, x.moduleName), q.2)) (fun _ => rfl) ?_
    refine Ends.bind (f := fun n => readEventArgs (pau env n) _ x.args _) (ends_eventArgs _ _ _ (fun u hu => h _ _ (.argument he hu)) hin)
      fun n p s' e => ?_
    have hin := (readEventArgs_post (pau_post env n) _ _ _ hin _ _ e).inB
    refine Ends.congr (g := fun n t => readTopics (pau env n) ⟨x.moduleName, spec, some md⟩ md t >>= fun q =>
      .ok ((⟨i, v.1, v.2, bytesToHex b, x.moduleName, x.eventName, p, q.1,
        bytesToHex ((s'.cur.data.drop s.cur.off).take (s'.cur.off - s.cur.off))⟩, x.moduleName), q.2)) (fun _ => rfl) ?_
    exact Ends.bind (f := fun n => readTopics (pau env n) _ md) (ends_topics (h _ _ (.later he (by simp))) hin) fun n q t e => .ok

theorem event_module {r : Rec} {module m' : Str} {i : Nat} {st s1 : St} {e : Event} (h : processEvent r spec md module i st = .ok ((e, m'), s1)) :
    ∃ k x, md.eventIndex k = some x ∧ m' = x.moduleName := by
  unfold processEvent at h
  rw [Res.bind_eq_ok] at h
  obtain ⟨⟨⟨p, x⟩, s⟩, _, h⟩ := h
  dsimp only at h
  rw [Res.bind_eq_ok] at h
  obtain ⟨⟨b, s2⟩, _, h⟩ := h
  dsimp only at h
  split at h
  · cases h
  · rename_i x hx
    rw [Res.bind_eq_ok] at h
    obtain ⟨⟨ps, s3⟩, h1, h⟩ := h
    rw [Res.bind_eq_ok] at h
    obtain ⟨⟨ts, s4⟩, _, h⟩ := h
    cases h
    exact ⟨_, x, hx, rfl⟩

theorem ends_events {m0 : Str} (h : ∀ c u, EventAsks md spec m0 c u → EndsAll env c u) : ∀ (k i : Nat) (module : Str) (st : St),
    EndsAll env ⟨module, spec, some md⟩ b!"U32" → InB st → Ends (fun n => processEvents (pau env n) spec md i k module) st
  | 0, _, _, _, _, _ => .ok
  | k + 1, i, module, st, h0, hin => by
    simp only [processEvents]
    refine Ends.bind (f := fun n => processEvent (pau env n) spec md module i) (ends_event h0 h hin) fun n v s e => ?_
    have hs := (processEvent_post (pau_post env n) _ _ _ _ hin _ _ e).inB
    obtain ⟨a, m'⟩ := v
    obtain ⟨_, x, hx, rfl⟩ := event_module e
    exact Ends.bind (f := fun n => processEvents (pau env n) spec md (i + 1) k x.moduleName)
      (ends_events h k (i + 1) _ s (h _ _ (.later hx (by simp))) hs) fun n v s e => .ok

end

/-! ## The property -/

theorem asked_ends {env : Env} (hu : ∃ s, Resolves env [] 0 b!"U32" .u32 s) {A : Ctx → Str → Prop}
    (h : ∀ c u, A c u → ∀ c' u', MayAsk env c u c' u' → LenOK env c' ∧ Halts env c' u') : ∀ c u, A c u → EndsAll env c u :=
  fun c u ha st hin => C120_partial env c u hu (h c u ha) st hin

/-- The full property: decoding an extrinsic ends, whatever the metadata and the data. -/
def C122Claim : Prop := ∀ (env : Env) (md : MD) (opt : ExtOpt) (data : Str), LenOK env ⟨opt.module, opt.spec, some md⟩ →
  ∃ n, decodeExtrinsic env n md opt data ≠ .diverge

/-- C122 for extrinsics whose types, and those inside them, read absent bytes in finitely many steps. -/
theorem C122_partial (env : Env) (md : MD) (opt : ExtOpt) (hu : ∃ s, Resolves env [] 0 b!"U32" .u32 s)
    (h : ∀ c u, ExtrinsicAsks env md opt c u → ∀ c' u', MayAsk env c u c' u' → LenOK env c' ∧ Halts env c' u') (data : Str) :
    ∃ N r, r ≠ .diverge ∧ ∀ n, N ≤ n → decodeExtrinsic env n md opt data = r :=
  ends_extrinsic (asked_ends hu h) (st := ⟨⟨data, 0⟩, []⟩) (Nat.zero_le _)

/-- The same for lists of events. -/
theorem C122_events (env : Env) (md : MD) (spec : Int) (module : Str) (hu : ∃ s, Resolves env [] 0 b!"U32" .u32 s)
    (h : ∀ c u, EventAsks md spec module c u → ∀ c' u', MayAsk env c u c' u' → LenOK env c' ∧ Halts env c' u') (data : Str) :
    ∃ N r, r ≠ .diverge ∧ ∀ n, N ≤ n → decodeEvents env n spec md module data = r := by
  have ha := asked_ends hu h
  have : Ends (fun n st => pau env n ⟨module, spec, some md⟩ b!"Compact<u32>" st >>= fun p => asInt p.1 >>= fun i =>
      processEvents (pau env n) spec md 0 i.toNat [] p.2) ⟨⟨data, 0⟩, []⟩ :=
    ends_asked (ha _ _ .count) (Nat.zero_le _) fun v s hs => Ends.res (k := fun n i s => processEvents (pau env n) spec md 0 i.toNat [] s) (asInt_ne _)
      fun i _ => ends_events ha _ _ _ _ (ha _ _ .first) hs
  exact this

/-- Metadata of a chain with the linked list as the argument of a call. -/
def listMD : MD where
  version := 13
  callIndex := fun k => if k = b!"0000" then some ⟨b!"put", [], [(b!"list", b!"List")]⟩ else none
  eventIndex := fun _ => none
  extrinsic := none

/-- Version 4, call 00 00, and nothing left for the argument. -/
theorem C122_list (ext : Ext) (n : Nat) : decodeExtrinsic (listEnv ext) n listMD ⟨[], 0, [], []⟩ [4, 0, 0] = .diverge := by
  cases n with
  | zero => rfl
  | succ n =>
    have hc : Resolves (listEnv ext) [] 0 b!"Compact<u32>" .compactU32 [] := by unfold Resolves; kernel_rfl
    have h1 : readLength (pau (listEnv ext) (n + 1)) ⟨[], 0, some listMD⟩ ⟨⟨[4, 0, 0], 0⟩, []⟩ = .ok (0, ⟨⟨[4, 0, 0], 0⟩, []⟩) := by
      unfold readLength
      rw [pau_resolves (ctx := ⟨[], 0, some listMD⟩) n _ hc]
      kernel_rfl
    have h2 : nextBytes 1 ⟨⟨[4, 0, 0], 0⟩, []⟩ = .ok ([4], ⟨⟨[4, 0, 0], 1⟩, []⟩) := by kernel_rfl
    have h3 : nextBytes 2 ⟨⟨[4, 0, 0], 1⟩, []⟩ = .ok ([0, 0], ⟨⟨[4, 0, 0], 3⟩, []⟩) := by kernel_rfl
    have h4 : readCall (pau (listEnv ext) (n + 1)) ⟨[], 0, some listMD⟩ listMD ⟨⟨[4, 0, 0], 1⟩, []⟩ = .diverge := by
      unfold readCall
      rw [h3, Res.ok_bind]
      show (procArgs _ ⟨[], 0, some listMD⟩ [(b!"list", b!"List")] ⟨⟨[4, 0, 0], 3⟩, []⟩ >>= _) = _
      have := C120_list ext (some listMD) (n + 1) [4, 0, 0] [] [] (by decide) (by simp)
      rw [procArgs]
      change pau (listEnv ext) (n + 1) ⟨[], 0, some listMD⟩ b!"List" ⟨⟨[4, 0, 0], 3⟩, []⟩ = _ at this
      rw [this]
      rfl
    unfold decodeExtrinsic processExtrinsic
    dsimp only
    rw [h1, Res.ok_bind]
    dsimp only
    rw [h2, Res.ok_bind]
    dsimp only
    have h5 : readSigned (listEnv ext) (pau (listEnv ext) (n + 1)) ⟨[], 0, some listMD⟩ listMD ⟨[], 0, [], []⟩ (bytesToHex [4])
        ⟨⟨[4, 0, 0], 1⟩, []⟩ = .ok (none, ⟨⟨[4, 0, 0], 1⟩, []⟩) := by
      unfold readSigned
      rw [if_pos (by decide)]
    rw [h5, Res.ok_bind]
    dsimp only
    rw [h4]
    rfl

theorem C122_claim_false : ¬ C122Claim := by
  intro h
  obtain ⟨n, hn⟩ := h (listEnv dummyExt) listMD ⟨[], 0, [], []⟩ [4, 0, 0] ⟨[], by unfold Resolves; kernel_rfl⟩
  exact hn (C122_list dummyExt n)

/-! ## The number of events -/

theorem event_takes {env : Env} {n : Nat} {md : MD} {spec : Int} (hk : ∀ k e, md.eventIndex k = some e → 4 ≤ k.length) {module m' : Str} {i : Nat}
    {st s1 : St} {e : Event} (hin : InB st) (h : processEvent (pau env n) spec md module i st = .ok ((e, m'), s1)) : rem s1 + 3 ≤ rem st := by
  unfold processEvent at h
  rw [Res.bind_eq_ok] at h
  obtain ⟨⟨⟨p, x⟩, s⟩, h0, h⟩ := h
  have hs := readPhase_post (pau_post env n) _ hin _ _ h0
  dsimp only at h
  rw [Res.bind_eq_ok] at h
  obtain ⟨⟨b, s2⟩, hb, h⟩ := h
  have hl := nextBytes_length hs.inB hb
  have hs2 := nextBytes_post 2 hs.inB _ _ hb
  dsimp only at h
  split at h
  · cases h
  · rename_i x hx
    have h4 := hk _ _ hx
    rw [bytesToHex_length] at h4
    rw [Res.bind_eq_ok] at h
    obtain ⟨⟨ps, s3⟩, h1, h⟩ := h
    have hs3 := readEventArgs_post (pau_post env n) _ _ _ hs2.inB _ _ h1
    rw [Res.bind_eq_ok] at h
    obtain ⟨⟨ts, s4⟩, h2, h⟩ := h
    have hs4 := readTopics_post (pau_post env n) _ _ hs3.inB _ _ h2
    have e5 := (ok_inj h).2
    have e3 : rem s3 ≤ rem s2 := hs3.rem
    have e4 : rem s4 ≤ rem s3 := hs4.rem
    change b.length + rem s2 = rem s at hl
    have : rem s + 1 ≤ rem st := by
      unfold readPhase getNextU8 at h0
      rw [Res.bind_eq_ok] at h0
      obtain ⟨⟨q, t⟩, g, h0⟩ := h0
      rw [Res.bind_eq_ok] at g
      obtain ⟨⟨q', t'⟩, g, g'⟩ := g
      cases g'
      have ht := nextBytes_post 1 hin _ _ g
      have hts : rem s ≤ rem t := by
        dsimp only at h0
        split at h0
        · rw [Res.bind_eq_ok] at h0
          obtain ⟨⟨w, t2⟩, g2, h0⟩ := h0
          have := (pau_post env n _ _ _ ht.inB _ _ g2).rem
          dsimp only at h0
          split at h0
          · cases h0
            exact this
          · cases h0
        · cases h0
          exact Nat.le_refl _
      rcases byte_step hin g with g | ⟨g, _⟩
      · omega
      · have := hs.rem
        omega
    rw [← e5]
    dsimp only
    omega

theorem events_take {env : Env} {n : Nat} {md : MD} {spec : Int} (hk : ∀ k e, md.eventIndex k = some e → 4 ≤ k.length) :
    ∀ (k i : Nat) (module : Str) (st s1 : St) (es : List Event), InB st → processEvents (pau env n) spec md i k module st = .ok (es, s1) →
    rem s1 + 3 * es.length ≤ rem st := by
  intro k
  induction k with
  | zero =>
    intro i module st s1 es _ h
    rw [processEvents] at h
    obtain ⟨rfl, rfl⟩ := ok_inj h
    simp
  | succ k ih =>
    intro i module st s1 es hin h
    rw [processEvents, Res.bind_eq_ok] at h
    obtain ⟨⟨⟨e, m'⟩, s⟩, h1, h⟩ := h
    dsimp only at h
    rw [Res.bind_eq_ok] at h
    obtain ⟨⟨es', s2⟩, h2, h⟩ := h
    obtain ⟨rfl, rfl⟩ := ok_inj h
    have := event_takes hk hin h1
    have := ih (i + 1) m' s _ es' (processEvent_post (pau_post env n) _ _ _ _ hin _ _ h1).inB h2
    rw [List.length_cons]
    dsimp only
    omega

/-- Every decoded event took three bytes of the data at least, so a list of events is never longer than a third of the data,
however many events it announces. -/
theorem C122_count (env : Env) (n : Nat) (spec : Int) (md : MD) (module data : Str) (es : List Event) (st : St)
    (hk : ∀ k e, md.eventIndex k = some e → 4 ≤ k.length) (h : decodeEvents env n spec md module data = .ok (es, st)) :
    3 * es.length ≤ data.length := by
  unfold decodeEvents at h
  rw [Res.bind_eq_ok] at h
  obtain ⟨⟨v, s⟩, h1, h⟩ := h
  have hs := pau_post env n _ _ _ (Nat.zero_le _) _ _ h1
  dsimp only at h
  rw [Res.bind_eq_ok] at h
  obtain ⟨i, _, h⟩ := h
  have := events_take hk _ _ _ _ _ _ hs.inB h
  have := hs.rem
  have : rem ⟨⟨data, 0⟩, []⟩ = data.length := rfl
  omega

/-! ## The tables of the metadata decoders -/

theorem indexKey_long (m c : Nat) : 4 ≤ (indexKey m c).length := by
  simp only [indexKey, rightJustify0, List.length_append, List.length_replicate]
  omega

theorem position_long {α β : Type} (entry : α → β) (mi : Nat) : ∀ (xs : List α) (i : Nat) (m : Index β) (k : Str) (e : β),
    (∀ k e, m k = some e → 4 ≤ k.length) → putByPosition entry mi i xs m k = some e → 4 ≤ k.length
  | [], _, m, k, e, hm, h => hm k e h
  | x :: xs, i, m, k, e, hm, h => by
    refine position_long entry mi xs (i + 1) _ k e (fun k e h => ?_) h
    unfold Index.put at h
    split at h
    · rename_i hk
      rw [hk]
      exact indexKey_long _ _
    · exact hm k e h

theorem index_long {α β : Type} (entry : α → β) (idx : α → Nat) (mi : Nat) : ∀ (xs : List α) (m : Index β) (k : Str) (e : β),
    (∀ k e, m k = some e → 4 ≤ k.length) → putByIndex entry idx mi xs m k = some e → 4 ≤ k.length
  | [], m, k, e, hm, h => hm k e h
  | x :: xs, m, k, e, hm, h => by
    refine index_long entry idx mi xs _ k e (fun k e h => ?_) h
    unfold Index.put at h
    split at h
    · rename_i hk
      rw [hk]
      exact indexKey_long _ _
    · exact hm k e h

theorem events12_long : ∀ (ms : List MetaModule) (m : Index EventEntry) (k : Str) (e : EventEntry),
    (∀ k e, m k = some e → 4 ≤ k.length) → eventsV12 ms m k = some e → 4 ≤ k.length
  | [], _, k, e, hm, h => hm k e h
  | _ :: ms, _, k, e, hm, h => events12_long ms _ k e (fun k e h => position_long _ _ _ _ _ k e hm h) h

theorem events14_long : ∀ (ms : List MetaModule) (m : Index EventEntry) (k : Str) (e : EventEntry),
    (∀ k e, m k = some e → 4 ≤ k.length) → eventsV14 ms m k = some e → 4 ≤ k.length
  | [], _, k, e, hm, h => hm k e h
  | _ :: ms, _, k, e, hm, h => events14_long ms _ k e (fun k e h => index_long _ _ _ _ _ k e hm h) h

theorem events11_long : ∀ (ms : List MetaModule) (n : Nat) (m : Index EventEntry) (k : Str) (e : EventEntry),
    (∀ k e, m k = some e → 4 ≤ k.length) → eventsV11 n ms m k = some e → 4 ≤ k.length
  | [], _, m, k, e, hm, h => hm k e h
  | x :: ms, n, m, k, e, hm, h => by
    cases hx : x.events with
    | none =>
      simp only [eventsV11, hx] at h
      exact events11_long ms n m k e hm h
    | some l =>
      simp only [eventsV11, hx] at h
      exact events11_long ms (n + 1) _ k e (fun k e h => position_long _ _ _ _ _ k e hm h) h

/-- The event tables that the metadata decoders build have no short keys. -/
theorem C122_tables (ms : List MetaModule) (k : Str) (e : EventEntry) (h : eventsV11 0 ms (fun _ => none) k = some e ∨
    eventsV12 ms (fun _ => none) k = some e ∨ eventsV14 ms (fun _ => none) k = some e) : 4 ≤ k.length := by
  rcases h with h | h | h
  · exact events11_long _ _ _ _ _ (by simp) h
  · exact events12_long _ _ _ _ (by simp) h
  · exact events14_long _ _ _ _ (by simp) h

/-! ## The hypotheses are met -/

/-- Within so many steps absent bytes are read as the type, in this module. -/
def haltsIn (env : Env) : Nat → Str → Str → Bool
  | 0, _, _ => false
  | n + 1, m, t => match getCodecClass env m 0 t with
    | .ok (some (cls, s)) => (absentList env.ext.rows cls s).all fun u => haltsIn env n m u && haltsIn env n [] u
    | _ => true

/-- The type asks for types of the list only. -/
def asksIn (env : Env) (l : List Str) (m t : Str) : Bool :=
  match getCodecClass env m 0 t with
  | .ok (some (cls, s)) => (asks env.ext.rows cls s).all (· ∈ l)
  | _ => true

theorem haltsIn_halts {env : Env} {md : MD} (h0 : md.callIndex [] = none) : ∀ (n : Nat) (c : Ctx) (t : Str), c.spec = 0 →
    (c.md = none ∨ c.md = some md) → haltsIn env n c.module t = true → Halts env c t
  | 0, _, _, _, _, h => by cases h
  | n + 1, c, t, hs, hd, h => by
    refine .mk fun cls s c' u hg ha => ?_
    rw [hs] at hg
    rw [haltsIn, hg] at h
    by_cases hc : cls = .call
    · subst hc
      obtain ⟨md', e, h1, h2, _⟩ := ha
      rcases hd with hd | hd
      · rw [hd] at h1
        cases h1
      · rw [hd] at h1
        cases h1
        rw [h0] at h2
        cases h2
    · obtain ⟨h1, h2⟩ := asks_list (.inr hc) ha
      have h3 := List.all_eq_true.mp h u h2
      rw [Bool.and_eq_true] at h3
      rcases h1 with rfl | rfl | rfl
      · exact haltsIn_halts h0 n _ u hs hd h3.1
      · exact haltsIn_halts h0 n _ u rfl (.inl rfl) h3.2
      · exact haltsIn_halts h0 n _ u hs hd h3.2

/-- Types of a list that is closed in all modules of the metadata. -/
theorem closed_asks {env : Env} {md : MD} {l mods : List Str} (h0 : md.callIndex [] = none) (hm : [] ∈ mods)
    (hc : ∀ k e, md.callIndex k = some e → e.moduleName ∈ mods ∧ ∀ u ∈ e.args.map Prod.snd, u ∈ l)
    (ha : (mods.all fun m => l.all fun t => asksIn env l m t && haltsIn env 5 m t) = true)
    (hl : ∀ m ∈ mods, ∃ s, Resolves env m 0 b!"Compact<u32>" .compactU32 s) {c : Ctx} {t : Str} (h1 : c.module ∈ mods) (h2 : c.spec = 0)
    (h3 : c.md = none ∨ c.md = some md) (h4 : t ∈ l) : ∀ c' u', MayAsk env c t c' u' → LenOK env c' ∧ Halts env c' u' := by
  have key : ∀ c' u', MayAsk env c t c' u' → c'.module ∈ mods ∧ c'.spec = 0 ∧ (c'.md = none ∨ c'.md = some md) ∧ u' ∈ l := by
    intro c' u' h
    induction h with
    | self => exact ⟨h1, h2, h3, h4⟩
    | @step c u cls s c' u' _ hg hd ih =>
      obtain ⟨i1, i2, i3, i4⟩ := ih
      have hcl := List.all_eq_true.mp (List.all_eq_true.mp ha _ i1) _ i4
      rw [Bool.and_eq_true] at hcl
      have hcl := hcl.1
      rw [i2] at hg
      rw [asksIn, hg] at hcl
      by_cases hcall : cls = .call
      · subst hcall
        obtain ⟨md', k, e, g1, g2, rfl, g3⟩ := hd
        rcases i3 with i3 | i3
        · rw [i3] at g1
          cases g1
        · rw [i3] at g1
          cases g1
          exact ⟨(hc k e g2).1, i2, .inr i3, (hc k e g2).2 _ g3⟩
      · obtain ⟨g1, g2⟩ := data_list (.inr hcall) hd
        have g3 := of_decide_eq_true (List.all_eq_true.mp hcl _ g2)
        rcases g1 with rfl | rfl | rfl
        · exact ⟨i1, i2, i3, g3⟩
        · exact ⟨hm, rfl, .inl rfl, g3⟩
        · exact ⟨hm, i2, i3, g3⟩
  intro c' u' h
  obtain ⟨i1, i2, i3, i4⟩ := key c' u' h
  have hcl := List.all_eq_true.mp (List.all_eq_true.mp ha _ i1) _ i4
  rw [Bool.and_eq_true] at hcl
  refine ⟨?_, haltsIn_halts h0 5 c' u' i2 i3 hcl.2⟩
  obtain ⟨s, hs⟩ := hl _ i1
  refine ⟨s, ?_⟩
  rw [i2]
  exact hs

/-- A registry with a type of signatures. -/
def signEnv : Env := addTypes (baseEnv dummyExt) [(b!"extrinsicsignature", .hash 64)]

/-- Calls, calls of calls and events with and without arguments. -/
def batchMD : MD where
  version := 13
  callIndex := fun k => if k = b!"0000" then some ⟨b!"remark", b!"System", [(b!"remark", b!"Bytes")]⟩
    else if k = b!"0100" then some ⟨b!"batch", b!"Utility", [(b!"calls", b!"Vec<Call>")]⟩ else none
  eventIndex := fun k => if k = b!"0000" then some ⟨b!"Done", b!"System", [], [], []⟩
    else if k = b!"0001" then some ⟨b!"Remarked", b!"System", [b!"AccountId", b!"Hash"], [], []⟩ else none
  extrinsic := some ⟨[b!"ChargeTransactionPayment"], [(b!"ChargeTransactionPayment", b!"Compact<Balance>")]⟩

def batchTexts : List Str := [b!"Compact<u32>", b!"Address", b!"ExtrinsicSignature", b!"EraExtrinsic", b!"Compact<U64>", b!"Compact<Balance>", b!"U8",
  b!"Bytes", b!"Vec<Call>", b!"Call", b!"U32", b!"Vec<Hash>", b!"Hash", b!"AccountId", b!"U64", b!"Balance"]

theorem batch_asks {c : Ctx} {t : Str} (h1 : c.module ∈ [[], b!"System", b!"Utility"]) (h2 : c.spec = 0) (h3 : c.md = none ∨ c.md = some batchMD)
    (h4 : t ∈ batchTexts) : ∀ c' u', MayAsk signEnv c t c' u' → LenOK signEnv c' ∧ Halts signEnv c' u' := by
  refine closed_asks (mods := [[], b!"System", b!"Utility"]) (l := batchTexts) (by decide) (by simp) ?_ (by kernel_rfl) ?_ h1 h2 h3 h4
  · intro k e h
    simp only [batchMD] at h
    split at h
    · cases h
      decide
    · split at h
      · cases h
        decide
      · cases h
  · intro m hm
    simp only [List.mem_cons, List.not_mem_nil, or_false] at hm
    rcases hm with rfl | rfl | rfl <;> exact ⟨[], by unfold Resolves; kernel_rfl⟩

/-- All extrinsics of such a chain, batches of batches of calls included, are decoded or refused. -/
example (data : Str) : ∃ N r, r ≠ .diverge ∧ ∀ n, N ≤ n → decodeExtrinsic signEnv n batchMD ⟨[], 0, [], []⟩ data = r := by
  refine C122_partial _ _ _ ⟨[], by unfold Resolves; kernel_rfl⟩ (fun c u h => ?_) data
  cases h with
  | fixed h =>
    refine batch_asks (by simp) rfl (.inr rfl) ?_
    have : ∀ u ∈ [b!"Compact<u32>", signerType signEnv batchMD, b!"ExtrinsicSignature", b!"EraExtrinsic", b!"Compact<U64>", b!"Compact<Balance>", b!"U8"],
        u ∈ batchTexts := by decide +kernel
    exact this _ h
  | configured h => cases h
  | extension h h' =>
    cases h
    have : ∀ u ∈ [b!"Compact<Balance>"], u ∈ batchTexts := by decide
    exact batch_asks (by simp) rfl (.inr rfl) (this _ h')
  | argument h h' =>
    simp only [batchMD] at h
    split at h
    · cases h
      have : ∀ u ∈ [b!"Bytes"], u ∈ batchTexts := by decide
      exact batch_asks (by simp) rfl (.inr rfl) (this _ h')
    · split at h
      · cases h
        have : ∀ u ∈ [b!"Vec<Call>"], u ∈ batchTexts := by decide
        exact batch_asks (by simp) rfl (.inr rfl) (this _ h')
      · cases h

/-- So are all lists of its events. -/
example (data : Str) : ∃ N r, r ≠ .diverge ∧ ∀ n, N ≤ n → decodeEvents signEnv n 0 batchMD [] data = r := by
  refine C122_events _ _ _ _ ⟨[], by unfold Resolves; kernel_rfl⟩ (fun c u h => ?_) data
  have key : ∀ k e, batchMD.eventIndex k = some e → e.moduleName = b!"System" ∧ ∀ u ∈ e.args, u ∈ batchTexts := by
    intro k e h
    simp only [batchMD] at h
    split at h
    · cases h
      decide
    · split at h
      · cases h
        decide
      · cases h
  cases h with
  | count => exact batch_asks (by simp) rfl (.inr rfl) (by decide)
  | first => exact batch_asks (by simp) rfl (.inr rfl) (by decide)
  | later h h' =>
    have : ∀ u ∈ [b!"U32", b!"Vec<Hash>"], u ∈ batchTexts := by decide
    exact batch_asks (by simp [key _ _ h]) rfl (.inr rfl) (this _ h')
  | argument h h' => exact batch_asks (by simp [key _ _ h]) rfl (.inr rfl) ((key _ _ h).2 _ h')

/-- Two events without arguments: phase 1, event 00 00, no topics. -/
example : (∃ es st, decodeEvents signEnv 5 0 batchMD [] [8, 1, 0, 0, 0, 1, 0, 0, 0] = .ok (es, st) ∧ es.length = 2) ∧
    ∀ k e, batchMD.eventIndex k = some e → 4 ≤ k.length := by
  refine ⟨⟨_, _, rfl, rfl⟩, fun k e h => ?_⟩
  simp only [batchMD] at h
  split at h
  · rename_i hk
    subst hk
    decide
  · split at h
    · rename_i hk
      subst hk
      decide
    · cases h

/-- 2^30 - 1 events announced by four bytes, and no event there: refused. -/
example : decodeEvents signEnv 5 0 batchMD [] [254, 255, 255, 255] = .panic := by kernel_rfl

end ScaleGo
