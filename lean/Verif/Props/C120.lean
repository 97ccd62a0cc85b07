import Verif.Lemmas.Ends
import Verif.Lemmas.LooseInv
import Verif.Props.C58
import Verif.Props.C19
import Verif.Props.C76
import Verif.Props.C28

/-! # C120: decoding comes to an end

Bytes that are not there are read as zeros, and as a flag of an option that is set. So a type that contains itself in an
option, or in the first member of an enum, is read without end from data that are cut off; in Go this exhausts the stack, which ends
the whole process and cannot be recovered from. If every type asks for finitely many types when no bytes are left,
decoding ends on all data. -/

namespace ScaleGo
open ScaleGo.Spec (AbsentAsks DataAsks Halts)

theorem nextBytes_length {n : Int} {st s1 : St} {b : Str} (hin : InB st) (h : nextBytes n st = .ok (b, s1)) : b.length + rem s1 = rem st := by
  obtain ⟨⟨d, o⟩, calls⟩ := st
  unfold InB at hin
  dsimp only at hin
  unfold nextBytes getNextBytes at h
  dsimp only at h
  split at h
  · cases h
    simp only [rem, List.length_drop]
    omega
  · split at h
    · cases h
      simp only [rem, List.length_take, List.length_drop]
      omega
    · cases h

theorem compactBytes_length {st s1 : St} {l : Int} {b : Str} (hin : InB st) (h : processCompactBytes st = .ok ((l, b), s1)) :
    b.length ≤ rem st := by
  unfold processCompactBytes at h
  rw [Res.bind_eq_ok] at h
  obtain ⟨⟨x, s⟩, h1, h2⟩ := h
  have hs := nextBytes_post 1 hin _ _ h1
  have e1 := nextBytes_length hin h1
  dsimp only at h2
  split at h2
  · cases h2
    omega
  all_goals
    rw [Res.bind_eq_ok] at h2
    obtain ⟨⟨y, s'⟩, h3, h4⟩ := h2
    have e2 := nextBytes_length hs.inB h3
    dsimp only at h4
    cases h4
    try rw [List.length_append]
    omega

theorem hexToBytes_text (b : Str) : (hexToBytes (asciiOrHex b)).length ≤ b.length := by
  unfold asciiOrHex
  split
  · unfold hexToBytes
    have h1 := hexDecode_length (trimHex b)
    have h2 : (trimHex b).length ≤ b.length := by
      unfold trimHex trimPrefix
      split
      · rw [List.length_drop]
        omega
      · exact Nat.le_refl _
    omega
  · rw [addHex_hexText, hexToBytes_0x]
    have h1 := hexDecode_length (_root_.Spec.hexText b)
    rw [← bytesToHex_eq_spec, bytesToHex_length] at h1
    rw [← bytesToHex_eq_spec]
    omega

theorem Ends.congr {α : Type} {f g : Nat → Dec α} {st : St} (h : ∀ n, f n st = g n st) (hg : Ends g st) : Ends f st := by
  obtain ⟨N, r, hr, hg⟩ := hg
  exact ⟨N, r, hr, fun n hn => (h n).trans (hg n hn)⟩

section
variable {env : Env} {ctx : Ctx} {st : St}

theorem ends_vec {u : Str} (hL : LenOK env ctx) (hin : InB st) (h : ∀ st', InB st' → rem st' < rem st → EndsAt env ctx u st') :
    Ends (fun n => processVec (pau env n) ctx u) st := by
  refine Ends.bind (f := fun n => pau env n ctx b!"Compact<u32>") (ends_len hL st) fun n v s e => ?_
  have ha := pau_post env n _ _ _ hin _ _ e
  dsimp only
  cases hv : asInt v with
  | panic => exact .panic
  | diverge => cases v <;> cases hv
  | ok i =>
    simp only [Res.ok_bind]
    split
    · exact .panic
    refine Ends.bind (f := fun n => procN (pau env n) ctx u i.toNat) ?_ fun _ _ _ _ => .ok
    rcases len_step hL hin e with hlt | ⟨_, rfl, rfl⟩
    · exact endsAll_procN (R := rem s) (fun st' h1 h2 => h st' h1 (by omega)) _ s ha.inB (Nat.le_refl _)
    · cases hv
      exact .ok

theorem ends_bytes (hL : LenOK env ctx) : Ends (fun n => processBytes (pau env n) ctx) st := by
  refine Ends.bind (f := fun n => pau env n ctx b!"Compact<u32>") (ends_len hL st) fun n v s e => ?_
  dsimp only
  cases hv : asInt v with
  | panic => exact .panic
  | diverge => cases v <;> cases hv
  | ok i =>
    simp only [Res.ok_bind]
    exact Ends.bind (f := fun _ => nextBytes i) (endsNext _ _) fun _ _ _ _ => .ok

/-- `processCall` with metadata, for a given start of the call. -/
def callFrom (rec : Rec) (sp : Int) (md : MD) (start : Nat) : Dec Val := fun st =>
  nextBytes 2 st >>= fun p =>
    procArgs rec ⟨((md.callIndex (bytesToHex p.1)).getD ⟨[], [], []⟩).moduleName, sp, some md⟩
      ((md.callIndex (bytesToHex p.1)).getD ⟨[], [], []⟩).args p.2 >>= fun q =>
    .ok (.map [(b!"call_index", .str (bytesToHex p.1)), (b!"call_name", .str ((md.callIndex (bytesToHex p.1)).getD ⟨[], [], []⟩).callName),
      (b!"call_module", .str ((md.callIndex (bytesToHex p.1)).getD ⟨[], [], []⟩).moduleName), (b!"params", .params q.1)],
      { q.2 with calls := q.2.calls ++ [bytesToHex ((q.2.cur.data.drop start).take (q.2.cur.off - start))] })

theorem processCall_some (rec : Rec) (m : Str) (sp : Int) (md : MD) (st : St) :
    processCall rec ⟨m, sp, some md⟩ st = callFrom rec sp md st.cur.off st := by
  unfold processCall callFrom
  dsimp only

theorem processCall_none (rec : Rec) (m : Str) (sp : Int) (st : St) :
    processCall rec ⟨m, sp, none⟩ st = nextBytes 2 st >>= fun _ => .panic := by
  unfold processCall
  dsimp only

theorem ends_call {s : Str} (hin : InB st)
    (h1 : ∀ c u st', AbsentAsks env ctx .call s c u → InB st' → rem st' ≤ rem st → EndsAt env c u st')
    (h2 : ∀ c u st', DataAsks env ctx .call s c u → InB st' → rem st' < rem st → EndsAt env c u st') :
    Ends (fun n => processCall (pau env n) ctx) st := by
  obtain ⟨m, sp, md⟩ := ctx
  cases md with
  | none =>
    refine Ends.congr (g := fun _ st => nextBytes 2 st >>= fun _ => .panic) (fun n => processCall_none _ m sp st) ?_
    exact Ends.bind (f := fun _ => nextBytes 2) (endsNext _ _) fun _ _ _ _ => .panic
  | some md =>
    refine Ends.congr (g := fun n => callFrom (pau env n) sp md st.cur.off) (fun n => processCall_some _ m sp md st) ?_
    generalize st.cur.off = start
    unfold callFrom
    refine Ends.bind (f := fun _ => nextBytes 2) (endsNext _ _) fun n b s1 e => ?_
    have ha := nextBytes_post _ hin _ _ e
    have hlen := nextBytes_length hin e
    have key : ∀ e, (md.callIndex (bytesToHex b)).getD ⟨[], [], []⟩ = e → ∀ u ∈ e.args.map Prod.snd, ∀ st', InB st' → rem st' ≤ rem s1 →
        EndsAt env ⟨e.moduleName, sp, some md⟩ u st' := by
      intro e he u hm st' hin' hr'
      cases hk : md.callIndex (bytesToHex b) with
      | none =>
        rw [hk] at he
        subst he
        simp at hm
      | some e' =>
        rw [hk] at he
        obtain rfl : e' = e := he
        cases b with
        | nil => exact h1 _ u st' ⟨md, e', rfl, hk, rfl, hm⟩ hin' (by simp at hlen; omega)
        | cons x b => exact h2 _ u st' ⟨md, _, e', rfl, hk, rfl, hm⟩ hin' (by simp at hlen; omega)
    dsimp only
    generalize (md.callIndex (bytesToHex b)).getD ⟨[], [], []⟩ = e at key ⊢
    exact Ends.bind (f := fun n => procArgs (pau env n) ⟨e.moduleName, sp, some md⟩ e.args)
      (endsAll_procArgs (R := rem s1) _ s1 (key e rfl) ha.inB (Nat.le_refl _)) fun n ps s' _ => ⟨0, _, by simp, fun _ _ => rfl⟩

/-- One class: it ends if what it asks for ends, from here if the end of the data leads to it, from later otherwise. -/
theorem process_ends {cls : Cls} {s : Str} (hL : LenOK env ctx) (hu : ∃ s, Resolves env [] 0 b!"U32" .u32 s) (hin : InB st)
    (h1 : ∀ c u st', AbsentAsks env ctx cls s c u → InB st' → rem st' ≤ rem st → EndsAt env c u st')
    (h2 : ∀ c u st', DataAsks env ctx cls s c u → InB st' → rem st' < rem st → EndsAt env c u st') :
    Ends (fun n => process env.ext (pau env n) ctx cls s) st := by
  have rd : ∀ (n : Int) (f : Str × St → Res (Val × St)), (∀ p, f p ≠ .diverge) → Ends (fun _ st => nextBytes n st >>= f) st :=
    fun n f hf => .of_ne (bind_ne_diverge (nextBytes_ne _ _) hf)
  cases cls with
  | null => exact .ok
  | empty => exact .ok
  | u8 => exact .of_ne (f := processU8) (bind_ne_diverge (bind_ne_diverge (nextBytes_ne _ _) fun _ => by simp) fun _ => by simp)
  | u16 => exact rd _ _ fun _ => by simp
  | u32 => exact rd _ _ fun _ => by simp
  | u64 => exact rd _ _ fun _ => by simp
  | u128 =>
    refine rd 16 _ fun p => ?_
    dsimp only
    refine bind_ne_diverge ?_ fun u => ?_
    · unfold U128.fromBytes
      repeat' split
      all_goals simp
    · obtain ⟨t, ht, _⟩ := C09_print u
      rw [ht]
      simp
  | u256 =>
    refine rd 32 _ fun p => ?_
    dsimp only
    split <;> simp
  | float64 => exact .of_ne (f := processFloat 8) (by unfold processFloat; split <;> simp)
  | float32 => exact .of_ne (f := processFloat 4) (by unfold processFloat; split <;> simp)
  | hash n => exact rd _ _ fun _ => by simp
  | address =>
    refine rd 1 _ fun p => ?_
    dsimp only
    split <;> exact bind_ne_diverge (nextBytes_ne _ _) fun _ => by simp
  | genericAddress =>
    refine rd 1 _ fun p => ?_
    dsimp only
    repeat' split
    all_goals exact bind_ne_diverge (nextBytes_ne _ _) fun _ => by simp
  | option t =>
    refine Ends.bind (f := fun _ => nextBytes 1) (endsNext _ _) fun n b s1 e => ?_
    have ha := nextBytes_post _ hin _ _ e
    dsimp only
    by_cases hc : effSub t s ≠ [] ∧ bytesToHex b ≠ b!"00"
    · simp only [if_pos hc]
      by_cases hb : effSub t s = b!"bool"
      · simp only [if_pos hb]
        exact .ok
      · simp only [if_neg hb]
        exact h1 ctx _ s1 ⟨rfl, rfl, hc.1, hb⟩ ha.inB ha.rem
    · simp only [if_neg hc]
      exact .ok
  | struct tm =>
    refine Ends.bind (f := fun n => procFields (pau env n) ctx (tm.getD []) []) ?_ fun _ _ _ _ => .ok
    exact endsAll_procFields (R := rem st) _ _ st (fun u hm st' ha hb => h1 ctx u st' ⟨rfl, hm⟩ ha hb) hin (Nat.le_refl _)
  | enum vs tm =>
    refine Ends.bind (f := fun _ => nextBytes 1) (endsNext _ _) fun n b s1 e => ?_
    have ha := nextBytes_post _ hin _ _ e
    cases tm with
    | none => exact .of_ne (f := fun st => _) (by split <;> simp)
    | some tm =>
      dsimp only
      by_cases hcl : isCLike tm = true
      · simp only [if_pos hcl]
        exact .ok
      simp only [if_neg hcl]
      cases ht : tm[(b.headD 0).toNat]? with
      | none => exact .panic
      | some p =>
        dsimp only
        by_cases hp : p.2 = []
        · simp only [if_pos hp]
          exact .of_ne (f := fun st => _) (by split <;> simp)
        simp only [if_neg hp]
        have hsub : ∀ u ∈ variantAsks env.ext.rows p.2, ∀ st', InB st' → rem st' ≤ rem s1 → EndsAt env ctx u st' := by
          intro u hm st' hin' hr'
          rcases byte_step hin e with hlt | ⟨h0, rfl, rfl⟩
          · exact h2 ctx u st' ⟨rfl, by simpa using hcl, p, List.mem_of_getElem? ht, hm⟩ hin' (by omega)
          · exact h1 ctx u st' ⟨rfl, by simpa using hcl, p, ht, hm⟩ hin' hr'
        have hv : variantAsks env.ext.rows p.2 = match variantRows env.ext p.2 with
            | some l => rowTypes l
            | none => [p.2] := by
          unfold variantAsks variantRows
          rw [if_neg hp]
          rfl
        rw [hv] at hsub
        cases hvr : variantRows env.ext p.2 with
        | none =>
          rw [hvr] at hsub
          dsimp only
          exact Ends.bind (f := fun n => pau env n ctx p.2) (hsub p.2 (by simp) s1 ha.inB (Nat.le_refl _)) fun _ _ _ _ => .ok
        | some rows =>
          rw [hvr] at hsub
          dsimp only
          exact Ends.bind (f := fun n => procRows (pau env n) ctx rows [])
            (endsAll_procRows (R := rem s1) rows [] s1 hsub ha.inB (Nat.le_refl _)) fun _ _ _ _ => .ok
  | bytes => exact ends_bytes hL
  | hexBytes =>
    refine Ends.bind (f := fun n => pau env n ctx b!"Compact<u32>") (ends_len hL st) fun n v s e => ?_
    dsimp only
    cases hv : asInt v with
    | panic => exact .panic
    | diverge => cases v <;> cases hv
    | ok i =>
      simp only [Res.ok_bind]
      exact Ends.bind (f := fun _ => nextBytes i) (endsNext _ _) fun _ _ _ _ => .ok
  | string => exact ends_bytes hL
  | vec t => exact ends_vec hL hin fun st' ha hb => h2 ctx _ st' ⟨rfl, rfl⟩ ha hb
  | boundedVec t => exact ends_vec hL hin fun st' ha hb => h2 ctx _ st' ⟨rfl, rfl⟩ ha hb
  | set vs bits => exact Ends.bind (f := fun n => pau env n ctx _) (h1 ctx _ st ⟨rfl, rfl⟩ hin (Nat.le_refl _)) fun _ _ _ _ => .ok
  | compact t =>
    refine Ends.bind (f := fun _ => processCompactBytes) (.of_ne (compactBytes_ne _)) fun n p s1 e => ?_
    obtain ⟨l, cb⟩ := p
    dsimp only
    by_cases hs : effSub t s = []
    · simp only [if_pos hs]
      exact .ok
    simp only [if_neg hs]
    have hb := h1 Ctx.fresh (effSub t s) ⟨⟨cb, 0⟩, []⟩ ⟨rfl, rfl, hs⟩ (Nat.zero_le _) (by
      have := compactBytes_length hin e
      simp only [rem]
      simp only [rem] at this
      omega)
    obtain ⟨N, r, hr, hb⟩ := hb
    refine ⟨N, r >>= fun p => compactDivide l p.1 >>= fun v => .ok (v, s1), ?_, fun n hn => ?_⟩
    · refine bind_ne_diverge hr fun p => bind_ne_diverge ?_ fun _ => by simp
      unfold compactDivide
      dsimp only
      repeat' split
      all_goals simp
    · dsimp only
      have := hb n hn
      dsimp only at this
      rw [this]
  | compactU32 => exact .of_ne (f := processCompactU32) (compactU32_ne st)
  | compactMoment =>
    refine .of_ne (f := processCompactMoment) (bind_ne_diverge (compactU32_ne st) fun p => ?_)
    dsimp only
    refine bind_ne_diverge ?_ fun _ => by simp
    cases p.1 <;> simp [asInt]
  | bool => exact rd _ _ fun _ => by simp
  | moment => exact rd _ _ fun _ => by simp
  | accountId => exact rd _ _ fun _ => by simp
  | call => exact ends_call hin h1 h2
  | era =>
    refine rd 1 _ fun p => ?_
    dsimp only
    split
    · simp
    · exact bind_ne_diverge (nextBytes_ne _ _) fun _ => by simp
  | balance =>
    refine rd 16 _ fun p => ?_
    dsimp only
    split
    · simp
    · refine bind_ne_diverge ?_ fun _ => by simp
      unfold U128.fromBytes
      repeat' split
      all_goals simp
  | logDigest =>
    refine Ends.bind (f := fun _ => nextBytes 1) (endsNext _ _) fun n b s1 e => ?_
    have ha := nextBytes_post _ hin _ _ e
    dsimp only
    cases ht : logDigestValues[(b.headD 0).toNat]? with
    | none => exact .panic
    | some t =>
      dsimp only
      refine Ends.bind (f := fun n => pau env n ctx t) ?_ fun _ _ _ _ => .ok
      rcases byte_step hin e with hlt | ⟨h0, rfl, rfl⟩
      · exact h2 ctx t s1 ⟨rfl, List.mem_of_getElem? ht⟩ ha.inB hlt
      · cases ht
        exact h1 ctx _ _ ⟨rfl, rfl⟩ hin (Nat.le_refl _)
  | authoritiesChange => exact ends_vec hL hin fun st' ha hb => h2 ctx _ st' ⟨rfl, rfl⟩ ha hb
  | lockIdentifier => exact rd _ _ fun _ => by simp
  | ecdsaSignature => exact rd _ _ fun _ => by simp
  | ethereumAddress =>
    refine rd 20 _ fun p => ?_
    dsimp only
    refine bind_ne_diverge ?_ fun _ => by simp
    have hl : ∀ a b, ethLoop a b ≠ .diverge := by
      intro a
      induction a with
      | nil => intro b; simp [ethLoop]
      | cons x a ih =>
        intro b
        cases b with
        | nil => simp [ethLoop]
        | cons y b =>
          rw [ethLoop]
          cases unhexDigit y with
          | none => simp
          | some d => exact bind_ne_diverge (by simp) fun _ => bind_ne_diverge (ih b) fun _ => by simp
    unfold ethEncode
    split
    · simp
    · exact bind_ne_diverge (hl _ _) fun _ => by simp
  | data =>
    refine Ends.bind (f := fun _ => nextBytes 1) (endsNext _ _) fun n b s1 e => ?_
    have ha := nextBytes_post _ hin _ _ e
    dsimp only
    by_cases hb : (b.isEmpty || (b.headD 0).toNat == 0) = true
    · simp only [if_pos hb]
      exact .ok
    simp only [if_neg hb]
    by_cases h33 : (b.headD 0).toNat ≤ 33
    · simp only [if_pos h33]
      exact Ends.bind (f := fun _ => nextBytes _) (endsNext _ _) fun _ _ _ _ => .ok
    simp only [if_neg h33]
    by_cases h37 : (b.headD 0).toNat ≤ 37
    · simp only [if_pos h37]
      cases ht : dataTM[(b.headD 0).toNat - 32]? with
      | none => exact .panic
      | some p =>
        dsimp only
        refine Ends.bind (f := fun n => pau env n ctx p.2) ?_ fun _ _ _ _ => .ok
        rcases byte_step hin e with hlt | ⟨h0, rfl, rfl⟩
        · exact h2 ctx p.2 s1 ⟨rfl, p, List.mem_of_getElem? ht, rfl⟩ ha.inB hlt
        · exact absurd rfl hb
    · simp only [if_neg h37]
      exact .ok
  | opaqueCall =>
    refine Ends.bind (f := fun n => processBytes (pau env n) ctx) (ends_bytes hL) fun n v s1 e => ?_
    dsimp only
    unfold processBytes at e
    simp only [Res.bind_eq_ok] at e
    obtain ⟨⟨w, s2⟩, e1, i, e2, ⟨b, s3⟩, e3, e4⟩ := e
    obtain ⟨rfl, rfl⟩ := ok_inj e4
    have ha := pau_post env n _ _ _ hin _ _ e1
    have hlen := nextBytes_length ha.inB e3
    have hrem := ha.rem
    have ht := hexToBytes_text b
    dsimp only
    obtain ⟨N, r, hr, hb⟩ := h1 ⟨[], ctx.spec, ctx.md⟩ b!"Call" ⟨⟨hexToBytes (asciiOrHex b), 0⟩, []⟩ ⟨rfl, rfl⟩ (Nat.zero_le _) (by
      simp only [rem] at *
      omega)
    refine ⟨N, r >>= fun p => .ok (p.1, { s3 with calls := s3.calls ++ p.2.calls }), bind_ne_diverge hr fun _ => by simp, fun n hn => ?_⟩
    have := hb n hn
    dsimp only at this ⊢
    rw [this]
  | bitVec =>
    refine Ends.bind (f := fun n => pau env n ctx b!"Compact<u32>") (ends_len hL st) fun n v s e => ?_
    dsimp only
    cases hv : asInt v with
    | panic => exact .panic
    | diverge => cases v <;> cases hv
    | ok i =>
      simp only [Res.ok_bind]
      exact Ends.bind (f := fun _ => nextBytes _) (endsNext _ _) fun _ _ _ _ => .ok
  | lookupSource =>
    obtain ⟨su, hu⟩ := hu
    have hr : ∀ st', ∃ N r, r ≠ .diverge ∧ ∀ n, N ≤ n → pau env n Ctx.fresh b!"U32" st' = r := fun st' =>
      ends_resolves (ctx := Ctx.fresh) hu (.of_ne (f := processUint 4) (bind_ne_diverge (nextBytes_ne _ _) fun _ => by simp))
    refine Ends.bind (f := fun _ => lookupSkip) (.of_ne ?_) fun n _ s1 _ => ?_
    · unfold lookupSkip
      split
      · exact bind_ne_diverge (nextBytes_ne _ _) fun _ => by simp
      · simp
    refine Ends.bind (f := fun _ => nextBytes 1) (endsNext _ _) fun n b s2 _ => ?_
    cases b with
    | nil => exact .panic
    | cons first r =>
      dsimp only
      by_cases hf : first = 255
      · simp only [if_pos hf]
        exact Ends.bind (f := fun _ => nextBytes _) (endsNext _ _) fun _ _ _ _ => .ok
      simp only [if_neg hf]
      by_cases hl : s2.cur.data.length < (lookupSpan first).1 + (lookupSpan first).2
      · refine ⟨0, .panic, by simp, fun n _ => ?_⟩
        dsimp only
        rw [if_pos hl]
      obtain ⟨N, r, hr, hb⟩ := hr ⟨⟨(s2.cur.data.drop (lookupSpan first).1).take (lookupSpan first).2, 0⟩, []⟩
      refine ⟨N, r >>= fun p => match p.1 with
        | .uint 4 n => .ok (.str (natToDec n), s2)
        | _ => .panic, ?_, fun n hn => ?_⟩
      · refine bind_ne_diverge hr fun p => ?_
        split <;> simp
      · dsimp only
        rw [if_neg hl, hb n hn]
        rfl
  | btreeMap t =>
    refine Ends.bind (f := fun n => pau env n ctx b!"Compact<u32>") (ends_len hL st) fun n v s1 e => ?_
    have ha := pau_post env n _ _ _ hin _ _ e
    dsimp only
    cases hv : asInt v with
    | panic => exact .panic
    | diverge => cases v <;> cases hv
    | ok i =>
      simp only [Res.ok_bind]
      split
      · exact .panic
      refine Ends.bind (f := fun n => procPairs env.ext (pau env n) ctx (splitSep (effSub t s) b!",") i.toNat) ?_ fun _ _ _ _ => .ok
      rcases len_step hL hin e with hlt | ⟨_, rfl, rfl⟩
      · exact endsAll_procPairs (R := rem s1) (fun st' k1 k2 => h2 ctx _ st' ⟨rfl, .inl rfl⟩ k1 (by omega))
          (fun a u r er st' k1 k2 => h2 ctx u st' ⟨rfl, .inr ⟨a, r, er⟩⟩ k1 (by omega)) _ s1 ha.inB (Nat.le_refl _)
      · cases hv
        exact .ok
  | box t => exact h1 ctx _ st ⟨rfl, rfl⟩ hin (Nat.le_refl _)
  | result t =>
    refine Ends.bind (f := fun _ => nextBytes 1) (endsNext _ _) fun n b s1 e => ?_
    have ha := nextBytes_post _ hin _ _ e
    dsimp only
    split
    · rename_i a er hsp
      have hd : ∀ u, u = a ∨ u = er → rem s1 < rem st → EndsAt env ctx u s1 :=
        fun u hu hlt => h2 ctx u s1 ⟨rfl, a, er, hsp, hu⟩ ha.inB hlt
      by_cases hc : bytesToHex b = b!"00" ∨ bytesToHex b = []
      · simp only [if_pos hc]
        refine Ends.bind (f := fun n => pau env n ctx a) ?_ fun _ _ _ _ => .ok
        exact h1 ctx a s1 ⟨rfl, er, hsp⟩ ha.inB ha.rem
      simp only [if_neg hc]
      by_cases hc1 : bytesToHex b = b!"01"
      · simp only [if_pos hc1]
        refine Ends.bind (f := fun n => pau env n ctx er) ?_ fun _ _ _ _ => .ok
        rcases byte_step hin e with hlt | ⟨_, rfl, _⟩
        · exact hd er (.inr rfl) hlt
        · cases hc1
      · simp only [if_neg hc1]
        exact .panic
    · exact .panic
  | wrapperOpaque t =>
    refine Ends.bind (f := fun n => pau env n ctx b!"Compact<u32>") (ends_len hL st) fun n v s1 e => ?_
    have ha := pau_post env n _ _ _ hin _ _ e
    exact h1 ctx _ s1 ⟨rfl, rfl⟩ ha.inB ha.rem
  | range t =>
    refine Ends.bind (f := fun n => pau env n ctx _) (h1 ctx _ st ⟨rfl, .inl rfl⟩ hin (Nat.le_refl _)) fun n v s1 e => ?_
    have ha := pau_post env n _ _ _ hin _ _ e
    exact Ends.bind (f := fun n => pau env n ctx _) (h1 ctx _ s1 ⟨rfl, .inr rfl⟩ ha.inB ha.rem) fun _ _ _ _ => .ok
  | fixedU64 => exact rd _ _ fun _ => by simp
  | fixedI128 =>
    refine Ends.bind (f := fun n => pau env n ctx _) (h1 ctx _ st ⟨rfl, rfl⟩ hin (Nat.le_refl _)) fun n v s1 e => ?_
    dsimp only
    cases v <;> first | exact .panic | exact .ok
  | intFixed n =>
    refine rd n _ fun p => ?_
    dsimp only
    split
    · simp
    · split <;> simp
  | fixedU8 n => exact rd _ _ fun _ => by simp
  | fixedArray n t =>
    show Ends (fun m => processFixedArray (pau env m) ctx n t) st
    unfold processFixedArray
    by_cases hn : n > 0
    · simp only [if_pos hn]
      cases he : equalFold t b!"u8" with
      | true =>
        simp only [if_true]
        exact Ends.bind (f := fun _ => nextBytes _) (endsNext _ _) fun _ _ _ _ => .ok
      | false =>
        simp only [Bool.false_eq_true, if_false]
        exact Ends.bind (f := fun m => procN (pau env m) ctx t n.toNat)
          (endsAll_procN (R := rem st) (fun st' k1 k2 => h1 ctx t st' ⟨rfl, rfl, hn, he⟩ k1 k2) _ st hin (Nat.le_refl _)) fun _ _ _ _ => .ok
    · simp only [if_neg hn]
      exact .of_ne (bind_ne_diverge (bind_ne_diverge (nextBytes_ne _ _) fun _ => by simp) fun _ => by simp)

end

namespace Spec

/-- What decoding a type may come to, on some data. -/
inductive MayAsk (env : Env) (ctx : Ctx) (ty : Str) : Ctx → Str → Prop
  | self : MayAsk env ctx ty ctx ty
  | step {c u cls s c' u'} : MayAsk env ctx ty c u → getCodecClass env c.module c.spec u = .ok (some (cls, s)) →
      DataAsks env c cls s c' u' → MayAsk env ctx ty c' u'

end Spec
open ScaleGo.Spec (MayAsk)

/-- One type: it ends from every state if its class does. -/
theorem endsAt_of_process {env : Env} {ctx : Ctx} {ty : Str} {st : St}
    (h : ∀ cls s, getCodecClass env ctx.module ctx.spec ty = .ok (some (cls, s)) → Ends (fun n => process env.ext (pau env n) ctx cls s) st) :
    EndsAt env ctx ty st := by
  cases hr : getCodecClass env ctx.module ctx.spec ty with
  | diverge => exact absurd hr (getCodecClass_ne_diverge _ _ _ _)
  | panic =>
    refine ⟨1, .panic, by simp, fun n hn => ?_⟩
    obtain ⟨m, rfl⟩ : ∃ m, n = m + 1 := ⟨n - 1, by omega⟩
    dsimp only
    rw [pau, hr]
    rfl
  | ok r =>
    cases r with
    | none =>
      refine ⟨1, .panic, by simp, fun n hn => ?_⟩
      obtain ⟨m, rfl⟩ : ∃ m, n = m + 1 := ⟨n - 1, by omega⟩
      dsimp only
      rw [pau, hr]
      rfl
    | some p => exact ends_resolves hr (h _ _ hr)

theorem ends_closed {env : Env} (S : Ctx → Str → Prop) (hu : ∃ s, Resolves env [] 0 b!"U32" .u32 s)
    (hS : ∀ c u cls s c' u', S c u → getCodecClass env c.module c.spec u = .ok (some (cls, s)) → DataAsks env c cls s c' u' → S c' u')
    (hL : ∀ c u, S c u → LenOK env c) (hH : ∀ c u, S c u → Halts env c u) :
    ∀ (R : Nat) (c : Ctx) (u : Str) (st : St), S c u → InB st → rem st ≤ R → EndsAt env c u st := by
  intro R
  induction R using Nat.strong_induction_on with
  | _ R ihR =>
    intro c u st hc
    revert st
    have hh := hH c u hc
    induction hh with
    | @mk ctx ty _ ih =>
      intro st hin hr
      refine endsAt_of_process fun cls s hg => process_ends (hL _ _ hc) hu hin (fun c u st' ha hin' hr' => ?_) fun c u st' hd hin' hr' => ?_
      · exact ih cls s c u hg ha (hS _ _ _ _ _ _ hc hg (absent_data ha)) st' hin' (by omega)
      · exact ihR (rem st') (by omega) c u st' (hS _ _ _ _ _ _ hc hg hd) hin' (Nat.le_refl _)

/-- C120: if no type that decoding may come to asks for types without end when bytes are absent, decoding ends, with a value or a
refusal, on all data and from every position. -/
theorem C120_partial (env : Env) (ctx : Ctx) (ty : Str) (hu : ∃ s, Resolves env [] 0 b!"U32" .u32 s)
    (h : ∀ c u, MayAsk env ctx ty c u → LenOK env c ∧ Halts env c u) (st : St) (hin : st.cur.off ≤ st.cur.data.length) :
    ∃ N r, r ≠ .diverge ∧ ∀ n, N ≤ n → pau env n ctx ty st = r :=
  ends_closed (MayAsk env ctx ty) hu (fun _ _ _ _ _ _ h1 h2 h3 => .step h1 h2 h3) (fun c u hm => (h c u hm).1) (fun c u hm => (h c u hm).2)
    (rem st) ctx ty st .self hin (Nat.le_refl _)

section
variable {env : Env} {n : Nat}

theorem absent_fields {ctx : Ctx} {u : Str} : ∀ (fs : List (Str × Str)) (acc : List (Str × Val)) {st : St} {v : List (Str × Val)} {s1 : St},
    u ∈ fs.map Prod.snd → InB st → rem st = 0 → procFields (pau env n) ctx fs acc st = .ok (v, s1) →
    ∃ st' v' s', InB st' ∧ rem st' = 0 ∧ pau env n ctx u st' = .ok (v', s')
  | (a, t) :: fs, acc, st, v, s1, hm, hin, h0, h => by
    rw [procFields, Res.bind_eq_ok] at h
    obtain ⟨⟨w, s⟩, h1, h2⟩ := h
    have ha := pau_post env n _ _ _ hin _ _ h1
    simp only [List.map_cons, List.mem_cons] at hm
    rcases hm with rfl | hm
    · exact ⟨st, w, s, hin, h0, h1⟩
    · exact absent_fields fs _ hm ha.inB (by have := ha.rem; omega) h2

theorem absent_args {ctx : Ctx} {u : Str} : ∀ (fs : List (Str × Str)) {st : St} {v : List (Str × Str × Val)} {s1 : St},
    u ∈ fs.map Prod.snd → InB st → rem st = 0 → procArgs (pau env n) ctx fs st = .ok (v, s1) →
    ∃ st' v' s', InB st' ∧ rem st' = 0 ∧ pau env n ctx u st' = .ok (v', s')
  | (a, t) :: fs, st, v, s1, hm, hin, h0, h => by
    rw [procArgs, Res.bind_eq_ok] at h
    obtain ⟨⟨w, s⟩, h1, h2⟩ := h
    rw [Res.bind_eq_ok] at h2
    obtain ⟨⟨ps, s2⟩, h2, _⟩ := h2
    have ha := pau_post env n _ _ _ hin _ _ h1
    simp only [List.map_cons, List.mem_cons] at hm
    rcases hm with rfl | hm
    · exact ⟨st, w, s, hin, h0, h1⟩
    · exact absent_args fs hm ha.inB (by have := ha.rem; omega) h2

theorem absent_rows {ctx : Ctx} {u : Str} : ∀ (rows : List (List Str)) (acc : List (Str × Val)) {st : St} {v : List (Str × Val)} {s1 : St},
    u ∈ rowTypes rows → InB st → rem st = 0 → procRows (pau env n) ctx rows acc st = .ok (v, s1) →
    ∃ st' v' s', InB st' ∧ rem st' = 0 ∧ pau env n ctx u st' = .ok (v', s')
  | (a :: t :: r) :: rows, acc, st, v, s1, hm, hin, h0, h => by
    rw [procRows, Res.bind_eq_ok] at h
    obtain ⟨⟨w, s⟩, h1, h2⟩ := h
    have ha := pau_post env n _ _ _ hin _ _ h1
    simp only [rowTypes, List.mem_cons] at hm
    rcases hm with rfl | hm
    · exact ⟨st, w, s, hin, h0, h1⟩
    · exact absent_rows rows _ hm ha.inB (by have := ha.rem; omega) h2
  | [] :: rows, acc, st, v, s1, hm, hin, h0, h => by cases h
  | [_] :: rows, acc, st, v, s1, hm, hin, h0, h => by cases h

theorem nextBytes_absent {k : Int} {st s1 : St} {b : Str} (hin : InB st) (h0 : rem st = 0) (h : nextBytes k st = .ok (b, s1)) :
    b = [] ∧ rem s1 = 0 := by
  have := nextBytes_length hin h
  exact ⟨List.length_eq_zero_iff.mp (by omega), by omega⟩

/-- If the class returns a value at the end of the data, so does everything it asks for there. -/
theorem process_absent {ctx : Ctx} {cls : Cls} {s : Str} {st s1 : St} {v : Val} {c : Ctx} {u : Str} (hin : InB st) (h0 : rem st = 0)
    (h : process env.ext (pau env n) ctx cls s st = .ok (v, s1)) (ha : AbsentAsks env ctx cls s c u) :
    ∃ st' v' s', InB st' ∧ rem st' = 0 ∧ pau env n c u st' = .ok (v', s') := by
  cases cls
  case option t =>
    obtain ⟨rfl, rfl, hne, hb⟩ := ha
    replace h : processOption (pau env n) c (effSub t s) st = .ok (v, s1) := h
    unfold processOption at h
    rw [Res.bind_eq_ok] at h
    obtain ⟨⟨b, s2⟩, e1, e2⟩ := h
    obtain ⟨rfl, h1⟩ := nextBytes_absent hin h0 e1
    dsimp only at e2
    rw [if_pos ⟨hne, by decide⟩, if_neg hb] at e2
    exact ⟨s2, v, s1, (nextBytes_post _ hin _ _ e1).inB, h1, e2⟩
  case struct tm =>
    obtain ⟨rfl, hm⟩ := ha
    replace h : processStruct (pau env n) c (tm.getD []) st = .ok (v, s1) := h
    unfold processStruct at h
    rw [Res.bind_eq_ok] at h
    obtain ⟨⟨m, s2⟩, e1, e2⟩ := h
    exact absent_fields _ _ hm hin h0 e1
  case enum vs tm =>
    cases tm with
    | none => exact ha.elim
    | some tm =>
      obtain ⟨rfl, hcl, p, hp, hm⟩ := ha
      replace h : processEnum env.ext (pau env n) c vs (some tm) st = .ok (v, s1) := h
      unfold processEnum at h
      rw [Res.bind_eq_ok] at h
      obtain ⟨⟨b, s2⟩, e1, e2⟩ := h
      obtain ⟨rfl, h1⟩ := nextBytes_absent hin h0 e1
      have hin2 := (nextBytes_post _ hin _ _ e1).inB
      dsimp only at e2
      rw [if_neg (by simp [hcl])] at e2
      rw [show ((([] : Str).headD 0).toNat) = 0 from rfl, hp] at e2
      dsimp only at e2
      unfold variantAsks at hm
      by_cases hp2 : p.2 = []
      · rw [if_pos hp2] at hm
        cases hm
      rw [if_neg hp2] at hm e2
      change u ∈ (match variantRows env.ext p.2 with
        | some l => rowTypes l
        | none => [p.2]) at hm
      cases hv : variantRows env.ext p.2 with
      | none =>
        rw [hv] at e2 hm
        dsimp only at e2 hm
        rw [Res.bind_eq_ok] at e2
        obtain ⟨⟨w, s3⟩, e2, _⟩ := e2
        obtain rfl := List.mem_singleton.mp hm
        exact ⟨s2, w, s3, hin2, h1, e2⟩
      | some rows =>
        rw [hv] at e2 hm
        dsimp only at e2 hm
        rw [Res.bind_eq_ok] at e2
        obtain ⟨⟨w, s3⟩, e2, _⟩ := e2
        exact absent_rows rows _ hm hin2 h1 e2
  case set vs bits =>
    obtain ⟨rfl, rfl⟩ := ha
    replace h : processSet (pau env n) c vs bits st = .ok (v, s1) := h
    unfold processSet at h
    rw [Res.bind_eq_ok] at h
    obtain ⟨⟨w, s2⟩, e1, e2⟩ := h
    exact ⟨st, w, s2, hin, h0, e1⟩
  case compact t =>
    obtain ⟨rfl, rfl, hne⟩ := ha
    replace h : processCompact (pau env n) (effSub t s) st = .ok (v, s1) := h
    unfold processCompact at h
    rw [Res.bind_eq_ok] at h
    obtain ⟨⟨⟨l, cb⟩, s2⟩, e1, e2⟩ := h
    dsimp only at e2
    rw [if_neg hne, Res.bind_eq_ok] at e2
    obtain ⟨⟨w, s3⟩, e2, _⟩ := e2
    have := compactBytes_length hin e1
    exact ⟨_, w, s3, Nat.zero_le _, by simp only [rem]; omega, e2⟩
  case call =>
    obtain ⟨md, e, hmd, hk, rfl, hm⟩ := ha
    obtain ⟨m, sp, md'⟩ := ctx
    obtain rfl : md' = some md := hmd
    replace h : processCall (pau env n) ⟨m, sp, some md⟩ st = .ok (v, s1) := h
    rw [processCall_some] at h
    unfold callFrom at h
    rw [Res.bind_eq_ok] at h
    obtain ⟨⟨b, s2⟩, e1, e2⟩ := h
    obtain ⟨rfl, h1⟩ := nextBytes_absent hin h0 e1
    dsimp only at e2
    rw [show bytesToHex [] = [] from rfl, hk, Res.bind_eq_ok] at e2
    obtain ⟨⟨ps, s3⟩, e2, _⟩ := e2
    exact absent_args _ hm (nextBytes_post _ hin _ _ e1).inB h1 e2
  case logDigest =>
    obtain ⟨rfl, rfl⟩ := ha
    replace h : processLogDigest (pau env n) c st = .ok (v, s1) := h
    unfold processLogDigest at h
    rw [Res.bind_eq_ok] at h
    obtain ⟨⟨b, s2⟩, e1, e2⟩ := h
    obtain ⟨rfl, h1⟩ := nextBytes_absent hin h0 e1
    dsimp only at e2
    rw [show logDigestValues[((([] : Str)).headD 0).toNat]? = some b!"Other" from rfl] at e2
    dsimp only at e2
    rw [Res.bind_eq_ok] at e2
    obtain ⟨⟨w, s3⟩, e2, _⟩ := e2
    exact ⟨s2, w, s3, (nextBytes_post _ hin _ _ e1).inB, h1, e2⟩
  case opaqueCall =>
    obtain ⟨rfl, rfl⟩ := ha
    replace h : processOpaqueCall (pau env n) ctx st = .ok (v, s1) := h
    unfold processOpaqueCall at h
    rw [Res.bind_eq_ok] at h
    obtain ⟨⟨w, s2⟩, e, e0⟩ := h
    unfold processBytes at e
    simp only [Res.bind_eq_ok] at e
    obtain ⟨⟨w', s3⟩, e1, i, e2, ⟨b, s4⟩, e3, e4⟩ := e
    obtain ⟨rfl, rfl⟩ := ok_inj e4
    have hq := pau_post env n _ _ _ hin _ _ e1
    obtain ⟨rfl, h1⟩ := nextBytes_absent hq.inB (by have := hq.rem; omega) e3
    dsimp only at e0
    rw [Res.bind_eq_ok] at e0
    obtain ⟨⟨x, s5⟩, e0, _⟩ := e0
    exact ⟨_, x, s5, Nat.zero_le _, by simp only [rem]; exact Nat.le_zero.mp (Nat.le_trans (Nat.sub_le _ _) (hexToBytes_text [])), e0⟩
  case box t =>
    obtain ⟨rfl, rfl⟩ := ha
    exact ⟨st, v, s1, hin, h0, h⟩
  case result t =>
    obtain ⟨rfl, er, hsp⟩ := ha
    replace h : processResult (pau env n) c (effSub t s) st = .ok (v, s1) := h
    unfold processResult at h
    rw [Res.bind_eq_ok] at h
    obtain ⟨⟨b, s2⟩, e1, e2⟩ := h
    obtain ⟨rfl, h1⟩ := nextBytes_absent hin h0 e1
    dsimp only at e2
    rw [hsp] at e2
    dsimp only at e2
    rw [if_pos (.inr rfl), Res.bind_eq_ok] at e2
    obtain ⟨⟨w, s3⟩, e2, _⟩ := e2
    exact ⟨s2, w, s3, (nextBytes_post _ hin _ _ e1).inB, h1, e2⟩
  case wrapperOpaque t =>
    obtain ⟨rfl, rfl⟩ := ha
    replace h : processWrapper (pau env n) c (effSub t s) st = .ok (v, s1) := h
    unfold processWrapper at h
    rw [Res.bind_eq_ok] at h
    obtain ⟨⟨w, s2⟩, e1, e2⟩ := h
    have hq := pau_post env n _ _ _ hin _ _ e1
    exact ⟨s2, v, s1, hq.inB, by have := hq.rem; omega, e2⟩
  case range t =>
    obtain ⟨rfl, hm⟩ := ha
    replace h : processRange (pau env n) c (effSub t s) st = .ok (v, s1) := h
    unfold processRange at h
    simp only [Res.bind_eq_ok] at h
    obtain ⟨⟨w, s2⟩, e1, ⟨w', s3⟩, e2, _⟩ := h
    have hq := pau_post env n _ _ _ hin _ _ e1
    rcases hm with rfl | rfl
    · exact ⟨st, w, s2, hin, h0, e1⟩
    · exact ⟨s2, w', s3, hq.inB, by have := hq.rem; omega, e2⟩
  case fixedI128 =>
    obtain ⟨rfl, rfl⟩ := ha
    replace h : processFixedI128 env.ext (pau env n) c st = .ok (v, s1) := h
    unfold processFixedI128 at h
    rw [Res.bind_eq_ok] at h
    obtain ⟨⟨w, s2⟩, e1, e2⟩ := h
    exact ⟨st, w, s2, hin, h0, e1⟩
  case fixedArray k t =>
    obtain ⟨rfl, rfl, hk, he⟩ := ha
    replace h : processFixedArray (pau env n) c k u st = .ok (v, s1) := h
    unfold processFixedArray at h
    rw [if_pos hk, he] at h
    simp only [Bool.false_eq_true, if_false, Res.bind_eq_ok] at h
    obtain ⟨⟨ws, s2⟩, e1, e2⟩ := h
    obtain ⟨m, hm⟩ : ∃ m, k.toNat = m + 1 := ⟨k.toNat - 1, by omega⟩
    rw [hm, procN, Res.bind_eq_ok] at e1
    obtain ⟨⟨w, s3⟩, e1, _⟩ := e1
    exact ⟨st, w, s3, hin, h0, e1⟩
  all_goals exact ha.elim

end

theorem halts_of_ok {env : Env} : ∀ (n : Nat) (ctx : Ctx) (ty : Str) (st : St) (v : Val) (s1 : St), InB st → rem st = 0 →
    pau env n ctx ty st = .ok (v, s1) → Halts env ctx ty
  | 0, _, _, _, _, _, _, _, h => by cases h
  | n + 1, ctx, ty, st, v, s1, hin, h0, h => by
    refine .mk fun cls s c u hg ha => ?_
    rw [pau_resolves n st hg] at h
    obtain ⟨st', v', s', h1, h2, h3⟩ := process_absent hin h0 h ha
    exact halts_of_ok n c u st' v' s' h1 h2 h3

/-- C120, the other way: a type that can be read from no data at all asks for finitely many types; a type that asks for types
without end is never read to its end from data that are cut off in front of it. -/
theorem C120_absent (env : Env) (ctx : Ctx) (ty : Str) (data : Str) (calls : List Str) (n : Nat) (v : Val) (s1 : St)
    (h : pau env n ctx ty ⟨⟨data, data.length⟩, calls⟩ = .ok (v, s1)) : Halts env ctx ty :=
  halts_of_ok n ctx ty _ v s1 (Nat.le_refl _) (Nat.sub_self _) h

/-- A type that asks for types without end, read from data that are cut off in front of it: no value is returned, whatever the budget. -/
theorem C120_never (env : Env) (ctx : Ctx) (ty : Str) (h : ¬ Halts env ctx ty) (data : Str) (calls : List Str) (n : Nat) (v : Val) (s1 : St) :
    pau env n ctx ty ⟨⟨data, data.length⟩, calls⟩ ≠ .ok (v, s1) :=
  fun e => h (C120_absent env ctx ty data calls n v s1 e)

/-! ## A type that is read without end -/

/-- The full property: decoding any type ends on any data. -/
def C120Claim : Prop := ∀ (env : Env) (ctx : Ctx) (ty : Str) (data : Str), LenOK env ctx → ∃ n, pau env n ctx ty ⟨⟨data, 0⟩, []⟩ ≠ .diverge

/-- A registry with a linked list: `List` is a struct of an optional `List`. -/
def listEnv (ext : Ext) : Env := addTypes (baseEnv ext) [(b!"list", .struct (some [(b!"next", b!"Option<List>")]))]

theorem list_resolves (ext : Ext) : Resolves (listEnv ext) [] 0 b!"List" (.struct (some [(b!"next", b!"Option<List>")])) [] := by
  unfold Resolves; kernel_rfl
theorem list_option (ext : Ext) : Resolves (listEnv ext) [] 0 b!"Option<List>" (.option []) b!"List" := by
  unfold Resolves; kernel_rfl

theorem nonzero_hex : ∀ x : UInt8, x ≠ 0 → bytesToHex [x] ≠ b!"00" := forall_byte (P := fun x => x ≠ 0 → bytesToHex [x] ≠ b!"00") (by decide +kernel)

/-- One more flag that is set, or absent. -/
theorem flag_step (pre b : Str) (cs : List Str) (hl : pre.length + b.length < 2 ^ 62) (hz : ∀ x ∈ b, x ≠ 0) :
    ∃ f pre' b', nextBytes 1 ⟨⟨pre ++ b, pre.length⟩, cs⟩ = .ok (f, ⟨⟨pre' ++ b', pre'.length⟩, cs⟩) ∧ bytesToHex f ≠ b!"00" ∧
      pre'.length + b'.length < 2 ^ 62 ∧ ∀ x ∈ b', x ≠ 0 := by
  cases b with
  | nil =>
    refine ⟨[], pre, [], ?_, by decide, hl, by simp⟩
    have := nextBytes_end pre [] cs 1 (by simp) (by simp at hl; omega)
    simpa using this
  | cons x r =>
    refine ⟨[x], pre ++ [x], r, ?_, nonzero_hex x (hz x (by simp)), ?_, fun y hy => hz y (by simp [hy])⟩
    · have := nextBytes_at pre [x] r cs 1 rfl (by simp at hl ⊢; omega)
      simpa using this
    · simp at hl ⊢
      omega

/-- Data without a zero byte: every flag is set, and at the end of the data the missing ones count as set. -/
theorem C120_list (ext : Ext) (md : Option MD) (n : Nat) (pre b : Str) (cs : List Str) (hl : pre.length + b.length < 2 ^ 62) (hz : ∀ x ∈ b, x ≠ 0) :
    pau (listEnv ext) n ⟨[], 0, md⟩ b!"List" ⟨⟨pre ++ b, pre.length⟩, cs⟩ = .diverge := by
  induction n using Nat.strong_induction_on generalizing pre b with
  | _ n ih =>
    match n with
    | 0 => rfl
    | 1 =>
      rw [pau_resolves (ctx := ⟨[], 0, md⟩) 0 _ (list_resolves ext)]
      rfl
    | n + 2 =>
      rw [pau_resolves (ctx := ⟨[], 0, md⟩) (n + 1) _ (list_resolves ext)]
      obtain ⟨f, pre', b', e, hf, hl', hz'⟩ := flag_step pre b cs hl hz
      have h1 : pau (listEnv ext) (n + 1) ⟨[], 0, md⟩ b!"Option<List>" ⟨⟨pre ++ b, pre.length⟩, cs⟩ = .diverge := by
        rw [pau_resolves (ctx := ⟨[], 0, md⟩) n _ (list_option ext)]
        show processOption _ _ _ _ = _
        unfold processOption
        rw [e, Res.ok_bind]
        dsimp only
        rw [if_pos ⟨by decide, hf⟩, if_neg (by decide)]
        exact ih n (by omega) pre' b' hl' hz'
      show processStruct _ _ _ _ = _
      unfold processStruct
      show (procFields _ _ [(b!"next", b!"Option<List>")] [] _ >>= _) = _
      rw [procFields, h1]
      rfl

/-- The claim fails. -/
theorem C120_claim_false : ¬ C120Claim := by
  intro h
  obtain ⟨n, hn⟩ := h (listEnv dummyExt) ⟨[], 0, none⟩ b!"List" [] ⟨[], by unfold Resolves; kernel_rfl⟩
  exact hn (C120_list dummyExt none n [] [] [] (by decide) (by simp))

/-- Whole data are read: flags 1, 1, 0. -/
example : pau (listEnv dummyExt) 9 ⟨[], 0, none⟩ b!"List" ⟨⟨[1, 1, 0], 0⟩, []⟩ =
    .ok (.map [(b!"next", .map [(b!"next", .map [(b!"next", .nil)])])], ⟨⟨[1, 1, 0], 3⟩, []⟩) := by kernel_rfl

/-- The same data without their last byte are read without end. -/
example (n : Nat) : pau (listEnv dummyExt) n ⟨[], 0, none⟩ b!"List" ⟨⟨[1, 1], 0⟩, []⟩ = .diverge :=
  C120_list dummyExt none n [] [1, 1] [] (by decide) (by decide)

/-- So the list asks for types without end; a tree, which contains itself in a vector only, does not, and decoding it ends. -/
example : ¬ Halts (listEnv dummyExt) ⟨[], 0, none⟩ b!"List" := by
  intro h
  have key : ∀ c u, Halts (listEnv dummyExt) c u → c = ⟨[], 0, none⟩ → u ≠ b!"List" ∧ u ≠ b!"Option<List>" := by
    intro c u h
    induction h with
    | mk _ ih =>
      rintro rfl
      constructor
      · rintro rfl
        exact (ih _ _ _ b!"Option<List>" (list_resolves dummyExt) ⟨rfl, by decide⟩ rfl).2 rfl
      · rintro rfl
        exact (ih _ _ _ b!"List" (list_option dummyExt) ⟨rfl, by decide, by decide, by decide⟩ rfl).1 rfl
  exact (key _ _ h rfl).1 rfl

example (ext : Ext) (st : St) (hin : st.cur.off ≤ st.cur.data.length) :
    ∃ N r, r ≠ .diverge ∧ ∀ n, N ≤ n → pau (treeEnv ext) n ⟨[], 0, none⟩ b!"Tree" st = r := by
  have ht : getCodecClass (treeEnv ext) [] 0 b!"Tree" = .ok (some (.struct (some [(b!"v", b!"u16"), (b!"kids", b!"Vec<Tree>")]), [])) := by kernel_rfl
  have hv : getCodecClass (treeEnv ext) [] 0 b!"Vec<Tree>" = .ok (some (.vec [], b!"Tree")) := by kernel_rfl
  have hu : getCodecClass (treeEnv ext) [] 0 b!"u16" = .ok (some (.u16, [])) := by kernel_rfl
  have h1 : Halts (treeEnv ext) ⟨[], 0, none⟩ b!"u16" := .mk fun cls s c u hg ha => by
    rw [hu] at hg
    cases hg
    exact ha.elim
  have h2 : Halts (treeEnv ext) ⟨[], 0, none⟩ b!"Vec<Tree>" := .mk fun cls s c u hg ha => by
    rw [hv] at hg
    cases hg
    exact ha.elim
  have h3 : Halts (treeEnv ext) ⟨[], 0, none⟩ b!"Tree" := .mk fun cls s c u hg ha => by
    rw [ht] at hg
    cases hg
    obtain ⟨rfl, ha⟩ := ha
    simp only [Option.getD_some, List.map_cons, List.map_nil, List.mem_cons, List.not_mem_nil, or_false] at ha
    rcases ha with rfl | rfl
    · exact h1
    · exact h2
  refine C120_partial _ _ _ ⟨[], by unfold Resolves; kernel_rfl⟩ (fun c u hm => ?_) st hin
  have key : c = ⟨[], 0, none⟩ ∧ (u = b!"Tree" ∨ u = b!"Vec<Tree>" ∨ u = b!"u16") := by
    induction hm with
    | self => exact ⟨rfl, .inl rfl⟩
    | step _ hg hd ih =>
      obtain ⟨rfl, rfl | rfl | rfl⟩ := ih
      · rw [ht] at hg
        cases hg
        obtain ⟨rfl, ha⟩ := hd
        simp only [Option.getD_some, List.map_cons, List.map_nil, List.mem_cons, List.not_mem_nil, or_false] at ha
        exact ⟨rfl, ha.elim (fun h => .inr (.inr h)) fun h => .inr (.inl h)⟩
      · rw [hv] at hg
        cases hg
        obtain ⟨rfl, rfl⟩ := hd
        exact ⟨rfl, .inl rfl⟩
      · rw [hu] at hg
        cases hg
        exact hd.elim
  obtain ⟨rfl, rfl | rfl | rfl⟩ := key
  · exact ⟨⟨[], by unfold Resolves; kernel_rfl⟩, h3⟩
  · exact ⟨⟨[], by unfold Resolves; kernel_rfl⟩, h2⟩
  · exact ⟨⟨[], by unfold Resolves; kernel_rfl⟩, h1⟩

/-! ## The built-in definitions -/

open Builtin (types texts textIndex)

/-- `AbsentAsks` as a list. -/
def absentList (rows : Str → Option (List (List Str))) (cls : Cls) (s : Str) : List Str :=
  match cls with
  | .option t => if effSub t s = [] ∨ effSub t s = b!"bool" then [] else [effSub t s]
  | .struct tm => (tm.getD []).map Prod.snd
  | .enum _ (some tm) => if isCLike tm then [] else match tm[0]? with
    | some p => variantAsks rows p.2
    | none => []
  | .set _ bits => [b!"U" ++ intToDec bits]
  | .compact t => if effSub t s = [] then [] else [effSub t s]
  | .logDigest => [b!"Other"]
  | .opaqueCall => [b!"Call"]
  | .box t => [effSub t s]
  | .result t => match splitSep (effSub t s) b!"," with
    | [a, _] => [a]
    | _ => []
  | .wrapperOpaque t => [effSub t s]
  | .range t => [(rangeTypes (effSub t s)).1, (rangeTypes (effSub t s)).2]
  | .fixedI128 => [b!"i128"]
  | .fixedArray n t => if n > 0 ∧ equalFold t b!"u8" = false then [t] else []
  | _ => []

/-- Members with several fields of the built-in enums, written as JSON in `source/base.go`, are read as the pairs they are. -/
def Spec.ReadsBuiltin (ext : Ext) : Prop :=
  ∀ k vs tm, (k, .enum vs (some tm)) ∈ Builtin.classes ++ baseReg → ∀ q ∈ tm, hasPrefix q.2 b!"[[" = true → ext.rows q.2 = pairRows q.2

theorem asks_list {env : Env} {ctx : Ctx} {cls : Cls} {s : Str} {c : Ctx} {u : Str} (hm : ctx.md = none ∨ cls ≠ .call) (h : AbsentAsks env ctx cls s c u) :
    (c = ctx ∨ c = Ctx.fresh ∨ c = ⟨[], ctx.spec, ctx.md⟩) ∧ u ∈ absentList env.ext.rows cls s := by
  unfold AbsentAsks at h
  split at h
  · obtain ⟨rfl, rfl, h1, h2⟩ := h
    exact ⟨.inl rfl, by simp [absentList, h1, h2]⟩
  · obtain ⟨rfl, h1⟩ := h
    exact ⟨.inl rfl, h1⟩
  · obtain ⟨rfl, h1, p, h2, h3⟩ := h
    refine ⟨.inl rfl, ?_⟩
    rw [absentList, if_neg (by simp [h1]), h2]
    exact h3
  · obtain ⟨rfl, rfl⟩ := h
    exact ⟨.inl rfl, by simp [absentList]⟩
  · obtain ⟨rfl, rfl, h1⟩ := h
    exact ⟨.inr (.inl rfl), by simp [absentList, h1]⟩
  · obtain ⟨md, e, h1, _⟩ := h
    rcases hm with hm | hm
    · rw [hm] at h1
      cases h1
    · exact (hm rfl).elim
  · obtain ⟨rfl, rfl⟩ := h
    exact ⟨.inl rfl, by simp [absentList]⟩
  · obtain ⟨rfl, rfl⟩ := h
    exact ⟨.inr (.inr rfl), by simp [absentList]⟩
  · obtain ⟨rfl, rfl⟩ := h
    exact ⟨.inl rfl, by simp [absentList]⟩
  · obtain ⟨rfl, e, h1⟩ := h
    refine ⟨.inl rfl, ?_⟩
    rw [absentList, h1]
    simp
  · obtain ⟨rfl, rfl⟩ := h
    exact ⟨.inl rfl, by simp [absentList]⟩
  · obtain ⟨rfl, h1⟩ := h
    exact ⟨.inl rfl, by simpa [absentList] using h1⟩
  · obtain ⟨rfl, rfl⟩ := h
    exact ⟨.inl rfl, by simp [absentList]⟩
  · obtain ⟨rfl, rfl, h1, h2⟩ := h
    exact ⟨.inl rfl, by simp [absentList, h1, h2]⟩
  · exact h.elim

theorem data_list {env : Env} {ctx : Ctx} {cls : Cls} {s : Str} {c : Ctx} {u : Str} (hm : ctx.md = none ∨ cls ≠ .call) (h : DataAsks env ctx cls s c u) :
    (c = ctx ∨ c = Ctx.fresh ∨ c = ⟨[], ctx.spec, ctx.md⟩) ∧ u ∈ asks env.ext.rows cls s := by
  unfold DataAsks at h
  split at h
  · obtain ⟨rfl, h1, p, h2, h3⟩ := h
    refine ⟨.inl rfl, ?_⟩
    rw [asks, if_neg (by simp [h1])]
    exact List.mem_flatMap.mpr ⟨p, h2, h3⟩
  · obtain ⟨md, k, e, h1, _⟩ := h
    rcases hm with hm | hm
    · rw [hm] at h1
      cases h1
    · exact (hm rfl).elim
  · obtain ⟨rfl, h1⟩ := h
    exact ⟨.inl rfl, h1⟩
  · obtain ⟨rfl, p, h1, rfl⟩ := h
    exact ⟨.inl rfl, List.mem_map.mpr ⟨p, h1, rfl⟩⟩
  · obtain ⟨rfl, rfl⟩ := h
    exact ⟨.inl rfl, by simp [asks]⟩
  · obtain ⟨rfl, rfl⟩ := h
    exact ⟨.inl rfl, by simp [asks]⟩
  · obtain ⟨rfl, rfl⟩ := h
    exact ⟨.inl rfl, by simp [asks]⟩
  · obtain ⟨rfl, h1⟩ := h
    refine ⟨.inl rfl, ?_⟩
    rw [asks]
    refine List.mem_cons_of_mem _ ?_
    rcases h1 with rfl | ⟨a, r, h1⟩
    · rename_i t
      have hne : splitSep (effSub t s) b!"," ≠ [] := splitSepAux_ne_nil _ _ _ _
      cases hp : splitSep (effSub t s) b!"," with
      | nil => exact absurd hp hne
      | cons a r => simp
    · rw [h1]
      simp
  · obtain ⟨rfl, a, e, h1, h2⟩ := h
    refine ⟨.inl rfl, ?_⟩
    rw [asks, h1]
    simpa using h2
  · obtain ⟨h1, h2⟩ := asks_list hm h
    refine ⟨h1, ?_⟩
    cases cls <;> first | exact h2 | (simp only [absentList, List.not_mem_nil] at h2; done) | (simp only [asks]; simp only [absentList, List.mem_singleton] at h2; simp [h2]; done) | skip
    · rename_i h _ _ _ _ _ _
      exact ((by assumption : Cls.logDigest = Cls.logDigest → False) rfl).elim
    · rename_i sub _ _ _ _ _ _ _ _ _
      exact ((by assumption : ∀ t, Cls.result sub = Cls.result t → False) _ rfl).elim

/-- Reading absent bytes as the built-in type comes to an end within so many steps. -/
def endsIn : Nat → Str → Bool
  | 0, _ => false
  | n + 1, t => match getCodecClass fastEnv [] 0 t with
    | .ok (some (c, s)) => (absentList pairRows c s).all (endsIn n)
    | _ => true

theorem endsIn0 : Builtin.texts0.all (fun p => endsIn 6 p.1) = true := by kernel_rfl
theorem endsIn1 : Builtin.texts1.all (fun p => endsIn 6 p.1) = true := by kernel_rfl
theorem endsIn2 : Builtin.texts2.all (fun p => endsIn 6 p.1) = true := by kernel_rfl
theorem endsIn3 : Builtin.texts3.all (fun p => endsIn 6 p.1) = true := by kernel_rfl
theorem endsIn4 : Builtin.texts4.all (fun p => endsIn 6 p.1) = true := by kernel_rfl
theorem endsIn5 : Builtin.texts5.all (fun p => endsIn 6 p.1) = true := by kernel_rfl
theorem endsIn6 : Builtin.texts6.all (fun p => endsIn 6 p.1) = true := by kernel_rfl
theorem endsIn7 : Builtin.texts7.all (fun p => endsIn 6 p.1) = true := by kernel_rfl
theorem endsIn8 : Builtin.texts8.all (fun p => endsIn 6 p.1) = true := by kernel_rfl
theorem endsIn9 : Builtin.texts9.all (fun p => endsIn 6 p.1) = true := by kernel_rfl
theorem endsIn10 : Builtin.texts10.all (fun p => endsIn 6 p.1) = true := by kernel_rfl
theorem endsIn11 : Builtin.texts11.all (fun p => endsIn 6 p.1) = true := by kernel_rfl
theorem endsIn12 : Builtin.texts12.all (fun p => endsIn 6 p.1) = true := by kernel_rfl
theorem endsIn13 : Builtin.texts13.all (fun p => endsIn 6 p.1) = true := by kernel_rfl
theorem endsIn14 : Builtin.texts14.all (fun p => endsIn 6 p.1) = true := by kernel_rfl

theorem texts_end : texts.all (fun p => endsIn 6 p.1) = true := by
  have happ : ∀ a b : List (Str × Nat), a.all (fun p => endsIn 6 p.1) = true → b.all (fun p => endsIn 6 p.1) = true →
      (a ++ b).all (fun p => endsIn 6 p.1) = true := by
    intro a b ha hb
    rw [List.all_append, ha, hb]
    rfl
  unfold texts
  exact (happ _ _ (happ _ _ (happ _ _ (happ _ _ (happ _ _ (happ _ _ (happ _ _ (happ _ _ (happ _ _ (happ _ _ (happ _ _ (happ _ _ (happ _ _ (happ _ _ endsIn0 endsIn1) endsIn2) endsIn3) endsIn4) endsIn5) endsIn6) endsIn7) endsIn8) endsIn9) endsIn10) endsIn11) endsIn12) endsIn13) endsIn14)

theorem instant_enum {env : Env} (hs : env.special = fun _ => []) {m t : Str} {spec : Int} {vs : List Str} {tm : Option (List (Str × Str))}
    (h : getCodecInstant env m t spec = .ok (some (.enum vs tm))) : ∃ k, env.reg k = some (.enum vs tm) := by
  unfold getCodecInstant at h
  rw [hs] at h
  simp only [findSpecial] at h
  split at h
  · rename_i c hc
    cases h
    exact ⟨_, hc⟩
  · split at h
    · cases h
    · split at h
      · cases h
      · split at h
        · injection h with h2
          unfold fixedArrayText at h2
          dsimp only at h2
          split at h2 <;> cases h2
        · cases h

/-- An enum is found in the registry only. -/
theorem class_enum {env : Env} (hs : env.special = fun _ => []) {m : Str} {spec : Int} {vs : List Str} {tm : Option (List (Str × Str))} {s : Str} :
    ∀ (fuel : Nat) (t : Str), getCodecClassAux env m spec fuel t = .ok (some (.enum vs tm, s)) → ∃ k, env.reg k = some (.enum vs tm)
  | 0, _, h => by cases h
  | fuel + 1, t, h => by
    rw [getCodecClassAux] at h
    split at h
    · cases h
    rw [Res.bind_eq_ok] at h
    obtain ⟨w, h1, h2⟩ := h
    cases w with
    | some c =>
      cases h2
      unfold lookupWhole at h1
      split at h1
      · exact instant_enum hs h1
      · cases h1
    | none =>
      dsimp only at h2
      rw [Res.bind_eq_ok] at h2
      obtain ⟨w, h1, h2⟩ := h2
      cases w with
      | some c =>
        cases h2
        unfold lookupParts at h1
        split at h1
        all_goals
          rw [Res.bind_eq_ok] at h1
          obtain ⟨o, h3, h4⟩ := h1
          cases o with
          | none => cases h4
          | some o =>
            cases h4
            exact instant_enum hs h3
      | none =>
        dsimp only at h2
        split at h2
        · unfold lookupTuple at h2
          rw [Res.bind_eq_ok] at h2
          obtain ⟨o, _, h3⟩ := h2
          split at h3 <;> cases h3
        · split at h2
          · exact class_enum hs fuel _ h2
          · cases h2

theorem compactText_ok : (match getCodecClass fastEnv [] 0 b!"Compact<u32>" with
  | .ok (some (.compactU32, _)) => true
  | _ => false) = true := by kernel_rfl
theorem u32Text_ok : (match getCodecClass fastEnv [] 0 b!"U32" with
  | .ok (some (.u32, _)) => true
  | _ => false) = true := by kernel_rfl

theorem variant_same {rows : Str → Option (List (List Str))} {sub : Str} (h : hasPrefix sub b!"[[" = true → rows sub = pairRows sub) :
    variantAsks rows sub = variantAsks pairRows sub := by
  unfold variantAsks
  by_cases hp : hasPrefix sub b!"[[" = true
  · rw [h hp]
  · simp only [hp, and_false, if_false, Bool.false_eq_true]

theorem rows_same {rows : Str → Option (List (List Str))} {cls : Cls} {s : Str}
    (h : ∀ vs tm, cls = .enum vs (some tm) → ∀ q ∈ tm, hasPrefix q.2 b!"[[" = true → rows q.2 = pairRows q.2) :
    asks rows cls s = asks pairRows cls s ∧ absentList rows cls s = absentList pairRows cls s := by
  cases cls
  case enum vs tm =>
    cases tm with
    | none => exact ⟨rfl, rfl⟩
    | some tm =>
      have h := h vs tm rfl
      constructor
      · simp only [asks]
        split
        · rfl
        · rw [List.flatMap_def, List.flatMap_def]
          congr 1
          exact List.map_congr_left fun q hq => variant_same (h q hq)
      · simp only [absentList]
        split
        · rfl
        · split
          · rename_i p hp
            exact variant_same (h p (List.mem_of_getElem? hp))
          · rfl
  all_goals exact ⟨rfl, rfl⟩

theorem loaded_class' (ext : Ext) {c : Ctx} (hc : c.module = []) (t : Str) :
    getCodecClass (loadedEnv ext) c.module c.spec t = getCodecClass fastEnv [] 0 t := by
  rw [hc]
  exact loaded_class ext c.spec t

theorem text_ok {t : Str} (h : ∃ n, fastGet textIndex texts t = some n) : endsIn 6 t = true := by
  obtain ⟨n, h⟩ := h
  rw [← indexed textIndex_ok] at h
  have := List.all_eq_true.mp texts_end _ (mem_of_tableGet h)
  exact this

theorem text_rows {ext : Ext} (hr : Spec.ReadsBuiltin ext) {t : Str} {cls : Cls} {s : Str}
    (hg : getCodecClass fastEnv [] 0 t = .ok (some (cls, s))) :
    asks ext.rows cls s = asks pairRows cls s ∧ absentList ext.rows cls s = absentList pairRows cls s := by
  refine rows_same fun vs tm e q hq hp => ?_
  subst e
  obtain ⟨k, hk⟩ := class_enum (env := fastEnv) rfl _ _ hg
  have hk : loadedReg k = some (.enum vs (some tm)) := by
    rw [loadedReg_fast]
    exact hk
  exact hr k vs tm (mem_of_tableGet hk) q hq hp

theorem text_asks {t u : Str} (h : ∃ n, fastGet textIndex texts t = some n) {cls : Cls} {s : Str}
    (hg : getCodecClass fastEnv [] 0 t = .ok (some (cls, s))) (hu : u ∈ asks pairRows cls s) : ∃ n, fastGet textIndex texts u = some n := by
  obtain ⟨n, h⟩ := h
  have hok := texts_get h
  match n with
  | 0 =>
    obtain ⟨c', sub', hc', ha⟩ := okText_zero hok
    rw [hg] at hc'
    cases hc'
    exact ⟨0, ha _ hu⟩
  | 1 =>
    rw [okText_one hok] at hg
    cases hg
  | n + 2 =>
    obtain ⟨c', sub', hc', ha, _⟩ := okText_more hok
    rw [hg] at hc'
    cases hc'
    exact ha _ hu

theorem child_ctx {ctx c : Ctx} (hm : ctx.module = []) (hd : ctx.md = none) (h : c = ctx ∨ c = Ctx.fresh ∨ c = ⟨[], ctx.spec, ctx.md⟩) :
    c.module = [] ∧ c.md = none := by
  rcases h with rfl | rfl | rfl
  · exact ⟨hm, hd⟩
  · exact ⟨rfl, rfl⟩
  · exact ⟨rfl, hd⟩

theorem halts_in {ext : Ext} (hr : Spec.ReadsBuiltin ext) : ∀ (n : Nat) (c : Ctx) (t : Str), c.module = [] → c.md = none →
    (∃ k, fastGet textIndex texts t = some k) → endsIn n t = true → Halts (loadedEnv ext) c t
  | 0, _, _, _, _, _, h => by cases h
  | n + 1, c, t, hm, hd, ht, h => by
    refine .mk fun cls s c' u hg ha => ?_
    rw [loaded_class' ext hm] at hg
    obtain ⟨h1, h2⟩ := data_list (.inl hd) (absent_data ha)
    have h3 := (asks_list (.inl hd) ha).2
    have hrows := text_rows hr hg
    change u ∈ asks ext.rows cls s at h2
    change u ∈ absentList ext.rows cls s at h3
    rw [hrows.1] at h2
    rw [hrows.2] at h3
    rw [endsIn, hg] at h
    obtain ⟨k1, k2⟩ := child_ctx hm hd h1
    exact halts_in hr n c' u k1 k2 (text_asks ht hg h2) (List.all_eq_true.mp h u h3)

/-- C120 for the built-in definitions of `source/base.go`, whatever order they are loaded in: decoding any of them, without
metadata for calls, ends on all data. -/
theorem C120_builtin (ext : Ext) (hr : Spec.ReadsBuiltin ext) (order : List Str) (l : List (Str × TypeDef)) (rs : RegState)
    (hs : LoadsInOrder ext order l rs) (spec : Int) (p : Str × TypeDef) (hp : p ∈ types) (st : St) (hin : st.cur.off ≤ st.cur.data.length) :
    ∃ N r, r ≠ .diverge ∧ ∀ n, N ≤ n → pau rs.env n ⟨[], spec, none⟩ p.1 st = r := by
  rw [loads_env hs]
  have hu : ∃ s, Resolves (loadedEnv ext) [] 0 b!"U32" .u32 s := by
    have h := u32Text_ok
    split at h
    · rename_i s hg
      exact ⟨s, (loaded_class ext 0 _).trans hg⟩
    · cases h
  have hlen : ∀ c : Ctx, c.module = [] → LenOK (loadedEnv ext) c := by
    intro c hc
    have h := compactText_ok
    split at h
    · rename_i s hg
      exact ⟨s, (loaded_class' ext hc _).trans hg⟩
    · cases h
  have h0 : ∃ k, fastGet textIndex texts p.1 = some k := by
    have h := List.all_eq_true.mp names_ok p hp
    cases hn : fastGet textIndex texts p.1 with
    | none => rw [hn] at h; cases h
    | some n => exact ⟨n, rfl⟩
  refine ends_closed (fun c t => c.module = [] ∧ c.md = none ∧ ∃ k, fastGet textIndex texts t = some k) hu ?_ (fun c u h => hlen c h.1)
    (fun c u h => halts_in hr 6 c u h.1 h.2.1 h.2.2 (text_ok h.2.2)) (rem st) ⟨[], spec, none⟩ p.1 st ⟨rfl, rfl, h0⟩ hin (Nat.le_refl _)
  rintro c u cls s c' u' ⟨hm, hd, ht⟩ hg ha
  rw [loaded_class' ext hm] at hg
  obtain ⟨h1, h2⟩ := data_list (.inl hd) ha
  change u' ∈ asks ext.rows cls s at h2
  rw [(text_rows hr hg).1] at h2
  obtain ⟨k1, k2⟩ := child_ctx hm hd h1
  exact ⟨k1, k2, text_asks ht hg h2⟩

/-- The hypotheses are met, for 782 definitions. -/
example : Spec.ReadsBuiltin { dummyExt with rows := pairRows } ∧ LoadsInOrder { dummyExt with rows := pairRows } (types.map Prod.fst)
    (inheritLoop (types.map Prod.fst) types) ⟨loadedEnv { dummyExt with rows := pairRows }, fun _ => none⟩ ∧ types.length = 782 :=
  ⟨fun _ _ _ _ _ _ _ => rfl, loads_once _, by kernel_rfl⟩

end ScaleGo
