import Verif.Lemmas.Asks
import Verif.Lemmas.Took
import Verif.Lemmas.Mono
import Verif.Lemmas.Strings
import Verif.Lemmas.Comp
import Verif.Props.C09

/-! # Decoding that comes to an end -/

namespace ScaleGo.Spec

/-- Types that the decoder of a class asks for when it stands at the end of the data: bytes that are not there are read as a flag
of an option that is set, as the member number 0 of an enum, as the length 0. -/
def AbsentAsks (env : Env) (ctx : Ctx) (cls : Cls) (s : Str) (c : Ctx) (u : Str) : Prop :=
  match cls with
  | .option t => c = ctx ∧ u = effSub t s ∧ u ≠ [] ∧ u ≠ b!"bool"
  | .struct tm => c = ctx ∧ u ∈ (tm.getD []).map Prod.snd
  | .enum _ (some tm) => c = ctx ∧ isCLike tm = false ∧ ∃ p, tm[0]? = some p ∧ u ∈ variantAsks env.ext.rows p.2
  | .set _ bits => c = ctx ∧ u = b!"U" ++ intToDec bits
  | .compact t => c = Ctx.fresh ∧ u = effSub t s ∧ u ≠ []
  | .call => ∃ md e, ctx.md = some md ∧ md.callIndex [] = some e ∧ c = { ctx with module := e.moduleName } ∧ u ∈ e.args.map Prod.snd
  | .logDigest => c = ctx ∧ u = b!"Other"
  | .opaqueCall => c = ⟨[], ctx.spec, ctx.md⟩ ∧ u = b!"Call"
  | .box t => c = ctx ∧ u = effSub t s
  | .result t => c = ctx ∧ ∃ e, splitSep (effSub t s) b!"," = [u, e]
  | .wrapperOpaque t => c = ctx ∧ u = effSub t s
  | .range t => c = ctx ∧ (u = (rangeTypes (effSub t s)).1 ∨ u = (rangeTypes (effSub t s)).2)
  | .fixedI128 => c = ctx ∧ u = b!"i128"
  | .fixedArray n t => c = ctx ∧ u = t ∧ 0 < n ∧ equalFold t b!"u8" = false
  | _ => False

/-- Types that the decoder of a class asks for, depending on the data. -/
def DataAsks (env : Env) (ctx : Ctx) (cls : Cls) (s : Str) (c : Ctx) (u : Str) : Prop :=
  match cls with
  | .enum _ (some tm) => c = ctx ∧ isCLike tm = false ∧ ∃ p ∈ tm, u ∈ variantAsks env.ext.rows p.2
  | .call => ∃ md k e, ctx.md = some md ∧ md.callIndex k = some e ∧ c = { ctx with module := e.moduleName } ∧ u ∈ e.args.map Prod.snd
  | .logDigest => c = ctx ∧ u ∈ logDigestValues
  | .data => c = ctx ∧ ∃ p ∈ dataTM, u = p.2
  | .vec t => c = ctx ∧ u = if t = [] then s else t
  | .boundedVec t => c = ctx ∧ u = boundedSub t s
  | .authoritiesChange => c = ctx ∧ u = b!"AccountId"
  | .btreeMap t => c = ctx ∧ (u = (splitSep (effSub t s) b!",").headD [] ∨ ∃ a r, splitSep (effSub t s) b!"," = a :: u :: r)
  | .result t => c = ctx ∧ ∃ a e, splitSep (effSub t s) b!"," = [a, e] ∧ (u = a ∨ u = e)
  | _ => AbsentAsks env ctx cls s c u

/-- Reading absent bytes as the type asks for finitely many types. -/
inductive Halts (env : Env) : Ctx → Str → Prop
  | mk {ctx ty} : (∀ cls s c u, getCodecClass env ctx.module ctx.spec ty = .ok (some (cls, s)) → AbsentAsks env ctx cls s c u → Halts env c u) →
      Halts env ctx ty

end ScaleGo.Spec

namespace ScaleGo
open ScaleGo.Spec (AbsentAsks DataAsks Halts)

theorem absent_data {env : Env} {ctx : Ctx} {cls : Cls} {s : Str} {c : Ctx} {u : Str} (h : AbsentAsks env ctx cls s c u) :
    DataAsks env ctx cls s c u := by
  unfold DataAsks
  split
  · obtain ⟨h1, h2, p, h3, h4⟩ := h
    exact ⟨h1, h2, p, List.mem_of_getElem? h3, h4⟩
  · obtain ⟨md, e, h1, h2, h3, h4⟩ := h
    exact ⟨md, [], e, h1, h2, h3, h4⟩
  · obtain ⟨h1, rfl⟩ := h
    exact ⟨h1, by decide⟩
  · exact h.elim
  · exact h.elim
  · exact h.elim
  · exact h.elim
  · exact h.elim
  · obtain ⟨h1, e, h2⟩ := h
    exact ⟨h1, u, e, h2, .inl rfl⟩
  · exact h

/-- Bytes left. -/
def rem (st : St) : Nat := st.cur.data.length - st.cur.off

/-- With enough budget the step has a result, which is the same from then on. -/
def Ends {α : Type} (f : Nat → Dec α) (st : St) : Prop := ∃ N r, r ≠ .diverge ∧ ∀ n, N ≤ n → f n st = r

theorem Ends.of_ne {α : Type} {f : Dec α} {st : St} (h : f st ≠ .diverge) : Ends (fun _ => f) st := ⟨0, _, h, fun _ _ => rfl⟩

theorem Ends.ok {α : Type} {a : α} {st : St} : Ends (fun _ st => .ok (a, st)) st := .of_ne (by simp)

theorem Ends.panic {α : Type} {st : St} : Ends (fun _ _ => (.panic : Res (α × St))) st := ⟨0, _, by simp, fun _ _ => rfl⟩

theorem Ends.bind {α β : Type} {f : Nat → Dec α} {k : Nat → α × St → Res (β × St)} {st : St} (h : Ends f st)
    (hk : ∀ n a s, f n st = .ok (a, s) → Ends (fun m s => k m (a, s)) s) : Ends (fun n s => f n s >>= k n) st := by
  obtain ⟨N, r, hr, h⟩ := h
  cases r with
  | ok p =>
    obtain ⟨a, s⟩ := p
    obtain ⟨M, q, hq, h2⟩ := hk N a s (h N (Nat.le_refl _))
    refine ⟨max N M, q, hq, fun n hn => ?_⟩
    dsimp only
    rw [h n (by omega)]
    exact h2 n (by omega)
  | panic =>
    refine ⟨N, .panic, by simp, fun n hn => ?_⟩
    dsimp only
    rw [h n hn]
    rfl
  | diverge => exact absurd rfl hr

/-- The type is decoded, or refused, from here with enough budget. -/
def EndsAt (env : Env) (ctx : Ctx) (ty : Str) (st : St) : Prop := Ends (fun n => pau env n ctx ty) st

theorem endsAt_iff {env : Env} {ctx : Ctx} {ty : Str} {st : St} : EndsAt env ctx ty st ↔ ∃ n, pau env n ctx ty st ≠ .diverge := by
  constructor
  · rintro ⟨N, r, hr, h⟩
    exact ⟨N, fun e => hr ((h N (Nat.le_refl _)).symm.trans e)⟩
  · rintro ⟨n, h⟩
    refine ⟨n, _, h, fun m hm => ?_⟩
    rcases pau_mono env hm ctx ty st with h' | h'
    · exact absurd h' h
    · exact h'.symm

theorem nextBytes_ne (n : Int) (st : St) : nextBytes n st ≠ .diverge := by
  unfold nextBytes getNextBytes
  dsimp only
  split
  · split <;> simp
  · split <;> simp

theorem endsNext (n : Int) (st : St) : Ends (fun _ => nextBytes n) st := .of_ne (nextBytes_ne n st)

theorem Adv.rem {st st' : St} (h : Adv st st') : rem st' ≤ rem st := by
  obtain ⟨h1, h2, h3⟩ := h
  unfold ScaleGo.rem
  rw [h1]
  omega

theorem byte_step {st s1 : St} {b : Str} (hin : InB st) (h : nextBytes 1 st = .ok (b, s1)) :
    rem s1 < rem st ∨ rem st = 0 ∧ b = [] ∧ s1 = st := by
  obtain ⟨⟨d, o⟩, calls⟩ := st
  unfold InB at hin
  dsimp only at hin
  unfold nextBytes getNextBytes at h
  dsimp only at h
  obtain ⟨w1, w2, j, w3⟩ := wrap64_facts ((o : Int) + 1)
  rw [w3] at w1 w2 h
  split at h
  · cases h
    simp only [rem]
    by_cases ho : o = d.length
    · right
      subst ho
      simp
    · left
      omega
  · split at h
    · cases h
      simp only [rem]
      left
      omega
    · cases h

theorem compactBytes_ne (st : St) : processCompactBytes st ≠ .diverge := by
  unfold processCompactBytes
  refine bind_ne_diverge (nextBytes_ne _ _) fun p => ?_
  dsimp only
  split
  · simp
  all_goals exact bind_ne_diverge (nextBytes_ne _ _) fun _ => by simp

theorem compactBytes_step {st s1 : St} {l : Int} {b : Str} (hin : InB st) (h : processCompactBytes st = .ok ((l, b), s1)) :
    rem s1 < rem st ∨ rem st = 0 ∧ l = 1 ∧ b = [] ∧ s1 = st := by
  unfold processCompactBytes at h
  rw [Res.bind_eq_ok] at h
  obtain ⟨⟨x, s⟩, h1, h2⟩ := h
  have hs := nextBytes_post 1 hin _ _ h1
  rcases byte_step hin h1 with hlt | ⟨h0, rfl, rfl⟩
  · left
    refine Nat.lt_of_le_of_lt ?_ hlt
    dsimp only at h2
    split at h2
    · cases h2
      exact Nat.le_refl _
    all_goals
      rw [Res.bind_eq_ok] at h2
      obtain ⟨⟨y, s'⟩, h3, h4⟩ := h2
      cases h4
      exact (nextBytes_post _ hs.inB _ _ h3).rem
  · right
    dsimp only at h2
    rw [show ((([] : Str).headD 0).toNat % 4) = 0 from rfl] at h2
    cases h2
    exact ⟨h0, rfl, rfl, rfl⟩

theorem compactU32_ne (st : St) : processCompactU32 st ≠ .diverge := by
  unfold processCompactU32
  exact bind_ne_diverge (compactBytes_ne _) fun _ => by simp

theorem compactU32_step {st s1 : St} {v : Val} (hin : InB st) (h : processCompactU32 st = .ok (v, s1)) :
    rem s1 < rem st ∨ rem st = 0 ∧ v = .int 0 ∧ s1 = st := by
  unfold processCompactU32 at h
  rw [Res.bind_eq_ok] at h
  obtain ⟨⟨⟨l, b⟩, s⟩, h1, h2⟩ := h
  cases h2
  rcases compactBytes_step hin h1 with h | ⟨h0, rfl, rfl, rfl⟩
  · exact .inl h
  · exact .inr ⟨h0, congrArg Val.int (by decide), rfl⟩

theorem ends_resolves {env : Env} {ctx : Ctx} {ty : Str} {cls : Cls} {s : Str} {st : St} (h : Resolves env ctx.module ctx.spec ty cls s)
    (he : Ends (fun n => process env.ext (pau env n) ctx cls s) st) : EndsAt env ctx ty st := by
  obtain ⟨N, r, hr, h2⟩ := he
  refine ⟨N + 1, r, hr, fun n hn => ?_⟩
  obtain ⟨m, rfl⟩ : ∃ m, n = m + 1 := ⟨n - 1, by omega⟩
  dsimp only
  rw [pau_resolves m st h]
  exact h2 m (by omega)

theorem ends_len {env : Env} {ctx : Ctx} (hL : LenOK env ctx) (st : St) : EndsAt env ctx b!"Compact<u32>" st := by
  obtain ⟨s, hL⟩ := hL
  exact ends_resolves hL (.of_ne (f := processCompactU32) (compactU32_ne st))

theorem len_step {env : Env} {ctx : Ctx} (hL : LenOK env ctx) {n : Nat} {st s1 : St} {v : Val} (hin : InB st)
    (h : pau env n ctx b!"Compact<u32>" st = .ok (v, s1)) : rem s1 < rem st ∨ rem st = 0 ∧ v = .int 0 ∧ s1 = st := by
  obtain ⟨s, hL⟩ := hL
  cases n with
  | zero => cases h
  | succ n =>
    rw [pau_resolves n st hL] at h
    exact compactU32_step hin h

section
variable {env : Env} {R : Nat}

theorem endsAll_procN {ctx : Ctx} {u : Str} (hu : ∀ st, InB st → rem st ≤ R → EndsAt env ctx u st) : ∀ (k : Nat) (st : St), InB st → rem st ≤ R →
    Ends (fun n => procN (pau env n) ctx u k) st
  | 0, _, _, _ => .ok
  | k + 1, st, hin, hr => by
    refine Ends.bind (f := fun n => pau env n ctx u) (hu st hin hr) fun n v s h => ?_
    have ha := pau_post env n _ _ _ hin _ _ h
    refine Ends.bind (f := fun n => procN (pau env n) ctx u k) (endsAll_procN hu k s ha.inB (Nat.le_trans ha.rem hr)) fun m vs s' _ => ?_
    exact .ok

theorem endsAll_procFields {ctx : Ctx} : ∀ (fs : List (Str × Str)) (acc : List (Str × Val)) (st : St),
    (∀ u ∈ fs.map Prod.snd, ∀ st, InB st → rem st ≤ R → EndsAt env ctx u st) → InB st → rem st ≤ R →
    Ends (fun n => procFields (pau env n) ctx fs acc) st
  | [], _, _, _, _, _ => .ok
  | (a, u) :: fs, acc, st, hu, hin, hr => by
    refine Ends.bind (f := fun n => pau env n ctx u) (hu u (by simp) st hin hr) fun n v s h => ?_
    have ha := pau_post env n _ _ _ hin _ _ h
    exact endsAll_procFields fs _ s (fun u h => hu u (by simp only [List.map_cons, List.mem_cons]; exact .inr h)) ha.inB (Nat.le_trans ha.rem hr)

theorem endsAll_procRows {ctx : Ctx} : ∀ (rows : List (List Str)) (acc : List (Str × Val)) (st : St),
    (∀ u ∈ rowTypes rows, ∀ st, InB st → rem st ≤ R → EndsAt env ctx u st) → InB st → rem st ≤ R →
    Ends (fun n => procRows (pau env n) ctx rows acc) st
  | [], _, _, _, _, _ => .ok
  | (a :: u :: r) :: rows, acc, st, hu, hin, hr => by
    refine Ends.bind (f := fun n => pau env n ctx u) (hu u (by simp [rowTypes]) st hin hr) fun n v s h => ?_
    have ha := pau_post env n _ _ _ hin _ _ h
    exact endsAll_procRows rows _ s (fun u h => hu u (by simp [rowTypes, h])) ha.inB (Nat.le_trans ha.rem hr)
  | [] :: _, _, _, _, _, _ => .panic
  | [_] :: _, _, _, _, _, _ => .panic

theorem endsAll_procArgs {ctx : Ctx} : ∀ (fs : List (Str × Str)) (st : St),
    (∀ u ∈ fs.map Prod.snd, ∀ st, InB st → rem st ≤ R → EndsAt env ctx u st) → InB st → rem st ≤ R →
    Ends (fun n => procArgs (pau env n) ctx fs) st
  | [], _, _, _, _ => .ok
  | (a, u) :: fs, st, hu, hin, hr => by
    refine Ends.bind (f := fun n => pau env n ctx u) (hu u (by simp) st hin hr) fun n v s h => ?_
    have ha := pau_post env n _ _ _ hin _ _ h
    refine Ends.bind (f := fun n => procArgs (pau env n) ctx fs) (endsAll_procArgs fs s
      (fun u h => hu u (by simp only [List.map_cons, List.mem_cons]; exact .inr h)) ha.inB (Nat.le_trans ha.rem hr)) fun m vs s' _ => ?_
    exact .ok

theorem endsAll_procPairs {ctx : Ctx} {parts : List Str} (h1 : ∀ st, InB st → rem st ≤ R → EndsAt env ctx (parts.headD []) st)
    (h2 : ∀ a t r, parts = a :: t :: r → ∀ st, InB st → rem st ≤ R → EndsAt env ctx t st) : ∀ (k : Nat) (st : St), InB st → rem st ≤ R →
    Ends (fun n => procPairs env.ext (pau env n) ctx parts k) st
  | 0, _, _, _ => .ok
  | k + 1, st, hin, hr => by
    refine Ends.bind (f := fun n => pau env n ctx (parts.headD [])) (h1 st hin hr) fun n v s h => ?_
    have ha := pau_post env n _ _ _ hin _ _ h
    have hr' := Nat.le_trans ha.rem hr
    match parts, h1, h2 with
    | [], _, _ => exact .panic
    | [_], _, _ => exact .panic
    | a :: t :: r, h1, h2 =>
      refine Ends.bind (f := fun n => pau env n ctx t) (h2 a t r rfl s ha.inB hr') fun n' v' s' h' => ?_
      have hb := pau_post env n' _ _ _ ha.inB _ _ h'
      refine Ends.bind (f := fun n => procPairs env.ext (pau env n) ctx (a :: t :: r) k)
        (endsAll_procPairs h1 h2 k s' hb.inB (Nat.le_trans hb.rem hr')) fun m vs s' _ => ?_
      exact .ok

end

end ScaleGo
