import Verif.Lemmas.Reports
import Verif.Lemmas.Bytes
import Verif.Lemmas.KernelRfl
import Verif.Lemmas.Comp
import Verif.Model.Base

/-! # C46: nested calls are all reported

The calls in a decoded value are read off the value itself (`Spec.callsIn`, inner calls first).  The list of reports is compared
with them. -/

namespace ScaleGo

namespace Spec

/-- The registry is well formed: no struct and no struct variant of an enum has two fields of the same name. -/
def DistinctNames (env : Env) : Prop :=
  (∀ t tm, env.reg t = some (.struct (some tm)) → (tm.map Prod.fst).Nodup) ∧
  (∀ t lo hi tm, (lo, hi, .struct (some tm)) ∈ env.special t → (tm.map Prod.fst).Nodup) ∧
  (∀ sub rows, variantRows env.ext sub = some rows → (rows.map (fun r => r.headD [])).Nodup)

/-- `raw` is the hex text of consecutive bytes of a buffer from which the call decoder, with this metadata and spec version,
reads exactly the call `c`. -/
def RawOf (env : Env) (md : Option MD) (spec : Int) (c : Val) (raw : Str) : Prop :=
  ∃ module n start stop, InB start ∧ processCall (pau env n) ⟨module, spec, md⟩ start = .ok (c, stop) ∧
    stop.cur.data = start.cur.data ∧ start.cur.off ≤ stop.cur.off ∧
    raw = bytesToHex ((start.cur.data.drop start.cur.off).take (stop.cur.off - start.cur.off))

end Spec

open ScaleGo.Spec

theorem buildFields_name (k : Nat) (l : List Str) : ∀ p ∈ buildFields k l, ∃ j, k < j ∧ p.1 = b!"col" ++ natToDec j := by
  induction l generalizing k with
  | nil => simp [buildFields]
  | cons v l ih =>
    intro p hp
    rw [buildFields] at hp
    have rest : p ∈ buildFields (k + 1) l → ∃ j, k < j ∧ p.1 = b!"col" ++ natToDec j := by
      intro h
      obtain ⟨j, h1, h2⟩ := ih _ p h
      exact ⟨j, by omega, h2⟩
    split at hp
    · exact rest hp
    · rcases List.mem_cons.1 hp with rfl | hp
      · exact ⟨k + 1, by omega, rfl⟩
      · exact rest hp

theorem buildFields_nodup (k : Nat) (l : List Str) : ((buildFields k l).map Prod.fst).Nodup := by
  induction l generalizing k with
  | nil => simp [buildFields]
  | cons v l ih =>
    rw [buildFields]
    split
    · exact ih _
    · rw [List.map_cons, List.nodup_cons]
      refine ⟨?_, ih _⟩
      intro hm
      obtain ⟨p, hp, he⟩ := List.mem_map.1 hm
      obtain ⟨j, h1, h2⟩ := buildFields_name _ _ p hp
      rw [h2] at he
      have := natToDec_injective (List.append_cancel_left he)
      omega

theorem fromEnv_nodup {env : Env} (hd : DistinctNames env) {c : Cls} (h : FromEnv env c) :
    ∀ tm, c = .struct (some tm) → (tm.map Prod.fst).Nodup := by
  intro tm e
  subst e
  rcases h with ⟨t, h⟩ | ⟨t, lo, hi, h⟩ | ⟨n, t, h⟩ | ⟨t, h⟩
  · exact hd.1 t tm h
  · exact hd.2.1 t lo hi tm h
  · cases h
  · cases h
    exact buildFields_nodup _ _

theorem pau_rep_none {env : Env} (hd : DistinctNames env) (n : Nat) (ctx : Ctx) (ty : Str) (st : St) (h1 : ctx.md = none)
    (h2 : ctx.spec = 0) (h : InB st) : Rep st (pau env n ctx ty st) (PP (fun _ _ => False)) := by
  induction n generalizing ctx ty st with
  | zero => exact Rep.diverge
  | succ n ih =>
    rw [pau]
    refine Rep.pure (fun c hc => ?_)
    split
    · exact Rep.panic
    · refine process_rep (md := none) (spec := 0) (fun ctx ty st h1 h2 h => ih ctx ty st h1 h2 h) ?_
        (fun ty st h => ih _ ty st rfl rfl h) env.ext hd.2.2 h1 h2 _ (fromEnv_nodup hd (getCodecClass_from hc)) _ h
      intro ctx st v st' hm _ _ he
      unfold processCall at he
      dsimp only at he
      rw [Res.bind_eq_ok] at he
      obtain ⟨⟨b, s⟩, e1, e2⟩ := he
      rw [hm] at e2
      cases e2

theorem rawOf_call {env : Env} {n : Nat} {ctx : Ctx} {st st' : St} {v : Val} (h : InB st)
    (he : processCall (pau env n) ctx st = .ok (v, st')) : RawOf env ctx.md ctx.spec v (rawBetween st st') := by
  have hp := process_post (pau_post env n) env.ext ctx .call [] h v st' he
  refine ⟨ctx.module, n, st, st', h, he, hp.1, hp.2.1, ?_⟩
  unfold rawBetween
  rw [hp.1]

theorem pau_rep {env : Env} (hd : DistinctNames env) (n : Nat) (ctx : Ctx) (ty : Str) (st : St) (h : InB st) :
    Rep st (pau env n ctx ty st) (PP (RawOf env ctx.md ctx.spec)) := by
  induction n generalizing ctx ty st with
  | zero => exact Rep.diverge
  | succ n ih =>
    rw [pau]
    refine Rep.pure (fun c hc => ?_)
    split
    · exact Rep.panic
    · refine process_rep (md := ctx.md) (spec := ctx.spec) ?_ ?_ (fun ty st h => pau_rep_none hd n _ ty st rfl rfl h) env.ext
        hd.2.2 rfl rfl _ (fromEnv_nodup hd (getCodecClass_from hc)) _ h
      · intro ctx' ty st h1 h2 h
        rw [← h1, ← h2]
        exact ih ctx' ty st h
      · intro ctx' st v st' h1 h2 h he
        rw [← h1, ← h2]
        exact rawOf_call h he

/-- Decoding any value only appends to the list of reports.  The appended texts contain, in order, the raw bytes of every call in
the decoded value, inner calls before the calls containing them; and every appended text is the raw bytes of a call. -/
theorem C46_reports {env : Env} (hd : DistinctNames env) (n : Nat) (ctx : Ctx) (ty : Str) (st st' : St) (v : Val) (hin : InB st)
    (h : pau env n ctx ty st = .ok (v, st')) : ∃ new, st'.calls = st.calls ++ new ∧
      Cov (RawOf env ctx.md ctx.spec) (callsIn v) new ∧ ∀ raw ∈ new, ∃ c, RawOf env ctx.md ctx.spec c raw := by
  obtain ⟨_, new, h1, h2, _, h3⟩ := pau_rep hd n ctx ty st hin v st' h
  exact ⟨new, h1, h2, h3⟩

/-- Decoding a call: its own bytes are reported last, after those of every call inside its arguments. -/
theorem C46_own_last {env : Env} (hd : DistinctNames env) (n : Nat) (ctx : Ctx) (st st' : St) (v : Val) (hin : InB st)
    (h : processCall (pau env n) ctx st = .ok (v, st')) : ∃ i name module ps new,
      v = .map [(b!"call_index", .str i), (b!"call_name", .str name), (b!"call_module", .str module), (b!"params", .params ps)] ∧
      callsIn v = callsInP ps ++ [v] ∧
      st'.calls = st.calls ++ new ++ [bytesToHex ((st.cur.data.drop st.cur.off).take (st'.cur.off - st.cur.off))] ∧
      Cov (RawOf env ctx.md ctx.spec) (callsInP ps) new ∧ ∀ raw ∈ new, ∃ c, RawOf env ctx.md ctx.spec c raw := by
  have h0 := h
  have hp := process_post (pau_post env n) env.ext ctx .call [] hin v st' h
  unfold processCall at h
  dsimp only at h
  rw [Res.bind_eq_ok] at h
  obtain ⟨⟨b, s1⟩, e1, e2⟩ := h
  obtain ⟨hadv, l, hl, hl0⟩ := nextBytes_rep 2 hin b s1 e1
  have hl0 : l = [] := hl0
  rw [hl0, List.append_nil] at hl
  dsimp only at e2
  split at e2
  · cases e2
  · rename_i m hm
    rw [Res.bind_eq_ok] at e2
    obtain ⟨⟨ps, s2⟩, e3, e4⟩ := e2
    obtain ⟨g1, new, g2, g3, g4⟩ := procArgs_rep (G := RawOf env ctx.md ctx.spec) (md := ctx.md)
      (spec := ctx.spec) (fun ctx' ty st h1 h2 h => by rw [← h1, ← h2]; exact pau_rep hd n ctx' ty st h)
      (ctx := { ctx with module := ((m.callIndex (bytesToHex b)).getD ⟨[], [], []⟩).moduleName }) rfl rfl _ hadv.inB ps s2 e3
    cases e4
    refine ⟨_, _, _, ps, new, rfl, ?_, ?_, g3, g4⟩
    · simp [callsIn, callsInM, callShape]
    · show s2.calls ++ _ = _
      rw [g2, hl, hp.1.symm]

/-- The reported text of a call starts with the index shown in the decoded call. -/
theorem C46_starts_with_index {env : Env} {md : Option MD} {spec : Int} {c : Val} {raw : Str} (h : RawOf env md spec c raw) :
    ∃ rest, c = .map ((b!"call_index", .str (raw.take 4)) :: rest) := by
  obtain ⟨module, n, st, st', hin, he, hd, ho, hr⟩ := h
  have hp := process_post (pau_post env n) env.ext ⟨module, spec, md⟩ .call [] hin c st' he
  have hraw : raw = rawBetween st st' := by rw [hr]; unfold rawBetween; rw [hp.1]
  unfold processCall at he
  dsimp only at he
  rw [Res.bind_eq_ok] at he
  obtain ⟨⟨b, s1⟩, e1, e2⟩ := he
  have hadv := nextBytes_post 2 hin b s1 e1
  dsimp only at e2
  split at e2
  · cases e2
  · rw [Res.bind_eq_ok] at e2
    obtain ⟨⟨ps, s2⟩, e3, e4⟩ := e2
    have ha := procArgs_post (pau_post env n) _ _ hadv.inB ps s2 e3
    cases e4
    have hi : raw.take 4 = bytesToHex b := by
      rw [hraw]
      exact raw_index hin e1 (st' := { s2 with calls := _ }) ha
    rw [hi]
    exact ⟨_, rfl⟩

/-- Metadata with a call `inner(u8)` and a call `outer(Vec<Call>)`. -/
def nestMD : MD where
  version := 14
  callIndex := fun k => if k = b!"0000" then some ⟨b!"inner", b!"A", [(b!"x", b!"u8")]⟩
    else if k = b!"0001" then some ⟨b!"outer", b!"A", [(b!"calls", b!"Vec<Call>")]⟩ else none
  eventIndex := fun _ => none
  extrinsic := none

theorem base_distinct : DistinctNames (baseEnv dummyExt) := by
  refine ⟨?_, ?_, ?_⟩
  · have key : ∀ p ∈ baseReg, match p.2 with
        | .struct (some tm) => (tm.map Prod.fst).Nodup
        | _ => True := by
      intro p hp
      have : (baseReg.all (fun p => match p.2 with
        | .struct (some tm) => decide (tm.map Prod.fst).Nodup
        | _ => true)) = true := by decide +kernel
      have := List.all_eq_true.1 this p hp
      revert this
      split
      · intro h; exact of_decide_eq_true h
      · intro _; trivial
    intro t tm h
    have hm : ∃ p ∈ baseReg, p.2 = .struct (some tm) := by
      revert h
      show tableGet baseReg t = _ → _
      generalize baseReg = l
      intro h
      induction l with
      | nil => simp [tableGet] at h
      | cons q l ih =>
        obtain ⟨k, c⟩ := q
        rw [tableGet] at h
        split at h
        · cases h; exact ⟨_, List.mem_cons_self, rfl⟩
        · obtain ⟨p, hp, he⟩ := ih h
          exact ⟨p, List.mem_cons_of_mem _ hp, he⟩
    obtain ⟨p, hp, he⟩ := hm
    have := key p hp
    rw [he] at this
    exact this
  · intro t lo hi tm h
    cases h
  · intro sub rows h
    unfold variantRows at h
    split at h
    · cases h
    · cases h

/-- `outer([inner(5), inner(6)])`: three reports, the outer call last. -/
example : DistinctNames (baseEnv dummyExt) ∧
    pau (baseEnv dummyExt) 9 ⟨[], 0, some nestMD⟩ b!"Call" ⟨⟨[0, 1, 8, 0, 0, 5, 0, 0, 6], 0⟩, []⟩ =
      .ok (.map [(b!"call_index", .str b!"0001"), (b!"call_name", .str b!"outer"), (b!"call_module", .str b!"A"),
        (b!"params", .params [(b!"calls", b!"Vec<Call>", .slice
          [.map [(b!"call_index", .str b!"0000"), (b!"call_name", .str b!"inner"), (b!"call_module", .str b!"A"),
            (b!"params", .params [(b!"x", b!"u8", .int 5)])],
           .map [(b!"call_index", .str b!"0000"), (b!"call_name", .str b!"inner"), (b!"call_module", .str b!"A"),
            (b!"params", .params [(b!"x", b!"u8", .int 6)])]])])],
        ⟨⟨[0, 1, 8, 0, 0, 5, 0, 0, 6], 9⟩, [b!"000005", b!"000006", b!"000108000005000006"]⟩) :=
  ⟨base_distinct, by kernel_rfl⟩

end ScaleGo
