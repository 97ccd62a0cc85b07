import Verif.Lemmas.ExtrinsicShift
import Verif.Props.C88

/-! # C89: an extrinsic with and without its length -/

namespace ScaleGo

open ScaleGo.Spec

namespace Spec

/-- The bytes start with a compact number that is the number of bytes behind it. -/
def LooksPrefixed (data : Str) : Prop := ∃ n k, compactAt data = some (n, k) ∧ data.length = k + n

/-- Decoded without its length, `body` gives the extrinsic `x` without the length, the same nested calls, and reading stops at the
same byte of `body`. -/
def SameBare (env : Env) (fuel : Nat) (md : MD) (opt : ExtOpt) (q body : Str) (x : Extrinsic) (st : St) : Prop :=
  ∃ st', decodeExtrinsic env fuel md opt body = .ok ({ x with length := 0 }, st') ∧ st'.calls = st.calls ∧
    st.cur.off = q.length + st'.cur.off

end Spec

/-- C89 in full: an extrinsic that is decoded behind its length is decoded to the same without it, unless its own first bytes are
taken for a length. -/
def C89Claim : Prop := ∀ (env : Env) (fuel : Nat) (md : MD) (opt : ExtOpt) (q body : Str) (x : Extrinsic) (st : St),
  LenOK env ⟨opt.module, opt.spec, some md⟩ → (q ++ body).length < 2 ^ 62 → compactAt (q ++ body) = some (body.length, q.length) →
  ¬ LooksPrefixed body → decodeExtrinsic env fuel md opt (q ++ body) = .ok (x, st) → SameBare env fuel md opt q body x st

theorem lenOK_strict {env : Env} {ctx : Ctx} (h : LenOK env ctx) : LenOK (strict env) ctx := by
  obtain ⟨s, hs⟩ := h
  refine ⟨s, ?_⟩
  unfold Resolves at hs ⊢
  unfold getCodecClass at hs ⊢
  rw [getCodecClassAux_strict, hs]
  rfl

theorem processExtrinsic_strict (env : Env) (rec : Rec) (md : MD) (opt : ExtOpt) (st : St) :
    processExtrinsic (strict env) rec md opt st = processExtrinsic env rec md opt st := by
  unfold processExtrinsic
  simp only [readSigned_strict]

theorem decodeExtrinsic_strict (env : Env) (fuel : Nat) (md : MD) (opt : ExtOpt) (data : Str) :
    Lo (decodeExtrinsic (strict env) fuel md opt data) (decodeExtrinsic env fuel md opt data) := by
  unfold decodeExtrinsic
  rw [processExtrinsic_strict]
  exact processExtrinsic_lo (pau_strict env fuel) _ _ _ _

/-- A buffer from which a version and a call were read starts with a complete compact number. -/
theorem compactAt_of_call {env : Env} {fuel : Nat} {ctx : Ctx} {md : MD} {opt : ExtOpt} {body b : Str} {sg : Option Signed}
    {c : Str × CallEntry × List (Str × Str × Val) × Str} {s2 s3 s4 : St} (hb : body.length < 2 ^ 62)
    (h1 : nextBytes 1 ⟨⟨body, 0⟩, []⟩ = .ok (b, s2))
    (h2 : readSigned env (pau env fuel) ctx md opt (bytesToHex b) s2 = .ok (sg, s3))
    (h3 : readCall (pau env fuel) ctx md s3 = .ok (c, s4)) : ∃ n k, compactAt body = some (n, k) ∧ n < 2 ^ 64 := by
  have adv2 := nextBytes_post 1 (st := ⟨⟨body, 0⟩, []⟩) (Nat.zero_le _) b s2 h1
  have hcall : s2.cur.off = s2.cur.data.length → False := by
    intro hoff
    have adv3 := readSigned_post (pau_post env fuel) _ _ _ _ _ adv2.inB sg s3 h2
    have hoff3 : s3.cur.off = s3.cur.data.length := by
      obtain ⟨a1, a2, a3⟩ := adv3
      rw [a1]; omega
    unfold readCall at h3
    rw [Res.bind_eq_ok] at h3
    obtain ⟨⟨ci, s5⟩, f1, f2⟩ := h3
    have hci := nextBytes_at_end (n := 2) hoff3 ci s5 f1
    subst hci
    dsimp only at f2
    rw [if_pos (by rfl)] at f2
    cases f2
  cases body with
  | nil =>
    refine (hcall ?_).elim
    obtain ⟨a1, a2, a3⟩ := adv2
    rw [a1]
    simpa using a3
  | cons v t =>
    have hn := nextBytes_at [] [v] t [] 1 rfl (by simp only [List.length_nil, List.length_cons] at hb ⊢; omega)
    simp only [List.nil_append, List.cons_append, List.length_nil, List.length_cons, Nat.zero_add] at hn
    rw [hn] at h1
    cases h1
    have ht : t ≠ [] := fun h => by subst h; exact hcall rfl
    have hv : v.toNat % 4 < 2 := by
      have hbad : ∀ w : Str, (w = b!"04" ∨ w = b!"05" ∨ w = b!"84" ∨ w = b!"85") → 2 ≤ v.toNat % 4 → bytesToHex [v] ≠ w := by
        have := forall_byte (P := fun y => 2 ≤ y.toNat % 4 →
          ∀ v ∈ [b!"04", b!"05", b!"84", b!"85"], bytesToHex [y] ≠ v) (by decide +kernel)
        intro w hw hx
        refine this v hx w ?_
        simpa using hw
      by_contra hc
      unfold readSigned at h2
      rw [if_neg (by
        rintro (hw | hw)
        · exact hbad _ (Or.inl rfl) (by omega) hw
        · exact hbad _ (Or.inr (Or.inl rfl)) (by omega) hw),
        if_neg (hbad _ (Or.inr (Or.inr (Or.inl rfl))) (by omega)), if_neg (hbad _ (Or.inr (Or.inr (Or.inr rfl))) (by omega))] at h2
      cases h2
    have hpos : 0 < t.length := List.length_pos_iff.2 ht
    have hlen : _root_.Spec.compactLen v ≤ 2 := by
      unfold _root_.Spec.compactLen
      split
      · decide
      · rw [if_pos (by omega)]
    simp only [compactAt]
    rw [if_neg (by omega), if_neg (by omega)]
    refine ⟨_, _, rfl, ?_⟩
    rw [leValue_eq]
    have h1 := leNat_lt (v :: t.take (_root_.Spec.compactLen v - 1))
    have h2 : 256 ^ (v :: t.take (_root_.Spec.compactLen v - 1)).length ≤ 256 ^ 2 := by
      refine Nat.pow_le_pow_right (by decide) ?_
      rw [List.length_cons, List.length_take]
      omega
    have h3 : (256 : Nat) ^ 2 < 2 ^ 64 := by decide
    omega

/-- C89 for extrinsics that are decoded even when floats and lookup sources refuse, the classes that read from the start of the
buffer instead of from the current position.  Missing are extrinsics with such values. -/
theorem C89_partial (env : Env) (fuel : Nat) (md : MD) (opt : ExtOpt) (q body : Str) (x : Extrinsic) (st : St)
    (hl : LenOK env ⟨opt.module, opt.spec, some md⟩) (hlen : (q ++ body).length < 2 ^ 62)
    (hq : compactAt (q ++ body) = some (body.length, q.length)) (hbare : ¬ LooksPrefixed body)
    (h : decodeExtrinsic (strict env) fuel md opt (q ++ body) = .ok (x, st)) :
    decodeExtrinsic env fuel md opt (q ++ body) = .ok (x, st) ∧ x.length = body.length ∧ SameBare env fuel md opt q body x st := by
  refine ⟨(decodeExtrinsic_strict env fuel md opt _).ok h, ?_⟩
  have hl' := lenOK_strict hl
  have hbl : body.length < 2 ^ 62 := by rw [List.length_append] at hlen; omega
  have hfuel : 1 ≤ fuel := by
    rcases Nat.eq_zero_or_pos fuel with h0 | h0
    · subst h0; cases h
    · exact h0
  obtain ⟨v, hv, hk, hr⟩ := readLength_at hl' hq (by omega)
  have hr := hr fuel hfuel
  rw [hv (by omega), wrap64_nat (by omega), if_neg (by rw [List.length_append]; push_cast; omega)] at hr
  unfold decodeExtrinsic processExtrinsic at h
  dsimp only at h
  rw [hr, Res.ok_bind, Res.bind_eq_ok] at h
  obtain ⟨⟨b, s2⟩, e1, h⟩ := h
  rw [Res.bind_eq_ok] at h
  obtain ⟨⟨sg, s3⟩, e2, h⟩ := h
  rw [Res.bind_eq_ok] at h
  obtain ⟨⟨⟨idx, e, ps, raw⟩, s4⟩, e3, h⟩ := h
  cases h
  dsimp only at e2 e3
  have sim := strict_sim env q fuel
  have h0 : Sh q ⟨⟨q ++ body, q.length⟩, []⟩ ⟨⟨body, 0⟩, []⟩ := ⟨rfl, rfl, rfl⟩
  have m1 := nextBytes_sim 1 h0
  rw [e1] at m1
  rcases m1 with m | ⟨m, _⟩ | ⟨_, _, t2, m, f1, h1⟩
  · cases m
  · cases m
  cases m
  have m2 := readSigned_sim sim (strict env) ⟨opt.module, opt.spec, some md⟩ md opt (bytesToHex b) h1
  rw [e2] at m2
  rcases m2 with m | ⟨m, _⟩ | ⟨_, _, t3, m, f2, h2⟩
  · cases m
  · cases m
  cases m
  have m3 := readCall_sim sim ⟨opt.module, opt.spec, some md⟩ md h2
  rw [e3] at m3
  rcases m3 with m | ⟨m, _⟩ | ⟨_, _, t4, m, f3, h3⟩
  · cases m
  · cases m
  cases m
  obtain ⟨n, k, hc, hn⟩ := compactAt_of_call hbl f1 f2 f3
  obtain ⟨w, hw, hkb, hrb⟩ := readLength_at hl' hc (by omega)
  have hrb := hrb fuel hfuel
  have hne : w ≠ (body.length : Int) - k := by
    rw [hw hn]
    intro hwe
    refine hbare ⟨n, k, hc, ?_⟩
    by_cases h63 : n < 2 ^ 63
    · rw [wrap64_nat h63] at hwe; omega
    · have hneg : wrap64 n < 0 := by
        unfold wrap64
        rw [Int.bmod_def]
        split <;> omega
      omega
  rw [if_pos hne] at hrb
  have hd : decodeExtrinsic (strict env) fuel md opt body =
      .ok (⟨0, bytesToHex b, sg, idx, e.moduleName, e.callName, ps, raw⟩, t4) := by
    unfold decodeExtrinsic processExtrinsic
    dsimp only
    rw [hrb, Res.ok_bind]
    dsimp only
    rw [f1, Res.ok_bind]
    dsimp only
    rw [f2, Res.ok_bind]
    dsimp only
    rw [f3, Res.ok_bind]
  exact ⟨rfl, t4, (decodeExtrinsic_strict env fuel md opt _).ok hd, h3.2.2.symm, h3.2.1⟩

theorem compactAt_of_isCompact {n : Nat} {q rest : Str} (h : _root_.Spec.IsCompact n q) :
    compactAt (q ++ rest) = some (n, q.length) := by
  obtain ⟨h1, h2⟩ := isCompact_value h
  cases q with
  | nil => exact absurd rfl (isCompact_ne_nil h)
  | cons x r =>
    rw [List.headD_cons, List.length_cons] at h1
    rw [List.cons_append]
    simp only [compactAt, leValue_eq]
    rw [if_neg (by rw [List.length_append]; omega), ← h1, Nat.add_sub_cancel, List.take_left]
    rw [List.length_cons, List.drop_succ_cons, List.drop_zero] at h2
    by_cases e : x.toNat % 4 = 3
    · rw [if_pos e]
      have : ¬ r.length + 1 ≤ 4 := by
        rw [h1]
        unfold _root_.Spec.compactLen
        rw [if_neg (by omega), if_neg (by omega), if_neg (by omega)]
        omega
      rw [if_neg this] at h2
      rw [h2, List.length_cons]
    · rw [if_neg e]
      have : r.length + 1 ≤ 4 := by
        rw [h1]
        unfold _root_.Spec.compactLen
        have := Nat.mod_lt x.toNat (by decide : 4 > 0)
        split
        · decide
        · split
          · decide
          · rw [if_pos (by omega)]
      rw [if_pos this] at h2
      rw [h2, List.length_cons]

/-- Both forms of such an extrinsic, when shorter than 2^30 bytes and with its SCALE length in front, have the same hash. -/
theorem C89_same_hash (blake : Str → Str) (env : Env) (fuel : Nat) (md : MD) (opt : ExtOpt) (q body : Str) (x : Extrinsic) (st : St)
    (hl : LenOK env ⟨opt.module, opt.spec, some md⟩) (hlen : body.length < 2 ^ 30) (hq : _root_.Spec.IsCompact body.length q)
    (hbare : ¬ LooksPrefixed body) (h : decodeExtrinsic (strict env) fuel md opt (q ++ body) = .ok (x, st)) : ∃ hash st',
      decodeWithHash blake env fuel md opt (q ++ body) = .ok (x, hash, st) ∧
      decodeWithHash blake env fuel md opt body = .ok ({ x with length := 0 }, hash, st') := by
  have hc := compactAt_of_isCompact (rest := body) hq
  obtain ⟨b, hb, hb'⟩ := compactShort_spec hlen
  obtain rfl := isCompact_unique hb' hq
  obtain ⟨h1, h2, st', h3, _⟩ := C89_partial env fuel md opt b body x st hl
    (by have := compactShort_length hb; rw [List.length_append]; omega) hc hbare h
  have hne : 0 < body.length := by
    cases body with
    | nil => exact absurd h3 (C42_truncated env md opt hl [] (by decide) rfl fuel _)
    | cons => simp
  refine ⟨generateHash blake x.version x.length (b ++ body), st', ?_, ?_⟩
  · unfold decodeWithHash
    rw [h1]; rfl
  · unfold decodeWithHash
    rw [h3, Res.ok_bind]
    dsimp only
    congr 3
    unfold generateHash
    rw [if_neg (show ¬ ((0 : Int) > 0) by decide), if_pos (show x.length > 0 by omega), lengthBytes, hb]
    rfl

/-- The call of the counterexample: its argument is a lookup source. -/
def lookupMD : MD where
  version := 14
  callIndex := fun k => if k = b!"0000" then some ⟨b!"c", b!"M", [(b!"x", b!"GenericLookupSource")]⟩ else none
  eventIndex := fun _ => none
  extrinsic := none

/-- The arguments of a decoded extrinsic. -/
def argsOf : Res (Extrinsic × St) → Option (List (Str × Str × Val))
  | .ok (x, _) => some x.params
  | _ => none

/-- The full claim is false: a lookup source is read from the start of the buffer, so the account index 5 of the extrinsic 04 00 00 05
is decoded as 16 behind the length (byte 16) and as 4 without it. -/
theorem C89_claim_false : ¬ C89Claim := by
  intro hc
  have e1 : argsOf (decodeExtrinsic (baseEnv dummyExt) 9 lookupMD rtOpt ([16] ++ [4, 0, 0, 5])) =
      some [(b!"x", b!"GenericLookupSource", .str b!"16")] := by kernel_rfl
  have e2 : argsOf (decodeExtrinsic (baseEnv dummyExt) 9 lookupMD rtOpt [4, 0, 0, 5]) =
      some [(b!"x", b!"GenericLookupSource", .str b!"4")] := by kernel_rfl
  cases h : decodeExtrinsic (baseEnv dummyExt) 9 lookupMD rtOpt ([16] ++ [4, 0, 0, 5]) with
  | panic => rw [h] at e1; cases e1
  | diverge => rw [h] at e1; cases e1
  | ok p =>
    obtain ⟨x, st⟩ := p
    obtain ⟨st', h', _⟩ := hc (baseEnv dummyExt) 9 lookupMD rtOpt [16] [4, 0, 0, 5] x st ⟨[], by unfold Resolves; kernel_rfl⟩ (by decide)
      (by decide) (by rintro ⟨n, k, h1, h2⟩; cases h1; cases h2) h
    rw [h] at e1
    rw [h'] at e2
    simp only [argsOf, Option.some.injEq] at e1 e2
    rw [e1] at e2
    cases e2

/-- An extrinsic that meets the hypotheses: it is decoded although floats and lookup sources refuse. -/
example : hashOf (decodeWithHash id (strict rtEnv) 9 (rtMD rtGood) rtOpt ([48] ++ hashBody)) =
      some (12, true, b!"3084aaaabbbb00000408000007") ∧ ¬ LooksPrefixed hashBody ∧
    LenOK rtEnv ⟨rtOpt.module, rtOpt.spec, some (rtMD rtGood)⟩ := by
  refine ⟨by kernel_rfl, ?_, (rt_lens _).1⟩
  rintro ⟨n, k, h1, h2⟩
  cases h1
  cases h2

end ScaleGo
