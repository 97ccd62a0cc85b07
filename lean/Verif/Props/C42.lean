import Verif.Lemmas.ExtrinsicInv
import Verif.Lemmas.Comp
import Verif.Lemmas.KernelRfl
import Verif.Model.Base

/-! # C42: the length prefix of an extrinsic -/

namespace ScaleGo

namespace Spec

/-- Little-endian value of a byte string. -/
def leValue (b : Str) : Nat := b.foldr (fun x acc => x.toNat + 256 * acc) 0

/-- The compact number at the start of a buffer, with the number of bytes it takes; none if the buffer ends inside it. -/
def compactAt : Str → Option (Nat × Nat)
  | [] => none
  | x :: r =>
    let k := _root_.Spec.compactLen x
    if r.length + 1 < k then none
    else if x.toNat % 4 = 3 then some (leValue (r.take (k - 1)), k)
    else some (leValue (x :: r.take (k - 1)) / 4, k)

end Spec

open ScaleGo.Spec

/-- C42 in full: the length is kept, and reading continues behind it, exactly when it equals the number of bytes that follow;
otherwise reading starts again at the first byte. -/
def C42Claim : Prop := ∀ (env : Env) (ctx : Ctx), LenOK env ctx → ∃ N, ∀ fuel, N ≤ fuel → ∀ data : Str, data.length < 2 ^ 63 →
  readLength (pau env fuel) ctx ⟨⟨data, 0⟩, []⟩ = match compactAt data with
    | some (n, k) => if data.length = k + n then .ok ((n : Int), ⟨⟨data, k⟩, []⟩) else .ok (0, ⟨⟨data, 0⟩, []⟩)
    | none => .ok (0, ⟨⟨data, 0⟩, []⟩)

theorem leValue_eq (b : Str) : leValue b = leNat b := by
  induction b with
  | nil => rfl
  | cons x b ih => simp only [leValue, List.foldr_cons, leNat] at ih ⊢; rw [ih]

theorem compactBytes_at (x : UInt8) (r : Str) (h : r.length + 1 = _root_.Spec.compactLen x) :
    DecAt processCompactBytes (x :: r) (((_root_.Spec.compactLen x : Nat) : Int), if x.toNat % 4 = 3 then r else x :: r) [] := by
  unfold processCompactBytes
  refine DecAt.byte ?_
  dsimp only [List.headD_cons]
  have hm := Nat.mod_lt x.toNat (by decide : 4 > 0)
  unfold _root_.Spec.compactLen at h ⊢
  split
  · rename_i e
    rw [if_pos e] at h ⊢
    rw [if_neg (by omega)]
    have : r = [] := List.length_eq_zero_iff.1 (by omega)
    subst this
    exact DecAt.pure _
  · rename_i e
    rw [if_neg (by omega), if_pos e] at h ⊢
    rw [if_neg (by omega)]
    exact DecAt.last (decAt_next r _ (by omega)) (fun _ => rfl)
  · rename_i e
    rw [if_neg (by omega), if_neg (by omega), if_pos e] at h ⊢
    rw [if_neg (by omega)]
    exact DecAt.last (decAt_next r _ (by omega)) (fun _ => rfl)
  · rename_i e0 e1 e2
    have e3 : x.toNat % 4 = 3 := by
      have h0 : ¬ x.toNat % 4 = 0 := e0
      have h1 : ¬ x.toNat % 4 = 1 := e1
      have h2 : ¬ x.toNat % 4 = 2 := e2
      clear h
      omega
    rw [if_neg (by omega), if_neg (by omega), if_neg (by omega)] at h ⊢
    rw [if_pos e3]
    have hl : (5 : Int) + ((x.toNat : Int) - 3) / 4 = ((5 + x.toNat / 4 : Nat) : Int) := by omega
    rw [hl]
    exact DecAt.last (decAt_next r _ (by omega)) (fun _ => rfl)

/-- What `CompactU32` makes of the bytes read. -/
def u32Value (x : UInt8) (r : Str) : Int :=
  if x.toNat % 4 = 3 then wrap64 (leNat (readInto 8 r)) else ((leNat (x :: r) / 4 : Nat) : Int)

theorem compactU32_at (x : UInt8) (r : Str) (h : r.length + 1 = _root_.Spec.compactLen x) :
    DecAt processCompactU32 (x :: r) (.int (u32Value x r)) [] := by
  unfold processCompactU32
  refine DecAt.last (compactBytes_at x r h) (fun st => ?_)
  dsimp only
  unfold u32Value
  by_cases e : x.toNat % 4 = 3
  · have hk : ¬ ((_root_.Spec.compactLen x : Nat) : Int) ≤ 4 := by
      unfold _root_.Spec.compactLen
      rw [if_neg (by omega), if_neg (by omega), if_neg (by omega)]
      omega
    rw [if_pos e, if_pos e, if_neg hk]
  · have hk : ((_root_.Spec.compactLen x : Nat) : Int) ≤ 4 := by
      unfold _root_.Spec.compactLen
      have hm := Nat.mod_lt x.toNat (by decide : 4 > 0)
      split
      · decide
      · split
        · decide
        · rw [if_pos (by omega)]; decide
    have hl : (x :: r).length ≤ 4 := by rw [List.length_cons, h]; exact_mod_cast hk
    rw [if_neg e, if_neg e, if_pos hk, readInto_short (by omega)]
    have hz : leNat ((x :: r) ++ List.replicate (8 - (x :: r).length) 0) = leNat (x :: r) := by
      generalize (8 - (x :: r).length) = m
      generalize (x :: r) = l
      induction l with
      | nil => induction m with
        | zero => rfl
        | succ m ih => simpa [List.replicate_succ, leNat] using ih
      | cons y l ih => simp only [List.cons_append, leNat, ih]
    rw [hz]
    have hlt := leNat_lt (x :: r)
    have : leNat (x :: r) < 2 ^ 63 := by
      refine Nat.lt_of_lt_of_le hlt ?_
      calc 256 ^ (x :: r).length ≤ 256 ^ 4 := Nat.pow_le_pow_right (by decide) hl
        _ ≤ 2 ^ 63 := by decide
    rw [wrap64_nat this]
    rfl

theorem compactAt_some {data : Str} {n k : Nat} (h : compactAt data = some (n, k)) : ∃ x r rest, data = (x :: r) ++ rest ∧
    r.length + 1 = _root_.Spec.compactLen x ∧ k = r.length + 1 ∧ n = (if x.toNat % 4 = 3 then leNat r else leNat (x :: r) / 4) := by
  cases data with
  | nil => cases h
  | cons x t =>
    simp only [compactAt, leValue_eq] at h
    split at h
    · cases h
    · rename_i hk
      have hpos : 1 ≤ _root_.Spec.compactLen x := by
        unfold _root_.Spec.compactLen
        repeat' split
        all_goals omega
      refine ⟨x, t.take (_root_.Spec.compactLen x - 1), t.drop (_root_.Spec.compactLen x - 1), ?_, ?_, ?_, ?_⟩
      · simp
      · rw [List.length_take]; omega
      · rw [List.length_take]
        split at h <;> (cases h; omega)
      · split at h
        · rename_i e; rw [if_pos e]; cases h; rfl
        · rename_i e; rw [if_neg e]; cases h; rfl

theorem u32Value_wrap {x : UInt8} {r : Str} {n : Nat} (e2 : r.length + 1 = _root_.Spec.compactLen x)
    (e4 : n = (if x.toNat % 4 = 3 then leNat r else leNat (x :: r) / 4)) (hn : n < 2 ^ 64) : u32Value x r = wrap64 n := by
  unfold u32Value
  split
  · rename_i e
    rw [if_pos e] at e4
    by_cases hr : r.length ≤ 8
    · rw [readInto_short hr]
      have hz : leNat (r ++ List.replicate (8 - r.length) 0) = leNat r := by
        generalize (8 - r.length) = m
        clear e2 e4 hn hr
        induction r with
        | nil => induction m with
          | zero => rfl
          | succ m ih => simpa [List.replicate_succ, leNat] using ih
        | cons y l ih => simp only [List.cons_append, leNat, ih]
      rw [hz, e4]
    · have ht : readInto 8 r = r.take 8 := by
        unfold readInto
        rw [show 8 - r.length = 0 by omega]
        simp
      have key : ∀ (m : Nat) (r : Str), leNat r = leNat (r.take m) + 256 ^ m * leNat (r.drop m) := by
        intro m
        induction m with
        | zero => intro r; simp [leNat]
        | succ m ih =>
          intro r
          cases r with
          | nil => simp [leNat]
          | cons y r =>
            rw [List.take_succ_cons, List.drop_succ_cons, leNat, leNat, ih r, Nat.pow_succ]
            ring
      have := key 8 r
      have hlt : leNat (r.take 8) < 256 ^ 8 := by
        have := leNat_lt (r.take 8)
        rw [List.length_take, Nat.min_eq_left (by omega)] at this
        exact this
      rw [ht]
      have h256 : (256 : Nat) ^ 8 = 2 ^ 64 := by decide
      rw [h256] at this hlt
      have hz : leNat (r.drop 8) = 0 := by
        rcases Nat.eq_zero_or_pos (leNat (r.drop 8)) with h0 | h0
        · exact h0
        · exfalso
          have : 2 ^ 64 * 1 ≤ 2 ^ 64 * leNat (r.drop 8) := Nat.mul_le_mul_left _ h0
          omega
      rw [hz] at this
      rw [e4, this]
      simp
  · rename_i e
    rw [if_neg e] at e4
    have : n < 2 ^ 63 := by
      have hlen : r.length + 1 ≤ 4 := by
        rw [e2]
        unfold _root_.Spec.compactLen
        have hm := Nat.mod_lt x.toNat (by decide : 4 > 0)
        split
        · decide
        · split
          · decide
          · rw [if_pos (by omega)]
      have hlt := leNat_lt (x :: r)
      have : 256 ^ (x :: r).length ≤ 256 ^ 4 := Nat.pow_le_pow_right (by decide) hlen
      have h4 : (256 : Nat) ^ 4 = 2 ^ 32 := by decide
      rw [e4]
      omega
    rw [wrap64_nat this, e4]

theorem readLength_at {env : Env} {ctx : Ctx} (hl : LenOK env ctx) {data : Str} {n k : Nat} (h : compactAt data = some (n, k))
    (hd : data.length < 2 ^ 63) : ∃ v : Int, (n < 2 ^ 64 → v = wrap64 n) ∧ k ≤ data.length ∧ ∀ fuel, 1 ≤ fuel →
      readLength (pau env fuel) ctx ⟨⟨data, 0⟩, []⟩ =
        if v ≠ (data.length : Int) - k then .ok (0, ⟨⟨data, 0⟩, []⟩) else .ok (v, ⟨⟨data, k⟩, []⟩) := by
  obtain ⟨x, r, rest, e1, e2, e3, e4⟩ := compactAt_some h
  obtain ⟨s, hs⟩ := hl
  refine ⟨u32Value x r, fun hn => u32Value_wrap e2 e4 hn, ?_, ?_⟩
  · rw [e1, e3]; simp
  · intro fuel hf
    obtain ⟨m, rfl⟩ : ∃ m, fuel = m + 1 := ⟨fuel - 1, by omega⟩
    have hlen : ([] : Str).length + (x :: r).length + rest.length < 2 ^ 63 := by
      rw [e1] at hd
      simp only [List.length_append, List.length_nil] at hd ⊢
      omega
    have := compactU32_at x r e2 [] rest [] hlen
    unfold readLength
    rw [pau_resolves m _ hs]
    simp only [List.nil_append, List.length_nil, Nat.zero_add, List.append_nil, ← e1] at this
    show (processCompactU32 ⟨⟨data, 0⟩, []⟩ >>= _) = _
    rw [this]
    simp only [Res.ok_bind, asInt, remaining, Cur.reset]
    rw [List.length_cons, ← e3]
    by_cases hc : u32Value x r ≠ (data.length : Int) - k
    · rw [if_pos hc]; exact if_pos hc
    · rw [if_neg hc]; exact if_neg hc

/-- C42 for buffers that start with a complete compact number below 2^64: it is taken as the length exactly when it equals the
number of bytes behind it. -/
theorem C42_partial (env : Env) (ctx : Ctx) (hl : LenOK env ctx) (data : Str) (hd : data.length < 2 ^ 63) (n k : Nat)
    (h : compactAt data = some (n, k)) (hn : n < 2 ^ 64) : ∃ N, ∀ fuel, N ≤ fuel →
    readLength (pau env fuel) ctx ⟨⟨data, 0⟩, []⟩ =
      if data.length = k + n then .ok ((n : Int), ⟨⟨data, k⟩, []⟩) else .ok (0, ⟨⟨data, 0⟩, []⟩) := by
  obtain ⟨v, hv, hk, e⟩ := readLength_at hl h hd
  refine ⟨1, fun fuel hf => ?_⟩
  rw [e fuel hf, hv hn]
  by_cases hn63 : n < 2 ^ 63
  · rw [wrap64_nat hn63]
    by_cases hc : data.length = k + n
    · rw [if_neg (by omega), if_pos hc]
    · rw [if_pos (by omega), if_neg hc]
  · obtain ⟨j, w1, w2, w3⟩ := wrap64_lt (n := n) (by omega) hn
    rw [if_pos (by omega), if_neg (by omega)]
where
  wrap64_lt {n : Nat} (h1 : 2 ^ 63 ≤ n) (h2 : n < 2 ^ 64) : ∃ j : Int, wrap64 n = j ∧ j < 0 ∧ -(2 ^ 63) ≤ j := by
    refine ⟨(n : Int) - 2 ^ 64, ?_, by omega, by omega⟩
    unfold wrap64
    rw [Int.bmod_def]
    split <;> omega

/-- A buffer that ends inside the compact number at its start is never decoded as an extrinsic. -/
theorem C42_truncated (env : Env) (md : MD) (opt : ExtOpt) (hl : LenOK env ⟨opt.module, opt.spec, some md⟩) (data : Str)
    (hd : data.length < 2 ^ 62) (h : compactAt data = none) (fuel : Nat) (x : Extrinsic × St) :
    decodeExtrinsic env fuel md opt data ≠ .ok x := by
  intro he
  unfold decodeExtrinsic processExtrinsic at he
  dsimp only at he
  rw [Res.bind_eq_ok] at he
  obtain ⟨⟨len, s1⟩, e1, e2⟩ := he
  rw [Res.bind_eq_ok] at e2
  obtain ⟨⟨b, s2⟩, e3, e4⟩ := e2
  rw [Res.bind_eq_ok] at e4
  obtain ⟨⟨sg, s3⟩, e5, e6⟩ := e4
  rw [Res.bind_eq_ok] at e6
  obtain ⟨⟨c, s4⟩, e7, e8⟩ := e6
  -- the length step leaves the cursor at the start or at the end
  have hs1 : s1.cur.data = data ∧ (s1.cur.off = 0 ∨ s1.cur.off = data.length) := by
    unfold readLength at e1
    rw [Res.bind_eq_ok] at e1
    obtain ⟨⟨v, t⟩, f1, f2⟩ := e1
    have ht : t.cur.data = data := (pau_post env fuel _ _ _ (Nat.zero_le _) _ _ f1).1
    rw [Res.bind_eq_ok] at f2
    obtain ⟨i, f3, f4⟩ := f2
    split at f4
    · cases f4; exact ⟨ht, Or.inl rfl⟩
    · rename_i hi
      cases f4
      refine ⟨ht, Or.inr ?_⟩
      -- a kept length of a truncated number means that nothing is left
      obtain ⟨s, hs⟩ := hl
      cases fuel with
      | zero => cases f1
      | succ m =>
        rw [pau_resolves m _ hs] at f1
        change processCompactU32 _ = _ at f1
        unfold processCompactU32 at f1
        rw [Res.bind_eq_ok] at f1
        obtain ⟨⟨p, t2⟩, g1, g2⟩ := f1
        have : t2 = s1 := by cases g2; rfl
        rw [← this]
        clear g2 f3 hi ht e3 e5 e7 e8
        cases data with
        | nil =>
          have hp := processCompactBytes_post (st := ⟨⟨[], 0⟩, []⟩) (Nat.zero_le _) p t2 g1
          have := hp.2.2
          simpa using this
        | cons x t =>
          simp only [compactAt] at h
          have hk : t.length + 1 < _root_.Spec.compactLen x := by
            by_contra hc
            rw [if_neg hc] at h
            split at h <;> cases h
          unfold processCompactBytes at g1
          have hb := nextBytes_at [] [x] t [] 1 rfl (by simp only [List.length_nil, List.length_cons] at hd ⊢; omega)
          simp only [List.nil_append, List.cons_append, List.length_nil, List.length_cons, Nat.zero_add] at hb
          rw [hb] at g1
          simp only [Res.ok_bind, List.headD_cons] at g1
          have hm := Nat.mod_lt x.toNat (by decide : 4 > 0)
          have hend : ∀ q : Nat, t.length ≤ q → q < 2 ^ 10 →
              nextBytes q ⟨⟨x :: t, 1⟩, []⟩ = .ok (t, ⟨⟨x :: t, (x :: t).length⟩, []⟩) := by
            intro q hq hq2
            have := nextBytes_end [x] t [] q hq (by simp only [List.length_cons, List.length_nil]; omega)
            simpa using this
          unfold _root_.Spec.compactLen at hk
          split at g1
          · rename_i e; rw [if_pos e] at hk; omega
          · rename_i e
            rw [if_neg (by omega), if_pos e] at hk
            have := hend 1 (by omega) (by omega)
            rw [show ((1 : Nat) : Int) = 1 from rfl] at this
            rw [this] at g1
            cases g1; rfl
          · rename_i e
            rw [if_neg (by omega), if_neg (by omega), if_pos e] at hk
            have := hend 3 (by omega) (by omega)
            rw [show ((3 : Nat) : Int) = 3 from rfl] at this
            rw [this] at g1
            cases g1; rfl
          · rename_i c0 c1 c2
            have e3 : x.toNat % 4 = 3 := by
              have h0 : ¬ x.toNat % 4 = 0 := c0
              have h1 : ¬ x.toNat % 4 = 1 := c1
              have h2 : ¬ x.toNat % 4 = 2 := c2
              clear hk h hend
              omega
            have hx := x.toNat_lt
            rw [if_neg (by omega), if_neg (by omega), if_neg (by omega)] at hk
            have hq : (5 : Int) + ((x.toNat : Int) - 3) / 4 - 1 = ((4 + x.toNat / 4 : Nat) : Int) := by omega
            rw [hq, hend (4 + x.toNat / 4) (by omega) (by omega)] at g1
            cases g1; rfl
  obtain ⟨hsd, hso⟩ := hs1
  have hin1 : InB s1 := by unfold InB; rw [hsd]; omega
  have adv2 := nextBytes_post 1 hin1 b s2 e3
  -- no call index is left
  have hcall : s2.cur.off = s2.cur.data.length → False := by
    intro hoff
    have adv3 := readSigned_post (pau_post env fuel) _ _ _ _ _ adv2.inB sg s3 e5
    have hoff3 : s3.cur.off = s3.cur.data.length := by
      obtain ⟨a1, a2, a3⟩ := adv3
      rw [a1]; omega
    unfold readCall at e7
    rw [Res.bind_eq_ok] at e7
    obtain ⟨⟨ci, s5⟩, f1, f2⟩ := e7
    have hci := nextBytes_at_end (n := 2) hoff3 ci s5 f1
    subst hci
    dsimp only at f2
    rw [if_pos (by rfl)] at f2
    cases f2
  rcases hso with h0 | h0
  · cases data with
    | nil =>
      refine hcall ?_
      obtain ⟨a1, a2, a3⟩ := adv2
      rw [a1, hsd]
      rw [hsd] at a3
      simpa using a3
    | cons x t =>
      obtain ⟨⟨d1, o1⟩, c1⟩ := s1
      dsimp only at hsd h0
      subst hsd; subst h0
      have hb := nextBytes_at [] [x] t c1 1 rfl (by simp only [List.length_nil, List.length_cons] at hd ⊢; omega)
      simp only [List.nil_append, List.cons_append, List.length_nil, List.length_cons, Nat.zero_add] at hb
      rw [hb] at e3
      cases e3
      by_cases ht : t = []
      · subst ht
        exact hcall rfl
      · -- the version byte cannot be one of the four supported ones
        simp only [compactAt] at h
        have hk : t.length + 1 < _root_.Spec.compactLen x := by
          by_contra hc
          rw [if_neg hc] at h
          split at h <;> cases h
        have htl : 0 < t.length := List.length_pos_iff.2 ht
        have hx : 2 ≤ x.toNat % 4 := by
          by_contra hc
          unfold _root_.Spec.compactLen at hk
          split at hk
          · omega
          · split at hk <;> omega
        have hbad : ∀ v : Str, (v = b!"04" ∨ v = b!"05" ∨ v = b!"84" ∨ v = b!"85") → bytesToHex [x] ≠ v := by
          have := forall_byte (P := fun y => 2 ≤ y.toNat % 4 →
            ∀ v ∈ [b!"04", b!"05", b!"84", b!"85"], bytesToHex [y] ≠ v) (by decide +kernel)
          intro v hv
          refine this x hx v ?_
          simpa using hv
        unfold readSigned at e5
        rw [if_neg (by
          rintro (hv | hv)
          · exact hbad _ (Or.inl rfl) hv
          · exact hbad _ (Or.inr (Or.inl rfl)) hv),
          if_neg (hbad _ (Or.inr (Or.inr (Or.inl rfl)))), if_neg (hbad _ (Or.inr (Or.inr (Or.inr rfl))))] at e5
        cases e5
  · refine hcall ?_
    obtain ⟨a1, a2, a3⟩ := adv2
    rw [a1, hsd]
    rw [hsd] at a3
    omega

/-- A number of 2^64 or more at the start: only its low 64 bits are compared with the number of bytes that follow. -/
theorem C42_claim_false : ¬ C42Claim := by
  intro h
  obtain ⟨N, h⟩ := h (baseEnv dummyExt) ⟨[], 0, none⟩ ⟨[], by unfold Resolves; kernel_rfl⟩
  have h1 := h (N + 1) (by omega) [23, 1, 0, 0, 0, 0, 0, 0, 0, 1, 4] (by decide)
  rw [show compactAt [23, 1, 0, 0, 0, 0, 0, 0, 0, 1, 4] = some (2 ^ 64 + 1, 10) by decide] at h1
  dsimp only at h1
  rw [if_neg (by decide)] at h1
  obtain ⟨v, _, _, e⟩ := readLength_at (env := baseEnv dummyExt) (ctx := ⟨[], 0, none⟩) ⟨[], by unfold Resolves; kernel_rfl⟩
    (data := [23, 1, 0, 0, 0, 0, 0, 0, 0, 1, 4]) (n := 2 ^ 64 + 1) (k := 10) (by decide) (by decide)
  have e1 := e 1 (by omega)
  have e2 := e (N + 1) (by omega)
  have hc : readLength (pau (baseEnv dummyExt) 1) ⟨[], 0, none⟩ ⟨⟨[23, 1, 0, 0, 0, 0, 0, 0, 0, 1, 4], 0⟩, []⟩ =
      .ok (1, ⟨⟨[23, 1, 0, 0, 0, 0, 0, 0, 0, 1, 4], 10⟩, []⟩) := by kernel_rfl
  rw [e1] at hc
  rw [h1] at e2
  rw [← e2] at hc
  cases hc

/-- Prefixed and bare buffers. -/
example : compactAt [12, 4, 0, 0] = some (3, 1) ∧ compactAt [4, 0, 0] = some (1, 1) ∧
    LenOK (baseEnv dummyExt) ⟨[], 0, none⟩ ∧ compactAt [2, 0] = none := by
  refine ⟨by decide, by decide, ⟨[], by unfold Resolves; kernel_rfl⟩, by decide⟩

end ScaleGo
