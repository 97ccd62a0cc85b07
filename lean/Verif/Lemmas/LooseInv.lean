import Verif.Lemmas.Loose

/-! # Whatever is decoded was accepted by `Accepts`: types without parts -/

namespace ScaleGo
open _root_.Spec (Shape Payload Part Loose Accepts AnyCompact compactNumber compactInt leSum listValue fieldTypes fieldOutputs outputs allBytes partsOf Tidy Whole)

/-- A state from which the decoder may start: cursor inside the data, data of a sensible size. -/
def SaneAt (st : St) : Prop := InB st ∧ st.cur.data.length < 2 ^ 48

/-- There is data left. -/
def Left (st : St) : Prop := st.cur.off < st.cur.data.length

theorem SaneAt.adv {st st' : St} (h : SaneAt st) (ha : Adv st st') : SaneAt st' := ⟨ha.inB, by rw [ha.1]; exact h.2⟩

theorem SaneAt.size {st : St} (h : SaneAt st) : st.cur.data.length < 2 ^ 63 := Nat.lt_trans h.2 (by decide)

theorem read_inv {n : Int} {st st' : St} {b : Str} (h : SaneAt st) (hn : -(2 ^ 63) ≤ n ∧ n < 2 ^ 63) (he : nextBytes n st = .ok (b, st'))
    (hlt : Left st') : Took st b st' ∧ (b.length : Int) = n := nextBytes_took h.1 h.size hn he hlt

theorem byte_inv {st st' : St} {b : Str} (h : SaneAt st) (he : nextBytes 1 st = .ok (b, st')) (hlt : Left st') :
    ∃ x, b = [x] ∧ Took st [x] st' := byte_took h.1 h.size he hlt

theorem nextBytes_sane {n : Int} {st st' : St} {b : Str} (h : SaneAt st) (he : nextBytes n st = .ok (b, st')) : SaneAt st' :=
  h.adv (nextBytes_post n h.1 _ _ he)

theorem nextBytes_left {n : Int} {st st' : St} {b : Str} (h : SaneAt st) (he : nextBytes n st = .ok (b, st')) (hlt : Left st') : Left st :=
  (nextBytes_post n h.1 _ _ he).before hlt

theorem ok_inj {α : Type} {a b : α} {s t : St} (h : (Res.ok (a, s) : Res (α × St)) = .ok (b, t)) : a = b ∧ s = t := by
  simpa using h

theorem compactU32_inv {st st' : St} {v : Val} (h : SaneAt st) (he : processCompactU32 st = .ok (v, st')) (hlt : Left st') :
    ∃ c, Took st c st' ∧ AnyCompact c ∧ v = .int (compactInt c) := by
  unfold processCompactU32 at he
  rw [Res.bind_eq_ok] at he
  obtain ⟨⟨⟨len, cb⟩, s1⟩, h1, h2⟩ := he
  obtain ⟨rfl, rfl⟩ := ok_inj h2
  obtain ⟨x, r, ht, hlen, hc⟩ := compactBytes_took h.1 h.size h1 hlt
  refine ⟨x :: r, ht, ⟨x, r, rfl, hlen⟩, ?_⟩
  refine congrArg Val.int ?_
  unfold compactInt compactNumber
  dsimp only
  rw [readInto_value, leSum_eq, leSum_eq]
  rcases hc with ⟨hx, hl, hle, rfl⟩ | ⟨hx, hl, rfl⟩
  · rw [if_neg hx, if_pos hle]
    have hb := leNat_lt (x :: r)
    have hp : 256 ^ (x :: r).length ≤ 256 ^ 4 := Nat.pow_le_pow_right (by decide) (by simp; omega)
    rw [Nat.mod_eq_of_lt (by omega), Nat.mod_eq_of_lt (by omega), wrap64_nat (by omega)]
    unfold Spec.twos
    rw [if_pos (by omega), Int.tdiv_eq_ediv_of_nonneg (by omega)]
    omega
  · rw [if_pos hx, if_neg (by omega), show (256 : Nat) ^ 8 = 2 ^ 64 by decide, wrap64_twos]

/-- The length that is read before sequences. -/
theorem len_inv {env : Env} {ctx : Ctx} (hL : LenOK env ctx) {n : Nat} {st st' : St} {v : Val} (h : SaneAt st)
    (he : pau env n ctx b!"Compact<u32>" st = .ok (v, st')) (hlt : Left st') :
    ∃ c, Took st c st' ∧ AnyCompact c ∧ v = .int (compactInt c) := by
  obtain ⟨s, hs⟩ := hL
  cases n with
  | zero => cases he
  | succ n =>
    rw [pau_resolves n _ hs] at he
    exact compactU32_inv h he hlt

theorem compactInt_range (c : Str) : -(2 ^ 63) ≤ compactInt c ∧ compactInt c < 2 ^ 63 := by
  unfold compactInt Spec.twos
  have := Nat.mod_lt (compactNumber c) (show 2 ^ 64 > 0 by decide)
  split <;> omega

theorem hexText_one (x : UInt8) (y : UInt8) : bytesToHex [x] = bytesToHex [y] ↔ x = y := by
  constructor
  · intro h
    have := congrArg hexDecode h
    simpa [hexDecode_bytesToHex] using this
  · rintro rfl; rfl

/-- The value that the inner type of a compact makes of its bytes. -/
theorem compact_reads {env : Env} {sub isub cb : Str} {icls : Cls} {bound : Nat} {decimal : Bool} {n : Nat} {v : Val} {s1 : St} {r : Val}
    {len : Int} (hk : (icls, bound, decimal) ∈ compactKinds) (hr : Resolves env [] 0 sub icls isub) (hcb : cb.length < 2 ^ 60)
    (hv : pau env n Ctx.fresh sub ⟨⟨cb, 0⟩, []⟩ = .ok (v, s1)) (hd : compactDivide len v = .ok r)
    (hl : len ≤ 4 → cb.length ≤ 4) :
    r = (if decimal then .dec ((leNat cb % bound / if len ≤ 4 then 4 else 1 : Nat) : Int) 0
          else .uint 8 (leNat cb % bound / if len ≤ 4 then 4 else 1)) ∨
      decimal = true ∧ 4 < len ∧ leNat cb % bound = bound - 1 ∧ r = .dec (-1) 0 := by
  have hr' : Resolves env Ctx.fresh.module Ctx.fresh.spec sub icls isub := hr
  cases n with
  | zero => cases hv
  | succ n =>
    rw [pau_resolves n _ hr'] at hv
    simp only [compactKinds, List.mem_cons, Prod.mk.injEq, List.not_mem_nil, or_false] at hk
    rcases hk with ⟨rfl, rfl, rfl⟩ | ⟨rfl, rfl, rfl⟩ | ⟨rfl, rfl, rfl⟩ | ⟨rfl, rfl, rfl⟩
    · obtain ⟨s, hs⟩ := nextBytes_whole 4 cb (by decide) (by omega)
      change processUint 4 _ = _ at hv
      unfold processUint at hv
      rw [hs] at hv
      obtain ⟨rfl, rfl⟩ := ok_inj hv
      rw [readInto_take, readInto_value] at hd
      left
      exact (Res.ok.inj hd).symm
    · obtain ⟨s, hs⟩ := nextBytes_whole 8 cb (by decide) (by omega)
      change processUint 8 _ = _ at hv
      unfold processUint at hv
      rw [hs] at hv
      obtain ⟨rfl, rfl⟩ := ok_inj hv
      rw [readInto_take, readInto_value] at hd
      left
      exact (Res.ok.inj hd).symm
    · left
      change processU128 _ = _ at hv
      obtain ⟨t, ht, htv⟩ : ∃ t, Spec.IsNumeral t (leNat cb % 2 ^ 128) ∧ v = .str t := by
        by_cases h16 : cb.length ≤ 16
        · obtain ⟨w, ⟨t, ht, rfl⟩, N, hN⟩ := whole_unsigned (w := 16) (by decide) hr h16
          obtain ⟨s, hs⟩ := hN (N + 1) (by omega)
          rw [pau_resolves N _ hr'] at hs
          change processU128 _ = _ at hs
          rw [hv] at hs
          cases hs
          refine ⟨t, ?_, rfl⟩
          rw [Nat.mod_eq_of_lt]
          · exact ht
          · have := leNat_lt cb
            exact Nat.lt_of_lt_of_le this (by rw [show 2 ^ 128 = 256 ^ 16 by decide]; exact Nat.pow_le_pow_right (by decide) h16)
        · obtain ⟨t, ht, N, hN⟩ := C10_decode env Ctx.fresh sub isub (leNat cb % 2 ^ 128) (Nat.mod_lt _ (by decide)) hr
          have e : Spec.leBytes 16 (leNat cb % 2 ^ 128) = cb.take 16 := by
            rw [← lePut_eq_spec, show (2 : Nat) ^ 128 = 256 ^ 16 by decide, lePut_mod _ _ _ (Nat.dvd_refl _)]
            conv => rhs; rw [← lePut_leNat cb]
            rw [lePut_take _ _ _ (by omega)]
          have hs := hN (N + 1) (by omega) [] (cb.drop 16) [] (by rw [e]; simp; omega)
          rw [e] at hs
          simp only [List.nil_append, List.take_append_drop, List.length_nil] at hs
          rw [pau_resolves N _ hr'] at hs
          change processU128 _ = _ at hs
          rw [hv] at hs
          cases hs
          exact ⟨t, ht, rfl⟩
      subst htv
      simp only [compactDivide, decParse_numeral ht] at hd
      cases hd
      simp only [if_true]
      refine congrArg (fun z => Val.dec z 0) ?_
      split
      · rw [decDivFloor_four]
      · rw [decDivFloor_one, Nat.div_one]
    · obtain ⟨s, hs⟩ := nextBytes_whole 16 cb (by decide) (by omega)
      change processBalance _ = _ at hv
      unfold processBalance at hv
      rw [show (16 : Int) = ((16 : Nat) : Int) by rfl, hs] at hv
      simp only [Res.ok_bind] at hv
      rw [readInto_take, balance_reads _ (readInto_length _ _)] at hv
      cases hv
      rw [leSum_eq, readInto_value, show (256 : Nat) ^ 16 = 2 ^ 128 by decide] at hd
      by_cases hm : leNat cb % 2 ^ 128 = 2 ^ 128 - 1
      · right
        have h4 : 4 < len := by
          by_contra hc
          have h5 := leNat_lt cb
          have hp : 256 ^ cb.length ≤ 256 ^ 4 := Nat.pow_le_pow_right (by decide) (hl (by omega))
          rw [Nat.mod_eq_of_lt (by omega)] at hm
          omega
        rw [if_pos hm] at hd
        simp only [compactDivide, if_neg (show ¬ len ≤ 4 by omega)] at hd
        refine ⟨rfl, h4, hm, ?_⟩
        cases hd
        rfl
      · left
        rw [if_neg hm] at hd
        simp only [compactDivide] at hd
        cases hd
        simp only [if_true]
        refine congrArg (fun z => Val.dec z 0) ?_
        split
        · rw [decDivFloor_four]
        · rw [decDivFloor_one, Nat.div_one]

/-- Layers without parts. -/
def Flat {α : Type} : Shape α → Prop
  | .same _ | .seq _ | .option _ | .struct _ | .enum _ | .array _ _ | .result _ _ => False
  | _ => True

theorem read1_inv {n : Int} {st st' : St} {v : Val} {g : Str → Val} (h : SaneAt st) (hn : -(2 ^ 63) ≤ n ∧ n < 2 ^ 63)
    (he : (nextBytes n st >>= fun p => Res.ok (g p.1, p.2)) = .ok (v, st')) (hlt : Left st') :
    ∃ b, Took st b st' ∧ (b.length : Int) = n ∧ v = g b := by
  rw [Res.bind_eq_ok] at he
  obtain ⟨⟨b, s1⟩, h1, h2⟩ := he
  obtain ⟨rfl, rfl⟩ := ok_inj h2
  obtain ⟨t, hb⟩ := read_inv h hn h1 hlt
  exact ⟨b, t, hb, rfl⟩

/-- A length and that many bytes. -/
theorem lenBytes_inv {env : Env} {ctx : Ctx} (hL : LenOK env ctx) {n : Nat} {st st' : St} {v : Val} {f : Int → Int} {g : Str → Val}
    (h : SaneAt st) (hf : ∀ i : Int, -(2 ^ 63) ≤ i → i < 2 ^ 63 → -(2 ^ 63) ≤ f i ∧ f i < 2 ^ 63)
    (he : (pau env n ctx b!"Compact<u32>" st >>= fun p => asInt p.1 >>= fun i => nextBytes (f i) p.2 >>= fun q => Res.ok (g q.1, q.2)) =
      .ok (v, st')) (hlt : Left st') :
    ∃ c p, Took st (c ++ p) st' ∧ AnyCompact c ∧ (p.length : Int) = f (compactInt c) ∧ v = g p := by
  rw [Res.bind_eq_ok] at he
  obtain ⟨⟨l, s1⟩, h1, h2⟩ := he
  have a1 := pau_post env n ctx _ _ h.1 _ _ h1
  rw [Res.bind_eq_ok] at h2
  obtain ⟨i, h3, h4⟩ := h2
  have hl1 : Left s1 := by
    rw [Res.bind_eq_ok] at h4
    obtain ⟨⟨b, s2⟩, h5, h6⟩ := h4
    obtain ⟨_, rfl⟩ := ok_inj h6
    exact nextBytes_left (h.adv a1) h5 hlt
  obtain ⟨c, t, hc, rfl⟩ := len_inv hL h h1 hl1
  cases h3
  obtain ⟨r1, r2⟩ := compactInt_range c
  obtain ⟨p, t2, hp, rfl⟩ := read1_inv (h.adv a1) (hf _ r1 r2) h4 hlt
  exact ⟨c, p, t.trans t2, hc, hp, rfl⟩

theorem addHex_hexText (b : Str) : addHex (bytesToHex b) = b!"0x" ++ Spec.hexText b := by
  rw [addHex_bytesToHex, bytesToHex_eq_spec]

theorem roundF64_range (i : Int) (h1 : -(2 ^ 63) ≤ i) (h2 : i < 2 ^ 63) :
    -(2 ^ 63) ≤ -((-(roundF64 i)).fdiv 8) ∧ -((-(roundF64 i)).fdiv 8) < 2 ^ 63 ∧
    (-((-(roundF64 i)).fdiv 8) < 2 ^ 48 → 0 ≤ -((-(roundF64 i)).fdiv 8) → roundF64 i = i) := by
  by_cases hs : i.natAbs < 2 ^ 53
  · have e : roundF64 i = i := by unfold roundF64; rw [if_pos hs]
    rw [e, Int.fdiv_eq_ediv_of_nonneg _ (by decide)]
    exact ⟨by omega, by omega, fun _ _ => rfl⟩
  · have hr : 2 ^ 53 ≤ (roundF64 i).natAbs ∧ (roundF64 i).natAbs ≤ 2 ^ 64 := by
      unfold roundF64
      rw [if_neg hs]
      dsimp only
      have hn : i.natAbs ≠ 0 := by omega
      have hlog1 := Nat.log2_self_le hn
      have hlog2 := Nat.lt_log2_self (n := i.natAbs)
      have hlo : 53 ≤ i.natAbs.log2 := by
        rw [Nat.le_log2 hn]; omega
      have hhi : i.natAbs.log2 ≤ 63 := by
        have : i.natAbs.log2 < 64 := by rw [Nat.log2_lt hn]; omega
        omega
      obtain ⟨sh, hsh⟩ : ∃ sh, i.natAbs.log2 = sh + 52 := ⟨i.natAbs.log2 - 52, by omega⟩
      rw [hsh] at hlog1 hlog2 hhi hlo ⊢
      rw [Nat.add_sub_cancel]
      have hpos : 0 < 2 ^ sh := Nat.two_pow_pos _
      have q1 : 2 ^ 52 ≤ i.natAbs / 2 ^ sh := by
        rw [Nat.le_div_iff_mul_le hpos, ← Nat.pow_add, Nat.add_comm]; exact hlog1
      have q2 : i.natAbs / 2 ^ sh < 2 ^ 53 := by
        rw [Nat.div_lt_iff_lt_mul hpos, ← Nat.pow_add, show 53 + sh = sh + 52 + 1 by omega]; exact hlog2
      have fin : ∀ q' : Nat, 2 ^ 52 ≤ q' → q' ≤ 2 ^ 53 → 2 ^ 53 ≤ q' * 2 ^ sh ∧ q' * 2 ^ sh ≤ 2 ^ 64 := by
        intro q' a b
        constructor
        · calc 2 ^ 53 = 2 ^ 52 * 2 ^ 1 := by decide
            _ ≤ q' * 2 ^ sh := Nat.mul_le_mul a (Nat.pow_le_pow_right (by decide) (by omega))
        · calc q' * 2 ^ sh ≤ 2 ^ 53 * 2 ^ 11 := Nat.mul_le_mul b (Nat.pow_le_pow_right (by decide) (by omega))
            _ = 2 ^ 64 := by decide
      generalize hq' : (if 2 * (i.natAbs % 2 ^ sh) < 2 ^ sh then i.natAbs / 2 ^ sh
        else if 2 * (i.natAbs % 2 ^ sh) > 2 ^ sh then i.natAbs / 2 ^ sh + 1
        else i.natAbs / 2 ^ sh + i.natAbs / 2 ^ sh % 2) = q'
      have hb : 2 ^ 52 ≤ q' ∧ q' ≤ 2 ^ 53 := by
        rw [← hq']
        split
        · omega
        · split <;> omega
      have := fin q' hb.1 hb.2
      generalize q' * 2 ^ sh = z at this
      split <;> omega
    have key : -((-(roundF64 i)).fdiv 8) ≤ 2 ^ 62 ∧ -(2 ^ 62) ≤ -((-(roundF64 i)).fdiv 8) := by
      rw [Int.fdiv_eq_ediv_of_nonneg _ (by decide)]; omega
    refine ⟨by omega, by omega, fun a b => ?_⟩
    rw [Int.fdiv_eq_ediv_of_nonneg _ (by decide)] at a b
    omega

theorem leaf_inv {env : Env} {ctx : Ctx} {ectx : ECtx} (hL : LenOK env ctx) {ty : Str} {sh : Shape Str} {n : Nat} {st st' : St} {v : Val}
    (hsh : HasShape env ctx ectx ty sh) (hfl : Flat sh) (hT : Tidy sh) (h : SaneAt st) (he : pau env n ctx ty st = .ok (v, st')) (hlt : Left st') :
    ∃ b, Took st b st' ∧ Loose sh v b := by
  cases n with
  | zero => cases he
  | succ n =>
  rcases hsh with ⟨cls, s, s', hD, hE, hc⟩ | ⟨rfl, ⟨s, hD⟩, hE⟩
  swap
  · rw [pau_resolves n _ hD] at he
    change Res.ok _ = _ at he
    obtain ⟨rfl, rfl⟩ := ok_inj he
    exact ⟨[], Took.refl _, rfl, rfl⟩
  rw [pau_resolves n _ hD] at he
  cases sh with
  | uint w =>
    obtain ⟨hw, rfl⟩ := hc
    simp only [List.mem_cons, List.not_mem_nil, or_false] at hw
    rcases hw with rfl | hw
    · change processU8 st = _ at he
      unfold processU8 getNextU8 at he
      simp only [Res.bind_eq_ok] at he
      obtain ⟨⟨k, s1⟩, ⟨⟨b, s2⟩, h1, h2⟩, h3⟩ := he
      obtain ⟨rfl, rfl⟩ := ok_inj h2
      obtain ⟨rfl, rfl⟩ := ok_inj h3
      obtain ⟨x, rfl, t⟩ := byte_inv h h1 hlt
      exact ⟨[x], t, rfl, by simp [uintValue, leSum]⟩
    · have e : process env.ext (pau env n) ctx (uintClass w) s st = processUint w st := by rcases hw with rfl | rfl | rfl <;> rfl
      rw [e] at he
      obtain ⟨b, t, hb, rfl⟩ := read1_inv (n := w) (g := fun b => .uint w (leNat (readInto w b))) h (by omega) he hlt
      have hbl : b.length = w := by omega
      refine ⟨b, t, hbl, ?_⟩
      rw [readInto_self hbl, leSum_eq]
      rcases hw with rfl | rfl | rfl <;> rfl
  | u128 =>
    obtain rfl := hc
    change processU128 st = _ at he
    unfold processU128 at he
    rw [Res.bind_eq_ok] at he
    obtain ⟨⟨b, s1⟩, h1, h2⟩ := he
    dsimp only at h2
    have hs1 : s1 = st' := by
      simp only [Res.bind_eq_ok] at h2
      obtain ⟨_, _, _, _, h3⟩ := h2
      exact (ok_inj h3).2
    subst hs1
    obtain ⟨t, hb⟩ := read_inv h (by decide) h1 hlt
    have hb16 : b.length = 16 := by omega
    refine ⟨b, t, hb16, ?_⟩
    obtain ⟨u, hu, hval⟩ := U128.fromBytes_spec b hb16
    rw [if_neg (by omega), hu] at h2
    simp only [Res.ok_bind, Res.bind_eq_ok] at h2
    obtain ⟨z, hz, h3⟩ := h2
    obtain ⟨rfl, _⟩ := ok_inj h3
    rw [U128.toString_eq, hval, ← leSum_eq] at hz
    cases hz
    exact ⟨_, natToDec_isNumeral _, rfl⟩
  | u256 =>
    obtain rfl := hc
    change processU256 st = _ at he
    unfold processU256 at he
    rw [Res.bind_eq_ok] at he
    obtain ⟨⟨b, s1⟩, h1, h2⟩ := he
    dsimp only at h2
    split at h2
    swap
    · cases h2
    rename_i m hm
    obtain ⟨rfl, rfl⟩ := ok_inj h2
    obtain ⟨t, hb⟩ := read_inv h (by decide) h1 hlt
    have hb32 : b.length = 32 := by omega
    refine ⟨b, t, hb32, ?_⟩
    have := intFixed_value 32 (leSum b) (by decide) (by decide) (by have := leSum_lt b; rwa [hb32] at this)
    rw [show Spec.leBytes 32 (leSum b) = b by rw [← hb32]; exact leBytes_leSum b, hm] at this
    cases this
    rfl
  | int w =>
    obtain ⟨hw, rfl⟩ := hc
    have hw' : w = 1 ∨ (w ≠ 1 ∧ 2 ≤ w ∧ w ≤ 32 ∧ w % 2 = 0) := by
      simp only [List.mem_cons, List.not_mem_nil, or_false] at hw
      omega
    change processIntFixed w st = _ at he
    unfold processIntFixed at he
    rw [Res.bind_eq_ok] at he
    obtain ⟨⟨b, s1⟩, h1, h2⟩ := he
    dsimp only at h2
    split at h2
    · cases h2
    rename_i m hm
    have hs1 : s1 = st' := by
      split at h2
      · exact (ok_inj h2).2
      · exact (ok_inj h2).2
    subst hs1
    obtain ⟨t, hb⟩ := read_inv h (by omega) h1 hlt
    have hbw : b.length = w := by omega
    refine ⟨b, t, hbw, ?_⟩
    rcases hw' with rfl | ⟨hw1, hw2, hw3, hw4⟩
    · match b, hbw with
      | [x], _ =>
        have : m = 0 := by
          have e : u256OfBytes (reverseBytes [x]) = some 0 := rfl
          rw [e] at hm
          cases hm
          rfl
        subst this
        rw [if_neg (by decide)] at h2
        exact (ok_inj h2).1.symm
    · have := intFixed_value w (leSum b) hw2 hw4 (by have := leSum_lt b; rwa [hbw] at this)
      rw [show Spec.leBytes w (leSum b) = b by rw [← hbw]; exact leBytes_leSum b, hm] at this
      cases this
      have e1 : ((w : Int) * 8 - 1).toNat = 8 * w - 1 := by omega
      have e2 : ((w : Int) * 8).toNat = 8 * w := by omega
      rw [e1, e2] at h2
      rw [if_neg hw1]
      have c : ((leSum b : Int) > 2 ^ (8 * w - 1)) ↔ ¬ leSum b ≤ 2 ^ (8 * w - 1) := by
        rw [Nat.not_le]
        constructor
        · intro h; exact_mod_cast h
        · intro h; exact_mod_cast h
      by_cases hle : leSum b ≤ 2 ^ (8 * w - 1)
      · rw [if_neg (by rw [c]; exact fun q => q hle)] at h2
        rw [if_pos hle]
        exact (ok_inj h2).1.symm
      · rw [if_pos (c.mpr hle)] at h2
        rw [if_neg hle]
        exact (ok_inj h2).1.symm
  | bool =>
    obtain rfl := hc
    change processBool st = _ at he
    unfold processBool at he
    rw [Res.bind_eq_ok] at he
    obtain ⟨⟨b, s1⟩, h1, h2⟩ := he
    obtain ⟨rfl, rfl⟩ := ok_inj h2
    obtain ⟨x, rfl, t⟩ := byte_inv h h1 hlt
    refine ⟨[x], t, x, rfl, ?_⟩
    have e : (bytesToHex [x] = b!"01") = (x = 1) := propext (hexText_one x 1)
    simp only [e]
  | null => exact hc.elim
  | unit =>
    obtain rfl := hc
    change Res.ok _ = _ at he
    obtain ⟨rfl, rfl⟩ := ok_inj he
    exact ⟨[], Took.refl _, rfl, rfl⟩
  | compact32 =>
    obtain rfl := hc
    obtain ⟨c, t, hc, rfl⟩ := compactU32_inv h he hlt
    exact ⟨c, t, hc, rfl⟩
  | compact bound decimal =>
    obtain ⟨t, icls, isub, rfl, hs, hk, hr⟩ := hc
    change processCompact (pau env n) (effSub t s) st = _ at he
    unfold processCompact at he
    rw [Res.bind_eq_ok] at he
    obtain ⟨⟨⟨len, cb⟩, s1⟩, h1, h2⟩ := he
    dsimp only at h2
    rw [if_neg hs] at h2
    simp only [Res.bind_eq_ok] at h2
    obtain ⟨⟨iv, s2⟩, h3, r, h4, h5⟩ := h2
    obtain ⟨rfl, rfl⟩ := ok_inj h5
    obtain ⟨x, l, ht, hlen, hcase⟩ := compactBytes_took h.1 h.size h1 hlt
    have hcl : Spec.compactLen x ≤ 68 := by
      have := x.toNat_lt
      unfold Spec.compactLen
      split
      · omega
      · split
        · omega
        · split <;> omega
    refine ⟨x :: l, ht, ⟨x, l, rfl, hlen⟩, ?_⟩
    have hbound : 2 ^ 32 ≤ bound := by
      simp only [compactKinds, List.mem_cons, Prod.mk.injEq, List.not_mem_nil, or_false] at hk
      rcases hk with ⟨rfl, rfl, rfl⟩ | ⟨rfl, rfl, rfl⟩ | ⟨rfl, rfl, rfl⟩ | ⟨rfl, rfl, rfl⟩ <;> decide
    rcases hcase with ⟨hx, hl, hle, rfl⟩ | ⟨hx, hl, rfl⟩
    · have := compact_reads hk hr (by simp; omega) h3 h4 (fun _ => by simp; omega)
      have hb := leNat_lt (x :: l)
      have hp : 256 ^ (x :: l).length ≤ 256 ^ 4 := Nat.pow_le_pow_right (by decide) (by simp; omega)
      rw [if_pos hle, Nat.mod_eq_of_lt (by omega)] at this
      rcases this with this | ⟨_, h4', _⟩
      · left
        have e : compactNumber (x :: l) % bound = leNat (x :: l) / 4 := by
          rw [compactNumber, if_neg hx, leSum_eq, Nat.mod_eq_of_lt (by omega)]
        rw [this, e]
      · omega
    · have := compact_reads hk hr (by omega) h3 h4 (fun q => by omega)
      rw [if_neg (show ¬ len ≤ 4 by omega), Nat.div_one] at this
      have e : compactNumber (x :: cb) = leNat cb := by rw [compactNumber, if_pos hx, leSum_eq]
      rw [e]
      rcases this with this | ⟨a, _, b, c⟩
      · exact .inl this
      · exact .inr ⟨a, b, c⟩
  | bytes kind =>
    obtain ⟨hk, rfl⟩ := hc
    simp only [List.mem_cons, List.not_mem_nil, or_false] at hk
    rcases hk with rfl | rfl | rfl
    · obtain ⟨c, p, t, hc, hp, rfl⟩ := lenBytes_inv (f := id) (g := fun p => .str (asciiOrHex p)) hL h (fun _ a b => ⟨a, b⟩) he hlt
      exact ⟨c ++ p, t, c, p, hc, hp, by rw [asciiOrHex_shown], rfl⟩
    · obtain ⟨c, p, t, hc, hp, rfl⟩ := lenBytes_inv (f := id) (g := fun p => .str (addHex (bytesToHex p))) hL h (fun _ a b => ⟨a, b⟩) he hlt
      exact ⟨c ++ p, t, c, p, hc, hp, by rw [addHex_hexText]; simp [shown], rfl⟩
    · obtain ⟨c, p, t, hc, hp, rfl⟩ := lenBytes_inv (f := id) (g := fun p => .str (asciiOrHex p)) hL h (fun _ a b => ⟨a, b⟩) he hlt
      exact ⟨c ++ p, t, c, p, hc, hp, by rw [asciiOrHex_shown]; simp [shown], rfl⟩
  | hash k =>
    obtain rfl := hc
    have hT' : k < 2 ^ 63 := hT
    obtain ⟨b, t, hb, rfl⟩ := read1_inv (g := fun p => .str (addHex (bytesToHex p))) h (by omega) he hlt
    exact ⟨b, t, by omega, by rw [addHex_hexText]⟩
  | account =>
    obtain rfl := hc
    obtain ⟨b, t, hb, rfl⟩ := read1_inv (g := fun p => .str (addHex (rightJustify0 (bytesToHex p) 64))) h (by decide) he hlt
    have hb32 : b.length = 32 := by omega
    have e : rightJustify0 (bytesToHex b) 64 = bytesToHex b := by simp [rightJustify0, hb32]
    exact ⟨b, t, hb32, by rw [e, addHex_hexText]⟩
  | balance =>
    obtain rfl := hc
    change processBalance st = _ at he
    unfold processBalance at he
    rw [Res.bind_eq_ok] at he
    obtain ⟨⟨b, s1⟩, h1, h2⟩ := he
    dsimp only at h2
    rw [balance_reads _ (readInto_length _ _)] at h2
    obtain ⟨rfl, rfl⟩ := ok_inj h2
    obtain ⟨t, hb⟩ := read_inv h (by decide) h1 hlt
    have hb16 : b.length = 16 := by omega
    exact ⟨b, t, hb16, by rw [readInto_self hb16]⟩
  | era =>
    obtain rfl := hc
    change processEra st = _ at he
    unfold processEra at he
    rw [Res.bind_eq_ok] at he
    obtain ⟨⟨b, s1⟩, h1, h2⟩ := he
    dsimp only at h2
    split at h2
    · rename_i h0
      obtain ⟨rfl, rfl⟩ := ok_inj h2
      obtain ⟨x, rfl, t⟩ := byte_inv h h1 hlt
      obtain rfl : x = 0 := (hexText_one x 0).mp h0
      exact ⟨[0], t, .inl rfl, by rw [bytesToHex_eq_spec]⟩
    · rename_i h0
      rw [Res.bind_eq_ok] at h2
      obtain ⟨⟨c, s2⟩, h3, h4⟩ := h2
      obtain ⟨rfl, rfl⟩ := ok_inj h4
      have hs1 := nextBytes_sane h h1
      obtain ⟨x, rfl, t⟩ := byte_inv h h1 (nextBytes_left hs1 h3 hlt)
      obtain ⟨y, rfl, t2⟩ := byte_inv hs1 h3 hlt
      refine ⟨[x, y], t.trans t2, .inr ⟨x, y, fun e => h0 (by rw [e]; rfl), rfl⟩, ?_⟩
      dsimp only
      rw [← bytesToHex_append, bytesToHex_eq_spec]
      rfl
  | byteArray k =>
    have hT' : k < 2 ^ 63 := hT
    rcases hc with rfl | ⟨h0, el, rfl, hel⟩
    · obtain ⟨b, t, hb, rfl⟩ := read1_inv (g := fun p => .str (asciiOrHex p)) h (by omega) he hlt
      exact ⟨b, t, by omega, by rw [asciiOrHex_shown]⟩
    · change processFixedArray (pau env n) ctx k el st = _ at he
      unfold processFixedArray at he
      rw [if_pos (by omega), if_pos ((equalFold_u8 el).mpr hel)] at he
      obtain ⟨b, t, hb, rfl⟩ := read1_inv (g := fun p => .str (asciiOrHex p)) h (by omega) he hlt
      exact ⟨b, t, by omega, by rw [asciiOrHex_shown]⟩
  | bitVec =>
    obtain rfl := hc
    obtain ⟨c, p, t, hc, hp, rfl⟩ := lenBytes_inv (f := fun i => -((-(roundF64 i)).fdiv 8))
      (g := fun p => .str (b!"0b" ++ joinSep b!"_" (p.map bits8))) hL h
      (fun i a b => ⟨(roundF64_range i a b).1, (roundF64_range i a b).2.1⟩) he hlt
    obtain ⟨r1, r2⟩ := compactInt_range c
    have hpl : (c ++ p).length ≤ st.cur.data.length := by
      obtain ⟨_, _, suf, hs⟩ := t
      have := congrArg List.length hs
      rw [List.length_drop, List.length_append] at this
      omega
    have hsz := h.2
    rw [List.length_append] at hpl
    have e := (roundF64_range _ r1 r2).2.2 (by rw [← hp]; omega) (by rw [← hp]; omega)
    rw [e, Int.fdiv_eq_ediv_of_nonneg _ (by decide)] at hp
    refine ⟨c ++ p, t, c, p, hc, by omega, by omega, ?_, rfl⟩
    rw [underscored_eq]
    rfl
  | names cases =>
    rcases hc with ⟨vs, tm, rfl, hcl, rfl, hd1, hd2, hlt'⟩ | ⟨vs, rfl, rfl, hd, hne, hlen⟩
    · change processEnum env.ext (pau env n) ctx vs (some tm) st = _ at he
      unfold processEnum at he
      rw [Res.bind_eq_ok] at he
      obtain ⟨⟨b, s1⟩, h1, h2⟩ := he
      dsimp only at h2
      rw [if_pos ((isCLike_iff tm).mpr hcl)] at h2
      obtain ⟨rfl, rfl⟩ := ok_inj h2
      obtain ⟨x, rfl, t⟩ := byte_inv h h1 hlt
      refine ⟨[x], t, x, rfl, ?_⟩
      rw [List.map_map] at hd2
      have hlt2 : ∀ p ∈ tm, Spec.digitsValue p.2 < 2 ^ 63 := fun p hp =>
        Nat.lt_trans (hlt' _ (List.mem_map.mpr ⟨p, hp, rfl⟩)) (by decide)
      by_cases hx : ∃ p ∈ tm, Spec.digitsValue p.2 = x.toNat
      · obtain ⟨⟨nm, u⟩, hp, hpx⟩ := hx
        left
        refine ⟨nm, List.mem_map.mpr ⟨(nm, u), hp, by rw [hpx]⟩, ?_⟩
        have := cLikeName_mem hcl hd2 hlt2 hp
        dsimp only at hpx
        rw [hpx] at this
        simp only [List.headD_cons, this]
      · right
        constructor
        · intro hm
          obtain ⟨q, hq, hqx⟩ := List.mem_map.mp hm
          obtain ⟨p, hp, rfl⟩ := List.mem_map.mp hq
          exact hx ⟨p, hp, hqx⟩
        · simp only [List.headD_cons]
          rw [cLikeName_none hcl hlt2 (fun p hp e => hx ⟨p, hp, e⟩)]
    · change processEnum env.ext (pau env n) ctx vs none st = _ at he
      unfold processEnum at he
      rw [Res.bind_eq_ok] at he
      obtain ⟨⟨b, s1⟩, h1, h2⟩ := he
      dsimp only at h2
      split at h2
      swap
      · cases h2
      rename_i nm hnm
      obtain ⟨rfl, rfl⟩ := ok_inj h2
      obtain ⟨x, rfl, t⟩ := byte_inv h h1 hlt
      simp only [List.headD_cons] at hnm
      refine ⟨[x], t, x, rfl, .inl ⟨nm, List.mem_zipIdx_iff_getElem?.2 hnm, ?_⟩⟩
      rw [if_neg (by rintro rfl; exact hne (List.mem_of_getElem? hnm))]
  | optionBool =>
    obtain ⟨t, rfl, e1, e2⟩ := hc
    change processOption (pau env n) ctx (effSub t s) st = _ at he
    rw [e1] at he
    unfold processOption at he
    rw [Res.bind_eq_ok] at he
    obtain ⟨⟨b, s1⟩, h1, h2⟩ := he
    dsimp only at h2
    have hs1 : s1 = st' := by
      split at h2
      · rw [if_pos rfl] at h2
        exact (ok_inj h2).2
      · exact (ok_inj h2).2
    subst hs1
    obtain ⟨x, rfl, tk⟩ := byte_inv h h1 hlt
    refine ⟨[x], tk, x, rfl, ?_⟩
    have ez : (bytesToHex [x] = b!"00") = (x = 0) := propext (hexText_one x 0)
    have eo : (bytesToHex [x] = b!"01") = (x = 1) := propext (hexText_one x 1)
    simp only [ne_eq, ez, eo] at h2
    by_cases hx : x = 0
    · rw [if_neg (by simp [hx])] at h2
      rw [if_pos hx]
      exact (ok_inj h2).1.symm
    · rw [if_pos ⟨by decide, hx⟩, if_pos trivial] at h2
      rw [if_neg hx]
      exact (ok_inj h2).1.symm
  | _ => exact hfl.elim

end ScaleGo
