import Verif.Model.FixPoint
import Verif.Props.C12
import Verif.Lemmas.Comp
import Mathlib.Tactic.Ring
import Mathlib.Tactic.Positivity

/-!
# C74: fixed-point numbers decode to the value they stand for

`FixedU64` is an unsigned 64-bit number with 32 fractional bits, `FixedI128` a signed 128-bit number with 64; nine
fractional bits are kept.  The code reads the unsigned type as signed, and the two lowest numbers specially.
-/

namespace ScaleGo

/-- `c * 10^e` is `q / 2^9`. -/
def Is512ths (c e q : Int) : Prop := e ≤ 0 ∧ c * 2 ^ 9 = q * 10 ^ (-e).toNat

/-- The full claim: the nearest multiple of 1/512 towards zero. -/
def C74Claim : Prop :=
  ∀ (env : Env) (ctx : Ctx) (ty sub : Str), env.ext.fixPoint = fixPoint9 →
    (Resolves env ctx.module ctx.spec ty .fixedU64 sub → ∀ n : Nat, n < 2 ^ 64 →
      ∃ c e, Decodes env ctx ty (Spec.leBytes 8 n) (.dec c e) [] ∧ Is512ths c e (n / 2 ^ 23 : Nat)) ∧
    (Resolves env ctx.module ctx.spec ty .fixedI128 sub → (∃ s, Resolves env ctx.module ctx.spec b!"i128" (.intFixed 16) s) →
      ∀ n : Nat, n < 2 ^ 128 →
      ∃ c e, Decodes env ctx ty (Spec.leBytes 16 n) (.dec c e) [] ∧ Is512ths c e ((Spec.twos 128 n).tdiv (2 ^ 55)))

/-! ### Binary texts -/

/-- Exactly `k` binary digits. -/
def binFix : Nat → Nat → Str
  | 0, _ => []
  | k + 1, n => binFix k (n / 2) ++ [digitByte (n % 2)]

theorem binFix_length (k n : Nat) : (binFix k n).length = k := by
  induction k generalizing n with
  | zero => rfl
  | succ k ih => simp [binFix, ih]

theorem binFix_zero (k : Nat) : binFix k 0 = List.replicate k 48 := by
  induction k with
  | zero => rfl
  | succ k ih => rw [binFix, Nat.zero_div, ih, List.replicate_succ']; rfl

theorem binFix_add (a b n : Nat) : binFix (a + b) n = binFix a (n / 2 ^ b) ++ binFix b n := by
  induction b generalizing n with
  | zero => simp [binFix]
  | succ b ih =>
    rw [← Nat.add_assoc, binFix, binFix, ih, Nat.div_div_eq_div_mul, Nat.pow_succ, Nat.mul_comm (2 ^ b), List.append_assoc]

theorem binAux_eq_append (fuel n : Nat) (acc : Str) : binAux fuel n acc = binAux fuel n [] ++ acc := by
  induction fuel generalizing n acc with
  | zero => simp [binAux]
  | succ f ih =>
    simp only [binAux]
    split
    · simp
    · rw [ih _ (_ :: acc), ih _ [_]]; simp

theorem binAux_fix (fuel : Nat) : ∀ n k, n < fuel → n < 2 ^ (k + 1) →
    (binAux fuel n []).length ≤ k + 1 ∧
    List.replicate (k + 1 - (binAux fuel n []).length) 48 ++ binAux fuel n [] = binFix (k + 1) n := by
  induction fuel with
  | zero => intro n k h; omega
  | succ f ih =>
    intro n k hf hk
    simp only [binAux]
    split
    · rename_i hlt
      refine ⟨by simp, ?_⟩
      rw [binFix, Nat.div_eq_of_lt hlt, binFix_zero, Nat.mod_eq_of_lt hlt]
      simp
    · rename_i hge
      cases k with
      | zero => simp at hk; omega
      | succ k =>
        have h2 : n / 2 < 2 ^ (k + 1) := by rw [Nat.pow_succ] at hk; omega
        obtain ⟨hl, he⟩ := ih (n / 2) k (by omega) h2
        rw [binAux_eq_append]
        refine ⟨by simp; omega, ?_⟩
        rw [binFix, ← he]
        simp

theorem natToBin_fix (n L : Nat) (hL : 0 < L) (h : n < 2 ^ L) :
    (natToBin n).length ≤ L ∧ rightJustify0 (natToBin n) L = binFix L n := by
  obtain ⟨k, rfl⟩ : ∃ k, L = k + 1 := ⟨L - 1, by omega⟩
  exact binAux_fix (n + 1) n k (by omega) h

theorem binValue_append (s : Str) (c : UInt8) : binValue (s ++ [c]) = binValue s * 2 + (c.toNat - 48) := by
  simp [binValue]

theorem halves_append (s : Str) (c : UInt8) : halves (s ++ [c]) = halves s * 2 + if c = 49 then 1 else 0 := by
  simp [halves]

theorem binValue_fix (k n : Nat) : binValue (binFix k n) = n % 2 ^ k ∧ halves (binFix k n) = n % 2 ^ k := by
  induction k generalizing n with
  | zero => simp [binFix, binValue, halves, Nat.mod_one]
  | succ k ih =>
    obtain ⟨h1, h2⟩ := ih (n / 2)
    have e : n % 2 ^ (k + 1) = (n / 2) % 2 ^ k * 2 + n % 2 := by
      rw [Nat.pow_succ, Nat.mul_comm, Nat.mod_mul]; omega
    rw [binFix, binValue_append, halves_append, h1, h2, e]
    have h01 : n % 2 = 0 ∨ n % 2 = 1 := by omega
    rcases h01 with h | h <;> rw [h] <;> constructor <;> rfl

theorem dyadic_spec (k : Nat) : ∀ num, (dyadicDec num k).2 ≤ 0 ∧
    (dyadicDec num k).1 * 2 ^ k = (num : Int) * 10 ^ (-(dyadicDec num k).2).toNat := by
  induction k with
  | zero => intro num; simp [dyadicDec]
  | succ k ih =>
    intro num
    rw [dyadicDec]
    split
    · next h =>
      obtain ⟨h1, h2⟩ := ih (num / 2)
      refine ⟨h1, ?_⟩
      rw [Int.pow_succ, ← Int.mul_assoc, h2]
      have : (num : Int) = ((num / 2 : Nat) : Int) * 2 := by omega
      conv => rhs; rw [this]
      ring
    · refine ⟨by simp, ?_⟩
      have e : (-(-((k : Int) + 1))).toNat = k + 1 := by omega
      rw [e, show (10 : Int) = 5 * 2 by rfl, Int.mul_pow]
      push_cast
      ring

theorem bits_take (u l n : Nat) : (binFix (u + l) n).take u = binFix u (n / 2 ^ l) := by
  rw [binFix_add, List.take_append_of_le_length (by rw [binFix_length]), List.take_of_length_le (by rw [binFix_length])]

theorem bits_drop (u l n : Nat) : (binFix (u + l) n).drop u = binFix l n := by
  rw [binFix_add, List.drop_append_of_le_length (by rw [binFix_length]), List.drop_of_length_le (by rw [binFix_length]), List.nil_append]

/-- The text-based computation, for a magnitude that fits: truncation to `p` fractional bits. -/
theorem parserFixPoint_spec (v : Int) (p u l : Nat) (hp : p ≤ l) (hl : assertLength u l = some (u + l)) (hu : 0 < u)
    (hneg : v < 0 → v.natAbs < 2 ^ (u + l - 1)) (hpos : v.natAbs < 2 ^ (u + l)) :
    (parserFixPoint v p u l).2 ≤ 0 ∧
    (parserFixPoint v p u l).1 * 2 ^ p = v.tdiv (2 ^ (l - p)) * 10 ^ (-(parserFixPoint v p u l).2).toNat := by
  obtain ⟨hlen, hfix⟩ := natToBin_fix v.natAbs (u + l) (by omega) hpos
  have hcond : ¬ (intToBin v).length > u + l := by
    unfold intToBin
    split
    · next h =>
      by_cases hul : u + l = 1
      · have := hneg h
        rw [hul] at this
        simp at this
        omega
      · have := (natToBin_fix v.natAbs (u + l - 1) (by omega) (hneg h)).1
        simp; omega
    · omega
  have hbits : (if v < 0 then rightJustify0 ((intToBin v).drop 1) (u + l) else rightJustify0 (intToBin v) (u + l)) = binFix (u + l) v.natAbs := by
    unfold intToBin
    split
    · rw [List.drop_succ_cons, List.drop_zero, hfix]
    · exact hfix
  have hlow : substr (binFix (u + l) v.natAbs) l ((l : Int) - p) = binFix p (v.natAbs / 2 ^ (l - p)) := by
    unfold substr
    rw [binFix_length, show u + l - l = u by omega, bits_drop]
    have e := bits_take p (l - p) v.natAbs
    rw [show p + (l - p) = l by omega] at e
    split
    · rw [show l - ((l : Int) - p).toNat = p by omega, e]
    · have : p = l := by omega
      subst this
      simp
  have hup : (binFix (u + l) v.natAbs).take ((binFix (u + l) v.natAbs).length - l) = binFix u (v.natAbs / 2 ^ l) := by
    rw [binFix_length, show u + l - l = u by omega, bits_take]
  have hne : binFix u (v.natAbs / 2 ^ l) ≠ [] := by
    intro h; have := congrArg List.length h; rw [binFix_length] at this; simp at this; omega
  have e : parserFixPoint v p u l =
      let f := dyadicDec (v.natAbs / 2 ^ (l - p) % 2 ^ p) p
      if v > 0 then (((v.natAbs / 2 ^ l : Nat) : Int) * 10 ^ (-f.2).toNat + f.1, f.2)
      else (-((v.natAbs / 2 ^ l : Nat) : Int) * 10 ^ (-f.2).toNat - f.1, f.2) := by
    unfold parserFixPoint
    rw [hl]
    dsimp only
    rw [if_neg hcond, hbits, if_neg (c := l > (binFix (u + l) v.natAbs).length) (by rw [binFix_length]; omega), hlow, hup, if_pos hne, binFix_length, (binValue_fix _ _).1, (binValue_fix _ _).2,
      Nat.mod_eq_of_lt (a := v.natAbs / 2 ^ l)]
    rw [Nat.div_lt_iff_lt_mul (by positivity), ← Nat.pow_add]
    exact hpos
  obtain ⟨h1, h2⟩ := dyadic_spec p (v.natAbs / 2 ^ (l - p) % 2 ^ p)
  rw [e]
  dsimp only
  have hdiv : v.natAbs / 2 ^ (l - p) = v.natAbs / 2 ^ l * 2 ^ p + v.natAbs / 2 ^ (l - p) % 2 ^ p := by
    have hpow : (2 : Nat) ^ l = 2 ^ (l - p) * 2 ^ p := by rw [← Nat.pow_add]; congr 1; omega
    rw [hpow, ← Nat.div_div_eq_div_mul, Nat.mul_comm]
    exact (Nat.div_add_mod _ _).symm
  have hdivi : ((v.natAbs / 2 ^ (l - p) : Nat) : Int) =
      ((v.natAbs / 2 ^ l : Nat) : Int) * 2 ^ p + ((v.natAbs / 2 ^ (l - p) % 2 ^ p : Nat) : Int) := by
    conv => lhs; rw [hdiv]
    push_cast; rfl
  generalize dyadicDec (v.natAbs / 2 ^ (l - p) % 2 ^ p) p = f at h1 h2
  split
  · next hv =>
    refine ⟨h1, ?_⟩
    have ht : v.tdiv (2 ^ (l - p)) = ((v.natAbs / 2 ^ (l - p) : Nat) : Int) := by
      obtain ⟨n, rfl⟩ := Int.eq_ofNat_of_zero_le (by omega : 0 ≤ v)
      simp
    rw [ht, hdivi, Int.add_mul, Int.add_mul, h2]
    ring
  · next hv =>
    refine ⟨h1, ?_⟩
    have ht : v.tdiv (2 ^ (l - p)) = -((v.natAbs / 2 ^ (l - p) : Nat) : Int) := by
      obtain ⟨n, rfl⟩ : ∃ n : Nat, v = -(n : Int) := ⟨v.natAbs, by omega⟩
      simp
    rw [ht, hdivi, Int.sub_mul, h2]
    ring

theorem tdiv_nat (n k : Nat) : (n : Int).tdiv (2 ^ k) = ((n / 2 ^ k : Nat) : Int) := by
  rw [show (2 : Int) ^ k = ((2 ^ k : Nat) : Int) by push_cast; rfl]
  exact (Int.ofNat_tdiv n (2 ^ k)).symm

/-- What the code does with every 64-bit pattern but one: it takes it as a signed number. -/
theorem C74_signed (env : Env) (ctx : Ctx) (ty sub : Str) (hf : env.ext.fixPoint = fixPoint9)
    (h : Resolves env ctx.module ctx.spec ty .fixedU64 sub) (n : Nat) (hn : n < 2 ^ 64) (hmin : n ≠ 2 ^ 63) :
    ∃ c e, Decodes env ctx ty (Spec.leBytes 8 n) (.dec c e) [] ∧ Is512ths c e ((Spec.twos 64 n).tdiv (2 ^ 23)) := by
  have hw : wrap64 (n : Int) = Spec.twos 64 n := by
    unfold wrap64 Spec.twos Int.bmod
    dsimp only
    split <;> split <;> omega
  have hb : (Spec.twos 64 n < 0 → (Spec.twos 64 n).natAbs < 2 ^ (32 + 32 - 1)) ∧ (Spec.twos 64 n).natAbs < 2 ^ (32 + 32) := by
    unfold Spec.twos
    split <;> omega
  refine ⟨(fixPoint9 32 (Spec.twos 64 n)).1, (fixPoint9 32 (Spec.twos 64 n)).2, ?_, ?_⟩
  · refine decodes_of_read h fun r pre suf cs hl => ?_
    show processFixedU64 env.ext _ = _
    unfold processFixedU64
    rw [nextBytes_at pre _ suf cs 8 (by rw [leBytes_length]; rfl) hl, hf]
    simp only [Res.ok_bind]
    rw [readInto_self (leBytes_length 8 n), leNat_leBytes (by omega), hw]
  · exact parserFixPoint_spec _ 9 32 32 (by decide) rfl (by decide) hb.1 hb.2

/-- The unsigned type below 2^63; missing: the upper half, read as negative numbers. -/
theorem C74_unsigned_partial (env : Env) (ctx : Ctx) (ty sub : Str) (hf : env.ext.fixPoint = fixPoint9)
    (h : Resolves env ctx.module ctx.spec ty .fixedU64 sub) (n : Nat) (hn : n < 2 ^ 63) :
    ∃ c e, Decodes env ctx ty (Spec.leBytes 8 n) (.dec c e) [] ∧ Is512ths c e (n / 2 ^ 23 : Nat) := by
  obtain ⟨c, e, h1, h2⟩ := C74_signed env ctx ty sub hf h n (by omega) (by omega)
  refine ⟨c, e, h1, ?_⟩
  rwa [Spec.twos, if_pos (by omega), tdiv_nat] at h2

/-- The pattern 2^63 comes out as the integer -2^63, not divided at all. -/
theorem C74_minimum (env : Env) (ctx : Ctx) (ty sub : Str) (hf : env.ext.fixPoint = fixPoint9)
    (h : Resolves env ctx.module ctx.spec ty .fixedU64 sub) :
    Decodes env ctx ty (Spec.leBytes 8 (2 ^ 63)) (.dec (-(2 ^ 63)) 0) [] := by
  refine decodes_of_read h fun r pre suf cs hl => ?_
  show processFixedU64 env.ext _ = _
  unfold processFixedU64
  rw [nextBytes_at pre _ suf cs 8 (by rw [leBytes_length]; rfl) hl, hf]
  simp only [Res.ok_bind]
  rw [readInto_self (leBytes_length 8 _), leNat_leBytes (by decide)]
  have e : fixPoint9 32 (wrap64 (2 ^ 63 : Nat)) = (-(2 ^ 63), 0) := by kernel_rfl
  rw [e]

/-- The signed 128-bit type; missing: the lowest number, which comes out positive. -/
theorem C74_signed_partial (env : Env) (ctx : Ctx) (ty sub s : Str) (hf : env.ext.fixPoint = fixPoint9)
    (h : Resolves env ctx.module ctx.spec ty .fixedI128 sub) (hi : Resolves env ctx.module ctx.spec b!"i128" (.intFixed 16) s)
    (n : Nat) (hn : n < 2 ^ 128) (hmin : n ≠ 2 ^ 127) :
    ∃ c e, Decodes env ctx ty (Spec.leBytes 16 n) (.dec c e) [] ∧ Is512ths c e ((Spec.twos 128 n).tdiv (2 ^ 55)) := by
  have hb : (Spec.twos 128 n < 0 → (Spec.twos 128 n).natAbs < 2 ^ (64 + 64 - 1)) ∧ (Spec.twos 128 n).natAbs < 2 ^ (64 + 64) := by
    unfold Spec.twos
    split <;> omega
  refine ⟨(fixPoint9 64 (Spec.twos 128 n)).1, (fixPoint9 64 (Spec.twos 128 n)).2, ?_,
    parserFixPoint_spec _ 9 64 64 (by decide) rfl (by decide) hb.1 hb.2⟩
  obtain ⟨N, hN⟩ := decodes_iff.1 (C12_decode_partial env ctx b!"i128" s 16 n (by decide) (by decide) hn hmin hi)
  refine decodes_of_decAt h ⟨N, fun k hk => ?_⟩
  show DecAt (processFixedI128 env.ext (pau env k) ctx) _ _ _
  unfold processFixedI128
  rw [hf]
  exact DecAt.last (hN k hk) fun _ => rfl

/-- The lowest 128-bit number comes out as +2^63. -/
theorem C74_signed_minimum (env : Env) (ctx : Ctx) (ty sub s : Str) (hf : env.ext.fixPoint = fixPoint9)
    (h : Resolves env ctx.module ctx.spec ty .fixedI128 sub) (hi : Resolves env ctx.module ctx.spec b!"i128" (.intFixed 16) s) :
    Decodes env ctx ty (Spec.leBytes 16 (2 ^ 127)) (.dec (2 ^ 63) 0) [] := by
  obtain ⟨N, hN⟩ := decodes_iff.1 (C12_minimum_wrong env ctx b!"i128" s 16 (by decide) (by decide) hi)
  refine decodes_of_decAt h ⟨N, fun k hk => ?_⟩
  show DecAt (processFixedI128 env.ext (pau env k) ctx) _ _ _
  unfold processFixedI128
  rw [hf]
  have e : fixPoint9 64 (2 ^ 127) = (2 ^ 63, 0) := by kernel_rfl
  exact DecAt.last (hN k hk) fun _ => by dsimp only; rw [show (8 * 16 - 1) = 127 from rfl, e]

/-- An environment with the code's conversion in place. -/
def fixEnv : Env := baseEnv { dummyExt with fixPoint := fixPoint9 }

theorem fixEnv_u64 : Resolves fixEnv [] 0 b!"SubstrateFixedU64" .fixedU64 [] := by unfold Resolves; kernel_rfl

/-- The pattern 2^63 stands for 2^31, which it does not decode to. -/
theorem C74_claim_false : ¬ C74Claim := by
  intro hc
  obtain ⟨c, e, h1, h2⟩ := (hc fixEnv ⟨[], 0, none⟩ b!"SubstrateFixedU64" [] rfl).1 fixEnv_u64 (2 ^ 63) (by decide)
  have h3 := C74_minimum fixEnv ⟨[], 0, none⟩ b!"SubstrateFixedU64" [] rfl fixEnv_u64
  have := decodes_val_unique h1 h3 (by decide)
  cases this
  revert h2
  unfold Is512ths
  decide

/-- Fractions below 1/512 are lost: 1 and 0 decode alike. -/
theorem C74_precision : fixPoint9 32 1 = fixPoint9 32 0 := by decide +kernel

example : Resolves fixEnv [] 0 b!"SubstrateFixedI128" .fixedI128 [] ∧ Resolves fixEnv [] 0 b!"i128" (.intFixed 16) [] := by
  constructor <;> (unfold Resolves; kernel_rfl)

example : fixPoint9 32 79643934720 = (1854296875, -8) ∧ Is512ths 1854296875 (-8) (79643934720 / 2 ^ 23 : Nat) := by
  unfold Is512ths; decide +kernel

example : parserFixPoint 79643934720 18 32 32 = (18543548583984375, -15) := by decide +kernel
example : parserFixPoint (-334317721545467687680) 18 64 64 = (-181233978271484375, -16) := by decide +kernel
example : parserFixPoint 65536 0 16 16 = (1, 0) := by decide +kernel

end ScaleGo
