import Verif.Spec.Codec
import Verif.Lemmas.Mono
import Verif.Lemmas.SpecBytes
import Verif.Props.C03

/-! # Building blocks for decoding and encoding theorems -/

namespace ScaleGo

theorem pau_resolves {env : Env} {ctx : Ctx} {ty : Str} {cls : Cls} {sub : Str} (n : Nat) (st : St)
    (h : Resolves env ctx.module ctx.spec ty cls sub) :
    pau env (n + 1) ctx ty st = process env.ext (pau env n) ctx cls sub st := by
  unfold Resolves at h
  rw [pau, h]
  rfl

theorem enc_resolves {env : Env} {ctx : ECtx} {ty : Str} {cls : Cls} {sub : Str} (n : Nat) (v : Val)
    (h : EncResolves env ctx ty cls sub) :
    enc env (n + 1) ctx ty v =
      (encodeCls env.ext (enc env n) ctx cls sub (argOf v) >>= fun out => .ok (trimHex (toLower out))) := by
  obtain ⟨h, hn⟩ := h
  unfold Resolves at h
  have e : equalFold ty b!"Null" = false := by
    rw [equalFold, toLower_eq_spec]
    apply beq_false_of_ne
    intro e
    exact hn (e.trans (by decide))
  rw [enc, if_neg (by simp [e]), h]
  rfl

theorem trimHex_lower_hex (b : Str) : trimHex (toLower (bytesToHex b)) = Spec.hexText b := by
  rw [toLower_bytesToHex, ← bytesToHex_eq_spec]
  simp [trimHex, trimPrefix, hasPrefix_0x_bytesToHex]

theorem trimHex_lower_0x (b : Str) : trimHex (toLower (b!"0x" ++ bytesToHex b)) = Spec.hexText b := by
  have : toLower (b!"0x" ++ bytesToHex b) = b!"0x" ++ bytesToHex b := by
    have h : toLower (b!"0x" ++ bytesToHex b) = toLower b!"0x" ++ toLower (bytesToHex b) := by simp [toLower]
    rw [h, toLower_bytesToHex]
    rfl
  rw [this, ← bytesToHex_eq_spec]
  simp [trimHex, trimPrefix, hasPrefix, List.isPrefixOf]

/-- Reading exactly the next `b` bytes. -/
theorem nextBytes_at (pre b suf : Str) (cs : List Str) (n : Int) (hn : n = b.length)
    (h : pre.length + b.length + suf.length < 2 ^ 63) :
    nextBytes n ⟨⟨pre ++ (b ++ suf), pre.length⟩, cs⟩ =
      .ok (b, ⟨⟨pre ++ (b ++ suf), pre.length + b.length⟩, cs⟩) := by
  subst hn
  unfold nextBytes
  dsimp only
  rw [C03_read _ _ (by simp) (by dsimp only; omega)]
  simp only [Res.ok_bind]
  have e : min (pre.length + b.length) (pre ++ (b ++ suf)).length = pre.length + b.length := by simp
  rw [e]
  simp [Spec.slice]

/-- Reading more than is left. -/
theorem nextBytes_end (pre b : Str) (cs : List Str) (n : Nat) (hn : b.length ≤ n)
    (h : pre.length + n < 2 ^ 63) :
    nextBytes n ⟨⟨pre ++ b, pre.length⟩, cs⟩ = .ok (b, ⟨⟨pre ++ b, (pre ++ b).length⟩, cs⟩) := by
  unfold nextBytes
  dsimp only
  rw [C03_read _ _ (by simp) (by dsimp only; omega)]
  simp only [Res.ok_bind]
  have e : min (pre.length + n) (pre ++ b).length = (pre ++ b).length := by simp; omega
  rw [e]
  simp [Spec.slice]

theorem readInto_self {n : Nat} {b : Str} (h : b.length = n) : readInto n b = b := by
  subst h; simp [readInto]

theorem readInto_short {n : Nat} {b : Str} (h : b.length ≤ n) : readInto n b = b ++ List.replicate (n - b.length) 0 := by
  unfold readInto
  rw [List.take_of_length_le h]

theorem leBytes_length (w v : Nat) : (Spec.leBytes w v).length = w := by simp [Spec.leBytes]

theorem leNat_leBytes {w v : Nat} (h : v < 256 ^ w) : leNat (Spec.leBytes w v) = v := by
  rw [← lePut_eq_spec, leNat_lePut_of_lt h]

theorem pow256 (w : Nat) : (256 : Nat) ^ w = 2 ^ (8 * w) := by
  rw [show (256 : Nat) = 2 ^ 8 by decide, ← Nat.pow_mul]

/-- A class that reads exactly `b` and turns it into `v`, without recursion. -/
theorem decodes_of_read {env : Env} {ctx : Ctx} {ty : Str} {cls : Cls} {sub : Str} {b : Str} {v : Val}
    (h : Resolves env ctx.module ctx.spec ty cls sub)
    (hp : ∀ (r : Rec) (pre suf : Str) (cs : List Str), pre.length + b.length + suf.length < 2 ^ 63 →
      process env.ext r ctx cls sub ⟨⟨pre ++ (b ++ suf), pre.length⟩, cs⟩ =
        .ok (v, ⟨⟨pre ++ (b ++ suf), pre.length + b.length⟩, cs⟩)) :
    Decodes env ctx ty b v [] := by
  refine ⟨1, fun n hn pre suf cs hl => ?_⟩
  obtain ⟨m, rfl⟩ : ∃ m, n = m + 1 := ⟨n - 1, by omega⟩
  rw [pau_resolves m _ h, hp _ pre suf cs hl, List.append_nil]

theorem decodesAtEnd_of_read {env : Env} {ctx : Ctx} {ty : Str} {cls : Cls} {sub : Str} {b : Str} {v : Val}
    (h : Resolves env ctx.module ctx.spec ty cls sub)
    (hp : ∀ (r : Rec) (pre : Str) (cs : List Str), pre.length + b.length < 2 ^ 62 →
      process env.ext r ctx cls sub ⟨⟨pre ++ b, pre.length⟩, cs⟩ = .ok (v, ⟨⟨pre ++ b, (pre ++ b).length⟩, cs⟩)) :
    DecodesAtEnd env ctx ty b v := by
  refine ⟨1, fun n hn pre cs hl => ?_⟩
  obtain ⟨m, rfl⟩ : ∃ m, n = m + 1 := ⟨n - 1, by omega⟩
  rw [pau_resolves m _ h, hp _ pre cs hl]

theorem decodeRefuses_of_process {env : Env} {ctx : Ctx} {ty : Str} {cls : Cls} {sub : Str} {b : Str}
    (h : Resolves env ctx.module ctx.spec ty cls sub)
    (hp : ∀ (r : Rec) (pre suf : Str) (cs : List Str), pre.length + b.length + suf.length < 2 ^ 63 →
      process env.ext r ctx cls sub ⟨⟨pre ++ (b ++ suf), pre.length⟩, cs⟩ = .panic) :
    DecodeRefuses env ctx ty b := by
  refine ⟨1, fun n hn pre suf cs hl => ?_⟩
  obtain ⟨m, rfl⟩ : ∃ m, n = m + 1 := ⟨n - 1, by omega⟩
  rw [pau_resolves m _ h, hp _ pre suf cs hl]

theorem encodes_of_cls {env : Env} {ctx : ECtx} {ty : Str} {cls : Cls} {sub : Str} {v : Val} {b : Str}
    (h : EncResolves env ctx ty cls sub)
    (hp : ∀ r : ERec, encodeCls env.ext r ctx cls sub (argOf v) = .ok (bytesToHex b)) : Encodes env ctx ty v b := by
  refine ⟨1, fun n hle => ?_⟩
  obtain ⟨m, rfl⟩ : ∃ m, n = m + 1 := ⟨n - 1, by omega⟩
  rw [enc_resolves m v h, hp]
  simp only [Res.ok_bind, trimHex_lower_hex]

theorem encodeRefuses_of_cls {env : Env} {ctx : ECtx} {ty : Str} {cls : Cls} {sub : Str} {v : Val}
    (h : EncResolves env ctx ty cls sub)
    (hp : ∀ r : ERec, encodeCls env.ext r ctx cls sub (argOf v) = .panic) : EncodeRefuses env ctx ty v := by
  refine ⟨1, fun n hle => ?_⟩
  obtain ⟨m, rfl⟩ : ∃ m, n = m + 1 := ⟨n - 1, by omega⟩
  rw [enc_resolves m v h, hp]
  rfl

theorem toUint_nat {bits n : Nat} (h : n < 2 ^ bits) : toUint bits (n : Int) = n := by
  unfold toUint
  have : ((n : Int) % (2 ^ bits : Int)) = n := by
    apply Int.emod_eq_of_lt (by omega)
    exact_mod_cast h
  rw [this]; rfl

theorem toUint_wrap64 (bits : Nat) (hb : bits ≤ 64) (i : Int) : toUint bits (wrap64 i) = toUint bits i := by
  unfold toUint wrap64
  congr 1
  obtain ⟨k, hk⟩ : ∃ k, 64 = bits + k := ⟨64 - bits, by omega⟩
  rw [Int.bmod_def]
  have e : (((2 ^ 64 : Nat) : Int)) = (2 ^ bits : Int) * 2 ^ k := by
    rw [hk]; push_cast; rw [Int.pow_add]
  have d : (2 ^ bits : Int) ∣ ((2 ^ 64 : Nat) : Int) := ⟨2 ^ k, e⟩
  split
  · exact Int.emod_emod_of_dvd _ d
  · rw [Int.sub_emod, Int.emod_emod_of_dvd _ d, Int.emod_eq_zero_of_dvd d, Int.sub_zero, Int.emod_emod]

theorem wrap64_nat {n : Nat} (h : n < 2 ^ 63) : wrap64 (n : Int) = n := wrap64_small (by omega) (by omega)

theorem denotes_dec_trunc {c e i : Int} (h : Denotes (.dec c e) i) : decTrunc c e = i := by
  unfold Denotes at h
  unfold decTrunc
  dsimp only at h
  split at h
  · rw [if_pos (by assumption), h]
  · rw [if_neg (by assumption), ← h]
    apply Int.mul_tdiv_cancel
    exact Int.pow_ne_zero (by decide)

end ScaleGo
