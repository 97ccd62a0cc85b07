import Verif.Props.C14
import Verif.Props.C52

/-! # C16: Compact<u64>, Compact<u128>, Compact<Balance> (and other names of these inner types)

Decoding is right for every value (but the greatest balance).  Encoding is right exactly when the low 64 bits of a number
above 2^30, read as a signed integer, are again at least 2^30: the code chooses the form by that truncated number. -/

namespace ScaleGo

/-- Value `v` returned for the number `n` in range of the inner type of class `cls`. -/
def CompactInner (cls : Cls) (n : Nat) (v : Val) : Prop :=
  match cls with
  | .u32 => n < 2 ^ 32 ∧ v = .uint 8 n
  | .u64 => n < 2 ^ 64 ∧ v = .uint 8 n
  | .u128 => n < 2 ^ 128 ∧ v = .dec n 0
  | .balance => n < 2 ^ 128 ∧ v = .dec n 0
  | _ => False

/-- Go value `v`, of a type `Compact.Encode` reads, that stands for `n`. -/
def CompactInput (v : Val) (n : Nat) : Prop :=
  match v with
  | .str s => Spec.IsNumeral s n
  | .int _ => Denotes v n
  | .sint w _ => w = 8 ∧ Denotes v n
  | .uint w _ => w = 8 ∧ Denotes v n
  | .dec _ _ => Denotes v n
  | _ => False

/-- The full claim. -/
def C16Claim : Prop :=
  ∀ (env : Env) (ectx : ECtx) (ctx : Ctx) (ty t s s' isub : Str) (cls : Cls) (n : Nat) (v r : Val),
    EncResolves env ectx ty (.compact t) s' → Resolves env ctx.module ctx.spec ty (.compact t) s →
    effSub t s ≠ [] → Resolves env [] 0 (effSub t s) cls isub → CompactInner cls n r → CompactInput v n →
    ∃ b, Spec.IsCompact n b ∧ Encodes env ectx ty v b ∧ Decodes env ctx ty b r []

/-- Decoding the whole buffer `cb`. -/
def DecodesWhole (env : Env) (ty cb : Str) (v : Val) : Prop :=
  ∃ N, ∀ n, N ≤ n → ∃ st, pau env n Ctx.fresh ty ⟨⟨cb, 0⟩, []⟩ = .ok (v, st)

theorem compact_decodes {env : Env} {ctx : Ctx} {ty t s : Str} {n : Nat} {b : Str} {r : Val} (hb : Spec.IsCompact n b)
    (h : Resolves env ctx.module ctx.spec ty (.compact t) s) (hs : effSub t s ≠ [])
    (hin : ∀ (len : Nat) (cb : Str), ((len ≤ 4 ∧ n < 2 ^ 30 ∧ cb = b ∧ leNat cb / 4 = n ∧ cb.length = len) ∨
        (4 < len ∧ leNat cb = n ∧ cb.length + 1 = len ∧ 256 ^ (cb.length - 1) ≤ n ∧ 2 ^ 30 ≤ n)) →
      ∃ v, DecodesWhole env (effSub t s) cb v ∧ compactDivide len v = .ok r) :
    Decodes env ctx ty b r [] := by
  obtain ⟨len, cb, hf, hp⟩ := processCompactBytes_at hb
  obtain ⟨v, ⟨N, hN⟩, hdiv⟩ := hin len cb hf
  refine ⟨N + 1, fun m hm pre suf cs hl => ?_⟩
  obtain ⟨m, rfl⟩ : ∃ k, m = k + 1 := ⟨m - 1, by omega⟩
  rw [pau_resolves m _ h]
  show processCompact (pau env m) (effSub t s) _ = _
  unfold processCompact
  rw [hp pre suf cs hl]
  obtain ⟨st, hst⟩ := hN m (by omega)
  simp only [Res.ok_bind, if_neg hs, hst, hdiv, List.append_nil]

theorem whole_of_decodes {env : Env} {ty b : Str} {v : Val} (h : Decodes env Ctx.fresh ty b v []) (hl : b.length < 2 ^ 63) :
    DecodesWhole env ty b v := by
  obtain ⟨N, h⟩ := h
  refine ⟨N, fun n hn => ?_⟩
  have := h n hn [] [] [] (by simpa using hl)
  simp only [List.nil_append, List.append_nil, List.length_nil] at this
  exact ⟨_, this⟩

theorem whole_of_end {env : Env} {ty b : Str} {v : Val} (h : DecodesAtEnd env Ctx.fresh ty b v) (hl : b.length < 2 ^ 62) :
    DecodesWhole env ty b v := by
  obtain ⟨N, h⟩ := h
  refine ⟨N, fun n hn => ?_⟩
  have := h n hn [] [] (by simpa using hl)
  exact ⟨_, this⟩

/-- Decoding a buffer not longer than the unsigned type gives its little-endian number. -/
theorem whole_unsigned {env : Env} {ty cb isub : Str} {w : Nat} (hw : w ∈ [2, 4, 8, 16])
    (h : Resolves env [] 0 ty (unsignedClass w) isub) (hl : cb.length ≤ w) :
    ∃ v, UnsignedValue w (leNat cb) v ∧ DecodesWhole env ty cb v := by
  have hcb : cb = Spec.leBytes cb.length (leNat cb) := by rw [← lePut_eq_spec, lePut_leNat]
  have hlt := leNat_lt cb
  rw [pow256] at hlt
  have hw16 : w ≤ 16 := by simp at hw; omega
  by_cases he : cb.length = w
  · by_cases h16 : w = 16
    · subst h16
      obtain ⟨s, hs, hd⟩ := C10_decode env Ctx.fresh ty isub (leNat cb) (by rw [he] at hlt; exact hlt) h
      rw [← he, ← hcb] at hd
      exact ⟨_, ⟨s, hs, rfl⟩, whole_of_decodes hd (by omega)⟩
    · have hw' : w = 2 ∨ w = 4 ∨ w = 8 := by simp at hw; omega
      have hcls : unsignedClass w = uintClass w := by rcases hw' with rfl | rfl | rfl <;> rfl
      have := C07_decode env Ctx.fresh ty w (leNat cb) isub (by simp; omega) (by rw [← he]; exact hlt) (by rw [← hcls]; exact h)
      rw [← he, ← hcb] at this
      refine ⟨_, ?_, whole_of_decodes this (by omega)⟩
      rw [he, UnsignedValue, if_neg h16, if_neg (by omega)]
  · obtain ⟨v, hv, hd⟩ := C52_partial env Ctx.fresh ty isub w cb.length (leNat cb) (by simp at hw ⊢; omega) (by omega) hlt
      (by intro e; omega) h
    rw [← hcb] at hd
    exact ⟨v, hv, whole_of_end hd (by omega)⟩

theorem decDivFloor_four (m : Nat) : decDivFloor (m : Int) 0 4 = ((m / 4 : Nat) : Int) := by
  unfold decDivFloor
  simp only [Int.natAbs_natCast, Int.zero_add]
  rw [show ((16 : Int)).toNat = 16 by rfl, show (-(16 : Int)).toNat = 0 by rfl]
  have h1 : m * 10 ^ 16 % (4 * 10 ^ 0) = 0 := by omega
  rw [h1, if_neg (show ¬ (m : Int) < 0 by omega), if_pos (by decide), Int.fdiv_eq_ediv_of_nonneg _ (by decide)]
  omega

theorem decDivFloor_one (m : Nat) : decDivFloor (m : Int) 0 1 = m := by
  unfold decDivFloor
  simp only [Int.natAbs_natCast, Int.zero_add]
  rw [show ((16 : Int)).toNat = 16 by rfl, show (-(16 : Int)).toNat = 0 by rfl]
  have h1 : m * 10 ^ 16 % (1 * 10 ^ 0) = 0 := by omega
  rw [h1, if_neg (show ¬ (m : Int) < 0 by omega), if_pos (by decide), Int.fdiv_eq_ediv_of_nonneg _ (by decide)]
  omega

theorem divide_uint (len w m : Nat) (hw : w ∈ [2, 4, 8]) :
    compactDivide len (.uint w m) = .ok (.uint 8 (m / if len ≤ 4 then 4 else 1)) := by
  have hw' : w = 2 ∨ w = 4 ∨ w = 8 := by simpa using hw
  have hc : ((len : Int) ≤ 4) = (len ≤ 4) := by apply propext; omega
  rcases hw' with rfl | rfl | rfl <;> simp only [compactDivide, hc]

theorem divide_dec (len m : Nat) : compactDivide len (.dec m 0) = .ok (.dec ((m / if len ≤ 4 then 4 else 1 : Nat) : Int) 0) := by
  have hc : ((len : Int) ≤ 4) = (len ≤ 4) := by apply propext; omega
  simp only [compactDivide, hc]
  split
  · rw [decDivFloor_four]
  · rw [decDivFloor_one, Nat.div_one]

theorem divide_str (len m : Nat) (s : Str) (hs : Spec.IsNumeral s m) :
    compactDivide len (.str s) = .ok (.dec ((m / if len ≤ 4 then 4 else 1 : Nat) : Int) 0) := by
  have hc : ((len : Int) ≤ 4) = (len ≤ 4) := by apply propext; omega
  simp only [compactDivide, decParse_numeral hs, hc]
  split
  · rw [decDivFloor_four]
  · rw [decDivFloor_one, Nat.div_one]

theorem compact_facts {n w : Nat} {len : Nat} {b cb : Str} (hn : n < 2 ^ (8 * w)) (hw : 4 ≤ w)
    (hf : (len ≤ 4 ∧ n < 2 ^ 30 ∧ cb = b ∧ leNat cb / 4 = n ∧ cb.length = len) ∨
        (4 < len ∧ leNat cb = n ∧ cb.length + 1 = len ∧ 256 ^ (cb.length - 1) ≤ n ∧ 2 ^ 30 ≤ n)) :
    cb.length ≤ w ∧ (leNat cb / if len ≤ 4 then 4 else 1) = n := by
  rcases hf with ⟨h4, _, _, hv, hl⟩ | ⟨h4, hv, hl, hmin, _⟩
  · exact ⟨by omega, by rw [if_pos h4]; exact hv⟩
  · exact ⟨compact_cb_length hmin (by rw [pow256]; exact hn), by rw [if_neg (by omega), Nat.div_one]; exact hv⟩

/-- Decoding the SCALE compact encoding of any `n` in range of the inner type returns `n`, except a balance of 2^128 - 1. -/
theorem C16_decode (env : Env) (ctx : Ctx) (ty t s isub : Str) (cls : Cls) (n : Nat) (b : Str) (r : Val)
    (h : Resolves env ctx.module ctx.spec ty (.compact t) s) (hs : effSub t s ≠ [])
    (hi : Resolves env [] 0 (effSub t s) cls isub) (hr : CompactInner cls n r) (hb : Spec.IsCompact n b)
    (hmax : cls = .balance → n ≠ 2 ^ 128 - 1) : Decodes env ctx ty b r [] := by
  refine compact_decodes hb h hs fun len cb hf => ?_
  unfold CompactInner at hr
  split at hr
  · obtain ⟨hn, rfl⟩ := hr
    obtain ⟨h1, h2⟩ := compact_facts (w := 4) hn (by decide) hf
    obtain ⟨v, hv, hd⟩ := whole_unsigned (w := 4) (by decide) hi h1
    refine ⟨v, hd, ?_⟩
    simp only [UnsignedValue, uintValue] at hv
    obtain rfl : v = .uint 4 (leNat cb) := hv
    rw [divide_uint len 4 _ (by decide), h2]
  · obtain ⟨hn, rfl⟩ := hr
    obtain ⟨h1, h2⟩ := compact_facts (w := 8) hn (by decide) hf
    obtain ⟨v, hv, hd⟩ := whole_unsigned (w := 8) (by decide) hi h1
    refine ⟨v, hd, ?_⟩
    simp only [UnsignedValue, uintValue] at hv
    obtain rfl : v = .uint 8 (leNat cb) := hv
    rw [divide_uint len 8 _ (by decide), h2]
  · obtain ⟨hn, rfl⟩ := hr
    obtain ⟨h1, h2⟩ := compact_facts (w := 16) hn (by decide) hf
    obtain ⟨v, hv, hd⟩ := whole_unsigned (w := 16) (by decide) hi h1
    refine ⟨v, hd, ?_⟩
    simp only [UnsignedValue, if_true] at hv
    obtain ⟨str, hstr, rfl⟩ := hv
    rw [divide_str len _ str hstr, h2]
  · obtain ⟨hn, rfl⟩ := hr
    obtain ⟨h1, h2⟩ := compact_facts (w := 16) hn (by decide) hf
    have hmax := hmax rfl
    have hcb : cb = Spec.leBytes cb.length (leNat cb) := by rw [← lePut_eq_spec, lePut_leNat]
    have hlt := leNat_lt cb
    rw [pow256] at hlt
    refine ⟨.dec (leNat cb) 0, ?_, by rw [divide_dec, h2]⟩
    by_cases he : cb.length = 16
    · have hne : leNat cb ≠ 2 ^ 128 - 1 := by
        rcases hf with ⟨h4, _, _, _, hl⟩ | ⟨_, hv, _, _⟩
        · omega
        · rw [hv]; exact hmax
      have := C51_decode_partial env Ctx.fresh (effSub t s) isub (leNat cb) (by rw [he] at hlt; exact hlt) hne hi
      rw [← he, ← hcb] at this
      exact whole_of_decodes this (by omega)
    · have := C52_balance env Ctx.fresh (effSub t s) isub cb.length (leNat cb) (by omega) hlt hi
      rw [← hcb] at this
      exact whole_of_end this (by omega)
  · exact absurd hr (by simp)

theorem compactInput_eq (ext : Ext) {v : Val} {n : Nat} (h : CompactInput v n) (hu : ∀ m, v = .uint 8 m → n < 2 ^ 63) :
    ∃ c e, compactInput ext (argOf v) = .ok (c, e) ∧ decTrunc c e = n := by
  unfold CompactInput at h
  split at h
  · exact ⟨n, 0, by simp only [argOf, compactInput, decParse_numeral h], decTrunc_zero _⟩
  · simp only [Denotes] at h
    exact ⟨n, 0, by simp only [argOf, compactInput, h], decTrunc_zero _⟩
  · obtain ⟨rfl, h⟩ := h
    simp only [Denotes] at h
    exact ⟨n, 0, by simp only [argOf, compactInput, h], decTrunc_zero _⟩
  · obtain ⟨rfl, h⟩ := h
    simp only [Denotes] at h
    exact ⟨n, 0, by simp only [argOf, compactInput, h, wrap64_nat (hu _ rfl)], decTrunc_zero _⟩
  · exact ⟨_, _, rfl, denotes_dec_trunc h⟩
  · contradiction

theorem encodeCompact_of (ext : Ext) {v : Val} {n : Nat} {c e : Int} (hi : compactInput ext (argOf v) = .ok (c, e))
    (ht : decTrunc c e = n) (hn : n < 256 ^ 67) (hw : n < 2 ^ 30 ∨ 2 ^ 30 ≤ wrap64 n) :
    ∃ b, Spec.IsCompact n b ∧ encodeCompact ext (argOf v) = .ok (bytesToHex b) := by
  unfold encodeCompact
  simp only [hi, Res.ok_bind, decIntPart, ht]
  by_cases h30 : n < 2 ^ 30
  · obtain ⟨b, hb, hc⟩ := compactShort_spec h30
    refine ⟨b, hc, ?_⟩
    rw [wrap64_nat (by omega), hb]
  · have hw := hw.resolve_left h30
    obtain ⟨b, hc⟩ := isCompact_exists n hn
    refine ⟨b, hc, ?_⟩
    rw [compactShort_none hw]
    rcases hc with ⟨h0, _⟩ | ⟨_, h0, _⟩ | ⟨_, h0, _⟩ | ⟨_, k, hk4, hk, hlo, hhi, rfl⟩
    · omega
    · omega
    · omega
    · have hlen := byteLen_eq hhi hlo (by omega)
      have hbl : (beMin n).length = k := by rw [beMin_length, hlen]
      simp only [Int.natAbs_natCast]
      have htu : toUint 8 (((beMin n).length : Int) - 4) = k - 4 := by
        rw [hbl, show ((k : Int) - 4) = ((k - 4 : Nat) : Int) by omega, toUint_nat (by omega)]
      rw [htu, if_neg (by omega), reverseSlice_eq, beMin, List.reverse_reverse, hlen, leBytes_one (by omega),
        ← lePut_eq_spec, Nat.mul_comm (k - 4) 4]
      rfl

/-- Encoding yields the minimal SCALE compact bytes whenever `n < 2^30` or the low 64 bits of `n`, as a signed integer, are
at least 2^30; in particular for 0 <= n < 2^63. A `uint64` must be below 2^63. -/
theorem C16_encode_partial (env : Env) (ctx : ECtx) (ty t s : Str) (n : Nat) (v : Val) (h : EncResolves env ctx ty (.compact t) s)
    (hv : CompactInput v n) (hu : ∀ m, v = .uint 8 m → n < 2 ^ 63) (hn : n < 256 ^ 67) (hw : n < 2 ^ 30 ∨ 2 ^ 30 ≤ wrap64 n) :
    ∃ b, Spec.IsCompact n b ∧ Encodes env ctx ty v b := by
  obtain ⟨c, e, hi, ht⟩ := compactInput_eq env.ext hv hu
  obtain ⟨b, hb, he⟩ := encodeCompact_of env.ext hi ht hn hw
  exact ⟨b, hb, encodes_of_cls h fun r => he⟩

/-- Below 2^63 every accepted input round-trips. -/
theorem C16_roundtrip_partial (env : Env) (ectx : ECtx) (ctx : Ctx) (ty t s s' isub : Str) (cls : Cls) (n : Nat) (v r : Val)
    (he : EncResolves env ectx ty (.compact t) s') (h : Resolves env ctx.module ctx.spec ty (.compact t) s)
    (hs : effSub t s ≠ []) (hi : Resolves env [] 0 (effSub t s) cls isub) (hr : CompactInner cls n r) (hv : CompactInput v n)
    (hn : n < 2 ^ 63) : ∃ b, Spec.IsCompact n b ∧ Encodes env ectx ty v b ∧ Decodes env ctx ty b r [] := by
  obtain ⟨b, hb, hE⟩ := C16_encode_partial env ectx ty t s' n v he hv (fun _ _ => hn) (Nat.lt_of_lt_of_le hn (by decide))
    (by rw [wrap64_nat hn]; omega)
  exact ⟨b, hb, hE, C16_decode env ctx ty t s isub cls n b r h hs hi hr hb (fun _ => by omega)⟩

theorem compactShort_length {i : Int} {b : Str} (h : compactShort i = some b) : b.length ≤ 4 := by
  unfold compactShort at h
  split at h
  · cases h; simp
  · split at h
    · cases h; simp
    · split at h
      · cases h; simp
      · contradiction

theorem compactShort_small {i : Int} (h : i < 2 ^ 30) : ∃ b, compactShort i = some b := by
  unfold compactShort
  split
  · exact ⟨_, rfl⟩
  · split
    · exact ⟨_, rfl⟩
    · rw [if_pos (by omega)]; exact ⟨_, rfl⟩

/-- In all other cases the output is not the SCALE encoding: it has at most four bytes where at least five are needed. -/
theorem C16_wrong (env : Env) (ctx : ECtx) (ty t s : Str) (n : Nat) (v : Val) (h : EncResolves env ctx ty (.compact t) s)
    (hv : CompactInput v n) (hn : 2 ^ 30 ≤ n) (hu : ∀ m, v = .uint 8 m → n < 2 ^ 63) (hw : wrap64 n < 2 ^ 30) :
    ∃ b, Encodes env ctx ty v b ∧ b.length ≤ 4 ∧ ¬ Spec.IsCompact n b := by
  obtain ⟨c, e, hi, ht⟩ := compactInput_eq env.ext hv hu
  obtain ⟨b, hb⟩ := compactShort_small hw
  have hl := compactShort_length hb
  refine ⟨b, encodes_of_cls h fun r => ?_, hl, fun hc => ?_⟩
  · show encodeCompact _ _ = _
    unfold encodeCompact
    simp only [hi, Res.ok_bind, decIntPart, ht, hb]
  · rcases hc with ⟨h0, _⟩ | ⟨_, h0, _⟩ | ⟨_, h0, _⟩ | ⟨_, k, hk4, hk, hlo, hhi, rfl⟩
    · omega
    · omega
    · omega
    · simp [leBytes_length] at hl; omega

/-- A `uint64` of 2^63 or more, of which the encoder sees the negative number, gives a single byte. -/
theorem C16_uint64_wrong (env : Env) (ctx : ECtx) (ty t s : Str) (n : Nat) (h : EncResolves env ctx ty (.compact t) s)
    (hlo : 2 ^ 63 ≤ n) (hhi : n < 2 ^ 64) : Encodes env ctx ty (.uint 8 n) [UInt8.ofNat (4 * n % 256)] := by
  refine encodes_of_cls h fun r => ?_
  show encodeCompact _ _ = _
  have hneg : wrap64 n = (n : Int) - 2 ^ 64 := by
    unfold wrap64
    rw [Int.bmod_def]
    split <;> omega
  unfold encodeCompact
  simp only [argOf, compactInput, Res.ok_bind, decIntPart, decTrunc_zero, hneg]
  have h2 : wrap64 ((n : Int) - 2 ^ 64) = (n : Int) - 2 ^ 64 := wrap64_small (by omega) (by omega)
  rw [h2]
  unfold compactShort
  rw [if_pos (by omega), lePut_take 1 4 _ (by decide), lePut, lePut]
  have : toUint 32 (((n : Int) - 2 ^ 64) * 4) % 256 = 4 * n % 256 := by
    unfold toUint
    omega
  rw [this]

/-- The full claim is false: 2^63 as Compact<u64>. -/
theorem C16_claim_false : ¬ C16Claim := by
  intro hc
  have he : EncResolves (baseEnv dummyExt) ECtx.none b!"Compact<u64>" (.compact []) b!"u64" := ⟨by unfold Resolves; kernel_rfl, by decide⟩
  have hr : Resolves (baseEnv dummyExt) [] 0 b!"Compact<u64>" (.compact []) b!"u64" := by unfold Resolves; kernel_rfl
  have hi : Resolves (baseEnv dummyExt) [] 0 (effSub [] b!"u64") .u64 [] := by unfold Resolves; kernel_rfl
  obtain ⟨b, hb, hE, _⟩ := hc (baseEnv dummyExt) ECtx.none ⟨[], 0, none⟩ b!"Compact<u64>" [] b!"u64" b!"u64" [] .u64 (2 ^ 63)
    (.uint 8 (2 ^ 63)) (.uint 8 (2 ^ 63)) he hr (by decide) hi ⟨by decide, rfl⟩ ⟨rfl, rfl⟩
  have h2 := C16_uint64_wrong (baseEnv dummyExt) ECtx.none b!"Compact<u64>" [] b!"u64" (2 ^ 63) he (by decide) (by decide)
  rw [encodes_unique hE h2] at hb
  rcases hb with ⟨h0, _⟩ | ⟨_, h0, _⟩ | ⟨_, h0, _⟩ | ⟨_, k, hk4, _, _, _, hbk⟩
  · exact absurd h0 (by decide)
  · exact absurd h0 (by decide)
  · exact absurd h0 (by decide)
  · have := congrArg List.length hbk
    simp [leBytes_length] at this
    omega

/-- Base registry, a balance of 10^12, and the number 2^64 + 2^40 above 64 bits. -/
example (ext : Ext) : EncResolves (baseEnv ext) ECtx.none b!"Compact<Balance>" (.compact []) b!"Balance" ∧
    Resolves (baseEnv ext) [] 0 (effSub [] b!"Balance") .balance [] ∧ CompactInner .balance (10 ^ 12) (.dec 1000000000000 0) ∧
    CompactInput (.str b!"1000000000000") (10 ^ 12) ∧ (2 ^ 30 : Int) ≤ wrap64 ((2 ^ 64 + 2 ^ 40 : Nat) : Int) ∧
    Spec.IsCompact (10 ^ 12) [7, 0, 16, 165, 212, 232] :=
  ⟨⟨by unfold Resolves; kernel_rfl, by decide⟩, by unfold Resolves; kernel_rfl, ⟨by decide, rfl⟩,
    ⟨by decide, by decide, by decide, by decide⟩, by decide, .inr (.inr (.inr ⟨by decide, 5, by decide⟩))⟩

end ScaleGo
