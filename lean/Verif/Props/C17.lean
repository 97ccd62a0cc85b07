import Verif.Props.C16

/-! # C17: Compact<u8> and Compact<u16>

The inner decoder reads one (two) bytes of the compact bytes, before the mode bits are shifted out.  So the decoded number
is the number modulo 2^6 (2^14), which is right exactly below that bound. -/

namespace ScaleGo

/-- The full claim: what `Encode` produces for a `u8` or `u16` number decodes to that number. -/
def C17Claim : Prop :=
  ∀ (env : Env) (ectx : ECtx) (ctx : Ctx) (ty t s s' isub : Str) (w n : Nat) (v : Val) (b : Str), w = 1 ∨ w = 2 →
    EncResolves env ectx ty (.compact t) s' → Resolves env ctx.module ctx.spec ty (.compact t) s →
    effSub t s ≠ [] → Resolves env [] 0 (effSub t s) (uintClass w) isub → n < 2 ^ (8 * w) → CompactInput v n →
    Encodes env ectx ty v b → Decodes env ctx ty b (.uint 8 n) []

theorem whole_prefix {env : Env} {ty b : Str} {v : Val} (suf : Str) (h : Decodes env Ctx.fresh ty b v [])
    (hl : (b ++ suf).length < 2 ^ 63) : DecodesWhole env ty (b ++ suf) v := by
  obtain ⟨N, h⟩ := h
  refine ⟨N, fun n hn => ?_⟩
  have := h n hn [] suf [] (by simpa using hl)
  simp only [List.nil_append, List.append_nil, List.length_nil] at this
  exact ⟨_, this⟩

/-- The inner decoder on one byte or more. -/
theorem whole_small {env : Env} {ty cb isub : Str} {w : Nat} (hw : w = 1 ∨ w = 2) (h : Resolves env [] 0 ty (uintClass w) isub)
    (hl0 : 1 ≤ cb.length) (hl : cb.length ≤ 4) : DecodesWhole env ty cb (uintValue w (leNat cb % 2 ^ (8 * w))) := by
  have hcb : cb = lePut cb.length (leNat cb) := by rw [lePut_leNat]
  by_cases hwl : w ≤ cb.length
  · have e : cb = Spec.leBytes w (leNat cb % 2 ^ (8 * w)) ++ cb.drop w := by
      rw [← lePut_eq_spec, lePut_mod _ _ _ (by rw [pow256]), ← lePut_take w cb.length _ hwl, ← hcb, List.take_append_drop]
    have hd := C07_decode env Ctx.fresh ty w (leNat cb % 2 ^ (8 * w)) isub (by rcases hw with rfl | rfl <;> simp)
      (Nat.mod_lt _ (Nat.two_pow_pos _)) h
    have := whole_prefix (cb.drop w) hd (by rw [← e]; omega)
    rwa [← e] at this
  · obtain rfl : w = 2 := by omega
    obtain ⟨v, hv, hd⟩ := whole_unsigned (env := env) (ty := ty) (cb := cb) (isub := isub) (w := 2) (by decide) h (by omega)
    have hv : v = .uint 2 (leNat cb) := hv
    subst hv
    have hlt := leNat_lt cb
    have h1 : cb.length = 1 := by omega
    rw [h1] at hlt
    rw [Nat.mod_eq_of_lt (by omega)]
    exact hd

/-- Exact result: the compact encoding of any number below 2^30 decodes as Compact<u8> to the number modulo 64, as
Compact<u16> to the number modulo 16384. -/
theorem C17_decode_exact (env : Env) (ctx : Ctx) (ty t s isub : Str) (w n : Nat) (b : Str) (hw : w = 1 ∨ w = 2)
    (h : Resolves env ctx.module ctx.spec ty (.compact t) s) (hs : effSub t s ≠ [])
    (hi : Resolves env [] 0 (effSub t s) (uintClass w) isub) (hb : Spec.IsCompact n b) (hn : n < 2 ^ 30) :
    Decodes env ctx ty b (.uint 8 (n % 2 ^ (8 * w - 2))) [] := by
  refine compact_decodes hb h hs fun len cb hf => ?_
  rcases hf with ⟨h4, _, hcb, hv, hl⟩ | ⟨h4, hv, hl, hmin, h30⟩
  · have hpos : 1 ≤ cb.length := by
      rw [hcb]
      rcases hb with ⟨_, rfl⟩ | ⟨_, _, rfl⟩ | ⟨_, _, rfl⟩ | ⟨_, k, _, _, _, _, rfl⟩ <;> simp [leBytes_length]
    refine ⟨_, whole_small hw hi hpos (by omega), ?_⟩
    have hle : ((len : Int) ≤ 4) := by omega
    rcases hw with rfl | rfl
    · rw [show uintValue 1 (leNat cb % 2 ^ (8 * 1)) = .int ((leNat cb % 2 ^ (8 * 1) : Nat) : Int) from rfl]
      simp only [compactDivide, if_pos hle]
      rw [toUint_nat (by omega), show leNat cb % 2 ^ (8 * 1) / 4 = n % 2 ^ (8 * 1 - 2) by omega]
    · rw [show uintValue 2 (leNat cb % 2 ^ (8 * 2)) = .uint 2 (leNat cb % 2 ^ (8 * 2)) from rfl]
      simp only [compactDivide, if_pos hle]
      rw [show leNat cb % 2 ^ (8 * 2) / 4 = n % 2 ^ (8 * 2 - 2) by omega]
  · omega

/-- Right below 64 and 16384. -/
theorem C17_roundtrip_partial (env : Env) (ectx : ECtx) (ctx : Ctx) (ty t s s' isub : Str) (w n : Nat) (v : Val) (hw : w = 1 ∨ w = 2)
    (he : EncResolves env ectx ty (.compact t) s') (h : Resolves env ctx.module ctx.spec ty (.compact t) s)
    (hs : effSub t s ≠ []) (hi : Resolves env [] 0 (effSub t s) (uintClass w) isub) (hn : n < 2 ^ (8 * w - 2))
    (hv : CompactInput v n) : ∃ b, Spec.IsCompact n b ∧ Encodes env ectx ty v b ∧ Decodes env ctx ty b (.uint 8 n) [] := by
  have h14 : n < 2 ^ 14 := by rcases hw with rfl | rfl <;> omega
  obtain ⟨b, hb, hE⟩ := C16_encode_partial env ectx ty t s' n v he hv (fun _ _ => by omega) (Nat.lt_of_lt_of_le h14 (by decide))
    (.inl (by omega))
  have := C17_decode_exact env ctx ty t s isub w n b hw h hs hi hb (by omega)
  rw [Nat.mod_eq_of_lt hn] at this
  exact ⟨b, hb, hE, this⟩

theorem decodes_unique {env : Env} {ctx : Ctx} {ty b ic ic' : _} {v v' : Val} (h : Decodes env ctx ty b v ic)
    (h' : Decodes env ctx ty b v' ic') (hl : b.length < 2 ^ 63) : v = v' := by
  obtain ⟨N, h⟩ := h
  obtain ⟨N', h'⟩ := h'
  have e := h (N + N') (by omega) [] [] [] (by simpa using hl)
  have e' := h' (N + N') (by omega) [] [] [] (by simpa using hl)
  rw [e] at e'
  injection e' with e'
  exact (Prod.mk.inj e').1

/-- From 64 (16384) on the round trip gives another number, for every such value of the type. -/
theorem C17_wrong (env : Env) (ectx : ECtx) (ctx : Ctx) (ty t s s' isub : Str) (w n : Nat) (v : Val) (hw : w = 1 ∨ w = 2)
    (he : EncResolves env ectx ty (.compact t) s') (h : Resolves env ctx.module ctx.spec ty (.compact t) s)
    (hs : effSub t s ≠ []) (hi : Resolves env [] 0 (effSub t s) (uintClass w) isub) (hlo : 2 ^ (8 * w - 2) ≤ n)
    (hn : n < 2 ^ (8 * w)) (hv : CompactInput v n) :
    ∃ b m, Encodes env ectx ty v b ∧ Decodes env ctx ty b (.uint 8 m) [] ∧ m ≠ n ∧ ¬ Decodes env ctx ty b (.uint 8 n) [] := by
  have h16 : n < 2 ^ 16 := by rcases hw with rfl | rfl <;> omega
  obtain ⟨b, hb, hE⟩ := C16_encode_partial env ectx ty t s' n v he hv (fun _ _ => by omega) (Nat.lt_of_lt_of_le h16 (by decide))
    (.inl (by omega))
  have hd := C17_decode_exact env ctx ty t s isub w n b hw h hs hi hb (by omega)
  have hne : n % 2 ^ (8 * w - 2) ≠ n := by
    have := Nat.mod_lt n (Nat.two_pow_pos (8 * w - 2))
    omega
  refine ⟨b, _, hE, hd, hne, fun hd' => hne ?_⟩
  have hl : b.length < 2 ^ 63 := by
    rcases hb with ⟨_, rfl⟩ | ⟨_, _, rfl⟩ | ⟨_, _, rfl⟩ | ⟨h0, _⟩
    · simp [leBytes_length]
    · simp [leBytes_length]
    · simp [leBytes_length]
    · omega
  have := decodes_unique hd hd' hl
  injection this

/-- The full claim is false: 64 as Compact<u8> comes back as 0. -/
theorem C17_claim_false : ¬ C17Claim := by
  intro hc
  have he : EncResolves (baseEnv dummyExt) ECtx.none b!"Compact<u8>" (.compact []) b!"u8" := ⟨by unfold Resolves; kernel_rfl, by decide⟩
  have hr : Resolves (baseEnv dummyExt) [] 0 b!"Compact<u8>" (.compact []) b!"u8" := by unfold Resolves; kernel_rfl
  have hi : Resolves (baseEnv dummyExt) [] 0 (effSub [] b!"u8") (uintClass 1) [] := by unfold Resolves; kernel_rfl
  obtain ⟨b, m, hE, _, _, hd⟩ := C17_wrong (baseEnv dummyExt) ECtx.none ⟨[], 0, none⟩ b!"Compact<u8>" [] b!"u8" b!"u8" [] 1 64 (.int 64)
    (.inl rfl) he hr (by decide) hi (by decide) (by decide) rfl
  exact hd (hc _ _ ⟨[], 0, none⟩ _ _ _ _ _ 1 64 (.int 64) b (.inl rfl) he hr (by decide) hi (by decide) rfl hE)

/-- Base registry, Compact<u16> and the number 16000. -/
example (ext : Ext) : EncResolves (baseEnv ext) ECtx.none b!"Compact<u16>" (.compact []) b!"u16" ∧
    Resolves (baseEnv ext) [] 0 (effSub [] b!"u16") (uintClass 2) [] ∧ CompactInput (.uint 8 16000) 16000 ∧
    Spec.IsCompact 16000 [1, 250] :=
  ⟨⟨by unfold Resolves; kernel_rfl, by decide⟩, by unfold Resolves; kernel_rfl, ⟨rfl, rfl⟩, .inr (.inl ⟨by decide, by decide, by decide⟩)⟩

end ScaleGo
