import Verif.Props.C50

/-! # C57: checksummed Ethereum addresses (EIP-55) -/

namespace Spec

/-- Upper case of a lower-case ASCII letter. -/
def upper (c : UInt8) : UInt8 := if 97 ≤ c.toNat ∧ c.toNat ≤ 122 then c - 32 else c

/-- EIP-55: the digits of the address, in upper case where the hash digit at the same position is above 7 (`"8"`..`"f"`). -/
def eip55 (digits hashDigits : List UInt8) : List UInt8 :=
  List.zipWith (fun c h => if h ∈ [56, 57, 97, 98, 99, 100, 101, 102] then upper c else c) digits hashDigits

end Spec

namespace ScaleGo

theorem upper_eq : ∀ n : Fin 256, upperByte (UInt8.ofNat n.val) = Spec.upper (UInt8.ofNat n.val) := by decide +kernel

theorem hexDigit_gt7 : ∀ n : Fin 16, (n.val > 7) ↔ hexDigit n.val ∈ ([56, 57, 97, 98, 99, 100, 101, 102] : List UInt8) := by
  decide +kernel

theorem ethLoop_cons {a h : UInt8} {as hs : Str} {d : Nat} {r : Str} (hd : unhexDigit h = some d) (hr : ethLoop as hs = .ok r) :
    ethLoop (a :: as) (h :: hs) = .ok ((if d > 7 then upperByte a else a) :: r) := by
  rw [ethLoop, hd, hr]
  rfl

theorem ethLoop_eq (a : Str) : ∀ (h : Str), (∀ c ∈ h, ∃ n : Fin 16, c = hexDigit n.val) → a.length ≤ h.length →
    ethLoop a h = .ok (Spec.eip55 a h) := by
  induction a with
  | nil => intro h _ _; rfl
  | cons c cs ih =>
    intro h hh hl
    cases h with
    | nil => simp at hl
    | cons d ds =>
      obtain ⟨n, hn⟩ := hh d (by simp)
      have hu := hexDigit_inj n
      rw [← hn] at hu
      rw [ethLoop_cons hu (ih ds (fun x hx => hh x (by simp [hx])) (by simpa using hl))]
      simp only [Spec.eip55, List.zipWith_cons_cons]
      have := hexDigit_gt7 n
      rw [← hn] at this
      simp only [this]
      rw [forall_byte (P := fun x => upperByte x = Spec.upper x) upper_eq c]

theorem bytesToHex_mem (b : Str) : ∀ c ∈ bytesToHex b, ∃ n : Fin 16, c = hexDigit n.val := by
  induction b with
  | nil => simp [bytesToHex]
  | cons x xs ih =>
    intro c hc
    simp only [bytesToHex, List.mem_cons] at hc
    have hx : x.toNat < 256 := x.toNat_lt
    rcases hc with rfl | rfl | hc
    · exact ⟨⟨x.toNat / 16, by omega⟩, rfl⟩
    · exact ⟨⟨x.toNat % 16, by omega⟩, rfl⟩
    · exact ih c hc

/-- For every 20 bytes and every hash function with at least 20 bytes of output, decoding gives `0x` and the EIP-55 form of
the 40 hex digits; no panic, no other digit. -/
theorem C57_decode (env : Env) (ctx : Ctx) (ty sub : Str) (b : Str) (hb : b.length = 20)
    (hk : 20 ≤ (env.ext.keccak (Spec.hexText b)).length) (h : Resolves env ctx.module ctx.spec ty .ethereumAddress sub) :
    Decodes env ctx ty b
      (.str (b!"0x" ++ Spec.eip55 (Spec.hexText b) (Spec.hexText (env.ext.keccak (Spec.hexText b))))) [] := by
  refine decodes_of_read h fun r pre suf cs hl => ?_
  show processEthereumAddress env.ext _ = _
  unfold processEthereumAddress
  rw [nextBytes_at pre b suf cs 20 (by rw [hb]; rfl) hl]
  simp only [Res.ok_bind, ethEncode, hexToBytes_bytesToHex, hb, trimHex_bytesToHex]
  have ht : (bytesToHex b).take 40 = bytesToHex b := List.take_of_length_le (by simp [hb])
  rw [if_neg (by simp), ht, bytesToHex_eq_spec b, bytesToHex_eq_spec (env.ext.keccak _)]
  have hlen : (Spec.hexText b).length ≤ (Spec.hexText (env.ext.keccak (Spec.hexText b))).length := by
    rw [← bytesToHex_eq_spec b, ← bytesToHex_eq_spec (env.ext.keccak _), bytesToHex_length, bytesToHex_length,
      bytesToHex_eq_spec]
    omega
  rw [ethLoop_eq _ _ (by rw [← bytesToHex_eq_spec (env.ext.keccak _)]; exact bytesToHex_mem _) hlen]
  simp only [Res.ok_bind]
  congr 3
  have h0 : hasPrefix (Spec.eip55 (Spec.hexText b) (Spec.hexText (env.ext.keccak (Spec.hexText b)))) b!"0x" = false := by
    generalize Spec.hexText (env.ext.keccak (Spec.hexText b)) = H
    have hmem := bytesToHex_mem b
    rw [bytesToHex_eq_spec] at hmem
    generalize Spec.hexText b = D at hmem ⊢
    match D, H with
    | [], _ => rfl
    | _ :: _, [] => rfl
    | c :: [], h :: _ => simp [Spec.eip55, hasPrefix, List.isPrefixOf]
    | c :: d :: _, h :: [] => simp [Spec.eip55, hasPrefix, List.isPrefixOf]
    | c :: d :: _, h :: h' :: _ =>
      obtain ⟨n, hn⟩ := hmem d (by simp)
      have hx : ∀ n : Fin 16, hexDigit n.val ≠ 120 ∧ Spec.upper (hexDigit n.val) ≠ 120 := by decide +kernel
      have := hx n
      rw [← hn] at this
      simp only [Spec.eip55, List.zipWith_cons_cons, hasPrefix, List.isPrefixOf]
      have hne : (120 == (if h' ∈ [56, 57, 97, 98, 99, 100, 101, 102] then Spec.upper d else d)) = false := by
        apply beq_false_of_ne
        split
        · exact fun e => this.2 e.symm
        · exact fun e => this.1 e.symm
      rw [hne]
      simp
  simp [addHex, h0]

theorem lower_upper : ∀ n : Fin 256, lowerByte (Spec.upper (UInt8.ofNat n.val)) = lowerByte (UInt8.ofNat n.val) := by decide +kernel

/-- The checksummed form differs from the plain hex text in letter case only. -/
theorem C57_case_only (b k : Str) (hk : b.length ≤ k.length) :
    (Spec.eip55 (Spec.hexText b) (Spec.hexText k)).length = 2 * b.length ∧
    Spec.asciiLower (Spec.eip55 (Spec.hexText b) (Spec.hexText k)) = Spec.hexText b := by
  rw [← bytesToHex_eq_spec, ← bytesToHex_eq_spec]
  constructor
  · simp [Spec.eip55]; omega
  · have hl : (bytesToHex b).length ≤ (bytesToHex k).length := by simp; omega
    have hlow := toLower_bytesToHex b
    rw [← toLower_eq_spec]
    generalize bytesToHex b = D at *
    generalize bytesToHex k = H at *
    clear hk
    induction D generalizing H with
    | nil => rfl
    | cons c cs ih =>
      cases H with
      | nil => simp at hl
      | cons d ds =>
        simp only [Spec.eip55, List.zipWith_cons_cons, toLower, List.map_cons, List.cons.injEq] at *
        refine ⟨?_, ih hlow.2 ds (by simpa using hl)⟩
        split
        · rw [forall_byte (P := fun x => lowerByte (Spec.upper x) = lowerByte x) lower_upper c]
          exact hlow.1
        · exact hlow.1

/-- Encoding the checksummed form gives the original bytes. -/
theorem C57_encode (env : Env) (ctx : ECtx) (ty sub : Str) (b k : Str) (hk : b.length ≤ k.length)
    (h : EncResolves env ctx ty .ethereumAddress sub) :
    Encodes env ctx ty (.str (b!"0x" ++ Spec.eip55 (Spec.hexText b) (Spec.hexText k))) b := by
  refine ⟨1, fun m hm => ?_⟩
  obtain ⟨m, rfl⟩ : ∃ k, m = k + 1 := ⟨m - 1, by omega⟩
  rw [enc_resolves m _ h]
  show (encodeHash (.str _) >>= _) = _
  have hs : IsHexOf (b!"0x" ++ Spec.eip55 (Spec.hexText b) (Spec.hexText k)) b := ⟨_, .inr rfl, (C57_case_only b k hk).2⟩
  simp only [encodeHash, asStr, Res.ok_bind, isHexOf_add hs, trimHex_lower_0x]

example (ext : Ext) : Resolves (baseEnv ext) [] 0 b!"EthereumAddress" .ethereumAddress [] ∧
    EncResolves (baseEnv ext) ECtx.none b!"EthereumAddress" .ethereumAddress [] ∧
    Spec.eip55 b!"5aaeb6" b!"1848f0" = b!"5AaEB6" ∧ (dummyExt.keccak b!"5aaeb6").length = 32 :=
  ⟨by unfold Resolves; kernel_rfl, ⟨by unfold Resolves; kernel_rfl, by decide⟩, by decide, by decide⟩

end ScaleGo
