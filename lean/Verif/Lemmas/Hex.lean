import Verif.Model.Tools

/-! # Lemmas about hex text and byte lists -/

namespace ScaleGo

theorem forall_byte {P : UInt8 → Prop} (h : ∀ n : Fin 256, P (UInt8.ofNat n.val)) (b : UInt8) : P b := by
  have := h ⟨b.toNat, b.toNat_lt⟩
  simpa using this

theorem hexDigit_inj : ∀ n : Fin 16, unhexDigit (hexDigit n.val) = some n.val := by decide +kernel

theorem unhex_hexDigit {n : Nat} (h : n < 16) : unhexDigit (hexDigit n) = some n := hexDigit_inj ⟨n, h⟩

theorem hexDigit_ne_x : ∀ n : Fin 16, hexDigit n.val ≠ 120 := by decide +kernel

theorem bytesToHex_nil : bytesToHex [] = [] := rfl

theorem bytesToHex_append (a b : Str) : bytesToHex (a ++ b) = bytesToHex a ++ bytesToHex b := by
  induction a with
  | nil => rfl
  | cons x xs ih => simp [bytesToHex, ih]

@[simp] theorem bytesToHex_length (a : Str) : (bytesToHex a).length = 2 * a.length := by
  induction a with
  | nil => rfl
  | cons x xs ih => simp [bytesToHex, ih]; omega

theorem byte_split (b : UInt8) : UInt8.ofNat (b.toNat / 16 * 16 + b.toNat % 16) = b := by
  have : b.toNat / 16 * 16 + b.toNat % 16 = b.toNat := by omega
  rw [this]; simp

theorem hexDecode_bytesToHex (b : Str) : hexDecode (bytesToHex b) = b := by
  induction b with
  | nil => rfl
  | cons x xs ih =>
    have hx : x.toNat < 256 := x.toNat_lt
    simp only [bytesToHex, hexDecode, unhex_hexDigit (show x.toNat / 16 < 16 by omega),
      unhex_hexDigit (show x.toNat % 16 < 16 by omega), ih, byte_split]

/-- The hex text of bytes never starts with `0x` (the second digit is never `x`). -/
theorem hasPrefix_0x_bytesToHex (b : Str) : hasPrefix (bytesToHex b) b!"0x" = false := by
  cases b with
  | nil => rfl
  | cons x xs =>
    have hx : x.toNat < 256 := x.toNat_lt
    have := hexDigit_ne_x ⟨x.toNat % 16, by omega⟩
    simp only [bytesToHex, hasPrefix, List.isPrefixOf]
    simp
    intro _ h
    exact absurd h.symm this

@[simp] theorem trimHex_bytesToHex (b : Str) : trimHex (bytesToHex b) = bytesToHex b := by
  simp [trimHex, trimPrefix, hasPrefix_0x_bytesToHex]

@[simp] theorem addHex_bytesToHex (b : Str) : addHex (bytesToHex b) = b!"0x" ++ bytesToHex b := by
  simp [addHex, hasPrefix_0x_bytesToHex]

@[simp] theorem hexToBytes_bytesToHex (b : Str) : hexToBytes (bytesToHex b) = b := by
  simp [hexToBytes, hexDecode_bytesToHex]

@[simp] theorem trimHex_0x (s : Str) : trimHex (b!"0x" ++ s) = s := by
  simp [trimHex, trimPrefix, hasPrefix]

@[simp] theorem trimHex_0x' (s : Str) : trimHex (48 :: 120 :: s) = s := trimHex_0x s

@[simp] theorem hexToBytes_0x (s : Str) : hexToBytes (b!"0x" ++ s) = hexDecode s := by
  rw [hexToBytes, trimHex_0x]

theorem lower_hexDigit : ∀ n : Fin 16, lowerByte (hexDigit n.val) = hexDigit n.val := by decide +kernel

@[simp] theorem toLower_bytesToHex (b : Str) : toLower (bytesToHex b) = bytesToHex b := by
  induction b with
  | nil => rfl
  | cons x xs ih =>
    have hx : x.toNat < 256 := x.toNat_lt
    have h1 := lower_hexDigit ⟨x.toNat / 16, by omega⟩
    have h2 := lower_hexDigit ⟨x.toNat % 16, by omega⟩
    simp only [toLower] at ih
    simp only [bytesToHex, toLower, List.map_cons, ih]
    simp only at h1 h2
    rw [h1, h2]

theorem lowerByte_idem (b : UInt8) : lowerByte (lowerByte b) = lowerByte b :=
  forall_byte (P := fun b => lowerByte (lowerByte b) = lowerByte b) (by decide +kernel) b

theorem toLower_idem (s : Str) : toLower (toLower s) = toLower s := by
  simp only [toLower, List.map_map]
  congr 1
  funext b
  exact lowerByte_idem b

theorem bytesToHex_injective {a b : Str} (h : bytesToHex a = bytesToHex b) : a = b := by
  rw [← hexDecode_bytesToHex a, ← hexDecode_bytesToHex b, h]

/-- A byte is a hex digit. -/
def isHexByte (b : UInt8) : Bool := (unhexDigit b).isSome

theorem lower_of_unhex : ∀ n : Fin 256, ∀ x, unhexDigit (UInt8.ofNat n.val) = some x →
    x < 16 ∧ hexDigit x = lowerByte (UInt8.ofNat n.val) := by
  have h : ∀ n : Fin 256, (unhexDigit (UInt8.ofNat n.val)).all
      (fun x => decide (x < 16 ∧ hexDigit x = lowerByte (UInt8.ofNat n.val))) = true := by decide +kernel
  intro n x hx
  have := h n
  rw [hx] at this
  simpa using this

theorem unhex_spec {b : UInt8} {x : Nat} (h : unhexDigit b = some x) : x < 16 ∧ hexDigit x = lowerByte b := by
  have := lower_of_unhex ⟨b.toNat, b.toNat_lt⟩ x
  simp at this
  exact this h

/-- Decoding then printing valid even-length hex text gives it back in lower case. -/
theorem bytesToHex_hexDecode : ∀ (s : Str), s.length % 2 = 0 → s.all isHexByte = true →
    bytesToHex (hexDecode s) = toLower s
  | [], _, _ => rfl
  | [_], h, _ => by simp at h
  | a :: b :: rest, hl, hv => by
    simp only [List.all_cons, Bool.and_eq_true] at hv
    obtain ⟨ha, hb, hr⟩ := hv
    obtain ⟨x, hx⟩ := Option.isSome_iff_exists.mp ha
    obtain ⟨y, hy⟩ := Option.isSome_iff_exists.mp hb
    have ih := bytesToHex_hexDecode rest (by simp at hl; omega) hr
    obtain ⟨hx1, hx2⟩ := unhex_spec hx
    obtain ⟨hy1, hy2⟩ := unhex_spec hy
    simp only [hexDecode, hx, hy, bytesToHex, ih]
    have h0 : (UInt8.ofNat (x * 16 + y)).toNat = x * 16 + y := by
      simp [UInt8.toNat_ofNat']; omega
    rw [h0, show (x * 16 + y) / 16 = x by omega, show (x * 16 + y) % 16 = y by omega, hx2, hy2]
    rfl

end ScaleGo
