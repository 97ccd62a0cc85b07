/-! # Byte-level specification

Plain definitions of the notions the properties talk about.  Nothing here refers to the model of the Go code. -/

namespace Spec

/-- The sixteen lower-case hex characters. -/
def hexChars : List UInt8 :=
  [48, 49, 50, 51, 52, 53, 54, 55, 56, 57, 97, 98, 99, 100, 101, 102]

/-- Hex text of a byte string: two characters per byte, high nibble first. -/
def hexText (b : List UInt8) : List UInt8 :=
  b.flatMap fun x => [hexChars.getD (x.toNat / 16) 0, hexChars.getD (x.toNat % 16) 0]

/-- Characters 0-9, a-f, A-F. -/
def IsHexChar (c : UInt8) : Prop :=
  (48 ≤ c.toNat ∧ c.toNat ≤ 57) ∨ (97 ≤ c.toNat ∧ c.toNat ≤ 102) ∨ (65 ≤ c.toNat ∧ c.toNat ≤ 70)

/-- ASCII lower case: A-Z shifted by 32, everything else unchanged. -/
def asciiLower (s : List UInt8) : List UInt8 :=
  s.map fun c => if 65 ≤ c.toNat ∧ c.toNat ≤ 90 then c + 32 else c

/-- `v` as exactly `w` little-endian bytes: byte `i` is the `i`-th base-256 digit. -/
def leBytes (w v : Nat) : List UInt8 :=
  (List.range w).map fun i => UInt8.ofNat (v / 256 ^ i % 256)

/-- The part of `data` from position `i` up to, not including, position `j`. -/
def slice (data : List UInt8) (i j : Nat) : List UInt8 := (data.drop i).take (j - i)

/-- Value of a digit string, most significant digit first. -/
def digitsValue (s : List UInt8) : Nat := s.foldl (fun acc c => acc * 10 + (c.toNat - 48)) 0

/-- `s` is the base-10 numeral of `n`: only digits, no superfluous leading zero, value `n`. -/
def IsNumeral (s : List UInt8) (n : Nat) : Prop :=
  s ≠ [] ∧ (∀ c ∈ s, 48 ≤ c.toNat ∧ c.toNat ≤ 57) ∧ (s.head? = some 48 → s = [48]) ∧ digitsValue s = n

/-- The integer whose two's complement representation in `bits` bits is the bit pattern `n`. -/
def twos (bits n : Nat) : Int := if n < 2 ^ (bits - 1) then n else (n : Int) - 2 ^ bits

/-- `i` is in the range of signed integers of `bits` bits. -/
def SignedRange (bits : Nat) (i : Int) : Prop := -(2 ^ (bits - 1)) ≤ i ∧ i < 2 ^ (bits - 1)

/-- The `w` little-endian bytes of the two's complement representation of `i`. -/
def signedBytes (w : Nat) (i : Int) : List UInt8 := leBytes w (i % 2 ^ (8 * w)).toNat

end Spec
