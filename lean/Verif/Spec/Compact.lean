import Verif.Spec.Bytes

/-! # The SCALE compact encoding -/

namespace Spec

/-- `b` is the SCALE compact encoding of `n`: one byte below 2^6, two below 2^14, four below 2^30, otherwise a length byte
and the least number (at least four) of little-endian bytes.  The mode is in the two low bits of the first byte. -/
def IsCompact (n : Nat) (b : List UInt8) : Prop :=
  (n < 2 ^ 6 ∧ b = leBytes 1 (4 * n)) ∨
  (2 ^ 6 ≤ n ∧ n < 2 ^ 14 ∧ b = leBytes 2 (4 * n + 1)) ∨
  (2 ^ 14 ≤ n ∧ n < 2 ^ 30 ∧ b = leBytes 4 (4 * n + 2)) ∨
  (2 ^ 30 ≤ n ∧ ∃ k, 4 ≤ k ∧ k ≤ 67 ∧ 256 ^ (k - 1) ≤ n ∧ n < 256 ^ k ∧ b = leBytes 1 (4 * (k - 4) + 3) ++ leBytes k n)

/-- Number of bytes announced by the first byte of a compact number. -/
def compactLen (b : UInt8) : Nat :=
  if b.toNat % 4 = 0 then 1 else if b.toNat % 4 = 1 then 2 else if b.toNat % 4 = 2 then 4 else 5 + b.toNat / 4

end Spec
