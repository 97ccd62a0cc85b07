/-! # The Keccak permutation and sponge as FIPS 202 describes them

Everything is on bits.  Nothing here refers to the model of the Go code. -/

namespace Spec.Keccak

/-- A state array: the bit at `(x, y, z)`, `x, y < 5`, `z < 64` (FIPS 202, 3.1). -/
abbrev Bits := Nat → Nat → Nat → Bool

/-- Column parity (3.2.1). -/
def parity (A : Bits) (x z : Nat) : Bool := A x 0 z ^^ A x 1 z ^^ A x 2 z ^^ A x 3 z ^^ A x 4 z

/-- θ (3.2.1). -/
def theta (A : Bits) : Bits := fun x y z =>
  A x y z ^^ (parity A ((x + 4) % 5) z ^^ parity A ((x + 1) % 5) ((z + 63) % 64))

/-- The walk through the lanes in the definition of ρ (3.2.2): `(1, 0)`, then `(x, y) ↦ (y, 2x + 3y)`. -/
def walk : Nat → Nat × Nat
  | 0 => (1, 0)
  | t + 1 => ((walk t).2, (2 * (walk t).1 + 3 * (walk t).2) % 5)

/-- Rotation offset of lane `(x, y)`: `(t+1)(t+2)/2` where the walk is at the lane at time `t < 24`, 0 for lane `(0, 0)`. -/
def offset (x y : Nat) : Nat :=
  match (List.range 24).find? (fun t => walk t == (x, y)) with
  | some t => (t + 1) * (t + 2) / 2
  | none => 0

/-- ρ (3.2.2): bit `z` comes from position `z` minus the offset, modulo 64. -/
def rho (A : Bits) : Bits := fun x y z => A x y ((z + (64 - offset x y % 64)) % 64)

/-- π (3.2.3). -/
def pi (A : Bits) : Bits := fun x y z => A ((x + 3 * y) % 5) x z

/-- χ (3.2.4). -/
def chi (A : Bits) : Bits := fun x y z => A x y z ^^ (!A ((x + 1) % 5) y z && A ((x + 2) % 5) y z)

/-- One step of the linear feedback shift register (3.2.5, algorithm 5). -/
def lfsrStep (R : List Bool) : List Bool :=
  match false :: R with
  | [r0, r1, r2, r3, r4, r5, r6, r7, r8] => [r0 ^^ r8, r1, r2, r3, r4 ^^ r8, r5 ^^ r8, r6 ^^ r8, r7]
  | _ => []

/-- `rc(t)` (3.2.5, algorithm 5). -/
def rcBit (t : Nat) : Bool :=
  (Nat.repeat lfsrStep (t % 255) [true, false, false, false, false, false, false, false]).getD 0 false

/-- The round constant: bit `2^j - 1` is `rc(j + 7 ir)` for `j ≤ 6`, all other bits are zero. -/
def roundConstant (ir z : Nat) : Bool := (List.range 7).any (fun j => z + 1 == 2 ^ j && rcBit (j + 7 * ir))

/-- ι (3.2.5). -/
def iota (ir : Nat) (A : Bits) : Bits := fun x y z =>
  if x = 0 ∧ y = 0 then A x y z ^^ roundConstant ir z else A x y z

/-- A round (3.3). -/
def round (ir : Nat) (A : Bits) : Bits := iota ir (chi (pi (rho (theta A))))

/-- Keccak-f[1600]: 24 rounds (3.3, 3.4). -/
def permutation (A : Bits) : Bits := (List.range 24).foldl (fun A ir => round ir A) A

/-! ## The sponge (section 4) -/

/-- XOR of a block of bits into the state; bit `z` of lane `(x, y)` is bit `64(5y+x)+z` of the string (3.1.2). -/
def absorb (A : Bits) (P : List Bool) : Bits := fun x y z => A x y z ^^ P.getD (64 * (5 * y + x) + z) false

/-- The first `r` bits of the state (3.1.3). -/
def truncate (A : Bits) (r : Nat) : List Bool := (List.range r).map fun i => A (i / 64 % 5) (i / 64 / 5) (i % 64)

/-- `pad10*1(r, m)` (5.1): a one, as few zeros as possible, a one, so that `m` and the padding fill blocks of `r` bits. -/
def pad (r m : Nat) : List Bool := true :: List.replicate ((r - (m + 2) % r) % r) false ++ [true]

/-- The blocks of `r` bits of a string (`n` of them). -/
def blocks (r : Nat) (P : List Bool) : List (List Bool) :=
  (List.range (P.length / r)).map fun i => (P.drop (r * i)).take r

/-- The state after absorbing the padded string `N` (algorithm 8, steps 1-6). -/
def absorbed (r : Nat) (N : List Bool) : Bits :=
  (blocks r (N ++ pad r N.length)).foldl (fun A P => permutation (absorb A P)) (fun _ _ _ => false)

/-- `SPONGE[Keccak-f[1600], pad10*1, r](N, d)` (algorithm 8): the first `d` bits squeezed out. -/
def sponge (r : Nat) (N : List Bool) (d : Nat) : List Bool :=
  ((List.range (d / r + 1)).flatMap fun i => truncate (Nat.repeat permutation i (absorbed r N)) r).take d

/-- The bits of a byte string, least significant bit of each byte first (B.1). -/
def bitsOf (M : List UInt8) : List Bool := M.flatMap fun b => (List.range 8).map fun i => b.toNat.testBit i

end Spec.Keccak
