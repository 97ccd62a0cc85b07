import Verif.Model.Tools

/-!
# `pkg/go-ethereum/crypto/sha3`, `utiles/crypto/keccak`, `utiles/crypto/ethereum`

The portable Go code is modelled (keccakf.go, xor_generic.go).  On amd64 the build picks word-wise copies
(xor_unaligned.go, see KeccakUnaligned.lean) and an assembly version of the permutation (keccakf_amd64.s, see KeccakAmd64.lean).
The four round definitions are a statement by statement transcription of the loop body.
-/

namespace ScaleGo.Sha3

open ScaleGo

/-- Go `uint64`.  See pkg/go-ethereum/crypto/sha3/sha3.go:25. -/
abbrev Word := BitVec 64

/-- The state array `[25]uint64` (pkg/go-ethereum/crypto/sha3/sha3.go:25). -/
structure Lanes where
  a0 : Word
  a1 : Word
  a2 : Word
  a3 : Word
  a4 : Word
  a5 : Word
  a6 : Word
  a7 : Word
  a8 : Word
  a9 : Word
  a10 : Word
  a11 : Word
  a12 : Word
  a13 : Word
  a14 : Word
  a15 : Word
  a16 : Word
  a17 : Word
  a18 : Word
  a19 : Word
  a20 : Word
  a21 : Word
  a22 : Word
  a23 : Word
  a24 : Word
  deriving DecidableEq

/-- The zero value of the state array.  See pkg/go-ethereum/crypto/sha3/sha3.go:25. -/
def Lanes.zero : Lanes := ⟨0, 0, 0, 0, 0, 0, 0, 0, 0, 0, 0, 0, 0, 0, 0, 0, 0, 0, 0, 0, 0, 0, 0, 0, 0⟩

/-- The array elements in order.  See pkg/go-ethereum/crypto/sha3/sha3.go:25. -/
def Lanes.toList : Lanes → List Word
  | ⟨a0, a1, a2, a3, a4, a5, a6, a7, a8, a9, a10, a11, a12, a13, a14, a15, a16, a17, a18, a19, a20, a21, a22, a23, a24⟩ => [a0, a1, a2, a3, a4, a5, a6, a7, a8, a9, a10, a11, a12, a13, a14, a15, a16, a17, a18, a19, a20, a21, a22, a23, a24]

/-- `a[i]`.  See pkg/go-ethereum/crypto/sha3/xor_generic.go:12-28. -/
def Lanes.get (s : Lanes) (i : Nat) : Word := s.toList.getD i 0

/-- A state array from its elements.  See pkg/go-ethereum/crypto/sha3/sha3.go:25. -/
def Lanes.ofFn (f : Nat → Word) : Lanes := ⟨f 0, f 1, f 2, f 3, f 4, f 5, f 6, f 7, f 8, f 9, f 10, f 11, f 12, f 13, f 14, f 15, f 16, f 17, f 18, f 19, f 20, f 21, f 22, f 23, f 24⟩

/-- Round constants `rc` (pkg/go-ethereum/crypto/sha3/keccakf.go:10-35). -/
def rc : List Word :=
  [0x0000000000000001, 0x0000000000008082, 0x800000000000808A, 0x8000000080008000,
   0x000000000000808B, 0x0000000080000001, 0x8000000080008081, 0x8000000000008009,
   0x000000000000008A, 0x0000000000000088, 0x0000000080008009, 0x000000008000000A,
   0x000000008000808B, 0x800000000000008B, 0x8000000000008089, 0x8000000000008003,
   0x8000000000008002, 0x8000000000000080, 0x000000000000800A, 0x800000008000000A,
   0x8000000080008081, 0x8000000000008080, 0x0000000080000001, 0x8000000080008008]

/-- Round 1 of the unrolled loop body (pkg/go-ethereum/crypto/sha3/keccakf.go:48-137), one `let` per statement. -/
def round1 (k : Word) : Lanes → Lanes
  | ⟨a0, a1, a2, a3, a4, a5, a6, a7, a8, a9, a10, a11, a12, a13, a14, a15, a16, a17, a18, a19, a20, a21, a22, a23, a24⟩ =>
    let bc0 := a0 ^^^ a5 ^^^ a10 ^^^ a15 ^^^ a20
    let bc1 := a1 ^^^ a6 ^^^ a11 ^^^ a16 ^^^ a21
    let bc2 := a2 ^^^ a7 ^^^ a12 ^^^ a17 ^^^ a22
    let bc3 := a3 ^^^ a8 ^^^ a13 ^^^ a18 ^^^ a23
    let bc4 := a4 ^^^ a9 ^^^ a14 ^^^ a19 ^^^ a24
    let d0 := bc4 ^^^ (bc1 <<< 1 ||| bc1 >>> 63)
    let d1 := bc0 ^^^ (bc2 <<< 1 ||| bc2 >>> 63)
    let d2 := bc1 ^^^ (bc3 <<< 1 ||| bc3 >>> 63)
    let d3 := bc2 ^^^ (bc4 <<< 1 ||| bc4 >>> 63)
    let d4 := bc3 ^^^ (bc0 <<< 1 ||| bc0 >>> 63)
    let bc0 := a0 ^^^ d0
    let t := a6 ^^^ d1
    let bc1 := (t <<< 44 ||| t >>> (64 - 44))
    let t := a12 ^^^ d2
    let bc2 := (t <<< 43 ||| t >>> (64 - 43))
    let t := a18 ^^^ d3
    let bc3 := (t <<< 21 ||| t >>> (64 - 21))
    let t := a24 ^^^ d4
    let bc4 := (t <<< 14 ||| t >>> (64 - 14))
    let a0 := bc0 ^^^ (bc2 &&& ~~~bc1) ^^^ k
    let a6 := bc1 ^^^ (bc3 &&& ~~~bc2)
    let a12 := bc2 ^^^ (bc4 &&& ~~~bc3)
    let a18 := bc3 ^^^ (bc0 &&& ~~~bc4)
    let a24 := bc4 ^^^ (bc1 &&& ~~~bc0)
    let t := a10 ^^^ d0
    let bc2 := (t <<< 3 ||| t >>> (64 - 3))
    let t := a16 ^^^ d1
    let bc3 := (t <<< 45 ||| t >>> (64 - 45))
    let t := a22 ^^^ d2
    let bc4 := (t <<< 61 ||| t >>> (64 - 61))
    let t := a3 ^^^ d3
    let bc0 := (t <<< 28 ||| t >>> (64 - 28))
    let t := a9 ^^^ d4
    let bc1 := (t <<< 20 ||| t >>> (64 - 20))
    let a10 := bc0 ^^^ (bc2 &&& ~~~bc1)
    let a16 := bc1 ^^^ (bc3 &&& ~~~bc2)
    let a22 := bc2 ^^^ (bc4 &&& ~~~bc3)
    let a3 := bc3 ^^^ (bc0 &&& ~~~bc4)
    let a9 := bc4 ^^^ (bc1 &&& ~~~bc0)
    let t := a20 ^^^ d0
    let bc4 := (t <<< 18 ||| t >>> (64 - 18))
    let t := a1 ^^^ d1
    let bc0 := (t <<< 1 ||| t >>> (64 - 1))
    let t := a7 ^^^ d2
    let bc1 := (t <<< 6 ||| t >>> (64 - 6))
    let t := a13 ^^^ d3
    let bc2 := (t <<< 25 ||| t >>> (64 - 25))
    let t := a19 ^^^ d4
    let bc3 := (t <<< 8 ||| t >>> (64 - 8))
    let a20 := bc0 ^^^ (bc2 &&& ~~~bc1)
    let a1 := bc1 ^^^ (bc3 &&& ~~~bc2)
    let a7 := bc2 ^^^ (bc4 &&& ~~~bc3)
    let a13 := bc3 ^^^ (bc0 &&& ~~~bc4)
    let a19 := bc4 ^^^ (bc1 &&& ~~~bc0)
    let t := a5 ^^^ d0
    let bc1 := (t <<< 36 ||| t >>> (64 - 36))
    let t := a11 ^^^ d1
    let bc2 := (t <<< 10 ||| t >>> (64 - 10))
    let t := a17 ^^^ d2
    let bc3 := (t <<< 15 ||| t >>> (64 - 15))
    let t := a23 ^^^ d3
    let bc4 := (t <<< 56 ||| t >>> (64 - 56))
    let t := a4 ^^^ d4
    let bc0 := (t <<< 27 ||| t >>> (64 - 27))
    let a5 := bc0 ^^^ (bc2 &&& ~~~bc1)
    let a11 := bc1 ^^^ (bc3 &&& ~~~bc2)
    let a17 := bc2 ^^^ (bc4 &&& ~~~bc3)
    let a23 := bc3 ^^^ (bc0 &&& ~~~bc4)
    let a4 := bc4 ^^^ (bc1 &&& ~~~bc0)
    let t := a15 ^^^ d0
    let bc3 := (t <<< 41 ||| t >>> (64 - 41))
    let t := a21 ^^^ d1
    let bc4 := (t <<< 2 ||| t >>> (64 - 2))
    let t := a2 ^^^ d2
    let bc0 := (t <<< 62 ||| t >>> (64 - 62))
    let t := a8 ^^^ d3
    let bc1 := (t <<< 55 ||| t >>> (64 - 55))
    let t := a14 ^^^ d4
    let bc2 := (t <<< 39 ||| t >>> (64 - 39))
    let a15 := bc0 ^^^ (bc2 &&& ~~~bc1)
    let a21 := bc1 ^^^ (bc3 &&& ~~~bc2)
    let a2 := bc2 ^^^ (bc4 &&& ~~~bc3)
    let a8 := bc3 ^^^ (bc0 &&& ~~~bc4)
    let a14 := bc4 ^^^ (bc1 &&& ~~~bc0)
    ⟨a0, a1, a2, a3, a4, a5, a6, a7, a8, a9, a10, a11, a12, a13, a14, a15, a16, a17, a18, a19, a20, a21, a22, a23, a24⟩

/-- Round 2 of the unrolled loop body (pkg/go-ethereum/crypto/sha3/keccakf.go:139-228), one `let` per statement. -/
def round2 (k : Word) : Lanes → Lanes
  | ⟨a0, a1, a2, a3, a4, a5, a6, a7, a8, a9, a10, a11, a12, a13, a14, a15, a16, a17, a18, a19, a20, a21, a22, a23, a24⟩ =>
    let bc0 := a0 ^^^ a5 ^^^ a10 ^^^ a15 ^^^ a20
    let bc1 := a1 ^^^ a6 ^^^ a11 ^^^ a16 ^^^ a21
    let bc2 := a2 ^^^ a7 ^^^ a12 ^^^ a17 ^^^ a22
    let bc3 := a3 ^^^ a8 ^^^ a13 ^^^ a18 ^^^ a23
    let bc4 := a4 ^^^ a9 ^^^ a14 ^^^ a19 ^^^ a24
    let d0 := bc4 ^^^ (bc1 <<< 1 ||| bc1 >>> 63)
    let d1 := bc0 ^^^ (bc2 <<< 1 ||| bc2 >>> 63)
    let d2 := bc1 ^^^ (bc3 <<< 1 ||| bc3 >>> 63)
    let d3 := bc2 ^^^ (bc4 <<< 1 ||| bc4 >>> 63)
    let d4 := bc3 ^^^ (bc0 <<< 1 ||| bc0 >>> 63)
    let bc0 := a0 ^^^ d0
    let t := a16 ^^^ d1
    let bc1 := (t <<< 44 ||| t >>> (64 - 44))
    let t := a7 ^^^ d2
    let bc2 := (t <<< 43 ||| t >>> (64 - 43))
    let t := a23 ^^^ d3
    let bc3 := (t <<< 21 ||| t >>> (64 - 21))
    let t := a14 ^^^ d4
    let bc4 := (t <<< 14 ||| t >>> (64 - 14))
    let a0 := bc0 ^^^ (bc2 &&& ~~~bc1) ^^^ k
    let a16 := bc1 ^^^ (bc3 &&& ~~~bc2)
    let a7 := bc2 ^^^ (bc4 &&& ~~~bc3)
    let a23 := bc3 ^^^ (bc0 &&& ~~~bc4)
    let a14 := bc4 ^^^ (bc1 &&& ~~~bc0)
    let t := a20 ^^^ d0
    let bc2 := (t <<< 3 ||| t >>> (64 - 3))
    let t := a11 ^^^ d1
    let bc3 := (t <<< 45 ||| t >>> (64 - 45))
    let t := a2 ^^^ d2
    let bc4 := (t <<< 61 ||| t >>> (64 - 61))
    let t := a18 ^^^ d3
    let bc0 := (t <<< 28 ||| t >>> (64 - 28))
    let t := a9 ^^^ d4
    let bc1 := (t <<< 20 ||| t >>> (64 - 20))
    let a20 := bc0 ^^^ (bc2 &&& ~~~bc1)
    let a11 := bc1 ^^^ (bc3 &&& ~~~bc2)
    let a2 := bc2 ^^^ (bc4 &&& ~~~bc3)
    let a18 := bc3 ^^^ (bc0 &&& ~~~bc4)
    let a9 := bc4 ^^^ (bc1 &&& ~~~bc0)
    let t := a15 ^^^ d0
    let bc4 := (t <<< 18 ||| t >>> (64 - 18))
    let t := a6 ^^^ d1
    let bc0 := (t <<< 1 ||| t >>> (64 - 1))
    let t := a22 ^^^ d2
    let bc1 := (t <<< 6 ||| t >>> (64 - 6))
    let t := a13 ^^^ d3
    let bc2 := (t <<< 25 ||| t >>> (64 - 25))
    let t := a4 ^^^ d4
    let bc3 := (t <<< 8 ||| t >>> (64 - 8))
    let a15 := bc0 ^^^ (bc2 &&& ~~~bc1)
    let a6 := bc1 ^^^ (bc3 &&& ~~~bc2)
    let a22 := bc2 ^^^ (bc4 &&& ~~~bc3)
    let a13 := bc3 ^^^ (bc0 &&& ~~~bc4)
    let a4 := bc4 ^^^ (bc1 &&& ~~~bc0)
    let t := a10 ^^^ d0
    let bc1 := (t <<< 36 ||| t >>> (64 - 36))
    let t := a1 ^^^ d1
    let bc2 := (t <<< 10 ||| t >>> (64 - 10))
    let t := a17 ^^^ d2
    let bc3 := (t <<< 15 ||| t >>> (64 - 15))
    let t := a8 ^^^ d3
    let bc4 := (t <<< 56 ||| t >>> (64 - 56))
    let t := a24 ^^^ d4
    let bc0 := (t <<< 27 ||| t >>> (64 - 27))
    let a10 := bc0 ^^^ (bc2 &&& ~~~bc1)
    let a1 := bc1 ^^^ (bc3 &&& ~~~bc2)
    let a17 := bc2 ^^^ (bc4 &&& ~~~bc3)
    let a8 := bc3 ^^^ (bc0 &&& ~~~bc4)
    let a24 := bc4 ^^^ (bc1 &&& ~~~bc0)
    let t := a5 ^^^ d0
    let bc3 := (t <<< 41 ||| t >>> (64 - 41))
    let t := a21 ^^^ d1
    let bc4 := (t <<< 2 ||| t >>> (64 - 2))
    let t := a12 ^^^ d2
    let bc0 := (t <<< 62 ||| t >>> (64 - 62))
    let t := a3 ^^^ d3
    let bc1 := (t <<< 55 ||| t >>> (64 - 55))
    let t := a19 ^^^ d4
    let bc2 := (t <<< 39 ||| t >>> (64 - 39))
    let a5 := bc0 ^^^ (bc2 &&& ~~~bc1)
    let a21 := bc1 ^^^ (bc3 &&& ~~~bc2)
    let a12 := bc2 ^^^ (bc4 &&& ~~~bc3)
    let a3 := bc3 ^^^ (bc0 &&& ~~~bc4)
    let a19 := bc4 ^^^ (bc1 &&& ~~~bc0)
    ⟨a0, a1, a2, a3, a4, a5, a6, a7, a8, a9, a10, a11, a12, a13, a14, a15, a16, a17, a18, a19, a20, a21, a22, a23, a24⟩

/-- Round 3 of the unrolled loop body (pkg/go-ethereum/crypto/sha3/keccakf.go:230-319), one `let` per statement. -/
def round3 (k : Word) : Lanes → Lanes
  | ⟨a0, a1, a2, a3, a4, a5, a6, a7, a8, a9, a10, a11, a12, a13, a14, a15, a16, a17, a18, a19, a20, a21, a22, a23, a24⟩ =>
    let bc0 := a0 ^^^ a5 ^^^ a10 ^^^ a15 ^^^ a20
    let bc1 := a1 ^^^ a6 ^^^ a11 ^^^ a16 ^^^ a21
    let bc2 := a2 ^^^ a7 ^^^ a12 ^^^ a17 ^^^ a22
    let bc3 := a3 ^^^ a8 ^^^ a13 ^^^ a18 ^^^ a23
    let bc4 := a4 ^^^ a9 ^^^ a14 ^^^ a19 ^^^ a24
    let d0 := bc4 ^^^ (bc1 <<< 1 ||| bc1 >>> 63)
    let d1 := bc0 ^^^ (bc2 <<< 1 ||| bc2 >>> 63)
    let d2 := bc1 ^^^ (bc3 <<< 1 ||| bc3 >>> 63)
    let d3 := bc2 ^^^ (bc4 <<< 1 ||| bc4 >>> 63)
    let d4 := bc3 ^^^ (bc0 <<< 1 ||| bc0 >>> 63)
    let bc0 := a0 ^^^ d0
    let t := a11 ^^^ d1
    let bc1 := (t <<< 44 ||| t >>> (64 - 44))
    let t := a22 ^^^ d2
    let bc2 := (t <<< 43 ||| t >>> (64 - 43))
    let t := a8 ^^^ d3
    let bc3 := (t <<< 21 ||| t >>> (64 - 21))
    let t := a19 ^^^ d4
    let bc4 := (t <<< 14 ||| t >>> (64 - 14))
    let a0 := bc0 ^^^ (bc2 &&& ~~~bc1) ^^^ k
    let a11 := bc1 ^^^ (bc3 &&& ~~~bc2)
    let a22 := bc2 ^^^ (bc4 &&& ~~~bc3)
    let a8 := bc3 ^^^ (bc0 &&& ~~~bc4)
    let a19 := bc4 ^^^ (bc1 &&& ~~~bc0)
    let t := a15 ^^^ d0
    let bc2 := (t <<< 3 ||| t >>> (64 - 3))
    let t := a1 ^^^ d1
    let bc3 := (t <<< 45 ||| t >>> (64 - 45))
    let t := a12 ^^^ d2
    let bc4 := (t <<< 61 ||| t >>> (64 - 61))
    let t := a23 ^^^ d3
    let bc0 := (t <<< 28 ||| t >>> (64 - 28))
    let t := a9 ^^^ d4
    let bc1 := (t <<< 20 ||| t >>> (64 - 20))
    let a15 := bc0 ^^^ (bc2 &&& ~~~bc1)
    let a1 := bc1 ^^^ (bc3 &&& ~~~bc2)
    let a12 := bc2 ^^^ (bc4 &&& ~~~bc3)
    let a23 := bc3 ^^^ (bc0 &&& ~~~bc4)
    let a9 := bc4 ^^^ (bc1 &&& ~~~bc0)
    let t := a5 ^^^ d0
    let bc4 := (t <<< 18 ||| t >>> (64 - 18))
    let t := a16 ^^^ d1
    let bc0 := (t <<< 1 ||| t >>> (64 - 1))
    let t := a2 ^^^ d2
    let bc1 := (t <<< 6 ||| t >>> (64 - 6))
    let t := a13 ^^^ d3
    let bc2 := (t <<< 25 ||| t >>> (64 - 25))
    let t := a24 ^^^ d4
    let bc3 := (t <<< 8 ||| t >>> (64 - 8))
    let a5 := bc0 ^^^ (bc2 &&& ~~~bc1)
    let a16 := bc1 ^^^ (bc3 &&& ~~~bc2)
    let a2 := bc2 ^^^ (bc4 &&& ~~~bc3)
    let a13 := bc3 ^^^ (bc0 &&& ~~~bc4)
    let a24 := bc4 ^^^ (bc1 &&& ~~~bc0)
    let t := a20 ^^^ d0
    let bc1 := (t <<< 36 ||| t >>> (64 - 36))
    let t := a6 ^^^ d1
    let bc2 := (t <<< 10 ||| t >>> (64 - 10))
    let t := a17 ^^^ d2
    let bc3 := (t <<< 15 ||| t >>> (64 - 15))
    let t := a3 ^^^ d3
    let bc4 := (t <<< 56 ||| t >>> (64 - 56))
    let t := a14 ^^^ d4
    let bc0 := (t <<< 27 ||| t >>> (64 - 27))
    let a20 := bc0 ^^^ (bc2 &&& ~~~bc1)
    let a6 := bc1 ^^^ (bc3 &&& ~~~bc2)
    let a17 := bc2 ^^^ (bc4 &&& ~~~bc3)
    let a3 := bc3 ^^^ (bc0 &&& ~~~bc4)
    let a14 := bc4 ^^^ (bc1 &&& ~~~bc0)
    let t := a10 ^^^ d0
    let bc3 := (t <<< 41 ||| t >>> (64 - 41))
    let t := a21 ^^^ d1
    let bc4 := (t <<< 2 ||| t >>> (64 - 2))
    let t := a7 ^^^ d2
    let bc0 := (t <<< 62 ||| t >>> (64 - 62))
    let t := a18 ^^^ d3
    let bc1 := (t <<< 55 ||| t >>> (64 - 55))
    let t := a4 ^^^ d4
    let bc2 := (t <<< 39 ||| t >>> (64 - 39))
    let a10 := bc0 ^^^ (bc2 &&& ~~~bc1)
    let a21 := bc1 ^^^ (bc3 &&& ~~~bc2)
    let a7 := bc2 ^^^ (bc4 &&& ~~~bc3)
    let a18 := bc3 ^^^ (bc0 &&& ~~~bc4)
    let a4 := bc4 ^^^ (bc1 &&& ~~~bc0)
    ⟨a0, a1, a2, a3, a4, a5, a6, a7, a8, a9, a10, a11, a12, a13, a14, a15, a16, a17, a18, a19, a20, a21, a22, a23, a24⟩

/-- Round 4 of the unrolled loop body (pkg/go-ethereum/crypto/sha3/keccakf.go:321-410), one `let` per statement. -/
def round4 (k : Word) : Lanes → Lanes
  | ⟨a0, a1, a2, a3, a4, a5, a6, a7, a8, a9, a10, a11, a12, a13, a14, a15, a16, a17, a18, a19, a20, a21, a22, a23, a24⟩ =>
    let bc0 := a0 ^^^ a5 ^^^ a10 ^^^ a15 ^^^ a20
    let bc1 := a1 ^^^ a6 ^^^ a11 ^^^ a16 ^^^ a21
    let bc2 := a2 ^^^ a7 ^^^ a12 ^^^ a17 ^^^ a22
    let bc3 := a3 ^^^ a8 ^^^ a13 ^^^ a18 ^^^ a23
    let bc4 := a4 ^^^ a9 ^^^ a14 ^^^ a19 ^^^ a24
    let d0 := bc4 ^^^ (bc1 <<< 1 ||| bc1 >>> 63)
    let d1 := bc0 ^^^ (bc2 <<< 1 ||| bc2 >>> 63)
    let d2 := bc1 ^^^ (bc3 <<< 1 ||| bc3 >>> 63)
    let d3 := bc2 ^^^ (bc4 <<< 1 ||| bc4 >>> 63)
    let d4 := bc3 ^^^ (bc0 <<< 1 ||| bc0 >>> 63)
    let bc0 := a0 ^^^ d0
    let t := a1 ^^^ d1
    let bc1 := (t <<< 44 ||| t >>> (64 - 44))
    let t := a2 ^^^ d2
    let bc2 := (t <<< 43 ||| t >>> (64 - 43))
    let t := a3 ^^^ d3
    let bc3 := (t <<< 21 ||| t >>> (64 - 21))
    let t := a4 ^^^ d4
    let bc4 := (t <<< 14 ||| t >>> (64 - 14))
    let a0 := bc0 ^^^ (bc2 &&& ~~~bc1) ^^^ k
    let a1 := bc1 ^^^ (bc3 &&& ~~~bc2)
    let a2 := bc2 ^^^ (bc4 &&& ~~~bc3)
    let a3 := bc3 ^^^ (bc0 &&& ~~~bc4)
    let a4 := bc4 ^^^ (bc1 &&& ~~~bc0)
    let t := a5 ^^^ d0
    let bc2 := (t <<< 3 ||| t >>> (64 - 3))
    let t := a6 ^^^ d1
    let bc3 := (t <<< 45 ||| t >>> (64 - 45))
    let t := a7 ^^^ d2
    let bc4 := (t <<< 61 ||| t >>> (64 - 61))
    let t := a8 ^^^ d3
    let bc0 := (t <<< 28 ||| t >>> (64 - 28))
    let t := a9 ^^^ d4
    let bc1 := (t <<< 20 ||| t >>> (64 - 20))
    let a5 := bc0 ^^^ (bc2 &&& ~~~bc1)
    let a6 := bc1 ^^^ (bc3 &&& ~~~bc2)
    let a7 := bc2 ^^^ (bc4 &&& ~~~bc3)
    let a8 := bc3 ^^^ (bc0 &&& ~~~bc4)
    let a9 := bc4 ^^^ (bc1 &&& ~~~bc0)
    let t := a10 ^^^ d0
    let bc4 := (t <<< 18 ||| t >>> (64 - 18))
    let t := a11 ^^^ d1
    let bc0 := (t <<< 1 ||| t >>> (64 - 1))
    let t := a12 ^^^ d2
    let bc1 := (t <<< 6 ||| t >>> (64 - 6))
    let t := a13 ^^^ d3
    let bc2 := (t <<< 25 ||| t >>> (64 - 25))
    let t := a14 ^^^ d4
    let bc3 := (t <<< 8 ||| t >>> (64 - 8))
    let a10 := bc0 ^^^ (bc2 &&& ~~~bc1)
    let a11 := bc1 ^^^ (bc3 &&& ~~~bc2)
    let a12 := bc2 ^^^ (bc4 &&& ~~~bc3)
    let a13 := bc3 ^^^ (bc0 &&& ~~~bc4)
    let a14 := bc4 ^^^ (bc1 &&& ~~~bc0)
    let t := a15 ^^^ d0
    let bc1 := (t <<< 36 ||| t >>> (64 - 36))
    let t := a16 ^^^ d1
    let bc2 := (t <<< 10 ||| t >>> (64 - 10))
    let t := a17 ^^^ d2
    let bc3 := (t <<< 15 ||| t >>> (64 - 15))
    let t := a18 ^^^ d3
    let bc4 := (t <<< 56 ||| t >>> (64 - 56))
    let t := a19 ^^^ d4
    let bc0 := (t <<< 27 ||| t >>> (64 - 27))
    let a15 := bc0 ^^^ (bc2 &&& ~~~bc1)
    let a16 := bc1 ^^^ (bc3 &&& ~~~bc2)
    let a17 := bc2 ^^^ (bc4 &&& ~~~bc3)
    let a18 := bc3 ^^^ (bc0 &&& ~~~bc4)
    let a19 := bc4 ^^^ (bc1 &&& ~~~bc0)
    let t := a20 ^^^ d0
    let bc3 := (t <<< 41 ||| t >>> (64 - 41))
    let t := a21 ^^^ d1
    let bc4 := (t <<< 2 ||| t >>> (64 - 2))
    let t := a22 ^^^ d2
    let bc0 := (t <<< 62 ||| t >>> (64 - 62))
    let t := a23 ^^^ d3
    let bc1 := (t <<< 55 ||| t >>> (64 - 55))
    let t := a24 ^^^ d4
    let bc2 := (t <<< 39 ||| t >>> (64 - 39))
    let a20 := bc0 ^^^ (bc2 &&& ~~~bc1)
    let a21 := bc1 ^^^ (bc3 &&& ~~~bc2)
    let a22 := bc2 ^^^ (bc4 &&& ~~~bc3)
    let a23 := bc3 ^^^ (bc0 &&& ~~~bc4)
    let a24 := bc4 ^^^ (bc1 &&& ~~~bc0)
    ⟨a0, a1, a2, a3, a4, a5, a6, a7, a8, a9, a10, a11, a12, a13, a14, a15, a16, a17, a18, a19, a20, a21, a22, a23, a24⟩

/-- One pass of the loop body, rounds `i` to `i + 3`.  See pkg/go-ethereum/crypto/sha3/keccakf.go:44-411. -/
def body (i : Nat) (s : Lanes) : Lanes :=
  round4 (rc.getD (i + 3) 0) (round3 (rc.getD (i + 2) 0) (round2 (rc.getD (i + 1) 0) (round1 (rc.getD i 0) s)))

/-- `keccakF1600` (pkg/go-ethereum/crypto/sha3/keccakf.go:39-412): `for i := 0; i < 24; i += 4`. -/
def keccakF1600 (s : Lanes) : Lanes := body 20 (body 16 (body 12 (body 8 (body 4 (body 0 s)))))

/-! ## The sponge (sha3.go) -/

/-- The fields of `state` (pkg/go-ethereum/crypto/sha3/sha3.go:23-47) that the code below uses; `buf` is the content of the slice `d.buf`
(`storage` only backs it). -/
structure State where
  a : Lanes
  buf : Str
  rate : Nat
  dsbyte : UInt8
  outputLen : Nat
  squeezing : Bool
  deriving DecidableEq

/-- Loop of `xorInGeneric` (pkg/go-ethereum/crypto/sha3/xor_generic.go:12-20) over the array elements: one element per 8 bytes of `buf`. -/
def xorWords : List Word → Str → List Word
  | [], _ => []
  | a :: as, buf =>
    if 8 ≤ buf.length then (a ^^^ BitVec.ofNat 64 (leNat (buf.take 8))) :: xorWords as (buf.drop 8) else a :: as

/-- `xorIn` (xor.go:11, xor_generic.go:12-20). -/
def xorIn (s : Lanes) (buf : Str) : Lanes := Lanes.ofFn (fun i => (xorWords s.toList buf).getD i 0)

/-- `copyOut` (xor.go:12, xor_generic.go:23-28) into a buffer of `n` bytes, `n` a multiple of 8. -/
def copyOut (s : Lanes) (n : Nat) : Str := (s.toList.flatMap (fun w => lePut 8 w.toNat)).take (n / 8 * 8)

/-- `state.permute` (pkg/go-ethereum/crypto/sha3/sha3.go:79-94). -/
def permute (d : State) : State :=
  if d.squeezing then
    let a := keccakF1600 d.a
    { d with a := a, buf := copyOut a d.rate }
  else { d with a := keccakF1600 (xorIn d.a d.buf), buf := [] }

/-- The padded buffer of `padAndPermute` (pkg/go-ethereum/crypto/sha3/sha3.go:102-115): the domain byte, zeros, and the top bit of the last byte. -/
def padded (buf : Str) (ds : UInt8) (rate : Nat) : Str :=
  let b := buf ++ [ds]
  let b := b ++ List.replicate (rate - b.length) 0
  b.set (rate - 1) (b.getD (rate - 1) 0 ^^^ 0x80)

/-- `state.padAndPermute` (pkg/go-ethereum/crypto/sha3/sha3.go:98-121). -/
def padAndPermute (d : State) : State :=
  let d := permute { d with buf := padded d.buf d.dsbyte d.rate }
  { d with squeezing := true, buf := copyOut d.a d.rate }

/-- Loop of `state.Write` (pkg/go-ethereum/crypto/sha3/sha3.go:134-154); `fuel` is the number of bytes left, every pass takes at least one. -/
def writeLoop : Nat → State → Str → State
  | 0, d, _ => d
  | fuel + 1, d, p =>
    if p.length = 0 then d
    else if d.buf.length = 0 ∧ d.rate ≤ p.length then
      writeLoop fuel { d with a := keccakF1600 (xorIn d.a (p.take d.rate)) } (p.drop d.rate)
    else
      let todo := d.rate - d.buf.length
      let todo := if p.length < todo then p.length else todo
      let d := { d with buf := d.buf ++ p.take todo }
      let p := p.drop todo
      let d := if d.buf.length = d.rate then permute d else d
      writeLoop fuel d p

/-- `state.Write` (pkg/go-ethereum/crypto/sha3/sha3.go:125-157): panics when output has been read. -/
def write (d : State) (p : Str) : Res State := if d.squeezing then .panic else .ok (writeLoop p.length d p)

/-- Loop of `state.Read` (pkg/go-ethereum/crypto/sha3/sha3.go:169-178): the output and the state after it. -/
def readLoop : Nat → State → Nat → Str × State
  | 0, d, _ => ([], d)
  | fuel + 1, d, n =>
    if n = 0 then ([], d)
    else
      let k := min n d.buf.length
      let o := d.buf.take k
      let d := { d with buf := d.buf.drop k }
      let d := if d.buf.length = 0 then permute d else d
      let r := readLoop fuel d (n - k)
      (o ++ r.1, r.2)

/-- `state.Read` (pkg/go-ethereum/crypto/sha3/sha3.go:160-181) of `n` bytes. -/
def read (d : State) (n : Nat) : Str × State :=
  let d := if d.squeezing then d else padAndPermute d
  readLoop n d n

/-- `state.clone` (pkg/go-ethereum/crypto/sha3/sha3.go:66-75).  When squeezing, `d.buf` is `storage[n:rate]` with `n` bytes already taken, so
`cap(d.buf)` is `maxRate - n` (`maxRate` = 168, sha3.go:19) and the copy gets `storage[rate-(168-n):rate]`; a negative
start is a run-time panic.  `storage[:rate]` holds the bytes `copyOut` put there. -/
def clone (d : State) : Res State :=
  if d.squeezing then
    let n := d.rate - d.buf.length
    if d.rate + n < 168 then .panic
    else .ok { d with buf := (copyOut d.a d.rate).drop (d.rate + n - 168) }
  else .ok d

/-- `state.Sum(nil)` (pkg/go-ethereum/crypto/sha3/sha3.go:185-192): reads from a copy. -/
def sum (d : State) : Res Str := do
  let dup ← clone d
  .ok (read dup dup.outputLen).1

/-- `state.Reset` (pkg/go-ethereum/crypto/sha3/sha3.go:57-64). -/
def reset (d : State) : State := { d with a := Lanes.zero, squeezing := false, buf := [] }

/-- A fresh `&state{rate: …, outputLen: …, dsbyte: …}`.  See pkg/go-ethereum/crypto/sha3/hashes.go:16-40. -/
def mk (rate outputLen : Nat) (ds : UInt8) : State := ⟨Lanes.zero, [], rate, ds, outputLen, false⟩

/-- `NewKeccak256`, `NewKeccak512` (hashes.go:16-19). -/
def newKeccak256 : State := mk 136 32 0x01
/-- `NewKeccak512` (pkg/go-ethereum/crypto/sha3/hashes.go:19). -/
def newKeccak512 : State := mk 72 64 0x01
/-- `New224`, `New256`, `New384`, `New512` (hashes.go:24-40). -/
def new224 : State := mk 144 28 0x06
/-- `New256` (pkg/go-ethereum/crypto/sha3/hashes.go:29). -/
def new256 : State := mk 136 32 0x06
/-- `New384` (pkg/go-ethereum/crypto/sha3/hashes.go:34). -/
def new384 : State := mk 104 48 0x06
/-- `New512` (pkg/go-ethereum/crypto/sha3/hashes.go:39). -/
def new512 : State := mk 72 64 0x06
/-- `NewShake128`, `NewShake256` (shake.go:41, 46); the output length field is unused. -/
def newShake128 : State := mk 168 0 0x1f
/-- `NewShake256` (pkg/go-ethereum/crypto/sha3/shake.go:46). -/
def newShake256 : State := mk 136 0 0x1f

/-- Successive `Write` calls.  See pkg/go-ethereum/crypto/sha3/sha3.go:125-157. -/
def writes (d : State) : List Str → Res State
  | [] => .ok d
  | p :: ps => do
    let d ← write d p
    writes d ps

/-- `keccak.Keccak256` (utiles/crypto/keccak/hash.go:5-11). -/
def keccak256 (data : List Str) : Res Str := do
  let d ← writes newKeccak256 data
  sum d

end ScaleGo.Sha3
