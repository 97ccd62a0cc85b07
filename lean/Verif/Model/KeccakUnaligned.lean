import Verif.Model.Keccak

/-!
# `pkg/go-ethereum/crypto/sha3` with the copies of xor_unaligned.go

On amd64, 386 and ppc64le the package absorbs and copies out through pointers to the memory of the buffer and of the state
(xor_unaligned.go) instead of xor_generic.go.  These machines are little endian, so the word at a byte position is the
little endian number of the eight bytes there.  The functions of sha3.go are given once more with these copies in place of
the portable ones; the permutation is the portable one (keccakf.go), which the amd64 assembly equals (C91).
-/

namespace ScaleGo.Sha3

open ScaleGo

/-- `bw[k]` of `xorInUnaligned` (pkg/go-ethereum/crypto/sha3/xor_unaligned.go:13): the word at byte `8 * k` of the buffer. -/
def bufWord (buf : Str) (k : Nat) : Word := BitVec.ofNat 64 (leNat ((buf.drop (8 * k)).take 8))

/-- `xorInUnaligned` (pkg/go-ethereum/crypto/sha3/xor_unaligned.go:12-46); `&buf[0]` panics for an empty buffer. -/
def xorInUnaligned (s : Lanes) (buf : Str) : Res Lanes :=
  let bw := bufWord buf
  let n := buf.length
  if n = 0 then .panic
  else
    let s := if n ≥ 72 then
      { s with
        a0 := s.a0 ^^^ bw 0, a1 := s.a1 ^^^ bw 1, a2 := s.a2 ^^^ bw 2, a3 := s.a3 ^^^ bw 3, a4 := s.a4 ^^^ bw 4,
        a5 := s.a5 ^^^ bw 5, a6 := s.a6 ^^^ bw 6, a7 := s.a7 ^^^ bw 7, a8 := s.a8 ^^^ bw 8 } else s
    let s := if n ≥ 104 then
      { s with a9 := s.a9 ^^^ bw 9, a10 := s.a10 ^^^ bw 10, a11 := s.a11 ^^^ bw 11, a12 := s.a12 ^^^ bw 12 } else s
    let s := if n ≥ 136 then
      { s with a13 := s.a13 ^^^ bw 13, a14 := s.a14 ^^^ bw 14, a15 := s.a15 ^^^ bw 15, a16 := s.a16 ^^^ bw 16 } else s
    let s := if n ≥ 144 then { s with a17 := s.a17 ^^^ bw 17 } else s
    let s := if n ≥ 168 then { s with a18 := s.a18 ^^^ bw 18, a19 := s.a19 ^^^ bw 19, a20 := s.a20 ^^^ bw 20 } else s
    .ok s

/-- `copyOutUnaligned` (pkg/go-ethereum/crypto/sha3/xor_unaligned.go:48-51) into a buffer of `n` bytes: `copy` stops at the
end of the buffer or of the 168 bytes of `ab`. -/
def copyOutUnaligned (s : Lanes) (n : Nat) : Str := ((s.toList.flatMap (fun w => lePut 8 w.toNat)).take 168).take n

/-- `state.permute` (pkg/go-ethereum/crypto/sha3/sha3.go:79-94). -/
def permuteU (d : State) : Res State :=
  if d.squeezing then
    let a := keccakF1600 d.a
    .ok { d with a := a, buf := copyOutUnaligned a d.rate }
  else do
    let a ← xorInUnaligned d.a d.buf
    .ok { d with a := keccakF1600 a, buf := [] }

/-- `state.padAndPermute` (pkg/go-ethereum/crypto/sha3/sha3.go:98-121). -/
def padAndPermuteU (d : State) : Res State := do
  let d ← permuteU { d with buf := padded d.buf d.dsbyte d.rate }
  .ok { d with squeezing := true, buf := copyOutUnaligned d.a d.rate }

/-- Loop of `state.Write` (pkg/go-ethereum/crypto/sha3/sha3.go:134-154), fuel as for `writeLoop`. -/
def writeLoopU : Nat → State → Str → Res State
  | 0, d, _ => .ok d
  | fuel + 1, d, p =>
    if p.length = 0 then .ok d
    else if d.buf.length = 0 ∧ d.rate ≤ p.length then do
      let a ← xorInUnaligned d.a (p.take d.rate)
      writeLoopU fuel { d with a := keccakF1600 a } (p.drop d.rate)
    else
      let todo := d.rate - d.buf.length
      let todo := if p.length < todo then p.length else todo
      let d := { d with buf := d.buf ++ p.take todo }
      let p := p.drop todo
      do
        let d ← if d.buf.length = d.rate then permuteU d else .ok d
        writeLoopU fuel d p

/-- `state.Write` (pkg/go-ethereum/crypto/sha3/sha3.go:125-157). -/
def writeU (d : State) (p : Str) : Res State := if d.squeezing then .panic else writeLoopU p.length d p

/-- Loop of `state.Read` (pkg/go-ethereum/crypto/sha3/sha3.go:169-178), fuel as for `readLoop`. -/
def readLoopU : Nat → State → Nat → Res (Str × State)
  | 0, d, _ => .ok ([], d)
  | fuel + 1, d, n =>
    if n = 0 then .ok ([], d)
    else
      let k := min n d.buf.length
      let o := d.buf.take k
      let d := { d with buf := d.buf.drop k }
      do
        let d ← if d.buf.length = 0 then permuteU d else .ok d
        let r ← readLoopU fuel d (n - k)
        .ok (o ++ r.1, r.2)

/-- `state.Read` (pkg/go-ethereum/crypto/sha3/sha3.go:160-181) of `n` bytes. -/
def readU (d : State) (n : Nat) : Res (Str × State) := do
  let d ← if d.squeezing then .ok d else padAndPermuteU d
  readLoopU n d n

/-- `state.clone` (pkg/go-ethereum/crypto/sha3/sha3.go:66-75), see `clone`. -/
def cloneU (d : State) : Res State :=
  if d.squeezing then
    let n := d.rate - d.buf.length
    if d.rate + n < 168 then .panic
    else .ok { d with buf := (copyOutUnaligned d.a d.rate).drop (d.rate + n - 168) }
  else .ok d

/-- `state.Sum(nil)` (pkg/go-ethereum/crypto/sha3/sha3.go:185-192). -/
def sumU (d : State) : Res Str := do
  let dup ← cloneU d
  let r ← readU dup dup.outputLen
  .ok r.1

/-- Successive `Write` calls.  See pkg/go-ethereum/crypto/sha3/sha3.go:125-157. -/
def writesU (d : State) : List Str → Res State
  | [] => .ok d
  | p :: ps => do
    let d ← writeU d p
    writesU d ps

/-- `keccak.Keccak256` (utiles/crypto/keccak/hash.go:5-11). -/
def keccak256U (data : List Str) : Res Str := do
  let d ← writesU newKeccak256 data
  sumU d

end ScaleGo.Sha3
