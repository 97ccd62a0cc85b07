import Verif.Model.Keccak

/-!
# `pkg/go-ethereum/crypto/sha3/keccakf_amd64.s`

The assembly version of the permutation that amd64 builds use.  The instructions are the ones of the file, in its order and
with its names; the macro `mKeccakRound` is split into its six commented parts.  Memory is the state array (register DI) and
the frame of 200 bytes on the stack (SP), which do not overlap; both are accessed in whole aligned words, so an offset `8 * k`
is word `k`.  Flags are not modelled, no instruction here reads them; the assembler adds nothing that changes these registers
or the two arrays.
-/

namespace ScaleGo.Sha3.Amd64

open ScaleGo ScaleGo.Sha3

/-- The registers in use (pkg/go-ethereum/crypto/sha3/keccakf_amd64.s:37-60). -/
inductive Reg where
  | AX | BX | CX | DX | R8 | R9 | R10 | R11 | R12 | R13 | R14 | R15 | SI | BP
  deriving DecidableEq

/-- `rpState`, `rpStack` (pkg/go-ethereum/crypto/sha3/keccakf_amd64.s:41-42). -/
inductive Ptr where
  | rpState | rpStack
  deriving DecidableEq

/-- Operands: a register, a word of one of the arrays, a constant.  See pkg/go-ethereum/crypto/sha3/keccakf_amd64.s:71-320. -/
inductive Op where
  | reg (r : Reg)
  | mem (p : Ptr) (k : Nat)
  | imm (w : Word)

/-- The instructions of the file, source operand first.  See pkg/go-ethereum/crypto/sha3/keccakf_amd64.s:62-320, 323-390. -/
inductive Instr where
  | movq (s d : Op)
  | xorq (s d : Op)
  | andq (s d : Op)
  | orq (s d : Op)
  | notq (d : Op)
  | rolq (n : Nat) (d : Op)
  | nop

/-- The registers and the two arrays.  See pkg/go-ethereum/crypto/sha3/keccakf_amd64.s:37-60, 323. -/
structure Machine where
  AX : Word
  BX : Word
  CX : Word
  DX : Word
  R8 : Word
  R9 : Word
  R10 : Word
  R11 : Word
  R12 : Word
  R13 : Word
  R14 : Word
  R15 : Word
  SI : Word
  BP : Word
  state : Lanes
  stack : Lanes

/-- Contents of a register.  See pkg/go-ethereum/crypto/sha3/keccakf_amd64.s:37-60. -/
def Machine.reg (m : Machine) : Reg → Word
  | .AX => m.AX
  | .BX => m.BX
  | .CX => m.CX
  | .DX => m.DX
  | .R8 => m.R8
  | .R9 => m.R9
  | .R10 => m.R10
  | .R11 => m.R11
  | .R12 => m.R12
  | .R13 => m.R13
  | .R14 => m.R14
  | .R15 => m.R15
  | .SI => m.SI
  | .BP => m.BP

/-- A register changed.  See pkg/go-ethereum/crypto/sha3/keccakf_amd64.s:37-60. -/
def Machine.setReg (m : Machine) : Reg → Word → Machine
  | .AX, w => { m with AX := w }
  | .BX, w => { m with BX := w }
  | .CX, w => { m with CX := w }
  | .DX, w => { m with DX := w }
  | .R8, w => { m with R8 := w }
  | .R9, w => { m with R9 := w }
  | .R10, w => { m with R10 := w }
  | .R11, w => { m with R11 := w }
  | .R12, w => { m with R12 := w }
  | .R13, w => { m with R13 := w }
  | .R14, w => { m with R14 := w }
  | .R15, w => { m with R15 := w }
  | .SI, w => { m with SI := w }
  | .BP, w => { m with BP := w }

/-- An array.  See pkg/go-ethereum/crypto/sha3/keccakf_amd64.s:41-42. -/
def Machine.mem (m : Machine) : Ptr → Lanes
  | .rpState => m.state
  | .rpStack => m.stack

/-- Word `k` of an array changed.  See pkg/go-ethereum/crypto/sha3/keccakf_amd64.s:41-42. -/
def setLane (s : Lanes) : Nat → Word → Lanes
  | 0, w => { s with a0 := w }
  | 1, w => { s with a1 := w }
  | 2, w => { s with a2 := w }
  | 3, w => { s with a3 := w }
  | 4, w => { s with a4 := w }
  | 5, w => { s with a5 := w }
  | 6, w => { s with a6 := w }
  | 7, w => { s with a7 := w }
  | 8, w => { s with a8 := w }
  | 9, w => { s with a9 := w }
  | 10, w => { s with a10 := w }
  | 11, w => { s with a11 := w }
  | 12, w => { s with a12 := w }
  | 13, w => { s with a13 := w }
  | 14, w => { s with a14 := w }
  | 15, w => { s with a15 := w }
  | 16, w => { s with a16 := w }
  | 17, w => { s with a17 := w }
  | 18, w => { s with a18 := w }
  | 19, w => { s with a19 := w }
  | 20, w => { s with a20 := w }
  | 21, w => { s with a21 := w }
  | 22, w => { s with a22 := w }
  | 23, w => { s with a23 := w }
  | 24, w => { s with a24 := w }
  | _, _ => s

/-- A word of memory changed.  See pkg/go-ethereum/crypto/sha3/keccakf_amd64.s:41-42. -/
def Machine.setMem (m : Machine) (p : Ptr) (k : Nat) (w : Word) : Machine :=
  match p with
  | .rpState => { m with state := setLane m.state k w }
  | .rpStack => { m with stack := setLane m.stack k w }

/-- The value of an operand.  See pkg/go-ethereum/crypto/sha3/keccakf_amd64.s:71-320. -/
def Machine.read (m : Machine) : Op → Word
  | .reg r => m.reg r
  | .mem p k => (m.mem p).get k
  | .imm w => w

/-- The destination of an instruction gets a value; a constant is no destination.  See pkg/go-ethereum/crypto/sha3/keccakf_amd64.s:71-320. -/
def Machine.write (m : Machine) (d : Op) (w : Word) : Machine :=
  match d with
  | .reg r => m.setReg r w
  | .mem p k => m.setMem p k w
  | .imm _ => m

/-- `ROLQ $n` for `0 < n < 64`.  See pkg/go-ethereum/crypto/sha3/keccakf_amd64.s:74. -/
def rol (t : Word) (n : Nat) : Word := t <<< n ||| t >>> (64 - n)

/-- One instruction.  See pkg/go-ethereum/crypto/sha3/keccakf_amd64.s:71-320. -/
def exec (m : Machine) : Instr → Machine
  | .movq s d => m.write d (m.read s)
  | .xorq s d => m.write d (m.read d ^^^ m.read s)
  | .andq s d => m.write d (m.read d &&& m.read s)
  | .orq s d => m.write d (m.read d ||| m.read s)
  | .notq d => m.write d (~~~m.read d)
  | .rolq n d => m.write d (rol (m.read d) n)
  | .nop => m

/-- Instructions in sequence.  See pkg/go-ethereum/crypto/sha3/keccakf_amd64.s:323-390. -/
def run (m : Machine) (p : List Instr) : Machine := p.foldl exec m

/-- Offset `_ba` (pkg/go-ethereum/crypto/sha3/keccakf_amd64.s:11), in words. -/
abbrev _ba : Nat := 0
/-- Offset `_be` (pkg/go-ethereum/crypto/sha3/keccakf_amd64.s:12), in words. -/
abbrev _be : Nat := 1
/-- Offset `_bi` (pkg/go-ethereum/crypto/sha3/keccakf_amd64.s:13), in words. -/
abbrev _bi : Nat := 2
/-- Offset `_bo` (pkg/go-ethereum/crypto/sha3/keccakf_amd64.s:14), in words. -/
abbrev _bo : Nat := 3
/-- Offset `_bu` (pkg/go-ethereum/crypto/sha3/keccakf_amd64.s:15), in words. -/
abbrev _bu : Nat := 4
/-- Offset `_ga` (pkg/go-ethereum/crypto/sha3/keccakf_amd64.s:16), in words. -/
abbrev _ga : Nat := 5
/-- Offset `_ge` (pkg/go-ethereum/crypto/sha3/keccakf_amd64.s:17), in words. -/
abbrev _ge : Nat := 6
/-- Offset `_gi` (pkg/go-ethereum/crypto/sha3/keccakf_amd64.s:18), in words. -/
abbrev _gi : Nat := 7
/-- Offset `_go` (pkg/go-ethereum/crypto/sha3/keccakf_amd64.s:19), in words. -/
abbrev _go : Nat := 8
/-- Offset `_gu` (pkg/go-ethereum/crypto/sha3/keccakf_amd64.s:20), in words. -/
abbrev _gu : Nat := 9
/-- Offset `_ka` (pkg/go-ethereum/crypto/sha3/keccakf_amd64.s:21), in words. -/
abbrev _ka : Nat := 10
/-- Offset `_ke` (pkg/go-ethereum/crypto/sha3/keccakf_amd64.s:22), in words. -/
abbrev _ke : Nat := 11
/-- Offset `_ki` (pkg/go-ethereum/crypto/sha3/keccakf_amd64.s:23), in words. -/
abbrev _ki : Nat := 12
/-- Offset `_ko` (pkg/go-ethereum/crypto/sha3/keccakf_amd64.s:24), in words. -/
abbrev _ko : Nat := 13
/-- Offset `_ku` (pkg/go-ethereum/crypto/sha3/keccakf_amd64.s:25), in words. -/
abbrev _ku : Nat := 14
/-- Offset `_ma` (pkg/go-ethereum/crypto/sha3/keccakf_amd64.s:26), in words. -/
abbrev _ma : Nat := 15
/-- Offset `_me` (pkg/go-ethereum/crypto/sha3/keccakf_amd64.s:27), in words. -/
abbrev _me : Nat := 16
/-- Offset `_mi` (pkg/go-ethereum/crypto/sha3/keccakf_amd64.s:28), in words. -/
abbrev _mi : Nat := 17
/-- Offset `_mo` (pkg/go-ethereum/crypto/sha3/keccakf_amd64.s:29), in words. -/
abbrev _mo : Nat := 18
/-- Offset `_mu` (pkg/go-ethereum/crypto/sha3/keccakf_amd64.s:30), in words. -/
abbrev _mu : Nat := 19
/-- Offset `_sa` (pkg/go-ethereum/crypto/sha3/keccakf_amd64.s:31), in words. -/
abbrev _sa : Nat := 20
/-- Offset `_se` (pkg/go-ethereum/crypto/sha3/keccakf_amd64.s:32), in words. -/
abbrev _se : Nat := 21
/-- Offset `_si` (pkg/go-ethereum/crypto/sha3/keccakf_amd64.s:33), in words. -/
abbrev _si : Nat := 22
/-- Offset `_so` (pkg/go-ethereum/crypto/sha3/keccakf_amd64.s:34), in words. -/
abbrev _so : Nat := 23
/-- Offset `_su` (pkg/go-ethereum/crypto/sha3/keccakf_amd64.s:35), in words. -/
abbrev _su : Nat := 24
/-- Register name `rT1` (pkg/go-ethereum/crypto/sha3/keccakf_amd64.s:38). -/
abbrev rT1 : Reg := Reg.AX
/-- Register name `rDa` (pkg/go-ethereum/crypto/sha3/keccakf_amd64.s:44). -/
abbrev rDa : Reg := Reg.BX
/-- Register name `rDe` (pkg/go-ethereum/crypto/sha3/keccakf_amd64.s:45). -/
abbrev rDe : Reg := Reg.CX
/-- Register name `rDi` (pkg/go-ethereum/crypto/sha3/keccakf_amd64.s:46). -/
abbrev rDi : Reg := Reg.DX
/-- Register name `rDo` (pkg/go-ethereum/crypto/sha3/keccakf_amd64.s:47). -/
abbrev rDo : Reg := Reg.R8
/-- Register name `rDu` (pkg/go-ethereum/crypto/sha3/keccakf_amd64.s:48). -/
abbrev rDu : Reg := Reg.R9
/-- Register name `rBa` (pkg/go-ethereum/crypto/sha3/keccakf_amd64.s:50). -/
abbrev rBa : Reg := Reg.R10
/-- Register name `rBe` (pkg/go-ethereum/crypto/sha3/keccakf_amd64.s:51). -/
abbrev rBe : Reg := Reg.R11
/-- Register name `rBi` (pkg/go-ethereum/crypto/sha3/keccakf_amd64.s:52). -/
abbrev rBi : Reg := Reg.R12
/-- Register name `rBo` (pkg/go-ethereum/crypto/sha3/keccakf_amd64.s:53). -/
abbrev rBo : Reg := Reg.R13
/-- Register name `rBu` (pkg/go-ethereum/crypto/sha3/keccakf_amd64.s:54). -/
abbrev rBu : Reg := Reg.R14
/-- Register name `rCa` (pkg/go-ethereum/crypto/sha3/keccakf_amd64.s:56). -/
abbrev rCa : Reg := Reg.SI
/-- Register name `rCe` (pkg/go-ethereum/crypto/sha3/keccakf_amd64.s:57). -/
abbrev rCe : Reg := Reg.BP
/-- Register name `rCi` (pkg/go-ethereum/crypto/sha3/keccakf_amd64.s:58). -/
abbrev rCi : Reg := rBi
/-- Register name `rCo` (pkg/go-ethereum/crypto/sha3/keccakf_amd64.s:59). -/
abbrev rCo : Reg := rBo
/-- Register name `rCu` (pkg/go-ethereum/crypto/sha3/keccakf_amd64.s:60). -/
abbrev rCu : Reg := Reg.R15

/-- `MOVQ_RBI_RCE` (pkg/go-ethereum/crypto/sha3/keccakf_amd64.s:62). -/
abbrev MOVQ_RBI_RCE : Instr := .movq (.reg rBi) (.reg rCe)
/-- `XORQ_RT1_RCA` (pkg/go-ethereum/crypto/sha3/keccakf_amd64.s:63). -/
abbrev XORQ_RT1_RCA : Instr := .xorq (.reg rT1) (.reg rCa)
/-- `XORQ_RT1_RCE` (pkg/go-ethereum/crypto/sha3/keccakf_amd64.s:64). -/
abbrev XORQ_RT1_RCE : Instr := .xorq (.reg rT1) (.reg rCe)
/-- `XORQ_RBA_RCU` (pkg/go-ethereum/crypto/sha3/keccakf_amd64.s:65). -/
abbrev XORQ_RBA_RCU : Instr := .xorq (.reg rBa) (.reg rCu)
/-- `XORQ_RBE_RCU` (pkg/go-ethereum/crypto/sha3/keccakf_amd64.s:66). -/
abbrev XORQ_RBE_RCU : Instr := .xorq (.reg rBe) (.reg rCu)
/-- `XORQ_RDU_RCU` (pkg/go-ethereum/crypto/sha3/keccakf_amd64.s:67). -/
abbrev XORQ_RDU_RCU : Instr := .xorq (.reg rDu) (.reg rCu)
/-- `XORQ_RDA_RCA` (pkg/go-ethereum/crypto/sha3/keccakf_amd64.s:68). -/
abbrev XORQ_RDA_RCA : Instr := .xorq (.reg rDa) (.reg rCa)
/-- `XORQ_RDE_RCE` (pkg/go-ethereum/crypto/sha3/keccakf_amd64.s:69). -/
abbrev XORQ_RDE_RCE : Instr := .xorq (.reg rDe) (.reg rCe)

/-- The last thirteen parameters of `mKeccakRound` (pkg/go-ethereum/crypto/sha3/keccakf_amd64.s:71): instructions inserted to collect the column parities of the result. -/
structure Hooks where
  B_RBI_RCE : Instr
  G_RT1_RCA : Instr
  G_RT1_RCE : Instr
  G_RBA_RCU : Instr
  K_RT1_RCA : Instr
  K_RT1_RCE : Instr
  K_RBA_RCU : Instr
  M_RT1_RCA : Instr
  M_RT1_RCE : Instr
  M_RBE_RCU : Instr
  S_RDU_RCU : Instr
  S_RDA_RCA : Instr
  S_RDE_RCE : Instr

/-- "Prepare round" of `mKeccakRound` (pkg/go-ethereum/crypto/sha3/keccakf_amd64.s:72-102). -/
def prepare (iState : Ptr) : List Instr := [
  .movq (.reg rCe) (.reg rDa),
  .rolq 1 (.reg rDa),
  .movq (.mem iState _bi) (.reg rCi),
  .xorq (.mem iState _gi) (.reg rDi),
  .xorq (.reg rCu) (.reg rDa),
  .xorq (.mem iState _ki) (.reg rCi),
  .xorq (.mem iState _mi) (.reg rDi),
  .xorq (.reg rDi) (.reg rCi),
  .movq (.reg rCi) (.reg rDe),
  .rolq 1 (.reg rDe),
  .movq (.mem iState _bo) (.reg rCo),
  .xorq (.mem iState _go) (.reg rDo),
  .xorq (.reg rCa) (.reg rDe),
  .xorq (.mem iState _ko) (.reg rCo),
  .xorq (.mem iState _mo) (.reg rDo),
  .xorq (.reg rDo) (.reg rCo),
  .movq (.reg rCo) (.reg rDi),
  .rolq 1 (.reg rDi),
  .movq (.reg rCu) (.reg rDo),
  .xorq (.reg rCe) (.reg rDi),
  .rolq 1 (.reg rDo),
  .movq (.reg rCa) (.reg rDu),
  .xorq (.reg rCi) (.reg rDo),
  .rolq 1 (.reg rDu)]

/-- "Result b" of `mKeccakRound` (pkg/go-ethereum/crypto/sha3/keccakf_amd64.s:104-145). -/
def resultB (iState oState : Ptr) (rc : Word) (h : Hooks) : List Instr := [
  .movq (.mem iState _ba) (.reg rBa),
  .movq (.mem iState _ge) (.reg rBe),
  .xorq (.reg rCo) (.reg rDu),
  .movq (.mem iState _ki) (.reg rBi),
  .movq (.mem iState _mo) (.reg rBo),
  .movq (.mem iState _su) (.reg rBu),
  .xorq (.reg rDe) (.reg rBe),
  .rolq 44 (.reg rBe),
  .xorq (.reg rDi) (.reg rBi),
  .xorq (.reg rDa) (.reg rBa),
  .rolq 43 (.reg rBi),
  .movq (.reg rBe) (.reg rCa),
  .movq (.imm rc) (.reg rT1),
  .orq (.reg rBi) (.reg rCa),
  .xorq (.reg rBa) (.reg rT1),
  .xorq (.reg rT1) (.reg rCa),
  .movq (.reg rCa) (.mem oState _ba),
  .xorq (.reg rDu) (.reg rBu),
  .rolq 14 (.reg rBu),
  .movq (.reg rBa) (.reg rCu),
  .andq (.reg rBe) (.reg rCu),
  .xorq (.reg rBu) (.reg rCu),
  .movq (.reg rCu) (.mem oState _bu),
  .xorq (.reg rDo) (.reg rBo),
  .rolq 21 (.reg rBo),
  .movq (.reg rBo) (.reg rT1),
  .andq (.reg rBu) (.reg rT1),
  .xorq (.reg rBi) (.reg rT1),
  .movq (.reg rT1) (.mem oState _bi),
  .notq (.reg rBi),
  .orq (.reg rBa) (.reg rBu),
  .orq (.reg rBo) (.reg rBi),
  .xorq (.reg rBo) (.reg rBu),
  .xorq (.reg rBe) (.reg rBi),
  .movq (.reg rBu) (.mem oState _bo),
  .movq (.reg rBi) (.mem oState _be),
  h.B_RBI_RCE]

/-- "Result g" of `mKeccakRound` (pkg/go-ethereum/crypto/sha3/keccakf_amd64.s:147-188). -/
def resultG (iState oState : Ptr) (h : Hooks) : List Instr := [
  .movq (.mem iState _gu) (.reg rBe),
  .xorq (.reg rDu) (.reg rBe),
  .movq (.mem iState _ka) (.reg rBi),
  .rolq 20 (.reg rBe),
  .xorq (.reg rDa) (.reg rBi),
  .rolq 3 (.reg rBi),
  .movq (.mem iState _bo) (.reg rBa),
  .movq (.reg rBe) (.reg rT1),
  .orq (.reg rBi) (.reg rT1),
  .xorq (.reg rDo) (.reg rBa),
  .movq (.mem iState _me) (.reg rBo),
  .movq (.mem iState _si) (.reg rBu),
  .rolq 28 (.reg rBa),
  .xorq (.reg rBa) (.reg rT1),
  .movq (.reg rT1) (.mem oState _ga),
  h.G_RT1_RCA,
  .xorq (.reg rDe) (.reg rBo),
  .rolq 45 (.reg rBo),
  .movq (.reg rBi) (.reg rT1),
  .andq (.reg rBo) (.reg rT1),
  .xorq (.reg rBe) (.reg rT1),
  .movq (.reg rT1) (.mem oState _ge),
  h.G_RT1_RCE,
  .xorq (.reg rDi) (.reg rBu),
  .rolq 61 (.reg rBu),
  .movq (.reg rBu) (.reg rT1),
  .orq (.reg rBa) (.reg rT1),
  .xorq (.reg rBo) (.reg rT1),
  .movq (.reg rT1) (.mem oState _go),
  .andq (.reg rBe) (.reg rBa),
  .xorq (.reg rBu) (.reg rBa),
  .movq (.reg rBa) (.mem oState _gu),
  .notq (.reg rBu),
  h.G_RBA_RCU,
  .orq (.reg rBu) (.reg rBo),
  .xorq (.reg rBi) (.reg rBo),
  .movq (.reg rBo) (.mem oState _gi)]

/-- "Result k" of `mKeccakRound` (pkg/go-ethereum/crypto/sha3/keccakf_amd64.s:190-232). -/
def resultK (iState oState : Ptr) (h : Hooks) : List Instr := [
  .movq (.mem iState _be) (.reg rBa),
  .movq (.mem iState _gi) (.reg rBe),
  .movq (.mem iState _ko) (.reg rBi),
  .movq (.mem iState _mu) (.reg rBo),
  .movq (.mem iState _sa) (.reg rBu),
  .xorq (.reg rDi) (.reg rBe),
  .rolq 6 (.reg rBe),
  .xorq (.reg rDo) (.reg rBi),
  .rolq 25 (.reg rBi),
  .movq (.reg rBe) (.reg rT1),
  .orq (.reg rBi) (.reg rT1),
  .xorq (.reg rDe) (.reg rBa),
  .rolq 1 (.reg rBa),
  .xorq (.reg rBa) (.reg rT1),
  .movq (.reg rT1) (.mem oState _ka),
  h.K_RT1_RCA,
  .xorq (.reg rDu) (.reg rBo),
  .rolq 8 (.reg rBo),
  .movq (.reg rBi) (.reg rT1),
  .andq (.reg rBo) (.reg rT1),
  .xorq (.reg rBe) (.reg rT1),
  .movq (.reg rT1) (.mem oState _ke),
  h.K_RT1_RCE,
  .xorq (.reg rDa) (.reg rBu),
  .rolq 18 (.reg rBu),
  .notq (.reg rBo),
  .movq (.reg rBo) (.reg rT1),
  .andq (.reg rBu) (.reg rT1),
  .xorq (.reg rBi) (.reg rT1),
  .movq (.reg rT1) (.mem oState _ki),
  .movq (.reg rBu) (.reg rT1),
  .orq (.reg rBa) (.reg rT1),
  .xorq (.reg rBo) (.reg rT1),
  .movq (.reg rT1) (.mem oState _ko),
  .andq (.reg rBe) (.reg rBa),
  .xorq (.reg rBu) (.reg rBa),
  .movq (.reg rBa) (.mem oState _ku),
  h.K_RBA_RCU]

/-- "Result m" of `mKeccakRound` (pkg/go-ethereum/crypto/sha3/keccakf_amd64.s:234-275). -/
def resultM (iState oState : Ptr) (h : Hooks) : List Instr := [
  .movq (.mem iState _ga) (.reg rBe),
  .xorq (.reg rDa) (.reg rBe),
  .movq (.mem iState _ke) (.reg rBi),
  .rolq 36 (.reg rBe),
  .xorq (.reg rDe) (.reg rBi),
  .movq (.mem iState _bu) (.reg rBa),
  .rolq 10 (.reg rBi),
  .movq (.reg rBe) (.reg rT1),
  .movq (.mem iState _mi) (.reg rBo),
  .andq (.reg rBi) (.reg rT1),
  .xorq (.reg rDu) (.reg rBa),
  .movq (.mem iState _so) (.reg rBu),
  .rolq 27 (.reg rBa),
  .xorq (.reg rBa) (.reg rT1),
  .movq (.reg rT1) (.mem oState _ma),
  h.M_RT1_RCA,
  .xorq (.reg rDi) (.reg rBo),
  .rolq 15 (.reg rBo),
  .movq (.reg rBi) (.reg rT1),
  .orq (.reg rBo) (.reg rT1),
  .xorq (.reg rBe) (.reg rT1),
  .movq (.reg rT1) (.mem oState _me),
  h.M_RT1_RCE,
  .xorq (.reg rDo) (.reg rBu),
  .rolq 56 (.reg rBu),
  .notq (.reg rBo),
  .movq (.reg rBo) (.reg rT1),
  .orq (.reg rBu) (.reg rT1),
  .xorq (.reg rBi) (.reg rT1),
  .movq (.reg rT1) (.mem oState _mi),
  .orq (.reg rBa) (.reg rBe),
  .xorq (.reg rBu) (.reg rBe),
  .movq (.reg rBe) (.mem oState _mu),
  .andq (.reg rBa) (.reg rBu),
  .xorq (.reg rBo) (.reg rBu),
  .movq (.reg rBu) (.mem oState _mo),
  h.M_RBE_RCU]

/-- "Result s" of `mKeccakRound` (pkg/go-ethereum/crypto/sha3/keccakf_amd64.s:277-320). -/
def resultS (iState oState : Ptr) (h : Hooks) : List Instr := [
  .movq (.mem iState _bi) (.reg rBa),
  .movq (.mem iState _go) (.reg rBe),
  .movq (.mem iState _ku) (.reg rBi),
  .xorq (.reg rDi) (.reg rBa),
  .movq (.mem iState _ma) (.reg rBo),
  .rolq 62 (.reg rBa),
  .xorq (.reg rDo) (.reg rBe),
  .movq (.mem iState _se) (.reg rBu),
  .rolq 55 (.reg rBe),
  .xorq (.reg rDu) (.reg rBi),
  .movq (.reg rBa) (.reg rDu),
  .xorq (.reg rDe) (.reg rBu),
  .rolq 2 (.reg rBu),
  .andq (.reg rBe) (.reg rDu),
  .xorq (.reg rBu) (.reg rDu),
  .movq (.reg rDu) (.mem oState _su),
  .rolq 39 (.reg rBi),
  h.S_RDU_RCU,
  .notq (.reg rBe),
  .xorq (.reg rDa) (.reg rBo),
  .movq (.reg rBe) (.reg rDa),
  .andq (.reg rBi) (.reg rDa),
  .xorq (.reg rBa) (.reg rDa),
  .movq (.reg rDa) (.mem oState _sa),
  h.S_RDA_RCA,
  .rolq 41 (.reg rBo),
  .movq (.reg rBi) (.reg rDe),
  .orq (.reg rBo) (.reg rDe),
  .xorq (.reg rBe) (.reg rDe),
  .movq (.reg rDe) (.mem oState _se),
  h.S_RDE_RCE,
  .movq (.reg rBo) (.reg rDi),
  .movq (.reg rBu) (.reg rDo),
  .andq (.reg rBu) (.reg rDi),
  .orq (.reg rBa) (.reg rDo),
  .xorq (.reg rBi) (.reg rDi),
  .xorq (.reg rBo) (.reg rDo),
  .movq (.reg rDi) (.mem oState _si),
  .movq (.reg rDo) (.mem oState _so)]

/-- `mKeccakRound` (pkg/go-ethereum/crypto/sha3/keccakf_amd64.s:71-320). -/
def mKeccakRound (iState oState : Ptr) (rc : Word) (h : Hooks) : List Instr :=
  prepare iState ++ resultB iState oState rc h ++ resultG iState oState h ++ resultK iState oState h ++
    resultM iState oState h ++ resultS iState oState h

/-- The last thirteen arguments of the first 23 rounds (pkg/go-ethereum/crypto/sha3/keccakf_amd64.s:357-379). -/
def collect : Hooks where
  B_RBI_RCE := MOVQ_RBI_RCE
  G_RT1_RCA := XORQ_RT1_RCA
  G_RT1_RCE := XORQ_RT1_RCE
  G_RBA_RCU := XORQ_RBA_RCU
  K_RT1_RCA := XORQ_RT1_RCA
  K_RT1_RCE := XORQ_RT1_RCE
  K_RBA_RCU := XORQ_RBA_RCU
  M_RT1_RCA := XORQ_RT1_RCA
  M_RT1_RCE := XORQ_RT1_RCE
  M_RBE_RCU := XORQ_RBE_RCU
  S_RDU_RCU := XORQ_RDU_RCU
  S_RDA_RCA := XORQ_RDA_RCA
  S_RDE_RCE := XORQ_RDE_RCE

/-- The last thirteen arguments of the last round (pkg/go-ethereum/crypto/sha3/keccakf_amd64.s:380). -/
def noHooks : Hooks where
  B_RBI_RCE := .nop
  G_RT1_RCA := .nop
  G_RT1_RCE := .nop
  G_RBA_RCU := .nop
  K_RT1_RCA := .nop
  K_RT1_RCE := .nop
  K_RBA_RCU := .nop
  M_RT1_RCA := .nop
  M_RT1_RCE := .nop
  M_RBE_RCU := .nop
  S_RDU_RCU := .nop
  S_RDA_RCA := .nop
  S_RDE_RCE := .nop

/-- "Convert the user state into an internal state" (pkg/go-ethereum/crypto/sha3/keccakf_amd64.s:327-333). -/
def toInternal : List Instr := [
  .notq (.mem .rpState _be),
  .notq (.mem .rpState _bi),
  .notq (.mem .rpState _go),
  .notq (.mem .rpState _ki),
  .notq (.mem .rpState _mi),
  .notq (.mem .rpState _sa)]

/-- Column parities before the first round (pkg/go-ethereum/crypto/sha3/keccakf_amd64.s:335-356). -/
def startParities : List Instr := [
  .movq (.mem .rpState _ba) (.reg rCa),
  .movq (.mem .rpState _be) (.reg rCe),
  .movq (.mem .rpState _bu) (.reg rCu),
  .xorq (.mem .rpState _ga) (.reg rCa),
  .xorq (.mem .rpState _ge) (.reg rCe),
  .xorq (.mem .rpState _gu) (.reg rCu),
  .xorq (.mem .rpState _ka) (.reg rCa),
  .xorq (.mem .rpState _ke) (.reg rCe),
  .xorq (.mem .rpState _ku) (.reg rCu),
  .xorq (.mem .rpState _ma) (.reg rCa),
  .xorq (.mem .rpState _me) (.reg rCe),
  .xorq (.mem .rpState _mu) (.reg rCu),
  .xorq (.mem .rpState _sa) (.reg rCa),
  .xorq (.mem .rpState _se) (.reg rCe),
  .movq (.mem .rpState _si) (.reg rDi),
  .movq (.mem .rpState _so) (.reg rDo),
  .xorq (.mem .rpState _su) (.reg rCu)]

/-- The 24 rounds (pkg/go-ethereum/crypto/sha3/keccakf_amd64.s:357-380). -/
def rounds : List (List Instr) := [
  mKeccakRound .rpState .rpStack 0x0000000000000001#64 collect,
  mKeccakRound .rpStack .rpState 0x0000000000008082#64 collect,
  mKeccakRound .rpState .rpStack 0x800000000000808a#64 collect,
  mKeccakRound .rpStack .rpState 0x8000000080008000#64 collect,
  mKeccakRound .rpState .rpStack 0x000000000000808b#64 collect,
  mKeccakRound .rpStack .rpState 0x0000000080000001#64 collect,
  mKeccakRound .rpState .rpStack 0x8000000080008081#64 collect,
  mKeccakRound .rpStack .rpState 0x8000000000008009#64 collect,
  mKeccakRound .rpState .rpStack 0x000000000000008a#64 collect,
  mKeccakRound .rpStack .rpState 0x0000000000000088#64 collect,
  mKeccakRound .rpState .rpStack 0x0000000080008009#64 collect,
  mKeccakRound .rpStack .rpState 0x000000008000000a#64 collect,
  mKeccakRound .rpState .rpStack 0x000000008000808b#64 collect,
  mKeccakRound .rpStack .rpState 0x800000000000008b#64 collect,
  mKeccakRound .rpState .rpStack 0x8000000000008089#64 collect,
  mKeccakRound .rpStack .rpState 0x8000000000008003#64 collect,
  mKeccakRound .rpState .rpStack 0x8000000000008002#64 collect,
  mKeccakRound .rpStack .rpState 0x8000000000000080#64 collect,
  mKeccakRound .rpState .rpStack 0x000000000000800a#64 collect,
  mKeccakRound .rpStack .rpState 0x800000008000000a#64 collect,
  mKeccakRound .rpState .rpStack 0x8000000080008081#64 collect,
  mKeccakRound .rpStack .rpState 0x8000000000008080#64 collect,
  mKeccakRound .rpState .rpStack 0x0000000080000001#64 collect,
  mKeccakRound .rpStack .rpState 0x8000000080008008#64 noHooks]

/-- "Revert the internal state to the user state" (pkg/go-ethereum/crypto/sha3/keccakf_amd64.s:383-389). -/
def toUser : List Instr := [
  .notq (.mem .rpState _be),
  .notq (.mem .rpState _bi),
  .notq (.mem .rpState _go),
  .notq (.mem .rpState _ki),
  .notq (.mem .rpState _mi),
  .notq (.mem .rpState _sa)]

/-- `keccakF1600` (pkg/go-ethereum/crypto/sha3/keccakf_amd64.s:323-390); line 324 loads the pointer to the state array. -/
def program : List Instr := toInternal ++ startParities ++ rounds.flatten ++ toUser

end ScaleGo.Sha3.Amd64
