import Verif.Model.KeccakAmd64
import Verif.Lemmas.Keccak
import Verif.Lemmas.KernelRfl

/-! # What a run of the assembly macro `mKeccakRound` leaves in memory and registers -/

namespace ScaleGo.Sha3.Amd64

open ScaleGo ScaleGo.Sha3
open Spec.Keccak (Bits)

/-- The output array of a round from the input array and the five registers it starts from. -/
def roundWords (k ca ce cu di dO : Word) (s : Lanes) : Lanes :=
  let ci := s.a2 ^^^ s.a12 ^^^ (di ^^^ s.a7 ^^^ s.a17)
  let co := s.a3 ^^^ s.a13 ^^^ (dO ^^^ s.a8 ^^^ s.a18)
  let da := rol ce 1 ^^^ cu
  let de := rol ci 1 ^^^ ca
  let di := rol co 1 ^^^ ce
  let dO := rol cu 1 ^^^ ci
  let du := rol ca 1 ^^^ co
  let b0 := s.a0 ^^^ da
  let b1 := rol (s.a6 ^^^ de) 44
  let b2 := rol (s.a12 ^^^ di) 43
  let b3 := rol (s.a18 ^^^ dO) 21
  let b4 := rol (s.a24 ^^^ du) 14
  let g0 := rol (s.a3 ^^^ dO) 28
  let g1 := rol (s.a9 ^^^ du) 20
  let g2 := rol (s.a10 ^^^ da) 3
  let g3 := rol (s.a16 ^^^ de) 45
  let g4 := rol (s.a22 ^^^ di) 61
  let k0 := rol (s.a1 ^^^ de) 1
  let k1 := rol (s.a7 ^^^ di) 6
  let k2 := rol (s.a13 ^^^ dO) 25
  let k3 := rol (s.a19 ^^^ du) 8
  let k4 := rol (s.a20 ^^^ da) 18
  let m0 := rol (s.a4 ^^^ du) 27
  let m1 := rol (s.a5 ^^^ da) 36
  let m2 := rol (s.a11 ^^^ de) 10
  let m3 := rol (s.a17 ^^^ di) 15
  let m4 := rol (s.a23 ^^^ dO) 56
  let s0 := rol (s.a2 ^^^ di) 62
  let s1 := rol (s.a8 ^^^ dO) 55
  let s2 := rol (s.a14 ^^^ du) 39
  let s3 := rol (s.a15 ^^^ da) 41
  let s4 := rol (s.a21 ^^^ de) 2
  { a0 := (b1 ||| b2) ^^^ (k ^^^ b0)
    a1 := (~~~b2 ||| b3) ^^^ b1
    a2 := (b3 &&& b4) ^^^ b2
    a3 := (b4 ||| b0) ^^^ b3
    a4 := (b0 &&& b1) ^^^ b4
    a5 := (g1 ||| g2) ^^^ g0
    a6 := (g2 &&& g3) ^^^ g1
    a7 := (g3 ||| ~~~g4) ^^^ g2
    a8 := (g4 ||| g0) ^^^ g3
    a9 := (g0 &&& g1) ^^^ g4
    a10 := (k1 ||| k2) ^^^ k0
    a11 := (k2 &&& k3) ^^^ k1
    a12 := (~~~k3 &&& k4) ^^^ k2
    a13 := (k4 ||| k0) ^^^ ~~~k3
    a14 := (k0 &&& k1) ^^^ k4
    a15 := (m1 &&& m2) ^^^ m0
    a16 := (m2 ||| m3) ^^^ m1
    a17 := (~~~m3 ||| m4) ^^^ m2
    a18 := (m4 &&& m0) ^^^ ~~~m3
    a19 := (m1 ||| m0) ^^^ m4
    a20 := (~~~s1 &&& s2) ^^^ s0
    a21 := (s2 ||| s3) ^^^ ~~~s1
    a22 := (s3 &&& s4) ^^^ s2
    a23 := (s4 ||| s0) ^^^ s3
    a24 := (s0 &&& s1) ^^^ s4 }

theorem round_out (m : Machine) (k : Word) : (run m (mKeccakRound .rpState .rpStack k collect)).stack =
    roundWords k m.SI m.BP m.R15 m.DX m.R8 m.state := by kernel_rfl

theorem round_back (m : Machine) (k : Word) : (run m (mKeccakRound .rpStack .rpState k collect)).state =
    roundWords k m.SI m.BP m.R15 m.DX m.R8 m.stack := by kernel_rfl

theorem round_last (m : Machine) (k : Word) : (run m (mKeccakRound .rpStack .rpState k noHooks)).state =
    roundWords k m.SI m.BP m.R15 m.DX m.R8 m.stack := by kernel_rfl

/-- The registers a round starts from belong to the array `s`: three column parities and two words. -/
structure Ready (m : Machine) (s : Lanes) : Prop where
  ca : m.SI = s.get 0 ^^^ s.get 5 ^^^ s.get 10 ^^^ s.get 15 ^^^ s.get 20
  ce : m.BP = s.get 1 ^^^ s.get 6 ^^^ s.get 11 ^^^ s.get 16 ^^^ s.get 21
  cu : m.R15 = s.get 4 ^^^ s.get 9 ^^^ s.get 14 ^^^ s.get 19 ^^^ s.get 24
  di : m.DX = s.get 22
  dO : m.R8 = s.get 23

theorem ready_out (m : Machine) (k : Word) :
    Ready (run m (mKeccakRound .rpState .rpStack k collect)) (run m (mKeccakRound .rpState .rpStack k collect)).stack :=
  ⟨by kernel_rfl, by kernel_rfl, by kernel_rfl, by kernel_rfl, by kernel_rfl⟩

theorem ready_back (m : Machine) (k : Word) :
    Ready (run m (mKeccakRound .rpStack .rpState k collect)) (run m (mKeccakRound .rpStack .rpState k collect)).state :=
  ⟨by kernel_rfl, by kernel_rfl, by kernel_rfl, by kernel_rfl, by kernel_rfl⟩

/-- The internal form of a state: six lanes complemented. -/
def inner (s : Lanes) : Lanes :=
  { s with a1 := ~~~s.a1, a2 := ~~~s.a2, a8 := ~~~s.a8, a12 := ~~~s.a12, a17 := ~~~s.a17, a20 := ~~~s.a20 }

theorem to_internal (m : Machine) : (run m toInternal).state = inner m.state := by kernel_rfl

theorem to_user (m : Machine) : (run m toUser).state = inner m.state := by kernel_rfl

theorem ready_start (m : Machine) : Ready (run m startParities) (run m startParities).state :=
  ⟨by kernel_rfl, by kernel_rfl, by kernel_rfl, by kernel_rfl, by kernel_rfl⟩

theorem start_state (m : Machine) : (run m startParities).state = m.state := by kernel_rfl

theorem not_xor_left (a b : Word) : ~~~a ^^^ b = ~~~(a ^^^ b) := by
  ext i hi
  simp

theorem not_xor_right (a b : Word) : a ^^^ ~~~b = ~~~(a ^^^ b) := by
  ext i hi
  simp

theorem rol_not (a : Word) (n : Nat) (h1 : 0 < n) (h2 : n < 64) : rol (~~~a) n = ~~~rol a n := by
  have e : ∀ t, rol t n = rotl t n := fun t => by rw [rol, rotl, if_neg (by omega)]
  rw [e, e]
  apply BitVec.eq_of_getLsbD_eq
  intro i hi
  rw [BitVec.getLsbD_not, rotl_bit _ _ _ h2 hi, rotl_bit _ _ _ h2 hi, BitVec.getLsbD_not]
  simp [hi, Nat.mod_lt]

/-- A round from its five θ words. -/
def roundFrom (k da de di dO du : Word) (s : Lanes) : Lanes :=
  let b0 := s.a0 ^^^ da
  let b1 := rol (s.a6 ^^^ de) 44
  let b2 := rol (s.a12 ^^^ di) 43
  let b3 := rol (s.a18 ^^^ dO) 21
  let b4 := rol (s.a24 ^^^ du) 14
  let g0 := rol (s.a3 ^^^ dO) 28
  let g1 := rol (s.a9 ^^^ du) 20
  let g2 := rol (s.a10 ^^^ da) 3
  let g3 := rol (s.a16 ^^^ de) 45
  let g4 := rol (s.a22 ^^^ di) 61
  let k0 := rol (s.a1 ^^^ de) 1
  let k1 := rol (s.a7 ^^^ di) 6
  let k2 := rol (s.a13 ^^^ dO) 25
  let k3 := rol (s.a19 ^^^ du) 8
  let k4 := rol (s.a20 ^^^ da) 18
  let m0 := rol (s.a4 ^^^ du) 27
  let m1 := rol (s.a5 ^^^ da) 36
  let m2 := rol (s.a11 ^^^ de) 10
  let m3 := rol (s.a17 ^^^ di) 15
  let m4 := rol (s.a23 ^^^ dO) 56
  let s0 := rol (s.a2 ^^^ di) 62
  let s1 := rol (s.a8 ^^^ dO) 55
  let s2 := rol (s.a14 ^^^ du) 39
  let s3 := rol (s.a15 ^^^ da) 41
  let s4 := rol (s.a21 ^^^ de) 2
  { a0 := (b1 ||| b2) ^^^ (k ^^^ b0)
    a1 := (~~~b2 ||| b3) ^^^ b1
    a2 := (b3 &&& b4) ^^^ b2
    a3 := (b4 ||| b0) ^^^ b3
    a4 := (b0 &&& b1) ^^^ b4
    a5 := (g1 ||| g2) ^^^ g0
    a6 := (g2 &&& g3) ^^^ g1
    a7 := (g3 ||| ~~~g4) ^^^ g2
    a8 := (g4 ||| g0) ^^^ g3
    a9 := (g0 &&& g1) ^^^ g4
    a10 := (k1 ||| k2) ^^^ k0
    a11 := (k2 &&& k3) ^^^ k1
    a12 := (~~~k3 &&& k4) ^^^ k2
    a13 := (k4 ||| k0) ^^^ ~~~k3
    a14 := (k0 &&& k1) ^^^ k4
    a15 := (m1 &&& m2) ^^^ m0
    a16 := (m2 ||| m3) ^^^ m1
    a17 := (~~~m3 ||| m4) ^^^ m2
    a18 := (m4 &&& m0) ^^^ ~~~m3
    a19 := (m1 ||| m0) ^^^ m4
    a20 := (~~~s1 &&& s2) ^^^ s0
    a21 := (s2 ||| s3) ^^^ ~~~s1
    a22 := (s3 &&& s4) ^^^ s2
    a23 := (s4 ||| s0) ^^^ s3
    a24 := (s0 &&& s1) ^^^ s4 }

theorem roundWords_from (k ca ce cu di dO : Word) (s : Lanes) : roundWords k ca ce cu di dO s =
    roundFrom k (rol ce 1 ^^^ cu) (rol (s.a2 ^^^ s.a12 ^^^ (di ^^^ s.a7 ^^^ s.a17)) 1 ^^^ ca)
      (rol (s.a3 ^^^ s.a13 ^^^ (dO ^^^ s.a8 ^^^ s.a18)) 1 ^^^ ce)
      (rol cu 1 ^^^ (s.a2 ^^^ s.a12 ^^^ (di ^^^ s.a7 ^^^ s.a17)))
      (rol ca 1 ^^^ (s.a3 ^^^ s.a13 ^^^ (dO ^^^ s.a8 ^^^ s.a18))) s := by kernel_rfl

/-- The lanes of a state by their coordinates. -/
def grid (s : Lanes) (x y : Nat) : Word := s.get (5 * y + x)

/-- θ word of column `x`. -/
def thetaWord (s : Lanes) (x : Nat) : Word :=
  laneParity (grid s) ((x + 4) % 5) ^^^ rol (laneParity (grid s) ((x + 1) % 5)) 1

/-- The result of a round of the specification on lanes. -/
def roundLanes (k : Word) (s : Lanes) : Lanes :=
  Lanes.ofFn (fun i => laneRound (laneParity (grid s)) k (grid s) (i % 5) (i / 5))

/-- χ and ι on the lanes after θ, ρ and π, the lanes after θ being lane and θ word combined. -/
def chiLanes (k da de di dO du : Word) (s : Lanes) : Lanes :=
  let b0 := s.a0 ^^^ da
  let b1 := rol (s.a6 ^^^ de) 44
  let b2 := rol (s.a12 ^^^ di) 43
  let b3 := rol (s.a18 ^^^ dO) 21
  let b4 := rol (s.a24 ^^^ du) 14
  let g0 := rol (s.a3 ^^^ dO) 28
  let g1 := rol (s.a9 ^^^ du) 20
  let g2 := rol (s.a10 ^^^ da) 3
  let g3 := rol (s.a16 ^^^ de) 45
  let g4 := rol (s.a22 ^^^ di) 61
  let k0 := rol (s.a1 ^^^ de) 1
  let k1 := rol (s.a7 ^^^ di) 6
  let k2 := rol (s.a13 ^^^ dO) 25
  let k3 := rol (s.a19 ^^^ du) 8
  let k4 := rol (s.a20 ^^^ da) 18
  let m0 := rol (s.a4 ^^^ du) 27
  let m1 := rol (s.a5 ^^^ da) 36
  let m2 := rol (s.a11 ^^^ de) 10
  let m3 := rol (s.a17 ^^^ di) 15
  let m4 := rol (s.a23 ^^^ dO) 56
  let s0 := rol (s.a2 ^^^ di) 62
  let s1 := rol (s.a8 ^^^ dO) 55
  let s2 := rol (s.a14 ^^^ du) 39
  let s3 := rol (s.a15 ^^^ da) 41
  let s4 := rol (s.a21 ^^^ de) 2
  { a0 := b0 ^^^ (b2 &&& ~~~b1) ^^^ k
    a1 := b1 ^^^ (b3 &&& ~~~b2)
    a2 := b2 ^^^ (b4 &&& ~~~b3)
    a3 := b3 ^^^ (b0 &&& ~~~b4)
    a4 := b4 ^^^ (b1 &&& ~~~b0)
    a5 := g0 ^^^ (g2 &&& ~~~g1)
    a6 := g1 ^^^ (g3 &&& ~~~g2)
    a7 := g2 ^^^ (g4 &&& ~~~g3)
    a8 := g3 ^^^ (g0 &&& ~~~g4)
    a9 := g4 ^^^ (g1 &&& ~~~g0)
    a10 := k0 ^^^ (k2 &&& ~~~k1)
    a11 := k1 ^^^ (k3 &&& ~~~k2)
    a12 := k2 ^^^ (k4 &&& ~~~k3)
    a13 := k3 ^^^ (k0 &&& ~~~k4)
    a14 := k4 ^^^ (k1 &&& ~~~k0)
    a15 := m0 ^^^ (m2 &&& ~~~m1)
    a16 := m1 ^^^ (m3 &&& ~~~m2)
    a17 := m2 ^^^ (m4 &&& ~~~m3)
    a18 := m3 ^^^ (m0 &&& ~~~m4)
    a19 := m4 ^^^ (m1 &&& ~~~m0)
    a20 := s0 ^^^ (s2 &&& ~~~s1)
    a21 := s1 ^^^ (s3 &&& ~~~s2)
    a22 := s2 ^^^ (s4 &&& ~~~s3)
    a23 := s3 ^^^ (s0 &&& ~~~s4)
    a24 := s4 ^^^ (s1 &&& ~~~s0) }

theorem roundLanes_eq (k : Word) (s : Lanes) : roundLanes k s =
    chiLanes k (thetaWord s 0) (thetaWord s 1) (thetaWord s 2) (thetaWord s 3) (thetaWord s 4) s := by kernel_rfl

theorem row_b (b0 b1 b2 b3 b4 k : Word) :
    (b1 ||| (~~~b2)) ^^^ (k ^^^ (~~~b0)) = b0 ^^^ (b2 &&& ~~~b1) ^^^ k ∧
    (~~~(~~~b2) ||| (~~~b3)) ^^^ b1 = ~~~(b1 ^^^ (b3 &&& ~~~b2)) ∧
    ((~~~b3) &&& b4) ^^^ (~~~b2) = ~~~(b2 ^^^ (b4 &&& ~~~b3)) ∧
    (b4 ||| (~~~b0)) ^^^ (~~~b3) = b3 ^^^ (b0 &&& ~~~b4) ∧
    ((~~~b0) &&& b1) ^^^ b4 = b4 ^^^ (b1 &&& ~~~b0) := by
  refine ⟨?_, ?_, ?_, ?_, ?_⟩ <;>
  · ext i hi
    simp only [BitVec.getElem_xor, BitVec.getElem_or, BitVec.getElem_not, BitVec.getElem_and]
    cases b0[i] <;> cases b1[i] <;> cases b2[i] <;> cases b3[i] <;> cases b4[i] <;> cases k[i] <;> rfl

theorem row_g (g0 g1 g2 g3 g4 : Word) :
    (g1 ||| (~~~g2)) ^^^ (~~~g0) = g0 ^^^ (g2 &&& ~~~g1) ∧
    ((~~~g2) &&& g3) ^^^ g1 = g1 ^^^ (g3 &&& ~~~g2) ∧
    (g3 ||| ~~~g4) ^^^ (~~~g2) = g2 ^^^ (g4 &&& ~~~g3) ∧
    (g4 ||| (~~~g0)) ^^^ g3 = ~~~(g3 ^^^ (g0 &&& ~~~g4)) ∧
    ((~~~g0) &&& g1) ^^^ g4 = g4 ^^^ (g1 &&& ~~~g0) := by
  refine ⟨?_, ?_, ?_, ?_, ?_⟩ <;>
  · ext i hi
    simp only [BitVec.getElem_xor, BitVec.getElem_or, BitVec.getElem_not, BitVec.getElem_and]
    cases g0[i] <;> cases g1[i] <;> cases g2[i] <;> cases g3[i] <;> cases g4[i] <;> rfl

theorem row_k (k0 k1 k2 k3 k4 : Word) :
    (k1 ||| (~~~k2)) ^^^ (~~~k0) = k0 ^^^ (k2 &&& ~~~k1) ∧
    ((~~~k2) &&& k3) ^^^ k1 = k1 ^^^ (k3 &&& ~~~k2) ∧
    (~~~k3 &&& k4) ^^^ (~~~k2) = ~~~(k2 ^^^ (k4 &&& ~~~k3)) ∧
    (k4 ||| (~~~k0)) ^^^ ~~~k3 = k3 ^^^ (k0 &&& ~~~k4) ∧
    ((~~~k0) &&& k1) ^^^ k4 = k4 ^^^ (k1 &&& ~~~k0) := by
  refine ⟨?_, ?_, ?_, ?_, ?_⟩ <;>
  · ext i hi
    simp only [BitVec.getElem_xor, BitVec.getElem_or, BitVec.getElem_not, BitVec.getElem_and]
    cases k0[i] <;> cases k1[i] <;> cases k2[i] <;> cases k3[i] <;> cases k4[i] <;> rfl

theorem row_m (m0 m1 m2 m3 m4 : Word) :
    ((~~~m1) &&& m2) ^^^ m0 = m0 ^^^ (m2 &&& ~~~m1) ∧
    (m2 ||| (~~~m3)) ^^^ (~~~m1) = m1 ^^^ (m3 &&& ~~~m2) ∧
    (~~~(~~~m3) ||| (~~~m4)) ^^^ m2 = ~~~(m2 ^^^ (m4 &&& ~~~m3)) ∧
    ((~~~m4) &&& m0) ^^^ ~~~(~~~m3) = m3 ^^^ (m0 &&& ~~~m4) ∧
    ((~~~m1) ||| m0) ^^^ (~~~m4) = m4 ^^^ (m1 &&& ~~~m0) := by
  refine ⟨?_, ?_, ?_, ?_, ?_⟩ <;>
  · ext i hi
    simp only [BitVec.getElem_xor, BitVec.getElem_or, BitVec.getElem_not, BitVec.getElem_and]
    cases m0[i] <;> cases m1[i] <;> cases m2[i] <;> cases m3[i] <;> cases m4[i] <;> rfl

theorem row_s (s0 s1 s2 s3 s4 : Word) :
    (~~~s1 &&& s2) ^^^ (~~~s0) = ~~~(s0 ^^^ (s2 &&& ~~~s1)) ∧
    (s2 ||| (~~~s3)) ^^^ ~~~s1 = s1 ^^^ (s3 &&& ~~~s2) ∧
    ((~~~s3) &&& s4) ^^^ s2 = s2 ^^^ (s4 &&& ~~~s3) ∧
    (s4 ||| (~~~s0)) ^^^ (~~~s3) = s3 ^^^ (s0 &&& ~~~s4) ∧
    ((~~~s0) &&& s1) ^^^ s4 = s4 ^^^ (s1 &&& ~~~s0) := by
  refine ⟨?_, ?_, ?_, ?_, ?_⟩ <;>
  · ext i hi
    simp only [BitVec.getElem_xor, BitVec.getElem_or, BitVec.getElem_not, BitVec.getElem_and]
    cases s0[i] <;> cases s1[i] <;> cases s2[i] <;> cases s3[i] <;> cases s4[i] <;> rfl

set_option linter.unusedSimpArgs false in
theorem roundFrom_inner (k da de di dO du : Word) (s : Lanes) :
    roundFrom k (~~~da) de di (~~~dO) du (inner s) = inner (chiLanes k da de di dO du s) := by
  have hb0 : s.a0 ^^^ ~~~da = ~~~(s.a0 ^^^ da) := by
    simp only [not_xor_left, not_xor_right, BitVec.not_not]
  have hb2 : rol (~~~s.a12 ^^^ di) 43 = ~~~rol (s.a12 ^^^ di) 43 := by
    simp only [not_xor_left, not_xor_right, BitVec.not_not, rol_not _ 43 (by decide) (by decide)]
  have hb3 : rol (s.a18 ^^^ ~~~dO) 21 = ~~~rol (s.a18 ^^^ dO) 21 := by
    simp only [not_xor_left, not_xor_right, BitVec.not_not, rol_not _ 21 (by decide) (by decide)]
  have hg0 : rol (s.a3 ^^^ ~~~dO) 28 = ~~~rol (s.a3 ^^^ dO) 28 := by
    simp only [not_xor_left, not_xor_right, BitVec.not_not, rol_not _ 28 (by decide) (by decide)]
  have hg2 : rol (s.a10 ^^^ ~~~da) 3 = ~~~rol (s.a10 ^^^ da) 3 := by
    simp only [not_xor_left, not_xor_right, BitVec.not_not, rol_not _ 3 (by decide) (by decide)]
  have hk0 : rol (~~~s.a1 ^^^ de) 1 = ~~~rol (s.a1 ^^^ de) 1 := by
    simp only [not_xor_left, not_xor_right, BitVec.not_not, rol_not _ 1 (by decide) (by decide)]
  have hk2 : rol (s.a13 ^^^ ~~~dO) 25 = ~~~rol (s.a13 ^^^ dO) 25 := by
    simp only [not_xor_left, not_xor_right, BitVec.not_not, rol_not _ 25 (by decide) (by decide)]
  have hk4 : rol (~~~s.a20 ^^^ ~~~da) 18 = rol (s.a20 ^^^ da) 18 := by
    simp only [not_xor_left, not_xor_right, BitVec.not_not]
  have hm1 : rol (s.a5 ^^^ ~~~da) 36 = ~~~rol (s.a5 ^^^ da) 36 := by
    simp only [not_xor_left, not_xor_right, BitVec.not_not, rol_not _ 36 (by decide) (by decide)]
  have hm3 : rol (~~~s.a17 ^^^ di) 15 = ~~~rol (s.a17 ^^^ di) 15 := by
    simp only [not_xor_left, not_xor_right, BitVec.not_not, rol_not _ 15 (by decide) (by decide)]
  have hm4 : rol (s.a23 ^^^ ~~~dO) 56 = ~~~rol (s.a23 ^^^ dO) 56 := by
    simp only [not_xor_left, not_xor_right, BitVec.not_not, rol_not _ 56 (by decide) (by decide)]
  have hs0 : rol (~~~s.a2 ^^^ di) 62 = ~~~rol (s.a2 ^^^ di) 62 := by
    simp only [not_xor_left, not_xor_right, BitVec.not_not, rol_not _ 62 (by decide) (by decide)]
  have hs1 : rol (~~~s.a8 ^^^ ~~~dO) 55 = rol (s.a8 ^^^ dO) 55 := by
    simp only [not_xor_left, not_xor_right, BitVec.not_not]
  have hs3 : rol (s.a15 ^^^ ~~~da) 41 = ~~~rol (s.a15 ^^^ da) 41 := by
    simp only [not_xor_left, not_xor_right, BitVec.not_not, rol_not _ 41 (by decide) (by decide)]
  unfold roundFrom chiLanes inner
  dsimp only
  rw [hb0, hb2, hb3, hg0, hg2, hk0, hk2, hk4, hm1, hm3, hm4, hs0, hs1, hs3]
  obtain ⟨b0, b1, b2, b3, b4⟩ := row_b (s.a0 ^^^ da) (rol (s.a6 ^^^ de) 44) (rol (s.a12 ^^^ di) 43) (rol (s.a18 ^^^ dO) 21) (rol (s.a24 ^^^ du) 14) k
  obtain ⟨g0, g1, g2, g3, g4⟩ := row_g (rol (s.a3 ^^^ dO) 28) (rol (s.a9 ^^^ du) 20) (rol (s.a10 ^^^ da) 3) (rol (s.a16 ^^^ de) 45) (rol (s.a22 ^^^ di) 61)
  obtain ⟨k0, k1, k2, k3, k4⟩ := row_k (rol (s.a1 ^^^ de) 1) (rol (s.a7 ^^^ di) 6) (rol (s.a13 ^^^ dO) 25) (rol (s.a19 ^^^ du) 8) (rol (s.a20 ^^^ da) 18)
  obtain ⟨m0, m1, m2, m3, m4⟩ := row_m (rol (s.a4 ^^^ du) 27) (rol (s.a5 ^^^ da) 36) (rol (s.a11 ^^^ de) 10) (rol (s.a17 ^^^ di) 15) (rol (s.a23 ^^^ dO) 56)
  obtain ⟨s0, s1, s2, s3, s4⟩ := row_s (rol (s.a2 ^^^ di) 62) (rol (s.a8 ^^^ dO) 55) (rol (s.a14 ^^^ du) 39) (rol (s.a15 ^^^ da) 41) (rol (s.a21 ^^^ de) 2)
  rw [b0, b1, b2, b3, b4, g0, g1, g2, g3, g4, k0, k1, k2, k3, k4, m0, m1, m2, m3, m4, s0, s1, s2, s3, s4]

theorem theta_words {m : Machine} {s : Lanes} (h : Ready m (inner s)) (k : Word) :
    roundWords k m.SI m.BP m.R15 m.DX m.R8 (inner s) = inner (roundLanes k s) := by
  have r (a : Word) : rol (~~~a) 1 = ~~~rol a 1 := rol_not a 1 (by decide) (by decide)
  have ha : m.SI = ~~~laneParity (grid s) 0 := by
    rw [h.ca]
    show s.a0 ^^^ s.a5 ^^^ s.a10 ^^^ s.a15 ^^^ ~~~s.a20 = ~~~(s.a0 ^^^ s.a5 ^^^ s.a10 ^^^ s.a15 ^^^ s.a20)
    rw [not_xor_right]
  have he : m.BP = ~~~laneParity (grid s) 1 := by
    rw [h.ce]
    show ~~~s.a1 ^^^ s.a6 ^^^ s.a11 ^^^ s.a16 ^^^ s.a21 = ~~~(s.a1 ^^^ s.a6 ^^^ s.a11 ^^^ s.a16 ^^^ s.a21)
    simp only [not_xor_left]
  have hu : m.R15 = laneParity (grid s) 4 := by
    rw [h.cu]
    rfl
  have hi : ~~~s.a2 ^^^ ~~~s.a12 ^^^ (s.a22 ^^^ s.a7 ^^^ ~~~s.a17) = ~~~laneParity (grid s) 2 := by
    show _ = ~~~(s.a2 ^^^ s.a7 ^^^ s.a12 ^^^ s.a17 ^^^ s.a22)
    simp only [not_xor_left, not_xor_right, BitVec.not_not]
    congr 1
    ac_rfl
  have ho : s.a3 ^^^ s.a13 ^^^ (s.a23 ^^^ ~~~s.a8 ^^^ s.a18) = ~~~laneParity (grid s) 3 := by
    show _ = ~~~(s.a3 ^^^ s.a8 ^^^ s.a13 ^^^ s.a18 ^^^ s.a23)
    simp only [not_xor_left, not_xor_right]
    congr 1
    ac_rfl
  have hd : m.DX = s.a22 := h.di
  have hq : m.R8 = s.a23 := h.dO
  rw [roundWords_from, roundLanes_eq, ← roundFrom_inner, hd, hq]
  show roundFrom k _ (rol (~~~s.a2 ^^^ ~~~s.a12 ^^^ (s.a22 ^^^ s.a7 ^^^ ~~~s.a17)) 1 ^^^ _)
    (rol (s.a3 ^^^ s.a13 ^^^ (s.a23 ^^^ ~~~s.a8 ^^^ s.a18)) 1 ^^^ _)
    (_ ^^^ (~~~s.a2 ^^^ ~~~s.a12 ^^^ (s.a22 ^^^ s.a7 ^^^ ~~~s.a17)))
    (_ ^^^ (s.a3 ^^^ s.a13 ^^^ (s.a23 ^^^ ~~~s.a8 ^^^ s.a18))) _ = _
  rw [hi, ho, ha, he, hu, r, r, r, r]
  have t (x : Nat) : thetaWord s x = laneParity (grid s) ((x + 4) % 5) ^^^ rol (laneParity (grid s) ((x + 1) % 5)) 1 := rfl
  simp only [not_xor_left, not_xor_right, BitVec.not_not, t, Nat.reduceAdd, Nat.reduceMod]
  congr 1
  · congr 1
    exact BitVec.xor_comm _ _
  · exact BitVec.xor_comm _ _
  · exact BitVec.xor_comm _ _
  · congr 1
    exact BitVec.xor_comm _ _
  · exact BitVec.xor_comm _ _

theorem run_append (m : Machine) (p q : List Instr) : run m (p ++ q) = run (run m p) q := List.foldl_append

/-- Two rounds, from the state array to the frame and back. -/
theorem two_rounds {m : Machine} {s : Lanes} (hm : m.state = inner s) (hr : Ready m m.state) (k1 k2 : Word) :
    let m' := run m (mKeccakRound .rpState .rpStack k1 collect ++ mKeccakRound .rpStack .rpState k2 collect)
    m'.state = inner (roundLanes k2 (roundLanes k1 s)) ∧ Ready m' m'.state := by
  intro m'
  have h1 := round_out m k1
  rw [hm] at hr
  rw [hm, theta_words hr] at h1
  have h2 := ready_out m k1
  have h3 := round_back (run m (mKeccakRound .rpState .rpStack k1 collect)) k2
  rw [h1] at h2
  rw [h1, theta_words h2, ← run_append] at h3
  refine ⟨h3, ?_⟩
  have h4 := ready_back (run m (mKeccakRound .rpState .rpStack k1 collect)) k2
  rw [← run_append] at h4
  exact h4

theorem last_rounds {m : Machine} {s : Lanes} (hm : m.state = inner s) (hr : Ready m m.state) (k1 k2 : Word) :
    (run m (mKeccakRound .rpState .rpStack k1 collect ++ mKeccakRound .rpStack .rpState k2 noHooks)).state =
      inner (roundLanes k2 (roundLanes k1 s)) := by
  have h1 := round_out m k1
  rw [hm] at hr
  rw [hm, theta_words hr] at h1
  have h2 := ready_out m k1
  have h3 := round_last (run m (mKeccakRound .rpState .rpStack k1 collect)) k2
  rw [h1] at h2
  rw [h1, theta_words h2, ← run_append] at h3
  exact h3

theorem inner_inner (s : Lanes) : inner (inner s) = s := by
  unfold inner
  simp only [BitVec.not_not]

/-- Pairs of rounds. -/
def pairs : List (Word × Word) → List Instr
  | [] => []
  | (k1, k2) :: ks => mKeccakRound .rpState .rpStack k1 collect ++ mKeccakRound .rpStack .rpState k2 collect ++ pairs ks

theorem pairs_run (ks : List (Word × Word)) : ∀ {m : Machine} {s : Lanes}, m.state = inner s → Ready m m.state →
    (run m (pairs ks)).state = inner (ks.foldl (fun s k => roundLanes k.2 (roundLanes k.1 s)) s) ∧
      Ready (run m (pairs ks)) (run m (pairs ks)).state := by
  induction ks with
  | nil => intro m s hm hr; exact ⟨hm, hr⟩
  | cons k ks ih =>
    intro m s hm hr
    obtain ⟨h1, h2⟩ := two_rounds hm hr k.1 k.2
    rw [pairs, run_append]
    exact ih h1 h2

/-- Round constants of the file, except the last two, in pairs. -/
def constants : List (Word × Word) := (List.range 11).map (fun i => (rc.getD (2 * i) 0, rc.getD (2 * i + 1) 0))

theorem program_eq : program = toInternal ++ startParities ++ (pairs constants ++
    (mKeccakRound .rpState .rpStack (rc.getD 22 0) collect ++ mKeccakRound .rpStack .rpState (rc.getD 23 0) noHooks)) ++
    toUser := by kernel_rfl

theorem program_state (m : Machine) : (run m program).state =
    roundLanes (rc.getD 23 0) (roundLanes (rc.getD 22 0)
      (constants.foldl (fun s k => roundLanes k.2 (roundLanes k.1 s)) m.state)) := by
  rw [program_eq, run_append, to_user, run_append, run_append m]
  have h1 : (run (run m toInternal) startParities).state = inner m.state := by rw [start_state, to_internal]
  obtain ⟨h2, h3⟩ := pairs_run constants h1 (ready_start _)
  rw [run_append _ (pairs constants), last_rounds h2 h3, inner_inner]

theorem roundLanes_is {s : Lanes} {A : Bits} (h : s.Is A) (ir : Nat) (hir : ir < 24) :
    (roundLanes (rc.getD ir 0) s).Is (Spec.Keccak.round ir A) := by
  have h1 : Holds (grid s) A := h
  refine (round_bit h1 ir hir).congr (fun x y hx hy => ?_)
  have hg : ∀ (f : Nat → Word) (i : Nat), i < 25 → (Lanes.ofFn f).get i = f i := by
    intro f i hi
    have : ∀ i, i < 25 → i = 0 ∨ i = 1 ∨ i = 2 ∨ i = 3 ∨ i = 4 ∨ i = 5 ∨ i = 6 ∨ i = 7 ∨ i = 8 ∨ i = 9 ∨ i = 10 ∨ i = 11 ∨
      i = 12 ∨ i = 13 ∨ i = 14 ∨ i = 15 ∨ i = 16 ∨ i = 17 ∨ i = 18 ∨ i = 19 ∨ i = 20 ∨ i = 21 ∨ i = 22 ∨ i = 23 ∨
      i = 24 := by intro i h; omega
    rcases this i hi with h | h | h | h | h | h | h | h | h | h | h | h | h | h | h | h | h | h | h | h | h | h | h | h | h <;>
      (subst h; rfl)
  rw [roundLanes, hg _ _ (by omega)]
  have e1 : (5 * y + x) % 5 = x := by omega
  have e2 : (5 * y + x) / 5 = y := by omega
  rw [e1, e2]

theorem rounds_is (n : Nat) : ∀ {s : Lanes} {A : Bits}, n ≤ 12 → s.Is A →
    (((List.range n).map (fun i => (rc.getD (2 * i) 0, rc.getD (2 * i + 1) 0))).foldl
      (fun s k => roundLanes k.2 (roundLanes k.1 s)) s).Is ((List.range (2 * n)).foldl (fun A ir => Spec.Keccak.round ir A) A) := by
  induction n with
  | zero => intro s A _ h; exact h
  | succ n ih =>
    intro s A hn h
    have h1 := ih (by omega) h
    rw [List.range_succ, List.map_append, List.foldl_append, show 2 * (n + 1) = 2 * n + 1 + 1 by omega, List.range_succ,
      List.range_succ, List.foldl_append, List.foldl_append]
    exact roundLanes_is (roundLanes_is h1 (2 * n) (by omega)) (2 * n + 1) (by omega)

theorem program_is (m : Machine) {A : Bits} (h : m.state.Is A) : (run m program).state.Is (Spec.Keccak.permutation A) := by
  rw [program_state]
  exact roundLanes_is (roundLanes_is (rounds_is 11 (by decide) h) 22 (by decide)) 23 (by decide)

end ScaleGo.Sha3.Amd64
