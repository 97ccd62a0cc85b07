import Verif.Model.Keccak
import Verif.Spec.Keccak

/-! # The unrolled rounds are the rounds of the specification -/

namespace ScaleGo.Sha3

open Spec.Keccak (Bits)

/-- Rotation offsets modulo 64, lane `(x, y)` at `5y + x`. -/
def rotTable : List Nat :=
  [0, 1, 62, 28, 27, 36, 44, 6, 55, 20, 3, 10, 43, 25, 39, 41, 45, 15, 21, 8, 18, 2, 61, 56, 14]

def rotl (t : Word) (n : Nat) : Word := if n = 0 then t else t <<< n ||| t >>> (64 - n)

/-- A round on whole lanes, with the column parities given separately. -/
def laneTheta (par : Nat → Word) (L : Nat → Nat → Word) (x y : Nat) : Word :=
  L x y ^^^ (par ((x + 4) % 5) ^^^ rotl (par ((x + 1) % 5)) 1)

def laneRhoPi (par : Nat → Word) (L : Nat → Nat → Word) (x y : Nat) : Word :=
  rotl (laneTheta par L ((x + 3 * y) % 5) x) (rotTable.getD (5 * x + (x + 3 * y) % 5) 0)

def laneChi (par : Nat → Word) (L : Nat → Nat → Word) (x y : Nat) : Word :=
  laneRhoPi par L x y ^^^ (laneRhoPi par L ((x + 2) % 5) y &&& ~~~laneRhoPi par L ((x + 1) % 5) y)

def laneRound (par : Nat → Word) (k : Word) (L : Nat → Nat → Word) (x y : Nat) : Word :=
  if x = 0 ∧ y = 0 then laneChi par L x y ^^^ k else laneChi par L x y

def laneParity (L : Nat → Nat → Word) (x : Nat) : Word := L x 0 ^^^ L x 1 ^^^ L x 2 ^^^ L x 3 ^^^ L x 4

/-- The column parities as the code computes them. -/
def codeParity (s : Lanes) (x : Nat) : Word :=
  s.get x ^^^ s.get (x + 5) ^^^ s.get (x + 10) ^^^ s.get (x + 15) ^^^ s.get (x + 20)

theorem laneRound_congr {p q : Nat → Word} (h : ∀ x, x < 5 → p x = q x) (k : Word) (L : Nat → Nat → Word) (x y : Nat) :
    laneRound p k L x y = laneRound q k L x y := by
  simp only [laneRound, laneChi, laneRhoPi, laneTheta, h _ (Nat.mod_lt _ (by decide : 0 < 5))]

/-- Where lane `(x, y)` is kept after round 1, 2, 3 of the loop body. -/
def pos1 : List Nat := [0, 6, 12, 18, 24, 10, 16, 22, 3, 9, 20, 1, 7, 13, 19, 5, 11, 17, 23, 4, 15, 21, 2, 8, 14]
def pos2 : List Nat := [0, 16, 7, 23, 14, 20, 11, 2, 18, 9, 15, 6, 22, 13, 4, 10, 1, 17, 8, 24, 5, 21, 12, 3, 19]
def pos3 : List Nat := [0, 11, 22, 8, 19, 15, 1, 12, 23, 9, 5, 16, 2, 13, 24, 20, 6, 17, 3, 14, 10, 21, 7, 18, 4]
def pos0 : List Nat := [0, 1, 2, 3, 4, 5, 6, 7, 8, 9, 10, 11, 12, 13, 14, 15, 16, 17, 18, 19, 20, 21, 22, 23, 24]

def lanesAt (p : List Nat) (s : Lanes) (x y : Nat) : Word := s.get (p.getD (5 * y + x) 0)

theorem parity1 (s : Lanes) (x : Nat) (hx : x < 5) : codeParity s x = laneParity (lanesAt pos0 s) x := by
  rcases (by omega : x = 0 ∨ x = 1 ∨ x = 2 ∨ x = 3 ∨ x = 4) with rfl | rfl | rfl | rfl | rfl <;>
  simp only [codeParity, laneParity, lanesAt, pos0, List.getD_cons_succ,
    List.getD_cons_zero, Nat.reduceMul, Nat.reduceAdd] <;> ac_rfl

theorem round1_lane (k : Word) (s : Lanes) (x y : Nat) (hx : x < 5) (hy : y < 5) :
    lanesAt pos1 (round1 k s) x y = laneRound (laneParity (lanesAt pos0 s)) k (lanesAt pos0 s) x y := by
  rw [← laneRound_congr (parity1 s)]
  obtain ⟨a0, a1, a2, a3, a4, a5, a6, a7, a8, a9, a10, a11, a12, a13, a14, a15, a16, a17, a18, a19, a20, a21, a22, a23, a24⟩ := s
  rcases (by omega : y = 0 ∨ y = 1 ∨ y = 2 ∨ y = 3 ∨ y = 4) with rfl | rfl | rfl | rfl | rfl <;>
  rcases (by omega : x = 0 ∨ x = 1 ∨ x = 2 ∨ x = 3 ∨ x = 4) with rfl | rfl | rfl | rfl | rfl <;>
  rfl

theorem parity2 (s : Lanes) (x : Nat) (hx : x < 5) : codeParity s x = laneParity (lanesAt pos1 s) x := by
  rcases (by omega : x = 0 ∨ x = 1 ∨ x = 2 ∨ x = 3 ∨ x = 4) with rfl | rfl | rfl | rfl | rfl <;>
  simp only [codeParity, laneParity, lanesAt, pos1, List.getD_cons_succ,
    List.getD_cons_zero, Nat.reduceMul, Nat.reduceAdd] <;> ac_rfl

theorem round2_lane (k : Word) (s : Lanes) (x y : Nat) (hx : x < 5) (hy : y < 5) :
    lanesAt pos2 (round2 k s) x y = laneRound (laneParity (lanesAt pos1 s)) k (lanesAt pos1 s) x y := by
  rw [← laneRound_congr (parity2 s)]
  obtain ⟨a0, a1, a2, a3, a4, a5, a6, a7, a8, a9, a10, a11, a12, a13, a14, a15, a16, a17, a18, a19, a20, a21, a22, a23, a24⟩ := s
  rcases (by omega : y = 0 ∨ y = 1 ∨ y = 2 ∨ y = 3 ∨ y = 4) with rfl | rfl | rfl | rfl | rfl <;>
  rcases (by omega : x = 0 ∨ x = 1 ∨ x = 2 ∨ x = 3 ∨ x = 4) with rfl | rfl | rfl | rfl | rfl <;>
  rfl

theorem parity3 (s : Lanes) (x : Nat) (hx : x < 5) : codeParity s x = laneParity (lanesAt pos2 s) x := by
  rcases (by omega : x = 0 ∨ x = 1 ∨ x = 2 ∨ x = 3 ∨ x = 4) with rfl | rfl | rfl | rfl | rfl <;>
  simp only [codeParity, laneParity, lanesAt, pos2, List.getD_cons_succ,
    List.getD_cons_zero, Nat.reduceMul, Nat.reduceAdd] <;> ac_rfl

theorem round3_lane (k : Word) (s : Lanes) (x y : Nat) (hx : x < 5) (hy : y < 5) :
    lanesAt pos3 (round3 k s) x y = laneRound (laneParity (lanesAt pos2 s)) k (lanesAt pos2 s) x y := by
  rw [← laneRound_congr (parity3 s)]
  obtain ⟨a0, a1, a2, a3, a4, a5, a6, a7, a8, a9, a10, a11, a12, a13, a14, a15, a16, a17, a18, a19, a20, a21, a22, a23, a24⟩ := s
  rcases (by omega : y = 0 ∨ y = 1 ∨ y = 2 ∨ y = 3 ∨ y = 4) with rfl | rfl | rfl | rfl | rfl <;>
  rcases (by omega : x = 0 ∨ x = 1 ∨ x = 2 ∨ x = 3 ∨ x = 4) with rfl | rfl | rfl | rfl | rfl <;>
  rfl

theorem parity4 (s : Lanes) (x : Nat) (hx : x < 5) : codeParity s x = laneParity (lanesAt pos3 s) x := by
  rcases (by omega : x = 0 ∨ x = 1 ∨ x = 2 ∨ x = 3 ∨ x = 4) with rfl | rfl | rfl | rfl | rfl <;>
  simp only [codeParity, laneParity, lanesAt, pos3, List.getD_cons_succ,
    List.getD_cons_zero, Nat.reduceMul, Nat.reduceAdd] <;> ac_rfl

theorem round4_lane (k : Word) (s : Lanes) (x y : Nat) (hx : x < 5) (hy : y < 5) :
    lanesAt pos0 (round4 k s) x y = laneRound (laneParity (lanesAt pos3 s)) k (lanesAt pos3 s) x y := by
  rw [← laneRound_congr (parity4 s)]
  obtain ⟨a0, a1, a2, a3, a4, a5, a6, a7, a8, a9, a10, a11, a12, a13, a14, a15, a16, a17, a18, a19, a20, a21, a22, a23, a24⟩ := s
  rcases (by omega : y = 0 ∨ y = 1 ∨ y = 2 ∨ y = 3 ∨ y = 4) with rfl | rfl | rfl | rfl | rfl <;>
  rcases (by omega : x = 0 ∨ x = 1 ∨ x = 2 ∨ x = 3 ∨ x = 4) with rfl | rfl | rfl | rfl | rfl <;>
  rfl

/-! ## Bits of lanes -/

/-- The lanes `L` hold the bits `A`. -/
def Holds (L : Nat → Nat → Word) (A : Bits) : Prop := ∀ x y z, x < 5 → y < 5 → z < 64 → (L x y).getLsbD z = A x y z

theorem rotl_bit (t : Word) (n z : Nat) (hn : n < 64) (hz : z < 64) :
    (rotl t n).getLsbD z = t.getLsbD ((z + (64 - n)) % 64) := by
  unfold rotl
  split
  · next h => subst h; congr 1; omega
  · next h =>
    rw [BitVec.getLsbD_or, BitVec.getLsbD_shiftLeft, BitVec.getLsbD_ushiftRight]
    by_cases hlt : z < n
    · have : (z + (64 - n)) % 64 = 64 - n + z := by rw [Nat.mod_eq_of_lt (by omega)]; omega
      simp [hz, hlt, this]
    · have : (z + (64 - n)) % 64 = z - n := by
        rw [show z + (64 - n) = (z - n) + 64 by omega, Nat.add_mod_right, Nat.mod_eq_of_lt (by omega)]
      have h2 : t.getLsbD (64 - n + z) = false := BitVec.getLsbD_of_ge _ _ (by omega)
      simp [hz, hlt, this, h2]

theorem rotTable_eq : ∀ x, x < 5 → ∀ y, y < 5 → rotTable.getD (5 * y + x) 0 = Spec.Keccak.offset x y % 64 := by
  decide +kernel

theorem parity_bit {L : Nat → Nat → Word} {A : Bits} (h : Holds L A) (x z : Nat) (hx : x < 5) (hz : z < 64) :
    (laneParity L x).getLsbD z = Spec.Keccak.parity A x z := by
  simp [laneParity, Spec.Keccak.parity, h x _ z hx _ hz]

theorem theta_bit {L : Nat → Nat → Word} {A : Bits} (h : Holds L A) :
    Holds (laneTheta (laneParity L) L) (Spec.Keccak.theta A) := by
  intro x y z hx hy hz
  rw [laneTheta, BitVec.getLsbD_xor, BitVec.getLsbD_xor, h x y z hx hy hz, parity_bit h _ z (Nat.mod_lt _ (by decide)) hz,
    rotl_bit _ 1 z (by decide) hz, parity_bit h _ _ (Nat.mod_lt _ (by decide)) (Nat.mod_lt _ (by decide))]
  rfl

theorem rhoPi_bit {L : Nat → Nat → Word} {A : Bits} (h : Holds L A) :
    Holds (laneRhoPi (laneParity L) L) (Spec.Keccak.pi (Spec.Keccak.rho (Spec.Keccak.theta A))) := by
  intro x y z hx hy hz
  have hm : (x + 3 * y) % 5 < 5 := Nat.mod_lt _ (by decide)
  rw [laneRhoPi, rotTable_eq _ hm x hx, rotl_bit _ _ z (Nat.mod_lt _ (by decide)) hz,
    theta_bit h _ _ _ hm hx (Nat.mod_lt _ (by decide))]
  rfl

theorem chi_bit {L : Nat → Nat → Word} {A : Bits} (h : Holds L A) :
    Holds (laneChi (laneParity L) L)
      (Spec.Keccak.chi (Spec.Keccak.pi (Spec.Keccak.rho (Spec.Keccak.theta A)))) := by
  intro x y z hx hy hz
  have h1 : (x + 1) % 5 < 5 := Nat.mod_lt _ (by decide)
  have h2 : (x + 2) % 5 < 5 := Nat.mod_lt _ (by decide)
  rw [laneChi, BitVec.getLsbD_xor, BitVec.getLsbD_and, BitVec.getLsbD_not, rhoPi_bit h x y z hx hy hz,
    rhoPi_bit h _ y z h1 hy hz, rhoPi_bit h _ y z h2 hy hz, Spec.Keccak.chi]
  simp only [hz, decide_true, Bool.true_and, Bool.and_comm]

theorem rc_bit : ∀ ir, ir < 24 → ∀ z, z < 64 → (rc.getD ir 0).getLsbD z = Spec.Keccak.roundConstant ir z := by
  decide +kernel

theorem round_bit {L : Nat → Nat → Word} {A : Bits} (h : Holds L A) (ir : Nat) (hir : ir < 24) :
    Holds (laneRound (laneParity L) (rc.getD ir 0) L) (Spec.Keccak.round ir A) := by
  intro x y z hx hy hz
  unfold laneRound Spec.Keccak.round Spec.Keccak.iota
  split
  · rw [BitVec.getLsbD_xor, chi_bit h x y z hx hy hz, rc_bit ir hir z hz]
  · exact chi_bit h x y z hx hy hz

theorem Holds.congr {L M : Nat → Nat → Word} {A : Bits} (h : Holds L A) (e : ∀ x y, x < 5 → y < 5 → M x y = L x y) :
    Holds M A := by
  intro x y z hx hy hz
  rw [e x y hx hy]; exact h x y z hx hy hz

/-- The state array holds the bits `A`: lane `(x, y)` is element `5y + x`. -/
def Lanes.Is (s : Lanes) (A : Bits) : Prop := Holds (fun x y => s.get (5 * y + x)) A

theorem pos0_lane (s : Lanes) (x y : Nat) (hx : x < 5) (hy : y < 5) : lanesAt pos0 s x y = s.get (5 * y + x) := by
  have : ∀ i, i < 25 → pos0.getD i 0 = i := by decide
  rw [lanesAt, this _ (by omega)]

theorem body_is {s : Lanes} {A : Bits} (h : s.Is A) (i : Nat) (hi : i + 3 < 24) :
    (body i s).Is (Spec.Keccak.round (i + 3) (Spec.Keccak.round (i + 2) (Spec.Keccak.round (i + 1) (Spec.Keccak.round i A)))) := by
  have h0 : Holds (lanesAt pos0 s) A := h.congr (fun x y hx hy => pos0_lane s x y hx hy)
  have h1 := (round_bit h0 i (by omega)).congr (round1_lane (rc.getD i 0) s)
  have h2 := (round_bit h1 (i + 1) (by omega)).congr (round2_lane (rc.getD (i + 1) 0) _)
  have h3 := (round_bit h2 (i + 2) (by omega)).congr (round3_lane (rc.getD (i + 2) 0) _)
  have h4 := (round_bit h3 (i + 3) (by omega)).congr (round4_lane (rc.getD (i + 3) 0) _)
  exact h4.congr (fun x y hx hy => (pos0_lane _ x y hx hy).symm)

theorem keccakF_is {s : Lanes} {A : Bits} (h : s.Is A) : (keccakF1600 s).Is (Spec.Keccak.permutation A) :=
  body_is (body_is (body_is (body_is (body_is (body_is h 0 (by omega)) 4 (by omega)) 8 (by omega)) 12 (by omega)) 16 (by omega))
    20 (by omega)

end ScaleGo.Sha3
