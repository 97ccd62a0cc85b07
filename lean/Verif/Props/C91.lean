import Verif.Lemmas.Amd64
import Verif.Props.C66

/-!
# C91: the amd64 assembly computes Keccak-f[1600]

keccakf_amd64.s keeps six lanes complemented, carries column parities from one round to the next in registers, and goes back
and forth between the state array and a frame on the stack.  Whatever the registers and the frame hold at the start, the state
array ends up with the bits FIPS 202 prescribes, which are those of the portable code.
-/

namespace ScaleGo

open Sha3

/-- Every bit of the state array after the assembly function, for every state and every content of registers and frame. -/
theorem C91_permutation (m : Amd64.Machine) (x y z : Nat) (hx : x < 5) (hy : y < 5) (hz : z < 64) :
    stateBits (Amd64.run m Amd64.program).state x y z = Spec.Keccak.permutation (stateBits m.state) x y z :=
  Amd64.program_is m (A := stateBits m.state) (fun _ _ _ _ _ _ => rfl) x y z hx hy hz

theorem lanes_of_bits {s t : Lanes} (h : ∀ x y z, x < 5 → y < 5 → z < 64 → stateBits s x y z = stateBits t x y z) : s = t := by
  have e : ∀ i, i < 25 → s.get i = t.get i := by
    intro i hi
    apply BitVec.eq_of_getLsbD_eq
    intro z hz
    have := h (i % 5) (i / 5) z (by omega) (by omega) hz
    unfold stateBits at this
    rw [show 5 * (i / 5) + i % 5 = i by omega] at this
    exact this
  have ofGet : ∀ s : Lanes, s = Lanes.ofFn s.get := fun s => rfl
  rw [ofGet s, ofGet t]
  unfold Lanes.ofFn
  rw [e 0 (by decide), e 1 (by decide), e 2 (by decide), e 3 (by decide), e 4 (by decide), e 5 (by decide), e 6 (by decide),
    e 7 (by decide), e 8 (by decide), e 9 (by decide), e 10 (by decide), e 11 (by decide), e 12 (by decide),
    e 13 (by decide), e 14 (by decide), e 15 (by decide), e 16 (by decide), e 17 (by decide), e 18 (by decide),
    e 19 (by decide), e 20 (by decide), e 21 (by decide), e 22 (by decide), e 23 (by decide), e 24 (by decide)]

/-- The assembly and the portable Go code are the same function. -/
theorem C91_same (m : Amd64.Machine) : (Amd64.run m Amd64.program).state = keccakF1600 m.state :=
  lanes_of_bits fun x y z hx hy hz => by
    rw [C91_permutation m x y z hx hy hz, C66_permutation m.state x y z hx hy hz]

/-- The first lane of the permuted zero state, by running the instructions. -/
example : (Amd64.run ⟨1, 2, 3, 4, 5, 6, 7, 8, 9, 10, 11, 12, 13, 14, Lanes.zero, Lanes.zero⟩ Amd64.program).state.get 0 =
    0xF1258F7940E1DDE7#64 := by kernel_rfl

end ScaleGo
