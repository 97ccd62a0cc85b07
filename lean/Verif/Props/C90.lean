import Verif.Model.KeccakUnaligned
import Verif.Props.C67

/-!
# C90: the hashes of machines with unaligned access are the ones of the standard

xor_unaligned.go replaces the loops over words by fixed groups of words chosen by the length of the block.  The groups are
right for the five block sizes of the package and wrong for others.
-/

namespace ScaleGo

open Sha3
open Spec.Keccak (bitsOf)

/-- The block sizes of the package. -/
def blockSizes : List Nat := [72, 104, 136, 144, 168]

theorem hashes_rate : ∀ h ∈ hashes, h.1.rate ∈ blockSizes := by decide +kernel

theorem xorIn_field (s : Lanes) (buf : Str) :
    xorIn s buf = Lanes.ofFn (fun i => if 8 * (i + 1) ≤ buf.length then s.get i ^^^ bufWord buf i else s.get i) := by
  have h : ∀ i, i < 25 → (xorWords s.toList buf).getD i 0 =
      if 8 * (i + 1) ≤ buf.length then s.get i ^^^ bufWord buf i else s.get i := by
    intro i hi
    rw [xorWords_getD _ _ _ (by rw [toList_length]; exact hi)]
    rfl
  unfold xorIn Lanes.ofFn
  simp only [h _ (show 0 < 25 by omega), h _ (show 1 < 25 by omega), h _ (show 2 < 25 by omega), h _ (show 3 < 25 by omega),
    h _ (show 4 < 25 by omega), h _ (show 5 < 25 by omega), h _ (show 6 < 25 by omega), h _ (show 7 < 25 by omega),
    h _ (show 8 < 25 by omega), h _ (show 9 < 25 by omega), h _ (show 10 < 25 by omega), h _ (show 11 < 25 by omega),
    h _ (show 12 < 25 by omega), h _ (show 13 < 25 by omega), h _ (show 14 < 25 by omega), h _ (show 15 < 25 by omega),
    h _ (show 16 < 25 by omega), h _ (show 17 < 25 by omega), h _ (show 18 < 25 by omega), h _ (show 19 < 25 by omega),
    h _ (show 20 < 25 by omega), h _ (show 21 < 25 by omega), h _ (show 22 < 25 by omega), h _ (show 23 < 25 by omega),
    h _ (show 24 < 25 by omega)]

/-- For a block of one of the five sizes the word groups are all the words of the block. -/
theorem C90_xor (s : Lanes) (buf : Str) (h : buf.length ∈ blockSizes) : xorInUnaligned s buf = .ok (xorIn s buf) := by
  rw [xorIn_field]
  simp only [blockSizes, List.mem_cons, List.not_mem_nil, or_false] at h
  rcases h with h | h | h | h | h <;>
  · unfold xorInUnaligned Lanes.ofFn
    simp only [h]
    cases s
    simp [Lanes.get, Lanes.toList]

/-- So are the bytes copied out. -/
theorem C90_copy (s : Lanes) (n : Nat) (h : n ∈ blockSizes) : copyOutUnaligned s n = copyOut s n := by
  simp only [blockSizes, List.mem_cons, List.not_mem_nil, or_false] at h
  unfold copyOutUnaligned copyOut
  rw [List.take_take]
  congr 1
  omega

theorem other_lengths : ∀ k < 26, 0 < k → 8 * k ∉ blockSizes →
    (match xorInUnaligned Lanes.zero (List.replicate (8 * k) 1) with
      | .ok s => some s
      | _ => none) ≠ some (xorIn Lanes.zero (List.replicate (8 * k) 1)) := by
  decide +kernel

/-- For every other number of words the two differ: `xorInUnaligned` leaves out the words after the last full group. -/
theorem C90_other (n : Nat) (h8 : 8 ∣ n) (hn : 0 < n) (h200 : n ≤ 200) (h : n ∉ blockSizes) :
    ∃ buf : Str, buf.length = n ∧ xorInUnaligned Lanes.zero buf ≠ .ok (xorIn Lanes.zero buf) := by
  obtain ⟨k, rfl⟩ := h8
  refine ⟨List.replicate (8 * k) 1, List.length_replicate .., fun e => other_lengths k (by omega) (by omega) h ?_⟩
  rw [e]

/-- The whole hash with the unaligned copies follows the portable one from this state on. -/
structure Sane (d : State) : Prop where
  rate : d.rate ∈ blockSizes
  room : d.squeezing = false → d.buf.length < d.rate

theorem blockSizes_bounds {n : Nat} (h : n ∈ blockSizes) : 0 < n ∧ n ≤ 168 ∧ 8 ∣ n := by
  simp only [blockSizes, List.mem_cons, List.not_mem_nil, or_false] at h
  omega

theorem permuteU_eq (d : State) (h : d.rate ∈ blockSizes) (hb : d.squeezing = false → d.buf.length = d.rate) :
    permuteU d = .ok (permute d) := by
  unfold permuteU permute
  cases hs : d.squeezing with
  | true => simp only [if_true, C90_copy _ _ h]
  | false =>
    rw [C90_xor _ _ (by rw [hb hs]; exact h)]
    rfl

theorem writeLoopU_eq (fuel : Nat) : ∀ (d : State) (p : Str), d.rate ∈ blockSizes →
    writeLoopU fuel d p = .ok (writeLoop fuel d p) := by
  induction fuel with
  | zero => intro d p _; rfl
  | succ fuel ih =>
    intro d p h
    rw [writeLoopU, writeLoop]
    split
    · rfl
    split
    · rename_i h1 h2
      rw [C90_xor _ _ (by rw [List.length_take, Nat.min_eq_left h2.2]; exact h), Res.ok_bind]
      exact ih _ _ h
    · dsimp only
      generalize (if p.length < d.rate - d.buf.length then p.length else d.rate - d.buf.length) = todo
      by_cases h5 : (d.buf ++ p.take todo).length = d.rate
      · rw [if_pos h5, if_pos h5, permuteU_eq { d with buf := d.buf ++ p.take todo } h (fun _ => h5), Res.ok_bind]
        exact ih _ _ (by rw [(permute_params _).1]; exact h)
      · rw [if_neg h5, if_neg h5, Res.ok_bind]
        exact ih { d with buf := d.buf ++ p.take todo } _ h

theorem writeU_eq (d : State) (p : Str) (h : d.rate ∈ blockSizes) : writeU d p = write d p := by
  unfold writeU write
  split
  · rfl
  · exact writeLoopU_eq _ _ _ h

theorem writesU_eq (ps : List Str) : ∀ d : State, d.rate ∈ blockSizes → writesU d ps = writes d ps := by
  induction ps with
  | nil => intro d _; rfl
  | cons p ps ih =>
    intro d h
    rw [writesU, writes, writeU_eq d p h]
    unfold write
    split
    · rfl
    · exact ih _ (by rw [(writeLoop_params _ _ _).1]; exact h)

theorem readLoopU_eq (fuel : Nat) : ∀ (d : State) (n : Nat), d.rate ∈ blockSizes → d.squeezing = true →
    readLoopU fuel d n = .ok (readLoop fuel d n) := by
  induction fuel with
  | zero => intro d n _ _; rfl
  | succ fuel ih =>
    intro d n h hs
    rw [readLoopU, readLoop]
    split
    · rfl
    · dsimp only
      generalize min n d.buf.length = k
      by_cases h5 : (d.buf.drop k).length = 0
      · rw [if_pos h5, if_pos h5, permuteU_eq { d with buf := d.buf.drop k } h (fun e => by simp [hs] at e), Res.ok_bind,
          ih _ _ (by rw [(permute_params _).1]; exact h) (by rw [permute, if_pos hs]; exact hs)]
        rfl
      · rw [if_neg h5, if_neg h5, Res.ok_bind, ih { d with buf := d.buf.drop k } _ h hs]
        rfl

theorem padAndPermuteU_eq (d : State) (h : Sane d) (hs : d.squeezing = false) :
    padAndPermuteU d = .ok (padAndPermute d) := by
  unfold padAndPermuteU padAndPermute
  rw [permuteU_eq { d with buf := padded d.buf d.dsbyte d.rate } h.rate (fun _ => padded_length _ _ _ (h.room hs)),
    Res.ok_bind]
  dsimp only
  rw [C90_copy _ _ (by rw [(permute_params _).1]; exact h.rate)]

theorem readU_eq (d : State) (n : Nat) (h : Sane d) : readU d n = .ok (read d n) := by
  unfold readU Sha3.read
  cases hs : d.squeezing with
  | true => exact readLoopU_eq _ _ _ h.rate hs
  | false =>
    rw [if_neg (by decide), if_neg (by decide), padAndPermuteU_eq d h hs, Res.ok_bind]
    exact readLoopU_eq _ _ _ (by simp only [padAndPermute, permute_params]; exact h.rate) rfl

theorem cloneU_eq (d : State) (h : d.rate ∈ blockSizes) : cloneU d = clone d := by
  unfold cloneU clone
  rw [C90_copy _ _ h]

theorem clone_sane {d c : State} (h : Sane d) (hc : clone d = .ok c) : Sane c := by
  unfold clone at hc
  cases hs : d.squeezing with
  | true =>
    rw [if_pos hs] at hc
    dsimp only at hc
    split at hc
    · cases hc
    · injection hc with hc
      subst hc
      exact ⟨h.rate, fun e => by simp [hs] at e⟩
  | false =>
    rw [if_neg (by rw [hs]; decide)] at hc
    injection hc with hc
    subst hc
    exact h

theorem sumU_eq (d : State) (h : Sane d) : sumU d = sum d := by
  unfold sumU sum
  rw [cloneU_eq d h.rate]
  cases hc : clone d with
  | ok c =>
    rw [Res.ok_bind, Res.ok_bind, readU_eq c _ (clone_sane h hc)]
    rfl
  | panic => rfl
  | diverge => rfl

theorem permute_squeezing (d : State) : (permute d).squeezing = d.squeezing := by
  unfold permute
  split <;> rfl

theorem readLoop_squeezing (fuel : Nat) : ∀ (d : State) (n : Nat), (readLoop fuel d n).2.squeezing = d.squeezing := by
  induction fuel with
  | zero => intro d n; rfl
  | succ fuel ih =>
    intro d n
    rw [readLoop]
    split
    · rfl
    · dsimp only
      rw [ih]
      split
      · rw [permute_squeezing]
      · rfl

theorem reached_sane {h : State × List Bool} (hh : h ∈ hashes) {d : State} (hd : Reached h.1 d) : Sane d := by
  have hr : ∀ {d}, Reached h.1 d → d.rate ∈ blockSizes := fun q => by rw [(reached_params q).1]; exact hashes_rate h hh
  refine ⟨hr hd, ?_⟩
  induction hd with
  | start =>
    obtain ⟨-, h2, -, -, -, h6, -, -⟩ := hashes_ok h hh
    intro _
    rw [h6]
    exact h2
  | write p q hw ih =>
    rename_i d d'
    unfold Sha3.write at hw
    split at hw
    · cases hw
    · rename_i hs
      injection hw with hw
      have hs : d.squeezing = false := by simpa using hs
      intro _
      rw [← hw, writeLoop_eq _ _ _ hs (ih hs) (Nat.le_refl _)]
      exact feed_buf _ (blockSizes_bounds (hr q)).1 _ _ _ (ih hs)
  | read n q ih =>
    rename_i d
    intro e
    unfold Sha3.read at e
    dsimp only at e
    rw [readLoop_squeezing] at e
    split at e
    · rename_i hs
      rw [hs] at e
      cases e
    · cases e
  | reset q ih =>
    intro _
    exact (blockSizes_bounds (hr q)).1

/-- Every operation on every hash in use gives what the portable code gives, panics included. -/
theorem C90_same (h : State × List Bool) (hh : h ∈ hashes) (d : State) (hd : Reached h.1 d) :
    (∀ p, writeU d p = write d p) ∧ (∀ n, readU d n = .ok (read d n)) ∧ sumU d = sum d ∧ cloneU d = clone d :=
  have s := reached_sane hh hd
  ⟨fun p => writeU_eq d p s.rate, fun n => readU_eq d n s, sumU_eq d s, cloneU_eq d s.rate⟩

theorem writes_reached {h d : State} (ps : List Str) : ∀ {d0 : State}, Reached h d0 → writes d0 ps = .ok d → Reached h d := by
  induction ps with
  | nil =>
    intro d0 h0 e
    cases e
    exact h0
  | cons p ps ih =>
    intro d0 h0 e
    rw [writes, Res.bind_eq_ok] at e
    obtain ⟨d1, e1, e⟩ := e
    exact ih (h0.write p e1) e

/-- The digest of a message in any number of writes is the sponge output of the standard. -/
theorem C90_digest (h : State × List Bool) (hh : h ∈ hashes) (chunks : List Str) :
    ∃ d out, writesU h.1 chunks = .ok d ∧ sumU d = .ok out ∧ out.length = h.1.outputLen ∧
      bitsOf out = Spec.Keccak.sponge (8 * h.1.rate) (bitsOf chunks.flatten ++ h.2) (8 * h.1.outputLen) := by
  obtain ⟨d, out, h1, h2, h3, h4⟩ := C67_digest h hh chunks
  refine ⟨d, out, ?_, ?_, h3, h4⟩
  · rw [writesU_eq _ _ (hashes_rate h hh), h1]
  · rw [(C90_same h hh d (writes_reached chunks .start h1)).2.2.1, h2]

/-- `Keccak256` of any number of byte strings. -/
theorem C90_keccak256 (data : List Str) :
    ∃ out, keccak256U data = .ok out ∧ out.length = 32 ∧
      bitsOf out = Spec.Keccak.sponge 1088 (bitsOf data.flatten) 256 := by
  obtain ⟨d, out, h1, h2, h3, h4⟩ := C90_digest (newKeccak256, []) (by decide +kernel) data
  refine ⟨out, ?_, h3, ?_⟩
  · unfold keccak256U
    rw [h1, Res.ok_bind, h2]
  · rw [List.append_nil] at h4
    exact h4

example : Reached newShake128 (Sha3.read (writeLoop 3 newShake128 [1, 2, 3]) 200).2 ∧
    (newShake128, [true, true, true, true]) ∈ hashes ∧ (80 : Nat) ∉ blockSizes :=
  ⟨.read 200 (.write [1, 2, 3] .start rfl), by decide +kernel, by decide⟩

end ScaleGo
