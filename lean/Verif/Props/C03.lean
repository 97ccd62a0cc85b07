import Verif.Model.Cursor
import Verif.Spec.Bytes

/-! # C03: reads from the cursor partition the buffer -/

namespace ScaleGo

/-- Run a schedule of reads, collecting what each read returned. -/
def readAll : List Nat → Cur → Res (List Str × Cur)
  | [], c => .ok ([], c)
  | n :: ns, c => do
    let (b, c) ← getNextBytes n c
    let (bs, c) ← readAll ns c
    pure (b :: bs, c)

theorem wrap64_small {i : Int} (h1 : -(2 ^ 63) ≤ i) (h2 : i < 2 ^ 63) : wrap64 i = i := by
  unfold wrap64
  rw [Int.bmod_def]
  split <;> omega

/-- One read of a length that a Go `int` can hold next to the offset: returns the bytes from the cursor to the smaller
of `off + n` and the end, and moves the cursor there. -/
theorem C03_read (c : Cur) (n : Nat) (hin : c.off ≤ c.data.length) (hsz : c.off + n < 2 ^ 63) :
    getNextBytes n c =
      .ok (Spec.slice c.data c.off (min (c.off + n) c.data.length), { c with off := min (c.off + n) c.data.length }) := by
  have hw : wrap64 ((c.off : Int) + (n : Int)) = (c.off : Int) + n := wrap64_small (by omega) (by omega)
  unfold getNextBytes Spec.slice
  simp only [hw]
  by_cases h : c.off + n > c.data.length
  · rw [if_pos (by omega), if_pos hin, Nat.min_eq_right (by omega)]
    rw [List.take_of_length_le (by simp)]
  · rw [if_neg (by omega), if_pos (by omega), Nat.min_eq_left (by omega)]
    simp only [show ((c.off : Int) + n).toNat = c.off + n by omega]

theorem slice_append (data : Str) (i j k : Nat) (h1 : i ≤ j) (h2 : j ≤ k) :
    Spec.slice data i j ++ Spec.slice data j k = Spec.slice data i k := by
  unfold Spec.slice
  have e : data.drop j = (data.drop i).drop (j - i) := by rw [List.drop_drop]; congr 1; omega
  rw [e, show k - i = (j - i) + (k - j) by omega, List.take_add]

/-- Any schedule: the pieces concatenate to the stretch of buffer between the first and last cursor position, the
cursor ends at the smaller of start plus requested total and the end, and the buffer is unchanged. -/
theorem C03_schedule (ns : List Nat) (c : Cur) (hin : c.off ≤ c.data.length)
    (hsz : c.off + ns.sum < 2 ^ 63) :
    ∃ pieces, readAll ns c = .ok (pieces, { c with off := min (c.off + ns.sum) c.data.length })
      ∧ pieces.length = ns.length
      ∧ pieces.flatten = Spec.slice c.data c.off (min (c.off + ns.sum) c.data.length) := by
  induction ns generalizing c with
  | nil =>
    refine ⟨[], ?_, rfl, ?_⟩
    · simp [readAll, Nat.min_eq_left hin]
    · simp [Spec.slice, Nat.min_eq_left hin]
  | cons n ns ih =>
    simp only [List.sum_cons] at hsz ⊢
    unfold readAll
    rw [C03_read c n hin (by omega)]
    simp only [Res.ok_bind]
    obtain ⟨ps, h1, h2, h3⟩ := ih { c with off := min (c.off + n) c.data.length } (by simp; omega) (by simp; omega)
    rw [h1]
    have e : min (min (c.off + n) c.data.length + ns.sum) c.data.length = min (c.off + (n + ns.sum)) c.data.length := by
      omega
    simp only at h3
    refine ⟨_, by simp only [Res.ok_bind, Res.pure_eq]; rw [e], by simp [h2], ?_⟩
    rw [List.flatten_cons, h3, e]
    exact slice_append _ _ _ _ (by omega) (by omega)

/-- A read past the end returns exactly what is left and puts the cursor at the end. -/
theorem C03_past_end (c : Cur) (n : Nat) (hin : c.off ≤ c.data.length) (hsz : c.off + n < 2 ^ 63)
    (h : c.data.length < c.off + n) :
    getNextBytes n c = .ok (c.data.drop c.off, { c with off := c.data.length }) := by
  rw [C03_read c n hin hsz, Nat.min_eq_right (by omega)]
  congr 2
  unfold Spec.slice
  exact List.take_of_length_le (by simp)

/-- The remaining length is the number of bytes that further reads can return. -/
theorem C03_remaining (c : Cur) (hin : c.off ≤ c.data.length) : remaining c = (c.data.drop c.off).length := by
  simp [remaining]; omega

/-- A negative length never returns data: it panics. -/
theorem C03_negative (c : Cur) (n : Int) (hin : c.off ≤ c.data.length) (hn : n < 0) (hlen : c.data.length < 2 ^ 63)
    (hn2 : -(2 ^ 63) ≤ n) : getNextBytes n c = .panic := by
  have hw : wrap64 ((c.off : Int) + n) = (c.off : Int) + n := wrap64_small (by omega) (by omega)
  unfold getNextBytes
  simp only [hw]
  rw [if_neg (by omega), if_neg (by omega)]

example : (⟨[1, 2, 3, 4, 5], 1⟩ : Cur).off ≤ (⟨[1, 2, 3, 4, 5], 1⟩ : Cur).data.length ∧ 1 + [2, 0, 9].sum < 2 ^ 63 := by decide
example : readAll [2, 0, 9] ⟨[1, 2, 3, 4, 5], 1⟩ = .ok ([[2, 3], [], [4, 5]], ⟨[1, 2, 3, 4, 5], 5⟩) := by decide

end ScaleGo
