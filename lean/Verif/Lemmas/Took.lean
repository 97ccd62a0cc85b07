import Verif.Lemmas.Inv
import Verif.Lemmas.Compact

/-! # Which bytes a decoding step took

A read that the end of the data cuts short leaves the cursor at the end. So when the cursor stops before the end, every
read got the bytes it asked for. -/

namespace ScaleGo

/-- Going from `st` to `st'` takes exactly the bytes `b`. -/
def Took (st : St) (b : Str) (st' : St) : Prop :=
  st'.cur.data = st.cur.data ∧ st'.cur.off = st.cur.off + b.length ∧ ∃ suf, st.cur.data.drop st.cur.off = b ++ suf

theorem Took.refl (st : St) : Took st [] st := ⟨rfl, rfl, _, rfl⟩

theorem Took.trans {x y z : St} {b c : Str} (h : Took x b y) (h' : Took y c z) : Took x (b ++ c) z := by
  obtain ⟨h1, h2, s, h3⟩ := h
  obtain ⟨k1, k2, t, k3⟩ := h'
  refine ⟨k1.trans h1, by rw [k2, h2, List.length_append]; omega, t, ?_⟩
  rw [h1, h2, ← List.drop_drop, h3, List.drop_left] at k3
  rw [h3, k3, List.append_assoc]

theorem Took.data {st st' : St} {b : Str} (h : Took st b st') : st'.cur.data = st.cur.data := h.1

theorem Took.bytes {st st' : St} {b : Str} (h : Took st b st') : Spec.slice st.cur.data st.cur.off st'.cur.off = b := by
  obtain ⟨h1, h2, s, h3⟩ := h
  rw [Spec.slice, h2, h3, Nat.add_sub_cancel_left, List.take_left]

theorem wrap64_facts (i : Int) : -(2 ^ 63) ≤ wrap64 i ∧ wrap64 i < 2 ^ 63 ∧ ∃ k : Int, wrap64 i = i + k * 2 ^ 64 := by
  unfold wrap64
  rw [Int.bmod_def]
  split <;> refine ⟨by omega, by omega, ?_⟩
  · exact ⟨-(i / 2 ^ 64), by omega⟩
  · exact ⟨-(i / 2 ^ 64) - 1, by omega⟩

theorem nextBytes_took {n : Int} {st st' : St} {b : Str} (hin : InB st) (hl : st.cur.data.length < 2 ^ 63)
    (hn : -(2 ^ 63) ≤ n ∧ n < 2 ^ 63) (h : nextBytes n st = .ok (b, st')) (hlt : st'.cur.off < st'.cur.data.length) :
    Took st b st' ∧ (b.length : Int) = n := by
  unfold nextBytes at h
  rw [Res.bind_eq_ok] at h
  obtain ⟨⟨b', c⟩, e1, e2⟩ := h
  cases e2
  unfold InB at hin
  unfold getNextBytes at e1
  dsimp only at e1 hlt
  split at e1
  · cases e1
    dsimp only at hlt
    omega
  · split at e1
    · rename_i h1 h2
      cases e1
      dsimp only at hlt
      obtain ⟨_, _, k, hk⟩ := wrap64_facts ((st.cur.off : Int) + n)
      have hk0 : k = 0 := by omega
      subst hk0
      have hlen : ((st.cur.data.drop st.cur.off).take ((wrap64 ((st.cur.off : Int) + n)).toNat - st.cur.off)).length =
          (wrap64 ((st.cur.off : Int) + n)).toNat - st.cur.off := by
        rw [List.length_take, List.length_drop]; omega
      refine ⟨⟨rfl, ?_, _, (List.take_append_drop _ _).symm⟩, ?_⟩
      · rw [hlen]; dsimp only; omega
      · rw [hlen]; omega
    · cases e1

/-- A step that only advances leaves the earlier cursor before the end. -/
theorem Adv.before {x y : St} (h : Adv x y) (hlt : y.cur.off < y.cur.data.length) : x.cur.off < x.cur.data.length := by
  obtain ⟨h1, h2, h3⟩ := h
  rw [h1] at hlt; omega

theorem byte_took {st st' : St} {b : Str} (hin : InB st) (hl : st.cur.data.length < 2 ^ 63)
    (h : nextBytes 1 st = .ok (b, st')) (hlt : st'.cur.off < st'.cur.data.length) : ∃ x, b = [x] ∧ Took st [x] st' := by
  obtain ⟨h1, h2⟩ := nextBytes_took hin hl (by decide) h hlt
  match b, h2, h1 with
  | [x], _, h1 => exact ⟨x, rfl, h1⟩
  | [], h2, _ => simp at h2
  | _ :: _ :: _, h2, _ => simp at h2; omega

/-- The bytes that `ProcessCompactBytes` takes, its length and the bytes it returns. -/
theorem compactBytes_took {st st' : St} {len : Int} {cb : Str} (hin : InB st) (hl : st.cur.data.length < 2 ^ 63)
    (h : processCompactBytes st = .ok ((len, cb), st')) (hlt : st'.cur.off < st'.cur.data.length) :
    ∃ x r, Took st (x :: r) st' ∧ r.length + 1 = Spec.compactLen x ∧
      (x.toNat % 4 ≠ 3 ∧ len = (r.length + 1 : Nat) ∧ len ≤ 4 ∧ cb = x :: r ∨ x.toNat % 4 = 3 ∧ 4 < len ∧ cb = r) := by
  unfold processCompactBytes at h
  rw [Res.bind_eq_ok] at h
  obtain ⟨⟨b, s1⟩, h1, h2⟩ := h
  have a1 := nextBytes_post 1 hin _ _ h1
  have hl1 : s1.cur.data.length < 2 ^ 63 := by rw [a1.1]; exact hl
  have key : ∀ {k : Int} {c : Str} {s2 : St}, nextBytes k s1 = .ok (c, s2) → s2.cur.off < s2.cur.data.length →
      s1.cur.off < s1.cur.data.length := fun e hlt => (nextBytes_post _ a1.inB _ _ e).before hlt
  dsimp only at h2
  split at h2
  · rename_i h0
    cases h2
    obtain ⟨x, rfl, t⟩ := byte_took hin hl h1 hlt
    simp only [List.headD_cons] at h0
    exact ⟨x, [], t, by simp [Spec.compactLen, h0], .inl ⟨by omega, by simp, by decide, rfl⟩⟩
  · rename_i h0
    rw [Res.bind_eq_ok] at h2
    obtain ⟨⟨c, s2⟩, h3, h4⟩ := h2
    cases h4
    obtain ⟨x, rfl, t⟩ := byte_took hin hl h1 (key h3 hlt)
    obtain ⟨t2, hc⟩ := nextBytes_took a1.inB hl1 (by decide) h3 hlt
    simp only [List.headD_cons] at h0
    exact ⟨x, c, t.trans t2, by simp only [Spec.compactLen, h0]; simp; omega, .inl ⟨by omega, by omega, by decide, rfl⟩⟩
  · rename_i h0
    rw [Res.bind_eq_ok] at h2
    obtain ⟨⟨c, s2⟩, h3, h4⟩ := h2
    cases h4
    obtain ⟨x, rfl, t⟩ := byte_took hin hl h1 (key h3 hlt)
    obtain ⟨t2, hc⟩ := nextBytes_took a1.inB hl1 (by decide) h3 hlt
    simp only [List.headD_cons] at h0
    exact ⟨x, c, t.trans t2, by simp only [Spec.compactLen, h0]; simp; omega, .inl ⟨by omega, by omega, by decide, rfl⟩⟩
  · rename_i n0 n1 n2
    rw [Res.bind_eq_ok] at h2
    obtain ⟨⟨c, s2⟩, h3, h4⟩ := h2
    cases h4
    obtain ⟨x, rfl, t⟩ := byte_took hin hl h1 (key h3 hlt)
    simp only [List.headD_cons] at h3 n0 n1 n2 ⊢
    have hx : x.toNat % 4 = 3 := by
      have := Nat.mod_lt x.toNat (show 4 > 0 by decide)
      have a0 : x.toNat % 4 ≠ 0 := fun e => n0 e
      have a1 : x.toNat % 4 ≠ 1 := fun e => n1 e
      have a2 : x.toNat % 4 ≠ 2 := fun e => n2 e
      omega
    have hb := x.toNat_lt
    obtain ⟨t2, hc⟩ := nextBytes_took a1.inB hl1 (by omega) h3 hlt
    refine ⟨x, c, t.trans t2, ?_, .inr ⟨hx, by omega, rfl⟩⟩
    simp only [Spec.compactLen, hx]
    simp
    omega

end ScaleGo
