import Verif.Lemmas.Inv
import Verif.Lemmas.SpecBytes
import Verif.Model.Base
import Verif.Lemmas.KernelRfl

/-! # C06: the raw value is exactly the hex of the consumed bytes -/

namespace ScaleGo

/-- Whenever a decode returns, its raw value exists and is the hex text of the bytes between the two cursor positions. -/
theorem C06_raw (env : Env) (n : Nat) (ctx : Ctx) (ty : Str) (st st' : St) (v : Val)
    (hin : st.cur.off ≤ st.cur.data.length) (h : pau env n ctx ty st = .ok (v, st')) :
    pauRaw env n ctx ty st = .ok (v, Spec.hexText (Spec.slice st.cur.data st.cur.off st'.cur.off), st') := by
  have ha := pau_post env n ctx ty st hin v st' h
  obtain ⟨h1, h2, h3⟩ := ha
  unfold pauRaw rawValue
  rw [h]
  simp only [Res.ok_bind]
  rw [if_pos ⟨h2, by rw [h1]; exact h3⟩]
  simp only [Res.ok_bind]
  rw [bytesToHex_eq_spec, h1]
  rfl

/-- Conversely a raw value only comes from a decode that returned. -/
theorem C06_raw_only (env : Env) (n : Nat) (ctx : Ctx) (ty : Str) (st st' : St) (v : Val) (raw : Str)
    (hin : st.cur.off ≤ st.cur.data.length) (h : pauRaw env n ctx ty st = .ok (v, raw, st')) :
    pau env n ctx ty st = .ok (v, st') ∧ raw = Spec.hexText (Spec.slice st.cur.data st.cur.off st'.cur.off) := by
  have h0 := h
  unfold pauRaw at h
  rw [Res.bind_eq_ok] at h
  obtain ⟨⟨v1, st1⟩, e1, e2⟩ := h
  dsimp only at e2
  rw [Res.bind_eq_ok] at e2
  obtain ⟨raw1, e2, e3⟩ := e2
  cases e3
  refine ⟨e1, ?_⟩
  rw [C06_raw env n ctx ty st st' v hin e1] at h0
  cases h0
  rfl

example : pauRaw (baseEnv dummyExt) 3 Ctx.fresh b!"Option<u16>" ⟨⟨[7, 1, 1, 2, 9], 1⟩, []⟩ =
    .ok (.uint 2 513, b!"010102", ⟨⟨[7, 1, 1, 2, 9], 4⟩, []⟩) := by kernel_rfl

end ScaleGo
