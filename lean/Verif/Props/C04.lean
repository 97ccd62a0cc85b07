import Verif.Lemmas.Inv
import Verif.Model.Base
import Verif.Lemmas.KernelRfl

/-! # C04: decoding never moves the cursor backwards, past the end, or edits the buffer -/

namespace ScaleGo

/-- For every registry, type text, context, budget and buffer: a decode that returns leaves the buffer as it was and the
cursor between its old position and the end. -/
theorem C04_decode (env : Env) (n : Nat) (ctx : Ctx) (ty : Str) (st st' : St) (v : Val)
    (hin : st.cur.off ≤ st.cur.data.length) (h : pau env n ctx ty st = .ok (v, st')) :
    st'.cur.data = st.cur.data ∧ st.cur.off ≤ st'.cur.off ∧ st'.cur.off ≤ st'.cur.data.length := by
  have := pau_post env n ctx ty st hin v st' h
  exact ⟨this.1, this.2.1, this.inB⟩

/-- The same for any sequence of decodes on one buffer: the positions form a chain. -/
theorem C04_chain (env : Env) (n : Nat) (ctx : Ctx) (tys : List (Str × Str)) (st st' : St) (vs : List (Str × Str × Val))
    (hin : st.cur.off ≤ st.cur.data.length) (h : procArgs (pau env n) ctx tys st = .ok (vs, st')) :
    st'.cur.data = st.cur.data ∧ st.cur.off ≤ st'.cur.off ∧ st'.cur.off ≤ st'.cur.data.length := by
  have := procArgs_post (pau_post env n) ctx tys hin vs st' h
  exact ⟨this.1, this.2.1, this.inB⟩

example : pau (baseEnv dummyExt) 3 Ctx.fresh b!"Vec<u16>" ⟨⟨[8, 1, 0, 2, 0, 9], 0⟩, []⟩ =
    .ok (.slice [.uint 2 1, .uint 2 2], ⟨⟨[8, 1, 0, 2, 0, 9], 5⟩, []⟩) := by kernel_rfl

/-- Truncated input: the cursor stops at the end. -/
example : pau (baseEnv dummyExt) 3 Ctx.fresh b!"Vec<u16>" ⟨⟨[8, 1, 0, 2], 0⟩, []⟩ =
    .ok (.slice [.uint 2 1, .uint 2 2], ⟨⟨[8, 1, 0, 2], 4⟩, []⟩) := by kernel_rfl

end ScaleGo
