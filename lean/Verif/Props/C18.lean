import Verif.Lemmas.Compact
import Verif.Lemmas.KernelRfl
import Verif.Model.Base

/-! # C18: the first byte of a compact number determines its length -/

namespace ScaleGo

theorem nextBytes_general (n : Nat) (data : Str) (off : Nat) (cs : List Str) (h : off ≤ data.length) (hl : off + n < 2 ^ 63) :
    nextBytes n ⟨⟨data, off⟩, cs⟩ = .ok (Spec.slice data off (min (off + n) data.length), ⟨⟨data, min (off + n) data.length⟩, cs⟩) := by
  unfold nextBytes
  dsimp only
  rw [C03_read _ _ h hl]
  rfl

/-- Bytes announced at position `off`: by the first byte, or one if there is none. -/
def announced (data : Str) (off : Nat) : Nat :=
  match data[off]? with
  | some b => Spec.compactLen b
  | none => 1

theorem processCompactBytes_off (data : Str) (off : Nat) (cs : List Str) (h : off ≤ data.length) (hl : data.length < 2 ^ 62) :
    ∃ r, processCompactBytes ⟨⟨data, off⟩, cs⟩ = .ok (r, ⟨⟨data, min (off + announced data off) data.length⟩, cs⟩) := by
  unfold processCompactBytes
  have e1 : nextBytes (1 : Int) _ = _ := nextBytes_general 1 data off cs h (by omega)
  rw [e1]
  simp only [Res.ok_bind]
  have hslice : (Spec.slice data off (min (off + 1) data.length)).headD 0 = data[off]?.getD 0 := by
    unfold Spec.slice
    by_cases hlt : off < data.length
    · rw [show min (off + 1) data.length - off = 1 by omega, List.drop_eq_getElem_cons hlt]
      simp only [List.take_succ_cons, List.headD_cons, List.getElem?_eq_getElem hlt, Option.getD_some]
    · rw [show min (off + 1) data.length - off = 0 by omega]
      simp [show data.length ≤ off by omega]
  rw [hslice]
  unfold announced
  by_cases hlt : off < data.length
  · have hg : data[off]? = some data[off] := by simp [hlt]
    rw [hg]
    simp only [Option.getD_some]
    generalize data[off] = x
    have hx : x.toNat < 256 := x.toNat_lt
    have hm : min (off + 1) data.length ≤ data.length := by omega
    have hmod : x.toNat % 4 = 0 ∨ x.toNat % 4 = 1 ∨ x.toNat % 4 = 2 ∨ x.toNat % 4 = 3 := by omega
    unfold Spec.compactLen
    rcases hmod with hm4 | hm4 | hm4 | hm4 <;> simp only [hm4]
    · exact ⟨_, rfl⟩
    · have e2 : nextBytes (1 : Int) _ = _ := nextBytes_general 1 data _ cs hm (by omega)
      rw [e2]
      simp only [Res.ok_bind]
      rw [show min (min (off + 1) data.length + 1) data.length = min (off + (1 + 1)) data.length by omega]
      exact ⟨_, rfl⟩
    · have e2 : nextBytes (3 : Int) _ = _ := nextBytes_general 3 data _ cs hm (by omega)
      rw [e2]
      simp only [Res.ok_bind]
      rw [show min (min (off + 1) data.length + 3) data.length = min (off + (1 + 3)) data.length by omega]
      exact ⟨_, rfl⟩
    · have e2 := nextBytes_general (4 + x.toNat / 4) data _ cs hm (by omega)
      rw [show (5 + ((x.toNat : Int) - 3) / 4 - 1) = ((4 + x.toNat / 4 : Nat) : Int) by omega, e2]
      simp only [Res.ok_bind]
      rw [show min (min (off + 1) data.length + (4 + x.toNat / 4)) data.length = min (off + (1 + (4 + x.toNat / 4))) data.length by omega]
      rw [show 1 + (4 + x.toNat / 4) = 5 + x.toNat / 4 by omega]
      exact ⟨_, rfl⟩
  · have hg : data[off]? = none := by simp; omega
    rw [hg]
    exact ⟨_, rfl⟩

/-- `Compact<u32>` always returns, and stops after the announced bytes or at the end of the buffer. -/
theorem C18_compactU32 (env : Env) (ctx : Ctx) (ty sub : Str) (n : Nat) (data : Str) (off : Nat) (cs : List Str)
    (hoff : off ≤ data.length) (hl : data.length < 2 ^ 62) (h : Resolves env ctx.module ctx.spec ty .compactU32 sub) :
    ∃ v, pau env (n + 1) ctx ty ⟨⟨data, off⟩, cs⟩ = .ok (v, ⟨⟨data, min (off + announced data off) data.length⟩, cs⟩) := by
  obtain ⟨r, hr⟩ := processCompactBytes_off data off cs hoff hl
  rw [pau_resolves n _ h]
  show ∃ v, processCompactU32 _ = _
  unfold processCompactU32
  rw [hr]
  exact ⟨_, rfl⟩

/-- Every other compact type: whenever decoding returns, it stopped there, whatever the inner type is. -/
theorem C18_compact (env : Env) (ctx : Ctx) (ty t sub : Str) (n : Nat) (data : Str) (off : Nat) (cs : List Str)
    (hoff : off ≤ data.length) (hl : data.length < 2 ^ 62) (h : Resolves env ctx.module ctx.spec ty (.compact t) sub)
    (v : Val) (st : St) (hr : pau env (n + 1) ctx ty ⟨⟨data, off⟩, cs⟩ = .ok (v, st)) :
    st = ⟨⟨data, min (off + announced data off) data.length⟩, cs⟩ := by
  obtain ⟨r, hp⟩ := processCompactBytes_off data off cs hoff hl
  rw [pau_resolves n _ h] at hr
  change processCompact _ _ _ = _ at hr
  unfold processCompact at hr
  rw [hp] at hr
  simp only [Res.ok_bind] at hr
  split at hr
  · exact (Prod.mk.inj (Res.ok.inj hr)).2.symm
  · rw [Res.bind_eq_ok] at hr
    obtain ⟨a, _, hr⟩ := hr
    rw [Res.bind_eq_ok] at hr
    obtain ⟨c, _, hr⟩ := hr
    exact (Prod.mk.inj (Res.ok.inj hr)).2.symm

/-- Mode 3 with length byte 0x07: 5 + 1 bytes; and a read cut off at the end. -/
example : announced [9, 0x07, 1, 2, 3, 4, 5, 6] 1 = 6 ∧ announced [0x07] 1 = 1 ∧ Spec.compactLen 0xff = 68 := by decide

example (ext : Ext) : Resolves (baseEnv ext) [] 0 b!"Compact<Balance>" (.compact []) b!"Balance" := by
  unfold Resolves; kernel_rfl

end ScaleGo
