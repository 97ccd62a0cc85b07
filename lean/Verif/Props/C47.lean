import Verif.Lemmas.ExtrinsicInv
import Verif.Lemmas.Reports
import Verif.Props.C42
import Verif.Props.C46

/-! # C47: call indices that are not in the metadata -/

namespace ScaleGo

open ScaleGo.Spec

/-- C47 in full: in front of two bytes that are not the index of a call, decoding a call panics. -/
def C47Claim : Prop := ∀ (env : Env) (ctx : Ctx) (md : MD) (ty sub : Str) (i j : UInt8), ctx.md = some md →
  Resolves env ctx.module ctx.spec ty .call sub → md.callIndex (_root_.Spec.hexText [i, j]) = none →
  DecodeRefuses env ctx ty [i, j]

/-- What happens instead: the two bytes are taken as a call without name, module and arguments. -/
theorem C47_unknown_accepted (env : Env) (ctx : Ctx) (md : MD) (ty sub : Str) (i j : UInt8) (hm : ctx.md = some md)
    (hr : Resolves env ctx.module ctx.spec ty .call sub) (hu : md.callIndex (_root_.Spec.hexText [i, j]) = none) :
    Decodes env ctx ty [i, j] (.map [(b!"call_index", .str (_root_.Spec.hexText [i, j])), (b!"call_name", .str []),
      (b!"call_module", .str []), (b!"params", .params [])]) [_root_.Spec.hexText [i, j]] := by
  refine decodes_of_decAt hr ⟨0, fun n _ => ?_⟩
  intro pre suf cs hl
  show processCall _ _ _ = _
  unfold processCall
  dsimp only
  rw [nextBytes_at pre [i, j] suf cs 2 rfl hl]
  rw [← bytesToHex_eq_spec] at hu
  simp only [Res.ok_bind, hm, hu, Option.getD_none, procArgs, ← bytesToHex_eq_spec]
  have : ((pre ++ ([i, j] ++ suf)).drop pre.length).take (pre.length + [i, j].length - pre.length) = [i, j] := by
    rw [List.drop_left, Nat.add_sub_cancel_left, List.take_left]
  rw [this]

/-- The claim fails, for every call type and every metadata that leaves an index free. -/
theorem C47_claim_false : ¬ C47Claim := by
  intro h
  have hr : Resolves (baseEnv dummyExt) [] 0 b!"Call" .call [] := by unfold Resolves; kernel_rfl
  have hu : nestMD.callIndex (_root_.Spec.hexText [9, 9]) = none := by decide
  obtain ⟨N, h1⟩ := h _ ⟨[], 0, some nestMD⟩ _ _ _ 9 9 rfl hr hu
  obtain ⟨M, h2⟩ := C47_unknown_accepted _ ⟨[], 0, some nestMD⟩ _ _ _ 9 9 rfl hr hu
  have e1 := h1 (N + M) (by omega) [] [] [] (by decide)
  have e2 := h2 (N + M) (by omega) [] [] [] (by decide)
  rw [e1] at e2
  cases e2

theorem procArgs_types {rec : Rec} {ctx : Ctx} : ∀ (args : List (Str × Str)) (st : St) (ps : List (Str × Str × Val)) (st' : St)
      (_ : procArgs rec ctx args st = .ok (ps, st')), ps.map (fun p => (p.1, p.2.1)) = args
    | [], st, ps, st', h => by
      rw [procArgs] at h
      cases h; rfl
    | (a, t) :: args, st, ps, st', h => by
      rw [procArgs] at h
      rw [Res.bind_eq_ok] at h
      obtain ⟨⟨v, s1⟩, _, h⟩ := h
      rw [Res.bind_eq_ok] at h
      obtain ⟨⟨r, s2⟩, h1, h⟩ := h
      cases h
      rw [List.map_cons, procArgs_types args s1 r _ h1]

/-- The part that holds for decoding: an extrinsic is only decoded when its call index is in the metadata, and module, call name
and the parameters' names and types are then those of the metadata entry. -/
theorem C47_extrinsic_partial (env : Env) (fuel : Nat) (md : MD) (opt : ExtOpt) (data : Str) (x : Extrinsic) (st : St)
    (h : decodeExtrinsic env fuel md opt data = .ok (x, st)) : ∃ e, md.callIndex x.callCode = some e ∧ x.callModule = e.moduleName ∧
      x.callFunction = e.callName ∧ x.params.map (fun p => (p.1, p.2.1)) = e.args := by
  unfold decodeExtrinsic processExtrinsic at h
  dsimp only at h
  rw [Res.bind_eq_ok] at h
  obtain ⟨⟨len, s1⟩, _, e2⟩ := h
  rw [Res.bind_eq_ok] at e2
  obtain ⟨⟨b, s2⟩, _, e4⟩ := e2
  rw [Res.bind_eq_ok] at e4
  obtain ⟨⟨sg, s3⟩, _, e6⟩ := e4
  rw [Res.bind_eq_ok] at e6
  obtain ⟨⟨c, s4⟩, e7, e8⟩ := e6
  unfold readCall at e7
  rw [Res.bind_eq_ok] at e7
  obtain ⟨⟨ci, s5⟩, f1, f2⟩ := e7
  dsimp only at f2
  split at f2
  · cases f2
  · split at f2
    · cases f2
    · rename_i e he
      rw [Res.bind_eq_ok] at f2
      obtain ⟨⟨ps, s6⟩, f3, f4⟩ := f2
      cases f4
      cases e8
      exact ⟨e, he, rfl, rfl, procArgs_types _ _ _ _ f3⟩

theorem readSigned_bare (env : Env) (rec : Rec) (ctx : Ctx) (md : MD) (opt : ExtOpt) {v : UInt8} (hv : v = 4 ∨ v = 5) :
    readSigned env rec ctx md opt (bytesToHex [v]) = fun st => .ok (none, st) := by
  funext st
  unfold readSigned
  rcases hv with rfl | rfl
  · exact if_pos (Or.inl (by decide))
  · exact if_pos (Or.inr (by decide))

/-- Length-prefixed unsigned extrinsics with an unknown call index panic. -/
theorem C47_bare_refused (env : Env) (md : MD) (opt : ExtOpt) (hl : LenOK env ⟨opt.module, opt.spec, some md⟩) (v i j : UInt8)
    (hv : v = 4 ∨ v = 5) (rest pfx : Str) (hp : compactAt (pfx ++ (v :: i :: j :: rest)) = some (rest.length + 3, pfx.length))
    (hlen : pfx.length + rest.length < 2 ^ 62) (hu : md.callIndex (_root_.Spec.hexText [i, j]) = none) :
    ∃ N, ∀ fuel, N ≤ fuel → decodeExtrinsic env fuel md opt (pfx ++ (v :: i :: j :: rest)) = .panic := by
  obtain ⟨N, hN⟩ := C42_partial env _ hl (pfx ++ (v :: i :: j :: rest)) (by simp only [List.length_append, List.length_cons]; omega)
    (rest.length + 3) pfx.length hp (by omega)
  refine ⟨N, fun fuel hf => ?_⟩
  unfold decodeExtrinsic processExtrinsic
  dsimp only
  rw [hN fuel hf, if_pos (by simp only [List.length_append, List.length_cons]), Res.ok_bind]
  dsimp only
  have h1 := nextBytes_at pfx [v] (i :: j :: rest) [] 1 rfl (by simp only [List.length_cons, List.length_nil]; omega)
  simp only [List.cons_append, List.nil_append] at h1
  rw [h1, Res.ok_bind]
  dsimp only
  rw [readSigned_bare _ _ _ _ _ hv, Res.ok_bind]
  dsimp only
  unfold readCall
  have h2 := nextBytes_at (pfx ++ [v]) [i, j] rest [] 2 rfl (by simp only [List.length_cons, List.length_nil, List.length_append]; omega)
  simp only [List.append_assoc, List.cons_append, List.nil_append, List.length_append] at h2
  rw [h2]
  rw [← bytesToHex_eq_spec] at hu
  simp only [Res.ok_bind, hu]
  split <;> rfl

/-- The extrinsic encoder does not return bytes for a call index that is not in the metadata; without a signed part it returns the
error that the call is unknown. -/
theorem C47_encode_partial (env : Env) (fuel : Nat) (spec : Int) (md : MD) (g : ExtrinsicIn) (hu : md.callIndex g.callCode = none) :
    (∀ b, encodeExtrinsic env fuel spec (some md) g ≠ .ok (.ok b)) ∧
    (g.version ≠ b!"84" → encodeExtrinsic env fuel spec (some md) g = .ok (.error .unknownCall)) := by
  constructor
  · intro b h
    unfold encodeExtrinsic at h
    dsimp only at h
    rw [Res.bind_eq_ok] at h
    obtain ⟨s, _, h⟩ := h
    rw [hu] at h
    cases h
  · intro hv
    unfold encodeExtrinsic
    dsimp only
    unfold encSignedPart
    rw [if_neg hv]
    simp only [Res.ok_bind, hu]

/-- Encoding a call with an index that is not in the metadata panics. -/
theorem C47_encode_call_partial (env : Env) (ctx : ECtx) (md : MD) (ty sub : Str) (i j : UInt8) (ps as : List Val) (hm : ctx.md = some md)
    (hr : EncResolves env ctx ty .call sub) (hu : md.callIndex (_root_.Spec.hexText [i, j]) = none) :
    EncodeRefuses env ctx ty (.boxCall (_root_.Spec.hexText [i, j]) ps as) := by
  refine encodeRefuses_of_enc hr ⟨0, fun n _ => ?_⟩
  show encodeCall _ _ _ _ = _
  unfold encodeCall
  rw [hm]
  simp only [argOf, boxCallOf, Res.ok_bind, trimHex_hexText, hu]

/-- Extrinsics with the unknown index 0909. -/
example : nestMD.callIndex (_root_.Spec.hexText [9, 9]) = none ∧ compactAt [16, 4, 9, 9, 1] = some (4, 1) ∧
    LenOK (baseEnv dummyExt) ⟨[], 0, some nestMD⟩ ∧ EncResolves (baseEnv dummyExt) ⟨0, some nestMD⟩ b!"Call" .call [] ∧
    (match decodeExtrinsic (baseEnv dummyExt) 5 nestMD ⟨[], 0, [], []⟩ [16, 4, 0, 0, 7] with
      | .ok (x, _) => x.callCode | _ => []) = b!"0000" := by
  refine ⟨by decide, by decide, ⟨[], by unfold Resolves; kernel_rfl⟩, ⟨by unfold Resolves; kernel_rfl, by decide⟩, by kernel_rfl⟩

end ScaleGo
