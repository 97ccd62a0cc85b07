import Verif.Lemmas.Strict

/-! # Extrinsics behind a prefix compared with extrinsics without it -/

namespace ScaleGo

section
variable {r r' : Rec} (h : RecLo r r')
include h

theorem readTip_lo (ext : Ext) (ctx : Ctx) (st : St) : Lo (readTip ext r ctx st) (readTip ext r' ctx st) := by
  unfold readTip
  exact Lo.bind (h _ _ _) (fun _ => Lo.refl _)

theorem readConfigured_lo (ctx : Ctx) (ids : List Str) (l : List (Str × List (Str × Str))) (acc : List (Str × Val)) (st : St) :
    Lo (readConfigured r ctx ids l acc st) (readConfigured r' ctx ids l acc st) := by
  induction l generalizing acc st with
  | nil => exact Lo.refl _
  | cons p l ih =>
    obtain ⟨n, fs⟩ := p
    simp only [readConfigured]
    split
    · exact Lo.bind (procFields_lo h _ _ _ _) (fun _ => ih _ _)
    · exact ih _ _

theorem readMetaExts_lo (ext : Ext) (ctx : Ctx) (check : List Str) (l : List (Str × Str)) (tip : Int × Int)
    (acc : List (Str × Val)) (st : St) : Lo (readMetaExts ext r ctx check l tip acc st) (readMetaExts ext r' ctx check l tip acc st) := by
  induction l generalizing acc tip st with
  | nil => exact Lo.refl _
  | cons p l ih =>
    obtain ⟨n, t⟩ := p
    simp only [readMetaExts]
    split
    · split
      · exact Lo.bind (readTip_lo h _ _ _) (fun _ => ih _ _ _)
      · exact Lo.bind (h _ _ _) (fun _ => ih _ _ _)
    · exact ih _ _ _

theorem readTip4_lo (ext : Ext) (ctx : Ctx) (md : MD) (st : St) : Lo (readTip4 ext r ctx md st) (readTip4 ext r' ctx md st) := by
  unfold readTip4
  split
  · split
    · exact readTip_lo h _ _ _
    · exact Lo.refl _
  · exact readTip_lo h _ _ _

theorem readExts4_lo (ext : Ext) (ctx : Ctx) (md : MD) (opt : ExtOpt) (tip : Int × Int) (st : St) :
    Lo (readExts4 ext r ctx md opt tip st) (readExts4 ext r' ctx md opt tip st) := by
  unfold readExts4
  split
  · split
    · exact Lo.refl _
    · exact Lo.bind (readConfigured_lo h _ _ _ _ _) (fun _ => Lo.refl _)
  · split
    · split
      · exact Lo.refl _
      · exact readMetaExts_lo h _ _ _ _ _ _ _
    · exact Lo.refl _

theorem readSigned4_lo (env : Env) (ctx : Ctx) (md : MD) (opt : ExtOpt) (st : St) :
    Lo (readSigned4 env r ctx md opt st) (readSigned4 env r' ctx md opt st) := by
  unfold readSigned4
  refine Lo.bind (h _ _ _) fun _ => Lo.bind (h _ _ _) fun _ => Lo.bind (Lo.refl _) fun _ => Lo.bind (h _ _ _) fun _ =>
    Lo.bind (Lo.refl _) fun _ => Lo.bind (h _ _ _) fun _ => Lo.bind (Lo.refl _) fun _ => Lo.bind (readTip4_lo h _ _ _ _) fun _ =>
    Lo.bind (readExts4_lo h _ _ _ _ _ _) fun _ => Lo.refl _

theorem readSigned5_lo (env : Env) (ctx : Ctx) (md : MD) (opt : ExtOpt) (st : St) :
    Lo (readSigned5 env r ctx md opt st) (readSigned5 env r' ctx md opt st) := by
  unfold readSigned5
  refine Lo.bind (h _ _ _) fun _ => Lo.bind (h _ _ _) fun _ => Lo.bind (h _ _ _) fun _ => Lo.bind (Lo.refl _) fun _ =>
    Lo.bind (Lo.refl _) fun _ => Lo.bind (h _ _ _) fun _ => Lo.bind (Lo.refl _) fun _ => Lo.bind (h _ _ _) fun _ =>
    Lo.bind (Lo.refl _) fun _ => Lo.bind ?_ fun _ => Lo.refl _
  unfold readExts5
  split
  · exact Lo.refl _
  · exact readMetaExts_lo h _ _ _ _ _ _ _

theorem readSigned_lo (env : Env) (ctx : Ctx) (md : MD) (opt : ExtOpt) (v : Str) (st : St) :
    Lo (readSigned env r ctx md opt v st) (readSigned env r' ctx md opt v st) := by
  unfold readSigned
  split
  · exact Lo.refl _
  · split
    · exact Lo.bind (readSigned4_lo h _ _ _ _ _) fun _ => Lo.refl _
    · split
      · exact Lo.bind (readSigned5_lo h _ _ _ _ _) fun _ => Lo.refl _
      · exact Lo.refl _

theorem readCall_lo (ctx : Ctx) (md : MD) (st : St) : Lo (readCall r ctx md st) (readCall r' ctx md st) := by
  unfold readCall
  refine Lo.bind (Lo.refl _) fun p => ?_
  dsimp only
  split
  · exact Lo.refl _
  · split
    · exact Lo.refl _
    · exact Lo.bind (procArgs_lo h _ _ _) fun _ => Lo.refl _

theorem processExtrinsic_lo (env : Env) (md : MD) (opt : ExtOpt) (st : St) :
    Lo (processExtrinsic env r md opt st) (processExtrinsic env r' md opt st) := by
  unfold processExtrinsic
  refine Lo.bind ?_ fun _ => Lo.bind (Lo.refl _) fun _ => Lo.bind (readSigned_lo h _ _ _ _ _ _) fun _ =>
    Lo.bind (readCall_lo h _ _ _) fun _ => Lo.refl _
  unfold readLength
  exact Lo.bind (h _ _ _) fun _ => Lo.refl _

end

theorem signerType_strict (env : Env) (md : MD) : signerType (strict env) md = signerType env md := by
  unfold signerType strict
  simp

theorem readSigned_strict (env : Env) (rec : Rec) (ctx : Ctx) (md : MD) (opt : ExtOpt) (v : Str) :
    readSigned (strict env) rec ctx md opt v = readSigned env rec ctx md opt v := by
  funext st
  unfold readSigned readSigned4 readSigned5
  rw [signerType_strict]
  rfl

variable {pre : Str}

section
variable {r : Rec} (hr : RecSim pre r)
include hr

theorem readTip_sim (ext : Ext) (ctx : Ctx) {s s' : St} (h : Sh pre s s') : Sim pre (readTip ext r ctx s) (readTip ext r ctx s') := by
  unfold readTip
  exact Sim.bind (hr _ _ _ _ h) fun _ _ _ h => Sim.pure fun _ => Sim.ok h

theorem readConfigured_sim (ctx : Ctx) (ids : List Str) (l : List (Str × List (Str × Str))) (acc : List (Str × Val)) {s s' : St}
    (h : Sh pre s s') : Sim pre (readConfigured r ctx ids l acc s) (readConfigured r ctx ids l acc s') := by
  induction l generalizing acc s s' with
  | nil => exact Sim.ok h
  | cons p l ih =>
    obtain ⟨n, fs⟩ := p
    simp only [readConfigured]
    split
    · exact Sim.bind (procFields_sim hr _ _ _ h) fun _ _ _ h => ih _ h
    · exact ih _ h

theorem readMetaExts_sim (ext : Ext) (ctx : Ctx) (check : List Str) (l : List (Str × Str)) (tip : Int × Int)
    (acc : List (Str × Val)) {s s' : St} (h : Sh pre s s') :
    Sim pre (readMetaExts ext r ctx check l tip acc s) (readMetaExts ext r ctx check l tip acc s') := by
  induction l generalizing acc tip s s' with
  | nil => exact Sim.ok h
  | cons p l ih =>
    obtain ⟨n, t⟩ := p
    simp only [readMetaExts]
    split
    · split
      · exact Sim.bind (readTip_sim hr _ _ h) fun _ _ _ h => ih _ _ h
      · exact Sim.bind (hr _ _ _ _ h) fun _ _ _ h => ih _ _ h
    · exact ih _ _ h

theorem readTip4_sim (ext : Ext) (ctx : Ctx) (md : MD) {s s' : St} (h : Sh pre s s') :
    Sim pre (readTip4 ext r ctx md s) (readTip4 ext r ctx md s') := by
  unfold readTip4
  split
  · split
    · exact readTip_sim hr _ _ h
    · exact Sim.ok h
  · exact readTip_sim hr _ _ h

theorem readExts4_sim (ext : Ext) (ctx : Ctx) (md : MD) (opt : ExtOpt) (tip : Int × Int) {s s' : St} (h : Sh pre s s') :
    Sim pre (readExts4 ext r ctx md opt tip s) (readExts4 ext r ctx md opt tip s') := by
  unfold readExts4
  split
  · split
    · exact Sim.panic
    · exact Sim.bind (readConfigured_sim hr _ _ _ _ h) fun _ _ _ h => Sim.ok h
  · split
    · split
      · exact Sim.panic
      · exact readMetaExts_sim hr _ _ _ _ _ _ h
    · exact Sim.ok h

theorem readSigned4_sim (env : Env) (ctx : Ctx) (md : MD) (opt : ExtOpt) {s s' : St} (h : Sh pre s s') :
    Sim pre (readSigned4 env r ctx md opt s) (readSigned4 env r ctx md opt s') := by
  unfold readSigned4
  exact Sim.bind (hr _ _ _ _ h) fun _ _ _ h => Sim.bind (hr _ _ _ _ h) fun _ _ _ h => Sim.pure fun _ =>
    Sim.bind (hr _ _ _ _ h) fun _ _ _ h => Sim.pure fun _ => Sim.bind (hr _ _ _ _ h) fun _ _ _ h => Sim.pure fun _ =>
    Sim.bind (readTip4_sim hr _ _ _ h) fun _ _ _ h => Sim.bind (readExts4_sim hr _ _ _ _ _ h) fun _ _ _ h => Sim.ok h

theorem readSigned5_sim (env : Env) (ctx : Ctx) (md : MD) (opt : ExtOpt) {s s' : St} (h : Sh pre s s') :
    Sim pre (readSigned5 env r ctx md opt s) (readSigned5 env r ctx md opt s') := by
  unfold readSigned5
  refine Sim.bind (hr _ _ _ _ h) fun _ _ _ h => Sim.bind (hr _ _ _ _ h) fun _ _ _ h => Sim.bind (hr _ _ _ _ h) fun _ _ _ h =>
    Sim.pure fun _ => Sim.pure fun _ => Sim.bind (hr _ _ _ _ h) fun _ _ _ h => Sim.pure fun _ =>
    Sim.bind (hr _ _ _ _ h) fun _ _ _ h => Sim.pure fun _ => Sim.bind ?_ fun _ _ _ h => Sim.ok h
  unfold readExts5
  split
  · exact Sim.panic
  · exact readMetaExts_sim hr _ _ _ _ _ _ h

theorem readSigned_sim (env : Env) (ctx : Ctx) (md : MD) (opt : ExtOpt) (v : Str) {s s' : St} (h : Sh pre s s') :
    Sim pre (readSigned env r ctx md opt v s) (readSigned env r ctx md opt v s') := by
  unfold readSigned
  split
  · exact Sim.ok h
  · split
    · exact Sim.bind (readSigned4_sim hr _ _ _ _ h) fun _ _ _ h => Sim.ok h
    · split
      · exact Sim.bind (readSigned5_sim hr _ _ _ _ h) fun _ _ _ h => Sim.ok h
      · exact Sim.panic

theorem readCall_sim (ctx : Ctx) (md : MD) {s s' : St} (h : Sh pre s s') :
    Sim pre (readCall r ctx md s) (readCall r ctx md s') := by
  unfold readCall
  refine Sim.bind (nextBytes_sim _ h) fun b s s' h => ?_
  dsimp only
  split
  · exact Sim.panic
  · split
    · exact Sim.panic
    · refine Sim.bind (procArgs_sim hr _ _ h) fun ps t t' h' => ?_
      dsimp only
      have e : bytesToHex ((t.cur.data.drop s.cur.off).take (t.cur.off - s.cur.off)) =
          bytesToHex ((t'.cur.data.drop s'.cur.off).take (t'.cur.off - s'.cur.off)) := by
        rw [h'.1, h'.2.1, h.2.1, ← List.drop_drop, List.drop_left]
        congr 2
        omega
      rw [e]
      exact Sim.ok h'

end

end ScaleGo
