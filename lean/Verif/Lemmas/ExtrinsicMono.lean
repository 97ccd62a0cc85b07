import Verif.Lemmas.Mono
import Verif.Model.Extrinsic

/-! # A larger recursion budget does not change the result of an extrinsic or event decoder -/

namespace ScaleGo

section
variable {r r' : Rec} (h : RecLe r r')
include h

theorem readTip_mono (ext : Ext) (ctx : Ctx) (st : St) : Le (readTip ext r ctx st) (readTip ext r' ctx st) := by
  unfold readTip
  exact Le.bind (h _ _ _) (fun _ => Le.refl _)

theorem readConfigured_mono (ctx : Ctx) (ids : List Str) (l : List (Str × List (Str × Str))) (acc : List (Str × Val)) (st : St) :
    Le (readConfigured r ctx ids l acc st) (readConfigured r' ctx ids l acc st) := by
  induction l generalizing acc st with
  | nil => exact Le.refl _
  | cons p l ih =>
    obtain ⟨n, fs⟩ := p
    simp only [readConfigured]
    split
    · exact Le.bind (procFields_mono h _ _ _ _) (fun _ => ih _ _)
    · exact ih _ _

theorem readMetaExts_mono (ext : Ext) (ctx : Ctx) (check : List Str) (l : List (Str × Str)) (tip : Int × Int)
    (acc : List (Str × Val)) (st : St) : Le (readMetaExts ext r ctx check l tip acc st) (readMetaExts ext r' ctx check l tip acc st) := by
  induction l generalizing acc tip st with
  | nil => exact Le.refl _
  | cons p l ih =>
    obtain ⟨n, t⟩ := p
    simp only [readMetaExts]
    split
    · split
      · exact Le.bind (readTip_mono h _ _ _) (fun _ => ih _ _ _)
      · exact Le.bind (h _ _ _) (fun _ => ih _ _ _)
    · exact ih _ _ _

theorem readTip4_mono (ext : Ext) (ctx : Ctx) (md : MD) (st : St) : Le (readTip4 ext r ctx md st) (readTip4 ext r' ctx md st) := by
  unfold readTip4
  split
  · split
    · exact readTip_mono h _ _ _
    · exact Le.refl _
  · exact readTip_mono h _ _ _

theorem readExts4_mono (ext : Ext) (ctx : Ctx) (md : MD) (opt : ExtOpt) (tip : Int × Int) (st : St) :
    Le (readExts4 ext r ctx md opt tip st) (readExts4 ext r' ctx md opt tip st) := by
  unfold readExts4
  split
  · split
    · exact Le.refl _
    · exact Le.bind (readConfigured_mono h _ _ _ _ _) (fun _ => Le.refl _)
  · split
    · split
      · exact Le.refl _
      · exact readMetaExts_mono h _ _ _ _ _ _ _
    · exact Le.refl _

theorem readSigned4_mono (env : Env) (ctx : Ctx) (md : MD) (opt : ExtOpt) (st : St) :
    Le (readSigned4 env r ctx md opt st) (readSigned4 env r' ctx md opt st) := by
  unfold readSigned4
  refine Le.bind (h _ _ _) fun _ => Le.bind (h _ _ _) fun _ => Le.bind (Le.refl _) fun _ => Le.bind (h _ _ _) fun _ =>
    Le.bind (Le.refl _) fun _ => Le.bind (h _ _ _) fun _ => Le.bind (Le.refl _) fun _ => Le.bind (readTip4_mono h _ _ _ _) fun _ =>
    Le.bind (readExts4_mono h _ _ _ _ _ _) fun _ => Le.refl _

theorem readSigned5_mono (env : Env) (ctx : Ctx) (md : MD) (opt : ExtOpt) (st : St) :
    Le (readSigned5 env r ctx md opt st) (readSigned5 env r' ctx md opt st) := by
  unfold readSigned5
  refine Le.bind (h _ _ _) fun _ => Le.bind (h _ _ _) fun _ => Le.bind (h _ _ _) fun _ => Le.bind (Le.refl _) fun _ =>
    Le.bind (Le.refl _) fun _ => Le.bind (h _ _ _) fun _ => Le.bind (Le.refl _) fun _ => Le.bind (h _ _ _) fun _ =>
    Le.bind (Le.refl _) fun _ => Le.bind ?_ fun _ => Le.refl _
  unfold readExts5
  split
  · exact Le.refl _
  · exact readMetaExts_mono h _ _ _ _ _ _ _

theorem readSigned_mono (env : Env) (ctx : Ctx) (md : MD) (opt : ExtOpt) (v : Str) (st : St) :
    Le (readSigned env r ctx md opt v st) (readSigned env r' ctx md opt v st) := by
  unfold readSigned
  split
  · exact Le.refl _
  · split
    · exact Le.bind (readSigned4_mono h _ _ _ _ _) fun _ => Le.refl _
    · split
      · exact Le.bind (readSigned5_mono h _ _ _ _ _) fun _ => Le.refl _
      · exact Le.refl _

theorem readCall_mono (ctx : Ctx) (md : MD) (st : St) : Le (readCall r ctx md st) (readCall r' ctx md st) := by
  unfold readCall
  refine Le.bind (Le.refl _) fun p => ?_
  dsimp only
  split
  · exact Le.refl _
  · split
    · exact Le.refl _
    · exact Le.bind (procArgs_mono h _ _ _) fun _ => Le.refl _

theorem processExtrinsic_mono (env : Env) (md : MD) (opt : ExtOpt) (st : St) :
    Le (processExtrinsic env r md opt st) (processExtrinsic env r' md opt st) := by
  unfold processExtrinsic
  refine Le.bind ?_ fun _ => Le.bind (Le.refl _) fun _ => Le.bind (readSigned_mono h _ _ _ _ _ _) fun _ =>
    Le.bind (readCall_mono h _ _ _) fun _ => Le.refl _
  unfold readLength
  exact Le.bind (h _ _ _) fun _ => Le.refl _

theorem readEventArgs_mono (ctx : Ctx) (ts ns : List Str) (st : St) : Le (readEventArgs r ctx ts ns st) (readEventArgs r' ctx ts ns st) := by
  induction ts generalizing ns st with
  | nil => exact Le.refl _
  | cons t ts ih =>
    simp only [readEventArgs]
    exact Le.bind (h _ _ _) fun _ => Le.bind (ih _ _) fun _ => Le.refl _

theorem processEvent_mono (spec : Int) (md : MD) (m : Str) (i : Nat) (st : St) :
    Le (processEvent r spec md m i st) (processEvent r' spec md m i st) := by
  unfold processEvent
  refine Le.bind ?_ fun _ => Le.bind (Le.refl _) fun _ => ?_
  · unfold readPhase
    refine Le.bind (Le.refl _) fun _ => ?_
    dsimp only
    split
    · exact Le.bind (h _ _ _) fun _ => Le.refl _
    · exact Le.refl _
  · dsimp only
    split
    · exact Le.refl _
    · refine Le.bind (readEventArgs_mono h _ _ _ _) fun _ => Le.bind ?_ fun _ => Le.refl _
      unfold readTopics
      split
      · exact Le.bind (h _ _ _) fun _ => Le.refl _
      · exact Le.refl _

theorem processEvents_mono (spec : Int) (md : MD) (n i : Nat) (m : Str) (st : St) :
    Le (processEvents r spec md i n m st) (processEvents r' spec md i n m st) := by
  induction n generalizing i m st with
  | zero => exact Le.refl _
  | succ n ih =>
    simp only [processEvents]
    exact Le.bind (processEvent_mono h _ _ _ _ _) fun _ => Le.bind (ih _ _ _) fun _ => Le.refl _

end

theorem decodeExtrinsic_mono (env : Env) {n m : Nat} (hnm : n ≤ m) (md : MD) (opt : ExtOpt) (data : Str) :
    Le (decodeExtrinsic env n md opt data) (decodeExtrinsic env m md opt data) :=
  processExtrinsic_mono (pau_mono env hnm) _ _ _ _

theorem decodeEvents_mono (env : Env) {n m : Nat} (hnm : n ≤ m) (spec : Int) (md : MD) (module data : Str) :
    Le (decodeEvents env n spec md module data) (decodeEvents env m spec md module data) := by
  unfold decodeEvents
  exact Le.bind (pau_mono env hnm _ _ _) fun _ => Le.bind (Le.refl _) fun _ => processEvents_mono (pau_mono env hnm) _ _ _ _ _ _

section
variable {r r' : ERec} (h : ERecLe r r')
include h

theorem encExt_mono (id : Str) (v : Val) (l : List (Str × Str)) : Le (encExt r id v l) (encExt r' id v l) := by
  induction l with
  | nil => exact Le.refl _
  | cons p l ih =>
    obtain ⟨n, t⟩ := p
    simp only [encExt]
    split
    · exact Le.bind (h _ _ _) fun _ => Le.bind ih fun _ => Le.refl _
    · exact ih

theorem encExts_mono (ms : List (Str × Str)) (l : List (Str × Val)) : Le (encExts r ms l) (encExts r' ms l) := by
  induction l with
  | nil => exact Le.refl _
  | cons p l ih =>
    obtain ⟨n, t⟩ := p
    simp only [encExts]
    exact Le.bind (encExt_mono h _ _ _) fun _ => Le.bind ih fun _ => Le.refl _

theorem encSigned_mono (env : Env) (md : MD) (g : ExtrinsicIn) : Le (encSigned env r md g) (encSigned env r' md g) := by
  unfold encSigned
  refine Le.bind (h _ _ _) fun _ => Le.bind (h _ _ _) fun _ => Le.bind (h _ _ _) fun _ => Le.bind (h _ _ _) fun _ => ?_
  split
  · exact Le.refl _
  · refine Le.bind ?_ fun _ => Le.bind (encExts_mono h _ _) fun _ => Le.refl _
    unfold encTip
    split
    · exact h _ _ _
    · exact Le.refl _

theorem encParams_mono (ctx : ECtx) (ts : List (Str × Str)) (vs : List Val) : Le (encParams r ctx ts vs) (encParams r' ctx ts vs) := by
  induction ts generalizing vs with
  | nil => exact Le.refl _
  | cons t ts ih =>
    obtain ⟨n, t⟩ := t
    cases vs with
    | nil => exact Le.refl _
    | cons v vs =>
      simp only [encParams]
      exact Le.bind (h _ _ _) fun _ => Le.bind (ih _) fun _ => Le.refl _

end

theorem encodeExtrinsic_mono (env : Env) {n m : Nat} (hnm : n ≤ m) (spec : Int) (md : Option MD) (g : ExtrinsicIn) :
    Le (encodeExtrinsic env n spec md g) (encodeExtrinsic env m spec md g) := by
  have h := enc_mono env hnm
  unfold encodeExtrinsic
  split
  · exact Le.refl _
  · refine Le.bind ?_ fun s => ?_
    · unfold encSignedPart
      split
      · exact encSigned_mono h _ _ _
      · exact Le.refl _
    · split
      · exact Le.refl _
      · split
        · exact Le.refl _
        · exact Le.bind (encParams_mono h _ _ _) fun _ => Le.bind (h _ _ _) fun _ => Le.refl _

end ScaleGo
