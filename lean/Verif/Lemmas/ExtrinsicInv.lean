import Verif.Model.Extrinsic
import Verif.Lemmas.Inv

/-! # Extrinsics and events: the cursor moves forward inside an unchanged buffer -/

namespace ScaleGo

section
variable {r : Rec} (hr : RecInv r)
include hr

theorem readTip_post (ext : Ext) (ctx : Ctx) {st : St} (h : InB st) : Post st (readTip ext r ctx st) := by
  unfold readTip
  exact Post.bind (hr _ _ _ h) (fun _ _ h => Post.pure (fun _ => Post.same h))

theorem readConfigured_post (ctx : Ctx) (ids : List Str) (l : List (Str × List (Str × Str))) (acc : List (Str × Val)) {st : St}
    (h : InB st) : Post st (readConfigured r ctx ids l acc st) := by
  induction l generalizing acc st with
  | nil => exact Post.same h
  | cons x l ih =>
    obtain ⟨n, fs⟩ := x
    rw [readConfigured]
    split
    · exact Post.bind (procFields_post hr _ _ _ h) (fun _ _ h => ih _ h)
    · exact ih _ h

theorem readMetaExts_post (ext : Ext) (ctx : Ctx) (check : List Str) (l : List (Str × Str)) (tip : Int × Int) (acc : List (Str × Val))
    {st : St} (h : InB st) : Post st (readMetaExts ext r ctx check l tip acc st) := by
  induction l generalizing tip acc st with
  | nil => exact Post.same h
  | cons x l ih =>
    obtain ⟨n, t⟩ := x
    rw [readMetaExts]
    split
    · split
      · exact Post.bind (readTip_post hr _ _ h) (fun _ _ h => ih _ _ h)
      · exact Post.bind (hr _ _ _ h) (fun _ _ h => ih _ _ h)
    · exact ih _ _ h

theorem readTip4_post (ext : Ext) (ctx : Ctx) (md : MD) {st : St} (h : InB st) : Post st (readTip4 ext r ctx md st) := by
  unfold readTip4
  split
  · split
    · exact readTip_post hr _ _ h
    · exact Post.same h
  · exact readTip_post hr _ _ h

theorem readExts4_post (ext : Ext) (ctx : Ctx) (md : MD) (opt : ExtOpt) (tip : Int × Int) {st : St} (h : InB st) :
    Post st (readExts4 ext r ctx md opt tip st) := by
  unfold readExts4
  split
  · split
    · exact Post.panic
    · exact Post.bind (readConfigured_post hr _ _ _ _ h) (fun _ _ h => Post.same h)
  · split
    · split
      · exact Post.panic
      · exact readMetaExts_post hr _ _ _ _ _ _ h
    · exact Post.same h

theorem readSigned4_post (env : Env) (ctx : Ctx) (md : MD) (opt : ExtOpt) {st : St} (h : InB st) :
    Post st (readSigned4 env r ctx md opt st) := by
  unfold readSigned4
  exact Post.bind (hr _ _ _ h) (fun _ _ h => Post.bind (hr _ _ _ h) (fun _ _ h => Post.pure (fun _ => Post.bind (hr _ _ _ h)
    (fun _ _ h => Post.pure (fun _ => Post.bind (hr _ _ _ h) (fun _ _ h => Post.pure (fun _ =>
      Post.bind (readTip4_post hr _ _ _ h) (fun _ _ h => Post.bind (readExts4_post hr _ _ _ _ _ h) (fun _ _ h => Post.same h)))))))))

theorem readExts5_post (ext : Ext) (ctx : Ctx) (md : MD) (opt : ExtOpt) {st : St} (h : InB st) :
    Post st (readExts5 ext r ctx md opt st) := by
  unfold readExts5
  split
  · exact Post.panic
  · exact readMetaExts_post hr _ _ _ _ _ _ h

theorem readSigned5_post (env : Env) (ctx : Ctx) (md : MD) (opt : ExtOpt) {st : St} (h : InB st) :
    Post st (readSigned5 env r ctx md opt st) := by
  unfold readSigned5
  exact Post.bind (hr _ _ _ h) (fun _ _ h => Post.bind (hr _ _ _ h) (fun _ _ h => Post.bind (hr _ _ _ h) (fun _ _ h =>
    Post.pure (fun _ => Post.pure (fun _ => Post.bind (hr _ _ _ h) (fun _ _ h => Post.pure (fun _ => Post.bind (hr _ _ _ h)
      (fun _ _ h => Post.pure (fun _ => Post.bind (readExts5_post hr _ _ _ _ h) (fun _ _ h => Post.same h))))))))))

theorem readSigned_post (env : Env) (ctx : Ctx) (md : MD) (opt : ExtOpt) (v : Str) {st : St} (h : InB st) :
    Post st (readSigned env r ctx md opt v st) := by
  unfold readSigned
  split
  · exact Post.same h
  · split
    · exact Post.bind (readSigned4_post hr _ _ _ _ h) (fun _ _ h => Post.same h)
    · split
      · exact Post.bind (readSigned5_post hr _ _ _ _ h) (fun _ _ h => Post.same h)
      · exact Post.panic

theorem readCall_post (ctx : Ctx) (md : MD) {st : St} (h : InB st) : Post st (readCall r ctx md st) := by
  unfold readCall
  refine Post.bind (nextBytes_post _ h) (fun _ _ h => ?_)
  dsimp only
  split
  · exact Post.panic
  · split
    · exact Post.panic
    · exact Post.bind (procArgs_post hr _ _ h) (fun _ _ h => Post.same h)

theorem readEventArgs_post (ctx : Ctx) (ts ns : List Str) {st : St} (h : InB st) : Post st (readEventArgs r ctx ts ns st) := by
  induction ts generalizing ns st with
  | nil => exact Post.same h
  | cons t ts ih => exact Post.bind (hr _ _ _ h) (fun _ _ h => Post.bind (ih _ h) (fun _ _ h => Post.same h))

theorem readPhase_post (ctx : Ctx) {st : St} (h : InB st) : Post st (readPhase r ctx st) := by
  unfold readPhase
  refine Post.bind (getNextU8_post h) (fun _ _ h => ?_)
  dsimp only
  split
  · refine Post.bind (hr _ _ _ h) (fun _ _ h => ?_)
    dsimp only
    split
    · exact Post.same h
    · exact Post.panic
  · exact Post.same h

theorem readTopics_post (ctx : Ctx) (md : MD) {st : St} (h : InB st) : Post st (readTopics r ctx md st) := by
  unfold readTopics
  split
  · exact Post.bind (hr _ _ _ h) (fun _ _ h => Post.pure (fun _ => Post.same h))
  · exact Post.same h

theorem processEvent_post (spec : Int) (md : MD) (m : Str) (i : Nat) {st : St} (h : InB st) :
    Post st (processEvent r spec md m i st) := by
  unfold processEvent
  refine Post.bind (readPhase_post hr _ h) (fun _ _ h => Post.bind (nextBytes_post _ h) (fun _ _ h => ?_))
  dsimp only
  split
  · exact Post.panic
  · exact Post.bind (readEventArgs_post hr _ _ _ h) (fun _ _ h => Post.bind (readTopics_post hr _ _ h) (fun _ _ h => Post.same h))

end

/-- Nothing can be read at the end of the buffer. -/
theorem nextBytes_at_end {n : Nat} {st : St} (h : st.cur.off = st.cur.data.length) : ∀ b s, nextBytes n st = .ok (b, s) → b = [] := by
  intro b s e
  unfold nextBytes at e
  rw [Res.bind_eq_ok] at e
  obtain ⟨⟨b', c⟩, e1, e2⟩ := e
  cases e2
  unfold getNextBytes at e1
  rw [h] at e1
  dsimp only at e1
  split at e1
  · split at e1
    · cases e1; simp
    · cases e1
  · split at e1
    · cases e1; simp
    · cases e1

end ScaleGo
