import Verif.Model.Decode
import Verif.Props.C03

/-! # The cursor moves forward inside an unchanged buffer -/

namespace ScaleGo

/-- `st'` has the same buffer as `st` and a cursor between that of `st` and the end. -/
def Adv (st st' : St) : Prop :=
  st'.cur.data = st.cur.data ∧ st.cur.off ≤ st'.cur.off ∧ st'.cur.off ≤ st.cur.data.length

/-- The cursor is inside the buffer. -/
def InB (st : St) : Prop := st.cur.off ≤ st.cur.data.length

theorem Adv.refl {st : St} (h : InB st) : Adv st st := ⟨rfl, Nat.le_refl _, h⟩

theorem Adv.inB {st st' : St} (h : Adv st st') : InB st' := by
  obtain ⟨h1, _, h3⟩ := h
  unfold InB; rw [h1]; exact h3

theorem Adv.trans {a b c : St} (h : Adv a b) (h' : Adv b c) : Adv a c := by
  obtain ⟨h1, h2, h3⟩ := h
  obtain ⟨k1, k2, k3⟩ := h'
  exact ⟨k1.trans h1, Nat.le_trans h2 k2, by rw [← h1]; exact k3⟩

/-- Whatever a step returns, it has only advanced. -/
def Post {α : Type} (st : St) (x : Res (α × St)) : Prop := ∀ a st', x = .ok (a, st') → Adv st st'

theorem Post.ok {α : Type} {st st' : St} {a : α} (h : Adv st st') : Post st (.ok (a, st')) := by
  intro b s e; cases e; exact h

theorem Post.same {α : Type} {st : St} {a : α} (h : InB st) : Post st (.ok (a, st)) := Post.ok (Adv.refl h)

theorem Post.panic {α : Type} {st : St} : Post st (.panic : Res (α × St)) := by intro b s e; cases e

theorem Post.diverge {α : Type} {st : St} : Post st (.diverge : Res (α × St)) := by intro b s e; cases e

theorem Post.bind {α β : Type} {st : St} {x : Res (α × St)} {f : α × St → Res (β × St)} (h : Post st x)
    (hf : ∀ a s, InB s → Post s (f (a, s))) : Post st (x >>= f) := by
  intro b s e
  rw [Res.bind_eq_ok] at e
  obtain ⟨⟨a, s1⟩, e1, e2⟩ := e
  exact (h a s1 e1).trans (hf a s1 (h a s1 e1).inB b s e2)

theorem Post.pure {α β : Type} {st : St} {x : Res α} {f : α → Res (β × St)} (hf : ∀ a, Post st (f a)) :
    Post st (x >>= f) := by
  intro b s e
  rw [Res.bind_eq_ok] at e
  obtain ⟨a, e1, e2⟩ := e
  exact hf a b s e2

theorem getNextBytes_adv {n : Int} {c c' : Cur} {b : Str} (hin : c.off ≤ c.data.length)
    (h : getNextBytes n c = .ok (b, c')) : c'.data = c.data ∧ c.off ≤ c'.off ∧ c'.off ≤ c.data.length := by
  unfold getNextBytes at h
  dsimp only at h
  split at h
  · cases h
    exact ⟨rfl, hin, Nat.le_refl _⟩
  · split at h
    · cases h
      refine ⟨rfl, ?_, ?_⟩ <;> dsimp only <;> omega
    · cases h

theorem nextBytes_post (n : Int) {st : St} (h : InB st) : Post st (nextBytes n st) := by
  intro a s e
  unfold nextBytes at e
  rw [Res.bind_eq_ok] at e
  obtain ⟨⟨b, c⟩, e1, e2⟩ := e
  cases e2
  exact getNextBytes_adv h e1

/-- A fixed read followed by a pure result. -/
theorem read_post {β : Type} (n : Int) {st : St} (h : InB st) (g : Str → β) :
    Post st (nextBytes n st >>= fun p => .ok (g p.1, p.2)) :=
  Post.bind (nextBytes_post n h) (fun _ _ hs => Post.same hs)

theorem getNextU8_post {st : St} (h : InB st) : Post st (getNextU8 st) := by
  unfold getNextU8
  exact Post.bind (nextBytes_post _ h) (fun _ _ hs => Post.same hs)

theorem processCompactBytes_post {st : St} (h : InB st) : Post st (processCompactBytes st) := by
  unfold processCompactBytes
  refine Post.bind (nextBytes_post _ h) (fun b s hs => ?_)
  dsimp only
  split
  · exact Post.same hs
  · exact Post.bind (nextBytes_post _ hs) (fun _ _ hs => Post.same hs)
  · exact Post.bind (nextBytes_post _ hs) (fun _ _ hs => Post.same hs)
  · exact Post.bind (nextBytes_post _ hs) (fun _ _ hs => Post.same hs)

theorem processCompactU32_post {st : St} (h : InB st) : Post st (processCompactU32 st) := by
  unfold processCompactU32
  exact Post.bind (processCompactBytes_post h) (fun a s hs => Post.same hs)

/-- The hypothesis on the recursive call. -/
def RecInv (r : Rec) : Prop := ∀ ctx ty st, InB st → Post st (r ctx ty st)

section
variable {r : Rec} (hr : RecInv r)
include hr

theorem procN_post (ctx : Ctx) (ty : Str) (n : Nat) {st : St} (h : InB st) : Post st (procN r ctx ty n st) := by
  induction n generalizing st with
  | zero => exact Post.same h
  | succ n ih =>
    simp only [procN]
    exact Post.bind (hr _ _ _ h) (fun _ _ h => Post.bind (ih h) (fun _ _ h => Post.same h))

theorem procFields_post (ctx : Ctx) (fs : List (Str × Str)) (acc : List (Str × Val)) {st : St} (h : InB st) :
    Post st (procFields r ctx fs acc st) := by
  induction fs generalizing acc st with
  | nil => exact Post.same h
  | cons f fs ih =>
    obtain ⟨n, t⟩ := f
    simp only [procFields]
    exact Post.bind (hr _ _ _ h) (fun _ _ h => ih _ h)

theorem procRows_post (ctx : Ctx) (rows : List (List Str)) (acc : List (Str × Val)) {st : St} (h : InB st) :
    Post st (procRows r ctx rows acc st) := by
  induction rows generalizing acc st with
  | nil => exact Post.same h
  | cons row rows ih =>
    match row with
    | [] => exact Post.panic
    | [_] => exact Post.panic
    | n :: t :: _ =>
      simp only [procRows]
      exact Post.bind (hr _ _ _ h) (fun _ _ h => ih _ h)

theorem procPairs_post (ext : Ext) (ctx : Ctx) (parts : List Str) (n : Nat) {st : St} (h : InB st) :
    Post st (procPairs ext r ctx parts n st) := by
  induction n generalizing st with
  | zero => exact Post.same h
  | succ n ih =>
    simp only [procPairs]
    refine Post.bind (hr _ _ _ h) (fun _ _ h => ?_)
    split
    · exact Post.bind (hr _ _ _ h) (fun _ _ h => Post.bind (ih h) (fun _ _ h => Post.same h))
    · exact Post.panic

theorem procArgs_post (ctx : Ctx) (fs : List (Str × Str)) {st : St} (h : InB st) : Post st (procArgs r ctx fs st) := by
  induction fs generalizing st with
  | nil => exact Post.same h
  | cons f fs ih =>
    obtain ⟨n, t⟩ := f
    simp only [procArgs]
    exact Post.bind (hr _ _ _ h) (fun _ _ h => Post.bind (ih h) (fun _ _ h => Post.same h))

theorem processVec_post (ctx : Ctx) (sub : Str) {st : St} (h : InB st) : Post st (processVec r ctx sub st) := by
  unfold processVec
  refine Post.bind (hr _ _ _ h) (fun _ _ h => Post.pure (fun n => ?_))
  dsimp only
  split
  · exact Post.panic
  · exact Post.bind (procN_post hr _ _ _ h) (fun _ _ h => Post.same h)

theorem processBytes_post (ctx : Ctx) {st : St} (h : InB st) : Post st (processBytes r ctx st) := by
  unfold processBytes
  exact Post.bind (hr _ _ _ h) (fun _ _ h => Post.pure (fun n =>
    Post.bind (nextBytes_post _ h) (fun _ _ h => Post.same h)))

theorem processEnum_post (ext : Ext) (ctx : Ctx) (vs : List Str) (tm : Option (List (Str × Str))) {st : St}
    (h : InB st) : Post st (processEnum ext r ctx vs tm st) := by
  unfold processEnum
  refine Post.bind (nextBytes_post _ h) (fun b s h => ?_)
  dsimp only
  have hv : Post s (match vs[(b.headD 0).toNat]? with
      | some v => Res.ok (if v = [] then Val.nil else Val.str v, s)
      | none => Res.panic) := by
    split
    · exact Post.same h
    · exact Post.panic
  split
  · exact hv
  · split
    · exact Post.same h
    · split
      · exact Post.panic
      · split
        · exact hv
        · split
          · exact Post.bind (procRows_post hr _ _ _ h) (fun _ _ h => Post.same h)
          · exact Post.bind (hr _ _ _ h) (fun _ _ h => Post.same h)

theorem process_post (ext : Ext) (ctx : Ctx) (cls : Cls) (sub : Str) {st : St} (h : InB st) :
    Post st (process ext r ctx cls sub st) := by
  cases cls <;> simp only [process]
  case null => exact Post.same h
  case empty => exact Post.same h
  case u8 => exact Post.bind (getNextU8_post h) (fun _ _ h => Post.same h)
  case u16 => exact Post.bind (nextBytes_post _ h) (fun _ _ h => Post.same h)
  case u32 => exact Post.bind (nextBytes_post _ h) (fun _ _ h => Post.same h)
  case u64 => exact Post.bind (nextBytes_post _ h) (fun _ _ h => Post.same h)
  case u128 =>
    exact Post.bind (nextBytes_post _ h) (fun _ _ h => Post.pure (fun _ => Post.pure (fun _ => Post.same h)))
  case u256 =>
    refine Post.bind (nextBytes_post _ h) (fun _ _ h => ?_)
    dsimp only
    split
    · exact Post.same h
    · exact Post.panic
  case float64 =>
    unfold processFloat; split
    · exact Post.panic
    · exact Post.same h
  case float32 =>
    unfold processFloat; split
    · exact Post.panic
    · exact Post.same h
  case hash n => exact Post.bind (nextBytes_post _ h) (fun _ _ h => Post.same h)
  case address =>
    refine Post.bind (nextBytes_post _ h) (fun _ _ h => ?_)
    dsimp only
    split
    · exact Post.bind (nextBytes_post _ h) (fun _ _ h => Post.same h)
    · exact Post.bind (nextBytes_post _ h) (fun _ _ h => Post.same h)
  case genericAddress =>
    refine Post.bind (nextBytes_post _ h) (fun _ _ h => ?_)
    dsimp only
    split
    · exact Post.bind (nextBytes_post _ h) (fun _ _ h => Post.same h)
    · split
      · exact Post.bind (nextBytes_post _ h) (fun _ _ h => Post.same h)
      · split
        · exact Post.bind (nextBytes_post _ h) (fun _ _ h => Post.same h)
        · split
          · exact Post.bind (nextBytes_post _ h) (fun _ _ h => Post.same h)
          · exact Post.bind (nextBytes_post _ h) (fun _ _ h => Post.same h)
  case option t =>
    unfold processOption
    refine Post.bind (nextBytes_post _ h) (fun _ _ h => ?_)
    dsimp only
    split
    · split
      · exact Post.same h
      · exact hr _ _ _ h
    · exact Post.same h
  case struct tm =>
    exact Post.bind (procFields_post hr _ _ _ h) (fun _ _ h => Post.same h)
  case enum vs tm => exact processEnum_post hr _ _ _ _ h
  case bytes => exact processBytes_post hr _ h
  case string => exact processBytes_post hr _ h
  case hexBytes =>
    unfold processHexBytes
    exact Post.bind (hr _ _ _ h) (fun _ _ h => Post.pure (fun n =>
      Post.bind (nextBytes_post _ h) (fun _ _ h => Post.same h)))
  case vec t => exact processVec_post hr _ _ h
  case boundedVec t => exact processVec_post hr _ _ h
  case authoritiesChange => exact processVec_post hr _ _ h
  case set vs bits => exact Post.bind (hr _ _ _ h) (fun _ _ h => Post.same h)
  case compact t =>
    unfold processCompact
    refine Post.bind (processCompactBytes_post h) (fun _ _ h => ?_)
    dsimp only
    split
    · exact Post.same h
    · exact Post.pure (fun _ => Post.pure (fun _ => Post.same h))
  case compactU32 => exact processCompactU32_post h
  case compactMoment =>
    unfold processCompactMoment
    exact Post.bind (processCompactU32_post h) (fun _ _ h => Post.pure (fun _ => Post.same h))
  case bool => exact Post.bind (nextBytes_post _ h) (fun _ _ h => Post.same h)
  case moment => exact Post.bind (nextBytes_post _ h) (fun _ _ h => Post.same h)
  case accountId => exact Post.bind (nextBytes_post _ h) (fun _ _ h => Post.same h)
  case call =>
    unfold processCall
    dsimp only
    refine Post.bind (nextBytes_post _ h) (fun _ _ h => ?_)
    dsimp only
    split
    · exact Post.panic
    · refine Post.bind (procArgs_post hr _ _ h) (fun _ s h => Post.ok ?_)
      exact ⟨rfl, Nat.le_refl _, h⟩
  case era =>
    refine Post.bind (nextBytes_post _ h) (fun _ _ h => ?_)
    dsimp only
    split
    · exact Post.same h
    · exact Post.bind (nextBytes_post _ h) (fun _ _ h => Post.same h)
  case balance =>
    refine Post.bind (nextBytes_post _ h) (fun _ _ h => ?_)
    dsimp only
    split
    · exact Post.same h
    · exact Post.pure (fun _ => Post.same h)
  case logDigest =>
    unfold processLogDigest
    refine Post.bind (nextBytes_post _ h) (fun _ _ h => ?_)
    dsimp only
    split
    · exact Post.panic
    · exact Post.bind (hr _ _ _ h) (fun _ _ h => Post.same h)
  case lockIdentifier => exact Post.bind (nextBytes_post _ h) (fun _ _ h => Post.same h)
  case ecdsaSignature => exact Post.bind (nextBytes_post _ h) (fun _ _ h => Post.same h)
  case ethereumAddress => exact Post.bind (nextBytes_post _ h) (fun _ _ h => Post.pure (fun _ => Post.same h))
  case data =>
    unfold processData
    refine Post.bind (nextBytes_post _ h) (fun _ _ h => ?_)
    dsimp only
    split
    · exact Post.same h
    · split
      · exact Post.bind (nextBytes_post _ h) (fun _ _ h => Post.same h)
      · split
        · split
          · exact Post.bind (hr _ _ _ h) (fun _ _ h => Post.same h)
          · exact Post.panic
        · exact Post.same h
  case opaqueCall =>
    unfold processOpaqueCall
    refine Post.bind (processBytes_post hr _ h) (fun _ s h => ?_)
    dsimp only
    split
    · exact Post.pure (fun _ => Post.ok ⟨rfl, Nat.le_refl _, h⟩)
    · exact Post.panic
  case bitVec =>
    unfold processBitVec
    exact Post.bind (hr _ _ _ h) (fun _ _ h => Post.pure (fun n =>
      Post.bind (nextBytes_post _ h) (fun _ _ h => Post.same h)))
  case lookupSource =>
    unfold processLookupSource
    have hs : Post st (lookupSkip st) := by
      unfold lookupSkip
      split
      · exact Post.bind (nextBytes_post _ h) (fun _ _ h => Post.same h)
      · exact Post.same h
    refine Post.bind hs (fun _ _ h => Post.bind (nextBytes_post _ h) (fun _ _ h => ?_))
    dsimp only
    split
    · exact Post.panic
    · split
      · exact Post.bind (nextBytes_post _ h) (fun _ _ h => Post.same h)
      · split
        · exact Post.panic
        · refine Post.pure (fun v => ?_)
          split
          · exact Post.same h
          · exact Post.panic
  case btreeMap t =>
    unfold processBTreeMap
    refine Post.bind (hr _ _ _ h) (fun _ _ h => Post.pure (fun n => ?_))
    dsimp only
    split
    · exact Post.panic
    · exact Post.bind (procPairs_post hr _ _ _ _ h) (fun _ _ h => Post.same h)
  case box t => exact hr _ _ _ h
  case result t =>
    unfold processResult
    refine Post.bind (nextBytes_post _ h) (fun _ _ h => ?_)
    dsimp only
    split
    · split
      · exact Post.bind (hr _ _ _ h) (fun _ _ h => Post.same h)
      · split
        · exact Post.bind (hr _ _ _ h) (fun _ _ h => Post.same h)
        · exact Post.panic
    · exact Post.panic
  case wrapperOpaque t =>
    unfold processWrapper
    exact Post.bind (hr _ _ _ h) (fun _ _ h => hr _ _ _ h)
  case range t =>
    unfold processRange
    exact Post.bind (hr _ _ _ h) (fun _ _ h => Post.bind (hr _ _ _ h) (fun _ _ h => Post.same h))
  case fixedU64 => exact Post.bind (nextBytes_post _ h) (fun _ _ h => Post.same h)
  case fixedI128 =>
    unfold processFixedI128
    refine Post.bind (hr _ _ _ h) (fun _ _ h => ?_)
    dsimp only
    split
    · exact Post.same h
    · exact Post.panic
  case intFixed n =>
    refine Post.bind (nextBytes_post _ h) (fun _ _ h => ?_)
    dsimp only
    split
    · exact Post.panic
    · split
      · exact Post.same h
      · exact Post.same h
  case fixedU8 n => exact Post.bind (nextBytes_post _ h) (fun _ _ h => Post.same h)
  case fixedArray n t =>
    unfold processFixedArray
    split
    · split
      · exact Post.bind (nextBytes_post _ h) (fun _ _ h => Post.same h)
      · exact Post.bind (procN_post hr _ _ _ h) (fun _ _ h => Post.same h)
    · exact Post.bind (getNextU8_post h) (fun _ _ h => Post.same h)

end

theorem pau_post (env : Env) (n : Nat) : RecInv (pau env n) := by
  induction n with
  | zero => intro ctx ty st _; exact Post.diverge
  | succ n ih =>
    intro ctx ty st h
    rw [pau]
    refine Post.pure (fun r => ?_)
    split
    · exact Post.panic
    · exact process_post ih _ _ _ _ h

end ScaleGo
