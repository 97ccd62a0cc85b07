import Verif.Model.Encode

/-! # More recursion budget never changes a finished result -/

namespace ScaleGo

/-- `x` is cut off, or already the final result `y`. -/
def Le {α : Type} (x y : Res α) : Prop := x = .diverge ∨ x = y

theorem Le.refl {α : Type} (x : Res α) : Le x x := Or.inr rfl

theorem Le.bind {α β : Type} {x y : Res α} {f g : α → Res β} (h : Le x y) (hf : ∀ a, Le (f a) (g a)) :
    Le (x >>= f) (y >>= g) := by
  rcases h with h | h
  · subst h; exact Or.inl rfl
  · subst h
    cases x with
    | ok a => exact hf a
    | panic => exact Or.inr rfl
    | diverge => exact Or.inl rfl

theorem Le.trans {α : Type} {x y z : Res α} (h : Le x y) (h' : Le y z) : Le x z := by
  rcases h with h | h
  · exact Or.inl h
  · subst h; exact h'

theorem Le.ok {α : Type} {x y : Res α} {a : α} (h : Le x y) (hx : x = .ok a) : y = .ok a := by
  rcases h with h | h
  · rw [h] at hx; cases hx
  · rw [← h]; exact hx

theorem Le.panic {α : Type} {x y : Res α} (h : Le x y) (hx : x = .panic) : y = .panic := by
  rcases h with h | h
  · rw [h] at hx; cases hx
  · rw [← h]; exact hx

/-- Pointwise order on decoders. -/
def RecLe (r r' : Rec) : Prop := ∀ ctx ty st, Le (r ctx ty st) (r' ctx ty st)

/-- Pointwise order on encoders. -/
def ERecLe (r r' : ERec) : Prop := ∀ ctx ty v, Le (r ctx ty v) (r' ctx ty v)

section
variable {r r' : Rec} (h : RecLe r r')
include h

theorem procN_mono (ctx : Ctx) (ty : Str) (n : Nat) (st : St) : Le (procN r ctx ty n st) (procN r' ctx ty n st) := by
  induction n generalizing st with
  | zero => exact Le.refl _
  | succ n ih => simp only [procN]; exact Le.bind (h _ _ _) (fun a => Le.bind (ih _) (fun _ => Le.refl _))

theorem procFields_mono (ctx : Ctx) (fs : List (Str × Str)) (acc : List (Str × Val)) (st : St) :
    Le (procFields r ctx fs acc st) (procFields r' ctx fs acc st) := by
  induction fs generalizing acc st with
  | nil => exact Le.refl _
  | cons f fs ih => obtain ⟨n, t⟩ := f; simp only [procFields]; exact Le.bind (h _ _ _) (fun a => ih _ _)

theorem procRows_mono (ctx : Ctx) (rows : List (List Str)) (acc : List (Str × Val)) (st : St) :
    Le (procRows r ctx rows acc st) (procRows r' ctx rows acc st) := by
  induction rows generalizing acc st with
  | nil => exact Le.refl _
  | cons row rows ih =>
    match row with
    | [] => exact Le.refl _
    | [_] => exact Le.refl _
    | n :: t :: _ => simp only [procRows]; exact Le.bind (h _ _ _) (fun a => ih _ _)

theorem procPairs_mono (ext : Ext) (ctx : Ctx) (parts : List Str) (n : Nat) (st : St) :
    Le (procPairs ext r ctx parts n st) (procPairs ext r' ctx parts n st) := by
  induction n generalizing st with
  | zero => exact Le.refl _
  | succ n ih =>
    simp only [procPairs]
    refine Le.bind (h _ _ _) (fun a => ?_)
    split
    · exact Le.bind (h _ _ _) (fun a => Le.bind (ih _) (fun _ => Le.refl _))
    · exact Le.refl _

theorem procArgs_mono (ctx : Ctx) (fs : List (Str × Str)) (st : St) :
    Le (procArgs r ctx fs st) (procArgs r' ctx fs st) := by
  induction fs generalizing st with
  | nil => exact Le.refl _
  | cons f fs ih =>
    obtain ⟨n, t⟩ := f; simp only [procArgs]
    exact Le.bind (h _ _ _) (fun a => Le.bind (ih _) (fun _ => Le.refl _))

theorem processVec_mono (ctx : Ctx) (sub : Str) (st : St) : Le (processVec r ctx sub st) (processVec r' ctx sub st) := by
  unfold processVec
  refine Le.bind (h _ _ _) (fun a => Le.bind (Le.refl _) (fun n => ?_))
  split
  · exact Le.refl _
  · exact Le.bind (procN_mono h _ _ _ _) (fun _ => Le.refl _)

theorem processEnum_mono (ext : Ext) (ctx : Ctx) (vs : List Str) (tm : Option (List (Str × Str))) (st : St) :
    Le (processEnum ext r ctx vs tm st) (processEnum ext r' ctx vs tm st) := by
  unfold processEnum
  refine Le.bind (Le.refl _) (fun a => ?_)
  dsimp only
  split
  · exact Le.refl _
  · split
    · exact Le.refl _
    · split
      · exact Le.refl _
      · split
        · exact Le.refl _
        · split
          · exact Le.bind (procRows_mono h _ _ _ _) (fun _ => Le.refl _)
          · exact Le.bind (h _ _ _) (fun _ => Le.refl _)

theorem process_mono (ext : Ext) (ctx : Ctx) (cls : Cls) (sub : Str) (st : St) :
    Le (process ext r ctx cls sub st) (process ext r' ctx cls sub st) := by
  have hB : ∀ st, Le (processBytes r ctx st) (processBytes r' ctx st) := by
    intro st
    unfold processBytes
    exact Le.bind (h _ _ _) (fun a => Le.refl _)
  cases cls <;> simp only [process] <;> try with_reducible exact Le.refl _
  case option t =>
    unfold processOption
    refine Le.bind (Le.refl _) (fun a => ?_)
    dsimp only
    split
    · split
      · exact Le.refl _
      · exact h _ _ _
    · exact Le.refl _
  case struct tm =>
    unfold processStruct
    exact Le.bind (procFields_mono h _ _ _ _) (fun _ => Le.refl _)
  case enum vs tm => exact processEnum_mono h _ _ _ _ _
  case bytes => exact hB _
  case string => exact hB _
  case hexBytes =>
    unfold processHexBytes
    exact Le.bind (h _ _ _) (fun a => Le.refl _)
  case vec t => exact processVec_mono h _ _ _
  case boundedVec t => exact processVec_mono h _ _ _
  case authoritiesChange => exact processVec_mono h _ _ _
  case set vs bits =>
    unfold processSet
    exact Le.bind (h _ _ _) (fun a => Le.refl _)
  case compact t =>
    unfold processCompact
    refine Le.bind (Le.refl _) (fun a => ?_)
    dsimp only
    split
    · exact Le.refl _
    · exact Le.bind (h _ _ _) (fun a => Le.refl _)
  case call =>
    unfold processCall
    refine Le.bind (Le.refl _) (fun a => ?_)
    dsimp only
    split
    · exact Le.refl _
    · exact Le.bind (procArgs_mono h _ _ _) (fun a => Le.refl _)
  case logDigest =>
    unfold processLogDigest
    refine Le.bind (Le.refl _) (fun a => ?_)
    dsimp only
    split
    · exact Le.refl _
    · exact Le.bind (h _ _ _) (fun a => Le.refl _)
  case data =>
    unfold processData
    refine Le.bind (Le.refl _) (fun a => ?_)
    dsimp only
    split
    · exact Le.refl _
    · split
      · exact Le.refl _
      · split
        · split
          · exact Le.bind (h _ _ _) (fun a => Le.refl _)
          · exact Le.refl _
        · exact Le.refl _
  case opaqueCall =>
    unfold processOpaqueCall
    refine Le.bind (hB _) (fun a => ?_)
    dsimp only
    split
    · exact Le.bind (h _ _ _) (fun a => Le.refl _)
    · exact Le.refl _
  case bitVec =>
    unfold processBitVec
    exact Le.bind (h _ _ _) (fun a => Le.refl _)
  case lookupSource =>
    unfold processLookupSource
    refine Le.bind (Le.refl _) (fun a => Le.bind (Le.refl _) (fun b => ?_))
    dsimp only
    split
    · exact Le.refl _
    · split
      · exact Le.refl _
      · split
        · exact Le.refl _
        · exact Le.bind (h _ _ _) (fun a => Le.refl _)
  case btreeMap t =>
    unfold processBTreeMap
    refine Le.bind (h _ _ _) (fun a => Le.bind (Le.refl _) (fun n => ?_))
    split
    · exact Le.refl _
    · exact Le.bind (procPairs_mono h _ _ _ _ _) (fun _ => Le.refl _)
  case box t => exact h _ _ _
  case result t =>
    unfold processResult
    refine Le.bind (Le.refl _) (fun a => ?_)
    dsimp only
    split
    · split
      · exact Le.bind (h _ _ _) (fun a => Le.refl _)
      · split
        · exact Le.bind (h _ _ _) (fun a => Le.refl _)
        · exact Le.refl _
    · exact Le.refl _
  case wrapperOpaque t =>
    unfold processWrapper
    exact Le.bind (h _ _ _) (fun a => h _ _ _)
  case range t =>
    unfold processRange
    exact Le.bind (h _ _ _) (fun a => Le.bind (h _ _ _) (fun _ => Le.refl _))
  case fixedI128 =>
    unfold processFixedI128
    exact Le.bind (h _ _ _) (fun a => Le.refl _)
  case fixedArray n t =>
    unfold processFixedArray
    split
    · split
      · exact Le.refl _
      · exact Le.bind (procN_mono h _ _ _ _) (fun _ => Le.refl _)
    · exact Le.refl _

end

theorem pau_step (env : Env) (n : Nat) : RecLe (pau env n) (pau env (n + 1)) := by
  induction n with
  | zero => intro ctx ty st; exact Or.inl rfl
  | succ n ih =>
    intro ctx ty st
    rw [pau, pau]
    refine Le.bind (Le.refl _) (fun r => ?_)
    split
    · exact Le.refl _
    · exact process_mono ih _ _ _ _ _

theorem pau_mono (env : Env) {n m : Nat} (hnm : n ≤ m) : RecLe (pau env n) (pau env m) := by
  induction m with
  | zero => obtain rfl : n = 0 := by omega
            intro _ _ _; exact Le.refl _
  | succ m ih =>
    by_cases h : n = m + 1
    · subst h; intro _ _ _; exact Le.refl _
    · intro ctx ty st
      exact Le.trans (ih (by omega) ctx ty st) (pau_step env m ctx ty st)

/-! ## Encoding -/

section
variable {r r' : ERec} (h : ERecLe r r')
include h

theorem encList_mono (ctx : ECtx) (ty : Str) (f : Str → Str) (l : List Val) :
    Le (encList r ctx ty f l) (encList r' ctx ty f l) := by
  induction l with
  | nil => exact Le.refl _
  | cons v vs ih => simp only [encList]; exact Le.bind (h _ _ _) (fun _ => Le.bind ih (fun _ => Le.refl _))

theorem encFields_mono (ctx : ECtx) (m : List (Str × Val)) (fs : List (Str × Str)) :
    Le (encFields r ctx m fs) (encFields r' ctx m fs) := by
  induction fs with
  | nil => exact Le.refl _
  | cons f fs ih =>
    obtain ⟨n, t⟩ := f
    simp only [encFields]; exact Le.bind (h _ _ _) (fun _ => Le.bind ih (fun _ => Le.refl _))

theorem encRows_mono (ctx : ECtx) (m : List (Str × Val)) (rows : List (List Str)) :
    Le (encRows r ctx m rows) (encRows r' ctx m rows) := by
  induction rows with
  | nil => exact Le.refl _
  | cons row rows ih =>
    match row with
    | [] => exact Le.refl _
    | [_] => exact Le.refl _
    | n :: t :: _ => simp only [encRows]; exact Le.bind (h _ _ _) (fun _ => Le.bind ih (fun _ => Le.refl _))

theorem encArgs_mono (ctx : ECtx) (fs : List (Str × Str)) (vs : List Val) :
    Le (encArgs r ctx fs vs) (encArgs r' ctx fs vs) := by
  induction fs generalizing vs with
  | nil => exact Le.refl _
  | cons f fs ih =>
    obtain ⟨n, t⟩ := f
    cases vs with
    | nil => exact Le.refl _
    | cons v vs => simp only [encArgs]; exact Le.bind (h _ _ _) (fun _ => Le.bind (ih _) (fun _ => Le.refl _))

theorem encodeVec_mono (ctx : ECtx) (sub : Str) (v : Val) : Le (encodeVec r ctx sub v) (encodeVec r' ctx sub v) := by
  unfold encodeVec
  split
  · exact h _ _ _
  · split
    · exact Le.bind (h _ _ _) (fun _ => Le.bind (encList_mono h _ _ _ _) (fun _ => Le.refl _))
    · exact Le.refl _

theorem encodeEnum_mono (ext : Ext) (ctx : ECtx) (vs : List Str) (tm : Option (List (Str × Str))) (v : Val) :
    Le (encodeEnum ext r ctx vs tm v) (encodeEnum ext r' ctx vs tm v) := by
  unfold encodeEnum
  dsimp only
  split
  · exact Le.refl _
  · split
    · exact Le.refl _
    · split
      · split
        · split
          · exact Le.bind (Le.refl _) (fun _ => Le.bind (encRows_mono h _ _ _) (fun _ => Le.refl _))
          · exact Le.bind (h _ _ _) (fun _ => Le.refl _)
        · exact Le.refl _
      · exact Le.refl _
      · exact Le.refl _

theorem encodeCls_mono (ext : Ext) (ctx : ECtx) (cls : Cls) (sub : Str) (v : Val) :
    Le (encodeCls ext r ctx cls sub v) (encodeCls ext r' ctx cls sub v) := by
  have hB : Le (encodeBytes r v) (encodeBytes r' v) := by
    unfold encodeBytes
    exact Le.bind (Le.refl _) (fun _ => Le.bind (h _ _ _) (fun _ => Le.refl _))
  cases cls <;> simp only [encodeCls] <;> try with_reducible exact Le.refl _
  case option t =>
    unfold encodeOption
    split
    · exact Le.refl _
    · split
      · exact Le.refl _
      · split
        · exact Le.refl _
        · exact Le.bind (h _ _ _) (fun _ => Le.refl _)
  case struct tm =>
    unfold encodeStruct
    exact Le.bind (Le.refl _) (fun _ => encFields_mono h _ _ _)
  case enum vs tm => exact encodeEnum_mono h _ _ _ _ _
  case logDigest => exact encodeEnum_mono h _ _ _ _ _
  case bytes => exact hB
  case opaqueCall => exact hB
  case hexBytes =>
    unfold encodeHexBytes
    exact Le.bind (Le.refl _) (fun _ => Le.bind (h _ _ _) (fun _ => Le.refl _))
  case string =>
    unfold encodeString
    exact Le.bind (Le.refl _) (fun _ => Le.bind (h _ _ _) (fun _ => Le.refl _))
  case vec t => exact encodeVec_mono h _ _ _
  case boundedVec t => exact encodeVec_mono h _ _ _
  case authoritiesChange => exact encodeVec_mono h _ _ _
  case call =>
    unfold encodeCall
    split
    · exact Le.refl _
    · refine Le.bind (Le.refl _) (fun a => ?_)
      dsimp only
      split
      · exact Le.refl _
      · exact Le.bind (encArgs_mono h _ _ _) (fun _ => Le.refl _)
  case data =>
    unfold encodeData
    refine Le.bind (Le.refl _) (fun m => ?_)
    split
    · exact Le.refl _
    · split
      · split
        · exact h _ _ _
        · exact Le.bind (h _ _ _) (fun _ => Le.bind (Le.refl _) (fun _ => Le.bind (h _ _ _) (fun _ => Le.refl _)))
      · split
        · split
          · exact Le.refl _
          · exact Le.bind (h _ _ _) (fun _ => Le.refl _)
        · exact Le.refl _
  case bitVec =>
    unfold encodeBitVec
    exact Le.bind (Le.refl _) (fun _ => Le.bind (h _ _ _) (fun _ => Le.refl _))
  case result t =>
    unfold encodeResult
    refine Le.bind (Le.refl _) (fun m => ?_)
    split
    · split
      · exact Le.bind (h _ _ _) (fun _ => Le.refl _)
      · split
        · exact Le.bind (h _ _ _) (fun _ => Le.refl _)
        · exact Le.refl _
    · exact Le.refl _
  case fixedArray n t =>
    unfold encodeFixedArray
    split
    · exact Le.refl _
    · split
      · split
        · exact Le.refl _
        · exact encList_mono h _ _ _ _
      · exact Le.refl _

end

theorem enc_step (env : Env) (n : Nat) : ERecLe (enc env n) (enc env (n + 1)) := by
  induction n with
  | zero => intro ctx ty st; exact Or.inl rfl
  | succ n ih =>
    intro ctx ty v
    rw [enc, enc]
    split
    · exact Le.refl _
    · refine Le.bind (Le.refl _) (fun r => ?_)
      split
      · exact Le.refl _
      · exact Le.bind (encodeCls_mono ih _ _ _ _ _) (fun _ => Le.refl _)

theorem enc_mono (env : Env) {n m : Nat} (hnm : n ≤ m) : ERecLe (enc env n) (enc env m) := by
  induction m with
  | zero => obtain rfl : n = 0 := by omega
            intro _ _ _; exact Le.refl _
  | succ m ih =>
    by_cases h : n = m + 1
    · subst h; intro _ _ _; exact Le.refl _
    · intro ctx ty st
      exact Le.trans (ih (by omega) ctx ty st) (enc_step env m ctx ty st)

end ScaleGo
