import Verif.Lemmas.Mono
import Verif.Model.ScaleInfo

/-! # A larger recursion budget does not change how portable types are entered -/

namespace ScaleGo

/-- Pointwise `Le`. -/
def SiRecLe (r r' : SiRec) : Prop := ∀ b i st, Le (r b i st) (r' b i st)

section
variable {r r' : SiRec} (h : SiRecLe r r')
include h

theorem subTypeOf_mono (i : Nat) (st : SiState) : Le (subTypeOf r i st) (subTypeOf r' i st) := by
  unfold subTypeOf
  split
  · exact Le.refl _
  · exact h _ _ _

theorem subTypesOf_mono : ∀ (l : List Nat) (st : SiState), Le (subTypesOf r l st) (subTypesOf r' l st)
  | [], _ => Le.refl _
  | i :: l, st => by
    simp only [subTypesOf]
    exact Le.bind (subTypeOf_mono h _ _) fun a => Le.bind (subTypesOf_mono l _) fun _ => Le.refl _

theorem registerParam_mono (cfg : SiCfg) (key name : Str) (t : SiType) (st : SiState) :
    Le (registerParam cfg r key name t st) (registerParam cfg r' key name t st) := by
  unfold registerParam
  split
  · exact Le.refl _
  · exact Le.bind (h _ _ _) fun _ => Le.refl _

theorem expandExtrinsicParams_mono (cfg : SiCfg) (t : SiType) (st : SiState) :
    Le (expandExtrinsicParams cfg r t st) (expandExtrinsicParams cfg r' t st) := by
  unfold expandExtrinsicParams
  split
  · exact Le.bind (registerParam_mono h _ _ _ _ _) fun _ => registerParam_mono h _ _ _ _ _
  · exact Le.refl _

theorem newtypeSub_mono (id : Nat) (f : SiField) (st : SiState) : Le (newtypeSub r id f st) (newtypeSub r' id f st) := by
  unfold newtypeSub
  split
  · exact Le.refl _
  · split
    · exact Le.refl _
    · exact h _ _ _

theorem expandNewtype_mono (cfg : SiCfg) (id : Nat) (t : SiType) (f : SiField) (st : SiState) :
    Le (expandNewtype cfg r id t f st) (expandNewtype cfg r' id t f st) := by
  unfold expandNewtype
  split
  · exact Le.refl _
  · exact Le.bind (newtypeSub_mono h _ _ _) fun _ => Le.refl _

theorem expandStruct_mono (cfg : SiCfg) (id : Nat) (t : SiType) (fs : List SiField) (st : SiState) :
    Le (expandStruct cfg r id t fs st) (expandStruct cfg r' id t fs st) := by
  unfold expandStruct
  exact Le.bind (subTypesOf_mono h _ _) fun _ => Le.refl _

theorem expandComposite_mono (cfg : SiCfg) (id : Nat) (t : SiType) (fs : List SiField) (st : SiState) :
    Le (expandComposite cfg r id t fs st) (expandComposite cfg r' id t fs st) := by
  unfold expandComposite
  refine Le.bind (expandExtrinsicParams_mono h _ _ _) fun st => ?_
  split
  · split
    · exact Le.refl _
    · exact Le.bind (h _ _ _) fun _ => Le.refl _
  · split
    · exact expandNewtype_mono h _ _ _ _ _
    · exact expandStruct_mono h _ _ _ _ _

theorem expandArray_mono (id len type : Nat) (st : SiState) : Le (expandArray r id len type st) (expandArray r' id len type st) := by
  unfold expandArray
  split
  · exact Le.refl _
  · exact Le.bind (subTypeOf_mono h _ _) fun _ => Le.refl _

theorem expandGeneric_mono (w : Str) (id type : Nat) (st : SiState) : Le (expandGeneric r w id type st) (expandGeneric r' w id type st) := by
  unfold expandGeneric
  exact Le.bind (subTypeOf_mono h _ _) fun _ => Le.refl _

theorem expandTuple_mono (cfg : SiCfg) (id : Nat) (ts : List Nat) (st : SiState) :
    Le (expandTuple cfg r id ts st) (expandTuple cfg r' id ts st) := by
  unfold expandTuple
  split
  · exact Le.refl _
  · exact Le.bind (subTypesOf_mono h _ _) fun _ => Le.refl _

theorem variantType_mono (v : SiVariant) (st : SiState) : Le (variantType r v st) (variantType r' v st) := by
  unfold variantType
  split
  · exact Le.refl _
  · exact subTypeOf_mono h _ _
  · exact Le.bind (subTypesOf_mono h _ _) fun _ => Le.refl _

theorem enumRows_mono : ∀ (vs : List SiVariant) (prev : Option Nat) (st : SiState), Le (enumRows r prev vs st) (enumRows r' prev vs st)
  | [], _, _ => Le.refl _
  | v :: vs, prev, st => by
    simp only [enumRows]
    exact Le.bind (variantType_mono h _ _) fun a => Le.bind (enumRows_mono vs _ _) fun _ => Le.refl _

theorem expandEnum_mono (cfg : SiCfg) (id : Nat) (t : SiType) (vs : List SiVariant) (st : SiState) :
    Le (expandEnum cfg r id t vs st) (expandEnum cfg r' id t vs st) := by
  unfold expandEnum
  exact Le.bind (enumRows_mono h _ _ _) fun _ => Le.refl _

theorem dealVariant_mono (cfg : SiCfg) (id : Nat) (t : SiType) (vs : List SiVariant) (st : SiState) :
    Le (dealVariant cfg r id t vs st) (dealVariant cfg r' id t vs st) := by
  unfold dealVariant
  split
  · exact Le.refl _
  · split
    · unfold expandOption
      split
      · exact Le.refl _
      · exact expandGeneric_mono h _ _ _ _
    · split
      · unfold expandResult
        split
        · exact Le.bind (subTypeOf_mono h _ _) fun _ => Le.bind (subTypeOf_mono h _ _) fun _ => Le.refl _
        · exact Le.refl _
      · repeat' split
        · exact Le.refl _
        · exact Le.refl _
        · exact Le.refl _
        · exact expandEnum_mono h _ _ _ _ _

theorem dealDef_mono (cfg : SiCfg) (id : Nat) (t : SiType) (st : SiState) : Le (dealDef cfg r id t st) (dealDef cfg r' id t st) := by
  unfold dealDef
  split
  · exact expandComposite_mono h _ _ _ _ _
  · exact expandArray_mono h _ _ _ _
  · exact expandGeneric_mono h _ _ _ _
  · exact expandTuple_mono h _ _ _ _
  · exact expandGeneric_mono h _ _ _ _
  · exact Le.refl _
  · exact Le.refl _
  · exact dealVariant_mono h _ _ _ _ _
  · exact Le.refl _
  · exact Le.refl _

end

theorem deal_step (cfg : SiCfg) : ∀ n : Nat, SiRecLe (dealOneSiType cfg n) (dealOneSiType cfg (n + 1))
  | 0 => fun _ _ _ => .inl rfl
  | n + 1 => by
    intro b i st
    have ih := deal_step cfg n
    rw [dealOneSiType, dealOneSiType]
    split
    · exact Le.refl _
    · split
      · refine Le.bind (Le.refl _) fun name => ?_
        split
        · exact Le.refl _
        · exact dealDef_mono ih _ _ _ _
      · exact dealDef_mono ih _ _ _ _

theorem deal_mono (cfg : SiCfg) {n m : Nat} (h : n ≤ m) : SiRecLe (dealOneSiType cfg n) (dealOneSiType cfg m) := by
  induction h with
  | refl => exact fun _ _ _ => Le.refl _
  | step _ ih => exact fun b i st => (ih b i st).trans (deal_step cfg _ b i st)

theorem siLoop_mono {f g : Nat → SiState → Res SiState} (h : ∀ i st, Le (f i st) (g i st)) :
    ∀ (n i : Nat) (st : SiState), Le (siLoop f i n st) (siLoop g i n st)
  | 0, _, _ => Le.refl _
  | n + 1, i, st => by
    simp only [siLoop]
    exact Le.bind (h _ _) fun _ => siLoop_mono h n _ _

/-- With a larger recursion budget the result of `ProcessSiType` stays. -/
theorem processSiType_mono (cfg : SiCfg) (reg : RegState) {n m : Nat} (h : n ≤ m) : Le (processSiType cfg n reg) (processSiType cfg m reg) := by
  unfold processSiType
  refine Le.bind (Le.refl _) fun dup => ?_
  unfold registerTypes
  refine Le.bind (Le.refl _) fun _ => Le.bind (Le.refl _) fun _ => ?_
  refine Le.bind (siLoop_mono (fun i st => ?_) _ _ _) fun _ => siLoop_mono (fun i st => ?_) _ _ _
  · unfold passSpCore
    split
    · exact Le.bind (deal_mono _ h _ _ _) fun _ => Le.refl _
    · exact Le.refl _
  · unfold passRest
    split
    · exact Le.refl _
    · exact Le.bind (deal_mono _ h _ _ _) fun _ => Le.refl _

end ScaleGo
