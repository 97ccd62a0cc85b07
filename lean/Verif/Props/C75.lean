import Verif.Lemmas.BuiltinIndex

/-!
# C75: the built-in types do not depend on map iteration order

`LoadTypeRegistry` and `RegCustomTypes` walk over Go maps, whose order changes from run to run: an alias may be met before or
after the name it stands for.  For the definitions of `source/base.go` every pair of orders gives the same registry, the one
written down in `Verif/Spec/Builtin.lean`.
-/

namespace ScaleGo

open Builtin (types classes)

/-- `regBaseType` (types/registry.go:54-191) for one choice of iteration orders: `order` for the "inherit" loop of
`LoadTypeRegistry`, `l` for the loop of `RegCustomTypes`. -/
def LoadsInOrder (ext : Ext) (order : List Str) (l : List (Str × TypeDef)) (st : RegState) : Prop :=
  order.Perm (types.map Prod.fst) ∧ l.Perm (inheritLoop order types) ∧
    ∃ fuel, regCustomTypes fuel ⟨baseEnv ext, fun _ => none⟩ l = .ok st

/-- `okTable` for a part of the table. -/
def okPart (part : List (Str × TypeDef)) : Bool :=
  part.all fun p => (toLower p.1).all (· != 35) &&
    match postList (fastGet Builtin.typeIndex types) 6 p.2 with
    | none => false
    | some l => l.all (okEntry (fastGet Builtin.baseIndex baseReg) fastReg (fastGet Builtin.typeIndex types) 6 (toLower p.1))

theorem okPart0 : okPart Builtin.part0 = true := by kernel_rfl
theorem okPart1 : okPart Builtin.part1 = true := by kernel_rfl
theorem okPart2 : okPart Builtin.part2 = true := by kernel_rfl
theorem okPart3 : okPart Builtin.part3 = true := by kernel_rfl
theorem okPart4 : okPart Builtin.part4 = true := by kernel_rfl
theorem okPart5 : okPart Builtin.part5 = true := by kernel_rfl
theorem okPart6 : okPart Builtin.part6 = true := by kernel_rfl
theorem okPart7 : okPart Builtin.part7 = true := by kernel_rfl
theorem okPart8 : okPart Builtin.part8 = true := by kernel_rfl
theorem okPart9 : okPart Builtin.part9 = true := by kernel_rfl
theorem okPart10 : okPart Builtin.part10 = true := by kernel_rfl
theorem okPart11 : okPart Builtin.part11 = true := by kernel_rfl
theorem okPart12 : okPart Builtin.part12 = true := by kernel_rfl
theorem okPart13 : okPart Builtin.part13 = true := by kernel_rfl
theorem okPart14 : okPart Builtin.part14 = true := by kernel_rfl
theorem okPart15 : okPart Builtin.part15 = true := by kernel_rfl

theorem builtin_ok : okTable (tableGet baseReg) loadedReg (tableGet types) 6 types = true := by
  rw [loadedReg_fast, indexed baseIndex_ok, indexed typeIndex_ok]
  show okPart types = true
  have happ : ∀ a b, okPart a = true → okPart b = true → okPart (a ++ b) = true := by
    intro a b ha hb
    unfold okPart at *
    rw [List.all_append, ha, hb]
    rfl
  unfold types
  exact (happ _ _ (happ _ _ (happ _ _ (happ _ _ (happ _ _ (happ _ _ (happ _ _ (happ _ _ (happ _ _ (happ _ _ (happ _ _ (happ _ _ (happ _ _ (happ _ _ (happ _ _ okPart0 okPart1) okPart2) okPart3) okPart4) okPart5) okPart6) okPart7) okPart8) okPart9) okPart10) okPart11) okPart12) okPart13) okPart14) okPart15)

theorem classes_keys : (classes.map Prod.fst).isSublist (types.map fun p => toLower p.1) = true := by kernel_rfl

/-- Loading gives the same registry whatever the iteration orders are; in particular it never panics. -/
theorem C75_any_order (ext : Ext) (order : List Str) (ho : order.Perm (types.map Prod.fst)) (l : List (Str × TypeDef))
    (hl : l.Perm (inheritLoop order types)) (fuel : Nat) :
    regCustomTypes fuel ⟨baseEnv ext, fun _ => none⟩ l = .ok ⟨loadedEnv ext, fun _ => none⟩ := by
  rw [load_any_order types_nodup builtin_ok order ho l hl _ rfl fuel]
  unfold afterAll loadedEnv baseEnv
  dsimp only
  congr 3
  funext n
  split
  · rfl
  · rename_i hn
    have : tableGet classes n = none := by
      cases h : tableGet classes n with
      | none => rfl
      | some c =>
        refine absurd ?_ hn
        exact (List.isSublist_iff_sublist.mp classes_keys).subset (List.mem_map.mpr ⟨_, mem_of_tableGet h, rfl⟩)
    rw [loadedReg, tableGet_append, this]

/-- Two runs of the loader end with the same tables. -/
theorem C75_deterministic (ext : Ext) (o o' : List Str) (l l' : List (Str × TypeDef)) (st st' : RegState)
    (h : LoadsInOrder ext o l st) (h' : LoadsInOrder ext o' l' st') : st = st' := by
  obtain ⟨ho, hl, fuel, h⟩ := h
  obtain ⟨ho', hl', fuel', h'⟩ := h'
  rw [C75_any_order ext o ho l hl fuel] at h
  rw [C75_any_order ext o' ho' l' hl' fuel'] at h'
  cases h
  cases h'
  rfl

/-- Names outside the built-in definitions keep the class they had before. -/
theorem C75_others (ext : Ext) (order : List Str) (l : List (Str × TypeDef)) (st : RegState) (h : LoadsInOrder ext order l st)
    (n : Str) (hn : n ∉ types.map fun p => toLower p.1) : st.env.reg n = (baseEnv ext).reg n := by
  obtain ⟨ho, hl, fuel, h⟩ := h
  rw [load_any_order types_nodup builtin_ok order ho l hl _ rfl fuel] at h
  cases h
  simp only [afterAll]
  rw [if_neg hn]

/-- A run that walks backwards in both loops. -/
example : ∃ st, LoadsInOrder dummyExt (types.map Prod.fst).reverse
    (inheritLoop (types.map Prod.fst).reverse types).reverse st :=
  ⟨_, List.reverse_perm _, List.reverse_perm _, 0,
    C75_any_order dummyExt _ (List.reverse_perm _) _ (List.reverse_perm _) 0⟩

/-- An alias chain of three steps ends at the class of `Hash`, and a name of the table that was a base class is replaced. -/
example : loadedReg b!"messagequeuechain" = some (.hash 32) := by kernel_rfl
example : (match loadedReg b!"ecdsasignature" with
  | some c => c == .fixedU8 65
  | none => false) = true := by kernel_rfl

end ScaleGo
