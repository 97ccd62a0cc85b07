import Verif.Lemmas.BuiltinTrees
import Verif.Lemmas.LoadOrder
import Verif.Lemmas.KernelRfl
import Verif.Spec.Builtin

/-! # Fast lookup in the built-in tables -/

namespace ScaleGo

open Builtin

/-- Strictly increasing. -/
def chainLt : List Str → Bool
  | a :: b :: r => decide (a < b) && chainLt (b :: r)
  | _ => true

theorem chainLt_lt {a : Str} : ∀ {l : List Str}, chainLt (a :: l) = true → ∀ x ∈ l, a < x := by
  intro l
  induction l generalizing a with
  | nil => intro _ x hx; simp at hx
  | cons b l ih =>
    intro h x hx
    rw [chainLt, Bool.and_eq_true, decide_eq_true_eq] at h
    rcases List.mem_cons.mp hx with rfl | hx
    · exact h.1
    · exact List.lt_trans h.1 (ih h.2 x hx)

theorem chainLt_nodup : ∀ {l : List Str}, chainLt l = true → l.Nodup := by
  intro l
  induction l with
  | nil => intro _; exact List.nodup_nil
  | cons a l ih =>
    intro h
    refine List.nodup_cons.mpr ⟨fun hm => List.lt_irrefl a (chainLt_lt h a hm), ih ?_⟩
    cases l with
    | nil => rfl
    | cons b l =>
      rw [chainLt, Bool.and_eq_true] at h
      exact h.2

theorem types_increasing : chainLt (types.map Prod.fst) = true := by kernel_rfl

theorem types_nodup : (types.map Prod.fst).Nodup := chainLt_nodup types_increasing

/-- Codes found at their own positions are different. -/
def allAt (t : KeyTree) : Nat → List Nat → Bool
  | _, [] => true
  | i, c :: cs => (match t.get c with
      | some p => Nat.beq p i
      | none => false) && allAt t (i + 1) cs

theorem allAt_get {t : KeyTree} : ∀ {codes : List Nat} {i : Nat}, allAt t i codes = true → ∀ j c, codes[j]? = some c → t.get c = some (i + j) := by
  intro codes
  induction codes with
  | nil => intro i _ j c h; simp at h
  | cons a codes ih =>
    intro i h j c hc
    rw [allAt, Bool.and_eq_true] at h
    cases j with
    | zero =>
      simp only [List.getElem?_cons_zero, Option.some.injEq] at hc
      subst hc
      have h1 := h.1
      split at h1
      · rename_i p hp
        rw [hp, Nat.eq_of_beq_eq_true h1]
        rfl
      · cases h1
    | succ j =>
      rw [ih h.2 j c (by simpa using hc)]
      congr 1
      omega

theorem allAt_nodup {α : Type} {t : KeyTree} {l : List (Str × α)} (h : allAt t 0 (l.map fun p => keyCode p.1) = true) :
    (l.map Prod.fst).Nodup := by
  rw [List.nodup_iff_injective_get]
  intro a b hab
  have key : ∀ j : Fin (l.map Prod.fst).length, t.get (keyCode ((l.map Prod.fst).get j)) = some (0 + j.1) := by
    intro j
    refine allAt_get h j.1 _ ?_
    have hj : j.1 < l.length := by simpa using j.2
    simp [hj]
  have h1 := key a
  rw [hab, key b] at h1
  simp only [Nat.zero_add, Option.some.injEq] at h1
  exact Fin.ext h1.symm

theorem allAt_found {t : KeyTree} {codes : List Nat} (h : allAt t 0 codes = true) : allFound t codes = true := by
  refine List.all_eq_true.mpr fun c hc => ?_
  obtain ⟨j, hj⟩ := List.getElem?_of_mem hc
  rw [allAt_get h j c hj]
  rfl

theorem typeIndex_ok : (Nat.ble typeIndex.size types.length && allAt typeIndex 0 (types.map fun p => keyCode p.1)) = true := by
  kernel_rfl
theorem classIndex_ok : (Nat.ble classIndex.size classes.length && allAt classIndex 0 (classes.map fun p => keyCode p.1)) = true := by
  kernel_rfl
theorem baseIndex_ok : (Nat.ble baseIndex.size baseReg.length && allAt baseIndex 0 (baseReg.map fun p => keyCode p.1)) = true := by
  kernel_rfl

theorem indexed {α : Type} {t : KeyTree} {l : List (Str × α)}
    (h : (Nat.ble t.size l.length && allAt t 0 (l.map fun p => keyCode p.1)) = true) :
    tableGet l = fastGet t l := by
  rw [Bool.and_eq_true] at h
  funext k
  refine (fastGet_eq (fun c p => KeyTree.get_fits (by simpa using Nat.le_of_ble_eq_true h.1) fun j c hc => ?_) (allAt_found h.2)
    (allAt_nodup h.2) k).symm
  rw [allAt_get h.2 j c hc, Nat.zero_add]

/-- Registry value of every name once everything is loaded. -/
def loadedReg : Str → Option Cls := tableGet (classes ++ baseReg)

/-- The registry after `regBaseType`, with `source.BaseType`. -/
def loadedEnv (ext : Ext) : Env := ⟨loadedReg, fun _ => [], ext⟩

/-- `loadedReg` by search trees. -/
def fastReg (k : Str) : Option Cls := match fastGet classIndex classes k with
  | some c => some c
  | none => fastGet baseIndex baseReg k

theorem tableGet_append {α : Type} (a b : List (Str × α)) (k : Str) :
    tableGet (a ++ b) k = match tableGet a k with
      | some v => some v
      | none => tableGet b k := by
  induction a with
  | nil => rfl
  | cons p a ih =>
    obtain ⟨k', v⟩ := p
    rw [List.cons_append, tableGet, tableGet]
    split
    · rfl
    · exact ih

theorem loadedReg_fast : loadedReg = fastReg := by
  funext k
  rw [loadedReg, tableGet_append, indexed classIndex_ok, indexed baseIndex_ok, fastReg]
  generalize fastGet classIndex classes k = o
  cases o <;> rfl

end ScaleGo
