import Batteries.Data.List.Perm
import Mathlib.Data.List.Nodup
import Mathlib.Data.List.Enum
import Verif.Model.Registry

/-! # Search trees over table keys

Only for evaluation in the kernel: looking a name up in a table of hundreds of entries by `tableGet` takes as many string
comparisons.  A key is turned into a number, a search tree over those numbers gives the position in the table. -/

namespace ScaleGo

/-- The bytes of a string as digits in base 256, after a leading one. -/
def keyCode (s : Str) : Nat := s.foldl (fun a b => a * 256 + b.toNat) 1

theorem keyCode_aux (s : Str) : ∀ a, s.foldl (fun a b => a * 256 + b.toNat) a = a * 256 ^ s.length + s.foldl (fun a b => a * 256 + b.toNat) 0 := by
  induction s with
  | nil => intro a; simp
  | cons b s ih =>
    intro a
    rw [List.foldl_cons, ih, List.foldl_cons, ih (0 * 256 + b.toNat), List.length_cons, Nat.pow_succ, Nat.add_mul]
    simp only [Nat.zero_mul, Nat.zero_add, Nat.mul_assoc, Nat.mul_comm 256, Nat.add_assoc]

theorem keyCode_pos (s : Str) : 0 < keyCode s := by
  unfold keyCode
  rw [keyCode_aux]
  have : 0 < 256 ^ s.length := Nat.pow_pos (by decide)
  omega

theorem keyCode_snoc (s : Str) (b : UInt8) : keyCode (s ++ [b]) = keyCode s * 256 + b.toNat := by
  simp [keyCode, List.foldl_append]

theorem keyCode_inj : ∀ (n : Nat) (a b : Str), a.length = n → keyCode a = keyCode b → a = b := by
  intro n
  induction n with
  | zero =>
    intro a b ha h
    have : a = [] := List.length_eq_zero_iff.mp ha
    subst this
    rcases List.eq_nil_or_concat b with rfl | ⟨s, x, rfl⟩
    · rfl
    · rw [List.concat_eq_append, keyCode_snoc] at h
      have := keyCode_pos s
      simp only [keyCode, List.foldl_nil] at h this
      omega
  | succ n ih =>
    intro a b ha h
    rcases List.eq_nil_or_concat a with rfl | ⟨s, x, rfl⟩
    · simp at ha
    rw [List.concat_eq_append] at *
    rw [keyCode_snoc] at h
    rcases List.eq_nil_or_concat b with rfl | ⟨t, y, rfl⟩
    · have := keyCode_pos s
      simp only [keyCode, List.foldl_nil] at h this
      omega
    · rw [List.concat_eq_append, keyCode_snoc] at *
      have hx := x.toNat_lt
      have hy := y.toNat_lt
      have e1 : keyCode s = keyCode t := by omega
      have e2 : x.toNat = y.toNat := by omega
      rw [ih s t (by simpa using ha) e1, UInt8.toNat_inj.mp e2]

/-- A search tree: key code and position. -/
inductive KeyTree where
  | leaf
  | node (l : KeyTree) (code pos : Nat) (r : KeyTree)

namespace KeyTree

/-- Search. -/
def get : KeyTree → Nat → Option Nat
  | leaf, _ => none
  | node l c p r, n => match Nat.beq n c with
    | true => some p
    | false => match Nat.blt n c with
      | true => get l n
      | false => get r n

/-- Number of nodes. -/
def size : KeyTree → Nat
  | leaf => 0
  | node l _ _ r => size l + size r + 1

/-- The nodes. -/
def nodes : KeyTree → List (Nat × Nat)
  | leaf => []
  | node l c p r => (c, p) :: (nodes l ++ nodes r)

theorem nodes_length (t : KeyTree) : t.nodes.length = t.size := by
  induction t with
  | leaf => rfl
  | node l c p r ihl ihr => simp only [nodes, size, List.length_cons, List.length_append, ihl, ihr]

theorem get_nodes {t : KeyTree} {n p : Nat} (hg : t.get n = some p) : (n, p) ∈ t.nodes := by
  induction t with
  | leaf => cases hg
  | node l c q r ihl ihr =>
    rw [get] at hg
    cases hb : Nat.beq n c with
    | true =>
      rw [hb] at hg
      cases hg
      rw [Nat.eq_of_beq_eq_true hb]
      exact List.mem_cons_self
    | false =>
      rw [hb] at hg
      dsimp only at hg
      cases hl : Nat.blt n c with
      | true => rw [hl] at hg; exact List.mem_cons_of_mem _ (List.mem_append_left _ (ihl hg))
      | false => rw [hl] at hg; exact List.mem_cons_of_mem _ (List.mem_append_right _ (ihr hg))

/-- A tree that has each code at its position and no further nodes holds nothing else. -/
theorem get_fits {codes : List Nat} {t : KeyTree} (hs : t.size ≤ codes.length)
    (ha : ∀ j c, codes[j]? = some c → t.get c = some j) {n p : Nat} (hg : t.get n = some p) : codes[p]? = some n := by
  have hsub : codes.zipIdx ⊆ t.nodes := by
    rintro ⟨c, j⟩ h
    exact get_nodes (ha j c (List.mem_zipIdx_iff_getElem?.mp h))
  have hnd : codes.zipIdx.Nodup := by
    refine List.Nodup.of_map Prod.snd ?_
    rw [List.zipIdx_map_snd]
    exact List.nodup_range'
  have hperm := (List.subperm_of_subset hnd hsub).perm_of_length_le (by
    rw [nodes_length, List.length_zipIdx]
    exact hs)
  exact List.mem_zipIdx_iff_getElem?.mp (hperm.mem_iff.mpr (get_nodes hg))

end KeyTree

/-- Every code of the list is found. -/
def allFound (t : KeyTree) (codes : List Nat) : Bool := codes.all fun c => (t.get c).isSome

/-- Lookup through the tree. -/
def fastGet {α : Type} (t : KeyTree) (l : List (Str × α)) (k : Str) : Option α :=
  match t.get (keyCode k) with
  | none => none
  | some p => match l[p]? with
    | some q => some q.2
    | none => none

theorem fastGet_eq {α : Type} {t : KeyTree} {l : List (Str × α)} 
    (hf : ∀ c p, t.get c = some p → (l.map fun p => keyCode p.1)[p]? = some c)
    (ha : allFound t (l.map fun p => keyCode p.1) = true) (hn : (l.map Prod.fst).Nodup) (k : Str) : fastGet t l k = tableGet l k := by
  have hmem : ∀ {l : List (Str × α)} {k : Str} {v : α}, (l.map Prod.fst).Nodup → (k, v) ∈ l → tableGet l k = some v := by
    intro l k v hn h
    induction l with
    | nil => simp at h
    | cons p l ih =>
      obtain ⟨k', v'⟩ := p
      simp only [List.map_cons, List.nodup_cons] at hn
      rcases List.mem_cons.mp h with e | h
      · cases e
        rw [tableGet, if_pos rfl]
      · rw [tableGet, if_neg, ih hn.2 h]
        rintro rfl
        exact hn.1 (List.mem_map.mpr ⟨_, h, rfl⟩)
  unfold fastGet
  cases hg : t.get (keyCode k) with
  | none =>
    cases hk : tableGet l k with
    | none => rfl
    | some v =>
      have : (k, v) ∈ l := by
        clear hf ha hn
        induction l with
        | nil => cases hk
        | cons p a ih =>
          obtain ⟨k', v'⟩ := p
          rw [tableGet] at hk
          split at hk
          · rename_i e; cases hk; subst e; simp
          · exact List.mem_cons_of_mem _ (ih hk)
      have := List.all_eq_true.mp ha (keyCode k) (List.mem_map.mpr ⟨_, this, rfl⟩)
      rw [hg] at this
      cases this
  | some p =>
    have := hf _ _ hg
    rw [List.getElem?_map] at this
    dsimp only
    cases hq : l[p]? with
    | none => rw [hq] at this; cases this
    | some q =>
      rw [hq] at this
      have e : q.1 = k := keyCode_inj _ _ _ rfl (by simpa using this)
      subst e
      dsimp only
      exact (hmem hn (List.mem_of_getElem? hq)).symm

end ScaleGo
