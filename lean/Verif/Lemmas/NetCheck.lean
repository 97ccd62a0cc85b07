import Verif.Lemmas.NetOrder
import Verif.Lemmas.BuiltinIndex
import Verif.Model.LoadJson

/-! # Checking the files in `network/` -/

namespace ScaleGo

namespace Network

/-- What the code reads from an entry. -/
def Entry.defn : Entry → TypeDef
  | .al t => { kind := b!"string", typeString := t }
  | .st rows => { kind := b!"struct", mapping := rows.map fun r => [r.1, r.2] }
  | .en rows => { kind := b!"enum", mapping := rows.map fun r => [r.1, r.2] }
  | .ev names => { kind := b!"enum", values := names }
  | .num rows => { kind := b!"enum", mapping := rows.map fun r => [r.1, []] }
  | .set names bits => { kind := b!"set", mapping := names.map fun _ => [], bits := bits }

theorem rows_pairs (rows : List (Str × Str)) :
    LoadJson.rows (.list (rows.map fun r => .list [.text r.1, .text r.2])) = rows.map fun r => [r.1, r.2] := by
  simp [LoadJson.rows, LoadJson.strs, LoadJson.str]

theorem rows_nums (rows : List (Str × Int)) :
    LoadJson.rows (.list (rows.map fun r => .list [.text r.1, .num r.2])) = rows.map fun r => [r.1, []] := by
  simp [LoadJson.rows, LoadJson.strs, LoadJson.str]

theorem rows_texts (names : List Str) : LoadJson.rows (.list (names.map .text)) = names.map fun _ => [] := by
  rw [LoadJson.rows, List.map_map]
  rfl

theorem strs_texts (names : List Str) : LoadJson.strs (.list (names.map .text)) = names := by
  simp [LoadJson.strs, LoadJson.str, Function.comp_def]

theorem readDef_json (e : Entry) : LoadJson.readDef e.json = e.defn := by
  cases e with
  | al t => rfl
  | st rows => rw [Entry.defn, ← rows_pairs]; rfl
  | en rows => rw [Entry.defn, ← rows_pairs]; rfl
  | ev names => rw [Entry.defn]; conv => rhs; rw [← strs_texts names]
                rfl
  | num rows => rw [Entry.defn, ← rows_nums]; rfl
  | set names bits => rw [Entry.defn, ← rows_texts]; rfl

/-- The file without one definition. -/
def without (k : Str) (l : List (Str × Entry)) : List (Str × Entry) := l.filter fun p => p.1 != k

/-- The map that the code builds for a file. -/
def table (l : List (Str × Entry)) : List (Str × TypeDef) := l.map fun p => (p.1, p.2.defn)

theorem readAll_file (l : List (Str × Entry)) : LoadJson.readAll (file l) = table l := by
  simp [LoadJson.readAll, file, table, readDef_json]

/-- The classes after loading: those of the file, then the built-in ones. -/
def classOf (C : List (Str × Cls)) (k : Str) : Option Cls := match tableGet C k with
  | some c => some c
  | none => fastReg k

/-- No two of the texts are equal. -/
def distinct : List Str → Bool
  | [] => true
  | a :: l => l.all (fun b => b != a) && distinct l

theorem distinct_nodup : ∀ {l : List Str}, distinct l = true → l.Nodup
  | [], _ => .nil
  | a :: l, h => by
    rw [distinct, Bool.and_eq_true] at h
    refine List.nodup_cons.mpr ⟨fun ha => ?_, distinct_nodup h.2⟩
    have := List.all_eq_true.mp h.1 a ha
    simp at this

/-- All that has to be checked for one file. -/
def check (l : List (Str × Entry)) (C : List (Str × Cls)) : Bool :=
  okKeyTable fastReg (classOf C) (tableGet (table l)) 6 (table l)
    && apartAll (((table l).map fun p => toLower p.1).filter versioned)
    && distinct (l.map Prod.fst)

/-- The check of `count` definitions, from number `start` on. -/
def checkPart (l : List (Str × Entry)) (C : List (Str × Cls)) (start count : Nat) : Bool :=
  okKeyTable fastReg (classOf C) (tableGet (table l)) 6 ((table (l.drop start)).take count)

/-- The check of the keys. -/
def checkKeys (l : List (Str × Entry)) : Bool :=
  apartAll (((table l).map fun p => toLower p.1).filter versioned) && distinct (l.map Prod.fst)

theorem okKeyTable_append {B E : Str → Option Cls} {get : Str → Option TypeDef} {fuel : Nat} {T U : List (Str × TypeDef)}
    (h1 : okKeyTable B E get fuel T = true) (h2 : okKeyTable B E get fuel U = true) : okKeyTable B E get fuel (T ++ U) = true := by
  unfold okKeyTable at *
  rw [List.all_append, h1, h2]
  rfl

/-- A large file is checked 40 definitions at a time. -/
theorem check_of_parts {l : List (Str × Entry)} {C : List (Str × Cls)} (n : Nat) (hn : l.length ≤ 40 * n)
    (h : ∀ i < n, checkPart l C (40 * i) 40 = true) (hk : checkKeys l = true) : check l C = true := by
  have key : ∀ k ≤ n, okKeyTable fastReg (classOf C) (tableGet (table l)) 6 ((table l).take (40 * k)) = true := by
    intro k
    induction k with
    | zero => intro _; simp [okKeyTable]
    | succ k ih =>
      intro hk
      have e : (table l).take (40 * (k + 1)) = (table l).take (40 * k) ++ (table (l.drop (40 * k))).take 40 := by
        rw [Nat.mul_succ, List.take_add]
        simp [table]
      rw [e]
      exact okKeyTable_append (ih (by omega)) (h k (by omega))
  have := key n (Nat.le_refl n)
  rw [List.take_of_length_le (by simpa [table] using hn)] at this
  unfold check
  unfold checkKeys at hk
  rw [this, Bool.true_and]
  exact hk

end Network

end ScaleGo
