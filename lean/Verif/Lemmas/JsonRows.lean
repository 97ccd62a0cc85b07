import Verif.Model.ScaleInfo
import Verif.Lemmas.Hex

/-! # Reading back written rows

`Ext.rows` stands for `json.Unmarshal` into `[][]string`.  Theorems about enums with several fields assume that it reads back
what `utiles.ToString` writes.  A small parser shows that the assumption can be met. -/

namespace ScaleGo

/-- Rows of ASCII texts are read back as written. -/
def Spec.ReadsRows (ext : Ext) : Prop :=
  ∀ l : List (List Str), (∀ r ∈ l, ∀ s ∈ r, ∀ c ∈ s, c.toNat < 128) → ext.rows (jsonRows l) = some l

/-- Value of a lower-case hexadecimal digit. -/
def hexVal (b : UInt8) : Nat := if b.toNat < 58 then b.toNat - 48 else b.toNat - 87

/-- The rest of a JSON string and what follows it. -/
def readStr : Str → Option (Str × Str)
  | 92 :: 117 :: _ :: _ :: a :: b :: r => (readStr r).map fun p => (UInt8.ofNat (hexVal a * 16 + hexVal b) :: p.1, p.2)
  | 92 :: 110 :: r => (readStr r).map fun p => (10 :: p.1, p.2)
  | 92 :: 114 :: r => (readStr r).map fun p => (13 :: p.1, p.2)
  | 92 :: 116 :: r => (readStr r).map fun p => (9 :: p.1, p.2)
  | 92 :: c :: r => (readStr r).map fun p => (c :: p.1, p.2)
  | 34 :: r => some ([], r)
  | c :: r => (readStr r).map fun p => (c :: p.1, p.2)
  | [] => none

/-- A JSON string and what follows it. -/
def readQuoted : Str → Option (Str × Str)
  | 34 :: r => readStr r
  | _ => none

/-- The rest of a JSON array with at least one further element. -/
def readMore {α : Type} (elem : Str → Option (α × Str)) : Nat → Str → Option (List α × Str)
  | 0, _ => none
  | n + 1, s =>
    match elem s with
    | none => none
    | some (a, 93 :: r) => some ([a], r)
    | some (a, 44 :: r) => (readMore elem n r).map fun p => (a :: p.1, p.2)
    | some _ => none

/-- A JSON array and what follows it. -/
def readArr {α : Type} (elem : Str → Option (α × Str)) : Str → Option (List α × Str)
  | 91 :: 93 :: r => some ([], r)
  | 91 :: r => readMore elem (r.length + 1) r
  | _ => none

/-- A JSON array of arrays of strings. -/
def readRows (s : Str) : Option (List (List Str)) :=
  match readArr (readArr readQuoted) s with
  | some (l, []) => some l
  | _ => none

theorem hexVal_pair (c : UInt8) :
    UInt8.ofNat (hexVal (hexDigit (c.toNat / 16)) * 16 + hexVal (hexDigit (c.toNat % 16))) = c :=
  forall_byte (P := fun c => UInt8.ofNat (hexVal (hexDigit (c.toNat / 16)) * 16 + hexVal (hexDigit (c.toNat % 16))) = c)
    (by decide +kernel) c

theorem readStr_other {c : UInt8} (r : Str) (h1 : c ≠ 34) (h2 : c ≠ 92) : readStr (c :: r) = (readStr r).map fun p => (c :: p.1, p.2) := by
  rw [readStr.eq_def]
  split <;> simp_all

theorem readStr_byte (c : UInt8) (r : Str) : readStr (jsonByte c ++ r) = (readStr r).map fun p => (c :: p.1, p.2) := by
  unfold jsonByte
  split
  · next h => subst h; simp [readStr]
  · next h1 =>
    split
    · next h => subst h; simp [readStr]
    · next h2 =>
      split
      · next h => subst h; simp [readStr]
      · split
        · next h => subst h; simp [readStr]
        · split
          · next h => subst h; simp [readStr]
          · split
            · simp only [List.cons_append, List.nil_append, readStr, hexVal_pair]
            · exact readStr_other r h1 h2

theorem readStr_flatten : ∀ (s r : Str), readStr ((s.map jsonByte).flatten ++ 34 :: r) = some (s, r)
  | [], r => by simp [readStr]
  | c :: s, r => by
    rw [List.map_cons, List.flatten_cons, List.append_assoc, readStr_byte, readStr_flatten s r]
    rfl

theorem readQuoted_jsonStr (s r : Str) : readQuoted (jsonStr s ++ r) = some (s, r) := by
  simp only [jsonStr, List.cons_append, readQuoted, List.append_assoc, List.nil_append]
  exact readStr_flatten s r

/-- `elem` reads what `write` writes, and nothing written begins with a closing bracket. -/
structure Reads {α : Type} (write : α → Str) (elem : Str → Option (α × Str)) : Prop where
  read : ∀ a r, elem (write a ++ r) = some (a, r)
  head : ∀ a, (write a).head? ≠ some 93

theorem readMore_joinSep {α : Type} {write : α → Str} {elem : Str → Option (α × Str)} (h : Reads write elem) (r : Str) :
    ∀ (l : List α) (n : Nat), l ≠ [] → l.length ≤ n → readMore elem n (joinSep b!"," (l.map write) ++ 93 :: r) = some (l, r)
  | [], _, hne, _ => absurd rfl hne
  | [a], n + 1, _, _ => by simp [joinSep, readMore, h.read]
  | a :: b :: l, n + 1, _, hn => by
    have ih := readMore_joinSep h r (b :: l) n (by simp) (by simpa using hn)
    simp only [List.map_cons, joinSep, List.append_assoc, readMore, h.read, List.cons_append, List.nil_append] at ih ⊢
    rw [ih]
    rfl

theorem joinSep_length {sep : Str} (hs : 1 ≤ sep.length) : ∀ l : List Str, l.length ≤ (joinSep sep l).length + 1
  | [] => by simp
  | [a] => by simp
  | a :: b :: l => by
    have := joinSep_length hs (b :: l)
    simp only [joinSep, List.length_append, List.length_cons] at this ⊢
    omega

theorem head_write {α : Type} {write : α → Str} {elem : Str → Option (α × Str)} (h : Reads write elem) (a : α) (l : List α) (r : Str) :
    ∃ c s, joinSep b!"," ((a :: l).map write) ++ 93 :: r = c :: s ∧ (c = 93 → write a = []) := by
  have e : ∃ t, joinSep b!"," ((a :: l).map write) ++ 93 :: r = write a ++ t := by
    cases l with
    | nil => exact ⟨_, rfl⟩
    | cons b l => exact ⟨_, by simp only [List.map_cons, joinSep, List.append_assoc]; rfl⟩
  obtain ⟨t, ht⟩ := e
  cases hw : write a with
  | nil =>
    cases hj : joinSep b!"," ((a :: l).map write) ++ 93 :: r with
    | nil => simp at hj
    | cons c s => exact ⟨c, s, rfl, fun _ => rfl⟩
  | cons c s =>
    refine ⟨c, s ++ t, by rw [ht, hw]; rfl, fun hc => ?_⟩
    have := h.head a
    rw [hw, hc] at this
    simp at this

theorem readArr_jsonArr {α : Type} {write : α → Str} {elem : Str → Option (α × Str)} (h : Reads write elem) (hne : ∀ a, write a ≠ [])
    (l : List α) (r : Str) : readArr elem (jsonArr (l.map write) ++ r) = some (l, r) := by
  cases l with
  | nil => rfl
  | cons a l =>
    have e : jsonArr ((a :: l).map write) ++ r = 91 :: (joinSep b!"," ((a :: l).map write) ++ 93 :: r) := by
      simp only [jsonArr, List.cons_append, List.append_assoc, List.nil_append]
    rw [e]
    obtain ⟨c, s, hcs, hc⟩ := head_write h a l r
    have h93 : c ≠ 93 := fun hc' => hne a (hc hc')
    have hm := readMore_joinSep h r (a :: l) ((joinSep b!"," ((a :: l).map write) ++ 93 :: r).length + 1) (by simp) (by
      have := joinSep_length (sep := b!",") (by decide) ((a :: l).map write)
      rw [List.length_map] at this
      simp only [List.length_append, List.length_cons] at this ⊢
      omega)
    rw [hcs] at hm ⊢
    unfold readArr
    split
    · next heq => simp only [List.cons.injEq] at heq; exact absurd heq.2.1 h93
    · next heq => simp only [List.cons.injEq, true_and] at heq; subst heq; exact hm
    · next _ hno => exact absurd rfl (hno _)

theorem readRows_jsonRows (l : List (List Str)) : readRows (jsonRows l) = some l := by
  have h1 : Reads jsonStr readQuoted := ⟨readQuoted_jsonStr, fun a => by simp [jsonStr]⟩
  have h2 : Reads (fun r : List Str => jsonArr (r.map jsonStr)) (readArr readQuoted) :=
    ⟨fun a r => readArr_jsonArr h1 (fun a => by simp [jsonStr]) a r, fun a => by simp [jsonArr]⟩
  have := readArr_jsonArr h2 (fun a => by simp [jsonArr]) l []
  rw [List.append_nil] at this
  unfold readRows jsonRows
  rw [this]

/-- The assumption about rows can be met, here even for texts that are not ASCII. -/
theorem readsRows (ext : Ext) : Spec.ReadsRows { ext with rows := readRows } := fun l _ => readRows_jsonRows l

end ScaleGo
