import Verif.Lemmas.History

/-! # Structural texts of types

The texts that `TypeStructString` builds, as trees, and that they can be read back in one way only. -/

namespace ScaleGo.Spec

/-- The structure of a type: a word, a word with arguments in angle brackets or in parentheses, or an array. -/
inductive Tree where
  | word (w : Str)
  | angle (w : Str) (ts : List Tree)
  | round (w : Str) (ts : List Tree)
  | square (n : Str) (t : Tree)

mutual
/-- The text of a structure. -/
def Tree.text : Tree → Str
  | .word w => w
  | .angle w ts => w ++ 60 :: (Tree.texts ts ++ [62])
  | .round w ts => w ++ 40 :: (Tree.texts ts ++ [41])
  | .square n t => 91 :: (n ++ 59 :: (t.text ++ [93]))
/-- The texts of several structures, with commas between them. -/
def Tree.texts : List Tree → Str
  | [] => []
  | [t] => t.text
  | t :: u :: ts => t.text ++ 44 :: Tree.texts (u :: ts)
end

/-- A letter or digit, or an underscore. -/
def wordByte (c : UInt8) : Bool := decide (97 ≤ c ∧ c ≤ 122) || decide (65 ≤ c ∧ c ≤ 90) || decide (48 ≤ c ∧ c ≤ 57) || c == 95

/-- A word is not empty and consists of letters, digits and underscores. -/
def IsWord (w : Str) : Prop := w ≠ [] ∧ ∀ c ∈ w, wordByte c = true

/-- All words of the structure are words. -/
inductive Tree.Proper : Tree → Prop
  | word {w} : IsWord w → Tree.Proper (.word w)
  | angle {w ts} : IsWord w → (∀ t ∈ ts, Tree.Proper t) → Tree.Proper (.angle w ts)
  | round {w ts} : IsWord w → (∀ t ∈ ts, Tree.Proper t) → Tree.Proper (.round w ts)
  | square {n t} : IsWord n → Tree.Proper t → Tree.Proper (.square n t)

end ScaleGo.Spec

namespace ScaleGo

open ScaleGo.Spec (Tree IsWord wordByte)

/-- A text that does not go on with a word or an opening bracket. -/
def Stops (r : Str) : Prop := ∀ c s, r = c :: s → c = 44 ∨ c = 62 ∨ c = 41 ∨ c = 93

/-- A text that does not go on with a word. -/
def WordEnd (r : Str) : Prop := ∀ c s, r = c :: s → wordByte c = false

theorem Stops.wordEnd {r : Str} (h : Stops r) : WordEnd r := by
  intro c s e
  rcases h c s e with rfl | rfl | rfl | rfl <;> decide

theorem stops_cons {c : UInt8} {r : Str} (h : c = 44 ∨ c = 62 ∨ c = 41 ∨ c = 93) : Stops (c :: r) := by
  intro d s e
  cases e
  exact h

theorem wordEnd_cons {c : UInt8} {r : Str} (h : wordByte c = false) : WordEnd (c :: r) := by
  intro d s e
  cases e
  exact h

theorem takeWhile_word {w r : Str} (hw : ∀ c ∈ w, wordByte c = true) (hr : WordEnd r) : (w ++ r).takeWhile wordByte = w := by
  rw [List.takeWhile_append_of_pos hw]
  cases r with
  | nil => simp
  | cons c s => rw [List.takeWhile_cons_of_neg (by rw [hr c s rfl]; decide), List.append_nil]

theorem word_split {w w' r r' : Str} (hw : IsWord w) (hw' : IsWord w') (hr : WordEnd r) (hr' : WordEnd r') (h : w ++ r = w' ++ r') :
    w = w' ∧ r = r' := by
  have e : w = w' := by rw [← takeWhile_word hw.2 hr, h, takeWhile_word hw'.2 hr']
  subst e
  exact ⟨rfl, List.append_cancel_left h⟩

theorem word_head {w r s : Str} {c : UInt8} (hw : IsWord w) (hc : wordByte c = false) : w ++ r ≠ c :: s := by
  obtain ⟨d, w', rfl⟩ := List.exists_cons_of_ne_nil hw.1
  intro e
  rw [List.cons_append] at e
  have := hw.2 d (by simp)
  rw [(List.cons.inj e).1, hc] at this
  cases this

theorem Tree.Proper.word_inv {w : Str} (h : Tree.Proper (.word w)) : IsWord w := by cases h; assumption

/-- The text of a structure begins with a letter, a digit, an underscore or a bracket. -/
theorem tree_head {t : Tree} (h : t.Proper) : ∃ c s, t.text = c :: s ∧ (wordByte c = true ∨ c = 91) := by
  have key : ∀ w r, IsWord w → ∃ c s, w ++ r = c :: s ∧ (wordByte c = true ∨ c = 91) := by
    intro w r hw
    obtain ⟨d, w', rfl⟩ := List.exists_cons_of_ne_nil hw.1
    exact ⟨d, w' ++ r, rfl, .inl (hw.2 d (by simp))⟩
  cases h with
  | word hw => simpa [Tree.text] using key _ [] hw
  | angle hw _ => simp only [Tree.text]; exact key _ _ hw
  | round hw _ => simp only [Tree.text]; exact key _ _ hw
  | square _ _ => simp only [Tree.text]; exact ⟨91, _, rfl, .inr rfl⟩

theorem trees_head {t : Tree} {ts : List Tree} (h : t.Proper) : ∃ c s, Tree.texts (t :: ts) = c :: s ∧ (wordByte c = true ∨ c = 91) := by
  obtain ⟨c, s, e, hc⟩ := tree_head h
  cases ts with
  | nil => rw [Tree.texts]; exact ⟨c, s, e, hc⟩
  | cons u us => rw [Tree.texts, e]; exact ⟨c, _, rfl, hc⟩

theorem close_head {c : UInt8} (hc : c = 62 ∨ c = 41) {t : Tree} {ts : List Tree} (h : t.Proper) {r r' : Str} :
    c :: r ≠ Tree.texts (t :: ts) ++ r' := by
  obtain ⟨d, s, e, hd⟩ := trees_head (ts := ts) h
  rw [e]
  intro e'
  have := (List.cons.inj e').1
  subst this
  rcases hc with rfl | rfl <;> rcases hd with hd | hd <;> revert hd <;> decide

mutual
/-- A structure is determined by its text, whatever follows. -/
theorem tree_inj : ∀ (t t' : Tree) (r r' : Str), t.Proper → t'.Proper → Stops r → Stops r' → t.text ++ r = t'.text ++ r' → t = t' ∧ r = r'
  | .word w, t', r, r', h, h', hr, hr', e => by
    cases h with | word hw =>
    cases h' with
    | word hw' =>
      simp only [Tree.text] at e
      obtain ⟨rfl, rfl⟩ := word_split hw hw' hr.wordEnd hr'.wordEnd e
      exact ⟨rfl, rfl⟩
    | angle hw' _ =>
      simp only [Tree.text, List.append_assoc, List.cons_append] at e
      obtain ⟨_, rfl⟩ := word_split hw hw' hr.wordEnd (wordEnd_cons (by decide)) e
      exact absurd (hr _ _ rfl) (by decide)
    | round hw' _ =>
      simp only [Tree.text, List.append_assoc, List.cons_append] at e
      obtain ⟨_, rfl⟩ := word_split hw hw' hr.wordEnd (wordEnd_cons (by decide)) e
      exact absurd (hr _ _ rfl) (by decide)
    | square _ _ =>
      simp only [Tree.text] at e
      exact absurd e (word_head hw (by decide))
  | .angle w ts, t', r, r', h, h', hr, hr', e => by
    cases h with | angle hw hts =>
    cases h' with
    | word hw' =>
      simp only [Tree.text, List.append_assoc, List.cons_append] at e
      obtain ⟨_, rfl⟩ := word_split hw hw' (wordEnd_cons (by decide)) hr'.wordEnd e
      exact absurd (hr' _ _ rfl) (by decide)
    | angle hw' hts' =>
      simp only [Tree.text, List.append_assoc, List.cons_append, List.nil_append] at e
      obtain ⟨rfl, e1⟩ := word_split hw hw' (wordEnd_cons (by decide)) (wordEnd_cons (by decide)) e
      obtain ⟨rfl, rfl⟩ := trees_inj ts _ 62 r r' (.inl rfl) hts hts' (List.cons.inj e1).2
      exact ⟨rfl, rfl⟩
    | round hw' _ =>
      simp only [Tree.text, List.append_assoc, List.cons_append] at e
      obtain ⟨_, e1⟩ := word_split hw hw' (wordEnd_cons (by decide)) (wordEnd_cons (by decide)) e
      exact absurd (List.cons.inj e1).1 (by decide)
    | square _ _ =>
      simp only [Tree.text, List.append_assoc] at e
      exact absurd e (word_head hw (by decide))
  | .round w ts, t', r, r', h, h', hr, hr', e => by
    cases h with | round hw hts =>
    cases h' with
    | word hw' =>
      simp only [Tree.text, List.append_assoc, List.cons_append] at e
      obtain ⟨_, rfl⟩ := word_split hw hw' (wordEnd_cons (by decide)) hr'.wordEnd e
      exact absurd (hr' _ _ rfl) (by decide)
    | angle hw' _ =>
      simp only [Tree.text, List.append_assoc, List.cons_append] at e
      obtain ⟨_, e1⟩ := word_split hw hw' (wordEnd_cons (by decide)) (wordEnd_cons (by decide)) e
      exact absurd (List.cons.inj e1).1 (by decide)
    | round hw' hts' =>
      simp only [Tree.text, List.append_assoc, List.cons_append, List.nil_append] at e
      obtain ⟨rfl, e1⟩ := word_split hw hw' (wordEnd_cons (by decide)) (wordEnd_cons (by decide)) e
      obtain ⟨rfl, rfl⟩ := trees_inj ts _ 41 r r' (.inr rfl) hts hts' (List.cons.inj e1).2
      exact ⟨rfl, rfl⟩
    | square _ _ =>
      simp only [Tree.text, List.append_assoc] at e
      exact absurd e (word_head hw (by decide))
  | .square n t, t', r, r', h, h', hr, hr', e => by
    cases h with | square hn ht =>
    cases h' with
    | word hw' =>
      simp only [Tree.text] at e
      exact absurd e.symm (word_head hw' (by decide))
    | angle hw' _ =>
      simp only [Tree.text, List.append_assoc] at e
      exact absurd e.symm (word_head hw' (by decide))
    | round hw' _ =>
      simp only [Tree.text, List.append_assoc] at e
      exact absurd e.symm (word_head hw' (by decide))
    | square hn' ht' =>
      simp only [Tree.text, List.append_assoc, List.cons_append, List.nil_append] at e
      obtain ⟨rfl, e1⟩ := word_split hn hn' (wordEnd_cons (by decide)) (wordEnd_cons (by decide)) (List.cons.inj e).2
      obtain ⟨rfl, e2⟩ := tree_inj t _ (93 :: r) (93 :: r') ht ht' (stops_cons (by simp)) (stops_cons (by simp)) (List.cons.inj e1).2
      exact ⟨rfl, (List.cons.inj e2).2⟩
/-- The same for the arguments up to the closing bracket. -/
theorem trees_inj : ∀ (ts ts' : List Tree) (c : UInt8) (r r' : Str), c = 62 ∨ c = 41 → (∀ t ∈ ts, t.Proper) → (∀ t ∈ ts', t.Proper) →
    Tree.texts ts ++ c :: r = Tree.texts ts' ++ c :: r' → ts = ts' ∧ r = r'
  | [], [], c, r, r', _, _, _, e => ⟨rfl, (List.cons.inj (show c :: r = c :: r' from e)).2⟩
  | [], t' :: ts', c, r, r', hc, _, h', e => absurd (show c :: r = _ from e) (close_head hc (h' t' (by simp)))
  | t :: ts, [], c, r, r', hc, h, _, e => absurd (show c :: r' = _ from e.symm) (close_head hc (h t (by simp)))
  | [t], [t'], c, r, r', hc, h, h', e => by
    simp only [Tree.texts] at e
    have hs : ∀ {r}, Stops (c :: r) := stops_cons (by rcases hc with rfl | rfl <;> simp)
    obtain ⟨rfl, e1⟩ := tree_inj t t' _ _ (h t (by simp)) (h' t' (by simp)) hs hs e
    exact ⟨rfl, (List.cons.inj e1).2⟩
  | [t], t' :: u' :: ts', c, r, r', hc, h, h', e => by
    simp only [Tree.texts, List.append_assoc, List.cons_append] at e
    have hs : ∀ {r}, Stops (c :: r) := stops_cons (by rcases hc with rfl | rfl <;> simp)
    obtain ⟨_, e1⟩ := tree_inj t t' _ _ (h t (by simp)) (h' t' (by simp)) hs (stops_cons (by simp)) e
    rcases hc with rfl | rfl <;> exact absurd (List.cons.inj e1).1 (by decide)
  | t :: u :: ts, [t'], c, r, r', hc, h, h', e => by
    simp only [Tree.texts, List.append_assoc, List.cons_append] at e
    have hs : ∀ {r}, Stops (c :: r) := stops_cons (by rcases hc with rfl | rfl <;> simp)
    obtain ⟨_, e1⟩ := tree_inj t t' _ _ (h t (by simp)) (h' t' (by simp)) (stops_cons (by simp)) hs e
    rcases hc with rfl | rfl <;> exact absurd (List.cons.inj e1).1 (by decide)
  | t :: u :: ts, t' :: u' :: ts', c, r, r', hc, h, h', e => by
    simp only [Tree.texts, List.append_assoc, List.cons_append] at e
    obtain ⟨rfl, e1⟩ := tree_inj t t' _ _ (h t (by simp)) (h' t' (by simp)) (stops_cons (by simp)) (stops_cons (by simp)) e
    obtain ⟨e5, e6⟩ := trees_inj (u :: ts) (u' :: ts') c r r' hc (fun x hx => h x (List.mem_cons_of_mem _ hx))
      (fun x hx => h' x (List.mem_cons_of_mem _ hx)) (List.cons.inj e1).2
    exact ⟨by rw [e5], e6⟩
end

/-- Two structures with the same text are the same. -/
theorem tree_text_inj {t t' : Tree} (h : t.Proper) (h' : t'.Proper) (e : t.text = t'.text) : t = t' := by
  have hs : Stops [] := by intro c s e; cases e
  exact (tree_inj t t' [] [] h h' hs hs (by rw [e])).1

end ScaleGo
