import Verif.Props.C132

/-! # C133: which batches of definitions are registered

`RegCustomTypes` indexes the rows of structs and enums and slices the texts of aliases without checks.  Here: from which states and in which
orders this panics, for definitions that are not read from metadata.  For the files in `network/` it never does. -/

namespace ScaleGo

/-- A definition with what `RegCustomTypes` needs: the text of an alias, a name and a type in each row. -/
def WellFormed (d : TypeDef) : Prop :=
  (d.kind = b!"string" → convertType d.typeString ≠ []) ∧ (d.kind = b!"struct" ∨ d.kind = b!"enum" → ∀ row ∈ d.mapping, 2 ≤ row.length)

/-! ## One definition -/

theorem mappingRows_total : ∀ {m : List (List Str)}, (∀ row ∈ m, 2 ≤ row.length) → ∃ l, mappingRows m = .ok l
  | [], _ => ⟨_, rfl⟩
  | [] :: m, h => by have := h [] List.mem_cons_self; simp at this
  | [_] :: m, h => by have := h [_] List.mem_cons_self; simp at this
  | (_ :: _ :: _) :: m, h => by
    obtain ⟨l, hl⟩ := mappingRows_total fun row hr => h row (List.mem_cons_of_mem _ hr)
    exact ⟨_, by rw [mappingRows, hl]; rfl⟩

theorem mappingRows_short : ∀ {m : List (List Str)}, (∃ row ∈ m, row.length < 2) → mappingRows m = .panic
  | [], h => by obtain ⟨_, h, _⟩ := h; cases h
  | [] :: m, h => rfl
  | [_] :: m, h => rfl
  | (_ :: _ :: _) :: m, h => by
    obtain ⟨row, hr, hl⟩ := h
    rcases List.mem_cons.mp hr with e | hr
    · subst e; simp at hl; omega
    · rw [mappingRows, mappingRows_short ⟨row, hr, hl⟩]; rfl

theorem mappingRows_cases (m : List (List Str)) : (∃ l, mappingRows m = .ok l) ∨ mappingRows m = .panic := by
  by_cases h : ∃ row ∈ m, row.length < 2
  · exact .inr (mappingRows_short h)
  · push Not at h
    exact .inl (mappingRows_total h)

theorem aliasClass_total {t : Str} (h : t ≠ []) : ∃ c, aliasClass t = .ok c := by
  unfold aliasClass
  rw [if_neg h]
  extract_lets g
  clear_value g
  cases g with
  | some c => exact ⟨_, rfl⟩
  | none =>
    dsimp only
    split
    · exact ⟨_, rfl⟩
    · split
      · split <;> exact ⟨_, rfl⟩
      · exact ⟨_, rfl⟩

theorem regCustomKey_empty {env : Env} {k : Str} {c : Cls} (hk : k ≠ []) (h : env.reg [] = none) : (regCustomKey env k c).reg [] = none := by
  unfold regCustomKey
  split
  · exact h
  · simp only [setReg]
    rw [if_neg (Ne.symm hk)]
    exact h

/-- The result is a state with no type for the empty text, or a panic. -/
def RegSettles (r : Res RegState) : Prop := r = .panic ∨ ∃ s, r = .ok s ∧ s.env.reg [] = none

theorem regPlain_settles {st : RegState} {k : Str} (hk : k ≠ []) (h : st.env.reg [] = none) (d : TypeDef) : RegSettles (regPlain st k d) := by
  unfold regPlain
  split
  · rcases mappingRows_cases d.mapping with ⟨l, e⟩ | e <;> rw [e]
    · exact .inr ⟨_, rfl, regCustomKey_empty hk h⟩
    · exact .inl rfl
  · split
    · rcases mappingRows_cases d.mapping with ⟨l, e⟩ | e <;> rw [e]
      · exact .inr ⟨_, rfl, regCustomKey_empty hk h⟩
      · exact .inl rfl
    · split
      · exact .inr ⟨_, rfl, regCustomKey_empty hk h⟩
      · exact .inr ⟨_, rfl, h⟩

theorem regPlain_total {st : RegState} {k : Str} {d : TypeDef} (hd : WellFormed d) : ∃ s, regPlain st k d = .ok s := by
  unfold regPlain
  split
  · obtain ⟨l, e⟩ := mappingRows_total (hd.2 (.inl ‹_›))
    rw [e]; exact ⟨_, rfl⟩
  · split
    · obtain ⟨l, e⟩ := mappingRows_total (hd.2 (.inr ‹_›))
      rw [e]; exact ⟨_, rfl⟩
    · split <;> exact ⟨_, rfl⟩

theorem regAliasText_settles {st : RegState} {k : Str} (hk : k ≠ []) (h : st.env.reg [] = none) (t : Str) : RegSettles (regAliasText st k t) := by
  unfold regAliasText
  by_cases ht : t = []
  · subst ht; exact .inl rfl
  · obtain ⟨c, e⟩ := aliasClass_total ht
    rw [e]
    cases c with
    | none => exact .inr ⟨_, rfl, h⟩
    | some c => exact .inr ⟨_, rfl, regCustomKey_empty hk h⟩

theorem regAliasText_total {st : RegState} {k t : Str} (ht : t ≠ []) : ∃ s, regAliasText st k t = .ok s := by
  unfold regAliasText
  obtain ⟨c, e⟩ := aliasClass_total ht
  rw [e]
  cases c <;> exact ⟨_, rfl⟩

theorem toLower_ne_nil {k : Str} (h : k ≠ []) : toLower k ≠ [] := by
  intro e
  apply h
  have := congrArg List.length e
  simpa [toLower] using this

theorem regSingle_plain {fuel : Nat} {st : RegState} {k : Str} {d : TypeDef} (hv : d.v14 = false) : regSingle fuel st k d = regPlain st (toLower k) d := by
  unfold regSingle v14Key
  simp only [hv, if_true, Res.ok_bind]

section
variable {all : List (Str × TypeDef)} (hv : ∀ p ∈ all, p.2.v14 = false)
include hv

theorem regAlias_settles {fuel : Nat} {st : RegState} {k : Str} (hk : k ≠ []) (h : st.env.reg [] = none) (d : TypeDef) :
    RegSettles (regAlias fuel all st k d) := by
  unfold regAlias
  dsimp only
  split
  · exact .inr ⟨_, rfl, regCustomKey_empty hk h⟩
  · split
    · rename_i e he
      split
      · split
        · exact .inr ⟨_, rfl, regCustomKey_empty hk h⟩
        · exact regAliasText_settles hk h _
      · rw [regSingle_plain (hv _ (mem_of_tableGet he))]
        rcases regPlain_settles (toLower_ne_nil hk) h e with e1 | ⟨s, e1, h1⟩ <;> rw [e1]
        · exact .inl rfl
        · exact regAliasText_settles hk h1 _
    · exact regAliasText_settles hk h _

theorem regAlias_total (hw : ∀ p ∈ all, WellFormed p.2) {fuel : Nat} {st : RegState} {k : Str} {d : TypeDef} (hd : convertType d.typeString ≠ []) :
    ∃ s, regAlias fuel all st k d = .ok s := by
  unfold regAlias
  dsimp only
  split
  · exact ⟨_, rfl⟩
  · split
    · rename_i e he
      split
      · split
        · exact ⟨_, rfl⟩
        · exact regAliasText_total hd
      · rw [regSingle_plain (hv _ (mem_of_tableGet he))]
        obtain ⟨s, e1⟩ := regPlain_total (st := st) (k := toLower k) (hw _ (mem_of_tableGet he))
        rw [e1]
        exact regAliasText_total hd
    · exact regAliasText_total hd

/-! ## The loop -/

theorem regLoop_total (hw : ∀ p ∈ all, WellFormed p.2) {fuel : Nat} : ∀ (l : List (Str × TypeDef)), (∀ p ∈ l, p ∈ all) → ∀ st, ∃ s, regLoop fuel all st l = .ok s
  | [], _, st => ⟨st, rfl⟩
  | (k, d) :: l, hl, st => by
    have hd := hl _ List.mem_cons_self
    have hvd : d.v14 = false := hv _ hd
    have : ∃ s, regEntry fuel all st k d = .ok (some s) := by
      unfold regEntry v14Key
      simp only [hvd, if_true, Res.ok_bind]
      split
      · obtain ⟨s, e⟩ := regAlias_total hv hw (fuel := fuel) (st := st) (k := toLower k) ((hw _ hd).1 ‹_›)
        rw [e]; exact ⟨_, rfl⟩
      · obtain ⟨s, e⟩ := regPlain_total (st := st) (k := toLower k) (hw _ hd)
        rw [e]; exact ⟨_, rfl⟩
    obtain ⟨s, e⟩ := this
    rw [regLoop, e]
    exact regLoop_total hw l (fun p hp => hl p (List.mem_cons_of_mem _ hp)) s

theorem regLoop_panics (hn : tableGet all [] = none) {fuel : Nat} {q : Str × TypeDef} (hq : ¬ WellFormed q.2) :
    ∀ (l : List (Str × TypeDef)), (∀ p ∈ l, p ∈ all) → q ∈ l → ∀ st : RegState, st.env.reg [] = none → regLoop fuel all st l = .panic
  | [], _, h, _, _ => by cases h
  | (k, d) :: l, hl, h, st, hs => by
    have hd := hl _ List.mem_cons_self
    have hvd : d.v14 = false := hv _ hd
    have hk : k ≠ [] := by
      rintro rfl
      have hf : (tableGet all []).isSome = true := by
        clear hv hl h hs hq l
        induction all with
        | nil => cases hd
        | cons a t ih =>
          obtain ⟨a1, a2⟩ := a
          rw [tableGet]
          split
          · rfl
          · rename_i hne
            rcases List.mem_cons.mp hd with e | hd
            · cases e; exact absurd rfl hne
            · rw [tableGet, if_neg hne] at hn
              exact ih hn hd
      rw [hn] at hf
      cases hf
    have hk := toLower_ne_nil hk
    rw [regLoop]
    by_cases hw : WellFormed d
    · have hq' : q ∈ l := by
        rcases List.mem_cons.mp h with e | h
        · subst e; exact absurd hw hq
        · exact h
      have : regEntry fuel all st k d = .panic ∨ ∃ s, regEntry fuel all st k d = .ok (some s) ∧ s.env.reg [] = none := by
        unfold regEntry v14Key
        simp only [hvd, if_true, Res.ok_bind]
        split
        · rcases regAlias_settles hv (fuel := fuel) hk hs d with e | ⟨s, e, h1⟩ <;> rw [e]
          · exact .inl rfl
          · exact .inr ⟨s, rfl, h1⟩
        · rcases regPlain_settles hk hs d with e | ⟨s, e, h1⟩ <;> rw [e]
          · exact .inl rfl
          · exact .inr ⟨s, rfl, h1⟩
      rcases this with e | ⟨s, e, h1⟩ <;> rw [e]
      · rfl
      · exact regLoop_panics hn hq l (fun p hp => hl p (List.mem_cons_of_mem _ hp)) hq' s h1
    · have : regEntry fuel all st k d = .panic := by
        unfold regEntry v14Key
        simp only [hvd, if_true, Res.ok_bind]
        unfold WellFormed at hw
        rw [Classical.not_and_iff_not_or_not] at hw
        rcases hw with hw | hw
        · push Not at hw
          rw [if_pos hw.1]
          unfold regAlias
          have e0 : toLower ([] : Str) = [] := rfl
          simp only [hw.2, e0, hs, hn]
          rfl
        · push Not at hw
          obtain ⟨hkind, row, hr, hlen⟩ := hw
          have e := mappingRows_short ⟨row, hr, hlen⟩
          unfold regPlain
          rcases hkind with hkind | hkind
          · rw [hkind, if_neg (by decide), if_pos rfl, e]; rfl
          · rw [hkind, if_neg (by decide), if_neg (by decide), if_pos rfl, e]; rfl
      rw [this]; rfl

end

/-! ## The properties -/

/-- Well-formed definitions are registered without a panic, over any tables and in any order. -/
theorem C133_registers (fuel : Nat) (st : RegState) (l : List (Str × TypeDef)) (hv : ∀ p ∈ l, p.2.v14 = false) (hw : ∀ p ∈ l, WellFormed p.2) :
    ∃ s, regCustomTypes fuel st l = .ok s := regLoop_total hv hw l (fun _ h => h) st

/-- A batch is registered exactly if all its definitions are well-formed; otherwise there is a panic, whatever the order. -/
theorem C133_exact (fuel : Nat) (st : RegState) (l : List (Str × TypeDef)) (hv : ∀ p ∈ l, p.2.v14 = false) (hn : tableGet l [] = none)
    (hs : st.env.reg [] = none) :
    ((∃ s, regCustomTypes fuel st l = .ok s) ↔ ∀ p ∈ l, WellFormed p.2) ∧ ((∃ p ∈ l, ¬ WellFormed p.2) → regCustomTypes fuel st l = .panic) := by
  have hp : (∃ p ∈ l, ¬ WellFormed p.2) → regCustomTypes fuel st l = .panic := by
    rintro ⟨q, hq, hw⟩
    exact regLoop_panics hv hn hw l (fun _ h => h) hq st hs
  refine ⟨⟨fun ⟨s, e⟩ => ?_, C133_registers fuel st l hv⟩, hp⟩
  by_contra hc
  push Not at hc
  rw [hp hc] at e
  cases e

/-! ## The shipped files -/

theorem shipped_texts : (Network.shipped.all fun f => f.2.all fun p => match p.2 with
    | .al t => !(convertType t).isEmpty
    | _ => true) = true := by kernel_rfl

theorem shipped_wellFormed {f : Str × List (Str × Network.Entry)} (hf : f ∈ Network.shipped) {p : Str × TypeDef} (hp : p ∈ Network.table f.2) :
    p.2.v14 = false ∧ WellFormed p.2 := by
  obtain ⟨⟨k, e⟩, hm, rfl⟩ := List.mem_map.mp hp
  have h := List.all_eq_true.mp (List.all_eq_true.mp shipped_texts f hf) _ hm
  have two : ∀ {α : Type} (rows : List α) (g : α → List Str), (∀ r, 2 ≤ (g r).length) → ∀ row ∈ rows.map g, 2 ≤ row.length := by
    intro α rows g hg row hr
    obtain ⟨r, _, rfl⟩ := List.mem_map.mp hr
    exact hg r
  cases e with
  | al t =>
    refine ⟨rfl, fun _ => ?_, fun hk => ?_⟩
    · show convertType t ≠ []
      simpa using h
    · rcases hk with hk | hk
      · exact absurd hk (show ¬ (b!"string" : Str) = b!"struct" by decide)
      · exact absurd hk (show ¬ (b!"string" : Str) = b!"enum" by decide)
  | st rows => exact ⟨rfl, fun hk => absurd hk (show ¬ (b!"struct" : Str) = b!"string" by decide), fun _ => two _ _ fun _ => by simp⟩
  | en rows => exact ⟨rfl, fun hk => absurd hk (show ¬ (b!"enum" : Str) = b!"string" by decide), fun _ => two _ _ fun _ => by simp⟩
  | ev names => exact ⟨rfl, fun hk => absurd hk (show ¬ (b!"enum" : Str) = b!"string" by decide), fun _ row hr => by cases hr⟩
  | num rows => exact ⟨rfl, fun hk => absurd hk (show ¬ (b!"enum" : Str) = b!"string" by decide), fun _ => two _ _ fun _ => by simp⟩
  | set names bits =>
    refine ⟨rfl, fun hk => absurd hk (show ¬ (b!"set" : Str) = b!"string" by decide), fun hk => ?_⟩
    rcases hk with hk | hk
    · exact absurd hk (show ¬ (b!"set" : Str) = b!"struct" by decide)
    · exact absurd hk (show ¬ (b!"set" : Str) = b!"enum" by decide)

/-- Loading a shipped file never panics, whatever is registered already and in whatever orders Go walks through the maps. -/
theorem C133_shipped (f : Str × List (Str × Network.Entry)) (hf : f ∈ Network.shipped) (fuel : Nat) (st : RegState) (order : List Str)
    (ho : order.Perm (f.2.map Prod.fst)) (l : List (Str × TypeDef)) (hl : l.Perm (LoadJson.load order (Network.file f.2))) :
    ∃ s, regCustomTypes fuel st l = .ok s ∧ LoadsShipped st s := by
  have hmem : ∀ p ∈ l, ∃ k, (k, p.2) ∈ Network.table f.2 := by
    intro p hp
    rw [load_eq] at hl
    have hn := shipped_nodup hf
    rw [← table_keys] at ho hn
    obtain ⟨hinv, hpost⟩ := inheritLoop_inv order (Network.table f.2) (.start _)
    have hn2 : ((inheritLoop order (Network.table f.2)).map Prod.fst).Nodup := by rw [hinv.keys]; exact hn
    have hp2 := hl.mem_iff.mp hp
    refine (hpost p.1 (.inl ?_) p.2 (tableGet_of_mem hn2 hp2)).reach.mem
    rw [ho.mem_iff, ← hinv.keys]
    exact List.mem_map.mpr ⟨_, hp2, rfl⟩
  obtain ⟨s, e⟩ := C133_registers fuel st l (fun p hp => (hmem p hp).elim fun _ h => (shipped_wellFormed hf h).1)
    fun p hp => (hmem p hp).elim fun _ h => (shipped_wellFormed hf h).2
  exact ⟨s, e, f, hf, order, l, fuel, ho, hl, e⟩

/-- Any files can be loaded one after the other. -/
theorem C133_sequences (st : RegState) : ∀ fs : List (Str × List (Str × Network.Entry)), (∀ f ∈ fs, f ∈ Network.shipped) →
    ∃ s, List.foldl (fun r f => r >>= fun s => regCustomTypes 1 s (Network.forward f.2)) (.ok st : Res RegState) fs = .ok s ∧
      Relation.ReflTransGen LoadsShipped st s := by
  intro fs
  induction fs generalizing st with
  | nil => exact fun _ => ⟨st, rfl, .refl⟩
  | cons f fs ih =>
    intro h
    obtain ⟨s, e, h1⟩ := C133_shipped f (h f List.mem_cons_self) 1 st _ (.refl _) (Network.forward f.2) (by rw [load_eq]; exact .refl _)
    obtain ⟨s', e', h2⟩ := ih s fun g hg => h g (List.mem_cons_of_mem _ hg)
    refine ⟨s', ?_, .head h1 h2⟩
    rw [List.foldl_cons, Res.ok_bind, e]
    exact e'

/-! ## Examples -/

/-- A batch with an alias of the struct it defines. -/
example : ∃ s, regCustomTypes 1 ⟨loadedEnv dummyExt, fun _ => none⟩ [(b!"A", { kind := b!"string", typeString := b!"B" }),
    (b!"B", { kind := b!"struct", mapping := [[b!"x", b!"u8"]] })] = .ok s :=
  C133_registers _ _ _ (by decide) (by
    intro p hp
    simp only [List.mem_cons, List.not_mem_nil, or_false] at hp
    rcases hp with rfl | rfl
    · exact ⟨fun _ => by decide, by decide⟩
    · exact ⟨by decide, fun _ => by decide⟩)

/-- A row without a type, and a text that is only a mark of generic code. -/
example (st : RegState) (hs : st.env.reg [] = none) :
    regCustomTypes 1 st [(b!"A", { kind := b!"string", typeString := b!"u8" }), (b!"B", { kind := b!"struct", mapping := [[b!"x"]] })] = .panic ∧
    regCustomTypes 1 st [(b!"A", { kind := b!"string", typeString := b!"T::" }), (b!"B", { kind := b!"string", typeString := b!"u8" })] = .panic :=
  ⟨(C133_exact 1 st _ (by decide) (by decide) hs).2 ⟨_, List.mem_cons_of_mem _ List.mem_cons_self, fun h => by
      have := h.2 (.inl rfl) _ List.mem_cons_self; revert this; decide⟩,
    (C133_exact 1 st _ (by decide) (by decide) hs).2 ⟨_, List.mem_cons_self, fun h => h.1 rfl (by decide)⟩⟩

end ScaleGo
