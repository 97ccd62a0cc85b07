import Verif.Model.Register
import Verif.Lemmas.Names
import Mathlib.Data.List.Nodup

/-! # Loading a table of definitions does not depend on the iteration orders

`LoadTypeRegistry` and `RegCustomTypes` iterate over Go maps.  A table is fine if every definition an entry can have after the
"inherit" loop leads to the same class, whichever of the other entries have been registered before. -/

namespace ScaleGo

/-- `d` is reached from `k` by following aliases that are keys of the table. -/
inductive Reach (T : List (Str × TypeDef)) : Str → TypeDef → Prop
  | here {k d} : tableGet T k = some d → Reach T k d
  | next {k d e} : tableGet T k = some d → d.kind = b!"string" → Reach T d.typeString e → Reach T k e

/-- Definitions `k` can have after its turn in the "inherit" loop. -/
def PostOf (T : List (Str × TypeDef)) (k : Str) (d : TypeDef) : Prop :=
  (∃ d0, tableGet T k = some d0 ∧ d0.kind = b!"string" ∧ Reach T d0.typeString d) ∨
  (tableGet T k = some d ∧ (d.kind = b!"string" → tableGet T d.typeString = none))

theorem Reach.trans {T : List (Str × TypeDef)} {k : Str} {d e : TypeDef} (h : Reach T k d) (hs : d.kind = b!"string")
    (h2 : Reach T d.typeString e) : Reach T k e := by
  induction h with
  | here h => exact .next h hs h2
  | next h hk _ ih => exact .next h hk (ih hs h2)

theorem PostOf.reach {T : List (Str × TypeDef)} {k : Str} {d : TypeDef} (h : PostOf T k d) : Reach T k d := by
  rcases h with ⟨d0, h0, hs, hr⟩ | ⟨h, -⟩
  · exact .next h0 hs hr
  · exact .here h

theorem tableGet_keys {α β : Type} {a : List (Str × α)} {b : List (Str × β)} (h : a.map Prod.fst = b.map Prod.fst) (k : Str) :
    (tableGet a k).isSome = (tableGet b k).isSome := by
  induction a generalizing b with
  | nil => cases b with
    | nil => rfl
    | cons _ _ => simp at h
  | cons p a ih => cases b with
    | nil => simp at h
    | cons q b =>
      simp only [List.map_cons, List.cons.injEq] at h
      obtain ⟨k1, v1⟩ := p
      obtain ⟨k2, v2⟩ := q
      obtain ⟨rfl, h⟩ := h
      simp only [tableGet]
      split
      · rfl
      · exact ih h

theorem tableGet_replace {α : Type} (m : List (Str × α)) (k : Str) (e : α) (k' : Str) :
    tableGet (m.map (fun p => if p.1 = k then (k, e) else p)) k' =
      if k' = k then (tableGet m k).map (fun _ => e) else tableGet m k' := by
  induction m with
  | nil => by_cases h : k' = k <;> simp [tableGet, h]
  | cons p m ih =>
    obtain ⟨q, v⟩ := p
    rw [List.map_cons]
    by_cases hq : q = k
    · subst hq
      rw [if_pos rfl, tableGet]
      by_cases h : k' = q
      · subst h
        simp [tableGet]
      · rw [if_neg (fun e => h e.symm), ih, if_neg h, if_neg h, tableGet, if_neg (fun e => h e.symm)]
    · rw [if_neg hq, tableGet, ih]
      by_cases h : q = k'
      · subst h
        rw [if_pos rfl, if_neg hq, tableGet, if_pos rfl]
      · rw [if_neg h]
        by_cases h2 : k' = k
        · rw [if_pos h2, if_pos h2, tableGet, if_neg hq]
        · rw [if_neg h2, if_neg h2, tableGet, if_neg h]

theorem map_replace_keys {α : Type} (m : List (Str × α)) (k : Str) (e : α) :
    (m.map (fun p => if p.1 = k then (k, e) else p)).map Prod.fst = m.map Prod.fst := by
  rw [List.map_map]
  apply List.map_congr_left
  intro p _
  simp only [Function.comp]
  split
  · rename_i h; exact h.symm
  · rfl

/-- What holds during the "inherit" loop. -/
structure Inheriting (T cur : List (Str × TypeDef)) : Prop where
  keys : cur.map Prod.fst = T.map Prod.fst
  reach : ∀ k d, tableGet cur k = some d → Reach T k d

theorem Inheriting.start (T : List (Str × TypeDef)) : Inheriting T T := ⟨rfl, fun _ _ h => .here h⟩

theorem Reach.isSome {T : List (Str × TypeDef)} {k : Str} {d : TypeDef} (h : Reach T k d) : (tableGet T k).isSome := by
  cases h with
  | here h => rw [h]; rfl
  | next h _ _ => rw [h]; rfl

theorem inheritLoop_inv {T : List (Str × TypeDef)} (todo : List Str) : ∀ (cur : List (Str × TypeDef)), Inheriting T cur →
    Inheriting T (inheritLoop todo cur) ∧
    ∀ k, (k ∈ todo ∨ ∀ d, tableGet cur k = some d → PostOf T k d) → ∀ d, tableGet (inheritLoop todo cur) k = some d → PostOf T k d := by
  induction todo with
  | nil =>
    intro cur h
    refine ⟨h, fun k hk d hd => ?_⟩
    rcases hk with hk | hk
    · simp at hk
    · exact hk d hd
  | cons a todo ih =>
    intro cur h
    -- one turn
    have same : (∀ d, tableGet cur a = some d → d.kind = b!"string" → tableGet cur d.typeString = none) →
        Inheriting T (inheritLoop todo cur) ∧
        ∀ k, (k ∈ a :: todo ∨ ∀ d, tableGet cur k = some d → PostOf T k d) → ∀ d, tableGet (inheritLoop todo cur) k = some d → PostOf T k d := by
      intro hn
      refine ⟨(ih cur h).1, fun k hk => (ih cur h).2 k ?_⟩
      rcases hk with hk | hk
      · rcases List.mem_cons.mp hk with rfl | hk
        · right
          intro d hd
          have hr := h.reach _ _ hd
          cases hr with
          | here h1 =>
            refine .inr ⟨h1, fun hs => ?_⟩
            have := tableGet_keys h.keys d.typeString
            rw [hn d hd hs] at this
            cases hT : tableGet T d.typeString with
            | none => rfl
            | some _ => rw [hT] at this; simp at this
          | next h1 hk hr => exact .inl ⟨_, h1, hk, hr⟩
        · exact .inl hk
      · exact .inr hk
    rw [inheritLoop]
    cases ha : tableGet cur a with
    | none => exact same (by rw [ha]; intro d hd; cases hd)
    | some d =>
      by_cases hs : d.kind = b!"string"
      · simp only [hs, if_true]
        cases he : tableGet cur d.typeString with
        | none =>
          refine same ?_
          rw [ha]
          intro d' hd' _
          cases hd'
          exact he
        | some e =>
          dsimp only
          have hre := h.reach _ _ he
          have hpa : PostOf T a e := by
            cases h.reach _ _ ha with
            | here h1 => exact .inl ⟨d, h1, hs, hre⟩
            | next h1 hk hr => exact .inl ⟨_, h1, hk, hr.trans hs hre⟩
          have h' : Inheriting T (cur.map (fun p => if p.1 = a then (a, e) else p)) := by
            refine ⟨(map_replace_keys _ _ _).trans h.keys, fun k d' hd' => ?_⟩
            rw [tableGet_replace] at hd'
            split at hd'
            · rename_i hk
              subst hk
              rw [ha] at hd'
              cases hd'
              exact hpa.reach
            · exact h.reach _ _ hd'
          refine ⟨(ih _ h').1, fun k hk => (ih _ h').2 k ?_⟩
          by_cases hka : k = a
          · subst hka
            right
            intro d' hd'
            rw [tableGet_replace, if_pos rfl, ha] at hd'
            cases hd'
            exact hpa
          · rcases hk with hk | hk
            · rcases List.mem_cons.mp hk with e1 | hk
              · exact absurd e1 hka
              · exact .inl hk
            · right
              intro d' hd'
              rw [tableGet_replace, if_neg hka] at hd'
              exact hk d' hd'
      · simp only [hs, if_false]
        refine same ?_
        rw [ha]
        intro d' hd' hs'
        cases hd'
        exact absurd hs' hs

/-! ## Computing the definitions an entry can have -/

/-- Definitions reached from `k`, following at most `fuel` aliases; `none` when that was not enough. -/
def reachList (get : Str → Option TypeDef) : Nat → Str → Option (List TypeDef)
  | 0, _ => none
  | fuel + 1, k => match get k with
    | none => some []
    | some d => if d.kind = b!"string" then (reachList get fuel d.typeString).map (d :: ·) else some [d]

theorem reachList_sound {T : List (Str × TypeDef)} {k : Str} {d : TypeDef} (h : Reach T k d) :
    ∀ {fuel : Nat} {l : List TypeDef}, reachList (tableGet T) fuel k = some l → d ∈ l := by
  induction h with
  | here h =>
    intro fuel l hl
    cases fuel with
    | zero => cases hl
    | succ fuel =>
      rw [reachList, h] at hl
      dsimp only at hl
      split at hl
      · cases hx : reachList (tableGet T) fuel _ with
        | none => rw [hx] at hl; cases hl
        | some l' => rw [hx] at hl; cases hl; simp
      · cases hl; simp
  | next h hk _ ih =>
    intro fuel l hl
    cases fuel with
    | zero => cases hl
    | succ fuel =>
      rw [reachList, h] at hl
      dsimp only at hl
      rw [if_pos hk] at hl
      cases hx : reachList (tableGet T) fuel _ with
      | none => rw [hx] at hl; cases hl
      | some l' => rw [hx] at hl; cases hl; exact List.mem_cons_of_mem _ (ih hx)

/-- Definitions `k` with definition `d` can have after the "inherit" loop. -/
def postList (get : Str → Option TypeDef) (fuel : Nat) (d : TypeDef) : Option (List TypeDef) :=
  if d.kind = b!"string" then
    match reachList get fuel d.typeString with
    | none => none
    | some [] => some [d]
    | some l => some l
  else some [d]

theorem postList_sound {T : List (Str × TypeDef)} {k : Str} {d0 d : TypeDef} (h0 : tableGet T k = some d0) (h : PostOf T k d)
    {fuel : Nat} {l : List TypeDef} (hl : postList (tableGet T) fuel d0 = some l) : d ∈ l := by
  unfold postList at hl
  rcases h with ⟨d1, h1, hs, hr⟩ | ⟨h1, hn⟩
  · rw [h0] at h1
    cases h1
    rw [if_pos hs] at hl
    cases hx : reachList (tableGet T) fuel d0.typeString with
    | none => rw [hx] at hl; cases hl
    | some l' =>
      have := reachList_sound hr hx
      rw [hx] at hl
      cases l' with
      | nil => simp at this
      | cons a l' => cases hl; exact this
  · rw [h0] at h1
    cases h1
    split at hl
    · rename_i hs
      cases hx : reachList (tableGet T) fuel d0.typeString with
      | none => rw [hx] at hl; cases hl
      | some l' =>
        have hnil : l' = [] := by
          cases fuel with
          | zero => cases hx
          | succ n => rw [reachList, hn hs] at hx; cases hx; rfl
        rw [hx, hnil] at hl
        cases hl
        simp
    · cases hl
      simp

/-! ## Registration -/

/-- The class a definition of kind struct, enum or set stands for. -/
def plainClass (d : TypeDef) : Option Cls :=
  if d.kind = b!"struct" then match mappingRows d.mapping with
    | .ok l => some (.struct (newStruct l))
    | _ => none
  else if d.kind = b!"enum" then match mappingRows d.mapping with
    | .ok l => some (.enum d.values (newStruct l))
    | _ => none
  else if d.kind = b!"set" then some (.set d.values d.bits)
  else none

/-- The state with one registry entry changed. -/
def updReg (st : RegState) (n : Str) (o : Option Cls) : RegState :=
  { st with env := { st.env with reg := fun m => if m = n then o else st.env.reg m } }

theorem updReg_self (st : RegState) (n : Str) : updReg st n (st.env.reg n) = st := by
  have : (fun m => if m = n then st.env.reg n else st.env.reg m) = st.env.reg := by
    funext m
    split
    · rename_i h; rw [h]
    · rfl
  unfold updReg
  rw [this]

theorem updReg_twice (st : RegState) (n : Str) (o : Option Cls) : updReg (updReg st n o) n o = updReg st n o := by
  have : (fun m => if m = n then o else (if m = n then o else st.env.reg m)) = fun m => if m = n then o else st.env.reg m := by
    funext m
    split <;> rfl
  unfold updReg
  dsimp only
  rw [this]

theorem regCustomKey_upd (st : RegState) {key : Str} (c : Cls) (h : (35 : UInt8) ∉ key) :
    { st with env := regCustomKey st.env key c } = updReg st key (some c) := by
  have : splitSep key b!"#" = [key] := splitSep_absent 35 (by simp) h
  unfold regCustomKey
  rw [this]
  rfl

theorem regPlain_upd (st : RegState) {key : Str} {d : TypeDef} {c : Cls} (h : plainClass d = some c) (hk : (35 : UInt8) ∉ key) :
    regPlain st key d = .ok (updReg st key (some c)) := by
  unfold plainClass at h
  unfold regPlain
  split at h
  · rename_i hs
    rw [if_pos hs]
    split at h
    · rename_i l hl
      cases h
      rw [hl]
      exact congrArg Res.ok (regCustomKey_upd st _ hk)
    · cases h
  rename_i hs
  rw [if_neg hs]
  split at h
  · rename_i hs
    rw [if_pos hs]
    split at h
    · rename_i l hl
      cases h
      rw [hl]
      exact congrArg Res.ok (regCustomKey_upd st _ hk)
    · cases h
  rename_i hs
  rw [if_neg hs]
  split at h
  · rename_i hs
    rw [if_pos hs]
    cases h
    exact congrArg Res.ok (regCustomKey_upd st _ hk)
  · cases h

/-- Whichever of the values `B n` (before) and `E n` (after its own registration) `n` has, a class found there is `w`. -/
def hit (B E : Str → Option Cls) (n : Str) (w : Option Cls) : Bool := (B n == none || B n == w) && (E n == none || E n == w)

/-- Nothing may be found under `n`. -/
def mayMiss (B E : Str → Option Cls) (n : Str) : Bool := B n == none || E n == none

/-- The alias text itself stands for the class `E k`; when it stands for none, `k` has that class anyway. -/
def falls (B E : Str → Option Cls) (t k : Str) : Bool :=
  match aliasClass t with
  | .ok (some c) => E k == some c
  | .ok none => B k == E k
  | _ => false

/-- As `falls`, after `k` has been registered. -/
def fallsAfter (E : Str → Option Cls) (t k : Str) : Bool :=
  match aliasClass t with
  | .ok (some c) => E k == some c
  | .ok none => true
  | _ => false

/-- The alias `t` of `k` (lower case) leads to `E k` when `t` is a key whose definition is `e`. -/
def okExplained (B E : Str → Option Cls) (t k : Str) (e : TypeDef) : Bool :=
  if e.kind = b!"string" then hit B E (toLower e.typeString) (E k) && (!mayMiss B E (toLower e.typeString) || falls B E t k)
  else e.v14 == false && plainClass e == E k && (plainClass e).isSome && fallsAfter E t k

/-- An entry `k` (lower case) with definition `e` gets the class `E k`. -/
def okEntry (B E : Str → Option Cls) (get : Str → Option TypeDef) (fuel : Nat) (k : Str) (e : TypeDef) : Bool :=
  e.v14 == false &&
  if e.kind = b!"string" then
    let t := convertType e.typeString
    hit B E (toLower t) (E k) && (!mayMiss B E (toLower t) ||
      match get t with
      | none => falls B E t k
      | some d => match postList get fuel d with
        | none => false
        | some l => l.all (okExplained B E t k))
  else (plainClass e).isSome && plainClass e == E k

/-- Every entry gets its class. -/
def okTable (B E : Str → Option Cls) (get : Str → Option TypeDef) (fuel : Nat) (T : List (Str × TypeDef)) : Bool :=
  T.all fun p => (toLower p.1).all (· != 35) &&
    match postList get fuel p.2 with
    | none => false
    | some l => l.all (okEntry B E get fuel (toLower p.1))

/-- Every name has the value it had before or its final one. -/
def Between (B E : Str → Option Cls) (st : RegState) : Prop := ∀ n, st.env.reg n = B n ∨ st.env.reg n = E n

theorem Between.upd {B E : Str → Option Cls} {st : RegState} (h : Between B E st) (n : Str) : Between B E (updReg st n (E n)) := by
  intro m
  simp only [updReg]
  split
  · rename_i e; subst e; exact .inr rfl
  · exact h m

theorem hit_sound {B E : Str → Option Cls} {st : RegState} (hb : Between B E st) {n : Str} {w : Option Cls} (h : hit B E n w = true)
    {c : Cls} (hc : st.env.reg n = some c) : w = some c := by
  simp only [hit, Bool.and_eq_true, Bool.or_eq_true, beq_iff_eq] at h
  rcases hb n with e | e <;> rw [hc] at e
  · rcases h.1 with h | h
    · rw [h] at e; cases e
    · rw [← h, e]
  · rcases h.2 with h | h
    · rw [h] at e; cases e
    · rw [← h, e]

theorem miss_sound {B E : Str → Option Cls} {st : RegState} (hb : Between B E st) {n : Str} (hc : st.env.reg n = none) :
    mayMiss B E n = true := by
  simp only [mayMiss, Bool.or_eq_true, beq_iff_eq]
  rcases hb n with e | e <;> rw [hc] at e
  · exact .inl e.symm
  · exact .inr e.symm

theorem falls_sound {B E : Str → Option Cls} {st : RegState} (hb : Between B E st) {t k : Str} (h : falls B E t k = true)
    (hk : (35 : UInt8) ∉ k) : regAliasText st k t = .ok (updReg st k (E k)) := by
  unfold falls at h
  unfold regAliasText
  split at h
  · rename_i c hc
    rw [hc, beq_iff_eq.mp h]
    exact congrArg Res.ok (regCustomKey_upd st c hk)
  · rename_i hc
    rw [hc]
    have e : st.env.reg k = E k := by
      rcases hb k with e | e
      · rw [e]; exact beq_iff_eq.mp h
      · exact e
    rw [← e, updReg_self]
    rfl
  · cases h

theorem fallsAfter_sound {E : Str → Option Cls} (st : RegState) {t k : Str} (h : fallsAfter E t k = true)
    (hk : (35 : UInt8) ∉ k) : regAliasText (updReg st k (E k)) k t = .ok (updReg st k (E k)) := by
  unfold fallsAfter at h
  unfold regAliasText
  split at h
  · rename_i c hc
    rw [hc, beq_iff_eq.mp h]
    refine congrArg Res.ok ((regCustomKey_upd _ c hk).trans ?_)
    exact updReg_twice st k _
  · rename_i hc
    rw [hc]
    rfl
  · cases h

theorem regSingle_upd (fuel : Nat) (st : RegState) {k : Str} {d : TypeDef} {c : Cls} (hv : d.v14 = false) (h : plainClass d = some c)
    (hl : toLower k = k) (hk : (35 : UInt8) ∉ k) : regSingle fuel st k d = .ok (updReg st k (some c)) := by
  unfold regSingle v14Key
  rw [if_pos hv]
  show regPlain st (toLower k) d = _
  rw [hl]
  exact regPlain_upd st h hk

/-- One turn of the registration loop. -/
theorem regEntry_upd {B E : Str → Option Cls} {T all : List (Str × TypeDef)} {fuel fuel' : Nat} {st : RegState} (hb : Between B E st)
    (hkeys : ∀ k, (tableGet all k).isSome = (tableGet T k).isSome) (hpost : ∀ k d, tableGet all k = some d → PostOf T k d)
    {key : Str} {e : TypeDef} (hh : (35 : UInt8) ∉ toLower key) (hok : okEntry B E (tableGet T) fuel (toLower key) e = true) :
    regEntry fuel' all st key e = .ok (some (updReg st (toLower key) (E (toLower key)))) := by
  simp only [okEntry, Bool.and_eq_true, beq_iff_eq] at hok
  obtain ⟨hv, hok⟩ := hok
  unfold regEntry v14Key
  rw [if_pos hv]
  show (if e.kind = b!"string" then regAlias fuel' all st (toLower key) e >>= fun st => .ok (some st)
    else regPlain st (toLower key) e >>= fun st => .ok (some st)) = _
  split at hok
  · rename_i hs
    rw [if_pos hs]
    have key2 : regAlias fuel' all st (toLower key) e = .ok (updReg st (toLower key) (E (toLower key))) := by
      simp only [Bool.and_eq_true] at hok
      obtain ⟨h1, h2⟩ := hok
      unfold regAlias
      dsimp only
      cases hr : st.env.reg (toLower (convertType e.typeString)) with
      | some c =>
        dsimp only
        rw [hit_sound hb h1 hr]
        exact congrArg Res.ok (regCustomKey_upd st c hh)
      | none =>
        dsimp only
        rw [miss_sound hb hr] at h2
        simp only [Bool.not_true, Bool.false_or] at h2
        cases hT : tableGet T (convertType e.typeString) with
        | none =>
          rw [hT] at h2
          have : tableGet all (convertType e.typeString) = none := by
            have := hkeys (convertType e.typeString)
            rw [hT] at this
            simpa using this
          rw [this]
          exact falls_sound hb h2 hh
        | some d =>
          rw [hT] at h2
          dsimp only at h2
          have hsome := hkeys (convertType e.typeString)
          rw [hT] at hsome
          cases ha : tableGet all (convertType e.typeString) with
          | none => rw [ha] at hsome; simp at hsome
          | some e' =>
            dsimp only
            cases hp : postList (tableGet T) fuel d with
            | none => rw [hp] at h2; cases h2
            | some l =>
              rw [hp] at h2
              have h3 := List.all_eq_true.mp h2 e' (postList_sound hT (hpost _ _ ha) hp)
              unfold okExplained at h3
              split at h3
              · rename_i hs'
                rw [if_pos hs']
                simp only [Bool.and_eq_true] at h3
                cases hr' : st.env.reg (toLower e'.typeString) with
                | some c =>
                  dsimp only
                  rw [hit_sound hb h3.1 hr']
                  exact congrArg Res.ok (regCustomKey_upd st c hh)
                | none =>
                  have h4 := h3.2
                  rw [miss_sound hb hr'] at h4
                  simp only [Bool.not_true, Bool.false_or] at h4
                  exact falls_sound hb h4 hh
              · rename_i hs'
                rw [if_neg hs']
                simp only [Bool.and_eq_true, beq_iff_eq] at h3
                obtain ⟨⟨⟨hv', hpc⟩, hsm⟩, hfa⟩ := h3
                obtain ⟨c, hc⟩ := Option.isSome_iff_exists.mp hsm
                rw [regSingle_upd fuel' st hv' hc (toLower_idem key) hh, ← hc, hpc]
                exact fallsAfter_sound st hfa hh
    rw [key2]
    rfl
  · rename_i hs
    rw [if_neg hs]
    simp only [Bool.and_eq_true, beq_iff_eq] at hok
    obtain ⟨hsm, hpc⟩ := hok
    obtain ⟨c, hc⟩ := Option.isSome_iff_exists.mp hsm
    rw [regPlain_upd st hc hh, ← hc, hpc]
    rfl

/-- The registry after all entries of `l` had their turn. -/
def afterAll (E : Str → Option Cls) (st : RegState) (l : List (Str × TypeDef)) : RegState :=
  { st with env := { st.env with reg := fun n => if n ∈ l.map (fun p => toLower p.1) then E n else st.env.reg n } }

theorem regLoop_upd {B E : Str → Option Cls} {T all : List (Str × TypeDef)} {fuel fuel' : Nat}
    (hkeys : ∀ k, (tableGet all k).isSome = (tableGet T k).isSome) (hpost : ∀ k d, tableGet all k = some d → PostOf T k d)
    (l : List (Str × TypeDef)) (hl : ∀ p ∈ l, (35 : UInt8) ∉ toLower p.1 ∧ okEntry B E (tableGet T) fuel (toLower p.1) p.2 = true) :
    ∀ st, Between B E st → regLoop fuel' all st l = .ok (afterAll E st l) := by
  induction l with
  | nil =>
    intro st _
    simp [regLoop, afterAll]
  | cons p l ih =>
    intro st hb
    obtain ⟨key, e⟩ := p
    have hp := hl _ List.mem_cons_self
    rw [regLoop, regEntry_upd hb hkeys hpost hp.1 hp.2, Res.ok_bind]
    show regLoop fuel' all _ l = _
    rw [ih (fun q hq => hl q (List.mem_cons_of_mem _ hq)) _ (hb.upd _)]
    congr 1
    unfold afterAll updReg
    dsimp only
    congr 2
    funext n
    simp only [List.map_cons, List.mem_cons]
    by_cases h1 : n ∈ l.map (fun p => toLower p.1)
    · rw [if_pos h1, if_pos (.inr h1)]
    · rw [if_neg h1]
      by_cases h2 : n = toLower key
      · rw [if_pos h2, if_pos (.inl h2), h2]
      · rw [if_neg h2, if_neg (by simp [h1, h2])]

theorem tableGet_of_mem {α : Type} {l : List (Str × α)} (hn : (l.map Prod.fst).Nodup) {k : Str} {v : α} (h : (k, v) ∈ l) :
    tableGet l k = some v := by
  induction l with
  | nil => simp at h
  | cons p l ih =>
    obtain ⟨k', v'⟩ := p
    simp only [List.map_cons, List.nodup_cons] at hn
    rcases List.mem_cons.mp h with e | h
    · cases e
      rw [tableGet, if_pos rfl]
    · rw [tableGet, if_neg, ih hn.2 h]
      rintro rfl
      exact hn.1 (List.mem_map.mpr ⟨_, h, rfl⟩)

theorem mem_of_tableGet {α : Type} {l : List (Str × α)} {k : Str} {v : α} (h : tableGet l k = some v) : (k, v) ∈ l := by
  induction l with
  | nil => cases h
  | cons p a ih =>
    obtain ⟨k', v'⟩ := p
    rw [tableGet] at h
    split at h
    · rename_i e; cases h; subst e; simp
    · exact List.mem_cons_of_mem _ (ih h)

theorem tableGet_perm {α : Type} {a b : List (Str × α)} (h : a.Perm b) (hn : (a.map Prod.fst).Nodup) (k : Str) :
    tableGet a k = tableGet b k := by
  have hn' : (b.map Prod.fst).Nodup := (h.map _).nodup_iff.mp hn
  cases ha : tableGet a k with
  | some v =>
    rw [tableGet_of_mem hn' (h.mem_iff.mp (mem_of_tableGet ha))]
  | none =>
    cases hb : tableGet b k with
    | none => rfl
    | some v =>
      rw [tableGet_of_mem hn (h.mem_iff.mpr (mem_of_tableGet hb))] at ha
      cases ha

/-- Loading the table gives the expected registry for every order of the two loops. -/
theorem load_any_order {B E : Str → Option Cls} {T : List (Str × TypeDef)} {fuel : Nat} (hn : (T.map Prod.fst).Nodup)
    (hok : okTable B E (tableGet T) fuel T = true) (order : List Str) (ho : order.Perm (T.map Prod.fst)) (l : List (Str × TypeDef))
    (hl : l.Perm (inheritLoop order T)) (st : RegState) (hst : st.env.reg = B) (fuel' : Nat) :
    regCustomTypes fuel' st l = .ok (afterAll E st T) := by
  obtain ⟨hinv, hpost⟩ := inheritLoop_inv order T (.start T)
  have hn2 : ((inheritLoop order T).map Prod.fst).Nodup := by rw [hinv.keys]; exact hn
  have hn3 : (l.map Prod.fst).Nodup := (hl.map _).nodup_iff.mpr hn2
  have hget : ∀ k, tableGet l k = tableGet (inheritLoop order T) k := tableGet_perm hl hn3
  have hpost' : ∀ k d, tableGet l k = some d → PostOf T k d := by
    intro k d hd
    rw [hget] at hd
    refine hpost k (.inl ?_) d hd
    rw [ho.mem_iff, ← hinv.keys]
    have := mem_of_tableGet hd
    exact List.mem_map.mpr ⟨_, this, rfl⟩
  have h := regLoop_upd (B := B) (E := E) (T := T) (all := l) (fuel := fuel) (fuel' := fuel')
    (fun k => by rw [hget]; exact tableGet_keys hinv.keys k) hpost' l ?_ st (fun n => .inl (by rw [hst]))
  · rw [regCustomTypes, h]
    congr 1
    unfold afterAll
    dsimp only
    congr 2
    funext n
    have : n ∈ l.map (fun p => toLower p.1) ↔ n ∈ T.map (fun p => toLower p.1) := by
      have e1 : l.map (fun p => toLower p.1) = (l.map Prod.fst).map toLower := by rw [List.map_map]; rfl
      have e2 : T.map (fun p => toLower p.1) = (T.map Prod.fst).map toLower := by rw [List.map_map]; rfl
      rw [e1, e2, ← hinv.keys]
      exact ((hl.map _).map _).mem_iff
    simp only [this]
  · intro p hp
    obtain ⟨k, e⟩ := p
    have hg := tableGet_of_mem hn3 hp
    have hpo := hpost' _ _ hg
    have hs := hpo.reach.isSome
    obtain ⟨d, hd⟩ := Option.isSome_iff_exists.mp hs
    have := List.all_eq_true.mp hok _ (mem_of_tableGet hd)
    simp only [Bool.and_eq_true] at this
    refine ⟨?_, ?_⟩
    · intro hm
      have := List.all_eq_true.mp this.1 _ hm
      simp at this
    · have h2 := this.2
      cases hp : postList (tableGet T) fuel d with
      | none => rw [hp] at h2; cases h2
      | some l' =>
        rw [hp] at h2
        exact List.all_eq_true.mp h2 e (postList_sound hd hpo hp)

end ScaleGo
