import Verif.Lemmas.LoadOrder
import Verif.Props.C33

/-! # Loading definitions with version ranges does not depend on the iteration orders

As `LoadOrder`, for tables whose keys may carry a version range. -/

namespace ScaleGo

/-- The key has a version range. -/
def versioned (k : Str) : Bool := match splitSep k b!"#" with
  | [_, _] => true
  | _ => false

/-- The state after `k` (lower case) got the class `o`, if any. -/
def putKey (st : RegState) (k : Str) : Option Cls → RegState
  | some c => { st with env := regCustomKey st.env k c }
  | none => st

theorem putKey_plain {st : RegState} {k : Str} (h : versioned k = false) (c : Cls) :
    putKey st k (some c) = updReg st k (some c) := by
  show ({ st with env := regCustomKey st.env k c } : RegState) = _
  unfold regCustomKey
  unfold versioned at h
  split
  · rename_i n r e
    rw [e] at h
    cases h
  · rfl

/-- As `falls`. -/
def fallsKey (B E : Str → Option Cls) (t k : Str) : Bool :=
  match aliasClass t with
  | .ok (some c) => E k == some c
  | .ok none => if versioned k then E k == none else B k == E k
  | _ => false

/-- As `fallsAfter`. -/
def fallsKeyAfter (E : Str → Option Cls) (t k : Str) : Bool :=
  match aliasClass t with
  | .ok (some c) => !versioned k && E k == some c
  | .ok none => true
  | _ => false

/-- As `okExplained`. -/
def okKeyExplained (B E : Str → Option Cls) (t k : Str) (e : TypeDef) : Bool :=
  if e.kind = b!"string" then hit B E (toLower e.typeString) (E k) && (!mayMiss B E (toLower e.typeString) || fallsKey B E t k)
  else e.v14 == false && plainClass e == E k && (plainClass e).isSome && fallsKeyAfter E t k

/-- As `okEntry`. -/
def okKeyEntry (B E : Str → Option Cls) (get : Str → Option TypeDef) (fuel : Nat) (k : Str) (e : TypeDef) : Bool :=
  e.v14 == false &&
  if e.kind = b!"string" then
    let t := convertType e.typeString
    hit B E (toLower t) (E k) && (!mayMiss B E (toLower t) ||
      match get t with
      | none => fallsKey B E t k
      | some d => match postList get fuel d with
        | none => false
        | some l => l.all (okKeyExplained B E t k))
  else (plainClass e).isSome && plainClass e == E k

/-- Every entry gets its class. -/
def okKeyTable (B E : Str → Option Cls) (get : Str → Option TypeDef) (fuel : Nat) (T : List (Str × TypeDef)) : Bool :=
  T.all fun p => match postList get fuel p.2 with
    | none => false
    | some l => l.all (okKeyEntry B E get fuel (toLower p.1))

theorem Between.put {B E : Str → Option Cls} {st : RegState} (h : Between B E st) (k : Str) : Between B E (putKey st k (E k)) := by
  cases hE : E k with
  | none => exact h
  | some c =>
    intro m
    show (regCustomKey st.env k c).reg m = B m ∨ (regCustomKey st.env k c).reg m = E m
    unfold regCustomKey
    split
    · exact h m
    · simp only [setReg]
      split
      · rename_i e; subst e; exact .inr hE.symm
      · exact h m

theorem putKey_self {st : RegState} {k : Str} (h : versioned k = false) : putKey st k (st.env.reg k) = st := by
  cases hE : st.env.reg k with
  | none => rfl
  | some c => rw [putKey_plain h, ← hE, updReg_self]

theorem fallsKey_sound {B E : Str → Option Cls} {st : RegState} (hb : Between B E st) {t k : Str} (h : fallsKey B E t k = true) :
    regAliasText st k t = .ok (putKey st k (E k)) := by
  unfold fallsKey at h
  unfold regAliasText
  split at h
  · rename_i c hc
    rw [hc, beq_iff_eq.mp h]
    rfl
  · rename_i hc
    rw [hc]
    show Res.ok st = _
    split at h
    · rw [beq_iff_eq.mp h]
      rfl
    · rename_i hv
      have e : st.env.reg k = E k := by
        rcases hb k with e | e
        · rw [e]; exact beq_iff_eq.mp h
        · exact e
      rw [← e, putKey_self (by simpa using hv)]
  · cases h

theorem fallsKeyAfter_sound {E : Str → Option Cls} (st : RegState) {t k : Str} (h : fallsKeyAfter E t k = true) :
    regAliasText (putKey st k (E k)) k t = .ok (putKey st k (E k)) := by
  unfold fallsKeyAfter at h
  unfold regAliasText
  split at h
  · rename_i c hc
    simp only [Bool.and_eq_true, Bool.not_eq_true', beq_iff_eq] at h
    rw [hc, h.2]
    show Res.ok (putKey (putKey st k (some c)) k (some c)) = _
    rw [putKey_plain h.1, putKey_plain h.1, updReg_twice]
  · rename_i hc
    rw [hc]
    rfl
  · cases h

theorem regPlain_put (st : RegState) {key : Str} {d : TypeDef} {c : Cls} (h : plainClass d = some c) :
    regPlain st key d = .ok (putKey st key (some c)) := by
  unfold plainClass at h
  unfold regPlain
  split at h
  · rename_i hs
    rw [if_pos hs]
    split at h
    · rename_i l hl
      cases h
      rw [hl]
      rfl
    · cases h
  rename_i hs
  rw [if_neg hs]
  split at h
  · rename_i hs
    rw [if_pos hs]
    split at h
    · rename_i l hl
      cases h
      rw [hl]
      rfl
    · cases h
  rename_i hs
  rw [if_neg hs]
  split at h
  · rename_i hs
    rw [if_pos hs]
    cases h
    rfl
  · cases h

theorem regSingle_put (fuel : Nat) (st : RegState) {k : Str} {d : TypeDef} {c : Cls} (hv : d.v14 = false) (h : plainClass d = some c)
    (hl : toLower k = k) : regSingle fuel st k d = .ok (putKey st k (some c)) := by
  unfold regSingle v14Key
  rw [if_pos hv]
  show regPlain st (toLower k) d = _
  rw [hl]
  exact regPlain_put st h

/-- One turn of the registration loop. -/
theorem regEntry_put {B E : Str → Option Cls} {T all : List (Str × TypeDef)} {fuel fuel' : Nat} {st : RegState} (hb : Between B E st)
    (hkeys : ∀ k, (tableGet all k).isSome = (tableGet T k).isSome) (hpost : ∀ k d, tableGet all k = some d → PostOf T k d)
    {key : Str} {e : TypeDef} (hok : okKeyEntry B E (tableGet T) fuel (toLower key) e = true) :
    regEntry fuel' all st key e = .ok (some (putKey st (toLower key) (E (toLower key)))) := by
  simp only [okKeyEntry, Bool.and_eq_true, beq_iff_eq] at hok
  obtain ⟨hv, hok⟩ := hok
  unfold regEntry v14Key
  rw [if_pos hv]
  show (if e.kind = b!"string" then regAlias fuel' all st (toLower key) e >>= fun st => .ok (some st)
    else regPlain st (toLower key) e >>= fun st => .ok (some st)) = _
  split at hok
  · rename_i hs
    rw [if_pos hs]
    have key2 : regAlias fuel' all st (toLower key) e = .ok (putKey st (toLower key) (E (toLower key))) := by
      simp only [Bool.and_eq_true] at hok
      obtain ⟨h1, h2⟩ := hok
      unfold regAlias
      dsimp only
      cases hr : st.env.reg (toLower (convertType e.typeString)) with
      | some c =>
        dsimp only
        rw [hit_sound hb h1 hr]
        rfl
      | none =>
        dsimp only
        rw [miss_sound hb hr] at h2
        simp only [Bool.not_true, Bool.false_or] at h2
        cases hT : tableGet T (convertType e.typeString) with
        | none =>
          rw [hT] at h2
          have : tableGet all (convertType e.typeString) = none := by
            have := hkeys (convertType e.typeString)
            rw [hT] at this
            simpa using this
          rw [this]
          exact fallsKey_sound hb h2
        | some d =>
          rw [hT] at h2
          dsimp only at h2
          have hsome := hkeys (convertType e.typeString)
          rw [hT] at hsome
          cases ha : tableGet all (convertType e.typeString) with
          | none => rw [ha] at hsome; simp at hsome
          | some e' =>
            dsimp only
            cases hp : postList (tableGet T) fuel d with
            | none => rw [hp] at h2; cases h2
            | some l =>
              rw [hp] at h2
              have h3 := List.all_eq_true.mp h2 e' (postList_sound hT (hpost _ _ ha) hp)
              unfold okKeyExplained at h3
              split at h3
              · rename_i hs'
                rw [if_pos hs']
                simp only [Bool.and_eq_true] at h3
                cases hr' : st.env.reg (toLower e'.typeString) with
                | some c =>
                  dsimp only
                  rw [hit_sound hb h3.1 hr']
                  rfl
                | none =>
                  have h4 := h3.2
                  rw [miss_sound hb hr'] at h4
                  simp only [Bool.not_true, Bool.false_or] at h4
                  exact fallsKey_sound hb h4
              · rename_i hs'
                rw [if_neg hs']
                simp only [Bool.and_eq_true, beq_iff_eq] at h3
                obtain ⟨⟨⟨hv', hpc⟩, hsm⟩, hfa⟩ := h3
                obtain ⟨c, hc⟩ := Option.isSome_iff_exists.mp hsm
                rw [regSingle_put fuel' st hv' hc (toLower_idem key), ← hc, hpc]
                exact fallsKeyAfter_sound st hfa
    rw [key2]
    rfl
  · rename_i hs
    rw [if_neg hs]
    simp only [Bool.and_eq_true, beq_iff_eq] at hok
    obtain ⟨hsm, hpc⟩ := hok
    obtain ⟨c, hc⟩ := Option.isSome_iff_exists.mp hsm
    rw [regPlain_put st hc, ← hc, hpc]
    rfl

/-- The state after all of these keys (lower case) had their turn. -/
def putAll (E : Str → Option Cls) (st : RegState) (ks : List Str) : RegState := ks.foldl (fun st k => putKey st k (E k)) st

theorem regLoop_put {B E : Str → Option Cls} {T all : List (Str × TypeDef)} {fuel fuel' : Nat}
    (hkeys : ∀ k, (tableGet all k).isSome = (tableGet T k).isSome) (hpost : ∀ k d, tableGet all k = some d → PostOf T k d)
    (l : List (Str × TypeDef)) (hl : ∀ p ∈ l, okKeyEntry B E (tableGet T) fuel (toLower p.1) p.2 = true) :
    ∀ st, Between B E st → regLoop fuel' all st l = .ok (putAll E st (l.map fun p => toLower p.1)) := by
  induction l with
  | nil =>
    intro st _
    simp [regLoop, putAll]
  | cons p l ih =>
    intro st hb
    obtain ⟨key, e⟩ := p
    rw [regLoop, regEntry_put hb hkeys hpost (hl _ List.mem_cons_self), Res.ok_bind]
    show regLoop fuel' all _ l = _
    rw [ih (fun q hq => hl q (List.mem_cons_of_mem _ hq)) _ (hb.put _)]
    rfl

/-- Loading the table, for every order of the two loops. -/
theorem load_keys_any_order {B E : Str → Option Cls} {T : List (Str × TypeDef)} {fuel : Nat} (hn : (T.map Prod.fst).Nodup)
    (hok : okKeyTable B E (tableGet T) fuel T = true) (order : List Str) (ho : order.Perm (T.map Prod.fst)) (l : List (Str × TypeDef))
    (hl : l.Perm (inheritLoop order T)) (st : RegState) (hst : st.env.reg = B) (fuel' : Nat) :
    ∃ ks, ks.Perm (T.map fun p => toLower p.1) ∧ regCustomTypes fuel' st l = .ok (putAll E st ks) := by
  obtain ⟨hinv, hpost⟩ := inheritLoop_inv order T (.start T)
  have hn2 : ((inheritLoop order T).map Prod.fst).Nodup := by rw [hinv.keys]; exact hn
  have hn3 : (l.map Prod.fst).Nodup := (hl.map _).nodup_iff.mpr hn2
  have hget : ∀ k, tableGet l k = tableGet (inheritLoop order T) k := tableGet_perm hl hn3
  have hpost' : ∀ k d, tableGet l k = some d → PostOf T k d := by
    intro k d hd
    rw [hget] at hd
    refine hpost k (.inl ?_) d hd
    rw [ho.mem_iff, ← hinv.keys]
    have := mem_of_tableGet hd
    exact List.mem_map.mpr ⟨_, this, rfl⟩
  have hr := regLoop_put (B := B) (E := E) (T := T) (all := l) (fuel := fuel) (fuel' := fuel')
    (fun k => by rw [hget]; exact tableGet_keys hinv.keys k) hpost' l ?_ st (fun n => .inl (by rw [hst]))
  refine ⟨l.map (fun (p : Str × TypeDef) => toLower p.1), ?_, hr⟩
  · have e1 : l.map (fun p => toLower p.1) = (l.map Prod.fst).map toLower := by rw [List.map_map]; rfl
    have e2 : T.map (fun p => toLower p.1) = (T.map Prod.fst).map toLower := by rw [List.map_map]; rfl
    rw [e1, e2, ← hinv.keys]
    exact (hl.map _).map _
  · intro p hp
    obtain ⟨k, e⟩ := p
    have hg := tableGet_of_mem hn3 hp
    have hpo := hpost' _ _ hg
    obtain ⟨d, hd⟩ := Option.isSome_iff_exists.mp hpo.reach.isSome
    have h2 := List.all_eq_true.mp hok _ (mem_of_tableGet hd)
    cases hp : postList (tableGet T) fuel d with
    | none => simp only [hp] at h2; cases h2
    | some l' =>
      simp only [hp] at h2
      exact List.all_eq_true.mp h2 e (postList_sound hd hpo hp)

/-! ## The order of the keys -/

/-- Version ranges of one name do not overlap. -/
def apartKeys (a b : Str) : Bool :=
  match splitSep a b!"#", splitSep b b!"#" with
  | [n, r], [m, s] => n != m || decide ((specialRange r).2 < (specialRange s).1) || decide ((specialRange s).2 < (specialRange r).1)
  | _, _ => true

theorem apartKeys_symm {a b : Str} (h : apartKeys a b = true) : apartKeys b a = true := by
  unfold apartKeys at h ⊢
  split at h
  · rename_i n r m s e1 e2
    rw [e1, e2]
    simp only [Bool.or_eq_true, bne_iff_ne, ne_eq, decide_eq_true_eq] at h ⊢
    tauto
  · rename_i hn
    split
    · rename_i n r m s e1 e2
      exact absurd e1 (fun e1 => hn _ _ _ _ e2 e1)
    · rfl

theorem Agree.regKey {a b : Env} (h : Agree a b) (k : Str) (c : Cls) : Agree (regCustomKey a k c) (regCustomKey b k c) := by
  obtain ⟨h1, h2, h3⟩ := h
  unfold regCustomKey
  split
  · rename_i n r _
    refine ⟨h1, fun t v => ?_, h3⟩
    simp only [addSpecial]
    split
    · rename_i e
      subst e
      have := h2 t v
      rw [findSpecial_append, findSpecial_append, this]
    · exact h2 t v
  · refine ⟨fun t => ?_, h2, h3⟩
    simp only [setReg]
    split
    · rfl
    · exact h1 t

theorem regKey_comm (env : Env) {a b : Str} (h : apartKeys a b = true) (hab : a ≠ b) (c d : Cls) :
    Agree (regCustomKey (regCustomKey env a c) b d) (regCustomKey (regCustomKey env b d) a c) := by
  unfold apartKeys at h
  unfold regCustomKey
  split
  · rename_i m s e2
    split
    · rename_i n r e1
      rw [e1, e2] at h
      simp only [Bool.or_eq_true, bne_iff_ne, ne_eq, decide_eq_true_eq] at h
      refine ⟨fun _ => rfl, fun k v => ?_, rfl⟩
      simp only [addSpecial]
      by_cases hk : k = m <;> by_cases hk2 : k = n
      · subst hk hk2
        simp only [if_true, List.append_assoc, findSpecial_append]
        congr 1
        simp only [not_true, false_or] at h
        simp only [findSpecial]
        by_cases h1 : v ≥ (specialRange r).1 ∧ v ≤ (specialRange r).2 <;> by_cases h2 : v ≥ (specialRange s).1 ∧ v ≤ (specialRange s).2
        · exfalso; omega
        · simp [h1, h2]
        · simp [h1, h2]
        · simp [h1, h2]
      · subst hk
        simp [hk2]
      · subst hk2
        simp [hk]
      · simp [hk, hk2]
    · exact ⟨fun _ => rfl, fun _ _ => rfl, rfl⟩
  · split
    · exact ⟨fun _ => rfl, fun _ _ => rfl, rfl⟩
    · refine ⟨fun k => ?_, fun _ _ => rfl, rfl⟩
      simp only [setReg]
      by_cases hk : k = a <;> by_cases hk2 : k = b
      · subst hk hk2; exact absurd rfl hab
      · subst hk
        simp [hk2]
      · subst hk2
        simp [hk]
      · simp [hk, hk2]

/-- Two states that give the same classes. -/
def AgreeSt (a b : RegState) : Prop := Agree a.env b.env ∧ a.v14 = b.v14

theorem AgreeSt.refl (a : RegState) : AgreeSt a a := ⟨.refl _, rfl⟩

theorem AgreeSt.trans {a b c : RegState} (h : AgreeSt a b) (h' : AgreeSt b c) : AgreeSt a c := ⟨h.1.trans h'.1, h.2.trans h'.2⟩

theorem AgreeSt.put {a b : RegState} (h : AgreeSt a b) (k : Str) (o : Option Cls) : AgreeSt (putKey a k o) (putKey b k o) := by
  cases o with
  | none => exact h
  | some c => exact ⟨h.1.regKey k c, h.2⟩

theorem put_comm (E : Str → Option Cls) (st : RegState) {a b : Str} (h : apartKeys a b = true) :
    AgreeSt (putKey (putKey st a (E a)) b (E b)) (putKey (putKey st b (E b)) a (E a)) := by
  by_cases hab : a = b
  · subst hab
    exact .refl _
  · cases ha : E a with
    | none => exact .refl _
    | some c =>
      cases hb : E b with
      | none => exact .refl _
      | some d => exact ⟨regKey_comm st.env h hab c d, rfl⟩

theorem putAll_congr (E : Str → Option Cls) : ∀ (l : List Str) {x y : RegState}, AgreeSt x y → AgreeSt (putAll E x l) (putAll E y l)
  | [], _, _, h => h
  | k :: l, _, _, h => putAll_congr E l (h.put k (E k))

theorem putAll_perm (E : Str → Option Cls) {l l' : List Str} (hp : l.Perm l') (hs : l.Pairwise fun a b => apartKeys a b = true) :
    ∀ a, AgreeSt (putAll E a l) (putAll E a l') := by
  induction hp with
  | nil => intro a; exact .refl _
  | cons e _ ih =>
    intro a
    exact ih (List.pairwise_cons.1 hs).2 _
  | swap e f l =>
    intro a
    have hfe := (List.pairwise_cons.1 hs).1 e (by simp)
    exact putAll_congr E l (put_comm E a hfe)
  | trans hp1 _ ih1 ih2 =>
    intro a
    exact (ih1 hs a).trans (ih2 ((hp1.pairwise_iff (fun h => apartKeys_symm h)).1 hs) a)

/-- No two ranges of one name overlap. -/
def apartAll : List Str → Bool
  | [] => true
  | a :: l => l.all (apartKeys a) && apartAll l

theorem apartAll_pairwise : ∀ {l : List Str}, apartAll l = true → l.Pairwise fun a b => apartKeys a b = true
  | [], _ => .nil
  | a :: l, h => by
    rw [apartAll, Bool.and_eq_true] at h
    exact .cons (fun b hb => List.all_eq_true.mp h.1 b hb) (apartAll_pairwise h.2)

theorem apartKeys_plain {a b : Str} (h : ¬ (versioned a = true ∧ versioned b = true)) : apartKeys a b = true := by
  unfold apartKeys
  split
  · rename_i n r m s e1 e2
    exact absurd ⟨by rw [versioned, e1], by rw [versioned, e2]⟩ h
  · rfl

theorem apart_versioned {l : List Str} (h : apartAll (l.filter versioned) = true) : l.Pairwise fun a b => apartKeys a b = true := by
  have := List.pairwise_filter.mp (apartAll_pairwise h)
  refine this.imp fun {a b} hab => ?_
  by_cases hv : versioned a = true ∧ versioned b = true
  · exact hab hv.1 hv.2
  · exact apartKeys_plain hv

/-- Whatever the orders are, the table is loaded, and with the same result. -/
theorem load_orders_agree {B E : Str → Option Cls} {T : List (Str × TypeDef)} {fuel : Nat} (hn : (T.map Prod.fst).Nodup)
    (hok : okKeyTable B E (tableGet T) fuel T = true) (ha : apartAll ((T.map fun p => toLower p.1).filter versioned) = true)
    (order order' : List Str) (ho : order.Perm (T.map Prod.fst)) (ho' : order'.Perm (T.map Prod.fst)) (l l' : List (Str × TypeDef))
    (hl : l.Perm (inheritLoop order T)) (hl' : l'.Perm (inheritLoop order' T)) (st : RegState) (hst : st.env.reg = B) (f f' : Nat) :
    ∃ s s', regCustomTypes f st l = .ok s ∧ regCustomTypes f' st l' = .ok s' ∧ AgreeSt s s' := by
  obtain ⟨ks, h1, h2⟩ := load_keys_any_order hn hok order ho l hl st hst f
  obtain ⟨ks', h1', h2'⟩ := load_keys_any_order hn hok order' ho' l' hl' st hst f'
  refine ⟨_, _, h2, h2', putAll_perm E (h1.trans h1'.symm) ?_ st⟩
  exact (h1.pairwise_iff (fun h => apartKeys_symm h)).2 (apart_versioned ha)

end ScaleGo
