import Verif.Lemmas.Portable
import Verif.Lemmas.Bytes
import Verif.Lemmas.History
import Verif.Lemmas.KernelRfl
import Verif.Model.Base

/-! # C56: types with the same path get different names

Types without path all get the empty name, since the count of equal names leaves the empty name out. -/

namespace ScaleGo

namespace Spec

/-- The segments with single colons between them. -/
def colons : List Str → Str
  | [] => []
  | [p] => p
  | p :: ps => p ++ 58 :: colons ps

/-- The path of a type, with the prefix of the registry if it has one. -/
def fullPath (pre : Str) (path : List Str) : Str := if pre = [] then colons path else pre ++ 58 :: colons path

/-- Registered under its own name: a struct with no or several fields, or an enum. -/
def OwnName (t : SiType) : Prop := IsStruct t ∨ IsEnum t

end Spec

open ScaleGo.Spec

/-- C56 in full. -/
def C56Claim : Prop :=
  ∀ (cfg : SiCfg) (fuel : Nat) (reg : RegState) (st : SiState), processSiType cfg fuel reg = .ok st →
    ∀ i j, i < cfg.count → j < cfg.count → i ≠ j → OwnName (cfg.types i) → OwnName (cfg.types j) →
      (cfg.types i).path = (cfg.types j).path →
      ∃ a b, st.ids i = some a ∧ st.ids j = some b ∧ ¬ SameName a b

theorem colons_join (l : List Str) : joinSep b!":" l = colons l := by
  induction l with
  | nil => rfl
  | cons a l ih =>
    cases l with
    | nil => rfl
    | cons b l =>
      have e : joinSep b!":" (a :: b :: l) = a ++ b!":" ++ joinSep b!":" (b :: l) := rfl
      rw [e, ih]
      simp [colons]

theorem pathName_spec (cfg : SiCfg) (t : SiType) : pathName cfg t = fullPath cfg.pathPrefix t.path := by
  unfold pathName fullPath
  rw [colons_join]
  simp

theorem nameSiType_own {cfg : SiCfg} {t : SiType} (h : OwnName t) (id : Option Nat) :
    nameSiType cfg t id = .ok (generateName cfg t id) := by
  unfold nameSiType
  rcases h with ⟨fs, h1, _⟩ | ⟨vs, p, ps, h1, h2, h3, h4, h5⟩
  · rw [h1]
  · unfold IsCallTag at h5
    rw [h2] at h5
    rw [h1]
    simp only [h2, h3, h4, Bool.or_self, Bool.false_eq_true, if_false]
    rw [if_neg (fun hp => h5 (.inl (palletCall_last hp))), if_neg]
    rw [sliceIndex_mem_iff]
    intro hm
    simp at hm
    exact h5 (hm.elim .inl fun e => .inr (.inl e))

/-- `countNames` counts. -/
theorem countNames_count {cfg : SiCfg} {k : Str} (hk : k ≠ []) : ∀ (n i : Nat) (dup dup' : Str → Nat),
    countNames cfg i n dup = .ok dup' →
    dup' k = dup k + (List.range' i n).countP (fun m => decide (nameSiType cfg (cfg.types m) none = .ok k)) := by
  intro n
  induction n with
  | zero => intro i dup dup' h; cases h; rfl
  | succ n ih =>
    intro i dup dup' h
    unfold countNames at h
    rw [Res.bind_eq_ok] at h
    obtain ⟨name, hn, h⟩ := h
    rw [ih _ _ _ h, List.range'_succ, List.countP_cons, hn]
    by_cases e : name = k
    · subst e
      simp [hk]
      omega
    · have : ¬ (Res.ok name : Res Str) = .ok k := by intro h'; cases h'; exact e rfl
      simp only [this, decide_false, Bool.false_eq_true, if_false, Nat.add_zero]
      split
      · rfl
      · simp only
        rw [if_neg (fun h' => e h'.symm)]

theorem countP_two {l : List Nat} {p : Nat → Bool} {i j : Nat} (hi : i ∈ l) (hj : j ∈ l) (hne : i ≠ j) (h1 : p i = true)
    (h2 : p j = true) : 2 ≤ l.countP p := by
  rw [List.countP_eq_length_filter]
  have m1 : i ∈ l.filter p := List.mem_filter.2 ⟨hi, h1⟩
  have m2 : j ∈ l.filter p := List.mem_filter.2 ⟨hj, h2⟩
  match hl : l.filter p with
  | [] => rw [hl] at m1; cases m1
  | [a] =>
    rw [hl] at m1 m2
    exact absurd ((List.mem_singleton.1 m1).trans (List.mem_singleton.1 m2).symm) hne
  | a :: b :: r => simp

theorem countP_one {l : List Nat} {p : Nat → Bool} {i : Nat} (hnd : l.Nodup) (h : ∀ j ∈ l, p j = true → j = i) : l.countP p ≤ 1 := by
  rw [List.countP_eq_length_filter]
  have hn : (l.filter p).Nodup := hnd.filter _
  match hl : l.filter p with
  | [] => simp
  | [a] => simp
  | a :: b :: r =>
    have ha : a ∈ l.filter p := by rw [hl]; simp
    have hb : b ∈ l.filter p := by rw [hl]; simp
    rw [List.mem_filter] at ha hb
    rw [hl] at hn
    have : a = b := (h a ha.1 ha.2).trans (h b hb.1 hb.2).symm
    subst this
    simp at hn

/-- A struct or enum has one text, its name. -/
theorem text_own {cfg : SiCfg} {i : Nat} {t : Str} (h : OwnName (cfg.types i))
    (hp : (cfg.types i).path.head? ≠ some b!"primitive_types") (ht : Text cfg NoEarly i t) : t = generateName cfg (cfg.types i) (some i) := by
  have hname : ∀ n, nameSiType cfg (cfg.types i) (some i) = .ok n → n = generateName cfg (cfg.types i) (some i) := by
    intro n hn
    rw [nameSiType_own h] at hn
    cases hn
    rfl
  have hover : overriderTypesName (cfg.types i) = [] := by
    unfold overriderTypesName
    rcases h with ⟨fs, h1, h2, _⟩ | ⟨vs, p, ps, h1, _⟩
    · rw [h1]
      match fs with
      | [] => rfl
      | [f] => simp at h2
      | _ :: _ :: _ => rfl
    · rw [h1]
  rcases h with ⟨fs, h1, h2, h3⟩ | ⟨vs, p, ps, h1, h2, h3, h4, h5⟩
  · cases ht with
    | name _ hn _ => exact hname _ hn
    | emptyName _ _ hn => exact hname _ hn
    | override _ ho => exact absurd hover ho
    | primitiveTypes hh => exact absurd hh hp
    | account e => rw [h1] at e; cases e; simp at h2
    | wrapper _ _ hw => exact absurd hw h3
    | newtype _ e => rw [h1] at e; cases e; simp at h2
    | selfNewtype _ e => rw [h1] at e; cases e; simp at h2
    | _ => simp_all
  · cases ht with
    | name _ hn _ => exact hname _ hn
    | emptyName _ _ hn => exact hname _ hn
    | override _ ho => exact absurd hover ho
    | primitiveTypes hh => exact absurd hh hp
    | option _ e1 e2 e3 => rw [h2] at e2; cases e2; rw [h3] at e3; cases e3
    | result _ e1 e2 e3 e4 => rw [h2] at e2; cases e2; rw [h4] at e4; cases e4
    | call _ _ hc => exact absurd hc h5
    | _ => simp_all

theorem name_none {cfg : SiCfg} {t : SiType} {n : Str}
    (h : nameSiType cfg t none = .ok n) (hn : n ≠ []) : n = fullPath cfg.pathPrefix t.path := by
  rw [← pathName_spec]
  unfold nameSiType at h
  split at h
  · cases h; rfl
  · split at h
    · cases h
    · repeat' (split at h)
      all_goals cases h
      all_goals first | exact absurd rfl hn | rfl
  · cases h; exact absurd rfl hn

/-- Types whose path is shared get the path with the id, other types the path. -/
theorem C56_names (cfg : SiCfg) (fuel : Nat) (reg : RegState) (st : SiState) (h : processSiType cfg fuel reg = .ok st) (i : Nat)
    (hi : i < cfg.count) (ho : OwnName (cfg.types i)) (hp : (cfg.types i).path.head? ≠ some b!"primitive_types")
    (hne : fullPath cfg.pathPrefix (cfg.types i).path ≠ []) :
    ((∃ j < cfg.count, j ≠ i ∧ OwnName (cfg.types j) ∧ (cfg.types j).path = (cfg.types i).path) →
      st.ids i = some (fullPath cfg.pathPrefix (cfg.types i).path ++ 64 :: natToDec i)) ∧
    ((∀ j < cfg.count, j ≠ i → fullPath cfg.pathPrefix (cfg.types j).path ≠ fullPath cfg.pathPrefix (cfg.types i).path) →
      st.ids i = some (fullPath cfg.pathPrefix (cfg.types i).path)) := by
  obtain ⟨dup, hd, hids, hall⟩ := process_text h
  have hr : (cfg.types i).typ ≠ .range := by
    rcases ho with ⟨fs, h1, _⟩ | ⟨vs, p, ps, h1, _⟩ <;> rw [h1] <;> simp
  obtain ⟨t, ht⟩ := hall i hi hr
  have e := text_own (cfg := { cfg with dup := dup }) ho hp (hids.text i t ht)
  rw [ht, e]
  have hcount := countNames_count hne _ _ _ _ hd
  simp only [Nat.zero_add] at hcount
  have hmem : ∀ {j}, j < cfg.count → j ∈ List.range' 0 cfg.count := fun h => by simp [List.mem_range'_1]; omega
  have hpn : pathName { cfg with dup := dup } (cfg.types i) = fullPath cfg.pathPrefix (cfg.types i).path := pathName_spec _ _
  unfold generateName
  simp only [hpn]
  constructor
  · rintro ⟨j, hj, hne', hoj, hpj⟩
    have h2 := countP_two (p := fun m => decide (nameSiType cfg (cfg.types m) none = .ok (fullPath cfg.pathPrefix (cfg.types i).path)))
      (hmem hi) (hmem hj) (Ne.symm hne') (by simp [nameSiType_own ho, generateName, pathName_spec])
      (by simp [nameSiType_own hoj, generateName, pathName_spec, hpj])
    rw [← hcount] at h2
    rw [if_pos (by omega)]
    simp
  · intro hall'
    have h1 := countP_one (p := fun m => decide (nameSiType cfg (cfg.types m) none = .ok (fullPath cfg.pathPrefix (cfg.types i).path)))
      (i := i) (List.nodup_range' (s := 0) (n := cfg.count)) (by
        intro j hj hpj
        by_contra hji
        have hn := name_none (of_decide_eq_true hpj) hne
        have hj' : j < cfg.count := by rw [List.mem_range'_1] at hj; omega
        exact hall' j hj' hji hn.symm)
    rw [← hcount] at h1
    rw [if_neg (by omega)]

theorem sameName_refl (a : Str) : SameName a a := (toLower_eq_iff a a).1 rfl

theorem lower_digits {s : Str} (h : s.all isDigit = true) : toLower s = s := by
  unfold toLower
  have : ∀ c ∈ s, lowerByte c = c := by
    intro c hc
    have hd := List.all_eq_true.1 h c hc
    have := forall_byte (P := fun c => isDigit c = true → lowerByte c = c) (by decide +kernel)
    exact this c hd
  exact (List.map_congr_left this).trans (List.map_id s)

/-- C56 for types with a path: the names differ, even when the case of letters is ignored, as the registry does. -/
theorem C56_partial (cfg : SiCfg) (fuel : Nat) (reg : RegState) (st : SiState) (h : processSiType cfg fuel reg = .ok st)
    (i j : Nat) (hi : i < cfg.count) (hj : j < cfg.count) (hij : i ≠ j) (hoi : OwnName (cfg.types i)) (hoj : OwnName (cfg.types j))
    (hp : (cfg.types i).path = (cfg.types j).path) (hne : fullPath cfg.pathPrefix (cfg.types i).path ≠ [])
    (hpt : (cfg.types i).path.head? ≠ some b!"primitive_types") :
    ∃ a b, st.ids i = some a ∧ st.ids j = some b ∧ ¬ SameName a b := by
  refine ⟨_, _, (C56_names cfg fuel reg st h i hi hoi hpt hne).1 ⟨j, hj, Ne.symm hij, hoj, hp.symm⟩,
    (C56_names cfg fuel reg st h j hj hoj (hp ▸ hpt) (hp ▸ hne)).1 ⟨i, hi, hij, hoi, hp⟩, ?_⟩
  rw [← toLower_eq_iff, hp]
  intro e
  have e1 : ∀ k, toLower (fullPath cfg.pathPrefix (cfg.types j).path ++ 64 :: natToDec k) =
      toLower (fullPath cfg.pathPrefix (cfg.types j).path) ++ 64 :: natToDec k := by
    intro k
    rw [toLower_append]
    show _ ++ toLower ([64] ++ natToDec k) = _
    rw [toLower_append, lower_digits (natToDec_digits k)]
    rfl
  rw [e1, e1] at e
  exact hij (natToDec_injective (List.cons.inj (List.append_cancel_left e)).2)

theorem colons_injective : ∀ {a b : List Str}, a ≠ [] → b ≠ [] → (∀ p ∈ a, (58 : UInt8) ∉ p) → (∀ p ∈ b, (58 : UInt8) ∉ p) →
    colons a = colons b → a = b := by
  have split : ∀ {p q r s : Str}, (58 : UInt8) ∉ p → (58 : UInt8) ∉ q → p ++ 58 :: r = q ++ 58 :: s → p = q ∧ r = s := by
    intro p
    induction p with
    | nil =>
      intro q r s _ hq e
      cases q with
      | nil => exact ⟨rfl, (List.cons.inj e).2⟩
      | cons x q => exact absurd (List.cons.inj e).1 (fun h => hq (by rw [← h]; simp))
    | cons x p ih =>
      intro q r s hp hq e
      cases q with
      | nil => exact absurd (List.cons.inj e).1.symm (fun h => hp (by rw [← h]; simp))
      | cons y q =>
        obtain ⟨h1, h2⟩ := List.cons.inj e
        obtain ⟨h3, h4⟩ := ih (fun h => hp (by simp [h])) (fun h => hq (by simp [h])) h2
        exact ⟨by rw [h1, h3], h4⟩
  intro a
  induction a with
  | nil => intro b h; exact absurd rfl h
  | cons p a ih =>
    intro b _ hb ha hbb e
    cases b with
    | nil => exact absurd rfl hb
    | cons q b =>
      cases a with
      | nil =>
        cases b with
        | nil => exact congrArg (· :: []) e
        | cons q' b =>
          have : (58 : UInt8) ∈ p := by
            have e' : p = q ++ 58 :: colons (q' :: b) := e
            rw [e']; simp
          exact absurd this (ha p (by simp))
      | cons p' a =>
        cases b with
        | nil =>
          have : (58 : UInt8) ∈ q := by
            have e' : p ++ 58 :: colons (p' :: a) = q := e
            rw [← e']; simp
          exact absurd this (hbb q (by simp))
        | cons q' b =>
          obtain ⟨h1, h2⟩ := split (ha p (by simp)) (hbb q (by simp)) e
          rw [h1, ih (by simp) (by simp) (fun x hx => ha x (by simp [hx])) (fun x hx => hbb x (by simp [hx])) h2]

/-- Bytes of a path text. -/
theorem mem_colons {c : UInt8} : ∀ {l : List Str}, c ∈ colons l → c = 58 ∨ ∃ p ∈ l, c ∈ p := by
  intro l
  induction l with
  | nil => intro h; cases h
  | cons p l ih =>
    intro h
    cases l with
    | nil => exact .inr ⟨p, by simp, h⟩
    | cons q l =>
      have h : c ∈ p ++ 58 :: colons (q :: l) := h
      rw [List.mem_append, List.mem_cons] at h
      rcases h with h | h | h
      · exact .inr ⟨p, by simp, h⟩
      · exact .inl h
      · rcases ih h with h | ⟨x, hx, h⟩
        · exact .inl h
        · exact .inr ⟨x, by simp [hx], h⟩

/-- No two structs or enums of a registry get the same name, whatever their paths, if path segments (and the prefix) are
written without colon and at sign. -/
theorem C56_injective (cfg : SiCfg) (fuel : Nat) (reg : RegState) (st : SiState) (h : processSiType cfg fuel reg = .ok st)
    (hpre : (64 : UInt8) ∉ cfg.pathPrefix)
    (hseg : ∀ k, OwnName (cfg.types k) → (cfg.types k).path ≠ [] ∧ (cfg.types k).path.head? ≠ some b!"primitive_types" ∧
      ∀ p ∈ (cfg.types k).path, p ≠ [] ∧ (58 : UInt8) ∉ p ∧ (64 : UInt8) ∉ p)
    (i j : Nat) (hi : i < cfg.count) (hj : j < cfg.count) (hij : i ≠ j) (hoi : OwnName (cfg.types i)) (hoj : OwnName (cfg.types j)) :
    st.ids i ≠ st.ids j := by
  have hc : ∀ l : List Str, l ≠ [] → (∀ p ∈ l, p ≠ []) → colons l ≠ [] := by
    intro l hl hp
    match l with
    | [] => exact absurd rfl hl
    | [p] => exact hp p (by simp)
    | p :: q :: r => intro e; have e : p ++ 58 :: colons (q :: r) = [] := e; simp at e
  have hne : ∀ k, OwnName (cfg.types k) → fullPath cfg.pathPrefix (cfg.types k).path ≠ [] := by
    intro k hk
    unfold fullPath
    split
    · exact hc _ (hseg k hk).1 fun p hp => ((hseg k hk).2.2 p hp).1
    · simp
  have hat : ∀ k, OwnName (cfg.types k) → (64 : UInt8) ∉ fullPath cfg.pathPrefix (cfg.types k).path := by
    intro k hk hm
    have hcol : (64 : UInt8) ∉ colons (cfg.types k).path := by
      intro hm
      rcases mem_colons hm with h | ⟨p, hp, h⟩
      · cases h
      · exact ((hseg k hk).2.2 p hp).2.2 h
    unfold fullPath at hm
    split at hm
    · exact hcol hm
    · rw [List.mem_append, List.mem_cons] at hm
      rcases hm with hm | hm | hm
      · exact hpre hm
      · cases hm
      · exact hcol hm
  have hinj : ∀ k l, OwnName (cfg.types k) → OwnName (cfg.types l) → fullPath cfg.pathPrefix (cfg.types k).path = fullPath cfg.pathPrefix (cfg.types l).path →
      (cfg.types k).path = (cfg.types l).path := by
    intro k l hk hl e
    have key := colons_injective (hseg k hk).1 (hseg l hl).1 (fun p hp => ((hseg k hk).2.2 p hp).2.1) (fun p hp => ((hseg l hl).2.2 p hp).2.1)
    unfold fullPath at e
    split at e
    · exact key e
    · exact key (List.cons.inj (List.append_cancel_left e)).2
  obtain ⟨dup, hd, hids, hall⟩ := process_text h
  have hform : ∀ k < cfg.count, OwnName (cfg.types k) → ∃ s, st.ids k = some (fullPath cfg.pathPrefix (cfg.types k).path ++ s) ∧
      (s = [] ∨ s = 64 :: natToDec k) := by
    intro k hk ho
    have hr : (cfg.types k).typ ≠ .range := by
      rcases ho with ⟨fs, h1, _⟩ | ⟨vs, p, ps, h1, _⟩ <;> rw [h1] <;> simp
    obtain ⟨t, ht⟩ := hall k hk hr
    have e := text_own (cfg := { cfg with dup := dup }) ho (hseg k ho).2.1 (hids.text k t ht)
    unfold generateName at e
    simp only [pathName_spec] at e
    split at e
    · exact ⟨64 :: natToDec k, by rw [ht, e]; simp, .inr rfl⟩
    · exact ⟨[], by rw [ht, e]; simp, .inl rfl⟩
  by_cases hp : (cfg.types i).path = (cfg.types j).path
  · obtain ⟨a, b, ha, hb, hab⟩ := C56_partial cfg fuel reg st h i j hi hj hij hoi hoj hp (hne i hoi) (hseg i hoi).2.1
    rw [ha, hb]
    intro e
    cases e
    exact hab (sameName_refl _)
  · obtain ⟨s, hs, hs'⟩ := hform i hi hoi
    obtain ⟨t, ht, ht'⟩ := hform j hj hoj
    rw [hs, ht]
    intro e
    have e := Option.some.inj e
    have cut : ∀ {x y : Str} {u v : Str}, (64 : UInt8) ∉ x → (64 : UInt8) ∉ y → (u = [] ∨ ∃ r, u = 64 :: r) → (v = [] ∨ ∃ r, v = 64 :: r) →
        x ++ u = y ++ v → x = y := by
      intro x
      induction x with
      | nil =>
        intro y u v _ hy hu hv e
        cases y with
        | nil => rfl
        | cons c y =>
          rcases hu with rfl | ⟨r, rfl⟩
          · cases e
          · exact absurd (List.cons.inj e).1 (fun h => hy (by rw [← h]; simp))
      | cons c x ih =>
        intro y u v hx hy hu hv e
        cases y with
        | nil =>
          rcases hv with rfl | ⟨r, rfl⟩
          · cases e
          · exact absurd (List.cons.inj e).1.symm (fun h => hx (by rw [← h]; simp))
        | cons d y =>
          obtain ⟨h1, h2⟩ := List.cons.inj e
          rw [h1, ih (fun h => hx (by simp [h])) (fun h => hy (by simp [h])) hu hv h2]
    exact hp (hinj i j hoi hoj (cut (hat i hoi) (hat j hoj) (hs'.imp id fun h => ⟨_, h⟩) (ht'.imp id fun h => ⟨_, h⟩) e))

/-- Two structs without path. -/
def pathless : SiCfg where
  types := fun i => match i with
    | 0 => { typ := .composite [⟨b!"a", 2, []⟩, ⟨b!"b", 2, []⟩] }
    | 1 => { typ := .composite [⟨b!"a", 2, []⟩, ⟨b!"b", 2, []⟩, ⟨b!"c", 2, []⟩] }
    | 2 => { typ := .primitive b!"U8" }
    | _ => {}
  count := 3

/-- Types without path are registered under the empty name, all of them; the first definition stays. -/
theorem C56_pathless : ∃ st, processSiType pathless 3 ⟨baseEnv dummyExt, fun _ => none⟩ = .ok st ∧
    st.ids 0 = some [] ∧ st.ids 1 = some [] ∧
    st.reg.env.reg [] = some (.struct (some [(b!"a", b!"U8"), (b!"b", b!"U8")])) := by
  refine ⟨_, rfl, ?_, ?_, ?_⟩ <;> kernel_rfl

theorem C56_claim_false : ¬ C56Claim := by
  intro h
  obtain ⟨st, h1, h2, h3, _⟩ := C56_pathless
  obtain ⟨a, b, ha, hb, hab⟩ := h pathless 3 _ st h1 0 1 (by decide) (by decide) (by decide)
    (.inl ⟨_, rfl, by decide, fun hw => absurd hw.1 (by decide)⟩) (.inl ⟨_, rfl, by decide, fun hw => absurd hw.1 (by decide)⟩) rfl
  rw [h2] at ha
  rw [h3] at hb
  cases ha
  cases hb
  exact hab (sameName_refl _)

/-- Two structs with the path `a::B`, and an enum with its own path. -/
def samePath : SiCfg where
  types := fun i => match i with
    | 0 => { path := [b!"a", b!"B"], typ := .composite [⟨b!"a", 2, []⟩, ⟨b!"b", 2, []⟩] }
    | 1 => { path := [b!"a", b!"B"], typ := .composite [] }
    | 2 => { typ := .primitive b!"U8" }
    | 3 => { path := [b!"a", b!"E"], typ := .variant [⟨b!"X", [], 0⟩] }
    | _ => {}
  count := 4

example : (∃ st, processSiType samePath 3 ⟨baseEnv dummyExt, fun _ => none⟩ = .ok st ∧ st.ids 0 = some b!"a:B@0" ∧
    st.ids 1 = some b!"a:B@1" ∧ st.ids 3 = some b!"a:E") ∧
    OwnName (samePath.types 0) ∧ OwnName (samePath.types 1) ∧ OwnName (samePath.types 3) ∧
    fullPath samePath.pathPrefix (samePath.types 0).path ≠ [] ∧ (samePath.types 0).path.head? ≠ some b!"primitive_types" := by
  refine ⟨⟨_, rfl, ?_, ?_, ?_⟩, .inl ⟨_, rfl, by decide, fun hw => ?_⟩, .inl ⟨_, rfl, by decide, fun hw => ?_⟩,
    .inr ⟨_, _, _, rfl, rfl, by decide, by decide, ?_⟩, by decide, by decide⟩
  · kernel_rfl
  · kernel_rfl
  · kernel_rfl
  · rcases hw.2 with h | h <;> exact absurd h (by decide)
  · rcases hw.2 with h | h <;> exact absurd h (by decide)
  · rintro (h | h | h) <;> exact absurd h (by decide)

end ScaleGo
