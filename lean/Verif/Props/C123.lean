import Verif.Model.Portable
import Verif.Lemmas.Strings
import Verif.Lemmas.Portable
import Verif.Lemmas.KernelRfl
import Verif.Props.C38
import Mathlib.Logic.Relation
import Mathlib.Order.WellFounded
import Mathlib.Data.Finite.Prod

/-! # C123: naming and registering the types of metadata ends -/

namespace ScaleGo

/-- Types that get no name of their own, so that their text is made from the texts of other types. -/
def Spec.Nameless (pfx : Str) (t : SiType) : Prop :=
  match t.typ with
  | .composite _ => pfx = [] ∧ t.path.flatten = []
  | .variant _ => t.path.flatten = [] ∨ (∃ p ps, t.path = p :: ps ∧ (equalFold p b!"Option" = true ∨ equalFold p b!"Result" = true)) ∨
      ∃ l, t.path.getLast? = some l ∧ l ∈ [b!"Call", b!"Event"]
  | _ => True

/-- What the text of a type is made from: `(true, i)` stands for a name of type `i` where it has one, `(false, i)` for its contents
in any case. -/
def Spec.MadeFrom (pfx : Str) (types : Nat → SiType) (x y : Bool × Nat) : Prop :=
  (x.1 = true → Spec.Nameless pfx (types x.2)) ∧
  match (types x.2).typ with
  | .composite fields =>
    (y.1 = false ∧ y.2 ∈ (types x.2).params.map Prod.snd ∧
      ∃ l, (types x.2).path.getLast? = some l ∧ l ∈ [b!"UncheckedExtrinsic", b!"WrapperKeepOpaque", b!"WrapperOpaque"]) ∨
    (y.1 = false ∧ fields.map SiField.type = [y.2] ∧ y.2 ≠ x.2) ∨ (y.1 = true ∧ fields.length ≠ 1 ∧ y.2 ∈ fields.map SiField.type)
  | .array len t => y = (true, t) ∧ len ≠ 0
  | .sequence t => y = (true, t)
  | .compact t => y = (true, t)
  | .tuple ts => y.1 = true ∧ y.2 ∈ ts
  | .variant vs => y.1 = true ∧ ∃ p ps, (types x.2).path = p :: ps ∧
      if equalFold p b!"Option" = true then ((types x.2).params.map Prod.snd).head? = some y.2
      else if equalFold p b!"Result" = true then y.2 ∈ ((types x.2).params.map Prod.snd).take 2
      else ∃ v ∈ vs, y.2 ∈ v.fields.map SiField.type
  | _ => False

open _root_.ScaleGo.Spec (Nameless MadeFrom)

/-! ## Registration ends -/

theorem mappingRows_ne : ∀ l : List (List Str), mappingRows l ≠ .diverge
  | [] => by simp [mappingRows]
  | [] :: _ => by simp [mappingRows]
  | [_] :: _ => by simp [mappingRows]
  | (_ :: _ :: _) :: l => by
    rw [mappingRows]
    exact bind_ne_diverge (mappingRows_ne l) fun _ => by simp

theorem aliasClass_ne (t : Str) : aliasClass t ≠ .diverge := by
  unfold aliasClass
  split
  · simp
  · dsimp only
    split
    · simp
    · split
      · simp
      · split
        · split <;> simp
        · simp

theorem v14Key_ne {fuel : Nat} {st : RegState} {key : Str} {d : TypeDef} (h : d.v14 = false ∨ d.specVec = 0) : v14Key fuel st key d ≠ .diverge := by
  unfold v14Key
  rcases h with h | h
  · rw [if_pos h]
    simp
  · split
    · simp
    · split
      · simp
      · try rw [if_pos h]
        simp

theorem regPlain_ne (st : RegState) (key : Str) (d : TypeDef) : regPlain st key d ≠ .diverge := by
  unfold regPlain
  split
  · exact bind_ne_diverge (mappingRows_ne _) fun _ => by simp
  · split
    · exact bind_ne_diverge (mappingRows_ne _) fun _ => by simp
    · split <;> simp

theorem regAliasText_ne (st : RegState) (key t : Str) : regAliasText st key t ≠ .diverge := by
  unfold regAliasText
  refine bind_ne_diverge (aliasClass_ne _) fun c => ?_
  split <;> simp

theorem regAlias_ne {fuel : Nat} {all : List (Str × TypeDef)} (h : ∀ p ∈ all, p.2.v14 = false ∨ p.2.specVec = 0) (st : RegState) (key : Str)
    (d : TypeDef) : regAlias fuel all st key d ≠ .diverge := by
  have hg : ∀ (l : List (Str × TypeDef)) t e, (∀ p ∈ l, p.2.v14 = false ∨ p.2.specVec = 0) → tableGet l t = some e → e.v14 = false ∨ e.specVec = 0 := by
    intro l
    induction l with
    | nil => intro t e _ h; cases h
    | cons p l ih =>
      intro t e hp he
      rw [tableGet] at he
      split at he
      · cases he
        exact hp _ (by simp)
      · exact ih t e (fun q hq => hp q (by simp [hq])) he
  unfold regAlias
  dsimp only
  split
  · simp
  · split
    · rename_i e he
      split
      · split
        · simp
        · exact regAliasText_ne _ _ _
      · refine bind_ne_diverge ?_ fun _ => regAliasText_ne _ _ _
        unfold regSingle
        refine bind_ne_diverge (v14Key_ne (hg _ _ _ h he)) fun k => ?_
        split
        · simp
        · exact regPlain_ne _ _ _
    · exact regAliasText_ne _ _ _

theorem register_ne {cfg : SiCfg} {st : SiState} {key : Str} {d : TypeDef} (h : d.v14 = false ∨ d.specVec = 0) :
    st.register cfg key d ≠ .diverge := by
  unfold SiState.register regCustomTypes
  refine bind_ne_diverge ?_ fun _ => by simp
  rw [regLoop]
  refine bind_ne_diverge ?_ fun r => ?_
  · unfold regEntry
    refine bind_ne_diverge (v14Key_ne h) fun k => ?_
    split
    · simp
    · split
      · exact bind_ne_diverge (regAlias_ne (by simpa using h) _ _ _) fun _ => by simp
      · exact bind_ne_diverge (regPlain_ne _ _ _) fun _ => by simp
  · split
    · simp
    · rw [regLoop]
      simp

/-! ## Names -/

theorem nameSiType_ne (cfg : SiCfg) (t : SiType) (id : Option Nat) : nameSiType cfg t id ≠ .diverge := by
  unfold nameSiType
  split
  · simp
  · split
    · simp
    · split
      · simp
      · split
        · simp
        · split <;> simp
  · simp

theorem joinSep_nil : ∀ (l : List Str) (sep : Str), joinSep sep l = [] → l.flatten = []
  | [], _, _ => rfl
  | [a], _, h => by simpa [joinSep] using h
  | a :: b :: l, sep, h => by
    rw [joinSep] at h
    · simp only [List.append_eq_nil_iff] at h
      have := joinSep_nil (b :: l) sep h.2
      simp only [List.flatten_cons] at this ⊢
      rw [h.1.1, this]
      rfl

theorem generateName_nil {cfg : SiCfg} {t : SiType} {id : Nat} (h : generateName cfg t (some id) = []) : cfg.pathPrefix = [] ∧ t.path.flatten = [] := by
  have hp : pathName cfg t = [] := by
    unfold generateName at h
    dsimp only at h
    split at h
    · simp at h
    · exact h
  unfold pathName at hp
  split at hp
  · rename_i hx
    exact ⟨hx, joinSep_nil _ _ hp⟩
  · simp at hp

theorem nameless {cfg : SiCfg} {t : SiType} {id : Nat} (h : nameSiType cfg t (some id) = .ok []) : Nameless cfg.pathPrefix t := by
  unfold Nameless
  unfold nameSiType at h
  split at h
  · rename_i hd
    rw [hd]
    exact generateName_nil (Res.ok.inj h)
  · rename_i hd
    rw [hd]
    dsimp only
    split at h
    · cases h
    · rename_i p ps hp
      split at h
      · rename_i hc
        exact .inr (.inl ⟨p, ps, hp, by simpa using hc⟩)
      · split at h
        · rename_i hc
          refine .inr (.inr ⟨b!"Call", ?_, by simp⟩)
          unfold palletCall at hc
          split at hc
          · rename_i a b r hr
            simp only [Bool.and_eq_true, beq_iff_eq] at hc
            have : (p :: ps).getLast? = some a := by
              rw [List.getLast?_eq_head?_reverse, hr]
              rfl
            rw [hp, this, hc.2]
          · cases hc
        · split at h
          · rename_i hc
            rw [sliceIndex_mem_iff] at hc
            refine .inr (.inr ⟨_, ?_, hc⟩)
            rw [hp, lastOf, List.getLast?_eq_some_getLast (by simp), List.getLastD_eq_getLast?, List.getLast?_eq_some_getLast (by simp)]
            rfl
          · exact .inl (generateName_nil (Res.ok.inj h)).2
  · split <;> simp_all

/-! ## One type -/

section
variable {cfg : SiCfg} {rec : SiRec} {id : Nat}

theorem subTypeOf_ne {i : Nat} (h : ∀ st, rec true i st ≠ .diverge) (st : SiState) : subTypeOf rec i st ≠ .diverge := by
  unfold subTypeOf
  split
  · simp
  · exact h st

theorem subTypesOf_ne : ∀ (l : List Nat), (∀ i ∈ l, ∀ st, rec true i st ≠ .diverge) → ∀ st, subTypesOf rec l st ≠ .diverge
  | [], _, st => by simp [subTypesOf]
  | i :: l, h, st => by
    rw [subTypesOf]
    exact bind_ne_diverge (subTypeOf_ne (h i (by simp)) st) fun a =>
      bind_ne_diverge (subTypesOf_ne l (fun j hj => h j (by simp [hj])) a.2) fun _ => by simp

theorem variantType_ne {v : SiVariant} (h : ∀ i ∈ v.fields.map SiField.type, ∀ st, rec true i st ≠ .diverge) (st : SiState) :
    variantType rec v st ≠ .diverge := by
  unfold variantType
  split
  · simp
  · rename_i f hf
    exact subTypeOf_ne (h _ (by simp [hf])) st
  · exact bind_ne_diverge (subTypesOf_ne _ h st) fun _ => by simp

theorem enumRows_ne : ∀ (vs : List SiVariant) (prev : Option Nat), (∀ v ∈ vs, ∀ i ∈ v.fields.map SiField.type, ∀ st, rec true i st ≠ .diverge) →
    ∀ st, enumRows rec prev vs st ≠ .diverge
  | [], _, _, st => by simp [enumRows]
  | v :: vs, prev, h, st => by
    unfold enumRows
    exact bind_ne_diverge (variantType_ne (h v (by simp)) st) fun a =>
      bind_ne_diverge (enumRows_ne vs _ (fun w hw => h w (by simp [hw])) a.2) fun _ => by simp

theorem insertBy_mem {α : Type} (key : α → Nat) (x y : α) : ∀ l : List α, y ∈ insertBy key x l → y = x ∨ y ∈ l
  | [], h => by simpa [insertBy] using h
  | z :: l, h => by
    rw [insertBy] at h
    split at h
    · simpa using h
    · rcases List.mem_cons.mp h with h | h
      · exact .inr (by simp [h])
      · rcases insertBy_mem key x y l h with h | h
        · exact .inl h
        · exact .inr (by simp [h])

theorem sortBy_mem {α : Type} {key : α → Nat} {x : α} : ∀ {l : List α}, x ∈ sortBy key l → x ∈ l
  | [], h => h
  | y :: l, h => by
    rw [sortBy] at h
    rcases insertBy_mem key y x _ h with h | h
    · simp [h]
    · exact List.mem_cons_of_mem _ (sortBy_mem h)

theorem registerParam_ne {key name : Str} {t : SiType} (h : ∀ i ∈ t.params.map Prod.snd, ∀ st, rec false i st ≠ .diverge) (st : SiState) :
    registerParam cfg rec key name t st ≠ .diverge := by
  have hf : ∀ (l : List (Str × Nat)) i, findParameter name l = some i → i ∈ l.map Prod.snd := by
    intro l
    induction l with
    | nil => intro i h; cases h
    | cons p l ih =>
      intro i h
      obtain ⟨n, t⟩ := p
      rw [findParameter] at h
      split at h
      · cases h
        simp
      · exact List.mem_cons_of_mem _ (ih i h)
  unfold registerParam
  split
  · simp
  · rename_i i hi
    exact bind_ne_diverge (h i (hf _ _ hi) st) fun _ => register_ne (.inl rfl)

end

theorem dealDef_ne {cfg : SiCfg} {rec : SiRec} {r : Bool} {id : Nat} (hs : cfg.v14 = false ∨ cfg.spec = 0) (hn : r = true → Nameless cfg.pathPrefix (cfg.types id))
    (h : ∀ y, MadeFrom cfg.pathPrefix cfg.types (r, id) y → ∀ st, rec y.1 y.2 st ≠ .diverge) (st : SiState) :
    dealDef cfg rec id (cfg.types id) st ≠ .diverge := by
  unfold MadeFrom at h
  unfold dealDef
  split
  · rename_i fields hd
    simp only [hd] at h
    have hlast : ∀ n, 2 ≤ (cfg.types id).path.length → lastOf (cfg.types id).path = n → (cfg.types id).path.getLast? = some n := by
      intro n h2 hl
      rw [lastOf, List.getLastD_eq_getLast?] at hl
      cases hg : (cfg.types id).path.getLast? with
      | none =>
        rw [List.getLast?_eq_none_iff] at hg
        rw [hg] at h2
        simp at h2
      | some a =>
        rw [hg] at hl
        exact congrArg some hl
    unfold expandComposite
    refine bind_ne_diverge ?_ fun st => ?_
    · unfold expandExtrinsicParams
      split
      · rename_i hc
        have hp : ∀ i ∈ (cfg.types id).params.map Prod.snd, ∀ st, rec false i st ≠ .diverge := fun i hi =>
          h (false, i) ⟨hn, .inl ⟨rfl, hi, _, hlast _ hc.1 hc.2.2, by simp⟩⟩
        exact bind_ne_diverge (registerParam_ne hp _) fun _ => registerParam_ne hp _
      · simp
    · split
      · rename_i hc
        rw [sliceIndex_mem_iff] at hc
        split
        · simp
        · rename_i q l hq
          refine bind_ne_diverge (h (false, q) ⟨hn, .inl ⟨rfl, by simp [hq], _, hlast _ hc.1 rfl, ?_⟩⟩ st) fun _ => by simp
          exact List.mem_cons_of_mem _ hc.2
      · split
        · rename_i f
          unfold expandNewtype
          split
          · simp
          · refine bind_ne_diverge ?_ fun _ => bind_ne_diverge (nameSiType_ne _ _ _) fun _ => bind_ne_diverge (register_ne hs) fun _ => by simp
            unfold newtypeSub
            split
            · simp
            · split
              · simp
              · rename_i hne
                exact h (false, f.type) ⟨hn, .inr (.inl ⟨rfl, rfl, hne⟩)⟩ st
        · rename_i hx
          have hl : fields.length ≠ 1 := by
            intro hl
            obtain ⟨f, rfl⟩ := List.length_eq_one_iff.mp hl
            exact hx f rfl
          exact bind_ne_diverge (subTypesOf_ne _ (fun i hi => h (true, i) ⟨hn, .inr (.inr ⟨rfl, hl, hi⟩)⟩) st) fun _ =>
            bind_ne_diverge (nameSiType_ne _ _ _) fun _ => bind_ne_diverge (register_ne hs) fun _ => by simp
  · rename_i len t hd
    simp only [hd] at h
    unfold expandArray
    split
    · simp
    · rename_i hl
      exact bind_ne_diverge (subTypeOf_ne (h (true, t) ⟨hn, rfl, hl⟩) st) fun _ => by simp
  · rename_i t hd
    simp only [hd] at h
    exact bind_ne_diverge (subTypeOf_ne (h (true, t) ⟨hn, rfl⟩) st) fun _ => by simp
  · rename_i ts hd
    simp only [hd] at h
    unfold expandTuple
    split
    · simp
    · exact bind_ne_diverge (subTypesOf_ne ts (fun i hi => h (true, i) ⟨hn, rfl, hi⟩) st) fun _ =>
        bind_ne_diverge (register_ne hs) fun _ => by simp
  · rename_i t hd
    simp only [hd] at h
    exact bind_ne_diverge (subTypeOf_ne (h (true, t) ⟨hn, rfl⟩) st) fun _ => by simp
  · simp
  · simp
  · rename_i vs hd
    simp only [hd] at h
    unfold dealVariant
    split
    · simp
    · rename_i p ps hp
      split
      · rename_i ho
        unfold expandOption
        split
        · simp
        · rename_i q l hq
          exact bind_ne_diverge (subTypeOf_ne (h (true, q) ⟨hn, rfl, p, ps, hp, by simp [ho, hq]⟩) st) fun _ => by simp
      · rename_i ho
        split
        · rename_i hr
          unfold expandResult
          split
          · rename_i _ a _ b _ hq
            refine bind_ne_diverge (subTypeOf_ne (h (true, a) ⟨hn, rfl, p, ps, hp, by simp [ho, hr, hq]⟩) st) fun x => ?_
            exact bind_ne_diverge (subTypeOf_ne (h (true, b) ⟨hn, rfl, p, ps, hp, by simp [ho, hr, hq]⟩) _) fun _ => by simp
          · simp
        · rename_i hr
          split
          · simp
          · split
            · simp
            · split
              · exact bind_ne_diverge (nameSiType_ne _ _ _) fun _ => bind_ne_diverge (register_ne (.inl rfl)) fun _ => by simp
              · unfold expandEnum
                refine bind_ne_diverge (enumRows_ne _ _ (fun v hv i hi => h (true, i) ⟨hn, rfl, p, ps, hp, ?_⟩) st) fun _ =>
                  bind_ne_diverge (nameSiType_ne _ _ _) fun _ => bind_ne_diverge (register_ne hs) fun _ => by simp
                rw [if_neg ho, if_neg hr]
                exact ⟨v, sortBy_mem hv, hi⟩
  · simp
  · simp

theorem deal_ne {cfg : SiCfg} (hs : cfg.v14 = false ∨ cfg.spec = 0) {n : Nat} {x : Bool × Nat}
    (h : ∀ y, MadeFrom cfg.pathPrefix cfg.types x y → ∀ st, dealOneSiType cfg n y.1 y.2 st ≠ .diverge) (st : SiState) :
    dealOneSiType cfg (n + 1) x.1 x.2 st ≠ .diverge := by
  obtain ⟨r, id⟩ := x
  rw [dealOneSiType]
  dsimp only
  split
  · simp
  · split
    · rename_i hr
      cases hm : nameSiType cfg (cfg.types id) (some id) with
      | ok name =>
        rw [Res.ok_bind]
        split
        · simp
        · rename_i hx
          have hx : name = [] := Classical.not_not.mp hx
          subst hx
          exact dealDef_ne (r := r) hs (fun _ => nameless hm) h st
      | panic => simp
      | diverge => exact absurd hm (nameSiType_ne _ _ _)
    · rename_i hr
      exact dealDef_ne (r := r) hs (fun h => absurd h hr) h st

/-! ## All types -/

/-- The numbers that the text of a type can be made from. -/
def madeIds (t : SiType) : List Nat :=
  t.params.map Prod.snd ++ match t.typ with
  | .composite fields => fields.map SiField.type
  | .array _ t => [t]
  | .sequence t => [t]
  | .compact t => [t]
  | .tuple ts => ts
  | .variant vs => vs.flatMap fun v => v.fields.map SiField.type
  | _ => []

theorem made_mem {pfx : Str} {types : Nat → SiType} {x y : Bool × Nat} (h : MadeFrom pfx types x y) : y.2 ∈ madeIds (types x.2) := by
  obtain ⟨_, h⟩ := h
  unfold madeIds
  rw [List.mem_append]
  split at h
  · rcases h with ⟨_, h, _⟩ | ⟨_, h, _⟩ | ⟨_, _, h⟩
    · exact .inl h
    · exact .inr (by rw [h]; simp)
    · exact .inr h
  · exact .inr (by simp [h.1])
  · exact .inr (by simp [h])
  · exact .inr (by simp [h])
  · exact .inr h.2
  · obtain ⟨_, p, ps, _, h⟩ := h
    split at h
    · exact .inl (List.mem_of_mem_head? h)
    · split at h
      · exact .inl (List.mem_of_mem_take h)
      · obtain ⟨v, hv, h⟩ := h
        exact .inr (List.mem_flatMap.mpr ⟨v, hv, h⟩)
  · exact h.elim

theorem common_bound {P : Nat → Nat → Prop} (hP : ∀ i n m, n ≤ m → P i n → P i m) : ∀ l : List Nat, (∀ i ∈ l, ∃ n, P i n) → ∃ n, ∀ i ∈ l, P i n
  | [], _ => ⟨0, by simp⟩
  | i :: l, h => by
    obtain ⟨n, hn⟩ := h i (by simp)
    obtain ⟨m, hm⟩ := common_bound hP l fun j hj => h j (by simp [hj])
    refine ⟨max n m, fun j hj => ?_⟩
    rcases List.mem_cons.mp hj with rfl | hj
    · exact hP _ _ _ (Nat.le_max_left _ _) hn
    · exact hP _ _ _ (Nat.le_max_right _ _) (hm j hj)

theorem acc_ends {cfg : SiCfg} (hs : cfg.v14 = false ∨ cfg.spec = 0) {x : Bool × Nat}
    (h : Acc (fun y x => MadeFrom cfg.pathPrefix cfg.types x y) x) : ∃ N, ∀ n, N ≤ n → ∀ st, dealOneSiType cfg n x.1 x.2 st ≠ .diverge := by
  induction h with
  | intro x _ ih =>
    obtain ⟨N, hN⟩ := common_bound
      (P := fun i N => ∀ b, MadeFrom cfg.pathPrefix cfg.types x (b, i) → ∀ n, N ≤ n → ∀ st, dealOneSiType cfg n b i st ≠ .diverge)
      (fun i n m hnm h b hb k hk => h b hb k (by omega)) (madeIds (cfg.types x.2)) (fun i _ => by
        have one : ∀ b, ∃ N, MadeFrom cfg.pathPrefix cfg.types x (b, i) → ∀ n, N ≤ n → ∀ st, dealOneSiType cfg n b i st ≠ .diverge := by
          intro b
          by_cases hb : MadeFrom cfg.pathPrefix cfg.types x (b, i)
          · obtain ⟨N, hN⟩ := ih (b, i) hb
            exact ⟨N, fun _ => hN⟩
          · exact ⟨0, fun h => absurd h hb⟩
        obtain ⟨N, hN⟩ := one true
        obtain ⟨M, hM⟩ := one false
        refine ⟨max N M, fun b hb n hn => ?_⟩
        cases b
        · exact hM hb n (by omega)
        · exact hN hb n (by omega))
    refine ⟨N + 1, fun n hn st => ?_⟩
    obtain ⟨m, rfl⟩ : ∃ m, n = m + 1 := ⟨n - 1, by omega⟩
    exact deal_ne hs (fun y hy => hN y.2 (made_mem hy) y.1 hy m (by omega)) st

/-- In a finite registry without cycles every type is made from finitely many others. -/
theorem acc_of_acyclic {pfx : Str} {types : Nat → SiType} {m : Nat} (hm : ∀ i, m ≤ i → (types i).typ = .none)
    (hc : ∀ x, ¬ Relation.TransGen (MadeFrom pfx types) x x) (x : Bool × Nat) : Acc (fun y x => MadeFrom pfx types x y) x := by
  let f : Bool × Fin m → Bool × Nat := fun p => (p.1, p.2.val)
  let R : Bool × Fin m → Bool × Fin m → Prop := fun y x => Relation.TransGen (MadeFrom pfx types) (f x) (f y)
  have : IsTrans _ R := ⟨fun a b c h1 h2 => h2.trans h1⟩
  have : Std.Irrefl R := ⟨fun a h => hc _ h⟩
  have hw : WellFounded R := Finite.wellFounded_of_trans_of_irrefl R
  have leaf : ∀ x : Bool × Nat, m ≤ x.2 → Acc (fun y x => MadeFrom pfx types x y) x := by
    intro x hx
    refine ⟨_, fun y hy => ?_⟩
    have h := hy.2
    rw [hm _ hx] at h
    exact h.elim
  have inner : ∀ p, Acc (fun y x => MadeFrom pfx types x y) (f p) := by
    intro p
    induction p using hw.induction with
    | _ p ih =>
      refine ⟨_, fun y hy => ?_⟩
      by_cases hy2 : m ≤ y.2
      · exact leaf y hy2
      · exact ih (y.1, ⟨y.2, by omega⟩) (.single hy)
  by_cases hx : m ≤ x.2
  · exact leaf x hx
  · exact inner (x.1, ⟨x.2, by omega⟩)

theorem siLoop_ne {f : Nat → SiState → Res SiState} : ∀ (n i : Nat), (∀ j, i ≤ j → j < i + n → ∀ st, f j st ≠ .diverge) → ∀ st, siLoop f i n st ≠ .diverge
  | 0, _, _, _ => by simp [siLoop]
  | n + 1, i, h, st => by
    rw [siLoop]
    exact bind_ne_diverge (h i (by omega) (by omega) st) fun st => siLoop_ne n (i + 1) (fun j h1 h2 => h j (by omega) (by omega)) st

theorem countNames_ne {cfg : SiCfg} : ∀ (n i : Nat) (dup : Str → Nat), countNames cfg i n dup ≠ .diverge
  | 0, _, _ => by simp [countNames]
  | n + 1, i, dup => by
    rw [countNames]
    exact bind_ne_diverge (nameSiType_ne _ _ _) fun _ => countNames_ne n (i + 1) _

theorem registerPrimitive_ne {cfg : SiCfg} (hs : cfg.v14 = false ∨ cfg.spec = 0) (i : Nat) (t : Str) (st : SiState) : registerPrimitive cfg i t st ≠ .diverge := by
  unfold registerPrimitive
  split
  · simp
  · exact register_ne hs

/-! ## The claim -/

/-- Processing the types of any metadata ends: with a return or with a panic, not by running for ever. -/
def C123Claim : Prop :=
  ∀ (l : List (Nat × SiType)) (reg : RegState), ∃ N, ∀ n, N ≤ n → processSiType (portableCfg l) n reg ≠ .diverge

/-- Missing from the full statement: registries in which the text of some type is made from itself. -/
theorem C123_partial (cfg : SiCfg) (reg : RegState) (m : Nat) (hm : ∀ i, m ≤ i → (cfg.types i).typ = .none) (hs : cfg.v14 = false ∨ cfg.spec = 0)
    (hc : ∀ x, ¬ Relation.TransGen (MadeFrom cfg.pathPrefix cfg.types) x x) : ∃ N, ∀ n, N ≤ n → processSiType cfg n reg ≠ .diverge := by
  unfold processSiType
  cases hd : countNames cfg 0 cfg.count (fun _ => 0) with
  | panic => exact ⟨0, fun _ _ => by simp⟩
  | diverge => exact absurd hd (countNames_ne _ _ _)
  | ok dup =>
    obtain ⟨N, hN⟩ := common_bound (P := fun i N => ∀ n, N ≤ n → ∀ st, dealOneSiType { cfg with dup := dup } n false i st ≠ .diverge)
      (fun i n k hnk h j hj => h j (by omega)) (List.range cfg.count)
      (fun i _ => acc_ends (cfg := { cfg with dup := dup }) hs (x := (false, i)) (acc_of_acyclic hm hc (false, i)))
    refine ⟨N, fun n hn => ?_⟩
    have hdeal : ∀ i, 0 ≤ i → i < 0 + cfg.count → ∀ st, dealOneSiType { cfg with dup := dup } n false i st ≠ .diverge := fun i _ hi =>
      hN i (List.mem_range.mpr (by omega)) n hn
    rw [Res.ok_bind]
    unfold registerTypes
    refine bind_ne_diverge (siLoop_ne _ _ (fun i _ _ st => ?_) _) fun st => bind_ne_diverge (siLoop_ne _ _ (fun i _ _ st => ?_) _) fun st =>
      bind_ne_diverge (siLoop_ne _ _ (fun i h1 h2 st => ?_) _) fun st => siLoop_ne _ _ (fun i h1 h2 st => ?_) _
    · unfold passPrimitive
      split
      · exact registerPrimitive_ne hs _ _ _
      · simp
    · unfold passPrimitiveTypes
      split
      · exact registerPrimitive_ne hs _ _ _
      · simp
    · unfold passSpCore
      split
      · exact bind_ne_diverge (hdeal i h1 h2 st) fun _ => by simp
      · simp
    · unfold passRest
      split
      · simp
      · exact bind_ne_diverge (hdeal i h1 h2 st) fun _ => by simp

/-- A registry read from metadata has finitely many types. -/
theorem portable_finite (l : List (Nat × SiType)) : ∃ m, ∀ i, m ≤ i → (portableType l i).typ = .none := by
  refine ⟨(l.map Prod.fst).foldr max 0 + 1, fun i hi => ?_⟩
  have hb : ∀ (l : List (Nat × SiType)), ∀ p ∈ l, p.1 ≤ (l.map Prod.fst).foldr max 0 := by
    intro l
    induction l with
    | nil => simp
    | cons q l ih =>
      intro p hp
      simp only [List.map_cons, List.foldr_cons]
      rcases List.mem_cons.mp hp with rfl | hp
      · omega
      · have := ih p hp
        omega
  unfold portableType
  split
  · rename_i p hp
    have h1 := List.mem_of_find?_eq_some hp
    have h2 := List.find?_some hp
    have h3 := hb l p (List.mem_reverse.mp h1)
    simp at h2
    omega
  · rfl

/-- The same for what `InitPortableRaw` builds. -/
theorem C123_portable (l : List (Nat × SiType)) (reg : RegState) (hc : ∀ x, ¬ Relation.TransGen (MadeFrom [] (portableType l)) x x) :
    ∃ N, ∀ n, N ≤ n → processSiType (portableCfg l) n reg ≠ .diverge := by
  obtain ⟨m, hm⟩ := portable_finite l
  exact C123_partial (portableCfg l) reg m hm (.inr rfl) hc

/-- Types that are written through each other are never given texts: nothing is returned for a registry that holds them. -/
theorem C123_cycle (cfg : SiCfg) (n : Nat) (reg : RegState) (S : Nat → Prop)
    (hS : ∀ i, S i → (cfg.types i).path.head? ≠ some b!"primitive_types" ∧ ∃ j, S j ∧
      ((cfg.types i).typ = .sequence j ∨ (cfg.types i).typ = .compact j ∨ (∃ len, len ≠ 0 ∧ (cfg.types i).typ = .array len j) ∨
        ∃ ts, j ∈ ts ∧ (cfg.types i).typ = .tuple ts))
    (i : Nat) (hi : i < cfg.count) (h : S i) (st : SiState) : processSiType cfg n reg ≠ .ok st := by
  intro hp
  obtain ⟨dup, _, hok, hall⟩ := process_text hp
  have key : ∀ i t, Text { cfg with dup := dup } NoEarly i t → ¬ S i := by
    intro i t ht
    induction ht with
    | emptyName _ h =>
      intro hs
      obtain ⟨hp, j, hj, hd⟩ := hS _ hs
      rcases hd with hd | hd | ⟨_, h0, hd⟩ | ⟨_, h0, hd⟩ <;> simp [hd, IsStruct, IsEnum] at h
    | tuple ps _ ht _ _ ih =>
      intro hs
      obtain ⟨hp, j, hj, hd⟩ := hS _ hs
      rcases hd with hd | hd | ⟨_, h0, hd⟩ | ⟨_, h0, hd⟩ <;> rw [hd] at ht <;> simp only [reduceCtorEq, SiDef.tuple.injEq] at ht
      subst ht
      obtain ⟨p, hp, rfl⟩ := List.mem_map.mp h0
      exact ih p hp hj
    | _ =>
      intro hs
      obtain ⟨hp, j, hj, hd⟩ := hS _ hs
      rcases hd with hd | hd | ⟨_, h0, hd⟩ | ⟨_, h0, hd⟩ <;> simp_all [nameSiType, overriderTypesName]
  obtain ⟨_, j, _, hj⟩ := hS i h
  obtain ⟨t, ht⟩ := hall i hi (by rcases hj with h | h | ⟨_, _, h⟩ | ⟨_, _, h⟩ <;> rw [h] <;> simp)
  exact key i t (hok.text i t ht) h

/-- The first thing that is needed for the text of a type. -/
def Spec.FirstNeeds (types : Nat → SiType) (x y : Bool × Nat) : Prop :=
  (y.1 = true ∧ ((types x.2).typ = .sequence y.2 ∨ (types x.2).typ = .compact y.2 ∨ ∃ len, len ≠ 0 ∧ (types x.2).typ = .array len y.2)) ∨
  (x.1 = false ∧ y.1 = false ∧ y.2 ≠ x.2 ∧ (∃ f : SiField, (types x.2).typ = .composite [f] ∧ f.type = y.2 ∧ f.typeName ∉ [b!"u64", b!"i128"]) ∧
    ∀ l ∈ (types x.2).path, l ∉ [b!"AccountId32", b!"UncheckedExtrinsic", b!"WrapperKeepOpaque", b!"WrapperOpaque"])

open _root_.ScaleGo.Spec (FirstNeeds)

/-- Types that first need each other are called for without end. -/
theorem C123_overflow (cfg : SiCfg) (S : Bool × Nat → Prop) (hS : ∀ x, S x → ∃ y, S y ∧ FirstNeeds cfg.types x y) :
    ∀ (n : Nat) (x : Bool × Nat) (st : SiState), S x → (∀ y, S y → st.ids y.2 = none) → dealOneSiType cfg n x.1 x.2 st = .diverge := by
  intro n
  induction n with
  | zero => intros; rw [dealOneSiType]
  | succ n ih =>
    intro x st hx hu
    obtain ⟨⟨r, j⟩, hy, hd⟩ := hS x hx
    have hj := hu _ hy
    dsimp only at hj
    have hrec := ih (r, j) st hy hu
    dsimp only at hrec
    rw [dealOneSiType]
    unfold FirstNeeds at hd
    rcases hd with ⟨hr, hd⟩ | ⟨hxf, hr, hne, ⟨f, hd, hf, hn⟩, hp⟩
    · dsimp only at hr
      subst hr
      have hsub : subTypeOf (dealOneSiType cfg n) j st = .diverge := by
        rw [subTypeOf, hj]
        exact hrec
      rcases hd with hd | hd | ⟨len, h0, hd⟩ <;> dsimp only at hd <;>
        simp [overriderTypesName, nameSiType, dealDef, expandGeneric, expandArray, *]
    · dsimp only at hr hne hf
      subst hr hf
      have ho : overriderTypesName (cfg.types x.2) = [] := by
        simp only [List.mem_cons, List.not_mem_nil, or_false, not_or] at hn
        simp [overriderTypesName, hd, hn.1, hn.2]
      have hl : ∀ b, b ∈ [b!"AccountId32", b!"UncheckedExtrinsic", b!"WrapperKeepOpaque", b!"WrapperOpaque"] → (cfg.types x.2).path ≠ [] →
          lastOf (cfg.types x.2).path ≠ b := by
        intro b hb h0 hl
        refine hp b ?_ hb
        rw [← hl, lastOf, List.getLastD_eq_getLast?, List.getLast?_eq_some_getLast h0]
        exact List.getLast_mem h0
      have h2 : ∀ {p : List Str}, 2 ≤ p.length → p ≠ [] := by
        rintro p h rfl
        simp at h
      have hx1 : expandExtrinsicParams cfg (dealOneSiType cfg n) (cfg.types x.2) st = .ok st := by
        rw [expandExtrinsicParams, if_neg]
        rintro ⟨h, _, hu⟩
        exact hl _ (by simp) (h2 h) hu
      have hx2 : ¬ (2 ≤ (cfg.types x.2).path.length ∧ (sliceIndex (lastOf (cfg.types x.2).path) [b!"WrapperKeepOpaque", b!"WrapperOpaque"]).isSome) := by
        rintro ⟨h, hw⟩
        rw [sliceIndex_mem_iff] at hw
        exact hl _ (List.mem_cons_of_mem _ (List.mem_cons_of_mem _ hw)) (h2 h) rfl
      have hx3 : ¬ ((cfg.types x.2).path ≠ [] ∧ lastOf (cfg.types x.2).path = b!"AccountId32") := by
        rintro ⟨h, ha⟩
        exact hl _ (by simp) h ha
      have hx4 : newtypeSub (dealOneSiType cfg n) x.2 f st = .diverge := by
        rw [newtypeSub, hj]
        dsimp only
        rw [if_neg hne, hrec]
      simp only [ho, hxf, dealDef, hd, ne_eq, not_true_eq_false, if_false, Bool.false_eq_true]
      rw [expandComposite, hx1, Res.ok_bind, if_neg hx2]
      dsimp only
      rw [expandNewtype, if_neg hx3, hx4]
      rfl

/-- A type of sequences of itself. -/
def seqOfSelf : List (Nat × SiType) := [(0, { typ := .sequence 0 })]

/-- Two types with one field that hold each other. -/
def eachOther : List (Nat × SiType) :=
  [(0, { path := [b!"a", b!"A"], typ := .composite [{ name := [], type := 1 }] }), (1, { path := [b!"a", b!"B"], typ := .composite [{ name := [], type := 0 }] })]

theorem seqOfSelf_diverges (n : Nat) (reg : RegState) : processSiType (portableCfg seqOfSelf) n reg = .diverge := by
  have h := C123_overflow (portableCfg seqOfSelf) (fun x => x.2 = 0) (by
    rintro ⟨r, _⟩ rfl
    exact ⟨(true, 0), rfl, .inl ⟨rfl, .inl rfl⟩⟩) n (false, 0) ⟨reg, fun _ => none⟩ rfl (fun _ _ => rfl)
  change (do let r ← dealOneSiType (portableCfg seqOfSelf) n false 0 ⟨reg, fun _ => none⟩; Res.ok r.2) >>= _ = _
  dsimp only at h
  rw [h]
  rfl

theorem eachOther_diverges (n : Nat) (reg : RegState) : processSiType (portableCfg eachOther) n reg = .diverge := by
  have hd : countNames (portableCfg eachOther) 0 (portableCfg eachOther).count (fun _ => 0) = .ok
      (fun k => if k = b!"a:B" then (if k = b!"a:A" then 1 else 0) + 1 else if k = b!"a:A" then 1 else 0) := by rfl
  unfold processSiType
  rw [hd, Res.ok_bind]
  generalize (fun k : Str => if k = b!"a:B" then (if k = b!"a:A" then 1 else 0) + 1 else if k = b!"a:A" then 1 else 0) = dup
  have h := C123_overflow { portableCfg eachOther with dup := dup } (fun x => x = (false, 0) ∨ x = (false, 1)) (by
    rintro _ (rfl | rfl)
    · exact ⟨(false, 1), .inr rfl, .inr ⟨rfl, rfl, by decide, ⟨⟨[], 1, []⟩, rfl, rfl, by decide⟩, by change ∀ l ∈ (portableType eachOther _).path, _; decide⟩⟩
    · exact ⟨(false, 0), .inl rfl, .inr ⟨rfl, rfl, by decide, ⟨⟨[], 0, []⟩, rfl, rfl, by decide⟩, by change ∀ l ∈ (portableType eachOther _).path, _; decide⟩⟩)
    n (false, 0) ⟨reg, fun _ => none⟩ (.inl rfl) (fun _ _ => rfl)
  change (do let r ← dealOneSiType { portableCfg eachOther with dup := dup } n false 0 ⟨reg, fun _ => none⟩; Res.ok r.2) >>= _ = _
  dsimp only at h
  rw [h]
  rfl

theorem C123_claim_false : ¬ C123Claim := by
  intro h
  obtain ⟨N, hN⟩ := h eachOther rowsReg
  exact hN N (Nat.le_refl _) (eachOther_diverges _ _)

/-! ## Examples -/

/-- A struct that holds a sequence of itself: the name of the struct is enough for the text of the sequence. -/
def treeTypes : List (Nat × SiType) :=
  [(0, { path := [b!"a", b!"Tree"], typ := .composite [⟨b!"kids", 1, []⟩, ⟨b!"label", 2, []⟩] }), (1, { typ := .sequence 0 }),
   (2, { typ := .primitive b!"U32" })]

example : ∃ N, ∀ n, N ≤ n → processSiType (portableCfg treeTypes) n rowsReg ≠ .diverge := by
  refine C123_portable treeTypes rowsReg ?_
  let rank : Bool × Nat → Nat := fun x => if x.1 then (if x.2 = 1 then 1 else 0) else 2
  have hm : ∀ x y, MadeFrom [] (portableType treeTypes) x y → rank y < rank x := by
    rintro ⟨r, i⟩ ⟨r', i'⟩ ⟨hn, h⟩
    match i with
    | 0 =>
      change _ ∨ _ ∨ (r' = true ∧ _ ∧ _) at h
      rcases h with ⟨_, h, _⟩ | ⟨_, h, _⟩ | ⟨h, _, _⟩
      · cases h
      · cases h
      · cases r
        · by_cases h1 : i' = 1 <;> simp [rank, h, h1]
        · exact absurd (hn rfl).2 (by decide)
    | 1 =>
      cases h
      cases r <;> simp [rank]
    | 2 => exact h.elim
    | i + 3 =>
      have hz : portableType treeTypes (i + 3) = {} := rfl
      rw [hz] at h
      exact h.elim
  have ht : ∀ x y, Relation.TransGen (MadeFrom [] (portableType treeTypes)) x y → rank y < rank x := by
    intro x y h
    induction h with
    | single h => exact hm _ _ h
    | tail _ h ih => exact Nat.lt_trans (hm _ _ h) ih
  exact fun x h => Nat.lt_irrefl _ (ht x x h)

example (n : Nat) (st : SiState) : processSiType (portableCfg seqOfSelf) n rowsReg ≠ .ok st :=
  C123_cycle _ n rowsReg (fun i => i = 0) (by
    rintro _ rfl
    exact ⟨by decide, 0, rfl, .inl rfl⟩) 0 (by decide) rfl st

end ScaleGo
