import Verif.Props.C33
import Verif.Props.C108
import Mathlib.Logic.Relation

/-! # C131: loading definitions again changes nothing

A program that reconnects to a chain loads the definitions of the chain again, into the same tables.  Names then are looked up in tables
that already have them, and version ranges are appended a second time. -/

namespace ScaleGo

open ScaleGo.Spec

/-- The full property: a second registration of the same definitions, in whatever order, leaves every lookup as it was. -/
def C131Claim : Prop :=
  ∀ (fuel fuel' : Nat) (st s s' : RegState) (l l' : List (Str × TypeDef)), (l.map (·.1)).Nodup → l.Perm l' →
    regCustomTypes fuel st l = .ok s → regCustomTypes fuel' s l' = .ok s' →
      ∀ m v t, getCodecClass s'.env m v t = getCodecClass s.env m v t

/-- With these tables all type texts are looked up, decoded and encoded alike. -/
def SameWork (a b : Env) : Prop :=
  (∀ m v t, getCodecClass a m v t = getCodecClass b m v t) ∧ (∀ n, pau a n = pau b n) ∧ ∀ n, enc a n = enc b n

theorem Agree.sameWork {a b : Env} (h : Agree a b) : SameWork a b := by
  have hc : ∀ m v t, getCodecClass a m v t = getCodecClass b m v t := fun m v t => h.class m t v
  refine ⟨hc, fun n => ?_, fun n => ?_⟩
  · induction n with
    | zero => rfl
    | succ n ih =>
      funext ctx t st
      unfold pau
      rw [hc, h.2.2, ih]
  · induction n with
    | zero => rfl
    | succ n ih =>
      funext ctx t v
      unfold enc
      rw [hc, h.2.2, ih]

/-! ## Batches -/

theorem foldReg (es : List Entry) (k : Str) :
    (∃ c, ∀ a : Env, (es.foldl storeEntry a).reg k = some c) ∨ ∀ a : Env, (es.foldl storeEntry a).reg k = a.reg k := by
  induction es with
  | nil => exact .inr fun _ => rfl
  | cons e es ih =>
    rcases ih with ⟨c, h⟩ | h
    · exact .inl ⟨c, fun a => h _⟩
    · by_cases hk : e.range = none ∧ toLower e.name = k
      · exact .inl ⟨e.cls, fun a => by rw [List.foldl_cons, h, storeEntry_reg, if_pos hk]⟩
      · exact .inr fun a => by rw [List.foldl_cons, h, storeEntry_reg, if_neg hk]

theorem foldSpecial (es : List Entry) (k : Str) : ∃ S, ∀ a : Env, (es.foldl storeEntry a).special k = a.special k ++ S := by
  induction es with
  | nil => exact ⟨[], fun a => by simp⟩
  | cons e es ih =>
    obtain ⟨S, h⟩ := ih
    exact ⟨_ ++ S, fun a => by rw [List.foldl_cons, h, storeEntry_special, List.append_assoc]⟩

theorem fold_again (es : List Entry) (a : Env) : Agree (es.foldl storeEntry (es.foldl storeEntry a)) (es.foldl storeEntry a) := by
  refine ⟨fun k => ?_, fun k v => ?_, storeAll_ext _ es⟩
  · rcases foldReg es k with ⟨c, h⟩ | h
    · rw [h, h]
    · rw [h]
  · obtain ⟨S, h⟩ := foldSpecial es k
    rw [h, h, findSpecial_append, findSpecial_append]
    cases findSpecial v (a.special k) <;> cases findSpecial v S <;> rfl

/-- Registering again in the same order, for own definitions and aliases of what was known before or of composed texts. -/
theorem C131_same_order_partial (fuel fuel' : Nat) (st s : RegState) (es : List Entry) (l : List (Str × TypeDef)) (hf : ∀ e ∈ es, e.Keyed)
    (h : List.Forall₂ (fun e r => KeyText e r.1 ∧ r.2.v14 = false ∧
      Says st.env (fun k => ∃ e ∈ es, e.range = none ∧ toLower e.name = k) r.2 e.cls) es l) (hs : regCustomTypes fuel st l = .ok s) :
    ∃ s', regCustomTypes fuel' s l = .ok s' ∧ SameWork s'.env s.env := by
  have hkeys := forall₂_keys h
  have r1 := regLoop_says fuel l st.env es es l st (fun k _ => rfl) hkeys (fun e he => he) hf h
  rw [show regLoop fuel l st l = .ok s from hs] at r1
  cases r1
  have keep : ∀ k, (∀ e ∈ es, e.range = none → toLower e.name ≠ k) → (es.foldl storeEntry st.env).reg k = st.env.reg k := by
    clear h hs hkeys hf
    generalize st.env = a
    intro k hk
    induction es generalizing a with
    | nil => rfl
    | cons e es ih => rw [List.foldl_cons, ih _ fun e he => hk e (by simp [he]), storeEntry_keeps _ _ _ (hk e (by simp))]
  exact ⟨_, regLoop_says fuel' l st.env es es l _ keep hkeys (fun e he => he) hf h, (fold_again es st.env).sameWork⟩

/-- Registering again in any order, if besides no two plain keys are equal up to letter case and version ranges of one name do not overlap.
Missing from the full property: aliases of names of the same batch (`C131_claim_false`). -/
theorem C131_partial (fuel fuel' : Nat) (st s : RegState) (es : List Entry) (l l' : List (Str × TypeDef)) (hp : l.Perm l') (hf : ∀ e ∈ es, e.Keyed)
    (hsep : es.Pairwise Separate)
    (h : List.Forall₂ (fun e r => KeyText e r.1 ∧ r.2.v14 = false ∧
      Says st.env (fun k => ∃ e ∈ es, e.range = none ∧ toLower e.name = k) r.2 e.cls) es l) (hs : regCustomTypes fuel st l = .ok s) :
    ∃ s', regCustomTypes fuel' s l' = .ok s' ∧ SameWork s'.env s.env := by
  obtain ⟨es', hpe, h'⟩ : ∃ es', es.Perm es' ∧ List.Forall₂ (fun e r => KeyText e r.1 ∧ r.2.v14 = false ∧
      Says st.env (fun k => ∃ e ∈ es, e.range = none ∧ toLower e.name = k) r.2 e.cls) es' l' := by
    obtain ⟨es', h1, h2⟩ := List.perm_comp_forall₂ hp.symm h.flip
    exact ⟨es', h2.symm, h1.flip⟩
  have hkeys := forall₂_keys h
  have r1 := regLoop_says fuel l st.env es es l st (fun k _ => rfl) hkeys (fun e he => he) hf h
  rw [show regLoop fuel l st l = .ok s from hs] at r1
  cases r1
  have keep : ∀ (es : List Entry) (a : Env) (k : Str), (∀ e ∈ es, e.range = none → toLower e.name ≠ k) → (es.foldl storeEntry a).reg k = a.reg k := by
    intro es
    induction es with
    | nil => intro a k _; rfl
    | cons e es ih =>
      intro a k hk
      rw [List.foldl_cons, ih _ k fun e he => hk e (by simp [he]), storeEntry_keeps _ _ _ (hk e (by simp))]
  exact ⟨_, regLoop_says fuel' l' st.env es es' l' _ (keep es st.env) (fun r hr => hkeys r (hp.mem_iff.2 hr)) (fun e he => hpe.mem_iff.2 he)
    (fun e he => hf e (hpe.mem_iff.2 he)) h', 
      ((store_perm hpe.symm ((hpe.pairwise_iff (fun h => Separate.symm h)).1 hsep) _ _ (Agree.refl _)).trans (fold_again es st.env)).sameWork⟩

/-- The full property fails: of a chain of aliases the first registration leaves `a` unknown, the second makes it a `u32`. -/
theorem C131_claim_false : ¬ C131Claim := by
  intro h
  have key := h 0 0 ⟨baseEnv dummyExt, fun _ => none⟩ ⟨setReg (setReg (baseEnv dummyExt) b!"b" .u32) b!"c" .u32, fun _ => none⟩
    ⟨setReg (setReg (setReg (setReg (setReg (baseEnv dummyExt) b!"b" .u32) b!"c" .u32) b!"a" .u32) b!"b" .u32) b!"c" .u32, fun _ => none⟩
    chain chain (by decide) (.refl _) (by kernel_rfl) (by kernel_rfl) [] 0 b!"a"
  have e1 : getCodecClass (setReg (setReg (baseEnv dummyExt) b!"b" .u32) b!"c" .u32) [] 0 b!"a" = .ok none := by kernel_rfl
  have e2 : getCodecClass (setReg (setReg (setReg (setReg (setReg (baseEnv dummyExt) b!"b" .u32) b!"c" .u32) b!"a" .u32) b!"b" .u32) b!"c" .u32) [] 0 b!"a" =
      .ok (some (.u32, [])) := by kernel_rfl
  rw [e1, e2] at key
  simp at key

/-- A definition with two ranges and an alias, registered twice. -/
example : ∃ s', regCustomTypes 0 ⟨setReg (addSpecial (baseEnv dummyExt) b!"foo" (0, 10, .set [b!"a"] 8)) b!"bar" .balance, fun _ => none⟩
      [(b!"Foo#0-10", { kind := b!"set", values := [b!"a"], bits := 8 }), (b!"Bar", { kind := b!"string", typeString := b!"Balance" })] = .ok s' ∧
    SameWork s'.env (setReg (addSpecial (baseEnv dummyExt) b!"foo" (0, 10, .set [b!"a"] 8)) b!"bar" .balance) := by
  refine C131_same_order_partial 0 0 ⟨baseEnv dummyExt, fun _ => none⟩ ⟨setReg (addSpecial (baseEnv dummyExt) b!"foo" (0, 10, .set [b!"a"] 8)) b!"bar" .balance, fun _ => none⟩
    [⟨b!"Foo", some ⟨0, some 10⟩, .set [b!"a"] 8⟩, ⟨b!"Bar", none, .balance⟩] _ ?_ ?_ (by kernel_rfl)
  · intro e he
    simp only [List.mem_cons, List.not_mem_nil, or_false] at he
    rcases he with rfl | rfl
    · refine ⟨by decide, fun r hr => ?_⟩
      simp only [Option.some.injEq] at hr
      subst hr
      exact ⟨by decide, by simp⟩
    · exact ⟨by decide, fun r hr => by cases hr⟩
  · refine .cons ⟨⟨b!"0-10", ⟨b!"0", b!"10", ⟨by decide, by decide, by decide, by decide⟩, ⟨by decide, by decide, by decide, by decide⟩, rfl⟩, rfl⟩, rfl,
      .own _ _ (.set _ rfl)⟩ (.cons ⟨rfl, rfl, .known _ _ rfl (by decide +kernel) ?_⟩ .nil)
    rintro ⟨e, he, h1, h2⟩
    simp only [List.mem_cons, List.not_mem_nil, or_false] at he
    rcases he with rfl | rfl
    · cases h1
    · exact absurd h2 (by decide +kernel)

/-! ## The shipped files -/

/-- `load_keys_any_order` over tables some of whose names were registered before. -/
theorem load_keys_between {B E : Str → Option Cls} {T : List (Str × TypeDef)} {fuel : Nat} (hn : (T.map Prod.fst).Nodup)
    (hok : okKeyTable B E (tableGet T) fuel T = true) (order : List Str) (ho : order.Perm (T.map Prod.fst)) (l : List (Str × TypeDef))
    (hl : l.Perm (inheritLoop order T)) (st : RegState) (hst : Between B E st) (fuel' : Nat) :
    ∃ ks, ks.Perm (T.map fun p => toLower p.1) ∧ regCustomTypes fuel' st l = .ok (putAll E st ks) := by
  obtain ⟨hinv, hpost⟩ := inheritLoop_inv order T (.start T)
  have hn2 : ((inheritLoop order T).map Prod.fst).Nodup := by rw [hinv.keys]; exact hn
  have hn3 : (l.map Prod.fst).Nodup := (hl.map _).nodup_iff.mpr hn2
  have hget : ∀ k, tableGet l k = tableGet (inheritLoop order T) k := tableGet_perm hl hn3
  have hpost' : ∀ k d, tableGet l k = some d → PostOf T k d := by
    intro k d hd
    rw [hget] at hd
    refine hpost k (.inl ?_) d hd
    rw [ho.mem_iff, ← hinv.keys]
    have := mem_of_tableGet hd
    exact List.mem_map.mpr ⟨_, this, rfl⟩
  have hr := regLoop_put (B := B) (E := E) (T := T) (all := l) (fuel := fuel) (fuel' := fuel')
    (fun k => by rw [hget]; exact tableGet_keys hinv.keys k) hpost' l ?_ st hst
  refine ⟨l.map (fun (p : Str × TypeDef) => toLower p.1), ?_, hr⟩
  · have e1 : l.map (fun p => toLower p.1) = (l.map Prod.fst).map toLower := by rw [List.map_map]; rfl
    have e2 : T.map (fun p => toLower p.1) = (T.map Prod.fst).map toLower := by rw [List.map_map]; rfl
    rw [e1, e2, ← hinv.keys]
    exact (hl.map _).map _
  · intro p hp
    obtain ⟨k, e⟩ := p
    have hg := tableGet_of_mem hn3 hp
    have hpo := hpost' _ _ hg
    obtain ⟨d, hd⟩ := Option.isSome_iff_exists.mp hpo.reach.isSome
    have h2 := List.all_eq_true.mp hok _ (mem_of_tableGet hd)
    cases hp : postList (tableGet T) fuel d with
    | none => simp only [hp] at h2; cases h2
    | some l' =>
      simp only [hp] at h2
      exact List.all_eq_true.mp h2 e (postList_sound hd hpo hp)

theorem between_putAll {B E : Str → Option Cls} : ∀ (ks : List Str) {st : RegState}, Between B E st → Between B E (putAll E st ks)
  | [], _, h => h
  | a :: ks, _, h => between_putAll ks (h.put a)

theorem putAll_reg_versioned (E : Str → Option Cls) (k : Str) (hk : versioned k = true) : ∀ (ks : List Str) (st : RegState),
    (putAll E st ks).env.reg k = st.env.reg k
  | [], _ => rfl
  | a :: ks, st => by
    show (putAll E (putKey st a (E a)) ks).env.reg k = _
    rw [putAll_reg_versioned E k hk ks]
    cases hE : E a with
    | none => rfl
    | some c =>
      show (regCustomKey st.env a c).reg k = _
      unfold regCustomKey
      split
      · rfl
      · rename_i hno
        have : k ≠ a := by
          rintro rfl
          unfold versioned at hk
          split at hk
          · rename_i n r e; exact hno n r e
          · cases hk
        simp [setReg, this]

theorem putAll_ext (E : Str → Option Cls) : ∀ (ks : List Str) (st : RegState), (putAll E st ks).env.ext = st.env.ext
  | [], _ => rfl
  | a :: ks, st => by
    show (putAll E (putKey st a (E a)) ks).env.ext = _
    rw [putAll_ext E ks]
    cases E a with
    | none => rfl
    | some c =>
      show (regCustomKey st.env a c).ext = _
      unfold regCustomKey
      split <;> rfl

theorem findSpecial_none {v : Int} : ∀ {l : List (Int × Int × Cls)}, findSpecial v l = none ↔ ∀ x ∈ l, ¬ (v ≥ x.1 ∧ v ≤ x.2.1)
  | [] => by simp [findSpecial]
  | (lo, hi, c) :: l => by
    rw [findSpecial]
    split
    · rename_i h; simp [h]
    · rename_i h
      rw [findSpecial_none]
      constructor
      · intro g x hx
        rcases List.mem_cons.mp hx with rfl | hx
        · exact h
        · exact g x hx
      · exact fun g x hx => g x (List.mem_cons_of_mem _ hx)

/-- Putting the same keys again, in any order. -/
theorem putAll_again (E : Str → Option Cls) {ks ks' : List Str} (hp : ks.Perm ks') (st : RegState) :
    Agree (putAll E (putAll E st ks) ks').env (putAll E st ks).env := by
  refine ⟨fun k => ?_, fun n v => ?_, putAll_ext E ks' _⟩
  · cases hk : versioned k with
    | true => rw [putAll_reg_versioned E k hk]
    | false =>
      rw [putAll_reg E k hk, putAll_reg E k hk]
      simp only [hp.mem_iff]
      split <;> rfl
  · rw [putAll_special, putAll_special, findSpecial_append]
    cases hs : findSpecial v (st.env.special n ++ ks.filterMap (addedTo E n)) with
    | some c => rfl
    | none =>
      rw [Option.none_or, findSpecial_none]
      intro x hx
      refine findSpecial_none.mp hs x (List.mem_append_right _ ?_)
      exact (hp.filterMap _).mem_iff.mpr hx

/-- What loading a file over tables that may have it already comes to. -/
theorem runsTo_between {N : List (Str × Network.Entry)} {C : List (Str × Cls)} (h : Network.check N C = true) {st s : RegState}
    (hb : Between loadedReg (Network.classOf C) st) (hr : RunsTo N st s) :
    ∃ ks, ks.Perm ((Network.table N).map fun p => toLower p.1) ∧ s = putAll (Network.classOf C) st ks := by
  obtain ⟨h1, _, h3⟩ := check_parts h
  obtain ⟨order, l, fuel, ho, hl, hrun⟩ := hr
  rw [load_eq] at hl
  rw [← table_keys] at ho
  obtain ⟨ks, hp, e⟩ := load_keys_between h3 h1 order ho l hl st hb fuel
  rw [hrun] at e
  cases e
  exact ⟨ks, hp, rfl⟩

/-- Loading the file again, any number of times, leaves every lookup, decoding and encoding as it was, and does not panic. -/
def Reloads (N : List (Str × Network.Entry)) : Prop :=
  ∀ st : RegState, st.env.reg = loadedReg → ∀ s s', RunsTo N st s → Relation.ReflTransGen (RunsTo N) s s' →
    SameWork s'.env s.env ∧
      ∀ (order : List Str) (l : List (Str × TypeDef)) (fuel : Nat), order.Perm (N.map Prod.fst) → l.Perm (LoadJson.load order (Network.file N)) →
        ∃ s'', regCustomTypes fuel s' l = .ok s''

theorem reloads_of_check {N : List (Str × Network.Entry)} {C : List (Str × Cls)} (h : Network.check N C = true) : Reloads N := by
  intro st hst s s' hr hrs
  have hb : Between loadedReg (Network.classOf C) st := fun n => .inl (by rw [hst])
  obtain ⟨ks, hp, rfl⟩ := runsTo_between h hb hr
  have key : Agree s'.env (putAll (Network.classOf C) st ks).env ∧
      ∃ st' ks', Between loadedReg (Network.classOf C) st' ∧ ks'.Perm ((Network.table N).map fun p => toLower p.1) ∧ s' = putAll (Network.classOf C) st' ks' := by
    induction hrs with
    | refl => exact ⟨.refl _, st, ks, hb, hp, rfl⟩
    | tail _ h1 ih =>
      obtain ⟨ha, st', ks', hb', hp', rfl⟩ := ih
      obtain ⟨ks'', hp'', rfl⟩ := runsTo_between h (between_putAll ks' hb') h1
      exact ⟨(putAll_again _ (hp'.trans hp''.symm) st').trans ha, _, ks'', between_putAll ks' hb', hp'', rfl⟩
  obtain ⟨ha, st', ks', hb', _, rfl⟩ := key
  refine ⟨ha.sameWork, fun order l fuel ho hl => ?_⟩
  obtain ⟨h1, _, h3⟩ := check_parts h
  rw [load_eq] at hl
  rw [← table_keys] at ho
  obtain ⟨ks, _, e⟩ := load_keys_between h3 h1 order ho l hl _ (between_putAll ks' hb') fuel
  exact ⟨_, e⟩

/-- Fifty of the 54 files in `network/` may be loaded again. -/
theorem C131_shipped_partial (f : Str × List (Str × Network.Entry)) (hf : f ∈ Network.shipped) (hu : f.1 ∉ Network.unstable.map Prod.fst) :
    Reloads f.2 := by
  rcases shipped_checked f hf with ⟨C, h⟩ | ⟨k, C, hk, _⟩
  · exact reloads_of_check h
  · exact absurd (List.mem_map.mpr ⟨_, hk, rfl⟩) hu

/-- The other four without the one name. -/
theorem C131_without_partial (f : Str × List (Str × Network.Entry)) (hf : f ∈ Network.shipped) :
    Reloads f.2 ∨ ∃ k, (f.1, k) ∈ Network.unstable ∧ Reloads (Network.without k f.2) := by
  rcases shipped_checked f hf with ⟨C, h⟩ | ⟨k, C, hk, h⟩
  · exact .inl (reloads_of_check h)
  · exact .inr ⟨k, hk, reloads_of_check h⟩

/-- Each time the version ranges of the file are appended again. -/
theorem C131_growth (f : Str × List (Str × Network.Entry)) (hf : f ∈ Network.shipped) (hu : f.1 ∉ Network.unstable.map Prod.fst) (st s s' : RegState)
    (hst : st.env.reg = loadedReg) (h1 : RunsTo f.2 st s) (h2 : RunsTo f.2 s s') (n : Str) :
    (s'.env.special n).length + (st.env.special n).length = 2 * (s.env.special n).length := by
  rcases shipped_checked f hf with ⟨C, h⟩ | ⟨k, C, hk, _⟩
  · have hb : Between loadedReg (Network.classOf C) st := fun n => .inl (by rw [hst])
    obtain ⟨ks, hp, rfl⟩ := runsTo_between h hb h1
    obtain ⟨ks', hp', rfl⟩ := runsTo_between h (between_putAll ks hb) h2
    have := ((hp'.trans hp.symm).filterMap (addedTo (Network.classOf C) n)).length_eq
    rw [putAll_special, putAll_special]
    simp only [List.length_append]
    omega
  · exact absurd (List.mem_map.mpr ⟨_, hk, rfl⟩) hu

/-- A question about the tables after one run and after a second one. -/
def afterTwice {α : Type} (l : List (Str × TypeDef)) (q : Env → α) : Option (α × α) :=
  match regCustomTypes 1 ⟨{ loadedEnv dummyExt with reg := fastReg }, fun _ => none⟩ l with
  | .ok s => match regCustomTypes 1 s l with
    | .ok s' => some (q s.env, q s'.env)
    | _ => none
  | _ => none

theorem not_reloads {N : List (Str × Network.Entry)} {order : List Str} {l : List (Str × TypeDef)} {t : Str} {r r' : Res (Option (Cls × Str))}
    (ho : order.Perm (N.map Prod.fst)) (hl : l.Perm (inheritLoop order (Network.table N)))
    (h : afterTwice l (fun env => getCodecClass env [] 0 t) = some (r, r')) (hne : r ≠ r') : ¬ Reloads N := by
  intro hre
  unfold afterTwice at h
  have e : loadedEnv dummyExt = { loadedEnv dummyExt with reg := fastReg } := by unfold loadedEnv; rw [loadedReg_fast]
  rw [← e] at h
  split at h
  · rename_i s hs
    split at h
    · rename_i s' hs'
      cases h
      have hl' : l.Perm (LoadJson.load order (Network.file N)) := by rw [load_eq]; exact hl
      exact hne ((hre _ rfl s s' ⟨order, l, 1, ho, hl', hs⟩ (.single ⟨order, l, 1, ho, hl', hs'⟩)).1.1 [] 0 t).symm
    · cases h
  · cases h

/-- In sora a second run in the same order changes the class of a name: balances first, numbers of 16 bytes then. -/
theorem C131_sora : ¬ Reloads Network.sora :=
  not_reloads (t := b!"MultiCurrencyBalanceOf") (r := .ok (some (.balance, []))) (r' := .ok (some (.u128, [])))
    (order := (Network.sora.map Prod.fst).reverse) (l := Network.backward Network.sora) (List.reverse_perm _) (List.reverse_perm _)
    (by kernel_rfl) (by decide)

/-- In crab the address of a signer changes from checksummed text to plain hex. -/
theorem C131_crab : ¬ Reloads Network.crab :=
  not_reloads (t := b!"RelayAuthoritySigner") (r := .ok (some (.ethereumAddress, []))) (r' := .ok (some (.hash 20, [])))
    (order := (Network.crab.map Prod.fst).reverse) (l := Network.backward Network.crab) (List.reverse_perm _) (List.reverse_perm _) (by kernel_rfl) (by decide)

/-- In darwinia the address of a signer changes from checksummed text to plain hex. -/
theorem C131_darwinia : ¬ Reloads Network.darwinia :=
  not_reloads (t := b!"RelayAuthoritySigner") (r := .ok (some (.ethereumAddress, []))) (r' := .ok (some (.hash 20, [])))
    (order := (Network.darwinia.map Prod.fst).reverse) (l := Network.backward Network.darwinia) (List.reverse_perm _) (List.reverse_perm _) (by kernel_rfl) (by decide)

/-- In pangolin the address of a signer changes from checksummed text to plain hex. -/
theorem C131_pangolin : ¬ Reloads Network.pangolin :=
  not_reloads (t := b!"RelayAuthoritySigner") (r := .ok (some (.ethereumAddress, []))) (r' := .ok (some (.hash 20, [])))
    (order := (Network.pangolin.map Prod.fst).reverse) (l := Network.backward Network.pangolin) (List.reverse_perm _) (List.reverse_perm _) (by kernel_rfl) (by decide)

/-- Kusama may be loaded again. -/
example : Reloads Network.kusama := reloads_of_check NetCheck.kusama

end ScaleGo
