import Verif.Lemmas.NetChecks1
import Verif.Lemmas.NetChecks2
import Verif.Lemmas.NetChecks3
import Verif.Lemmas.NetChecks4
import Verif.Model.Networks
import Mathlib.Data.List.Pairwise

/-! # C108: loading a shipped network file does not depend on the order of Go's maps

Each file in `network/` is loaded on top of the built-in definitions. Four of the 54 files give one name a class that depends on
the order in which Go walks through the maps: an alias of an alias of a name that the file redefines. -/

namespace ScaleGo

/-- A run that loads the file over `st` ends in `s`: `order` is the order of the inherit loop of `LoadTypeRegistry`, `l` the order of
the loop of `RegCustomTypes`. -/
def RunsTo (N : List (Str × Network.Entry)) (st s : RegState) : Prop :=
  ∃ (order : List Str) (l : List (Str × TypeDef)) (fuel : Nat), order.Perm (N.map Prod.fst) ∧
    l.Perm (LoadJson.load order (Network.file N)) ∧ regCustomTypes fuel st l = .ok s

/-- Two runs give every type text the same class. -/
def OneResult (N : List (Str × Network.Entry)) : Prop :=
  ∀ st : RegState, st.env.reg = loadedReg → ∀ s s', RunsTo N st s → RunsTo N st s' →
    ∀ m v t, getCodecClass s.env m v t = getCodecClass s'.env m v t

/-- The full property. -/
def C108Claim : Prop := ∀ f ∈ Network.shipped, OneResult f.2

/-! ## The general argument -/

theorem table_keys (N : List (Str × Network.Entry)) : (Network.table N).map Prod.fst = N.map Prod.fst := by
  simp [Network.table, Function.comp_def]

theorem load_eq (order : List Str) (N : List (Str × Network.Entry)) :
    LoadJson.load order (Network.file N) = inheritLoop order (Network.table N) := by
  rw [LoadJson.load, Network.readAll_file]

theorem check_parts {N : List (Str × Network.Entry)} {C : List (Str × Cls)} (h : Network.check N C = true) :
    okKeyTable loadedReg (Network.classOf C) (tableGet (Network.table N)) 6 (Network.table N) = true ∧
      apartAll (((Network.table N).map fun p => toLower p.1).filter versioned) = true ∧ ((Network.table N).map Prod.fst).Nodup := by
  unfold Network.check at h
  rw [Bool.and_eq_true, Bool.and_eq_true] at h
  rw [loadedReg_fast, table_keys]
  exact ⟨h.1.1, h.1.2, Network.distinct_nodup h.2⟩

theorem oneResult_of_check {N : List (Str × Network.Entry)} {C : List (Str × Cls)} (h : Network.check N C = true) : OneResult N := by
  obtain ⟨h1, h2, h3⟩ := check_parts h
  intro st hst s s' ⟨o, l, f, ho, hl, hr⟩ ⟨o', l', f', ho', hl', hr'⟩ m v t
  rw [load_eq] at hl hl'
  rw [← table_keys] at ho ho'
  obtain ⟨t1, t2, e1, e2, ha⟩ := load_orders_agree h3 h1 h2 o o' ho ho' l l' hl hl' st hst f f'
  rw [hr] at e1
  rw [hr'] at e2
  cases e1
  cases e2
  exact ha.1.class m t v

/-- The entry of a name without version range. -/
theorem putAll_reg (E : Str → Option Cls) (k : Str) (hk : versioned k = false) : ∀ (ks : List Str) (st : RegState),
    (putAll E st ks).env.reg k = if k ∈ ks ∧ (E k).isSome then E k else st.env.reg k
  | [], st => by simp [putAll]
  | a :: ks, st => by
    show (putAll E (putKey st a (E a)) ks).env.reg k = _
    rw [putAll_reg E k hk ks]
    by_cases hks : k ∈ ks ∧ (E k).isSome
    · rw [if_pos hks, if_pos ⟨List.mem_cons_of_mem _ hks.1, hks.2⟩]
    rw [if_neg hks]
    by_cases hak : a = k
    · subst hak
      cases hE : E a with
      | none => simp [putKey]
      | some c => rw [putKey_plain hk]; simp [updReg]
    · have h2 : ¬ (k ∈ a :: ks ∧ (E k).isSome) := by
        rintro ⟨h, h'⟩
        rcases List.mem_cons.mp h with e | h
        · exact hak e.symm
        · exact hks ⟨h, h'⟩
      rw [if_neg h2]
      cases hE : E a with
      | none => rfl
      | some c =>
        show (regCustomKey st.env a c).reg k = _
        unfold regCustomKey
        split
        · rfl
        · simp [setReg, Ne.symm hak]

theorem putAll_v14 (E : Str → Option Cls) : ∀ (ks : List Str) (st : RegState), (putAll E st ks).v14 = st.v14
  | [], _ => rfl
  | a :: ks, st => by
    show (putAll E (putKey st a (E a)) ks).v14 = _
    rw [putAll_v14 E ks]
    cases E a <;> rfl

/-- No run panics, and every run registers exactly the classes written down in `NetClasses`. -/
theorem C108_classes {N : List (Str × Network.Entry)} {C : List (Str × Cls)} (h : Network.check N C = true) (st : RegState)
    (hst : st.env.reg = loadedReg) (order : List Str) (ho : order.Perm (N.map Prod.fst)) (l : List (Str × TypeDef))
    (hl : l.Perm (LoadJson.load order (Network.file N))) (fuel : Nat) :
    ∃ s, regCustomTypes fuel st l = .ok s ∧ s.v14 = st.v14 ∧ ∀ k, versioned k = false →
      s.env.reg k = if k ∈ N.map (fun p => toLower p.1) then Network.classOf C k else loadedReg k := by
  obtain ⟨h1, h2, h3⟩ := check_parts h
  rw [load_eq] at hl
  rw [← table_keys] at ho
  obtain ⟨ks, hp, e⟩ := load_keys_any_order h3 h1 order ho l hl st hst fuel
  refine ⟨_, e, ?_, fun k hk => ?_⟩
  · exact putAll_v14 _ ks st
  · have hmem : k ∈ ks ↔ k ∈ (Network.table N).map fun p => toLower p.1 := hp.mem_iff
    rw [putAll_reg _ k hk, hst]
    simp only [hmem]
    have : (Network.table N).map (fun p => toLower p.1) = N.map fun p => toLower p.1 := by simp [Network.table, Function.comp_def]
    simp only [this]
    by_cases hm : k ∈ N.map fun p => toLower p.1
    · cases hc : Network.classOf C k with
      | some c => simp [hm]
      | none =>
        have : loadedReg k = none := by
          rw [loadedReg_fast]
          unfold Network.classOf at hc
          split at hc
          · cases hc
          · exact hc
        simp [this]
    · simp [hm]

/-- What a key adds to the version table of the name `n`. -/
def addedTo (E : Str → Option Cls) (n k : Str) : Option (Int × Int × Cls) :=
  match splitSep k b!"#", E k with
  | [m, r], some c => if n = m then some ((specialRange r).1, (specialRange r).2, c) else none
  | _, _ => none

theorem putKey_special (E : Str → Option Cls) (n a : Str) (st : RegState) :
    (putKey st a (E a)).env.special n = st.env.special n ++ (addedTo E n a).toList := by
  unfold addedTo
  cases hE : E a with
  | none =>
    have : (match splitSep a b!"#", (none : Option Cls) with
      | [m, r], some c => if n = m then some ((specialRange r).1, (specialRange r).2, c) else none
      | _, _ => none) = none := by
      split
      · rename_i h; cases h
      · rfl
    rw [this, Option.toList_none, List.append_nil]
    rfl
  | some c =>
    show (regCustomKey st.env a c).special n = _
    unfold regCustomKey
    split
    · rename_i m r e
      simp only [addSpecial, e]
      by_cases hm : n = m
      · subst hm
        simp
      · simp [hm]
    · rename_i hno
      split
      · rename_i m r c' e2 _
        exact absurd e2 (hno m r)
      · simp [setReg]

theorem putAll_special (E : Str → Option Cls) (n : Str) : ∀ (ks : List Str) (st : RegState),
    (putAll E st ks).env.special n = st.env.special n ++ ks.filterMap (addedTo E n)
  | [], st => by simp [putAll]
  | a :: ks, st => by
    show (putAll E (putKey st a (E a)) ks).env.special n = _
    rw [putAll_special E n ks, putKey_special, List.filterMap_cons, List.append_assoc]
    cases addedTo E n a <;> rfl

theorem findSpecial_only {v : Int} {c : Cls} : ∀ {l : List (Int × Int × Cls)} {lo hi : Int}, (lo, hi, c) ∈ l → lo ≤ v → v ≤ hi →
    (∀ x ∈ l, x.1 ≤ v → v ≤ x.2.1 → x.2.2 = c) → findSpecial v l = some c
  | [], _, _, h, _, _, _ => by cases h
  | (lo', hi', c') :: l, lo, hi, h, h1, h2, hu => by
    rw [findSpecial]
    split
    · rename_i hr
      rw [← hu _ List.mem_cons_self hr.1 hr.2]
    · rename_i hr
      rcases List.mem_cons.mp h with e | h
      · cases e
        exact absurd ⟨h1, h2⟩ hr
      · exact findSpecial_only h h1 h2 fun x hx => hu x (List.mem_cons_of_mem _ hx)

/-- A name with a version range gets its class in exactly these versions. -/
theorem C108_versions {N : List (Str × Network.Entry)} {C : List (Str × Cls)} (h : Network.check N C = true) (st s : RegState)
    (hst : st.env.reg = loadedReg) (hr : RunsTo N st s) (n : Str) (hn : st.env.special n = []) (a r : Str)
    (ha : a ∈ N.map fun p => toLower p.1) (hs : splitSep a b!"#" = [n, r]) (c : Cls) (hc : Network.classOf C a = some c) (v : Int)
    (h1 : (specialRange r).1 ≤ v) (h2 : v ≤ (specialRange r).2) : findSpecial v (s.env.special n) = some c := by
  obtain ⟨c1, c2, c3⟩ := check_parts h
  obtain ⟨order, l, fuel, ho, hl, hrun⟩ := hr
  rw [load_eq] at hl
  rw [← table_keys] at ho
  obtain ⟨ks, hp, e⟩ := load_keys_any_order c3 c1 order ho l hl st hst fuel
  rw [hrun] at e
  cases e
  rw [putAll_special, hn, List.nil_append]
  have hkeys : (Network.table N).map (fun p => toLower p.1) = N.map fun p => toLower p.1 := by simp [Network.table, Function.comp_def]
  have hmem : a ∈ ks := hp.mem_iff.mpr (by rw [hkeys]; exact ha)
  have hpw : ks.Pairwise fun a b => apartKeys a b = true := (hp.pairwise_iff (fun h => apartKeys_symm h)).2 (apart_versioned c2)
  refine findSpecial_only (List.mem_filterMap.mpr ⟨a, hmem, ?_⟩) h1 h2 ?_
  · unfold addedTo
    rw [hs, hc]
    simp
  · intro x hx x1 x2
    obtain ⟨b, hb, hbx⟩ := List.mem_filterMap.mp hx
    by_cases hab : a = b
    · subst hab
      unfold addedTo at hbx
      rw [hs, hc] at hbx
      simp only [if_true, Option.some.injEq] at hbx
      rw [← hbx]
    · have hapart : apartKeys a b = true := by
        have : Std.Symm fun a b => apartKeys a b = true := ⟨fun _ _ h => apartKeys_symm h⟩
        exact hpw.forall hmem hb hab
      unfold addedTo at hbx
      split at hbx
      · rename_i m r' c' e1 e2
        split at hbx
        · rename_i hnm
          subst hnm
          cases hbx
          unfold apartKeys at hapart
          rw [hs, e1] at hapart
          simp only [bne_self_eq_false, Bool.false_or, Bool.or_eq_true, decide_eq_true_eq] at hapart
          dsimp only at x1 x2
          omega
        · cases hbx
      · cases hbx

/-! ## The shipped files -/

/-- The files whose result depends on the order, each with the name concerned. -/
def Network.unstable : List (Str × Str) :=
  [(b!"crab", b!"RelayAuthoritySigner"), (b!"darwinia", b!"RelayAuthoritySigner"), (b!"pangolin", b!"RelayAuthoritySigner"),
    (b!"sora", b!"MultiCurrencyBalanceOf")]

/-- Every file is checked, four of them without one name. -/
theorem shipped_checked : ∀ f ∈ Network.shipped,
    (∃ C, Network.check f.2 C = true) ∨ ∃ k C, (f.1, k) ∈ Network.unstable ∧ Network.check (Network.without k f.2) C = true := by
  unfold Network.shipped
  simp only [List.forall_mem_cons]
  exact ⟨.inl ⟨_, NetCheck.acala_test⟩, .inl ⟨_, NetCheck.acala⟩, .inl ⟨_, NetCheck.balala⟩, .inl ⟨_, NetCheck.bifrost⟩,
    .inl ⟨_, NetCheck.canvas⟩, .inl ⟨_, NetCheck.centrifuge⟩, .inl ⟨_, NetCheck.chainx⟩, .inl ⟨_, NetCheck.clover_test⟩,
    .inl ⟨_, NetCheck.clover⟩, .inr ⟨_, _, by decide, NetCheck.crab⟩, .inl ⟨_, NetCheck.crust_main⟩,
    .inl ⟨_, NetCheck.crust⟩, .inr ⟨_, _, by decide, NetCheck.darwinia⟩, .inl ⟨_, NetCheck.datahighway_harbour⟩,
    .inl ⟨_, NetCheck.datahighway⟩, .inl ⟨_, NetCheck.deepbrain⟩, .inl ⟨_, NetCheck.dock_pos⟩, .inl ⟨_, NetCheck.dock⟩,
    .inl ⟨_, NetCheck.dusty⟩, .inl ⟨_, NetCheck.edgeware⟩, .inl ⟨_, NetCheck.equilibrium⟩,
    .inl ⟨_, NetCheck.gateway_test⟩, .inl ⟨_, NetCheck.karura⟩, .inl ⟨_, NetCheck.khala⟩, .inl ⟨_, NetCheck.kilt⟩,
    .inl ⟨_, NetCheck.kintsugi⟩, .inl ⟨_, NetCheck.kulupu⟩, .inl ⟨_, NetCheck.kusama⟩, .inl ⟨_, NetCheck.laminar_test⟩,
    .inl ⟨_, NetCheck.litentry_test⟩, .inl ⟨_, NetCheck.manta_test⟩, .inl ⟨_, NetCheck.moonbase⟩,
    .inl ⟨_, NetCheck.moonbeam⟩, .inl ⟨_, NetCheck.moonriver⟩, .inr ⟨_, _, by decide, NetCheck.pangolin⟩,
    .inl ⟨_, NetCheck.phala⟩, .inl ⟨_, NetCheck.plasm⟩, .inl ⟨_, NetCheck.polkadex⟩, .inl ⟨_, NetCheck.polkadot⟩,
    .inl ⟨_, NetCheck.reef⟩, .inl ⟨_, NetCheck.robonomics_test⟩, .inl ⟨_, NetCheck.rococo⟩, .inl ⟨_, NetCheck.sakura⟩,
    .inl ⟨_, NetCheck.shibuya⟩, .inl ⟨_, NetCheck.shiden⟩, .inr ⟨_, _, by decide, NetCheck.sora⟩,
    .inl ⟨_, NetCheck.spiritnet⟩, .inl ⟨_, NetCheck.stafi⟩, .inl ⟨_, NetCheck.statemine⟩, .inl ⟨_, NetCheck.subgame⟩,
    .inl ⟨_, NetCheck.substrate20⟩, .inl ⟨_, NetCheck.substrate30⟩, .inl ⟨_, NetCheck.uniarts⟩,
    .inl ⟨_, NetCheck.westend⟩, fun _ h => absurd h (by simp)⟩

/-- Fifty of the files give one result. -/
theorem C108_partial (f : Str × List (Str × Network.Entry)) (hf : f ∈ Network.shipped) (hu : f.1 ∉ Network.unstable.map Prod.fst) :
    OneResult f.2 := by
  rcases shipped_checked f hf with ⟨C, h⟩ | ⟨k, C, hk, _⟩
  · exact oneResult_of_check h
  · exact absurd (List.mem_map.mpr ⟨_, hk, rfl⟩) hu

/-- The other four do so without the one name. -/
theorem C108_without_partial (f : Str × List (Str × Network.Entry)) (hf : f ∈ Network.shipped) :
    OneResult f.2 ∨ ∃ k, (f.1, k) ∈ Network.unstable ∧ OneResult (Network.without k f.2) := by
  rcases shipped_checked f hf with ⟨C, h⟩ | ⟨k, C, hk, h⟩
  · exact .inl (oneResult_of_check h)
  · exact .inr ⟨k, hk, oneResult_of_check h⟩

/-! ## The counterexample -/

/-- What becomes of a question about the tables after a run in this order. -/
def after {α : Type} (l : List (Str × TypeDef)) (q : Env → α) : Option α :=
  match regCustomTypes 1 ⟨{ loadedEnv dummyExt with reg := fastReg }, fun _ => none⟩ l with
  | .ok s => some (q s.env)
  | _ => none

theorem runsTo_of_after {α : Type} {N : List (Str × Network.Entry)} {order : List Str} {l : List (Str × TypeDef)} {q : Env → α} {a : α}
    (ho : order.Perm (N.map Prod.fst)) (hl : l.Perm (inheritLoop order (Network.table N))) (h : after l q = some a) :
    ∃ s, RunsTo N ⟨loadedEnv dummyExt, fun _ => none⟩ s ∧ q s.env = a := by
  unfold after at h
  have e : loadedEnv dummyExt = { loadedEnv dummyExt with reg := fastReg } := by unfold loadedEnv; rw [loadedReg_fast]
  rw [← e] at h
  split at h
  · rename_i s hs
    exact ⟨s, ⟨order, l, 1, ho, by rw [load_eq]; exact hl, hs⟩, Option.some.inj h⟩
  · cases h

/-- The map of a file after the inherit loop in the order of the file. -/
def Network.forward (N : List (Str × Network.Entry)) : List (Str × TypeDef) := inheritLoop (N.map Prod.fst) (Network.table N)

/-- The map of a file after the inherit loop in the opposite order, to be registered in the opposite order. -/
def Network.backward (N : List (Str × Network.Entry)) : List (Str × TypeDef) :=
  (inheritLoop (N.map Prod.fst).reverse (Network.table N)).reverse

/-- Two orders that give a type text two classes refute the property for a file. -/
theorem two_results {N : List (Str × Network.Entry)} {t : Str} {r r' : Res (Option (Cls × Str))}
    (h : after (Network.forward N) (fun env => getCodecClass env [] 0 t) = some r)
    (h' : after (Network.backward N) (fun env => getCodecClass env [] 0 t) = some r') (hne : r ≠ r') : ¬ OneResult N := by
  intro hone
  obtain ⟨s, h1, h2⟩ := runsTo_of_after (.refl _) (.refl _) h
  obtain ⟨s', h1', h2'⟩ := runsTo_of_after (List.reverse_perm _) (List.reverse_perm _) h'
  exact hne (by rw [← h2, ← h2']; exact hone _ rfl s s' h1 h1' [] 0 t)

/-- The class depends on the order in crab. -/
theorem C108_crab : ¬ OneResult Network.crab :=
  two_results (t := b!"RelayAuthoritySigner") (r := .ok (some (.hash 20, []))) (r' := .ok (some (.ethereumAddress, [])))
    (by kernel_rfl) (by kernel_rfl) (by decide)

/-- The class depends on the order in darwinia. -/
theorem C108_darwinia : ¬ OneResult Network.darwinia :=
  two_results (t := b!"RelayAuthoritySigner") (r := .ok (some (.hash 20, []))) (r' := .ok (some (.ethereumAddress, [])))
    (by kernel_rfl) (by kernel_rfl) (by decide)

/-- The class depends on the order in pangolin. -/
theorem C108_pangolin : ¬ OneResult Network.pangolin :=
  two_results (t := b!"RelayAuthoritySigner") (r := .ok (some (.hash 20, []))) (r' := .ok (some (.ethereumAddress, [])))
    (by kernel_rfl) (by kernel_rfl) (by decide)

/-- The class depends on the order in sora. -/
theorem C108_sora : ¬ OneResult Network.sora :=
  two_results (t := b!"MultiCurrencyBalanceOf") (r := .ok (some (.u128, []))) (r' := .ok (some (.balance, [])))
    (by kernel_rfl) (by kernel_rfl) (by decide)

theorem C108_claim_false : ¬ C108Claim := by
  intro h
  have hf : Network.shipped[45]? = some (b!"sora", Network.sora) := by kernel_rfl
  exact C108_sora (h _ (List.mem_of_getElem? hf))

/-- The same bytes decode to two values, depending on the order. -/
theorem C108_sora_values :
    (∃ s, RunsTo Network.sora ⟨loadedEnv dummyExt, fun _ => none⟩ s ∧
      (pau s.env 3 ⟨[], 0, none⟩ b!"MultiCurrencyBalanceOf" ⟨⟨List.replicate 16 255, 0⟩, []⟩) =
        .ok (.str b!"340282366920938463463374607431768211455", ⟨⟨List.replicate 16 255, 16⟩, []⟩)) ∧
    ∃ s, RunsTo Network.sora ⟨loadedEnv dummyExt, fun _ => none⟩ s ∧
      (pau s.env 3 ⟨[], 0, none⟩ b!"MultiCurrencyBalanceOf" ⟨⟨List.replicate 16 255, 0⟩, []⟩) =
        .ok (.dec (-1) 0, ⟨⟨List.replicate 16 255, 16⟩, []⟩) :=
  ⟨runsTo_of_after (order := Network.sora.map Prod.fst) (l := Network.forward Network.sora) (.refl _) (.refl _)
      (q := fun env => pau env 3 ⟨[], 0, none⟩ b!"MultiCurrencyBalanceOf" ⟨⟨List.replicate 16 255, 0⟩, []⟩) (by kernel_rfl),
    runsTo_of_after (order := (Network.sora.map Prod.fst).reverse) (l := Network.backward Network.sora) (List.reverse_perm _)
      (List.reverse_perm _) (q := fun env => pau env 3 ⟨[], 0, none⟩ b!"MultiCurrencyBalanceOf" ⟨⟨List.replicate 16 255, 0⟩, []⟩)
      (by kernel_rfl)⟩

/-- Kusama: every run gives `ValidatorPrefs` the one field of the file, and `Weight` eight bytes from version 1058 on. -/
example (st : RegState) (hst : st.env.reg = loadedReg) (hsp : st.env.special b!"weight" = []) (order : List Str)
    (ho : order.Perm (Network.kusama.map Prod.fst)) (l : List (Str × TypeDef))
    (hl : l.Perm (LoadJson.load order (Network.file Network.kusama))) (fuel : Nat) :
    ∃ s, regCustomTypes fuel st l = .ok s ∧
      s.env.reg b!"validatorprefs" = some (.struct (some [(b!"Commission", b!"Compact<Balance>")])) ∧
      findSpecial 1058 (s.env.special b!"weight") = some .u64 ∧ findSpecial 2030 (s.env.special b!"weight") = some .u64 := by
  obtain ⟨s, h1, _, h3⟩ := C108_classes NetCheck.kusama st hst order ho l hl fuel
  have hr : specialRange b!"1058-?" = (1058, 99999999) := by kernel_rfl
  have hv : ∀ v : Int, 1058 ≤ v → v ≤ 99999999 → findSpecial v (s.env.special b!"weight") = some .u64 := fun v a b =>
    C108_versions NetCheck.kusama st s hst ⟨order, l, fuel, ho, hl, h1⟩ b!"weight" hsp b!"weight#1058-?" b!"1058-?"
      (by decide +kernel) (by decide +kernel) .u64 (by kernel_rfl) v (by rw [hr]; exact a)
      (by rw [hr]; exact b)
  refine ⟨s, h1, ?_, hv _ (by decide) (by decide), hv _ (by decide) (by decide)⟩
  rw [h3 _ (by decide), if_pos (by decide +kernel)]
  kernel_rfl

end ScaleGo
