import Verif.Props.C134

/-! # C135: which built-in types the shipped files change

The files in `network/` are loaded into the table that holds the built-in types, and nothing is taken out of it again unless `Clean` starts all over (types/registry.go:42-48).  A name that two
networks define differently, or that a network defines otherwise than the library, means something else from then on. -/

namespace ScaleGo

open ScaleGo.Spec (SameEntries)

/-- The names have their built-in entries. -/
def KeepsAll (W : Str → Prop) (ext : Ext) (env : Env) : Prop := env.ext = ext ∧ ∀ k, W k → SameEntries (loadedEnv ext) env k

/-- A definition of a table leaves these names as they are: it is one of another name, an alias of one of the names with the same class, an alias of such an alias
in the table, an alias of a text that is no name, or a struct, enum or set as it is there already. -/
inductive EntryKept (W : Str → Prop) (T : List (Str × TypeDef)) (k : Str) (d : TypeDef) : Prop
  | other : ¬ W (baseName k) → EntryKept W T k d
  | same : d.v14 = false → d.kind = b!"string" → (35 : UInt8) ∉ toLower k → tableGet T d.typeString = none → W (toLower (convertType d.typeString)) →
      fastReg (toLower k) = fastReg (toLower (convertType d.typeString)) → (fastReg (toLower k)).isSome → EntryKept W T k d
  | through {e : TypeDef} : d.kind = b!"string" → (35 : UInt8) ∉ toLower k → tableGet T d.typeString = some e → e.v14 = false → e.kind = b!"string" →
      tableGet T e.typeString = none → W (toLower (convertType e.typeString)) →
      fastReg (toLower k) = fastReg (toLower (convertType e.typeString)) → (fastReg (toLower k)).isSome → EntryKept W T k d
  | text : d.v14 = false → d.kind = b!"string" → (35 : UInt8) ∉ toLower k → tableGet T d.typeString = none → tableGet T (convertType d.typeString) = none →
      W (toLower (convertType d.typeString)) → fastReg (toLower (convertType d.typeString)) = none →
      (aliasClass (convertType d.typeString) = .ok none ∨ aliasClass (convertType d.typeString) = .ok (fastReg (toLower k))) → EntryKept W T k d
  | plain {c : Cls} : d.v14 = false → d.kind ≠ b!"string" → (35 : UInt8) ∉ toLower k → plainClass d = some c → fastReg (toLower k) = some c → EntryKept W T k d

section
variable {W : Str → Prop} {ext : Ext}

theorem KeepsAll.put {st : RegState} (h : KeepsAll W ext st.env) {k : Str} {c : Cls} (hn : (35 : UInt8) ∉ k) (hc : fastReg k = some c) :
    KeepsAll W ext (regCustomKey st.env k c) := by
  refine ⟨(regCustomKey_rest hn).2.trans h.1, fun n hnW => ⟨?_, ?_⟩⟩
  · by_cases hnk : n = k
    · subst hnk
      rw [loadedEnv_fast, hc]
      exact regCustomKey_set hn
    · exact (regCustomKey_other st.env c hnk).trans (h.2 n hnW).1
  · exact (congrFun (regCustomKey_special hn) n).trans (h.2 n hnW).2

theorem regEntry_string {fuel : Nat} {all : List (Str × TypeDef)} {st st' : RegState} {k : Str} {d : TypeDef} (hv : d.v14 = false)
    (hs : d.kind = b!"string") (hr : regEntry fuel all st k d = .ok (some st')) : regAlias fuel all st (toLower k) d = .ok st' := by
  have h1 : v14Key fuel st k d = .ok (some (st, k)) := by unfold v14Key; rw [if_pos hv]
  unfold regEntry at hr
  simp only [h1, Res.ok_bind, if_pos hs] at hr
  obtain ⟨s, h2, h3⟩ := Res.bind_eq_ok.mp hr
  rw [h2, Option.some.inj (Res.ok.inj h3)]

theorem tableGet_within {T all : List (Str × TypeDef)} (hall : ∀ p ∈ all, (tableGet T p.1).isSome) {t : Str} (h : tableGet T t = none) :
    tableGet all t = none := by
  cases e : tableGet all t with
  | none => rfl
  | some x =>
    have := hall _ (mem_of_tableGet e)
    rw [h] at this
    cases this

theorem KeepsAll.same {all : List (Str × TypeDef)} {fuel : Nat} {st st' : RegState} (h : KeepsAll W ext st.env) {k : Str} {d : TypeDef}
    (hn : (35 : UInt8) ∉ k) (hm : W (toLower (convertType d.typeString))) (he : fastReg k = fastReg (toLower (convertType d.typeString)))
    (hi : (fastReg k).isSome) (hr : regAlias fuel all st k d = .ok st') : KeepsAll W ext st'.env := by
  obtain ⟨c, hc⟩ := Option.isSome_iff_exists.mp hi
  have hreg : st.env.reg (toLower (convertType d.typeString)) = some c := by
    rw [(h.2 _ hm).1, loadedEnv_fast]
    exact he.symm.trans hc
  unfold regAlias at hr
  simp only [hreg] at hr
  rw [← Res.ok.inj hr]
  exact h.put hn hc

theorem KeepsAll.text {all : List (Str × TypeDef)} {fuel : Nat} {st st' : RegState} (h : KeepsAll W ext st.env) {k : Str} {d : TypeDef}
    (hn : (35 : UInt8) ∉ k) (hm : W (toLower (convertType d.typeString))) (hno : fastReg (toLower (convertType d.typeString)) = none)
    (htab : tableGet all (convertType d.typeString) = none)
    (ha : aliasClass (convertType d.typeString) = .ok none ∨ aliasClass (convertType d.typeString) = .ok (fastReg k))
    (hr : regAlias fuel all st k d = .ok st') : KeepsAll W ext st'.env := by
  unfold regAlias at hr
  revert hm hno htab ha hr
  generalize convertType d.typeString = t
  intro hm hno htab ha hr
  have hreg : st.env.reg (toLower t) = none := by
    rw [(h.2 _ hm).1, loadedEnv_fast]
    exact hno
  simp only [hreg, htab] at hr
  unfold regAliasText at hr
  rcases ha with ha | ha
  · rw [ha] at hr
    simp only [Res.ok_bind] at hr
    rw [← Res.ok.inj hr]
    exact h
  · rw [ha] at hr
    simp only [Res.ok_bind] at hr
    cases hc : fastReg k with
    | none => simp only [hc] at hr; rw [← Res.ok.inj hr]; exact h
    | some c =>
      simp only [hc] at hr
      rw [← Res.ok.inj hr]
      exact h.put hn hc

theorem KeepsAll.entry {T all : List (Str × TypeDef)} {fuel : Nat} {st st' : RegState} (hW : ∀ k, W k → (35 : UInt8) ∉ k) (h : KeepsAll W ext st.env)
    (hok : ∀ p ∈ T, EntryKept W T p.1 p.2) (hall : ∀ p ∈ all, (tableGet T p.1).isSome) {k : Str} {d : TypeDef} (hpo : PostOf T k d)
    (hr : regEntry fuel all st k d = .ok (some st')) : KeepsAll W ext st'.env := by
  have hkd : Reach T k d := hpo.reach
  obtain ⟨d0, hd0⟩ := Option.isSome_iff_exists.mp hkd.isSome
  have hfix : (d0.kind = b!"string" → tableGet T d0.typeString = none) → d = d0 := by
    intro hst
    cases hkd with
    | here h1 => rw [hd0] at h1; exact (Option.some.inj h1).symm
    | next h1 h2 h3 =>
      rw [hd0] at h1
      cases h1
      have := h3.isSome
      rw [hst h2] at this
      cases this
  have hk0 : EntryKept W T k d0 := hok _ (mem_of_tableGet hd0)
  cases hk0 with
  | other hb =>
    obtain ⟨hx, hch⟩ := regEntry_changed hr
    refine ⟨hx.trans h.1, fun n hn => ?_⟩
    have h1 := hch n fun ht => hb (by rw [baseName_touches (hW n hn) ht]; exact hn)
    have h2 := h.2 n hn
    exact ⟨h1.1.trans h2.1, h1.2.trans h2.2⟩
  | same hv hs hn ht hm he hi =>
    obtain rfl := hfix fun _ => ht
    exact h.same hn hm he hi (regEntry_string hv hs hr)
  | @through e hs hn ht hv hs2 hno hm he hi =>
    have hd : d = e := by
      rcases hpo with ⟨d1, h1, -, h2⟩ | ⟨h1, h2⟩
      · rw [hd0] at h1
        cases h1
        cases h2 with
        | here h3 => rw [ht] at h3; exact (Option.some.inj h3).symm
        | next h3 h4 h5 =>
          rw [ht] at h3
          cases h3
          have := h5.isSome
          rw [hno] at this
          cases this
      · rw [hd0] at h1
        cases h1
        rw [h2 hs] at ht
        cases ht
    subst hd
    exact h.same hn hm he hi (regEntry_string hv hs2 hr)
  | text hv hs hn ht ht2 hm hno ha =>
    obtain rfl := hfix fun _ => ht
    have htab : tableGet all (convertType d.typeString) = none := tableGet_within hall ht2
    exact h.text hn hm hno htab ha (regEntry_string hv hs hr)
  | @plain c hv hs hn hp hc =>
    obtain rfl := hfix fun e => absurd e hs
    have h1 : v14Key fuel st k d = .ok (some (st, k)) := by unfold v14Key; rw [if_pos hv]
    unfold regEntry at hr
    simp only [h1, Res.ok_bind, if_neg hs] at hr
    rw [regPlain_upd st hp hn] at hr
    simp only [Res.ok_bind] at hr
    rw [← Option.some.inj (Res.ok.inj hr)]
    refine ⟨h.1, fun n hnW => ⟨?_, (h.2 n hnW).2⟩⟩
    show (if n = toLower k then some c else st.env.reg n) = _
    split
    · rename_i e
      rw [loadedEnv_fast, e]
      exact hc.symm
    · exact (h.2 n hnW).1

theorem KeepsAll.loop {T all : List (Str × TypeDef)} {fuel : Nat} (hW : ∀ k, W k → (35 : UInt8) ∉ k) (hok : ∀ p ∈ T, EntryKept W T p.1 p.2)
    (hall : ∀ p ∈ all, (tableGet T p.1).isSome) :
    ∀ (m : List (Str × TypeDef)), (∀ p ∈ m, PostOf T p.1 p.2) → ∀ {st st' : RegState}, KeepsAll W ext st.env →
      regLoop fuel all st m = .ok st' → KeepsAll W ext st'.env
  | [], _, st, st', h, hr => by rw [regLoop] at hr; cases hr; exact h
  | (k, d) :: m, hm, st, st', h, hr => by
    rw [regLoop] at hr
    obtain ⟨o, h1, hr⟩ := Res.bind_eq_ok.mp hr
    cases o with
    | none => cases hr; exact h
    | some s1 =>
      exact KeepsAll.loop hW hok hall m (fun p hp => hm p (List.mem_cons_of_mem _ hp)) (h.entry hW hok hall (hm (k, d) List.mem_cons_self) h1) hr

theorem KeepsAll.file {N : List (Str × Network.Entry)} (hW : ∀ k, W k → (35 : UInt8) ∉ k) (hn : (N.map Prod.fst).Nodup)
    (hok : ∀ p ∈ Network.table N, EntryKept W (Network.table N) p.1 p.2) {st s : RegState} (h : KeepsAll W ext st.env) (hr : RunsTo N st s) :
    KeepsAll W ext s.env := by
  obtain ⟨order, m, f, ho, hl, hrun⟩ := hr
  rw [load_eq] at hl
  rw [← table_keys] at ho hn
  generalize Network.table N = T at *
  obtain ⟨hinv, hpost⟩ := inheritLoop_inv order T (.start T)
  have hn2 : ((inheritLoop order T).map Prod.fst).Nodup := by rw [hinv.keys]; exact hn
  have key : ∀ p ∈ m, PostOf T p.1 p.2 := fun p hp => by
    have hp2 := hl.mem_iff.mp hp
    refine hpost p.1 (.inl ?_) p.2 (tableGet_of_mem hn2 hp2)
    rw [ho.mem_iff, ← hinv.keys]
    exact List.mem_map.mpr ⟨_, hp2, rfl⟩
  exact KeepsAll.loop hW hok (fun p hp => (key p hp).reach.isSome) m key h hrun

end

/-! ## The names -/

/-- The built-in names that some sequence of shipped files changes. -/
def Spec.changedNames : List Str :=
  [b!"limits", b!"networkid", b!"sessionkeys3", b!"sessionkeys2", b!"unlockchunk", b!"moment", b!"parameter", b!"palletsorigin", b!"voter",
    b!"votes", b!"authorityindex", b!"btreeset", b!"messageid", b!"accountid32", b!"assetid", b!"range", b!"accountid", b!"systeminherentdata",
    b!"extrinsicsignature", b!"dispatcherror", b!"dispatchinfo", b!"heartbeat", b!"referenduminfo<blocknumber, hash>", b!"era",
    b!"blocknumberof", b!"index", b!"xcmerror", b!"signature", b!"codehash", b!"reporter", b!"assetbalance", b!"blocklength", b!"blocknumber",
    b!"balanceof", b!"dispatchresult", b!"voteoutcome", b!"offender", b!"schedule", b!"authorityid", b!"transactionsignature", b!"ethaddress",
    b!"releases", b!"ethereum::block", b!"validatorprefs", b!"treasuryproposal", b!"unappliedslash", b!"proposal", b!"ethheader",
    b!"accountdata", b!"balancelock<balance, blocknumber>", b!"individualexposure", b!"exposure", b!"spanrecord", b!"runtimedbweight",
    b!"moduleid", b!"ethereumaddress", b!"balance", b!"order", b!"feedetails", b!"proxytype", b!"referenduminfo", b!"u256", b!"chainid",
    b!"multilocation", b!"xcmorder", b!"xcm", b!"multiasset", b!"assetinstance", b!"multisig", b!"fundinfo", b!"tassetbalance",
    b!"validatorindex", b!"winningdata", b!"paragenesisargs", b!"paralifecycle", b!"fullidentification", b!"keys", b!"accountinfo",
    b!"lookupsource", b!"address", b!"refcount", b!"compactassignments", b!"weight", b!"blocknumberfor",
    b!"momentof", b!"box<<t as config<i>>::proposal>"]

/-- No definition of a shipped file has this name, with or without a version range. -/
def Spec.Untouched (k : Str) : Prop := ∀ f ∈ Network.shipped, ∀ p ∈ f.2, baseName p.1 ≠ k

/-- A name that keeps its meaning. -/
def Spec.Stable (k : Str) : Prop := (35 : UInt8) ∉ k ∧ (Spec.Untouched k ∨ (fastReg k).isSome ∧ k ∉ Spec.changedNames)

/-- Names without a meaning that aliases are made of. -/
def bareTexts : List Str := [b!"fixed64", b!"(accountid, u64)", b!"(paraid, hash)"]

theorem bareTexts_untouched : (Network.shipped.all fun f => f.2.all fun p => !bareTexts.contains (baseName p.1)) = true := by kernel_rfl

theorem bare_stable {k : Str} (h : k ∈ bareTexts) : Spec.Stable k := by
  refine ⟨?_, .inl fun f hf p hp e => ?_⟩
  · revert h; revert k; decide +kernel
  · have := List.all_eq_true.mp (List.all_eq_true.mp bareTexts_untouched f hf) p hp
    rw [e] at this
    simp [h] at this

/-- The check of a name. -/
def stableName (t : Str) : Bool := (fastReg t).isSome && !Spec.changedNames.contains t && !t.contains 35

theorem stableName_ok {t : Str} (h : stableName t = true) : Spec.Stable t := by
  obtain ⟨h1, h2⟩ := Bool.and_eq_true_iff.mp h
  obtain ⟨h1, h3⟩ := Bool.and_eq_true_iff.mp h1
  exact ⟨by simpa using h2, .inr ⟨h1, by simpa using h3⟩⟩

/-- The check of one definition. -/
def entryKept (T : List (Str × TypeDef)) (p : Str × TypeDef) : Bool :=
  match fastReg (baseName p.1) with
  | none => true
  | some _ => Spec.changedNames.contains (baseName p.1) ||
    (p.2.v14 == false && !(toLower p.1).contains 35 &&
      if p.2.kind == b!"string" then match tableGet T p.2.typeString with
        | some e => e.v14 == false && e.kind == b!"string" && (tableGet T e.typeString).isNone &&
          stableName (toLower (convertType e.typeString)) && fastReg (toLower p.1) == fastReg (toLower (convertType e.typeString)) &&
          (fastReg (toLower p.1)).isSome
        | none =>
        let t := toLower (convertType p.2.typeString)
        match fastReg t with
        | some c => fastReg (toLower p.1) == some c && !Spec.changedNames.contains t && !t.contains 35
        | none => bareTexts.contains t && (tableGet T (convertType p.2.typeString)).isNone &&
          match aliasClass (convertType p.2.typeString) with
          | .ok none => true
          | .ok (some c) => fastReg (toLower p.1) == some c
          | _ => false
      else match plainClass p.2 with
        | some c => fastReg (toLower p.1) == some c
        | none => false)

theorem shipped_entryKept : (Network.shipped.all fun f => (Network.table f.2).all (entryKept (Network.table f.2))) = true := by kernel_rfl

theorem entryKept_ok {T : List (Str × TypeDef)} {p : Str × TypeDef} (hp : ¬ Spec.Untouched (baseName p.1)) (h : entryKept T p = true) :
    EntryKept Spec.Stable T p.1 p.2 := by
  by_cases hW : Spec.Stable (baseName p.1)
  swap
  · exact .other hW
  obtain ⟨h1, h2⟩ := hW.2.resolve_left hp
  obtain ⟨c0, h1⟩ := Option.isSome_iff_exists.mp h1
  unfold entryKept at h
  rw [h1] at h
  dsimp only at h
  replace h := (Bool.or_eq_true_iff.mp h).resolve_left (by simpa using h2)
  obtain ⟨h3, h⟩ := Bool.and_eq_true_iff.mp h
  obtain ⟨hv, hn⟩ := Bool.and_eq_true_iff.mp h3
  have hv : p.2.v14 = false := by simpa using hv
  have hn : (35 : UInt8) ∉ toLower p.1 := by simpa using hn
  by_cases hs : p.2.kind = b!"string"
  · rw [if_pos (by rw [hs]; exact beq_self_eq_true _)] at h
    split at h
    · rename_i e he
      obtain ⟨h, h9⟩ := Bool.and_eq_true_iff.mp h
      obtain ⟨h, h8⟩ := Bool.and_eq_true_iff.mp h
      obtain ⟨h, h7⟩ := Bool.and_eq_true_iff.mp h
      obtain ⟨h, h6⟩ := Bool.and_eq_true_iff.mp h
      obtain ⟨h4, h5⟩ := Bool.and_eq_true_iff.mp h
      exact .through hs hn he (by simpa using h4) (eq_of_beq h5) (Option.isNone_iff_eq_none.mp h6) (stableName_ok h7) (eq_of_beq h8) h9
    rename_i ht
    split at h
    · rename_i c hc
      obtain ⟨h5, h6⟩ := Bool.and_eq_true_iff.mp h
      obtain ⟨h4, h5⟩ := Bool.and_eq_true_iff.mp h5
      have h4 := eq_of_beq h4
      exact .same hv hs hn ht ⟨by simpa using h6, .inr ⟨by rw [hc]; rfl, by simpa using h5⟩⟩ (h4.trans hc.symm) (by rw [h4]; rfl)
    · rename_i hc
      obtain ⟨h5, h6⟩ := Bool.and_eq_true_iff.mp h
      obtain ⟨h4, h5⟩ := Bool.and_eq_true_iff.mp h5
      refine .text hv hs hn ht (Option.isNone_iff_eq_none.mp h5) (bare_stable (by simpa using h4)) hc ?_
      split at h6
      · rename_i ha; exact .inl ha
      · rename_i c ha; rw [eq_of_beq h6]; exact .inr ha
      · cases h6
  · rw [if_neg (by simpa using hs)] at h
    split at h
    · rename_i c hc
      exact .plain hv hs hn hc (eq_of_beq h)
    · cases h

theorem table_base {N : List (Str × Network.Entry)} {p : Str × TypeDef} (h : p ∈ Network.table N) : ∃ q ∈ N, q.1 = p.1 := by
  have : p.1 ∈ (Network.table N).map Prod.fst := List.mem_map.mpr ⟨p, h, rfl⟩
  rw [table_keys] at this
  exact List.mem_map.mp this

theorem shipped_stable (ext : Ext) (st s : RegState) (hst : st.env = loadedEnv ext) (hr : Relation.ReflTransGen LoadsShipped st s) :
    KeepsAll Spec.Stable ext s.env := by
  induction hr with
  | refl => rw [hst]; exact ⟨rfl, fun _ _ => ⟨rfl, rfl⟩⟩
  | tail _ h1 ih =>
    obtain ⟨f, hf, h1⟩ := h1
    refine ih.file (fun k h => h.1) (shipped_nodup hf) (fun p hp => entryKept_ok (fun hu => ?_) ?_) h1
    · obtain ⟨q, hq, e⟩ := table_base hp
      exact hu f hf q hq (by rw [e])
    · exact List.all_eq_true.mp (List.all_eq_true.mp shipped_entryKept f hf) p hp

/-! ## Every one of the names is changed -/

/-- Files (by number) are loaded in the order in which they are written. -/
def afterFiles (st : RegState) : List Nat → Option RegState
  | [] => some st
  | i :: l => match Network.shipped[i]? with
    | some f => match regCustomTypes 1 st (Network.forward f.2) with
      | .ok s => afterFiles s l
      | _ => none
    | none => none

theorem afterFiles_loads : ∀ (l : List Nat) {st s : RegState}, afterFiles st l = some s → Relation.ReflTransGen LoadsShipped st s
  | [], st, s, h => by cases h; exact .refl
  | i :: l, st, s, h => by
    unfold afterFiles at h
    split at h
    · rename_i f hf
      split at h
      · rename_i s1 hs
        exact .head ⟨f, List.mem_of_getElem? hf, _, _, 1, .refl _, by rw [load_eq]; exact .refl _, hs⟩ (afterFiles_loads l h)
      · cases h
    · cases h

/-- The files that change the names. -/
def changers : List (List Nat × List Str) :=
  [ ([52], [b!"limits"]),
    ([45], [b!"networkid", b!"sessionkeys3", b!"sessionkeys2"]),
    ([40], [b!"unlockchunk", b!"moment", b!"parameter"]),
    ([39], [b!"palletsorigin"]),
    ([37], [b!"voter", b!"votes"]),
    ([36], [b!"authorityindex", b!"btreeset"]),
    ([34], [b!"messageid"]),
    ([33], [b!"accountid32"]),
    ([31], [b!"assetid", b!"range", b!"accountid", b!"systeminherentdata", b!"extrinsicsignature"]),
    ([27], [b!"dispatcherror", b!"dispatchinfo", b!"heartbeat", b!"referenduminfo<blocknumber, hash>"]),
    ([26], [b!"era"]),
    ([24], [b!"blocknumberof", b!"index", b!"xcmerror", b!"signature"]),
    ([21], [b!"codehash", b!"reporter", b!"assetbalance", b!"blocklength"]),
    ([20], [b!"blocknumber", b!"balanceof"]),
    ([19], [b!"dispatchresult", b!"voteoutcome", b!"offender"]),
    ([18], [b!"schedule", b!"authorityid"]),
    ([16], [b!"transactionsignature"]),
    ([10], [b!"ethaddress", b!"releases"]),
    ([9], [b!"ethereum::block", b!"validatorprefs", b!"treasuryproposal", b!"unappliedslash", b!"proposal", b!"ethheader", b!"accountdata",
        b!"balancelock<balance, blocknumber>", b!"individualexposure", b!"exposure", b!"spanrecord", b!"runtimedbweight", b!"moduleid",
        b!"ethereumaddress"]),
    ([7], [b!"balance"]),
    ([6], [b!"order", b!"feedetails"]),
    ([5], [b!"proxytype", b!"referenduminfo", b!"u256", b!"chainid"]),
    ([3], [b!"multilocation", b!"xcmorder", b!"xcm", b!"multiasset", b!"assetinstance", b!"multisig", b!"fundinfo", b!"tassetbalance"]),
    ([2], [b!"validatorindex", b!"winningdata", b!"paragenesisargs", b!"paralifecycle", b!"fullidentification", b!"keys"]),
    ([0], [b!"accountinfo", b!"lookupsource", b!"address", b!"refcount", b!"compactassignments", b!"weight"]),
    ([20, 3], [b!"blocknumberfor"]),
    ([40, 19], [b!"momentof"]),
    ([9, 27], [b!"box<<t as config<i>>::proposal>"]) ]

theorem changers_all : (Spec.changedNames.all fun k => changers.any fun p => p.2.contains k) = true := by kernel_rfl

/-- The name has other entries than at first. -/
def differs (env : Env) (k : Str) : Bool := env.reg k != fastReg k || !(env.special k).isEmpty

/-- A row of the list is right. -/
def changes (ext : Ext) (p : List Nat × List Str) : Bool := match afterFiles ⟨⟨fastReg, fun _ => [], ext⟩, fun _ => none⟩ p.1 with
  | some s => p.2.all (differs s.env)
  | none => false

theorem change0 (ext : Ext) : changers[0]?.elim false (changes ext) = true := by kernel_rfl

theorem change1 (ext : Ext) : changers[1]?.elim false (changes ext) = true := by kernel_rfl

theorem change2 (ext : Ext) : changers[2]?.elim false (changes ext) = true := by kernel_rfl

theorem change3 (ext : Ext) : changers[3]?.elim false (changes ext) = true := by kernel_rfl

theorem change4 (ext : Ext) : changers[4]?.elim false (changes ext) = true := by kernel_rfl

theorem change5 (ext : Ext) : changers[5]?.elim false (changes ext) = true := by kernel_rfl

theorem change6 (ext : Ext) : changers[6]?.elim false (changes ext) = true := by kernel_rfl

theorem change7 (ext : Ext) : changers[7]?.elim false (changes ext) = true := by kernel_rfl

theorem change8 (ext : Ext) : changers[8]?.elim false (changes ext) = true := by kernel_rfl

theorem change9 (ext : Ext) : changers[9]?.elim false (changes ext) = true := by kernel_rfl

theorem change10 (ext : Ext) : changers[10]?.elim false (changes ext) = true := by kernel_rfl

theorem change11 (ext : Ext) : changers[11]?.elim false (changes ext) = true := by kernel_rfl

theorem change12 (ext : Ext) : changers[12]?.elim false (changes ext) = true := by kernel_rfl

theorem change13 (ext : Ext) : changers[13]?.elim false (changes ext) = true := by kernel_rfl

theorem change14 (ext : Ext) : changers[14]?.elim false (changes ext) = true := by kernel_rfl

theorem change15 (ext : Ext) : changers[15]?.elim false (changes ext) = true := by kernel_rfl

theorem change16 (ext : Ext) : changers[16]?.elim false (changes ext) = true := by kernel_rfl

theorem change17 (ext : Ext) : changers[17]?.elim false (changes ext) = true := by kernel_rfl

theorem change18 (ext : Ext) : changers[18]?.elim false (changes ext) = true := by kernel_rfl

theorem change19 (ext : Ext) : changers[19]?.elim false (changes ext) = true := by kernel_rfl

theorem change20 (ext : Ext) : changers[20]?.elim false (changes ext) = true := by kernel_rfl

theorem change21 (ext : Ext) : changers[21]?.elim false (changes ext) = true := by kernel_rfl

theorem change22 (ext : Ext) : changers[22]?.elim false (changes ext) = true := by kernel_rfl

theorem change23 (ext : Ext) : changers[23]?.elim false (changes ext) = true := by kernel_rfl

theorem change24 (ext : Ext) : changers[24]?.elim false (changes ext) = true := by kernel_rfl

theorem change25 (ext : Ext) : changers[25]?.elim false (changes ext) = true := by kernel_rfl

theorem change26 (ext : Ext) : changers[26]?.elim false (changes ext) = true := by kernel_rfl

theorem change27 (ext : Ext) : changers[27]?.elim false (changes ext) = true := by kernel_rfl

theorem changers_change (ext : Ext) : ∀ p ∈ changers, changes ext p = true := by
  intro p hp
  obtain ⟨i, hi, rfl⟩ := List.mem_iff_getElem.mp hp
  have h : ∀ i, i < 28 → changers[i]?.elim false (changes ext) = true := by
    intro i hi
    match i, hi with
    | 0, _ => exact change0 ext
    | 1, _ => exact change1 ext
    | 2, _ => exact change2 ext
    | 3, _ => exact change3 ext
    | 4, _ => exact change4 ext
    | 5, _ => exact change5 ext
    | 6, _ => exact change6 ext
    | 7, _ => exact change7 ext
    | 8, _ => exact change8 ext
    | 9, _ => exact change9 ext
    | 10, _ => exact change10 ext
    | 11, _ => exact change11 ext
    | 12, _ => exact change12 ext
    | 13, _ => exact change13 ext
    | 14, _ => exact change14 ext
    | 15, _ => exact change15 ext
    | 16, _ => exact change16 ext
    | 17, _ => exact change17 ext
    | 18, _ => exact change18 ext
    | 19, _ => exact change19 ext
    | 20, _ => exact change20 ext
    | 21, _ => exact change21 ext
    | 22, _ => exact change22 ext
    | 23, _ => exact change23 ext
    | 24, _ => exact change24 ext
    | 25, _ => exact change25 ext
    | 26, _ => exact change26 ext
    | 27, _ => exact change27 ext
    | n + 28, hi => exact absurd hi (by omega)
  have := h i hi
  rw [List.getElem?_eq_getElem hi] at this
  exact this

/-! ## The properties -/

theorem builtin_plain : ((Builtin.classes ++ baseReg).all fun p => !p.1.contains 35) = true := by kernel_rfl

theorem loadedReg_plain {k : Str} (h : (loadedReg k).isSome) : (35 : UInt8) ∉ k := by
  unfold loadedReg at h
  obtain ⟨c, hc⟩ := Option.isSome_iff_exists.mp h
  simpa using List.all_eq_true.mp builtin_plain _ (mem_of_tableGet hc)

/-- The built-in names that keep their entries through all sequences of shipped files are all but 86. -/
theorem C135_exact (ext : Ext) (k : Str) (hk : (loadedReg k).isSome) :
    (∀ s, Relation.ReflTransGen LoadsShipped ⟨loadedEnv ext, fun _ => none⟩ s → SameEntries (loadedEnv ext) s.env k) ↔ k ∉ Spec.changedNames := by
  constructor
  · intro h hm
    obtain ⟨p, hp, hkp⟩ := List.any_eq_true.mp (List.all_eq_true.mp changers_all k hm)
    have h1 := changers_change ext p hp
    unfold changes at h1
    have e : loadedEnv ext = ⟨fastReg, fun _ => [], ext⟩ := by unfold loadedEnv; rw [loadedReg_fast]
    rw [← e] at h1
    split at h1
    · rename_i s hs
      have h2 := List.all_eq_true.mp h1 k (by simpa using hkp)
      obtain ⟨h3, h4⟩ := h s (afterFiles_loads _ hs)
      unfold differs at h2
      rw [h3, h4, loadedEnv_fast, bne_self_eq_false, Bool.false_or] at h2
      rw [e] at h2
      cases h2
    · cases h1
  · intro hm s hr
    have hv := loadedReg_plain hk
    rw [loadedReg_fast] at hk
    exact (shipped_stable ext _ s rfl hr).2 k ⟨hv, .inr ⟨hk, hm⟩⟩

section
variable (ext : Ext) (st s : RegState) (hst : st.env = loadedEnv ext) (hr : Relation.ReflTransGen LoadsShipped st s)
include hst hr

/-- A type all of whose names are stable is decoded as with the built-in definitions alone, whatever shipped files have been loaded. -/
theorem C135_decode (ctx : Ctx) (t : Str)
    (hu : ∀ u, Spec.Uses (loadedEnv ext) (Spec.Within ctx.md ctx.module) (fun s => s = ctx.spec ∨ s = 0) (Spec.Reads ext.rows ctx.md) t u →
      ∀ m, Spec.Within ctx.md ctx.module m → ∀ k ∈ Spec.namesOf m u, Spec.Stable k) (n : Nat) (cur : St) :
    pau s.env n ctx t cur = pau (loadedEnv ext) n ctx t cur := by
  obtain ⟨hx, hs⟩ := shipped_stable ext st s hst hr
  exact C85_decode _ _ (Spec.Within ctx.md ctx.module) (fun s => s = ctx.spec ∨ s = 0) ctx.md t (.inr (.inl rfl)) (.inr rfl)
    (fun d key e h1 h2 => .inr (.inr ⟨d, key, e, h1, h2, rfl⟩)) hx (fun u h m hm k hk => hs k (hu u h m hm k hk)) n ctx
    ⟨.inl rfl, .inl rfl, .inl rfl⟩ cur

/-- And encoded. -/
theorem C135_encode (ctx : ECtx) (t : Str)
    (hu : ∀ u, Spec.Uses (loadedEnv ext) (· = []) (fun s => s = ctx.spec ∨ s = -1) (Spec.Writes ext.rows ctx.md) t u →
      ∀ k ∈ Spec.namesOf [] u, Spec.Stable k) (n : Nat) (v : Val) : enc s.env n ctx t v = enc (loadedEnv ext) n ctx t v := by
  obtain ⟨hx, hs⟩ := shipped_stable ext st s hst hr
  exact C85_encode _ _ (fun s => s = ctx.spec ∨ s = -1) ctx.md t (.inr rfl) hx (fun u h k hk => hs k (hu u h k hk)) n ctx (.inl rfl) (.inl rfl) v

end

/-- What a network means depends on the networks loaded before: `BalanceOf` of acala takes 16 bytes, but 8 if equilibrium was loaded first. -/
theorem C135_earlier : (∃ s, Relation.ReflTransGen LoadsShipped ⟨loadedEnv dummyExt, fun _ => none⟩ s ∧
      pau s.env 3 ⟨[], 0, none⟩ b!"BalanceOf" ⟨⟨List.replicate 16 1, 0⟩, []⟩ = .ok (.uint 8 72340172838076673, ⟨⟨List.replicate 16 1, 8⟩, []⟩)) ∧
    ∃ s, Relation.ReflTransGen LoadsShipped ⟨loadedEnv dummyExt, fun _ => none⟩ s ∧
      pau s.env 3 ⟨[], 0, none⟩ b!"BalanceOf" ⟨⟨List.replicate 16 1, 0⟩, []⟩ = .ok (.dec 1334440654591915542993625911497130241 0, ⟨⟨List.replicate 16 1, 16⟩, []⟩) := by
  have hf : Network.shipped[20]? = some (b!"equilibrium", Network.equilibrium) := by kernel_rfl
  have hg : Network.shipped[1]? = some (b!"acala", Network.acala) := by kernel_rfl
  exact ⟨loads_of_afterTwo (List.mem_of_getElem? hf) (List.mem_of_getElem? hg)
      (q := fun env => pau env 3 ⟨[], 0, none⟩ b!"BalanceOf" ⟨⟨List.replicate 16 1, 0⟩, []⟩) (by kernel_rfl),
    loads_of_afterTwo (List.mem_of_getElem? hg) (List.mem_of_getElem? hg)
      (q := fun env => pau env 3 ⟨[], 0, none⟩ b!"BalanceOf" ⟨⟨List.replicate 16 1, 0⟩, []⟩) (by kernel_rfl)⟩

/-! ## Examples -/

/-- The names of `Vec<u16>` and its parts. -/
def vecNames : List Str := [b!"vec<u16>", b!"vec", b!"compact<u32>", b!"compact", b!"u16"]

theorem vecNames_untouched : (Network.shipped.all fun f => f.2.all fun p => !vecNames.contains (baseName p.1)) = true := by kernel_rfl

theorem vecNames_stable {k : Str} (h : k ∈ vecNames) : Spec.Stable k := by
  refine ⟨?_, .inl fun f hf p hp e => ?_⟩
  · revert h; revert k; decide +kernel
  · have := List.all_eq_true.mp (List.all_eq_true.mp vecNames_untouched f hf) p hp
    rw [e] at this
    simp [h] at this

/-- Sequences of numbers are read as ever. -/
example (ext : Ext) (s : RegState) (hr : Relation.ReflTransGen LoadsShipped ⟨loadedEnv ext, fun _ => none⟩ s) (n : Nat) (cur : St) :
    pau s.env n ⟨[], 0, none⟩ b!"Vec<u16>" cur = pau (loadedEnv ext) n ⟨[], 0, none⟩ b!"Vec<u16>" cur := by
  refine C135_decode ext _ s rfl hr ⟨[], 0, none⟩ _ (fun u hu m hm k hk => ?_) n cur
  have hm : m = [] := by
    rcases hm with h | h | ⟨_, _, _, h, _⟩
    exacts [h, h, by cases h]
  subst hm
  have key : ∀ u, u = b!"Vec<u16>" ∨ u = b!"Compact<u32>" ∨ u = b!"u16" → ∀ k ∈ Spec.namesOf [] u, k ∈ vecNames := by
    rintro u (rfl | rfl | rfl) <;> decide +kernel
  have e : loadedEnv ext = ⟨fastReg, fun _ => [], ext⟩ := by unfold loadedEnv; rw [loadedReg_fast]
  exact vecNames_stable (key u (vec_uses (env := loadedEnv ext) (by rw [e]; kernel_rfl) (by rw [e]; kernel_rfl) (by rw [e]; kernel_rfl) hu) k hk)

/-- Balances and account ids are not; hashes, texts and most other types are. -/
example (ext : Ext) : (∃ s, Relation.ReflTransGen LoadsShipped ⟨loadedEnv ext, fun _ => none⟩ s ∧ ¬ SameEntries (loadedEnv ext) s.env b!"balance") ∧
    ∀ s, Relation.ReflTransGen LoadsShipped ⟨loadedEnv ext, fun _ => none⟩ s → SameEntries (loadedEnv ext) s.env b!"h256" := by
  refine ⟨?_, (C135_exact ext _ (by rw [loadedReg_fast]; kernel_rfl)).mpr (by decide +kernel)⟩
  by_contra h
  push Not at h
  exact (C135_exact ext b!"balance" (by rw [loadedReg_fast]; kernel_rfl)).mp h (by decide +kernel)

end ScaleGo
