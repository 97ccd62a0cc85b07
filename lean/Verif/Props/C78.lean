import Verif.Lemmas.Settles
import Verif.Props.C61
import Verif.Props.C77
import Verif.Spec.Pallets

/-! # C78: the pallets of V14 and V15 metadata are read as they were written -/

namespace ScaleGo
open _root_.Spec (WText WAll WList WOpt FText FList FId WKind WEntry WConst WPallet EncKind EncEntry EncConst EncStorage EncPallet
  EncPallet15 FKind FEntry FConst FPallet hasherNames modifierNames)

/-- The texts by which pallets are read mean what frame-metadata says. -/
structure ReadsPallets (env : Env) (ctx : Ctx) : Prop where
  len : LenOK env ctx
  string : Resolves env ctx.module ctx.spec b!"String" .string []
  text : Resolves env ctx.module ctx.spec b!"Text" .string []
  hexBytes : Resolves env ctx.module ctx.spec b!"HexBytes" .hexBytes []
  bool : Resolves env ctx.module ctx.spec b!"bool" .bool []
  u8 : Resolves env ctx.module ctx.spec b!"U8" .u8 []
  id : Resolves env ctx.module ctx.spec b!"SiLookupTypeId" .compactU32 []
  strings : Resolves env ctx.module ctx.spec b!"Vec<String>" (.vec []) b!"String"
  texts : Resolves env ctx.module ctx.spec b!"Vec<Text>" (.vec []) b!"Text"
  hashers : Resolves env ctx.module ctx.spec b!"Vec<StorageHasher>" (.vec []) b!"StorageHasher"
  hasher : Resolves env ctx.module ctx.spec b!"StorageHasher" (.enum hasherNames none) []
  modify : Resolves env ctx.module ctx.spec b!"StorageModify" (.enum modifierNames none) []
  kind : Resolves env ctx.module ctx.spec b!"StorageFunctionTypeV14" (.enum [b!"PlainType", b!"Map"] none) []
  call : Resolves env ctx.module ctx.spec b!"PalletCallMetadataV14" (.struct (some [(b!"type", b!"SiLookupTypeId")])) []
  event : Resolves env ctx.module ctx.spec b!"PalletEventMetadataV14" (.struct (some [(b!"type", b!"SiLookupTypeId")])) []
  error : Resolves env ctx.module ctx.spec b!"PalletErrorMetadataV14" (.struct (some [(b!"type", b!"SiLookupTypeId")])) []

/-- The tables of the library after loading do. -/
theorem loaded_readsPallets (ext : Ext) (spec : Int) (md : Option MD) : ReadsPallets (loadedEnv ext) ⟨[], spec, md⟩ := by
  constructor
  · exact ⟨[], by unfold Resolves loadedEnv; rw [loadedReg_fast]; kernel_rfl⟩
  all_goals (unfold Resolves loadedEnv; rw [loadedReg_fast]; kernel_rfl)

/-- What is kept of the type of an entry: hashers by name. -/
def keptKind : WKind → StorageKind
  | .plain t => .plain t
  | .map hs k v => .map (hs.map fun h => hasherNames[h]?.getD []) k v

/-- What is kept of a storage entry. -/
def keptEntry (x : WEntry) : StorageEntry :=
  ⟨keptText x.name, modifierNames[x.modifier]?.getD [], keptKind x.kind, b!"0x" ++ Spec.hexText x.default, x.docs.map keptText⟩

/-- What is kept of a constant. -/
def keptConst (x : WConst) : ConstEntry := ⟨keptText x.name, x.type, Spec.hexText x.value, x.docs.map keptText⟩

/-- What is kept of a pallet: no storage becomes the empty prefix without entries. -/
def keptPallet (x : WPallet) : Pallet where
  name := keptText x.name
  pfx := (x.storage.map fun s => keptText s.1).getD []
  storage := (x.storage.map fun s => s.2.map keptEntry).getD []
  calls := x.calls
  events := x.event
  constants := x.constants.map keptConst
  errors := x.error
  index := x.index

section
variable {env : Env} {ctx : Ctx}

theorem pallet_text (h : ReadsPallets env ctx) {s b : Str} (hw : WText s b) (hf : FText s) :
    Decodes env ctx b!"String" b (.str (keptText s)) [] := by
  obtain ⟨c, hc, rfl⟩ := hw
  exact C19_decode env ctx _ _ .string s c (by simp) h.string h.len hf hc

theorem pallet_hex (h : ReadsPallets env ctx) {s b : Str} (hw : WText s b) (hf : FText s) :
    Decodes env ctx b!"HexBytes" b (.str (b!"0x" ++ Spec.hexText s)) [] := by
  obtain ⟨c, hc, rfl⟩ := hw
  have := C19_decode env ctx _ _ .hexBytes s c (by simp) h.hexBytes h.len hf hc
  simpa [shown] using this

theorem pallet_id (h : ReadsPallets env ctx) {n : Nat} {b : Str} (hw : Spec.IsCompact n b) (hf : FId n) :
    Decodes env ctx b!"SiLookupTypeId" b (.int n) [] :=
  C14_decode env ctx _ _ n b (Nat.lt_trans hf (by decide)) hw h.id

theorem settles_strs {α : Type} {Q : α → Str → Prop} {F : α → Prop} {k : α → Str} {ty sub el : Str} {cls : Cls}
    (hL : LenOK env ctx) (hr : Resolves env ctx.module ctx.spec ty cls sub) (hv : vecElem cls sub = some el)
    (hi : ∀ a b, Q a b → F a → Decodes env ctx el b (.str (k a)) []) {l : List α} {b : Str} (hw : WList Q l b) (hf : FList F l) :
    Settles (fun n => readStrs (pau env n) ctx ty) b (l.map k) := by
  obtain ⟨c, d, hc, hd, rfl⟩ := hw
  obtain ⟨items, h1, h2, h3, h4, h5⟩ := reads_all (read := goStr) (k := k) (el := el) (env := env) (ctx := ctx)
    (fun a b hq hf => ⟨_, hi a b hq hf, rfl⟩) l d hd hf.2
  have := C20_decode env ctx ty sub el cls items c hv hr hL (h1 ▸ hf.1) (h1 ▸ hc) h4
  rw [h2, h3] at this
  refine settles_last (settles_decodes this) ?_
  have hg : goStrs (mkSlice (items.map (·.1))) = .ok (l.map k) := by
    rw [← h5]
    cases items <;> rfl
  show Settles (fun _ st => goStrs (mkSlice (items.map (·.1))) >>= fun l => Res.ok (l, st)) [] _
  rw [hg]
  exact settles_pure _

theorem settles_docs (h : ReadsPallets env ctx) {l : List Str} {b : Str} (hw : WList WText l b) (hf : FList FText l) :
    Settles (fun n => readStrs (pau env n) ctx b!"Vec<String>") b (l.map keptText) :=
  settles_strs h.len h.strings rfl (k := keptText) (fun _ _ => pallet_text h) hw hf

theorem enum_name {ty : Str} {names : List Str} (hr : Resolves env ctx.module ctx.spec ty (.enum names none) [])
    (hn : ∀ n ∈ names, n ≠ []) (h256 : names.length ≤ 256) {i : Nat} (hi : i < names.length) :
    Decodes env ctx ty (Spec.leBytes 1 i) (.str (names[i]?.getD [])) [] := by
  have hb : Spec.leBytes 1 i = [UInt8.ofNat i] := by
    simp [Spec.leBytes, Nat.mod_eq_of_lt (show i < 256 by omega)]
  have hi' : (UInt8.ofNat i).toNat = i := by simp; omega
  rw [hb]
  have hg : names[i]? = some (names[i]) := List.getElem?_eq_getElem hi
  rw [hg]
  exact (C23_decode_names env ctx _ _ names (UInt8.ofNat i) hr).1 _ (by rw [hi']; exact hg) (hn _ (List.getElem_mem hi))

theorem settles_kind (h : ReadsPallets env ctx) {x : WKind} {b : Str} (hw : EncKind x b) (hf : FKind x) :
    Settles (fun n => readStorageKind (pau env n) ctx) b (keptKind x) := by
  have named : ∀ i, i < 2 → Decodes env ctx b!"StorageFunctionTypeV14" (Spec.leBytes 1 i) (.str ([b!"PlainType", b!"Map"][i]?.getD [])) [] :=
    fun i hi => enum_name h.kind (by simp) (by simp) hi
  cases x with
  | plain t =>
    obtain ⟨c, hc, rfl⟩ := hw
    refine settles_step (b1 := [0]) (settles_str (named 0 (by decide))) (settles_if rfl ?_)
    exact settles_last (settles_int (pallet_id h hc hf)) (settles_pure _)
  | map hs k v =>
    obtain ⟨c, d, e, hc, hd, he, rfl⟩ := hw
    rw [List.append_assoc]
    refine settles_step (b1 := [1]) (settles_str (named 1 (by decide))) (settles_ifn (by decide) (settles_if rfl ?_))
    refine settles_step (settles_strs h.len h.hashers rfl (k := fun i => hasherNames[i]?.getD [])
      (fun i b hb hi => by subst hb; exact enum_name h.hasher (by decide) (by decide) hi) hc hf.1) ?_
    refine settles_step (settles_int (pallet_id h hd hf.2.1)) ?_
    exact settles_last (settles_int (pallet_id h he hf.2.2)) (settles_pure _)

theorem settles_entry (h : ReadsPallets env ctx) (x : WEntry) (b : Str) (hw : EncEntry x b) (hf : FEntry x) :
    Settles (fun n => readStorageEntry (pau env n) ctx) b (keptEntry x) := by
  obtain ⟨b1, b3, b4, b5, h1, h3, h4, h5, rfl⟩ := hw
  obtain ⟨f1, f2, f3, f4, f5⟩ := hf
  refine settles_step (settles_str (pallet_text h h1 f1)) ?_
  refine settles_step (settles_str (enum_name h.modify (by decide) (by decide) f2)) ?_
  refine settles_step (settles_kind h h3 f3) ?_
  refine settles_step (settles_str (pallet_hex h h4 f4)) ?_
  exact settles_last (settles_docs h h5 f5) (settles_pure _)

theorem settles_const (h : ReadsPallets env ctx) (x : WConst) (b : Str) (hw : EncConst x b) (hf : FConst x) :
    Settles (fun n => readConstant (pau env n) ctx) b (keptConst x) := by
  obtain ⟨b1, b2, b3, b4, h1, h2, h3, h4, rfl⟩ := hw
  obtain ⟨f1, f2, f3, f4⟩ := hf
  refine settles_step (settles_str (pallet_text h h1 f1)) ?_
  refine settles_step (settles_int (pallet_id h h2 f2)) ?_
  refine settles_step (settles_str (pallet_hex h h3 f3)) ?_
  exact settles_last (settles_docs h h4 f4) (settles_pure _)

theorem settles_storage (h : ReadsPallets env ctx) (x : Str × List WEntry) (b : Str) (hw : EncStorage x b)
    (hf : FText x.1 ∧ FList FEntry x.2) :
    Settles (fun n => readStorage (pau env n) ctx) b (keptText x.1, x.2.map keptEntry) := by
  obtain ⟨b1, b2, h1, h2, rfl⟩ := hw
  refine settles_step (settles_str (pallet_text h h1 hf.1)) ?_
  exact settles_last (settles_vec h.len (settles_entry h) h2 hf.2) (settles_pure _)

theorem settles_lookUp {ty : Str} (hr : Resolves env ctx.module ctx.spec ty (.struct (some [(b!"type", b!"SiLookupTypeId")])) [])
    (h : ReadsPallets env ctx) (i : Nat) (b : Str) (hw : Spec.IsCompact i b) (hf : FId i) :
    Settles (fun n => readLookUp (pau env n) ctx ty) b i := by
  refine settles_last (settles_decodes (decodes_single hr (pallet_id h hw hf))) ?_
  exact settles_pure i

theorem settles_opt {α β : Type} {P : α → Str → Prop} {F : α → Prop} {f : Nat → Dec β} {k : α → β} (h : ReadsPallets env ctx)
    (hi : ∀ a b, P a b → F a → Settles f b (k a)) {o : Option α} {b : Str} (hw : WOpt P o b) (hf : ∀ a ∈ o, F a) :
    Settles (fun n => readIf (pau env n) ctx (f n)) b (o.map k) := by
  have flag : ∀ x : UInt8, Settles (fun n => readBool (pau env n) ctx) [x] (decide (bytesToHex [x] = b!"01")) := fun x =>
    settles_last (settles_decodes (bool_byte env ctx _ _ h.bool x)) (settles_pure _)
  cases o with
  | none =>
    have : b = [0] := hw
    subst this
    exact settles_last (flag 0) (settles_ifn (by decide) (settles_pure _))
  | some a =>
    obtain ⟨c, hc, rfl⟩ := hw
    refine settles_step (b1 := [1]) (flag 1) (settles_if (by decide) ?_)
    exact settles_last (hi a c hc (hf a rfl)) (settles_pure _)

theorem settles_pallet (h : ReadsPallets env ctx) (x : WPallet) (b : Str) (hw : EncPallet x b) (hf : FPallet x) :
    Settles (fun n => readPallet (pau env n) ctx) b (keptPallet x) := by
  obtain ⟨b1, b2, b3, b4, b5, b6, h1, h2, h3, h4, h5, h6, rfl⟩ := hw
  obtain ⟨f1, f2, f3, f4, f5, f6, f7⟩ := hf
  refine settles_step (settles_str (pallet_text h h1 f1)) ?_
  refine settles_step (settles_opt h (settles_storage h) h2 f2) ?_
  refine settles_step (settles_opt h (settles_lookUp h.call h) (k := fun i => i) h3 f3) ?_
  refine settles_step (settles_opt h (settles_lookUp h.event h) (k := fun i => i) h4 f4) ?_
  refine settles_step (settles_vec h.len (settles_const h) h5 f5) ?_
  refine settles_step (settles_opt h (settles_lookUp h.error h) (k := fun i => i) h6 f6) ?_
  refine settles_last (settles_int (C07_decode env ctx b!"U8" 1 x.index [] (by simp) f7 h.u8)) ?_
  have e : keptPallet x = ⟨keptText x.name, ((x.storage.map fun s => (keptText s.1, s.2.map keptEntry)).getD ([], [])).1,
      ((x.storage.map fun s => (keptText s.1, s.2.map keptEntry)).getD ([], [])).2, x.calls.map fun i => i,
      x.event.map fun i => i, x.constants.map keptConst, x.error.map fun i => i, x.index, []⟩ := by
    unfold keptPallet
    cases x.storage <;> simp
  rw [e]
  exact settles_pure _

theorem settles_pallet15 (h : ReadsPallets env ctx) (x : WPallet × List Str) (b : Str) (hw : EncPallet15 x b)
    (hf : FPallet x.1 ∧ FList FText x.2) :
    Settles (fun n => readPallet15 (pau env n) ctx) b { keptPallet x.1 with docs := x.2.map keptText } := by
  obtain ⟨c, d, hc, hd, rfl⟩ := hw
  refine settles_step (settles_pallet h _ _ hc hf.1) ?_
  refine settles_last (settles_strs h.len h.texts rfl (k := keptText) (fun s b ⟨c, hc, e⟩ hf => ?_) hd hf.2) (settles_pure _)
  subst e
  exact C19_decode env ctx _ _ .string s c (by simp) h.text h.len hf hc
end

/-- The pallets of V14 metadata are read as they were written. -/
theorem C78_reads (env : Env) (ctx : Ctx) (l : List WPallet) (b : Str) (h : ReadsPallets env ctx) (hw : WList EncPallet l b)
    (hf : FList FPallet l) :
    Settles (fun n => readVec (pau env n) ctx (readPallet (pau env n) ctx)) b (l.map keptPallet) :=
  settles_vec h.len (settles_pallet h) hw hf

/-- The pallets of V15 metadata are read as they were written. -/
theorem C78_reads15 (env : Env) (ctx : Ctx) (l : List (WPallet × List Str)) (b : Str) (h : ReadsPallets env ctx)
    (hw : WList EncPallet15 l b) (hf : FList (fun x => FPallet x.1 ∧ FList FText x.2) l) :
    Settles (fun n => readVec (pau env n) ctx (readPallet15 (pau env n) ctx)) b
      (l.map fun x => { keptPallet x.1 with docs := x.2.map keptText }) :=
  settles_vec h.len (settles_pallet15 h) hw hf

/-! ## Nothing is lost -/

/-- All texts of a pallet are printable. -/
def PlainPallet (x : WPallet) : Prop :=
  Spec.IsText x.name ∧ (∀ s ∈ x.storage, Spec.IsText s.1 ∧ ∀ e ∈ s.2, Spec.IsText e.name ∧ ∀ d ∈ e.docs, Spec.IsText d) ∧
    ∀ c ∈ x.constants, Spec.IsText c.name ∧ ∀ d ∈ c.docs, Spec.IsText d

/-- No storage and storage without prefix and entries taken for the same. -/
def withStorage (x : WPallet) : WPallet := { x with storage := some (x.storage.getD ([], [])) }

theorem hexText_injective {a b : Str} (h : Spec.hexText a = Spec.hexText b) : a = b := by
  rw [← bytesToHex_eq_spec, ← bytesToHex_eq_spec] at h
  exact bytesToHex_injective h

theorem keptTexts_of {l m : List Str} (hl : ∀ s ∈ l, Spec.IsText s) (hm : ∀ s ∈ m, Spec.IsText s) (e : l.map keptText = m.map keptText) :
    l = m := by
  have := map_keep (T := Spec.IsText) (g := fun s => s) (fun s t hs ht e => by rwa [keptText_of hs, keptText_of ht] at e) _ _ hl hm e
  simpa using this

theorem keptKind_inj {x y : WKind} (fx : FKind x) (fy : FKind y) (e : keptKind x = keptKind y) : x = y := by
  cases x with
  | plain t => cases y with
    | plain u => rw [StorageKind.plain.inj e]
    | map => cases e
  | map hs k v => cases y with
    | plain u => cases e
    | map gs k' v' =>
      obtain ⟨e1, e2, e3⟩ := StorageKind.map.inj e
      have := map_keep (T := (· < 7)) (g := fun n => n) (fun a b ha hb e =>
        (by decide : ∀ a < 7, ∀ b < 7, hasherNames[a]?.getD [] = hasherNames[b]?.getD [] → a = b) a ha b hb e) hs gs fx.1.2 fy.1.2 e1
      simp only [List.map_id'] at this
      rw [this, e2, e3]

theorem keptEntry_inj {x y : WEntry} (fx : FEntry x) (fy : FEntry y) (px : Spec.IsText x.name ∧ ∀ d ∈ x.docs, Spec.IsText d)
    (py : Spec.IsText y.name ∧ ∀ d ∈ y.docs, Spec.IsText d) (e : keptEntry x = keptEntry y) : x = y := by
  obtain ⟨e1, e2, e3, e4, e5⟩ := StorageEntry.mk.inj e
  rw [keptText_of px.1, keptText_of py.1] at e1
  have e2 := (by decide : ∀ a < 2, ∀ b < 2, modifierNames[a]?.getD [] = modifierNames[b]?.getD [] → a = b) _ fx.2.1 _ fy.2.1 e2
  have e3 := keptKind_inj fx.2.2.1 fy.2.2.1 e3
  have e4 := hexText_injective (List.append_cancel_left e4)
  have e5 := keptTexts_of px.2 py.2 e5
  cases x; cases y; simp_all

theorem keptConst_inj {x y : WConst} (px : Spec.IsText x.name ∧ ∀ d ∈ x.docs, Spec.IsText d)
    (py : Spec.IsText y.name ∧ ∀ d ∈ y.docs, Spec.IsText d) (e : keptConst x = keptConst y) : x = y := by
  obtain ⟨e1, e2, e3, e4⟩ := ConstEntry.mk.inj e
  rw [keptText_of px.1, keptText_of py.1] at e1
  have e3 := hexText_injective e3
  have e4 := keptTexts_of px.2 py.2 e4
  cases x; cases y; simp_all

/-- Pallets with printable texts that are read alike are alike, except that no storage and empty storage are not told apart. -/
theorem C78_faithful (x y : WPallet) (fx : FPallet x) (fy : FPallet y) (px : PlainPallet x) (py : PlainPallet y)
    (e : keptPallet x = keptPallet y) : withStorage x = withStorage y := by
  obtain ⟨e1, e2, e3, e4, e5, e6, e7, e8, _⟩ := Pallet.mk.inj e
  rw [keptText_of px.1, keptText_of py.1] at e1
  have f : ∀ {o : Option (Str × List WEntry)}, (∀ s ∈ o, Spec.IsText s.1 ∧ ∀ e ∈ s.2, Spec.IsText e.name ∧ ∀ d ∈ e.docs, Spec.IsText d) →
      (o.map fun s => keptText s.1).getD [] = (o.getD ([], [])).1 := by
    intro o h
    cases o with
    | none => rfl
    | some s => exact keptText_of (h s rfl).1
  have g : ∀ {o : Option (Str × List WEntry)}, (o.map fun s => s.2.map keptEntry).getD [] = (o.getD ([], [])).2.map keptEntry := by
    intro o
    cases o <;> rfl
  rw [f px.2.1, f py.2.1] at e2
  rw [g, g] at e3
  have k : ∀ {z : WPallet}, FPallet z → PlainPallet z → ∀ e ∈ (z.storage.getD ([], [])).2,
      FEntry e ∧ Spec.IsText e.name ∧ ∀ d ∈ e.docs, Spec.IsText d := by
    intro z fz pz e he
    cases hs : z.storage with
    | none => rw [hs] at he; cases he
    | some s => rw [hs] at he; exact ⟨(fz.2.1 s hs).2.2 e he, (pz.2.1 s hs).2 e he⟩
  have e3 := map_keep (T := fun e : WEntry => FEntry e ∧ Spec.IsText e.name ∧ ∀ d ∈ e.docs, Spec.IsText d) (g := fun e => e)
    (fun a b ha hb e => keptEntry_inj ha.1 hb.1 ha.2 hb.2 e) _ _ (k fx px) (k fy py) e3
  have e6 := map_keep (T := fun e : WConst => Spec.IsText e.name ∧ ∀ d ∈ e.docs, Spec.IsText d) (g := fun e => e)
    (fun a b ha hb e => keptConst_inj ha hb e) _ _ px.2.2 py.2.2 e6
  simp only [List.map_id'] at e3 e6
  have e23 : x.storage.getD ([], []) = y.storage.getD ([], []) := Prod.ext e2 e3
  unfold withStorage
  rw [e23]
  cases x; cases y; simp_all

/-- Every list of pallets that fits has an encoding. -/
theorem C78_written (l : List WPallet) (hf : FList FPallet l) : ∃ b, WList EncPallet l b := by
  have id : ∀ n, FId n → ∃ b, Spec.IsCompact n b := fun n h => isCompact_exists n (Nat.lt_trans h (by decide))
  have text : ∀ s, FText s → ∃ b, WText s b := fun s h => by
    obtain ⟨c, hc⟩ := isCompact_exists s.length (Nat.lt_trans h (by decide))
    exact ⟨_, c, hc, rfl⟩
  have kind : ∀ k, FKind k → ∃ b, EncKind k b := fun k h => by
    cases k with
    | plain t => obtain ⟨b, hb⟩ := id t h; exact ⟨_, b, hb, rfl⟩
    | map hs k v =>
      obtain ⟨b1, h1⟩ := wList_exists (P := fun h b => b = Spec.leBytes 1 h) (fun a _ => ⟨_, rfl⟩) hs h.1
      obtain ⟨b2, h2⟩ := id k h.2.1
      obtain ⟨b3, h3⟩ := id v h.2.2
      exact ⟨_, b1, b2, b3, h1, h2, h3, rfl⟩
  have entry : ∀ x, FEntry x → ∃ b, EncEntry x b := fun x h => by
    obtain ⟨b1, h1⟩ := text _ h.1
    obtain ⟨b3, h3⟩ := kind _ h.2.2.1
    obtain ⟨b4, h4⟩ := text _ h.2.2.2.1
    obtain ⟨b5, h5⟩ := wList_exists text x.docs h.2.2.2.2
    exact ⟨_, b1, b3, b4, b5, h1, h3, h4, h5, rfl⟩
  have const : ∀ x, FConst x → ∃ b, EncConst x b := fun x h => by
    obtain ⟨b1, h1⟩ := text _ h.1
    obtain ⟨b2, h2⟩ := id _ h.2.1
    obtain ⟨b3, h3⟩ := text _ h.2.2.1
    obtain ⟨b4, h4⟩ := wList_exists text x.docs h.2.2.2
    exact ⟨_, b1, b2, b3, b4, h1, h2, h3, h4, rfl⟩
  refine wList_exists (fun x h => ?_) l hf
  obtain ⟨b1, h1⟩ := text _ h.1
  obtain ⟨b2, h2⟩ := wOpt_exists (P := EncStorage) (F := fun s => FText s.1 ∧ FList FEntry s.2) (fun s h => by
    obtain ⟨c, hc⟩ := text _ h.1
    obtain ⟨d, hd⟩ := wList_exists entry s.2 h.2
    exact ⟨_, c, d, hc, hd, rfl⟩) x.storage h.2.1
  obtain ⟨b3, h3⟩ := wOpt_exists id x.calls h.2.2.1
  obtain ⟨b4, h4⟩ := wOpt_exists id x.event h.2.2.2.1
  obtain ⟨b5, h5⟩ := wList_exists const x.constants h.2.2.2.2.1
  obtain ⟨b6, h6⟩ := wOpt_exists id x.error h.2.2.2.2.2.1
  exact ⟨_, b1, b2, b3, b4, b5, b6, h1, h2, h3, h4, h5, h6, rfl⟩

/-- A pallet with storage (a plain entry and a map with two hashers), calls, a constant and an error. -/
def balances : WPallet where
  name := b!"Balances"
  storage := some (b!"Bal", [⟨b!"Total", 1, .plain 6, [0, 255], [b!"doc"]⟩, ⟨b!"Locks", 0, .map [2, 5] 3 4, [], []⟩])
  calls := some 7
  event := none
  constants := [⟨b!"Deposit", 6, [1, 2], []⟩]
  error := some 9
  index := 10

example : ∃ b, Settles (fun n => readVec (pau (loadedEnv dummyExt) n) ⟨[], 0, none⟩ (readPallet (pau (loadedEnv dummyExt) n) ⟨[], 0, none⟩)) b
    [⟨b!"Balances", b!"Bal", [⟨b!"Total", b!"Default", .plain 6, b!"0x00ff", [b!"doc"]⟩,
      ⟨b!"Locks", b!"Optional", .map [b!"Blake2_128Concat", b!"Twox64Concat"] 3 4, b!"0x", []⟩], some 7, none,
      [⟨b!"Deposit", 6, b!"0102", []⟩], some 9, 10, []⟩] := by
  have hf : FList FPallet [balances] := by
    simp [FList, FPallet, balances, FText, FEntry, FKind, FConst, FId]
  obtain ⟨b, hb⟩ := C78_written [balances] hf
  have := C78_reads _ _ _ b (loaded_readsPallets dummyExt 0 none) hb hf
  have e : [balances].map keptPallet = [⟨b!"Balances", b!"Bal", [⟨b!"Total", b!"Default", .plain 6, b!"0x00ff", [b!"doc"]⟩,
      ⟨b!"Locks", b!"Optional", .map [b!"Blake2_128Concat", b!"Twox64Concat"] 3 4, b!"0x", []⟩], some 7, none,
      [⟨b!"Deposit", 6, b!"0102", []⟩], some 9, 10, []⟩] := by
    decide +kernel
  exact ⟨b, e ▸ this⟩

example : PlainPallet balances := by
  simp only [PlainPallet, balances, Option.mem_def, Option.some.injEq, forall_eq', Spec.IsText]
  decide +kernel

end ScaleGo
