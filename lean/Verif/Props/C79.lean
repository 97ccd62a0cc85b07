import Verif.Lemmas.V14
import Verif.Props.C37
import Verif.Props.C39

/-! # C79: V14 and V15 metadata give the tables they describe -/

namespace ScaleGo
open _root_.Spec (WText WAll WList WOpt FText FList FId WPallet EncPallet EncPallet15 FPallet WExtension EncExtrinsic14 EncExtrinsic15
  FExtension WRegistry FRegistry PType PVariant PField WEntry WKind WConst hasherNames)
open ScaleGo.Spec

/-! ## What the metadata says -/

/-- The type `i` is the variant type with the variants `vs`. -/
def VariantType (l : List (Nat × PType)) (i : Nat) (vs : List PVariant) : Prop := ∃ t, (i, t) ∈ l ∧ t.typ = .variant vs

/-- The name of a field as it is shown; empty when it has none. -/
def fieldName (f : PField) : Str := (f.name.map keptText).getD []

/-- The type name of a field as it is shown. -/
def fieldTypeName (f : PField) : Str := (f.typeName.map keptText).getD []

/-- The call with the index `b` of the pallet with the index `a`; `ids` gives the texts of types. -/
def DescribedCall (l : List (Nat × PType)) (ps : List WPallet) (ids : Nat → Option Str) (a b : Nat) (e : CallEntry) : Prop :=
  ∃ x ∈ ps, x.index = a ∧ ∃ i vs, x.calls = some i ∧ VariantType l i vs ∧ ∃ v ∈ vs, v.index = b ∧
    e = ⟨keptText v.name, keptText x.name, v.fields.map fun f => (fieldName f, siText ids f.type)⟩

/-- The event with the index `b` of the pallet with the index `a`. -/
def DescribedEvent (l : List (Nat × PType)) (ps : List WPallet) (ids : Nat → Option Str) (a b : Nat) (e : EventEntry) : Prop :=
  ∃ x ∈ ps, x.index = a ∧ ∃ i vs, x.event = some i ∧ VariantType l i vs ∧ ∃ v ∈ vs, v.index = b ∧
    e = ⟨keptText v.name, keptText x.name, v.fields.map fun f => siText ids f.type, v.fields.map fieldName,
      v.fields.map fun f => convertType (fieldTypeName f)⟩

/-- The name of an error with the type names and texts of its fields. -/
def describedError (ids : Nat → Option Str) (v : PVariant) : ErrorText :=
  (keptText v.name, v.fields.map fun f => (fieldTypeName f, siText ids f.type))

/-- The keys of a map with `n` hashers: the members of a tuple, otherwise the whole.  With `check` (V14) a tuple with more members
than there are hashers is one key. -/
def DescribedKeys (check : Bool) (l : List (Nat × PType)) (ids : Nat → Option Str) (n k : Nat) (keys : List Str) : Prop :=
  ∃ t, (k, t) ∈ l ∧ ((∃ ts, t.typ = .tuple ts ∧ ts ≠ [] ∧ (check = true → ts.length ≤ n) ∧ keys = ts.map (siText ids)) ∨
    ((∀ ts, t.typ = .tuple ts → ts ≠ [] → check = true ∧ n < ts.length) ∧ keys = [siText ids k]))

/-- A storage entry: what was written, with texts for types. -/
def DescribedStorage (check : Bool) (l : List (Nat × PType)) (ids : Nat → Option Str) (x : WEntry) (y : StorageEntry × StorageText) : Prop :=
  y.1 = keptEntry x ∧ match x.kind with
    | .plain t => y.2 = .plain (siText ids t)
    | .map hs k v => ∃ keys, DescribedKeys check l ids hs.length k keys ∧
        y.2 = .map (hs.map fun h => hasherNames[h]?.getD []) keys (siText ids v)

/-- A module: name, index, constants, storage, and the errors in some order. -/
structure DescribedPallet (check : Bool) (l : List (Nat × PType)) (ids : Nat → Option Str) (x : WPallet) (t : PalletText) : Prop where
  name : t.mod.name = keptText x.name
  index : t.mod.index = x.index
  constants : t.constants = x.constants.map fun c => (keptConst c, siText ids c.type)
  errors : ∀ i vs, x.error = some i → VariantType l i vs → t.errors.Perm (vs.map (describedError ids))
  noErrors : x.error = none → t.errors = []
  storage : List.Forall₂ (DescribedStorage check l ids) (x.storage.getD ([], [])).2 t.storage

/-- What Substrate guarantees: types are numbered in order, pallet indices and the indices of the variants of calls and events
are distinct; calls, events and errors are variant types, and other types that are mentioned exist. -/
structure Regular (l : List (Nat × PType)) (ps : List WPallet) : Prop where
  numbered : l.map Prod.fst = List.range l.length
  pallets : (ps.map (·.index)).Nodup
  calls : ∀ x ∈ ps, ∀ i, x.calls = some i → ∃ vs, VariantType l i vs ∧ (vs.map (·.index)).Nodup
  events : ∀ x ∈ ps, ∀ i, x.event = some i → ∃ vs, VariantType l i vs ∧ (vs.map (·.index)).Nodup
  errors : ∀ x ∈ ps, ∀ i, x.error = some i → ∃ vs, VariantType l i vs
  constants : ∀ x ∈ ps, ∀ c ∈ x.constants, c.type < l.length
  keys : ∀ x ∈ ps, ∀ s ∈ x.storage, ∀ e ∈ s.2, ∀ hs k v, e.kind = .map hs k v → k < l.length

theorem Regular.ids {l : List (Nat × PType)} {ps : List WPallet} (h : Regular l ps) : (l.map Prod.fst).Nodup := by
  rw [h.numbered]
  exact List.nodup_range

/-! ## The model -/

theorem eachRes_ok {α β : Type} {f : α → Res β} : ∀ {l : List α} {r : List β}, eachRes f l = .ok r ↔ List.Forall₂ (fun a b => f a = .ok b) l r
  | [], r => by
    constructor
    · intro h; cases h; exact .nil
    · intro h; cases h; rfl
  | a :: l, r => by
    show (f a >>= fun b => eachRes f l >>= fun bs => Res.ok (b :: bs)) = .ok r ↔ _
    constructor
    · intro h
      rw [Res.bind_eq_ok] at h
      obtain ⟨b, hb, h⟩ := h
      rw [Res.bind_eq_ok] at h
      obtain ⟨bs, hbs, h⟩ := h
      cases h
      exact .cons hb (eachRes_ok.1 hbs)
    · intro h
      cases h with
      | cons hb hbs =>
        rw [hb, Res.ok_bind, eachRes_ok.2 hbs]
        rfl

theorem variant_kept {l : List (Nat × PType)} {spec : Int} (hd : (l.map Prod.fst).Nodup) {i : Nat} {vs : List PVariant}
    (h : VariantType l i vs) : ((wireCfg l spec).types i).typ = .variant (vs.map keptVariant) := by
  obtain ⟨t, ht, e⟩ := h
  have := (C77_lookup l hd).1 _ ht
  show ((portableCfg (kept l)).types i).typ = _
  rw [this]
  show keptDef t.typ = _
  rw [e]
  rfl

theorem variant_unique {l : List (Nat × PType)} (hd : (l.map Prod.fst).Nodup) {i : Nat} {vs ws : List PVariant}
    (h : VariantType l i vs) (h' : VariantType l i ws) : vs = ws := by
  obtain ⟨t, ht, e⟩ := h
  obtain ⟨u, hu, e'⟩ := h'
  have : t = u := by
    have := List.inj_on_of_nodup_map hd ht hu rfl
    exact (Prod.mk.inj this).2
  subst this
  rw [e] at e'
  cases e'
  rfl

section
variable {l : List (Nat × PType)} {ps : List WPallet} {spec : Int} {ids : Nat → Option Str} {check : Bool} {texts : List PalletText}

/-- The parts of a module. -/
theorem palletText_ok {cfg : SiCfg} {p : Pallet} {t : PalletText} : palletText check cfg ids p = .ok t ↔
    t.mod.name = p.name ∧ t.mod.index = p.index ∧ portableCalls cfg ids p.calls = .ok t.mod.calls ∧
      portableEvents cfg ids p.events = .ok t.mod.events ∧ portableErrors cfg ids p.errors = .ok t.errors ∧
      eachRes (constText ids) p.constants = .ok t.constants ∧
      eachRes (fun s => storageText check cfg ids s.kind >>= fun t => Res.ok (s, t)) p.storage = .ok t.storage := by
  unfold palletText
  constructor
  · intro h
    obtain ⟨c, hc, h⟩ := Res.bind_eq_ok.1 h
    obtain ⟨e, he, h⟩ := Res.bind_eq_ok.1 h
    obtain ⟨r, hr, h⟩ := Res.bind_eq_ok.1 h
    obtain ⟨k, hk, h⟩ := Res.bind_eq_ok.1 h
    obtain ⟨s, hs, h⟩ := Res.bind_eq_ok.1 h
    cases h
    exact ⟨rfl, rfl, hc, he, hr, hk, hs⟩
  · rintro ⟨h1, h2, h3, h4, h5, h6, h7⟩
    obtain ⟨⟨n, i, c, e⟩, r, k, s⟩ := t
    dsimp only at *
    subst h1 h2
    rw [h3, Res.ok_bind, h4, Res.ok_bind, h5, Res.ok_bind, h6, Res.ok_bind, h7]
    rfl

theorem appended_some {α : Type} {l r : List α} (h : appended l = some r) : r = l := by
  unfold appended at h
  split at h
  · cases h
  · cases h; rfl

theorem appended_ne {α : Type} {l : List α} (h : l ≠ []) : appended l = some l := by
  unfold appended
  rw [if_neg (by simpa using h)]

theorem forall2_left {α β : Type} {R : α → β → Prop} {l : List α} {r : List β} (h : List.Forall₂ R l r) {a : α} (ha : a ∈ l) :
    ∃ b ∈ r, R a b := by
  induction h with
  | nil => cases ha
  | cons h _ ih =>
    rcases List.mem_cons.1 ha with rfl | ha
    · exact ⟨_, by simp, h⟩
    · obtain ⟨b, hb, hr⟩ := ih ha
      exact ⟨b, by simp [hb], hr⟩

theorem forall2_right {α β : Type} {R : α → β → Prop} {l : List α} {r : List β} (h : List.Forall₂ R l r) {b : β} (hb : b ∈ r) :
    ∃ a ∈ l, R a b := by
  obtain ⟨a, ha, hr⟩ := forall2_left h.flip hb
  exact ⟨a, ha, hr⟩

theorem forall2_map_eq {α β γ : Type} {R : α → β → Prop} {f : α → γ} {g : β → γ} (hR : ∀ a b, R a b → f a = g b) {l : List α} {r : List β}
    (h : List.Forall₂ R l r) : r.map g = l.map f := by
  induction h with
  | nil => rfl
  | cons h _ ih => rw [List.map_cons, List.map_cons, ih, hR _ _ h]

theorem mods_index (h : List.Forall₂ (fun x t => palletText check (wireCfg l spec) ids (keptPallet x) = .ok t) ps texts) :
    (texts.map PalletText.mod).map (·.index) = ps.map (·.index) := by
  rw [List.map_map]
  exact forall2_map_eq (f := fun x : WPallet => x.index) (fun x t e => (palletText_ok.1 e).2.1.symm) h

theorem calls_variant (hR : Regular l ps) {x : WPallet} {r : Option (List MetaCall)}
    (h : portableCalls (wireCfg l spec) ids x.calls = .ok r) :
    ∀ i vs, x.calls = some i → VariantType l i vs → r = appended (vs.map fun v =>
      ⟨keptText v.name, v.fields.map fun f => (fieldName f, siText ids f.type), v.index⟩) := by
  intro i vs hi hv
  unfold portableCalls at h
  rw [hi] at h
  simp only [variant_kept hR.ids hv] at h
  cases h
  simp only [List.map_map]
  congr 2
  funext v
  simp [keptVariant, keptField, fieldName, siText, Function.comp_def]

theorem events_variant (hR : Regular l ps) {x : WPallet} {r : Option (List MetaEvent)}
    (h : portableEvents (wireCfg l spec) ids x.event = .ok r) :
    ∀ i vs, x.event = some i → VariantType l i vs → r = appended (vs.map fun v =>
      ⟨keptText v.name, v.fields.map fun f => siText ids f.type, v.fields.map fieldName,
        v.fields.map fun f => convertType (fieldTypeName f), v.index⟩) := by
  intro i vs hi hv
  unfold portableEvents at h
  rw [hi] at h
  simp only [variant_kept hR.ids hv] at h
  cases h
  simp only [List.map_map]
  congr 2
  funext v
  simp [keptVariant, keptField, fieldName, fieldTypeName, siText, Function.comp_def]

end

/-- In the table of calls an index pair is entered exactly when the metadata describes such a call, with its names and the
texts of the types of its arguments. -/
theorem described_calls {l : List (Nat × PType)} {ps : List WPallet} {spec : Int} {ids : Nat → Option Str} {check : Bool}
    {texts : List PalletText} (hR : Regular l ps)
    (h : List.Forall₂ (fun x t => palletText check (wireCfg l spec) ids (keptPallet x) = .ok t) ps texts) (a b : UInt8) (e : CallEntry) :
    callsV14 (texts.map PalletText.mod) (fun _ => none) (_root_.Spec.hexText [a, b]) = some e ↔
      DescribedCall l ps ids a.toNat b.toNat e := by
  rw [C37_v14_calls _ (by rw [mods_index h]; exact hR.pallets) ?_ a b e]
  · constructor
    · rintro ⟨mod, hm, h1, cs, h2, c, hc, h3, rfl⟩
      obtain ⟨t, ht, rfl⟩ := List.mem_map.1 hm
      obtain ⟨x, hx, hp⟩ := forall2_right h ht
      obtain ⟨n1, n2, n3, -⟩ := palletText_ok.1 hp
      have n3 : portableCalls (wireCfg l spec) ids x.calls = .ok t.mod.calls := n3
      cases hi : x.calls with
      | none =>
        rw [hi, h2] at n3
        cases n3
      | some i =>
        obtain ⟨vs, hv, -⟩ := hR.calls x hx i hi
        have := calls_variant hR n3 i vs hi hv
        rw [h2] at this
        rw [appended_some this.symm] at hc
        obtain ⟨v, hvm, rfl⟩ := List.mem_map.1 hc
        refine ⟨x, hx, n2.symm.trans h1, i, vs, hi, hv, v, hvm, h3, ?_⟩
        rw [n1]
        rfl
    · rintro ⟨x, hx, h1, i, vs, hi, hv, v, hvm, h2, rfl⟩
      obtain ⟨t, ht, hp⟩ := forall2_left h hx
      obtain ⟨n1, n2, n3, -⟩ := palletText_ok.1 hp
      have := calls_variant hR n3 i vs hi hv
      rw [appended_ne (by rintro e; rw [List.map_eq_nil_iff] at e; rw [e] at hvm; cases hvm)] at this
      refine ⟨t.mod, List.mem_map_of_mem ht, n2.trans h1, _, this, _, List.mem_map_of_mem hvm, h2, ?_⟩
      rw [n1]
      rfl
  · intro mod hm cs h2
    obtain ⟨t, ht, rfl⟩ := List.mem_map.1 hm
    obtain ⟨x, hx, hp⟩ := forall2_right h ht
    obtain ⟨n1, n2, n3, -⟩ := palletText_ok.1 hp
    have n3 : portableCalls (wireCfg l spec) ids x.calls = .ok t.mod.calls := n3
    cases hi : x.calls with
    | none =>
      rw [hi, h2] at n3
      cases n3
    | some i =>
      obtain ⟨vs, hv, hn⟩ := hR.calls x hx i hi
      have := calls_variant hR n3 i vs hi hv
      rw [h2] at this
      rw [appended_some this.symm, List.map_map]
      exact hn

/-- The same for events. -/
theorem described_events {l : List (Nat × PType)} {ps : List WPallet} {spec : Int} {ids : Nat → Option Str} {check : Bool}
    {texts : List PalletText} (hR : Regular l ps)
    (h : List.Forall₂ (fun x t => palletText check (wireCfg l spec) ids (keptPallet x) = .ok t) ps texts) (a b : UInt8) (e : EventEntry) :
    eventsV14 (texts.map PalletText.mod) (fun _ => none) (_root_.Spec.hexText [a, b]) = some e ↔
      DescribedEvent l ps ids a.toNat b.toNat e := by
  rw [C37_v14_events _ (by rw [mods_index h]; exact hR.pallets) ?_ a b e]
  · constructor
    · rintro ⟨mod, hm, h1, cs, h2, c, hc, h3, rfl⟩
      obtain ⟨t, ht, rfl⟩ := List.mem_map.1 hm
      obtain ⟨x, hx, hp⟩ := forall2_right h ht
      obtain ⟨n1, n2, -, n3, -⟩ := palletText_ok.1 hp
      have n3 : portableEvents (wireCfg l spec) ids x.event = .ok t.mod.events := n3
      cases hi : x.event with
      | none =>
        rw [hi, h2] at n3
        cases n3
      | some i =>
        obtain ⟨vs, hv, -⟩ := hR.events x hx i hi
        have := events_variant hR n3 i vs hi hv
        rw [h2] at this
        rw [appended_some this.symm] at hc
        obtain ⟨v, hvm, rfl⟩ := List.mem_map.1 hc
        refine ⟨x, hx, n2.symm.trans h1, i, vs, hi, hv, v, hvm, h3, ?_⟩
        rw [n1]
        rfl
    · rintro ⟨x, hx, h1, i, vs, hi, hv, v, hvm, h2, rfl⟩
      obtain ⟨t, ht, hp⟩ := forall2_left h hx
      obtain ⟨n1, n2, -, n3, -⟩ := palletText_ok.1 hp
      have := events_variant hR n3 i vs hi hv
      rw [appended_ne (by rintro e; rw [List.map_eq_nil_iff] at e; rw [e] at hvm; cases hvm)] at this
      refine ⟨t.mod, List.mem_map_of_mem ht, n2.trans h1, _, this, _, List.mem_map_of_mem hvm, h2, ?_⟩
      rw [n1]
      rfl
  · intro mod hm cs h2
    obtain ⟨t, ht, rfl⟩ := List.mem_map.1 hm
    obtain ⟨x, hx, hp⟩ := forall2_right h ht
    obtain ⟨n1, n2, -, n3, -⟩ := palletText_ok.1 hp
    have n3 : portableEvents (wireCfg l spec) ids x.event = .ok t.mod.events := n3
    cases hi : x.event with
    | none =>
      rw [hi, h2] at n3
      cases n3
    | some i =>
      obtain ⟨vs, hv, hn⟩ := hR.events x hx i hi
      have := events_variant hR n3 i vs hi hv
      rw [h2] at this
      rw [appended_some this.symm, List.map_map]
      exact hn

/-! ## The rest of a module -/

section
variable {l : List (Nat × PType)} {ps : List WPallet} {spec : Int} {ids : Nat → Option Str} {check : Bool}

/-- Every type has a text, and no text looks like a tuple. -/
def HaveTexts (l : List (Nat × PType)) (ids : Nat → Option Str) : Prop := ∀ i < l.length, ∃ t, ids i = some t ∧ Clean t

theorem texts_of {A : Nat → Prop} {dup : Str → Nat} {reg : RegState} {st : SiState} {fuel : Nat} (hn : l.map Prod.fst = List.range l.length)
    (hd : countNames (wireCfg l spec) 0 (wireCfg l spec).count (fun _ => 0) = .ok dup)
    (hE : EarlyOK { wireCfg l spec with dup := dup } A) (hP : PlainNames { wireCfg l spec with dup := dup })
    (h : processSiType (wireCfg l spec) fuel reg = .ok st) : HaveTexts l st.ids := by
  have hnd : (l.map Prod.fst).Nodup := by rw [hn]; exact List.nodup_range
  unfold processSiType at h
  rw [hd] at h
  have := registerTypes_text hE h (fun i t ht => by cases ht)
  intro i hi
  obtain ⟨t, ht⟩ := this.2 i (by
    show i < (portableCfg (kept l)).count
    rw [(C77_lookup l hnd).2.2]; exact hi) (by
    have hm : i ∈ l.map Prod.fst := by rw [hn]; exact List.mem_range.2 hi
    obtain ⟨p, hp, rfl⟩ := List.mem_map.1 hm
    show ((portableCfg (kept l)).types p.1).typ ≠ _
    rw [(C77_lookup l hnd).1 p hp]
    show keptDef p.2.typ ≠ _
    unfold keptDef
    split <;> simp)
  exact ⟨t, ht, text_clean hP (this.1.text i t ht)⟩

theorem tupleDisassemble_clean {t : Str} (h : Clean t) : tupleDisassemble t = .ok [t] := by
  unfold tupleDisassemble
  rw [if_neg h.ne_nil, if_neg]
  rintro ⟨h1, -⟩
  obtain ⟨c, r, rfl, h2⟩ := h.head
  cases h1
  rcases h2 with h2 | h2
  · exact absurd h2.1 (by decide)
  · exact absurd h2 (by decide)

theorem storage_text (hR : Regular l ps) (hT : HaveTexts l ids) {e : WEntry} (hk : ∀ hs k v, e.kind = .map hs k v → k < l.length) :
    ∃ y, (storageText check (wireCfg l spec) ids (keptEntry e).kind >>= fun t => Res.ok (keptEntry e, t)) = .ok y ∧
      DescribedStorage check l ids e y := by
  cases hkind : e.kind with
  | plain t =>
    refine ⟨(keptEntry e, .plain (siText ids t)), ?_, rfl, ?_⟩
    · show (storageText check (wireCfg l spec) ids (keptKind e.kind) >>= _) = _
      rw [hkind]
      rfl
    · rw [hkind]
  | map hs k v =>
    have hlt := hk hs k v hkind
    obtain ⟨kt, hkt, hcl⟩ := hT k hlt
    have hmem : k ∈ l.map Prod.fst := by rw [hR.numbered]; exact List.mem_range.2 hlt
    obtain ⟨⟨k', t⟩, hp, rfl⟩ := List.mem_map.1 hmem
    change e.kind = .map hs k' v at hkind
    change ids k' = some kt at hkt
    have hty : ((wireCfg l spec).types k').typ = keptDef t.typ := congrArg SiType.typ ((C77_lookup l hR.ids).1 _ hp)
    have hone : siText ids k' = kt := by unfold siText; rw [hkt]; rfl
    have hs' : (hs.map fun h => hasherNames[h]?.getD []).length = hs.length := List.length_map _
    have key : ∃ keys, DescribedKeys check l ids hs.length k' keys ∧ storageText check (wireCfg l spec) ids (keptKind e.kind) =
        .ok (.map (hs.map fun h => hasherNames[h]?.getD []) keys (siText ids v)) := by
      rw [hkind]
      simp only [keptKind, storageText]
      rw [hty]
      have whole : ∀ {d : Res (List Str)}, d = tupleDisassemble (siText ids k') → (d >>= fun ks => Res.ok
          (StorageText.map (hs.map fun h => hasherNames[h]?.getD []) ks (siText ids v))) =
          .ok (.map (hs.map fun h => hasherNames[h]?.getD []) [siText ids k'] (siText ids v)) := by
        intro d hd
        rw [hd, hone, tupleDisassemble_clean hcl]
        rfl
      cases htt : t.typ with
      | tuple ts =>
        cases ts with
        | nil => exact ⟨_, ⟨t, hp, .inr ⟨fun ts h1 h2 => by rw [htt] at h1; cases h1; exact absurd rfl h2, rfl⟩⟩, whole rfl⟩
        | cons a ts =>
          by_cases hc : check = true ∧ hs.length < (a :: ts).length
          · refine ⟨_, ⟨t, hp, .inr ⟨fun us h1 _ => by rw [htt] at h1; cases h1; exact hc, rfl⟩⟩, ?_⟩
            show (if check = true ∧ (hs.map fun h => hasherNames[h]?.getD []).length < (a :: ts).length then _ else _) = _
            rw [hs', if_pos hc]
          · refine ⟨_, ⟨t, hp, .inl ⟨a :: ts, htt, by simp, fun h => by
              by_contra hn; exact hc ⟨h, by omega⟩, rfl⟩⟩, ?_⟩
            show (if check = true ∧ (hs.map fun h => hasherNames[h]?.getD []).length < (a :: ts).length then _ else _) = _
            rw [hs', if_neg hc]
      | _ => exact ⟨_, ⟨t, hp, .inr ⟨(fun ts h1 h2 => by rw [htt] at h1; cases h1), rfl⟩⟩, whole rfl⟩
    obtain ⟨keys, h1, h2⟩ := key
    refine ⟨(keptEntry e, .map (hs.map fun h => hasherNames[h]?.getD []) keys (siText ids v)), ?_, rfl, ?_⟩
    · show (storageText check (wireCfg l spec) ids (keptKind e.kind) >>= _) = _
      rw [h2]
      rfl
    · rw [hkind]
      exact ⟨keys, h1, rfl⟩

theorem eachRes_exists {α β γ : Type} {f : α → Res β} {R : γ → β → Prop} {g : γ → α} : ∀ {l : List γ},
    (∀ a ∈ l, ∃ b, f (g a) = .ok b ∧ R a b) → ∃ r, eachRes f (l.map g) = .ok r ∧ List.Forall₂ R l r
  | [], _ => ⟨[], rfl, .nil⟩
  | a :: l, h => by
    obtain ⟨b, hb, hr⟩ := h a (by simp)
    obtain ⟨r, h1, h2⟩ := eachRes_exists (l := l) fun x hx => h x (by simp [hx])
    refine ⟨b :: r, ?_, .cons hr h2⟩
    show (f (g a) >>= fun b => eachRes f (l.map g) >>= fun bs => Res.ok (b :: bs)) = _
    rw [hb, h1]
    rfl

/-- Every module is turned into what the metadata describes. -/
theorem pallet_described (hR : Regular l ps) (hT : HaveTexts l ids) {x : WPallet} (hx : x ∈ ps) :
    ∃ t, palletText check (wireCfg l spec) ids (keptPallet x) = .ok t ∧ DescribedPallet check l ids x t := by
  obtain ⟨calls, hc⟩ : ∃ c, portableCalls (wireCfg l spec) ids x.calls = .ok c := by
    cases hi : x.calls with
    | none => exact ⟨_, rfl⟩
    | some i =>
      obtain ⟨vs, hv, -⟩ := hR.calls x hx i hi
      unfold portableCalls
      simp only [variant_kept hR.ids hv]
      exact ⟨_, rfl⟩
  obtain ⟨events, he⟩ : ∃ c, portableEvents (wireCfg l spec) ids x.event = .ok c := by
    cases hi : x.event with
    | none => exact ⟨_, rfl⟩
    | some i =>
      obtain ⟨vs, hv, -⟩ := hR.events x hx i hi
      unfold portableEvents
      simp only [variant_kept hR.ids hv]
      exact ⟨_, rfl⟩
  obtain ⟨errors, hr, hr1, hr2⟩ : ∃ c, portableErrors (wireCfg l spec) ids x.error = .ok c ∧
      (∀ i vs, x.error = some i → VariantType l i vs → c.Perm (vs.map (describedError ids))) ∧ (x.error = none → c = []) := by
    cases hi : x.error with
    | none => exact ⟨_, rfl, (fun i vs h => by cases h), fun _ => rfl⟩
    | some i =>
      obtain ⟨vs, hv⟩ := hR.errors x hx i hi
      unfold portableErrors
      simp only [variant_kept hR.ids hv]
      refine ⟨_, rfl, fun j ws h hw => ?_, fun h => by cases h⟩
      cases h
      rw [variant_unique hR.ids hw hv]
      have e : vs.map (describedError ids) = (vs.map keptVariant).map fun v : SiVariant => (v.name, v.fields.map fun f => (f.typeName, siText ids f.type)) := by
        rw [List.map_map]
        apply List.map_congr_left
        intro v _
        simp [describedError, keptVariant, keptField, fieldTypeName, Function.comp_def]
      rw [e]
      refine List.Perm.map _ ?_
      split
      · exact sortBy_perm _ _
      · exact .refl _
  obtain ⟨consts, hk, hk1⟩ : ∃ r, eachRes (constText ids) (x.constants.map keptConst) = .ok r ∧
      List.Forall₂ (fun c p => p = (keptConst c, siText ids c.type)) x.constants r := by
    refine eachRes_exists fun c hc => ?_
    obtain ⟨t, ht, hcl⟩ := hT _ (hR.constants x hx c hc)
    refine ⟨_, ?_, rfl⟩
    show (if siText ids c.type = [] then Res.panic else _) = _
    rw [if_neg]
    · rfl
    · unfold siText; rw [ht]; exact hcl.ne_nil
  obtain ⟨stor, hs, hs1⟩ : ∃ r, eachRes (fun s => storageText check (wireCfg l spec) ids s.kind >>= fun t => Res.ok (s, t))
      ((x.storage.getD ([], [])).2.map keptEntry) = .ok r ∧ List.Forall₂ (DescribedStorage check l ids) (x.storage.getD ([], [])).2 r := by
    refine eachRes_exists fun e he => storage_text hR hT ?_
    intro hs k v hkind
    cases hst : x.storage with
    | none => rw [hst] at he; cases he
    | some s => rw [hst] at he; exact hR.keys x hx s hst e he hs k v hkind
  have hst : (keptPallet x).storage = (x.storage.getD ([], [])).2.map keptEntry := by
    unfold keptPallet
    cases x.storage <;> rfl
  refine ⟨⟨⟨keptText x.name, x.index, calls, events⟩, errors, consts, stor⟩, palletText_ok.2 ⟨rfl, rfl, hc, he, hr, hk, ?_⟩, rfl, rfl, ?_, hr1, hr2, hs1⟩
  · rw [hst]; exact hs
  · have := forall2_map_eq (f := fun c => (keptConst c, siText ids c.type)) (g := fun p => p) (fun a b h => h.symm) hk1
    simpa using this

end

/-! ## The property -/

/-- The types of the metadata are entered successfully and under names that do not disturb each other or the library. -/
structure Understood (l : List (Nat × PType)) (spec : Int) (reg : RegState) (dup : Str → Nat) (A : Nat → Prop) (fuel : Nat) (st : SiState) : Prop where
  counted : countNames (wireCfg l spec) 0 (wireCfg l spec).count (fun _ => 0) = .ok dup
  early : EarlyOK { wireCfg l spec with dup := dup } A
  tidy : Tidy { wireCfg l spec with dup := dup } A reg.env.reg
  done : processSiType (wireCfg l spec) fuel reg = .ok st

theorem Understood.loaded {l : List (Nat × PType)} {spec : Int} {reg : RegState} {dup : Str → Nat} {A : Nat → Prop} {fuel : Nat} {st : SiState}
    (h : Understood l spec reg dup A fuel st) (hr : Ready reg) : Loaded { wireCfg l spec with dup := dup } A reg.env st := by
  have := h.done
  unfold processSiType at this
  rw [h.counted] at this
  exact process_loaded h.early this h.tidy hr.stock fun _ => hr.unseen

/-- V14 metadata: types, pallets, type and version of extrinsics and extensions, each with its encoding. -/
structure Written14 (l : List (Nat × PType)) (ps : List WPallet) (t v : Nat) (xs : List WExtension) (b : Str) : Prop where
  parts : ∃ b1 b2 b3, WRegistry l b1 ∧ WList EncPallet ps b2 ∧ EncExtrinsic14 t v xs b3 ∧ b = b1 ++ (b2 ++ b3)
  types : FRegistry l
  pallets : FList FPallet ps
  type : FId t
  version : v < 256
  extensions : FList FExtension xs

/-- The output has the described modules, tables and extensions. -/
structure DescribedOut (check : Bool) (l : List (Nat × PType)) (ps : List WPallet) (xs : List WExtension) (ids : Nat → Option Str)
    (out : V14Out) : Prop where
  pallets : List.Forall₂ (DescribedPallet check l ids) ps out.pallets
  calls : ∀ (a b : UInt8) e, out.callIndex (_root_.Spec.hexText [a, b]) = some e ↔ DescribedCall l ps ids a.toNat b.toNat e
  events : ∀ (a b : UInt8) e, out.eventIndex (_root_.Spec.hexText [a, b]) = some e ↔ DescribedEvent l ps ids a.toNat b.toNat e
  extrinsic : out.extrinsic = ⟨xs.map fun x => keptText x.identifier, xs.map fun x => (keptText x.identifier, siText ids x.type)⟩

/-- Regular V14 metadata whose types can be entered gives what it describes. -/
def C79Claim : Prop :=
  ∀ (reg : RegState) (spec : Int) (md : Option MD) (l : List (Nat × PType)) (ps : List WPallet) (t v : Nat) (xs : List WExtension) (b : Str)
    (fuel : Nat) (st : SiState), MetaReady reg → Written14 l ps t v xs b → Regular l ps → processSiType (wireCfg l spec) fuel reg = .ok st →
    ∃ out, Settles (fun n => processV14 n reg ⟨[], spec, md⟩) b out ∧ DescribedOut true l ps xs st.ids out

theorem texts_described {check : Bool} {l : List (Nat × PType)} {ps : List WPallet} {spec : Int} {reg : RegState} {dup : Str → Nat} {A : Nat → Prop}
    {fuel : Nat} {st : SiState} (h : Understood l spec reg dup A fuel st) (hR : Regular l ps) :
    ∃ texts, eachRes (palletText check (wireCfg l spec) st.ids) (ps.map keptPallet) = .ok texts ∧
      List.Forall₂ (fun x t => palletText check (wireCfg l spec) st.ids (keptPallet x) = .ok t) ps texts ∧
      List.Forall₂ (DescribedPallet check l st.ids) ps texts := by
  have hT := texts_of hR.numbered h.counted h.early h.tidy.names h.done
  obtain ⟨texts, h1, h2⟩ := eachRes_exists (f := palletText check (wireCfg l spec) st.ids) (g := keptPallet) (l := ps)
    (R := fun x t => palletText check (wireCfg l spec) st.ids (keptPallet x) = .ok t ∧ DescribedPallet check l st.ids x t) (by
      intro x hx
      obtain ⟨t, h1, h2⟩ := pallet_described (check := check) (spec := spec) hR hT hx
      exact ⟨t, h1, h1, h2⟩)
  exact ⟨texts, h1, h2.imp fun _ _ h => h.1, h2.imp fun _ _ h => h.2⟩

/-- V14 metadata whose types are entered under names of their own gives what it describes; all of it is read, and the
library afterwards has the types of the metadata and the type of the origins in addition. -/
theorem C79_partial (reg : RegState) (spec : Int) (md : Option MD) (l : List (Nat × PType)) (ps : List WPallet) (t v : Nat)
    (xs : List WExtension) (b : Str) (dup : Str → Nat) (A : Nat → Prop) (fuel : Nat) (st : SiState) (hr : MetaReady reg)
    (hw : Written14 l ps t v xs b) (hR : Regular l ps) (hU : Understood l spec reg dup A fuel st) :
    ∃ out, Settles (fun n => processV14 n reg ⟨[], spec, md⟩) b out ∧ DescribedOut true l ps xs st.ids out ∧
      out.reg = { st.reg with env := registerOriginCaller st.reg.env (ps.map fun x => (keptText x.name, x.index)) } := by
  obtain ⟨b1, b2, b3, h1, h2, h3, rfl⟩ := hw.parts
  have hL := hU.loaded hr.toReady
  obtain ⟨texts, ht, hf, hd⟩ := texts_described (check := true) hU hR
  have hp := loaded_pallets hr hL hU.tidy (ctx := ⟨[], spec, md⟩) notOverridden_nil
  have hx := loaded_extrinsic hr hL hU.tidy (ctx := ⟨[], spec, md⟩) notOverridden_nil
  have := settles_common (check := true) (ctx := ⟨[], spec, md⟩) (pallet := readPallet) (extrinsic := b!"ExtrinsicMetadataV14")
    (hr.portable spec md) h1 hw.types hU.done (C78_reads _ _ _ _ hp h2 hw.pallets) ht (settles_extrinsic14 hx _ h3 hw.type hw.version hw.extensions)
  refine ⟨metaOut texts ⟨xs.map fun x => keptText x.identifier, xs.map fun x => (keptText x.identifier, siText st.ids x.type)⟩ st (ps.map keptPallet),
    ?_, ⟨hd, described_calls hR hf, described_events hR hf, rfl⟩, ?_⟩
  · exact settles_last this (k := fun _ o => Res.ok (o.1.1, o.2)) (settles_pure _)
  · simp only [metaOut, List.map_map]
    rfl

/-! ## The claim is false: a type may take the place of a type of the library -/

/-- A struct with the path `String`. -/
def takenTypes : List (Nat × PType) :=
  [(0, ⟨[b!"String"], [], .composite [⟨some b!"a", 1, none, []⟩], []⟩), (1, ⟨[], [], .primitive 3, []⟩)]

/-- A pallet of which only the name is given. -/
def takenPallets : List WPallet := [⟨[], none, none, none, [], none, 0⟩]

def takenBytes : Str := [8, 0, 4, 24, 83, 116, 114, 105, 110, 103, 0, 0, 4, 1, 4, 97, 4, 0, 0, 0, 4, 0, 0, 5, 3, 0, 4, 0, 0, 0, 0, 0, 0, 0, 0, 4, 0]

/-- The library at the start, with a reader for JSON rows. -/
def startReg : RegState := ⟨loadedEnv { dummyExt with rows := readRows }, fun _ => none⟩

theorem start_tuples (s : Str) : startReg.env.reg (b!"tuple:" ++ s) = none := by
  simp only [startReg, loadedEnv, loaded_tuples]

theorem start_ready : MetaReady startReg := loaded_metaReady _ (readsRows dummyExt)

theorem startReg_fast : startReg = ⟨⟨fastReg, fun _ => [], { dummyExt with rows := readRows }⟩, fun _ => none⟩ := by
  unfold startReg loadedEnv
  rw [loadedReg_fast]

theorem taken_written : WRegistry takenTypes (takenBytes.take 26) := by
  refine ⟨[8], takenBytes.drop 1 |>.take 25, .inl ⟨by decide, by decide⟩, ⟨takenBytes.drop 1 |>.take 19, [4, 0, 0, 5, 3, 0],
    ⟨[0], takenBytes.drop 2 |>.take 18, .inl ⟨by decide, by decide⟩, ⟨[4, 24, 83, 116, 114, 105, 110, 103], [0], [0, 4, 1, 4, 97, 4, 0, 0], [0],
      ⟨[4], [24, 83, 116, 114, 105, 110, 103], .inl ⟨by decide, by decide⟩, ⟨_, [], ⟨[24], .inl ⟨by decide, by decide⟩, rfl⟩, rfl, by decide⟩, rfl⟩,
      ⟨[0], [], .inl ⟨by decide, by decide⟩, rfl, rfl⟩,
      ⟨[4, 1, 4, 97, 4, 0, 0], ⟨[4], [1, 4, 97, 4, 0, 0], .inl ⟨by decide, by decide⟩, ⟨_, [], ⟨[1, 4, 97], [4], [0], [0],
        ⟨[4, 97], ⟨[4], .inl ⟨by decide, by decide⟩, rfl⟩, rfl⟩, .inl ⟨by decide, by decide⟩, rfl,
        ⟨[0], [], .inl ⟨by decide, by decide⟩, rfl, rfl⟩, rfl⟩, rfl, by decide⟩, rfl⟩, rfl⟩,
      ⟨[0], [], .inl ⟨by decide, by decide⟩, rfl, rfl⟩, by decide⟩, by decide⟩,
    ⟨_, [], ⟨[4], [0, 0, 5, 3, 0], .inl ⟨by decide, by decide⟩, ⟨[0], [0], [5, 3], [0], ⟨[0], [], .inl ⟨by decide, by decide⟩, rfl, rfl⟩,
      ⟨[0], [], .inl ⟨by decide, by decide⟩, rfl, rfl⟩, rfl, ⟨[0], [], .inl ⟨by decide, by decide⟩, rfl, rfl⟩, rfl⟩, rfl⟩,
      rfl, rfl⟩, by decide⟩, by decide⟩

theorem taken_written' : WList EncPallet takenPallets (takenBytes.drop 26 |>.take 8) := by
  refine ⟨[4], _, .inl ⟨by decide, by decide⟩, ⟨_, [], ⟨[0], [0], [0], [0], [0], [0], ⟨[0], .inl ⟨by decide, by decide⟩, rfl⟩, rfl, rfl, rfl,
    ⟨[0], [], .inl ⟨by decide, by decide⟩, rfl, rfl⟩, rfl, rfl⟩, rfl, rfl⟩, by decide⟩

theorem taken_metadata : Written14 takenTypes takenPallets 0 4 [] takenBytes where
  parts := ⟨_, _, [0, 4, 0], taken_written, taken_written', ⟨[0], [0], .inl ⟨by decide, by decide⟩, ⟨[0], [], .inl ⟨by decide, by decide⟩, rfl, rfl⟩,
    by decide⟩, by decide⟩
  types := by simp [FRegistry, takenTypes, FList, FId, FText, _root_.Spec.FType, _root_.Spec.FDef, _root_.Spec.FField]
  pallets := by simp [takenPallets, FPallet, FList, FText]
  type := by simp [FId]
  version := by decide
  extensions := by simp [FList]

theorem taken_regular : Regular takenTypes takenPallets where
  numbered := rfl
  pallets := by decide
  calls := by simp [takenPallets]
  events := by simp [takenPallets]
  errors := by simp [takenPallets]
  constants := by simp [takenPallets]
  keys := by simp [takenPallets]

theorem taken_done : ∃ st, processSiType (wireCfg takenTypes 0) 5 startReg = .ok st := by
  rw [startReg_fast]
  exact ⟨_, rfl⟩

theorem taken_panics (n : Nat) : processV14 (n + 40) startReg ⟨[], 0, none⟩ ⟨⟨takenBytes, 0⟩, []⟩ = .panic := by
  rw [startReg_fast]
  kernel_rfl

/-- Metadata with a struct of the path `String` makes its own pallets unreadable. -/
theorem C79_claim_false : ¬ C79Claim := by
  intro h
  obtain ⟨st, hs⟩ := taken_done
  obtain ⟨out, ⟨N, hN⟩, -⟩ := h startReg 0 none _ _ _ _ _ _ _ _ start_ready taken_metadata taken_regular hs
  have := hN (N + 40) (by omega) [] [] [] (by decide)
  simp only [List.nil_append, List.append_nil] at this
  rw [show ([] : Str).length = 0 from rfl, taken_panics N] at this
  cases this

/-! ## The hypotheses are met -/

/-- The types of `demoCfg` as they are written. -/
def demoTypes : List (Nat × PType) :=
  [(0, ⟨[b!"a", b!"S"], [], .composite [⟨some b!"n", 1, none, []⟩, ⟨some b!"kids", 2, none, []⟩], []⟩),
    (1, ⟨[b!"a", b!"P"], [], .composite [⟨none, 3, none, []⟩], []⟩), (2, ⟨[], [], .sequence 0, []⟩), (3, ⟨[], [], .primitive 4, []⟩),
    (4, ⟨[b!"a", b!"E"], [], .variant [⟨b!"A", [], 2, []⟩, ⟨b!"B", [⟨none, 0, none, []⟩], 0, []⟩,
      ⟨b!"C", [⟨some b!"x", 3, none, []⟩, ⟨some b!"y", 5, none, []⟩], 7, []⟩], []⟩),
    (5, ⟨[b!"Option"], [⟨b!"T", some 6⟩], .variant [⟨b!"None", [], 0, []⟩, ⟨b!"Some", [⟨none, 6, none, []⟩], 1, []⟩], []⟩),
    (6, ⟨[], [], .sequence 7, []⟩), (7, ⟨[], [], .primitive 3, []⟩)]

/-- Two pallets; the variants of `a::E` are the calls of one and the events of the other. -/
def demoPallets : List WPallet :=
  [⟨b!"Left", some (b!"L", [⟨b!"Total", 1, .plain 3, [0, 0], []⟩, ⟨b!"Of", 0, .map [5] 0 3, [], []⟩]), some 4, none,
      [⟨b!"Max", 3, [1, 0], []⟩], some 4, 5⟩,
    ⟨b!"Right", none, none, some 4, [], none, 9⟩]

theorem demo_wire : wireCfg demoTypes 0 = demoCfg := by
  have h : ∀ i, (wireCfg demoTypes 0).types i = demoCfg.types i := by
    refine demo_cases ?_ ?_ ?_ ?_ ?_ ?_ ?_ ?_ (fun k => ?_)
    iterate 8 exact (by decide +kernel)
    show portableType (kept demoTypes) (k + 8) = {}
    unfold portableType
    rw [List.find?_eq_none.2]
    intro p hp
    have : p.1 ∈ List.range 8 := by
      have : p.1 ∈ (kept demoTypes).map Prod.fst := List.mem_map.2 ⟨p, List.mem_reverse.1 hp, rfl⟩
      exact (by decide +kernel : (kept demoTypes).map Prod.fst = List.range 8) ▸ this
    have := List.mem_range.1 this
    simp only [beq_iff_eq]
    omega
  have hc : (wireCfg demoTypes 0).count = demoCfg.count := by decide +kernel
  show SiCfg.mk (wireCfg demoTypes 0).types (wireCfg demoTypes 0).count _ _ _ _ _ = SiCfg.mk demoCfg.types demoCfg.count _ _ _ _ _
  rw [funext h, hc]
  rfl

theorem demo_tidy' : Tidy demo demoEarly startReg.env.reg := by
  refine ⟨demo_tidy.names, demo_tidy.unversioned, demo_tidy.apart, ?_, demo_tidy.tuples,
    fun i ks ts h => by have := demo_typ i; rw [h] at this; simp at this, demo_tidy.closed⟩
  intro i n h hne
  have hi := (demo_names i n h).resolve_left hne
  rw [startReg_fast]
  exact (by decide +kernel : ∀ p ∈ [(0, b!"a:S"), (1, b!"a:P"), (4, b!"a:E")], fastReg (toLower p.2) = none) _ hi

theorem demo_done : ∃ st, processSiType demoCfg 5 startReg = .ok st ∧ st.ids 3 = some b!"U16" ∧ st.ids 0 = some b!"a:S" ∧
    st.ids 5 = some b!"option<Vec<U8>>" := by
  rw [startReg_fast]
  exact ⟨_, rfl, rfl, rfl, rfl⟩

theorem demo_understood {st : SiState} (h : processSiType demoCfg 5 startReg = .ok st) :
    Understood demoTypes 0 startReg demoDup demoEarly 5 st := by
  constructor
  · rw [demo_wire]; exact demo_counted
  · rw [demo_wire]; exact demo_early
  · rw [demo_wire]; exact demo_tidy'
  · rw [demo_wire]; exact h

theorem demo_regular : Regular demoTypes demoPallets := by
  have hv : ∃ vs, VariantType demoTypes 4 vs ∧ (vs.map (·.index)).Nodup :=
    ⟨_, ⟨⟨[b!"a", b!"E"], [], _, []⟩, by simp [demoTypes]; rfl, rfl⟩, by decide⟩
  refine ⟨rfl, by decide, ?_, ?_, ?_, ?_, ?_⟩
  · simpa [demoPallets] using hv
  · simpa [demoPallets] using hv
  · obtain ⟨vs, h, -⟩ := hv
    simpa [demoPallets] using ⟨vs, h⟩
  · simp [demoPallets, demoTypes]
  · simp [demoPallets, demoTypes]

theorem demo_written : ∃ b, Written14 demoTypes demoPallets 4 4 [⟨b!"CheckNonce", 3, 0⟩] b := by
  have f1 : FRegistry demoTypes := by
    simp [demoTypes, FRegistry, FList, FId, _root_.Spec.FType, _root_.Spec.FDef, FText, _root_.Spec.FVariant, _root_.Spec.FField]
  have f2 : FList FPallet demoPallets := by
    simp [demoPallets, FList, FPallet, FText, _root_.Spec.FEntry, _root_.Spec.FKind, _root_.Spec.FConst, FId]
  obtain ⟨b1, h1⟩ := C77_written _ f1
  obtain ⟨b2, h2⟩ := C78_written _ f2
  refine ⟨_, ⟨b1, b2, [16, 4] ++ ([4] ++ ([40] ++ b!"CheckNonce" ++ [12] ++ [0])), h1, h2, ⟨[16], _, .inl ⟨by decide, by decide⟩, ⟨[4], _, .inl ⟨by decide, by decide⟩,
    ⟨_, [], ⟨_, [12], [0], ⟨[40], .inl ⟨by decide, by decide⟩, rfl⟩, .inl ⟨by decide, by decide⟩, .inl ⟨by decide, by decide⟩, rfl⟩, rfl, rfl⟩, rfl⟩,
    by decide⟩, rfl⟩, f1, f2, by simp [FId], by decide, by simp [FList, _root_.Spec.FExtension, FText, FId]⟩

/-- Metadata with two pallets: call 7 of the pallet 5 and event 0 of the pallet 9 are entered, and nothing at call 3. -/
example : ∃ b out, Settles (fun n => processV14 n startReg ⟨[], 0, none⟩) b out ∧
    out.callIndex (_root_.Spec.hexText [5, 7]) = some ⟨b!"C", b!"Left", [(b!"x", b!"U16"), (b!"y", b!"option<Vec<U8>>")]⟩ ∧
    out.eventIndex (_root_.Spec.hexText [9, 0]) = some ⟨b!"B", b!"Right", [b!"a:S"], [[]], [[]]⟩ ∧
    out.callIndex (_root_.Spec.hexText [5, 3]) = none ∧ out.extrinsic.signedExtensions = [(b!"CheckNonce", b!"U16")] := by
  obtain ⟨st, hs, h3, h0, h5⟩ := demo_done
  obtain ⟨b, hb⟩ := demo_written
  obtain ⟨out, h1, h2, -⟩ := C79_partial startReg 0 none _ _ _ _ _ b _ _ 5 st start_ready hb demo_regular (demo_understood hs)
  have t3 : siText st.ids 3 = b!"U16" := by unfold siText; rw [h3]; rfl
  have t0 : siText st.ids 0 = b!"a:S" := by unfold siText; rw [h0]; rfl
  have t5 : siText st.ids 5 = b!"option<Vec<U8>>" := by unfold siText; rw [h5]; rfl
  have hv : VariantType demoTypes 4 [⟨b!"A", [], 2, []⟩, ⟨b!"B", [⟨none, 0, none, []⟩], 0, []⟩,
      ⟨b!"C", [⟨some b!"x", 3, none, []⟩, ⟨some b!"y", 5, none, []⟩], 7, []⟩] := ⟨_, by simp [demoTypes]; rfl, rfl⟩
  refine ⟨b, out, h1, (h2.calls 5 7 _).2 ⟨_, List.mem_cons_self, rfl, 4, _, rfl, hv, ⟨b!"C", _, 7, []⟩, by simp; rfl, rfl, ?_⟩,
    (h2.events 9 0 _).2 ⟨_, List.mem_cons_of_mem _ List.mem_cons_self, rfl, 4, _, rfl, hv, ⟨b!"B", _, 0, []⟩, by simp; rfl, rfl, ?_⟩, ?_, ?_⟩
  · simp [fieldName, t3, t5]
    decide +kernel
  · simp [fieldName, fieldTypeName, t0]
    decide +kernel
  · cases he : out.callIndex (_root_.Spec.hexText [5, 3]) with
    | none => rfl
    | some e =>
      obtain ⟨x, hx, hi, i, vs, hc, hvs, v, hm, hj, -⟩ := (h2.calls 5 3 e).1 he
      simp only [demoPallets, List.mem_cons, List.not_mem_nil, or_false] at hx
      rcases hx with rfl | rfl
      · cases hc
        rw [variant_unique demo_regular.ids hvs hv] at hm
        simp only [List.mem_cons, List.not_mem_nil, or_false] at hm
        rcases hm with rfl | rfl | rfl <;> cases hj
      · cases hc
  · rw [h2.extrinsic]
    simp [t3]
    decide +kernel

end ScaleGo
