import Verif.Props.C79
import Verif.Props.C80
import Verif.Props.C122
import Verif.Props.C123

/-! # C124: reading metadata ends -/

namespace ScaleGo

open ScaleGo.Spec (AbsentAsks DataAsks Halts MayAsk MadeFrom)
open _root_.Spec (WRegistry FRegistry PType FList FId)

/-! ## Steps that end from everywhere -/

/-- With enough budget the step has a result from every position in the data, and stays in them. -/
def EndsIn {α : Type} (f : Nat → Dec α) : Prop := ∀ st, InB st → Ends f st ∧ ∀ n a s, f n st = .ok (a, s) → InB s

theorem EndsIn.ok {α : Type} (a : α) : EndsIn (fun _ st => .ok (a, st)) := fun st hin => ⟨.ok, fun n a s h => by cases h; exact hin⟩

theorem EndsIn.panic {α : Type} : EndsIn (fun _ _ => (.panic : Res (α × St))) := fun st hin => ⟨.panic, fun n a s h => by cases h⟩

theorem EndsIn.bind {α β : Type} {f : Nat → Dec α} {k : Nat → α × St → Res (β × St)} (hf : EndsIn f) (hk : ∀ a, EndsIn (fun n s => k n (a, s))) :
    EndsIn (fun n s => f n s >>= k n) := by
  intro st hin
  refine ⟨Ends.bind (hf st hin).1 fun n a s h => (hk a s ((hf st hin).2 n a s h)).1, fun n b s h => ?_⟩
  dsimp only at h
  rw [Res.bind_eq_ok] at h
  obtain ⟨⟨a, s1⟩, h1, h2⟩ := h
  exact (hk a s1 ((hf st hin).2 n a s1 h1)).2 n b s h2

theorem EndsIn.res {α β : Type} {r : Res α} {k : Nat → α → St → Res (β × St)} (hr : r ≠ .diverge) (hk : ∀ a, EndsIn (fun n s => k n a s)) :
    EndsIn (fun n s => r >>= fun a => k n a s) := by
  intro st hin
  refine ⟨Ends.res hr fun a _ => (hk a st hin).1, fun n b s h => ?_⟩
  dsimp only at h
  rw [Res.bind_eq_ok] at h
  obtain ⟨a, _, h2⟩ := h
  exact (hk a st hin).2 n b s h2

theorem endsIn_pau {env : Env} {ctx : Ctx} {u : Str} (h : EndsAll env ctx u) : EndsIn (fun n => pau env n ctx u) :=
  fun st hin => ⟨h st hin, fun n _ _ e => (pau_post env n _ _ _ hin _ _ e).inB⟩

theorem endsIn_many {α : Type} {f : Nat → Dec α} (h : EndsIn f) : ∀ k : Nat, EndsIn (fun n => readMany (f n) k)
  | 0 => .ok _
  | k + 1 => by
    have ih := endsIn_many h k
    simp only [readMany]
    refine .bind h fun a => ?_
    dsimp only
    refine .bind ih fun l => ?_
    exact .ok (a :: l)

section
variable {env : Env} {ctx : Ctx}

theorem endsIn_vec {α : Type} {f : Nat → Dec α} (hl : EndsAll env ctx b!"Compact<u32>") (h : EndsIn f) : EndsIn (fun n => readVec (pau env n) ctx (f n)) := by
  unfold readVec
  refine .bind (endsIn_pau hl) fun v => .res (k := fun n i s => if i > 524288 then .panic else readMany (f n) i.toNat s) (asInt_ne _) fun i => ?_
  by_cases hi : i > 524288
  · simp only [if_pos hi]
    exact .panic
  · simp only [if_neg hi]
    exact endsIn_many h _

theorem endsIn_text {t : Str} (h : EndsAll env ctx t) : EndsIn (fun n => readText (pau env n) ctx t) := by
  unfold readText
  exact .bind (endsIn_pau h) fun v => .res (k := fun _ i s => .ok (i, s)) (goStr_ne _) fun i => .ok _

theorem endsIn_int {t : Str} (h : EndsAll env ctx t) : EndsIn (fun n => readInt (pau env n) ctx t) := by
  unfold readInt
  exact .bind (endsIn_pau h) fun v => .res (k := fun _ i s => .ok (i.toNat, s)) (asInt_ne _) fun i => .ok _

theorem endsIn_bool (h : EndsAll env ctx b!"bool") : EndsIn (fun n => readBool (pau env n) ctx) := by
  unfold readBool
  refine .bind (endsIn_pau h) fun v => ?_
  cases v <;> first | exact .ok _ | exact .panic

theorem jsonEach_ne {α : Type} {f : Val → Res α} (h : ∀ v, f v ≠ .diverge) : ∀ l : List Val, jsonEach f l ≠ .diverge
  | [] => by simp [jsonEach]
  | v :: l => by
    rw [jsonEach]
    exact bind_ne_diverge (h v) fun _ => bind_ne_diverge (jsonEach_ne h l) fun _ => by simp

theorem goStrs_ne (v : Val) : goStrs v ≠ .diverge := by
  unfold goStrs
  split
  · simp
  · exact jsonEach_ne goStr_ne _
  · simp

theorem jsonList_ne {α : Type} {f : Val → Res α} (h : ∀ v, f v ≠ .diverge) (v : Val) : jsonList f v ≠ .diverge := by
  unfold jsonList
  split <;> first | exact jsonEach_ne h _ | simp

theorem jsonInt_ne (v : Val) : jsonInt v ≠ .diverge := by unfold jsonInt; split <;> simp

theorem jsonText_ne (v : Val) : jsonText v ≠ .diverge := by unfold jsonText; split <;> simp

theorem jsonObject_ne (v : Val) : jsonObject v ≠ .diverge := by unfold jsonObject; split <;> simp

theorem endsIn_strs {t : Str} (h : EndsAll env ctx t) : EndsIn (fun n => readStrs (pau env n) ctx t) := by
  unfold readStrs
  exact .bind (endsIn_pau h) fun v => .res (k := fun _ i s => .ok (i, s)) (goStrs_ne _) fun i => .ok _

theorem endsIn_lookUp {t : Str} (h : EndsAll env ctx t) : EndsIn (fun n => readLookUp (pau env n) ctx t) := by
  unfold readLookUp
  refine .bind (endsIn_pau h) fun v => ?_
  cases v <;> first | exact .panic | skip
  exact .res (k := fun _ i s => .ok (i, s)) (jsonInt_ne _) fun i => .ok _

theorem endsIn_if {α : Type} {f : Nat → Dec α} (hb : EndsAll env ctx b!"bool") (h : EndsIn f) : EndsIn (fun n => readIf (pau env n) ctx (f n)) := by
  unfold readIf
  refine .bind (endsIn_bool hb) fun b => ?_
  cases b
  · exact .ok _
  · exact .bind h fun a => .ok _

/-- The texts that the parts of a pallet are read by. -/
def palletTexts : List Str := [b!"Compact<u32>", b!"String", b!"HexBytes", b!"bool", b!"U8", b!"SiLookupTypeId", b!"Vec<String>", b!"Vec<StorageHasher>",
  b!"StorageModify", b!"StorageFunctionTypeV14", b!"PalletCallMetadataV14", b!"PalletEventMetadataV14", b!"PalletErrorMetadataV14"]

theorem endsIn_kind (h : ∀ u ∈ palletTexts, EndsAll env ctx u) : EndsIn (fun n => readStorageKind (pau env n) ctx) := by
  unfold readStorageKind
  refine .bind (endsIn_text (h _ (by decide))) fun kind => ?_
  by_cases h1 : kind = b!"PlainType"
  · simp only [if_pos h1]
    exact .bind (endsIn_int (h b!"SiLookupTypeId" (by decide))) fun t => EndsIn.ok (StorageKind.plain t)
  · by_cases h2 : kind = b!"Map"
    · simp only [if_neg h1, if_pos h2]
      refine .bind (endsIn_strs (h b!"Vec<StorageHasher>" (by decide))) fun l => ?_
      dsimp only
      refine .bind (endsIn_int (h b!"SiLookupTypeId" (by decide))) fun k => ?_
      dsimp only
      exact .bind (endsIn_int (h b!"SiLookupTypeId" (by decide))) fun v => EndsIn.ok (StorageKind.map l k v)
    · simp only [if_neg h1, if_neg h2]
      exact .ok _

theorem endsIn_entry (h : ∀ u ∈ palletTexts, EndsAll env ctx u) : EndsIn (fun n => readStorageEntry (pau env n) ctx) := by
  unfold readStorageEntry
  exact .bind (endsIn_text (h _ (by decide))) fun _ => .bind (endsIn_text (h _ (by decide))) fun _ => .bind (endsIn_kind h) fun _ =>
    .bind (endsIn_text (h _ (by decide))) fun _ => .bind (endsIn_strs (h _ (by decide))) fun _ => .ok _

theorem endsIn_storage (h : ∀ u ∈ palletTexts, EndsAll env ctx u) : EndsIn (fun n => readStorage (pau env n) ctx) := by
  unfold readStorage
  exact .bind (endsIn_text (h _ (by decide))) fun _ => .bind (endsIn_vec (h _ (by decide)) (endsIn_entry h)) fun _ => .ok _

theorem endsIn_constant (h : ∀ u ∈ palletTexts, EndsAll env ctx u) : EndsIn (fun n => readConstant (pau env n) ctx) := by
  unfold readConstant
  exact .bind (endsIn_text (h _ (by decide))) fun _ => .bind (endsIn_int (h _ (by decide))) fun _ => .bind (endsIn_text (h _ (by decide))) fun _ =>
    .bind (endsIn_strs (h _ (by decide))) fun _ => .ok _

theorem endsIn_pallet (h : ∀ u ∈ palletTexts, EndsAll env ctx u) : EndsIn (fun n => readPallet (pau env n) ctx) := by
  have hb := h b!"bool" (by decide)
  unfold readPallet
  exact .bind (endsIn_text (h _ (by decide))) fun _ => .bind (endsIn_if hb (endsIn_storage h)) fun _ =>
    .bind (endsIn_if hb (endsIn_lookUp (h _ (by decide)))) fun _ => .bind (endsIn_if hb (endsIn_lookUp (h _ (by decide)))) fun _ =>
    .bind (endsIn_vec (h _ (by decide)) (endsIn_constant h)) fun _ => .bind (endsIn_if hb (endsIn_lookUp (h _ (by decide)))) fun _ =>
    .bind (endsIn_int (h _ (by decide))) fun _ => .ok _

theorem endsIn_pallet15 (h : ∀ u ∈ palletTexts, EndsAll env ctx u) (ht : EndsAll env ctx b!"Vec<Text>") : EndsIn (fun n => readPallet15 (pau env n) ctx) := by
  unfold readPallet15
  exact .bind (endsIn_pallet h) fun _ => .bind (endsIn_strs ht) fun _ => .ok _

theorem readExtension_ne (v : Val) : readExtension v ≠ .diverge := by
  unfold readExtension
  exact bind_ne_diverge (jsonObject_ne _) fun _ => bind_ne_diverge (jsonText_ne _) fun _ => bind_ne_diverge (jsonInt_ne _) fun _ =>
    bind_ne_diverge (jsonInt_ne _) fun _ => by simp

theorem endsIn_extrinsic {t : Str} {ids : Nat → Option Str} (h : EndsAll env ctx t) : EndsIn (fun n => readExtrinsicMeta (pau env n) ctx t ids) := by
  unfold readExtrinsicMeta
  refine .bind (endsIn_pau h) fun v => ?_
  cases v <;> first | exact .panic | skip
  exact .res (k := fun _ exts s => .ok (_, s)) (jsonList_ne readExtension_ne _) fun i => .ok _

end

/-! ## What is made of the parts -/

theorem readParam_ne (v : Val) : readParam v ≠ .diverge := by
  unfold readParam
  exact bind_ne_diverge (jsonObject_ne _) fun _ => bind_ne_diverge (jsonText_ne _) fun _ => bind_ne_diverge (jsonInt_ne _) fun _ => by simp

theorem readField_ne (v : Val) : readField v ≠ .diverge := by
  unfold readField
  exact bind_ne_diverge (jsonObject_ne _) fun _ => bind_ne_diverge (jsonText_ne _) fun _ => bind_ne_diverge (jsonInt_ne _) fun _ =>
    bind_ne_diverge (jsonText_ne _) fun _ => bind_ne_diverge (jsonList_ne jsonText_ne _) fun _ => by simp

theorem readVariant_ne (v : Val) : readVariant v ≠ .diverge := by
  unfold readVariant
  exact bind_ne_diverge (jsonObject_ne _) fun _ => bind_ne_diverge (jsonText_ne _) fun _ => bind_ne_diverge (jsonList_ne readField_ne _) fun _ =>
    bind_ne_diverge (jsonInt_ne _) fun _ => bind_ne_diverge (jsonList_ne jsonText_ne _) fun _ => by simp

theorem readKind_ne (k : Str) (v : Val) : readKind k v ≠ .diverge := by
  have ite : ∀ {c : Prop} [Decidable c] {a b : Res SiDef}, a ≠ .diverge → b ≠ .diverge → (if c then a else b) ≠ .diverge := by
    intro c _ a b ha hb
    split
    · exact ha
    · exact hb
  unfold readKind
  repeat' refine ite ?_ ?_
  all_goals repeat' first
    | exact jsonObject_ne _
    | exact jsonInt_ne _
    | exact jsonText_ne _
    | exact jsonList_ne readField_ne _
    | exact jsonList_ne readVariant_ne _
    | exact jsonList_ne jsonInt_ne _
    | (refine bind_ne_diverge ?_ fun _ => ?_)
    | simp

theorem initPortable_ne (v : Val) : initPortable v ≠ .diverge := by
  refine jsonList_ne (fun v => ?_) v
  unfold readPortable
  refine bind_ne_diverge (jsonObject_ne _) fun _ => bind_ne_diverge (jsonInt_ne _) fun _ => bind_ne_diverge ?_ fun _ => by simp
  unfold readType
  refine bind_ne_diverge (jsonObject_ne _) fun _ => bind_ne_diverge (jsonList_ne jsonText_ne _) fun _ => bind_ne_diverge (jsonList_ne readParam_ne _) fun _ =>
    bind_ne_diverge ?_ fun _ => bind_ne_diverge (jsonList_ne jsonText_ne _) fun _ => by simp
  unfold readDef
  refine bind_ne_diverge (jsonObject_ne _) fun m => ?_
  split
  · split
    · simp
    · exact readKind_ne _ _
  · simp

theorem eachRes_ne {α β : Type} {f : α → Res β} (h : ∀ a, f a ≠ .diverge) : ∀ l : List α, eachRes f l ≠ .diverge
  | [] => by simp [eachRes]
  | a :: l => by
    rw [eachRes]
    exact bind_ne_diverge (h a) fun _ => bind_ne_diverge (eachRes_ne h l) fun _ => by simp

theorem palletText_ne (check : Bool) (cfg : SiCfg) (ids : Nat → Option Str) (p : Pallet) : palletText check cfg ids p ≠ .diverge := by
  unfold palletText
  refine bind_ne_diverge ?_ fun _ => bind_ne_diverge ?_ fun _ => bind_ne_diverge ?_ fun _ => bind_ne_diverge (eachRes_ne (fun c => ?_) _) fun _ =>
    bind_ne_diverge (eachRes_ne (fun c => bind_ne_diverge ?_ fun _ => by simp) _) fun _ => by simp
  · unfold portableCalls
    repeat' split
    all_goals simp
  · unfold portableEvents
    repeat' split
    all_goals simp
  · unfold portableErrors
    repeat' split
    all_goals simp
  · unfold constText
    split <;> simp
  · unfold storageText
    repeat' split
    all_goals first | (simp; done) | skip
    refine bind_ne_diverge ?_ fun _ => by simp
    unfold tupleDisassemble
    repeat' split
    all_goals simp

/-! ## The whole -/

theorem Ends.resN {α β : Type} {r : Nat → Res α} {k : Nat → α → St → Res (β × St)} {st : St} (hr : ∃ N, ∀ n, N ≤ n → r n = r N) (hd : ∃ N, ∀ n, N ≤ n → r n ≠ .diverge)
    (hk : ∀ n a, r n = .ok a → Ends (fun n s => k n a s) st) : Ends (fun n s => r n >>= fun a => k n a s) st := by
  obtain ⟨N, hN⟩ := hr
  obtain ⟨M, hM⟩ := hd
  have h0 : ∀ n, max N M ≤ n → r n = r (max N M) := fun n hn => by rw [hN n (by omega), hN (max N M) (by omega)]
  cases hx : r (max N M) with
  | diverge => exact absurd hx (hM _ (by omega))
  | panic => exact ⟨max N M, .panic, by simp, fun n hn => by dsimp only; rw [h0 n hn, hx]; rfl⟩
  | ok a =>
    obtain ⟨K, r', h1, h2⟩ := hk _ a hx
    exact ⟨max (max N M) K, r', h1, fun n hn => by dsimp only; rw [h0 n (by omega), hx]; exact h2 n (by omega)⟩

theorem stable_of_mono {α : Type} {r : Nat → Res α} (hm : ∀ {n m}, n ≤ m → Le (r n) (r m)) (hd : ∃ N, ∀ n, N ≤ n → r n ≠ .diverge) :
    ∃ N, ∀ n, N ≤ n → r n = r N := by
  obtain ⟨N, hN⟩ := hd
  refine ⟨N, fun n hn => ?_⟩
  rcases hm hn with h | h
  · exact absurd h (hN N (Nat.le_refl _))
  · exact h.symm

theorem ends_common {check : Bool} {pallet : Rec → Ctx → Dec Pallet} {extrinsic : Str} {reg : RegState} {ctx : Ctx} {st : St} (hin : InB st)
    (h1 : EndsAt reg.env ctx b!"PortableRegistry" st)
    (hc : ∀ n raw s l, pau reg.env n ctx b!"PortableRegistry" st = .ok (raw, s) → initPortable raw = .ok l →
      (∃ N, ∀ n, N ≤ n → processSiType { portableCfg l with spec := ctx.spec } n reg ≠ .diverge) ∧
      ∀ m si, processSiType { portableCfg l with spec := ctx.spec } m reg = .ok si → EndsAll si.reg.env ctx b!"Compact<u32>" ∧
        EndsIn (fun n => pallet (pau si.reg.env n) ctx) ∧ EndsAll si.reg.env ctx extrinsic) :
    Ends (fun n => processCommon check pallet extrinsic n reg ctx) st ∧
      ∀ n o s, processCommon check pallet extrinsic n reg ctx st = .ok (o, s) → InB s := by
  unfold processCommon
  refine ⟨?_, fun n o s h => ?_⟩
  rotate_left
  · obtain ⟨⟨raw, s1⟩, h1, h⟩ := Res.bind_eq_ok.mp h
    obtain ⟨l, h2, h⟩ := Res.bind_eq_ok.mp h
    obtain ⟨si, h3, h⟩ := Res.bind_eq_ok.mp h
    obtain ⟨⟨ps, s2⟩, h4, h⟩ := Res.bind_eq_ok.mp h
    obtain ⟨texts, h5, h⟩ := Res.bind_eq_ok.mp h
    obtain ⟨⟨e, s3⟩, h6, h⟩ := Res.bind_eq_ok.mp h
    obtain ⟨k1, k2, k3⟩ := (hc n raw s1 l h1 h2).2 n si h3
    have i1 := (pau_post reg.env n _ _ _ hin _ _ h1).inB
    have i2 := (endsIn_vec k1 k2 s1 i1).2 n ps s2 h4
    have i3 := (endsIn_extrinsic k3 s2 i2).2 n e s3 h6
    cases h
    exact i3
  refine Ends.bind (f := fun n => pau reg.env n ctx b!"PortableRegistry") h1 fun n raw s hraw => ?_
  have hs : InB s := (pau_post reg.env n _ _ _ hin _ _ hraw).inB
  dsimp only
  refine Ends.res (k := fun n l s => _) (initPortable_ne raw) fun l hl => ?_
  obtain ⟨hd, hk⟩ := hc n raw s l hraw hl
  refine Ends.resN (r := fun n => processSiType { portableCfg l with spec := ctx.spec } n reg) (k := fun n si s => _)
    (stable_of_mono (fun h => processSiType_mono _ _ h) hd) hd fun m si hsi => ?_
  obtain ⟨k1, k2, k3⟩ := hk m si hsi
  refine (EndsIn.bind (endsIn_vec k1 k2) (fun ps => ?_) s hs).1
  dsimp only
  refine EndsIn.res (k := fun n texts s => _) (eachRes_ne (palletText_ne _ _ _) ps) fun texts => ?_
  refine EndsIn.bind (endsIn_extrinsic k3) fun e => ?_
  dsimp only
  exact EndsIn.ok _

/-! ## The texts of the library -/

section
variable {env : Env} {ctx : Ctx}

theorem all_class {t s : Str} {cls : Cls} (hL : LenOK env ctx) (hu : ∃ s, Resolves env [] 0 b!"U32" .u32 s) (hr : Resolves env ctx.module ctx.spec t cls s)
    (h : ∀ c u, DataAsks env ctx cls s c u → EndsAll env c u) : EndsAll env ctx t :=
  fun _ hin => ends_resolves hr (process_ends hL hu hin (fun c u st' ha hin' _ => h c u (absent_data ha) st' hin') fun c u st' ha hin' _ => h c u ha st' hin')

theorem pallets_end (h : ReadsPallets env ctx) (hu : ∃ s, Resolves env [] 0 b!"U32" .u32 s) : ∀ u ∈ palletTexts, EndsAll env ctx u := by
  have leaf : ∀ {t s : Str} {cls : Cls}, Resolves env ctx.module ctx.spec t cls s → (∀ c u, ¬ DataAsks env ctx cls s c u) → EndsAll env ctx t :=
    fun hr hn => all_class h.len hu hr fun c u ha => absurd ha (hn c u)
  have hstr := leaf h.string fun c u ha => ha
  have hhash := leaf h.hasher fun c u ha => ha
  have hid := leaf h.id fun c u ha => ha
  have hlook : ∀ {t : Str}, Resolves env ctx.module ctx.spec t (.struct (some [(b!"type", b!"SiLookupTypeId")])) [] → EndsAll env ctx t := by
    intro t hr
    refine all_class h.len hu hr fun c u ha => ?_
    obtain ⟨rfl, ha⟩ := ha
    simp at ha
    exact ha ▸ hid
  obtain ⟨s, hlen⟩ := h.len
  intro u hm
  simp only [palletTexts, List.mem_cons, List.not_mem_nil, or_false] at hm
  rcases hm with rfl | rfl | rfl | rfl | rfl | rfl | rfl | rfl | rfl | rfl | rfl | rfl | rfl
  · exact leaf hlen fun c u ha => ha
  · exact hstr
  · exact leaf h.hexBytes fun c u ha => ha
  · exact leaf h.bool fun c u ha => ha
  · exact leaf h.u8 fun c u ha => ha
  · exact hid
  · exact all_class h.len hu h.strings fun c u ⟨h1, h2⟩ => h1 ▸ h2 ▸ hstr
  · exact all_class h.len hu h.hashers fun c u ⟨h1, h2⟩ => h1 ▸ h2 ▸ hhash
  · exact leaf h.modify fun c u ha => ha
  · exact leaf h.kind fun c u ha => ha
  · exact hlook h.call
  · exact hlook h.event
  · exact hlook h.error

theorem extrinsic_ends (h : ReadsExtrinsic env ctx) (hu : ∃ s, Resolves env [] 0 b!"U32" .u32 s) :
    EndsAll env ctx b!"ExtrinsicMetadataV14" ∧ EndsAll env ctx b!"ExtrinsicMetadataV15" := by
  have leaf : ∀ {t s : Str} {cls : Cls}, Resolves env ctx.module ctx.spec t cls s → (∀ c u, ¬ DataAsks env ctx cls s c u) → EndsAll env ctx t :=
    fun hr hn => all_class h.len hu hr fun c u ha => absurd ha (hn c u)
  have htext := leaf h.text fun c u ha => ha
  have hu8 := leaf h.u8 fun c u ha => ha
  have hid := leaf h.id fun c u ha => ha
  have hext : EndsAll env ctx b!"SignedExtensionMetadataV14" := by
    refine all_class h.len hu h.ext fun c u ⟨h1, h2⟩ => ?_
    subst h1
    simp only [Option.getD_some, List.map_cons, List.map_nil, List.mem_cons, List.not_mem_nil, or_false] at h2
    rcases h2 with rfl | rfl | rfl <;> assumption
  have hexts : EndsAll env ctx b!"Vec<SignedExtensionMetadataV14>" := all_class h.len hu h.exts fun c u ⟨h1, h2⟩ => h1 ▸ h2 ▸ hext
  constructor
  · refine all_class h.len hu h.v14 fun c u ⟨h1, h2⟩ => ?_
    subst h1
    simp only [Option.getD_some, List.map_cons, List.map_nil, List.mem_cons, List.not_mem_nil, or_false] at h2
    rcases h2 with rfl | rfl | rfl <;> assumption
  · refine all_class h.len hu h.v15 fun c u ⟨h1, h2⟩ => ?_
    subst h1
    simp only [Option.getD_some, List.map_cons, List.map_nil, List.mem_cons, List.not_mem_nil, or_false] at h2
    rcases h2 with rfl | rfl | rfl | rfl | rfl | rfl <;> assumption

theorem endsIn_method {ids : Nat → Option Str} (hl : EndsAll env ctx b!"Compact<u32>") (ht : EndsAll env ctx b!"Text") (hts : EndsAll env ctx b!"Vec<Text>")
    (hi : EndsAll env ctx b!"SiLookupTypeId") : EndsIn (fun n => readApiMethod (pau env n) ctx ids) := by
  unfold readApiMethod
  refine .bind (endsIn_text ht) fun _ => ?_
  dsimp only
  refine .bind (endsIn_vec (f := fun n st => readText (pau env n) ctx b!"Text" st >>= fun p => readInt (pau env n) ctx b!"SiLookupTypeId" p.2 >>= fun q =>
    Res.ok ((p.1, q.1, siText ids q.1), q.2)) hl ?_) fun _ => ?_
  · refine .bind (endsIn_text ht) fun _ => ?_
    dsimp only
    refine .bind (endsIn_int hi) fun _ => ?_
    dsimp only
    exact .ok _
  · dsimp only
    refine .bind (endsIn_int hi) fun _ => ?_
    dsimp only
    refine .bind (endsIn_strs hts) fun _ => ?_
    dsimp only
    exact .ok _

theorem endsIn_api {ids : Nat → Option Str} (hl : EndsAll env ctx b!"Compact<u32>") (ht : EndsAll env ctx b!"Text") (hts : EndsAll env ctx b!"Vec<Text>")
    (hi : EndsAll env ctx b!"SiLookupTypeId") : EndsIn (fun n => readApi (pau env n) ctx ids) := by
  unfold readApi
  refine .bind (endsIn_text ht) fun _ => ?_
  dsimp only
  refine .bind (endsIn_vec hl (endsIn_method hl ht hts hi)) fun _ => ?_
  dsimp only
  refine .bind (endsIn_strs hts) fun _ => ?_
  dsimp only
  exact .ok _

/-- The texts behind the extrinsic end. -/
theorem tail_end (h : ReadsTail env ctx) (hu : ∃ s, Resolves env [] 0 b!"U32" .u32 s) : EndsAll env ctx b!"Compact<u32>" ∧ EndsAll env ctx b!"Text" ∧
    EndsAll env ctx b!"Vec<Text>" ∧ EndsAll env ctx b!"SiLookupTypeId" ∧ EndsAll env ctx b!"BTreeMap<Text, CustomValueMetadata15>" := by
  have leaf : ∀ {t s : Str} {cls : Cls}, Resolves env ctx.module ctx.spec t cls s → (∀ c u, ¬ DataAsks env ctx cls s c u) → EndsAll env ctx t :=
    fun hr hn => all_class h.len hu hr fun c u ha => absurd ha (hn c u)
  have htext := leaf h.text fun c u ha => ha
  have hid := leaf h.id fun c u ha => ha
  have hbytes := leaf h.bytes fun c u ha => ha
  have hval : EndsAll env ctx b!" CustomValueMetadata15" := by
    refine all_class h.len hu h.value fun c u ⟨h1, h2⟩ => ?_
    subst h1
    simp only [Option.getD_some, List.map_cons, List.map_nil, List.mem_cons, List.not_mem_nil, or_false] at h2
    rcases h2 with rfl | rfl <;> assumption
  obtain ⟨s, hlen⟩ := h.len
  refine ⟨leaf hlen fun c u ha => ha, htext, all_class h.len hu h.texts fun c u ⟨h1, h2⟩ => h1 ▸ h2 ▸ htext, hid, ?_⟩
  refine all_class h.len hu h.custom fun c u ⟨h1, h2⟩ => ?_
  subst h1
  have hs : splitSep (effSub [] b!"Text, CustomValueMetadata15") b!"," = [b!"Text", b!" CustomValueMetadata15"] := by kernel_rfl
  rw [hs] at h2
  rcases h2 with rfl | ⟨a, r, h2⟩
  · exact htext
  · simp only [List.cons.injEq] at h2
    rw [← h2.2.1]
    exact hval

end

theorem endsIn_tail {o : V14Out × (Nat → Option Str)} {ctx : Ctx} (hl : EndsAll o.1.reg.env ctx b!"Compact<u32>") (ht : EndsAll o.1.reg.env ctx b!"Text")
    (hts : EndsAll o.1.reg.env ctx b!"Vec<Text>") (hi : EndsAll o.1.reg.env ctx b!"SiLookupTypeId")
    (hm : EndsAll o.1.reg.env ctx b!"BTreeMap<Text, CustomValueMetadata15>") : EndsIn (fun n => tail15 ctx n o) := by
  unfold tail15
  refine .bind (endsIn_int hi) fun _ => ?_
  dsimp only
  refine .bind (endsIn_vec hl (endsIn_api hl ht hts hi)) fun _ => ?_
  dsimp only
  refine .bind (endsIn_int hi) fun _ => ?_
  dsimp only
  refine .bind (endsIn_int hi) fun _ => ?_
  dsimp only
  refine .bind (endsIn_int hi) fun _ => ?_
  dsimp only
  refine .bind (endsIn_pau hm) fun _ => ?_
  dsimp only
  exact .ok _

/-- Where the registry after the common part comes from. -/
theorem common_reg {check : Bool} {pallet : Rec → Ctx → Dec Pallet} {extrinsic : Str} {n : Nat} {reg : RegState} {ctx : Ctx} {st s : St}
    {o : V14Out × (Nat → Option Str)} (h : processCommon check pallet extrinsic n reg ctx st = .ok (o, s)) :
    ∃ raw s1 l si rows, pau reg.env n ctx b!"PortableRegistry" st = .ok (raw, s1) ∧ initPortable raw = .ok l ∧
      processSiType { portableCfg l with spec := ctx.spec } n reg = .ok si ∧ o.1.reg.env = registerOriginCaller si.reg.env rows := by
  unfold processCommon at h
  obtain ⟨⟨raw, s1⟩, h1, h⟩ := Res.bind_eq_ok.mp h
  obtain ⟨l, h2, h⟩ := Res.bind_eq_ok.mp h
  obtain ⟨si, h3, h⟩ := Res.bind_eq_ok.mp h
  obtain ⟨⟨ps, s2⟩, h4, h⟩ := Res.bind_eq_ok.mp h
  obtain ⟨texts, h5, h⟩ := Res.bind_eq_ok.mp h
  obtain ⟨⟨e, s3⟩, h6, h⟩ := Res.bind_eq_ok.mp h
  cases h
  exact ⟨raw, s1, l, si, _, h1, h2, h3, rfl⟩

/-! ## The claim -/

/-- With the library as it starts, reading V14 and V15 metadata ends, whatever the data: with the modules and tables or with a refusal. -/
def C124Claim : Prop :=
  ∀ ext, Spec.ReadsBuiltin ext → Spec.ReadsRows ext → ∀ data : Str,
    (∃ n, processV14 n ⟨loadedEnv ext, fun _ => none⟩ ⟨[], 0, none⟩ ⟨⟨data, 0⟩, []⟩ ≠ .diverge) ∧
    ∃ n, processV15 n ⟨loadedEnv ext, fun _ => none⟩ ⟨[], 0, none⟩ ⟨⟨data, 0⟩, []⟩ ≠ .diverge

/-- What is left to assume: the type of no entry of the registry is made from itself, and entering them leaves alone the texts by
which the rest of the metadata are read. -/
structure HarmlessTypes (ctx : Ctx) (reg : RegState) (l : List (Nat × SiType)) : Prop where
  acyclic : ∀ x, ¬ Relation.TransGen (MadeFrom [] (portableType l)) x x
  pallets : ∀ m si, processSiType (portableCfg l) m reg = .ok si → ReadsPallets si.reg.env ctx
  extrinsic : ∀ m si, processSiType (portableCfg l) m reg = .ok si → ReadsExtrinsic si.reg.env ctx
  number : ∀ m si, processSiType (portableCfg l) m reg = .ok si → ∃ s, Resolves si.reg.env [] 0 b!"U32" .u32 s

/-- The same for the texts behind the extrinsic, which V15 metadata have. -/
structure HarmlessTypes15 (ctx : Ctx) (reg : RegState) (l : List (Nat × SiType)) : Prop extends HarmlessTypes ctx reg l where
  tail : ∀ m si rows, processSiType (portableCfg l) m reg = .ok si → ReadsTail (registerOriginCaller si.reg.env rows) ctx
  number15 : ∀ m si rows, processSiType (portableCfg l) m reg = .ok si → ∃ s, Resolves (registerOriginCaller si.reg.env rows) [] 0 b!"U32" .u32 s

theorem portable_ends {ext : Ext} (hr : Spec.ReadsBuiltin ext) (st : St) (hin : InB st) :
    EndsAt (loadedEnv ext) ⟨[], 0, none⟩ b!"PortableRegistry" st := by
  have hm : (Builtin.types.any fun p => p.1 == b!"PortableRegistry") = true := by kernel_rfl
  obtain ⟨p, hp, he⟩ := List.any_eq_true.mp hm
  have h := C120_builtin ext hr _ _ _ (loads_once ext) 0 p hp st hin
  rw [beq_iff_eq.mp he] at h
  exact h

theorem ends_v14 {reg : RegState} {ctx : Ctx} {st : St} (h : Ends (fun n => processCommon true readPallet b!"ExtrinsicMetadataV14" n reg ctx) st) :
    Ends (fun n => processV14 n reg ctx) st :=
  Ends.bind (k := fun _ (p : (V14Out × (Nat → Option Str)) × St) => Res.ok (p.1.1, p.2)) h fun _ _ _ _ => .ok

theorem ends_v15 {reg : RegState} {ctx : Ctx} {st : St} (h : Ends (fun n => processCommon false readPallet15 b!"ExtrinsicMetadataV15" n reg ctx) st ∧
      ∀ n o s, processCommon false readPallet15 b!"ExtrinsicMetadataV15" n reg ctx st = .ok (o, s) → InB s)
    (ht : ∀ n o s, processCommon false readPallet15 b!"ExtrinsicMetadataV15" n reg ctx st = .ok (o, s) → ReadsTail o.1.reg.env ctx ∧
      ∃ s, Resolves o.1.reg.env [] 0 b!"U32" .u32 s) : Ends (fun n => processV15 n reg ctx) st := by
  refine Ends.bind (k := fun n p => tail15 ctx n p.1 p.2) h.1 fun n o s ho => ?_
  obtain ⟨h1, h2⟩ := ht n o s ho
  obtain ⟨k1, k2, k3, k4, k5⟩ := tail_end h1 h2
  exact (endsIn_tail k1 k2 k3 k4 k5 s (h.2 n o s ho)).1

theorem pallet15_end {env : Env} {ctx : Ctx} (h : ReadsPallets env ctx) (hu : ∃ s, Resolves env [] 0 b!"U32" .u32 s) :
    EndsIn (fun n => readPallet15 (pau env n) ctx) :=
  endsIn_pallet15 (pallets_end h hu) <| all_class h.len hu h.texts fun _ _ ⟨h1, h2⟩ => h1 ▸ h2 ▸ all_class h.len hu h.text fun _ _ ha => absurd ha id

/-- C124 for V14 metadata and the library as it starts, on all data. -/
theorem C124_partial (ext : Ext) (hr : Spec.ReadsBuiltin ext) (v14 : Str → Option TypeDef) (data : Str)
    (h : ∀ n raw s l, pau (loadedEnv ext) n ⟨[], 0, none⟩ b!"PortableRegistry" ⟨⟨data, 0⟩, []⟩ = .ok (raw, s) → initPortable raw = .ok l →
      HarmlessTypes ⟨[], 0, none⟩ ⟨loadedEnv ext, v14⟩ l) :
    ∃ N r, r ≠ .diverge ∧ ∀ n, N ≤ n → processV14 n ⟨loadedEnv ext, v14⟩ ⟨[], 0, none⟩ ⟨⟨data, 0⟩, []⟩ = r := by
  refine ends_v14 (ends_common (Nat.zero_le _) (portable_ends hr _ (Nat.zero_le _)) fun n raw s l h1 h2 => ?_).1
  have hh := h n raw s l h1 h2
  refine ⟨C123_portable l _ hh.acyclic, fun m si hs => ?_⟩
  have hp := pallets_end (hh.pallets m si hs) (hh.number m si hs)
  exact ⟨hp _ (by decide), endsIn_pallet hp, (extrinsic_ends (hh.extrinsic m si hs) (hh.number m si hs)).1⟩

/-- The same for V15 metadata. -/
theorem C124_partial15 (ext : Ext) (hr : Spec.ReadsBuiltin ext) (v14 : Str → Option TypeDef) (data : Str)
    (h : ∀ n raw s l, pau (loadedEnv ext) n ⟨[], 0, none⟩ b!"PortableRegistry" ⟨⟨data, 0⟩, []⟩ = .ok (raw, s) → initPortable raw = .ok l →
      HarmlessTypes15 ⟨[], 0, none⟩ ⟨loadedEnv ext, v14⟩ l) :
    ∃ N r, r ≠ .diverge ∧ ∀ n, N ≤ n → processV15 n ⟨loadedEnv ext, v14⟩ ⟨[], 0, none⟩ ⟨⟨data, 0⟩, []⟩ = r := by
  refine ends_v15 (ends_common (Nat.zero_le _) (portable_ends hr _ (Nat.zero_le _)) fun n raw s l h1 h2 => ?_) fun n o s ho => ?_
  · have hh := h n raw s l h1 h2
    refine ⟨C123_portable l _ hh.acyclic, fun m si hs => ?_⟩
    exact ⟨pallets_end (hh.pallets m si hs) (hh.number m si hs) _ (by decide), pallet15_end (hh.pallets m si hs) (hh.number m si hs),
      (extrinsic_ends (hh.extrinsic m si hs) (hh.number m si hs)).2⟩
  · obtain ⟨raw, s1, l, si, rows, h1, h2, h3, h4⟩ := common_reg ho
    rw [h4]
    have hh := h n raw s1 l h1 h2
    exact ⟨hh.tail _ _ _ h3, hh.number15 _ _ _ h3⟩

/-! ## Behind a registry whose types are entered under names of their own -/

/-- Reading the written registry gives its types, at every budget that is enough. -/
theorem reads_only {env : Env} {ctx : Ctx} {l : List (Nat × PType)} {b : Str} (h : ReadsPortable env ctx) (hw : WRegistry l b) (hf : FRegistry l)
    {pre suf : Str} {cs : List Str} (hlen : pre.length + b.length + suf.length < 2 ^ 63) :
    EndsAt env ctx b!"PortableRegistry" ⟨⟨pre ++ (b ++ suf), pre.length⟩, cs⟩ ∧
    ∀ n, pau env n ctx b!"PortableRegistry" ⟨⟨pre ++ (b ++ suf), pre.length⟩, cs⟩ = .diverge ∨
      ∃ raw s, pau env n ctx b!"PortableRegistry" ⟨⟨pre ++ (b ++ suf), pre.length⟩, cs⟩ = .ok (raw, s) ∧ initPortable raw = .ok (kept l) := by
  obtain ⟨v, ⟨N, hN⟩, hv⟩ := C77_reads env ctx l b h hw hf
  refine ⟨endsAt_iff.mpr ⟨N, by rw [hN N (Nat.le_refl _) pre suf cs hlen]; simp⟩, fun n => ?_⟩
  have hm := hN (max n N) (Nat.le_max_right _ _) pre suf cs hlen
  rcases pau_mono env (Nat.le_max_left n N) ctx b!"PortableRegistry" ⟨⟨pre ++ (b ++ suf), pre.length⟩, cs⟩ with h1 | h1
  · exact .inl h1
  · exact .inr ⟨v, _, h1.trans hm, hv⟩

theorem Understood.once {l : List (Nat × PType)} {spec : Int} {reg : RegState} {dup : Str → Nat} {A : Nat → Prop} {fuel m : Nat} {si si' : SiState}
    (hU : Understood l spec reg dup A fuel si) (h : processSiType (wireCfg l spec) m reg = .ok si') : si' = si := by
  have h1 := processSiType_mono (n := m) (m := max m fuel) (wireCfg l spec) reg (Nat.le_max_left _ _)
  have h2 := processSiType_mono (n := fuel) (m := max m fuel) (wireCfg l spec) reg (Nat.le_max_right _ _)
  rw [h] at h1
  rw [hU.done] at h2
  rcases h1 with h1 | h1
  · cases h1
  rcases h2 with h2 | h2
  · cases h2
  rw [← h1] at h2
  cases h2
  rfl

/-- Whatever follows a registry whose types are entered under names of their own, reading it as V14 or V15 metadata ends. -/
theorem C124_after (reg : RegState) (spec : Int) (md : Option MD) (l : List (Nat × PType)) (b : Str) (dup : Str → Nat) (A : Nat → Prop) (fuel : Nat)
    (si : SiState) (hr : MetaReady reg) (hw : WRegistry l b) (hf : FRegistry l) (hU : Understood l spec reg dup A fuel si)
    (pre suf : Str) (cs : List Str) (hlen : pre.length + b.length + suf.length < 2 ^ 63) :
    (∃ N r, r ≠ .diverge ∧ ∀ n, N ≤ n → processV14 n reg ⟨[], spec, md⟩ ⟨⟨pre ++ (b ++ suf), pre.length⟩, cs⟩ = r) ∧
    ∃ N r, r ≠ .diverge ∧ ∀ n, N ≤ n → processV15 n reg ⟨[], spec, md⟩ ⟨⟨pre ++ (b ++ suf), pre.length⟩, cs⟩ = r := by
  obtain ⟨he, ho⟩ := reads_only (hr.portable spec md) hw hf hlen (cs := cs)
  have hin : InB ⟨⟨pre ++ (b ++ suf), pre.length⟩, cs⟩ := by simp [InB]
  have hL := hU.loaded hr.toReady
  have only : ∀ n raw s l', pau reg.env n ⟨[], spec, md⟩ b!"PortableRegistry" ⟨⟨pre ++ (b ++ suf), pre.length⟩, cs⟩ = .ok (raw, s) →
      initPortable raw = .ok l' → l' = kept l := by
    intro n raw s l' h1 h2
    rcases ho n with h | ⟨raw', s', h, h'⟩
    · rw [h] at h1; cases h1
    · rw [h1] at h; cases h; rw [h2] at h'; cases h'; rfl
  have once : ∀ m si', processSiType (wireCfg l spec) m reg = .ok si' → si' = si := fun m si' h => hU.once h
  have hd : ∃ N, ∀ n, N ≤ n → processSiType (wireCfg l spec) n reg ≠ .diverge := by
    refine ⟨fuel, fun n hn h => ?_⟩
    have := processSiType_mono (wireCfg l spec) reg hn
    rw [h, hU.done] at this
    rcases this with h | h <;> cases h
  have hp := loaded_pallets hr hL hU.tidy (ctx := ⟨[], spec, md⟩) notOverridden_nil
  have hx := loaded_extrinsic hr hL hU.tidy (ctx := ⟨[], spec, md⟩) notOverridden_nil
  have number : ∀ {st : SiState}, Loaded { wireCfg l spec with dup := dup } A reg.env st → ∃ s, Resolves st.reg.env [] 0 b!"U32" .u32 s := fun hL =>
    ⟨[], meta_looksUp hr hL (t := b!"U32") (by decide +kernel) (by kernel_rfl) _ _ (notOverridden_nil _)⟩
  have hu := number hL
  have hps := pallets_end hp hu
  refine ⟨ends_v14 (ends_common hin he fun n raw s l' h1 h2 => ?_).1, ends_v15 (ends_common hin he fun n raw s l' h1 h2 => ?_) fun n o s hc => ?_⟩
  · obtain rfl := only n raw s l' h1 h2
    refine ⟨hd, fun m si' h => ?_⟩
    obtain rfl := once m si' h
    exact ⟨hps _ (by decide), endsIn_pallet hps, (extrinsic_ends hx hu).1⟩
  · obtain rfl := only n raw s l' h1 h2
    refine ⟨hd, fun m si' h => ?_⟩
    obtain rfl := once m si' h
    exact ⟨hps _ (by decide), pallet15_end hp hu, (extrinsic_ends hx hu).2⟩
  · obtain ⟨raw, s1, l', si', rows, h1, h2, h3, h4⟩ := common_reg hc
    obtain rfl := only n raw s1 l' h1 h2
    obtain rfl := once n si' h3
    rw [h4]
    have hO := hL.origin hU.tidy hr.origin rows
    exact ⟨loaded_tail hr hO hU.tidy (ctx := ⟨[], spec, md⟩) notOverridden_nil, by have := number hO; exact this⟩

/-! ## Metadata that exhaust the stack -/

/-- Where the types of the registry are never given texts, nothing comes of the metadata: not even a refusal. -/
theorem C124_overflow (reg : RegState) (ctx : Ctx) (l : List (Nat × PType)) (b : Str) (hr : ReadsPortable reg.env ctx) (hw : WRegistry l b)
    (hf : FRegistry l) (hd : ∀ n, processSiType (wireCfg l ctx.spec) n reg = .diverge) (pre suf : Str) (cs : List Str)
    (hlen : pre.length + b.length + suf.length < 2 ^ 63) (n : Nat) :
    processV14 n reg ctx ⟨⟨pre ++ (b ++ suf), pre.length⟩, cs⟩ = .diverge ∧ processV15 n reg ctx ⟨⟨pre ++ (b ++ suf), pre.length⟩, cs⟩ = .diverge := by
  obtain ⟨-, ho⟩ := reads_only hr hw hf hlen (cs := cs)
  have : ∀ check pallet extrinsic, processCommon check pallet extrinsic n reg ctx ⟨⟨pre ++ (b ++ suf), pre.length⟩, cs⟩ = .diverge := by
    intro check pallet extrinsic
    unfold processCommon
    rcases ho n with h | ⟨raw, s, h, h'⟩
    · simp only [h]; rfl
    · simp only [h, Res.ok_bind, h']
      have := hd n
      unfold wireCfg at this
      simp only [this]
      rfl
  constructor
  · unfold processV14; rw [this]; rfl
  · unfold processV15; rw [this]; rfl

/-- A registry with one type, the sequence of itself. -/
def selfSeq : List (Nat × PType) := [(0, ⟨[], [], .sequence 0, []⟩)]

theorem selfSeq_written : WRegistry selfSeq [4, 0, 0, 0, 2, 0, 0] :=
  ⟨[4], [0, 0, 0, 2, 0, 0], .inl ⟨by decide, by decide⟩, ⟨[0, 0, 0, 2, 0, 0], [], ⟨[0], [0, 0, 2, 0, 0], .inl ⟨by decide, by decide⟩,
    ⟨[0], [0], [2, 0], [0], ⟨[0], [], .inl ⟨by decide, by decide⟩, rfl, rfl⟩, ⟨[0], [], .inl ⟨by decide, by decide⟩, rfl, rfl⟩,
      ⟨[0], .inl ⟨by decide, by decide⟩, rfl⟩, ⟨[0], [], .inl ⟨by decide, by decide⟩, rfl, rfl⟩, rfl⟩, rfl⟩, rfl, rfl⟩, rfl⟩

theorem selfSeq_fits : FRegistry selfSeq := by
  simp [selfSeq, FRegistry, FList, FId, _root_.Spec.FType, _root_.Spec.FDef]

/-- Seven bytes exhaust the stack. -/
theorem selfSeq_overflows (ext : Ext) (n : Nat) :
    processV14 n ⟨loadedEnv ext, fun _ => none⟩ ⟨[], 0, none⟩ ⟨⟨[4, 0, 0, 0, 2, 0, 0], 0⟩, []⟩ = .diverge ∧
    processV15 n ⟨loadedEnv ext, fun _ => none⟩ ⟨[], 0, none⟩ ⟨⟨[4, 0, 0, 0, 2, 0, 0], 0⟩, []⟩ = .diverge :=
  C124_overflow _ ⟨[], 0, none⟩ selfSeq _ (loaded_readsPortable _ _ _) selfSeq_written selfSeq_fits
    (fun n => seqOfSelf_diverges n _) [] [] [] (by decide) n

/-- Rows with and without blanks. -/
def blankRows (s : Str) : Option (List (List Str)) := match readRows s with
  | some l => some l
  | none => pairRows s

theorem blankRows_builtin (ext : Ext) : Spec.ReadsBuiltin { ext with rows := blankRows } := by
  have h : ((Builtin.classes ++ baseReg).all fun p => match p.2 with
    | .enum _ (some tm) => tm.all fun q => !hasPrefix q.2 b!"[[" || blankRows q.2 == pairRows q.2
    | _ => true) = true := by kernel_rfl
  intro k vs tm hm q hq hp
  have := List.all_eq_true.mp h _ hm
  have := List.all_eq_true.mp this q hq
  simpa [hp] using this

theorem blankRows_reads (ext : Ext) : Spec.ReadsRows { ext with rows := blankRows } := by
  intro l hl
  change blankRows _ = _
  have := readsRows ext l hl
  change readRows _ = _ at this
  unfold blankRows
  rw [this]

/-- The claim fails. -/
theorem C124_claim_false : ¬ C124Claim := by
  intro h
  obtain ⟨⟨n, hn⟩, -⟩ := h _ (blankRows_builtin dummyExt) (blankRows_reads dummyExt) [4, 0, 0, 0, 2, 0, 0]
  exact hn (selfSeq_overflows _ n).1

/-! ## The hypotheses are met -/

theorem demo_fits : FRegistry demoTypes := by
  simp [demoTypes, FRegistry, FList, FId, _root_.Spec.FType, _root_.Spec.FDef, _root_.Spec.FText, _root_.Spec.FVariant, _root_.Spec.FField]

/-- A registry of eight types followed by anything: reading it ends. -/
example : ∃ b : Str, WRegistry demoTypes b ∧ ∀ suf : Str, b.length + suf.length < 2 ^ 63 →
    ∃ N r, r ≠ .diverge ∧ ∀ n, N ≤ n → processV14 n startReg ⟨[], 0, none⟩ ⟨⟨b ++ suf, 0⟩, []⟩ = r := by
  obtain ⟨st, hs, -⟩ := demo_done
  obtain ⟨b, hb⟩ := C77_written _ demo_fits
  exact ⟨b, hb, fun suf hl =>
    (C124_after startReg 0 none demoTypes b _ _ 5 st start_ready hb demo_fits (demo_understood hs) [] suf [] (by simpa using hl)).1⟩

theorem demo_acyclic : ∀ x, ¬ Relation.TransGen (MadeFrom [] (portableType (kept demoTypes))) x x := by
  have ht : portableType (kept demoTypes) = demoCfg.types := congrArg SiCfg.types demo_wire
  rw [ht]
  let rank : Bool × Nat → Nat := fun x => if x.1 then (if x.2 = 5 then 2 else if x.2 = 2 ∨ x.2 = 6 then 1 else 0) else if x.2 = 3 then 3 else 4
  have small : ∀ x : Bool × Nat, x.1 = true → rank x < 3 := by
    rintro ⟨_, i⟩ rfl
    simp only [rank, if_true]
    split
    · omega
    · split <;> omega
  have hm : ∀ x y, MadeFrom [] demoCfg.types x y → rank y < rank x := by
    rintro ⟨r, i⟩ ⟨r', i'⟩ h
    revert h
    refine demo_cases (P := fun i => MadeFrom [] demoCfg.types (r, i) (r', i') → rank (r', i') < rank (r, i)) ?_ ?_ ?_ ?_ ?_ ?_ ?_ ?_ (fun k => ?_) i
    · rintro ⟨hn, ⟨_, h, _⟩ | ⟨_, h, _⟩ | ⟨h, _⟩⟩
      · cases h
      · cases h
      · cases r
        · exact Nat.lt_of_lt_of_le (small _ h) (by simp [rank])
        · exact absurd (hn rfl).2 (by decide)
    · rintro ⟨hn, ⟨_, h, _⟩ | ⟨h1, h, _⟩ | ⟨_, h, _⟩⟩
      · cases h
      · cases r
        · change [3] = [i'] at h
          simp at h h1
          simp [rank, ← h, h1]
        · exact absurd (hn rfl).2 (by decide)
      · exact absurd rfl h
    · rintro ⟨-, h⟩
      cases h
      cases r <;> simp [rank]
    · rintro ⟨-, h⟩
      exact h.elim
    · rintro ⟨hn, h, -⟩
      cases r
      · exact Nat.lt_of_lt_of_le (small _ h) (by simp [rank])
      · exfalso
        rcases hn rfl with h | ⟨p, ps, h, h'⟩ | ⟨p, h, h'⟩
        · exact absurd h (by decide)
        · cases h
          revert h'
          decide
        · cases h
          revert h'
          decide
    · rintro ⟨-, h, p, ps, hp, hh⟩
      cases hp
      rw [if_pos (by decide)] at hh
      cases hh
      simp at h
      cases r <;> simp [rank, h]
    · rintro ⟨-, h⟩
      cases h
      cases r <;> simp [rank]
    · rintro ⟨-, h⟩
      exact h.elim
    · rintro ⟨-, h⟩
      exact h.elim
  have ht : ∀ x y, Relation.TransGen (MadeFrom [] demoCfg.types) x y → rank y < rank x := by
    intro x y h
    induction h with
    | single h => exact hm _ _ h
    | tail _ h ih => exact Nat.lt_trans (hm _ _ h) ih
  exact fun x h => Nat.lt_irrefl _ (ht x x h)

/-- The library as it starts, reading rows with and without blanks. -/
def blankReg : RegState := ⟨loadedEnv { dummyExt with rows := blankRows }, fun _ => none⟩

theorem blank_done : ∃ st, processSiType demoCfg 5 blankReg = .ok st := by
  unfold blankReg loadedEnv
  rw [loadedReg_fast]
  exact ⟨_, rfl⟩

theorem blank_understood {st : SiState} (h : processSiType demoCfg 5 blankReg = .ok st) :
    Understood demoTypes 0 blankReg demoDup demoEarly 5 st := by
  constructor
  · rw [demo_wire]; exact demo_counted
  · rw [demo_wire]; exact demo_early
  · rw [demo_wire]; exact demo_tidy'
  · rw [demo_wire]; exact h

/-- The types are harmless. -/
theorem demo_harmless : HarmlessTypes15 ⟨[], 0, none⟩ blankReg (kept demoTypes) := by
  obtain ⟨st, hs⟩ := blank_done
  have hr : MetaReady blankReg := loaded_metaReady _ (blankRows_reads dummyExt)
  have hU := blank_understood hs
  have hL := hU.loaded hr.toReady
  have number : ∀ {st : SiState}, Loaded { wireCfg demoTypes 0 with dup := demoDup } demoEarly blankReg.env st → ∃ s, Resolves st.reg.env [] 0 b!"U32" .u32 s :=
    fun hL => ⟨[], meta_looksUp hr hL (t := b!"U32") (by decide +kernel) (by kernel_rfl) _ _ (notOverridden_nil _)⟩
  have once : ∀ m si, processSiType (portableCfg (kept demoTypes)) m blankReg = .ok si → si = st := fun m si h => hU.once h
  refine ⟨⟨demo_acyclic, fun m si h => ?_, fun m si h => ?_, fun m si h => ?_⟩, fun m si rows h => ?_, fun m si rows h => ?_⟩ <;> obtain rfl := once m si h
  · exact loaded_pallets hr hL hU.tidy notOverridden_nil
  · exact loaded_extrinsic hr hL hU.tidy notOverridden_nil
  · exact number hL
  · have hO := hL.origin hU.tidy hr.origin rows
    exact loaded_tail hr hO hU.tidy (ctx := ⟨[], 0, none⟩) notOverridden_nil
  · have hO := hL.origin hU.tidy hr.origin rows
    have := number hO
    exact this

/-- The hypotheses of the partial theorems are met by the same registry. -/
example : ∃ b : Str, WRegistry demoTypes b ∧ ∀ suf : Str, b.length + suf.length < 2 ^ 63 →
    (∃ N r, r ≠ .diverge ∧ ∀ n, N ≤ n → processV14 n blankReg ⟨[], 0, none⟩ ⟨⟨b ++ suf, 0⟩, []⟩ = r) ∧
    ∃ N r, r ≠ .diverge ∧ ∀ n, N ≤ n → processV15 n blankReg ⟨[], 0, none⟩ ⟨⟨b ++ suf, 0⟩, []⟩ = r := by
  obtain ⟨b, hb⟩ := C77_written _ demo_fits
  refine ⟨b, hb, fun suf hl => ?_⟩
  have only : ∀ n raw s l, pau blankReg.env n ⟨[], 0, none⟩ b!"PortableRegistry" ⟨⟨b ++ suf, 0⟩, []⟩ = .ok (raw, s) → initPortable raw = .ok l →
      l = kept demoTypes := by
    intro n raw s l h1 h2
    rcases (reads_only (loaded_readsPortable { dummyExt with rows := blankRows } 0 none) hb demo_fits (pre := []) (suf := suf) (cs := []) (by simpa using hl)).2 n with
      h | ⟨raw', s', h, h'⟩
    · change pau blankReg.env n ⟨[], 0, none⟩ b!"PortableRegistry" ⟨⟨b ++ suf, 0⟩, []⟩ = _ at h
      rw [h] at h1; cases h1
    · change pau blankReg.env n ⟨[], 0, none⟩ b!"PortableRegistry" ⟨⟨b ++ suf, 0⟩, []⟩ = _ at h
      rw [h1] at h; cases h; rw [h2] at h'; cases h'; rfl
  exact ⟨C124_partial _ (blankRows_builtin dummyExt) _ _ fun n raw s l h1 h2 => only n raw s l h1 h2 ▸ demo_harmless.toHarmlessTypes,
    C124_partial15 _ (blankRows_builtin dummyExt) _ _ fun n raw s l h1 h2 => only n raw s l h1 h2 ▸ demo_harmless⟩

end ScaleGo
