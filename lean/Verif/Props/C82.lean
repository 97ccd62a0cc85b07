import Verif.Model.MetaOld
import Verif.Props.C37
import Verif.Props.C78
import Verif.Spec.OldMeta

/-! # C82: metadata of versions 9 to 13 gives the modules and tables it describes -/

namespace ScaleGo
open _root_.Spec (WText WAll WList WOpt FText FList OKind OEntry OConst OCall OEvent OModule EncOKind EncOEntry EncOConst EncOArg EncOCall
  EncOEvent EncOError EncOStorage EncOModule EncOld FOKind FOEntry FOConst FOCall FOEvent FOError FOModule FOld hasherNames hasherNamesOf
  modifierNames)

/-- The texts by which metadata of these versions is read mean what frame-metadata says. -/
structure ReadsOld (env : Env) (ctx : Ctx) : Prop extends ReadsPallets env ctx where
  oldKind : Resolves env ctx.module ctx.spec b!"StorageFunctionType" (.enum [b!"PlainType", b!"MapType", b!"DoubleMapType", b!"NMap"] none) []
  byte : Resolves env ctx.module ctx.spec b!"u8" .u8 []
  bytes : Resolves env ctx.module ctx.spec b!"Bytes" .bytes []
  manyBytes : Resolves env ctx.module ctx.spec b!"Vec<Bytes>" (.vec []) b!"Bytes"
  extrinsic : Resolves env ctx.module ctx.spec b!"ExtrinsicMetadata"
    (.struct (some [(b!"version", b!"u8"), (b!"signedExtensions", b!"Vec<Bytes>")])) []

/-- The tables of the library after loading do. -/
theorem loaded_readsOld (ext : Ext) (spec : Int) (md : Option MD) : ReadsOld (loadedEnv ext) ⟨[], spec, md⟩ := by
  refine { loaded_readsPallets ext spec md with oldKind := ?_, byte := ?_, bytes := ?_, manyBytes := ?_, extrinsic := ?_ }
  all_goals (unfold Resolves loadedEnv; rw [loadedReg_fast]; kernel_rfl)

/-! ## What is to be kept -/

/-- The text of a type. -/
def typeText (t : Str) : Str := convertType (keptText t)

/-- The type of an entry, with the hashers called `names`. -/
def oldKind (names : List Str) : OKind → OldKind
  | .plain t => .plain (typeText t)
  | .map h k v l => .map (names[h]?.getD []) (typeText k) (typeText v) l
  | .double h k k2 v h2 => .double (names[h]?.getD []) (typeText k) (typeText k2) (typeText v) (names[h2]?.getD [])
  | .nmap ks hs v => .nmap (hs.map fun h => names[h]?.getD []) (ks.map typeText) (typeText v)

/-- A storage entry. -/
def oldEntry (names : List Str) (x : OEntry) : OldEntry :=
  ⟨keptText x.name, modifierNames[x.modifier]?.getD [], oldKind names x.kind, b!"0x" ++ Spec.hexText x.default, x.docs.map keptText⟩

/-- A constant. -/
def oldConst (x : OConst) : OldConst := ⟨keptText x.name, typeText x.type, b!"0x" ++ Spec.hexText x.value, x.docs.map keptText⟩

/-- A call. -/
def oldCall (x : OCall) : OldCall := ⟨keptText x.name, x.args.map fun a => (keptText a.1, typeText a.2), x.docs.map keptText⟩

/-- An event: its types stay as they are. -/
def oldEvent (x : OEvent) : OldEvent := ⟨keptText x.name, x.args.map keptText, x.docs.map keptText⟩

/-- The module `m` is what `x` in metadata of version `v` says, with the hashers called `names`. -/
structure DescribedModule (v : Nat) (names : List Str) (x : OModule) (m : OldModule) : Prop where
  name : m.name = keptText x.name
  pfx : m.pfx = (x.storage.map fun s => keptText s.1).getD []
  storage : m.storage = (x.storage.map fun s => s.2.map (oldEntry names)).getD []
  calls : m.calls.getD [] = (x.calls.getD []).map oldCall
  events : m.events.getD [] = (x.event.getD []).map oldEvent
  constants : m.constants = x.constants.map oldConst
  errors : m.errors = x.errors.map fun e => (keptText e.1, e.2.map keptText)
  index : 12 ≤ v → m.index = x.index

/-- In metadata of version `v` the module `x` has the number `n` for calls: before version 12 the modules with calls are counted. -/
def CallModule (v : Nat) (l : List OModule) (n : Nat) (x : OModule) : Prop :=
  if v < 12 then ∃ before after, l = before ++ x :: after ∧ before.countP (fun y => y.calls.isSome) = n ∧ x.calls.isSome
  else x ∈ l ∧ x.index = n

/-- The same for events. -/
def EventModule (v : Nat) (l : List OModule) (n : Nat) (x : OModule) : Prop :=
  if v < 12 then ∃ before after, l = before ++ x :: after ∧ before.countP (fun y => y.event.isSome) = n ∧ x.event.isSome
  else x ∈ l ∧ x.index = n

/-- `e` is the call `c` of the module `n`. -/
def OldCallOf (v : Nat) (l : List OModule) (n c : Nat) (e : CallEntry) : Prop :=
  ∃ x call, CallModule v l n x ∧ (x.calls.getD [])[c]? = some call ∧
    e = ⟨keptText call.name, keptText x.name, call.args.map fun a => (keptText a.1, typeText a.2)⟩

/-- `e` is the event `c` of the module `n`. -/
def OldEventOf (v : Nat) (l : List OModule) (n c : Nat) (e : EventEntry) : Prop :=
  ∃ x ev, EventModule v l n x ∧ (x.event.getD [])[c]? = some ev ∧ e = ⟨keptText ev.name, keptText x.name, ev.args.map keptText, [], []⟩

/-- The output has the described modules and tables, hashers called `names`, and `exts` as identifiers of extensions. -/
structure DescribedOld (v : Nat) (names : List Str) (l : List OModule) (exts : Option (List Str)) (out : OldOut) : Prop where
  modules : List.Forall₂ (DescribedModule v names) l out.modules
  calls : ∀ (a b : UInt8) e, out.callIndex (_root_.Spec.hexText [a, b]) = some e ↔ OldCallOf v l a.toNat b.toNat e
  events : ∀ (a b : UInt8) e, out.eventIndex (_root_.Spec.hexText [a, b]) = some e ↔ OldEventOf v l a.toNat b.toNat e
  extrinsic : out.extrinsic = exts.map fun l => ⟨l.map keptText, []⟩

/-- From version 12 on different modules have different indices. -/
def DistinctIndex (v : Nat) (l : List OModule) : Prop := 12 ≤ v → (l.map (·.index)).Nodup

/-- Once the budget is large enough, decoding the bytes gives `out`. -/
def Gives {α : Type} (f : Nat → Dec α) (b : Str) (out : α) : Prop := ∃ N, ∀ n, N ≤ n → ∃ st, f n ⟨⟨b, 0⟩, []⟩ = .ok (out, st)

/-- Metadata of versions 9 to 13 gives what it describes. -/
def C82Claim : Prop :=
  ∀ (v : Nat) (reg : RegState) (spec : Int) (md : Option MD) (l : List OModule) (xv : Nat) (exts : List Str) (b : Str),
    9 ≤ v → v ≤ 13 → ReadsOld reg.env ⟨[], spec, md⟩ → FOld v l xv exts → DistinctIndex v l → EncOld v l xv exts b → b.length < 2 ^ 63 →
    ∃ out, Gives (fun n => processOld v n reg ⟨[], spec, md⟩) b out ∧
      DescribedOld v (hasherNamesOf v) l (if v < 11 then none else some exts) out

/-! ## Reading -/

/-- The module as it is read. -/
def keptModule (v : Nat) (x : OModule) : OldModule where
  name := keptText x.name
  pfx := (x.storage.map fun s => keptText s.1).getD []
  storage := (x.storage.map fun s => s.2.map (oldEntry hasherNames)).getD []
  calls := if v < 12 then x.calls.map fun l => l.map oldCall else (x.calls.map fun l => l.map oldCall).bind appended
  events := if v < 12 then x.event.map fun l => l.map oldEvent else (x.event.map fun l => l.map oldEvent).bind appended
  constants := x.constants.map oldConst
  errors := x.errors.map fun e => (keptText e.1, e.2.map keptText)
  index := if v < 12 then 0 else x.index

theorem hashers_le (v : Nat) : (hasherNamesOf v).length ≤ hasherNames.length := by
  unfold hasherNamesOf
  split
  · decide
  · split <;> decide

section
variable {env : Env} {ctx : Ctx}

theorem settles_type (h : ReadsOld env ctx) {s b : Str} (hw : WText s b) (hf : FText s) :
    Settles (fun n => readType9 (pau env n) ctx) b (typeText s) :=
  settles_last (settles_str (pallet_text h.toReadsPallets hw hf)) (settles_pure _)

theorem settles_flag (h : ReadsOld env ctx) (l : Bool) : Settles (fun n => readBool (pau env n) ctx) [_root_.Spec.flagByte l] l := by
  have := settles_last (f := fun n => pau env n ctx b!"bool") (k := fun _ p => match p.1 with
    | .bool b => Res.ok (b, p.2)
    | _ => .panic) (settles_decodes (bool_byte env ctx _ _ h.bool (_root_.Spec.flagByte l))) (settles_pure _)
  have e : decide (bytesToHex [_root_.Spec.flagByte l] = b!"01") = l := by cases l <;> decide
  rw [e] at this
  exact this

theorem settles_hasher (h : ReadsOld env ctx) {v i : Nat} (hi : i < (hasherNamesOf v).length) :
    Settles (fun n => readText (pau env n) ctx b!"StorageHasher") (Spec.leBytes 1 i) (hasherNames[i]?.getD []) :=
  settles_str (enum_name h.hasher (by decide) (by decide) (Nat.lt_of_lt_of_le hi (hashers_le v)))

theorem hasher_text : ∀ i < hasherNames.length, convertType (hasherNames[i]?.getD []) = hasherNames[i]?.getD [] := by decide +kernel

theorem hashers_text {v : Nat} {hs : List Nat} (h : ∀ i ∈ hs, i < (hasherNamesOf v).length) :
    (hs.map fun i => hasherNames[i]?.getD []).map convertType = hs.map fun i => hasherNames[i]?.getD [] := by
  rw [List.map_map]
  refine List.map_congr_left fun i hi => ?_
  rw [Function.comp_apply]
  exact hasher_text i (Nat.lt_of_lt_of_le (h i hi) (hashers_le v))

theorem typeTexts (ks : List Str) : (ks.map keptText).map convertType = ks.map typeText := by
  rw [List.map_map]
  exact List.map_congr_left fun i _ => by rw [Function.comp_apply, typeText]

theorem settles_oldKind (h : ReadsOld env ctx) {v : Nat} {x : OKind} {b : Str} (hw : EncOKind x b) (hf : FOKind v x) :
    Settles (fun n => readOldKind (v == 13) (pau env n) ctx) b (oldKind hasherNames x) := by
  have named : ∀ i, i < 4 → Decodes env ctx b!"StorageFunctionType" (Spec.leBytes 1 i)
      (.str ([b!"PlainType", b!"MapType", b!"DoubleMapType", b!"NMap"][i]?.getD [])) [] :=
    fun i hi => enum_name h.oldKind (by simp) (by simp) hi
  cases x with
  | plain t =>
    obtain ⟨c, hc, rfl⟩ := hw
    refine settles_step (b1 := [0]) (settles_str (named 0 (by decide))) ?_
    refine settles_ifn (by decide) (settles_ifn (by decide) (settles_if rfl ?_))
    exact settles_last (settles_type h hc hf) (settles_pure _)
  | map i k x l =>
    obtain ⟨c, d, hc, hd, rfl⟩ := hw
    refine settles_step (b1 := [1]) (settles_str (named 1 (by decide))) (settles_if rfl ?_)
    refine settles_step (settles_hasher h hf.1) ?_
    refine settles_step (settles_type h hc hf.2.1) ?_
    refine settles_step (settles_type h hd hf.2.2) ?_
    exact settles_last (settles_flag h l) (settles_pure _)
  | double i k k2 x j =>
    obtain ⟨c, d, e, hc, hd, he, rfl⟩ := hw
    refine settles_step (b1 := [2]) (settles_str (named 2 (by decide))) (settles_ifn (by decide) (settles_if rfl ?_))
    refine settles_step (settles_hasher h hf.1) ?_
    refine settles_step (settles_type h hc hf.2.1) ?_
    refine settles_step (settles_type h hd hf.2.2.1) ?_
    refine settles_step (settles_type h he hf.2.2.2.1) ?_
    exact settles_last (settles_hasher h hf.2.2.2.2) (settles_pure _)
  | nmap ks hs x =>
    obtain ⟨c, d, e, hc, hd, he, rfl⟩ := hw
    obtain ⟨rfl, f1, f2, f3⟩ := hf
    refine settles_step (b1 := [3]) (settles_str (named 3 (by decide))) ?_
    refine settles_ifn (by decide) (settles_ifn (by decide) (settles_ifn (by decide) (settles_if ⟨rfl, rfl⟩ ?_)))
    refine settles_step (settles_docs h.toReadsPallets hc f1) ?_
    refine settles_step (settles_strs h.len h.hashers rfl (k := fun i => hasherNames[i]?.getD [])
      (fun i b hb hi => by subst hb; exact enum_name h.hasher (by decide) (by decide) (Nat.lt_of_lt_of_le hi (hashers_le 13))) hd f2) ?_
    refine settles_last (settles_type h he f3) ?_
    have e1 := hashers_text (hs := hs) (v := 13) f2.2
    show Settles (fun _ st => Res.ok (OldKind.nmap ((hs.map fun i => hasherNames[i]?.getD []).map convertType) ((ks.map keptText).map convertType)
      (typeText x), st)) [] _
    rw [e1, typeTexts, oldKind]
    exact settles_pure _

theorem settles_oldEntry (h : ReadsOld env ctx) {v : Nat} (x : OEntry) (b : Str) (hw : EncOEntry x b) (hf : FOEntry v x) :
    Settles (fun n => readOldEntry (v == 13) (pau env n) ctx) b (oldEntry hasherNames x) := by
  obtain ⟨b1, b3, b4, b5, h1, h3, h4, h5, rfl⟩ := hw
  obtain ⟨f1, f2, f3, f4, f5⟩ := hf
  refine settles_step (settles_str (pallet_text h.toReadsPallets h1 f1)) ?_
  refine settles_step (settles_str (enum_name h.modify (by decide) (by decide) f2)) ?_
  refine settles_step (settles_oldKind h h3 f3) ?_
  refine settles_step (settles_str (pallet_hex h.toReadsPallets h4 f4)) ?_
  exact settles_last (settles_docs h.toReadsPallets h5 f5) (settles_pure _)

theorem settles_oldStorage (h : ReadsOld env ctx) {v : Nat} (x : Str × List OEntry) (b : Str) (hw : EncOStorage x b)
    (hf : FText x.1 ∧ FList (FOEntry v) x.2) :
    Settles (fun n => readOldStorage (v == 13) (pau env n) ctx) b (keptText x.1, x.2.map (oldEntry hasherNames)) := by
  obtain ⟨b1, b2, h1, h2, rfl⟩ := hw
  refine settles_step (settles_str (pallet_text h.toReadsPallets h1 hf.1)) ?_
  exact settles_last (settles_vec h.len (settles_oldEntry h) h2 hf.2) (settles_pure _)

theorem settles_oldConst (h : ReadsOld env ctx) (x : OConst) (b : Str) (hw : EncOConst x b) (hf : FOConst x) :
    Settles (fun n => readOldConst (pau env n) ctx) b (oldConst x) := by
  obtain ⟨b1, b2, b3, b4, h1, h2, h3, h4, rfl⟩ := hw
  obtain ⟨f1, f2, f3, f4⟩ := hf
  refine settles_step (settles_str (pallet_text h.toReadsPallets h1 f1)) ?_
  refine settles_step (settles_type h h2 f2) ?_
  refine settles_step (settles_str (pallet_hex h.toReadsPallets h3 f3)) ?_
  exact settles_last (settles_docs h.toReadsPallets h4 f4) (settles_pure _)

theorem settles_arg (h : ReadsOld env ctx) (x : Str × Str) (b : Str) (hw : EncOArg x b) (hf : FText x.1 ∧ FText x.2) :
    Settles (fun n => readArg (pau env n) ctx) b (keptText x.1, typeText x.2) := by
  obtain ⟨b1, b2, h1, h2, rfl⟩ := hw
  refine settles_step (settles_str (pallet_text h.toReadsPallets h1 hf.1)) ?_
  exact settles_last (settles_type h h2 hf.2) (settles_pure _)

theorem settles_oldCall (h : ReadsOld env ctx) (x : OCall) (b : Str) (hw : EncOCall x b) (hf : FOCall x) :
    Settles (fun n => readOldCall (pau env n) ctx) b (oldCall x) := by
  obtain ⟨b1, b2, b3, h1, h2, h3, rfl⟩ := hw
  refine settles_step (settles_str (pallet_text h.toReadsPallets h1 hf.1)) ?_
  refine settles_step (settles_vec h.len (settles_arg h) h2 hf.2.1) ?_
  exact settles_last (settles_docs h.toReadsPallets h3 hf.2.2) (settles_pure _)

theorem settles_oldEvent (h : ReadsOld env ctx) (x : OEvent) (b : Str) (hw : EncOEvent x b) (hf : FOEvent x) :
    Settles (fun n => readOldEvent (pau env n) ctx) b (oldEvent x) := by
  obtain ⟨b1, b2, b3, h1, h2, h3, rfl⟩ := hw
  refine settles_step (settles_str (pallet_text h.toReadsPallets h1 hf.1)) ?_
  refine settles_step (settles_docs h.toReadsPallets h2 hf.2.1) ?_
  exact settles_last (settles_docs h.toReadsPallets h3 hf.2.2) (settles_pure _)

theorem settles_oldError (h : ReadsOld env ctx) (x : Str × List Str) (b : Str) (hw : EncOError x b) (hf : FOError x) :
    Settles (fun n => readOldError (pau env n) ctx) b (keptText x.1, x.2.map keptText) := by
  obtain ⟨b1, b2, h1, h2, rfl⟩ := hw
  refine settles_step (settles_str (pallet_text h.toReadsPallets h1 hf.1)) ?_
  exact settles_last (settles_docs h.toReadsPallets h2 hf.2) (settles_pure _)

theorem settles_oldModule (h : ReadsOld env ctx) {v : Nat} (x : OModule) (b : Str) (hw : EncOModule v x b) (hf : FOModule v x) :
    Settles (fun n => readOldModule v (pau env n) ctx) b (keptModule v x) := by
  obtain ⟨b1, b2, b3, b4, b5, b6, h1, h2, h3, h4, h5, h6, rfl⟩ := hw
  obtain ⟨f1, f2, f3, f4, f5, f6, f7⟩ := hf
  refine settles_step (settles_str (pallet_text h.toReadsPallets h1 f1)) ?_
  refine settles_step (settles_opt h.toReadsPallets (settles_oldStorage h) h2 f2) ?_
  refine settles_step (settles_opt h.toReadsPallets (fun _ _ hw hf => settles_vec h.len (settles_oldCall h) hw hf) h3 f3) ?_
  refine settles_step (settles_opt h.toReadsPallets (fun _ _ hw hf => settles_vec h.len (settles_oldEvent h) hw hf) h4 f4) ?_
  refine settles_step (settles_vec h.len (settles_oldConst h) h5 f5) ?_
  refine settles_step (settles_vec h.len (settles_oldError h) h6 f6) ?_
  have e1 : ((x.storage.map fun s => (keptText s.1, s.2.map (oldEntry hasherNames))).getD ([], [])).1 = (keptModule v x).pfx := by
    unfold keptModule
    cases x.storage <;> rfl
  have e2 : ((x.storage.map fun s => (keptText s.1, s.2.map (oldEntry hasherNames))).getD ([], [])).2 = (keptModule v x).storage := by
    unfold keptModule
    cases x.storage <;> rfl
  by_cases hv : v < 12
  · rw [if_pos hv]
    refine settles_if hv ?_
    rw [e1, e2]
    have : keptModule v x = ⟨keptText x.name, (keptModule v x).pfx, (keptModule v x).storage, x.calls.map fun l => l.map oldCall,
        x.event.map fun l => l.map oldEvent, x.constants.map oldConst, x.errors.map fun e => (keptText e.1, e.2.map keptText), 0⟩ := by
      unfold keptModule
      simp [hv]
    rw [this]
    exact settles_pure _
  · rw [if_neg hv]
    refine settles_ifn hv ?_
    refine settles_last (settles_int (C07_decode env ctx b!"U8" 1 x.index [] (by simp) f7 h.u8)) ?_
    rw [e1, e2]
    have : keptModule v x = ⟨keptText x.name, (keptModule v x).pfx, (keptModule v x).storage, (x.calls.map fun l => l.map oldCall).bind appended,
        (x.event.map fun l => l.map oldEvent).bind appended, x.constants.map oldConst, x.errors.map fun e => (keptText e.1, e.2.map keptText),
        x.index⟩ := by
      unfold keptModule
      simp [hv]
    rw [this]
    exact settles_pure _

theorem settles_extrinsic12 (h : ReadsOld env ctx) {xv : Nat} {l : List Str} {b : Str} (hw : WList WText l b) (hv : xv < 256)
    (hf : FList FText l) :
    Settles (fun n => readExtrinsic12 (pau env n) ctx) (Spec.leBytes 1 xv ++ b) ⟨l.map keptText, []⟩ := by
  have d1 := C07_decode env ctx b!"u8" 1 xv [] (by simp) hv h.byte
  obtain ⟨w, d2, r2, _⟩ := reads_list (P := WText) (F := FText) (read := jsonText) (k := keptText) h.len h.manyBytes rfl
    (fun s b hw hf => by
      obtain ⟨c, hc, rfl⟩ := hw
      exact ⟨_, C19_decode env ctx _ _ .bytes s c (by simp) h.bytes h.len hf hc, by simp [jsonText, keptText, shown]⟩) hw hf
  have := C22_decode env ctx b!"ExtrinsicMetadata" [] [⟨b!"version", _, _, Spec.leBytes 1 xv, []⟩,
    ⟨b!"signedExtensions", _, w, b, []⟩] (by simp) h.extrinsic (by
      simp only [List.mem_cons, List.not_mem_nil, or_false]; rintro f (rfl | rfl) <;> assumption)
  refine settles_last (settles_decodes (by simpa [bytesOf, callsOf] using this)) ?_
  show Settles (fun _ st => jsonList jsonText w >>= fun ids => Res.ok ((⟨ids, []⟩ : ExtrinsicMeta), st)) [] _
  rw [r2]
  exact settles_pure _

end

/-! ## The tables -/

theorem appended_getD {α : Type} (o : Option (List α)) : (o.bind appended).getD [] = o.getD [] := by
  cases o with
  | none => rfl
  | some l => cases l <;> rfl

/-- The module as the tables see it. -/
def wireMod (v : Nat) (x : OModule) : MetaModule := (keptModule v x).mod

theorem wireMod_calls (v : Nat) (x : OModule) :
    (wireMod v x).calls.getD [] = (x.calls.getD []).map fun c => ⟨keptText c.name, c.args.map fun a => (keptText a.1, typeText a.2), 0⟩ := by
  have : (keptModule v x).calls.getD [] = (x.calls.getD []).map oldCall := by
    unfold keptModule
    dsimp only
    split
    · cases x.calls <;> rfl
    · rw [appended_getD]
      cases x.calls <;> rfl
  unfold wireMod OldModule.mod
  dsimp only
  have e : ∀ o : Option (List OldCall), (o.map fun l => l.map fun c => (⟨c.name, c.args, 0⟩ : MetaCall)).getD [] =
      (o.getD []).map fun c => ⟨c.name, c.args, 0⟩ := fun o => by cases o <;> rfl
  rw [e, this, List.map_map]
  rfl

theorem wireMod_events (v : Nat) (x : OModule) :
    (wireMod v x).events.getD [] = (x.event.getD []).map fun c => ⟨keptText c.name, c.args.map keptText, [], [], 0⟩ := by
  have : (keptModule v x).events.getD [] = (x.event.getD []).map oldEvent := by
    unfold keptModule
    dsimp only
    split
    · cases x.event <;> rfl
    · rw [appended_getD]
      cases x.event <;> rfl
  unfold wireMod OldModule.mod
  dsimp only
  have e : ∀ o : Option (List OldEvent), (o.map fun l => l.map fun c => ({ name := c.name, args := c.args } : MetaEvent)).getD [] =
      (o.getD []).map fun c => { name := c.name, args := c.args } := fun o => by cases o <;> rfl
  rw [e, this, List.map_map]
  rfl

theorem wireMod_some {v : Nat} (hv : v < 12) (x : OModule) :
    (wireMod v x).calls.isSome = x.calls.isSome ∧ (wireMod v x).events.isSome = x.event.isSome := by
  simp [wireMod, OldModule.mod, keptModule, hv]

theorem getD_some {α : Type} {o : Option (List α)} {i : Nat} {a : α} (h : (o.getD [])[i]? = some a) : o.isSome := by
  cases o with
  | none => cases h
  | some l => rfl

theorem table_calls {v : Nat} {l : List OModule} (hd : DistinctIndex v l) (a b : UInt8) (e : CallEntry) :
    (if v < 12 then callsV11 0 (l.map (wireMod v)) (fun _ => none) else callsV12 (l.map (wireMod v)) (fun _ => none))
      (_root_.Spec.hexText [a, b]) = some e ↔ OldCallOf v l a.toNat b.toNat e := by
  have get : ∀ x, (∃ cs call, (wireMod v x).calls = some cs ∧ cs[b.toNat]? = some call ∧ e = ⟨call.name, (wireMod v x).name, call.args⟩) ↔
      ∃ call, (x.calls.getD [])[b.toNat]? = some call ∧
        e = ⟨keptText call.name, keptText x.name, call.args.map fun a => (keptText a.1, typeText a.2)⟩ := by
    intro x
    have h1 := wireMod_calls v x
    constructor
    · rintro ⟨cs, call, h, h2, rfl⟩
      rw [h, Option.getD_some] at h1
      rw [h1, List.getElem?_map, Option.map_eq_some_iff] at h2
      obtain ⟨c, h2, rfl⟩ := h2
      exact ⟨c, h2, rfl⟩
    · rintro ⟨c, h, rfl⟩
      have h2 : ((wireMod v x).calls.getD [])[b.toNat]? = some ⟨keptText c.name, c.args.map fun a => (keptText a.1, typeText a.2), 0⟩ := by
        rw [h1, List.getElem?_map, h]
        rfl
      obtain ⟨cs, hcs⟩ := Option.isSome_iff_exists.1 (getD_some h2)
      rw [hcs, Option.getD_some] at h2
      exact ⟨cs, _, hcs, h2, rfl⟩
  by_cases hv : v < 12
  · rw [if_pos hv, C37_v11_calls]
    unfold OldCallOf CallModule Spec.CallAt11
    simp only [if_pos hv]
    constructor
    · rintro ⟨before, mod, after, h1, h2, h3⟩
      obtain ⟨l1, l2, rfl, rfl, h4⟩ := List.map_eq_append_iff.1 h1
      obtain ⟨x, l3, rfl, rfl, rfl⟩ := List.map_eq_cons_iff.1 h4
      obtain ⟨call, h5, h6⟩ := (get x).1 h3
      refine ⟨x, call, ⟨l1, l3, rfl, ?_, getD_some h5⟩, h5, h6⟩
      rw [← h2, List.countP_map]
      exact List.countP_congr fun y _ => by simp [(wireMod_some hv y).1]
    · rintro ⟨x, call, ⟨l1, l3, rfl, h2, -⟩, h5, h6⟩
      refine ⟨l1.map (wireMod v), wireMod v x, l3.map (wireMod v), by simp, ?_, (get x).2 ⟨call, h5, h6⟩⟩
      rw [← h2, List.countP_map]
      exact List.countP_congr fun y _ => by simp [(wireMod_some hv y).1]
  · have hi : ∀ x, (wireMod v x).index = x.index := fun x => by simp [wireMod, OldModule.mod, keptModule, hv]
    rw [if_neg hv, C37_v12_calls _ (by rw [List.map_map]; simpa [Function.comp_def, hi] using hd (by omega))]
    unfold OldCallOf CallModule Spec.CallAt12
    simp only [if_neg hv]
    constructor
    · rintro ⟨mod, hm, h1, h2⟩
      obtain ⟨x, hx, rfl⟩ := List.mem_map.1 hm
      obtain ⟨call, h5, h6⟩ := (get x).1 h2
      exact ⟨x, call, ⟨hx, by rw [← hi]; exact h1⟩, h5, h6⟩
    · rintro ⟨x, call, ⟨hx, h1⟩, h5, h6⟩
      exact ⟨_, List.mem_map_of_mem hx, by rw [hi]; exact h1, (get x).2 ⟨call, h5, h6⟩⟩

theorem table_events {v : Nat} {l : List OModule} (hd : DistinctIndex v l) (a b : UInt8) (e : EventEntry) :
    (if v < 12 then eventsV11 0 (l.map (wireMod v)) (fun _ => none) else eventsV12 (l.map (wireMod v)) (fun _ => none))
      (_root_.Spec.hexText [a, b]) = some e ↔ OldEventOf v l a.toNat b.toNat e := by
  have get : ∀ x, (∃ cs ev, (wireMod v x).events = some cs ∧ cs[b.toNat]? = some ev ∧
        e = ⟨ev.name, (wireMod v x).name, ev.args, ev.argsName, ev.argsTypeName⟩) ↔
      ∃ ev, (x.event.getD [])[b.toNat]? = some ev ∧ e = ⟨keptText ev.name, keptText x.name, ev.args.map keptText, [], []⟩ := by
    intro x
    have h1 := wireMod_events v x
    constructor
    · rintro ⟨cs, call, h, h2, rfl⟩
      rw [h, Option.getD_some] at h1
      rw [h1, List.getElem?_map, Option.map_eq_some_iff] at h2
      obtain ⟨c, h2, rfl⟩ := h2
      exact ⟨c, h2, rfl⟩
    · rintro ⟨c, h, rfl⟩
      have h2 : ((wireMod v x).events.getD [])[b.toNat]? = some ⟨keptText c.name, c.args.map keptText, [], [], 0⟩ := by
        rw [h1, List.getElem?_map, h]
        rfl
      obtain ⟨cs, hcs⟩ := Option.isSome_iff_exists.1 (getD_some h2)
      rw [hcs, Option.getD_some] at h2
      exact ⟨cs, _, hcs, h2, rfl⟩
  by_cases hv : v < 12
  · rw [if_pos hv, C37_v11_events]
    unfold OldEventOf EventModule Spec.EventAt11
    simp only [if_pos hv]
    constructor
    · rintro ⟨before, mod, after, h1, h2, h3⟩
      obtain ⟨l1, l2, rfl, rfl, h4⟩ := List.map_eq_append_iff.1 h1
      obtain ⟨x, l3, rfl, rfl, rfl⟩ := List.map_eq_cons_iff.1 h4
      obtain ⟨call, h5, h6⟩ := (get x).1 h3
      refine ⟨x, call, ⟨l1, l3, rfl, ?_, getD_some h5⟩, h5, h6⟩
      rw [← h2, List.countP_map]
      exact List.countP_congr fun y _ => by simp [(wireMod_some hv y).2]
    · rintro ⟨x, call, ⟨l1, l3, rfl, h2, -⟩, h5, h6⟩
      refine ⟨l1.map (wireMod v), wireMod v x, l3.map (wireMod v), by simp, ?_, (get x).2 ⟨call, h5, h6⟩⟩
      rw [← h2, List.countP_map]
      exact List.countP_congr fun y _ => by simp [(wireMod_some hv y).2]
  · have hi : ∀ x, (wireMod v x).index = x.index := fun x => by simp [wireMod, OldModule.mod, keptModule, hv]
    rw [if_neg hv, C37_v12_events _ (by rw [List.map_map]; simpa [Function.comp_def, hi] using hd (by omega))]
    unfold OldEventOf EventModule Spec.EventAt12
    simp only [if_neg hv]
    constructor
    · rintro ⟨mod, hm, h1, h2⟩
      obtain ⟨x, hx, rfl⟩ := List.mem_map.1 hm
      obtain ⟨call, h5, h6⟩ := (get x).1 h2
      exact ⟨x, call, ⟨hx, by rw [← hi]; exact h1⟩, h5, h6⟩
    · rintro ⟨x, call, ⟨hx, h1⟩, h5, h6⟩
      exact ⟨_, List.mem_map_of_mem hx, by rw [hi]; exact h1, (get x).2 ⟨call, h5, h6⟩⟩

/-! ## The whole -/

/-- What comes of the modules and extensions. -/
def oldOut (v : Nat) (reg : RegState) (l : List OModule) (exts : List Str) : OldOut where
  modules := l.map (keptModule v)
  callIndex := if v < 12 then callsV11 0 (l.map (wireMod v)) (fun _ => none) else callsV12 (l.map (wireMod v)) (fun _ => none)
  eventIndex := if v < 12 then eventsV11 0 (l.map (wireMod v)) (fun _ => none) else eventsV12 (l.map (wireMod v)) (fun _ => none)
  extrinsic := if v < 12 then none else some ⟨exts.map keptText, []⟩
  reg := if v < 13 then reg else { reg with env := registerOriginCaller reg.env (l.map fun x => (keptText x.name, x.index)) }

theorem settles_old {v : Nat} {reg : RegState} {ctx : Ctx} (h : ReadsOld reg.env ctx) {l : List OModule} {xv : Nat} {exts : List Str}
    {b1 b2 : Str} (h1 : WList (EncOModule v) l b1) (h2 : WList WText exts b2) (hf : FOld v l xv exts) :
    Settles (fun n => processOld v n reg ctx) (b1 ++ if v < 12 then [] else Spec.leBytes 1 xv ++ b2) (oldOut v reg l exts) := by
  refine settles_step (settles_vec h.len (settles_oldModule h) h1 hf.1) ?_
  have e : (l.map (keptModule v)).map OldModule.mod = l.map (wireMod v) := by rw [List.map_map]; rfl
  by_cases hv : v < 12
  · rw [if_pos hv]
    refine settles_if hv ?_
    rw [e]
    have : oldOut v reg l exts = ⟨l.map (keptModule v), callsV11 0 (l.map (wireMod v)) (fun _ => none),
        eventsV11 0 (l.map (wireMod v)) (fun _ => none), none, reg⟩ := by
      simp [oldOut, hv, show v < 13 by omega]
    rw [this]
    exact settles_pure _
  · rw [if_neg hv]
    refine settles_ifn hv ?_
    refine settles_last (settles_extrinsic12 h h2 hf.2.1 hf.2.2) ?_
    rw [e, List.map_map]
    have : oldOut v reg l exts = ⟨l.map (keptModule v), callsV12 (l.map (wireMod v)) (fun _ => none),
        eventsV12 (l.map (wireMod v)) (fun _ => none), some ⟨exts.map keptText, []⟩,
        { reg with env := if v < 13 then reg.env else registerOriginCaller reg.env (l.map ((fun m => (m.name, m.index)) ∘ keptModule v)) }⟩ := by
      have : l.map ((fun m => (m.name, m.index)) ∘ keptModule v) = l.map fun x => (keptText x.name, x.index) :=
        List.map_congr_left fun x _ => by simp [keptModule, hv]
      rw [this]
      unfold oldOut
      by_cases hv2 : v < 13 <;> simp [hv, hv2]
    rw [this]
    exact settles_pure _

theorem described_module (v : Nat) (x : OModule) : DescribedModule v hasherNames x (keptModule v x) := by
  refine ⟨rfl, rfl, rfl, ?_, ?_, rfl, rfl, fun h => ?_⟩
  · unfold keptModule
    dsimp only
    split
    · cases x.calls <;> rfl
    · rw [appended_getD]
      cases x.calls <;> rfl
  · unfold keptModule
    dsimp only
    split
    · cases x.event <;> rfl
    · rw [appended_getD]
      cases x.event <;> rfl
  · simp [keptModule, show ¬ v < 12 by omega]

/-- What the library makes of metadata of versions 9 to 13, exactly: the hashers have the names of version 11 and later; before
version 12 there are no extensions, and those of version 11 are not read at all; otherwise everything is read. -/
theorem C82_exact (v : Nat) (reg : RegState) (ctx : Ctx) (l : List OModule) (xv : Nat) (exts : List Str) (b : Str)
    (h : ReadsOld reg.env ctx) (hf : FOld v l xv exts) (hd : DistinctIndex v l) (hw : EncOld v l xv exts b) :
    ∃ out read rest, b = read ++ rest ∧ (v ≠ 11 → rest = []) ∧ Settles (fun n => processOld v n reg ctx) read out ∧
      DescribedOld v hasherNames l (if v < 12 then none else some exts) out ∧
      out.reg = if v < 13 then reg else { reg with env := registerOriginCaller reg.env (l.map fun x => (keptText x.name, x.index)) } := by
  obtain ⟨b1, b2, h1, h2, rfl⟩ := hw
  refine ⟨oldOut v reg l exts, b1 ++ (if v < 12 then [] else Spec.leBytes 1 xv ++ b2), if v = 11 then Spec.leBytes 1 xv ++ b2 else [], ?_, ?_,
    settles_old h h1 h2 hf, ⟨?_, table_calls hd, table_events hd, ?_⟩, rfl⟩
  · by_cases hv : v < 12
    · by_cases hv2 : v < 11
      · simp [hv, hv2, show v ≠ 11 by omega]
      · simp [show v = 11 by omega]
    · simp [hv, show v ≠ 11 by omega, show ¬ v < 11 by omega]
  · intro h
    rw [if_neg h]
  · show List.Forall₂ _ l (l.map (keptModule v))
    rw [List.forall₂_map_right_iff]
    exact List.forall₂_same.2 fun x _ => described_module v x
  · show (if v < 12 then none else some _) = _
    split <;> rfl

theorem Settles.gives {α : Type} {f : Nat → Dec α} {read rest : Str} {a : α} (h : Settles f read a) (hl : (read ++ rest).length < 2 ^ 63) :
    Gives f (read ++ rest) a := by
  obtain ⟨N, h⟩ := h
  exact ⟨N, fun n hn => ⟨_, h n hn [] rest [] (by simpa using hl)⟩⟩

theorem gives_unique {α : Type} {f : Nat → Dec α} {b : Str} {a c : α} (h1 : Gives f b a) (h2 : Gives f b c) : a = c := by
  obtain ⟨N, h1⟩ := h1
  obtain ⟨M, h2⟩ := h2
  obtain ⟨_, e1⟩ := h1 (N + M) (by omega)
  obtain ⟨_, e2⟩ := h2 (N + M) (by omega)
  rw [e1] at e2
  injection e2 with e2
  exact (Prod.mk.inj e2).1

/-! ## The claim apart from the hashers of version 9 and the extensions of version 11 -/

/-- The numbers of the hashers in the type of an entry. -/
def kindHashers : OKind → List Nat
  | .plain _ => []
  | .map h _ _ _ => [h]
  | .double h _ _ _ h2 => [h, h2]
  | .nmap _ hs _ => hs

/-- In version 9 only the first two hashers occur, which have the same numbers in all versions. -/
def FirstHashers (v : Nat) (l : List OModule) : Prop :=
  v = 9 → ∀ x ∈ l, ∀ s ∈ x.storage, ∀ e ∈ s.2, ∀ h ∈ kindHashers e.kind, h < 2

theorem hasher_name {v h : Nat} (hv : 9 ≤ v) (hl : h < (hasherNamesOf v).length) (hh : v = 9 → h < 2) :
    hasherNames[h]?.getD [] = (hasherNamesOf v)[h]?.getD [] := by
  by_cases h9 : v = 9
  · subst h9
    have : ∀ h < 2, hasherNames[h]?.getD [] = (hasherNamesOf 9)[h]?.getD [] := by decide
    exact this h (hh rfl)
  · by_cases h10 : v = 10
    · subst h10
      have : ∀ h < (hasherNamesOf 10).length, hasherNames[h]?.getD [] = (hasherNamesOf 10)[h]?.getD [] := by decide
      exact this h hl
    · have : hasherNamesOf v = hasherNames := by
        simp [hasherNamesOf, show ¬ v < 10 by omega, show ¬ v < 11 by omega, hasherNames]
      rw [this]

theorem kind_name {v : Nat} {k : OKind} (hv : 9 ≤ v) (hf : FOKind v k) (hh : v = 9 → ∀ h ∈ kindHashers k, h < 2) :
    oldKind hasherNames k = oldKind (hasherNamesOf v) k := by
  cases k with
  | plain t => rfl
  | map h k x l =>
    simp only [oldKind]
    rw [hasher_name hv hf.1 fun e => hh e h (by simp [kindHashers])]
  | double h k k2 x h2 =>
    simp only [oldKind]
    rw [hasher_name hv hf.1 fun e => hh e h (by simp [kindHashers]), hasher_name hv hf.2.2.2.2 fun e => hh e h2 (by simp [kindHashers])]
  | nmap ks hs x =>
    simp only [oldKind]
    rw [List.map_congr_left fun h hm => hasher_name hv (hf.2.2.1.2 h hm) fun e => hh e h hm]

/-- Metadata of versions 9 to 13 gives what it describes, provided that in version 9 only the first two hashers occur; the
extensions are those described, except in version 11, where there are none. -/
theorem C82_partial (v : Nat) (reg : RegState) (ctx : Ctx) (l : List OModule) (xv : Nat) (exts : List Str) (b : Str) (h9 : 9 ≤ v)
    (h : ReadsOld reg.env ctx) (hf : FOld v l xv exts) (hd : DistinctIndex v l) (hw : EncOld v l xv exts b) (hl : b.length < 2 ^ 63)
    (hh : FirstHashers v l) :
    ∃ out, Gives (fun n => processOld v n reg ctx) b out ∧ DescribedOld v (hasherNamesOf v) l (if v < 12 then none else some exts) out := by
  obtain ⟨out, read, rest, rfl, -, h1, h2, -⟩ := C82_exact v reg ctx l xv exts b h hf hd hw
  refine ⟨out, h1.gives hl, ?_, h2.calls, h2.events, h2.extrinsic⟩
  have : ∀ x ∈ l, ∀ m, DescribedModule v hasherNames x m → DescribedModule v (hasherNamesOf v) x m := by
    intro x hx m hm
    refine { hm with storage := hm.storage.trans ?_ }
    cases hs : x.storage with
    | none => rfl
    | some s =>
      show s.2.map _ = s.2.map _
      refine List.map_congr_left fun e he => ?_
      have fe := ((hf.1.2 x hx).2.1 s (by simp [hs])).2.2 e he
      unfold oldEntry
      rw [kind_name h9 fe.2.2.1 fun e9 i hi => hh e9 x hx s (by simp [hs]) e he i hi]
  have m := h2.modules
  generalize out.modules = ms at m
  clear h1 h2 hf hd hw hh hl
  induction m with
  | nil => exact .nil
  | cons a _ ih => exact .cons (this _ (by simp) _ a) (ih fun x hx => this x (List.mem_cons_of_mem _ hx))

/-- Whatever fits can be written. -/
theorem C82_written (v : Nat) (l : List OModule) (xv : Nat) (exts : List Str) (hf : FOld v l xv exts) : ∃ b, EncOld v l xv exts b := by
  have text : ∀ s, FText s → ∃ b, WText s b := fun s h => by
    obtain ⟨c, hc⟩ := isCompact_exists s.length (Nat.lt_trans h (by decide))
    exact ⟨_, c, hc, rfl⟩
  have texts : ∀ l, FList FText l → ∃ b, WList WText l b := fun l h => wList_exists text l h
  have kind : ∀ k, FOKind v k → ∃ b, EncOKind k b := fun k h => by
    cases k with
    | plain t => obtain ⟨b, hb⟩ := text t h; exact ⟨_, b, hb, rfl⟩
    | map i k x l =>
      obtain ⟨b1, h1⟩ := text k h.2.1
      obtain ⟨b2, h2⟩ := text x h.2.2
      exact ⟨_, b1, b2, h1, h2, rfl⟩
    | double i k k2 x i2 =>
      obtain ⟨b1, h1⟩ := text k h.2.1
      obtain ⟨b2, h2⟩ := text k2 h.2.2.1
      obtain ⟨b3, h3⟩ := text x h.2.2.2.1
      exact ⟨_, b1, b2, b3, h1, h2, h3, rfl⟩
    | nmap ks hs x =>
      obtain ⟨b1, h1⟩ := texts ks h.2.1
      obtain ⟨b2, h2⟩ := wList_exists (P := fun h b => b = Spec.leBytes 1 h) (fun a _ => ⟨_, rfl⟩) hs h.2.2.1
      obtain ⟨b3, h3⟩ := text x h.2.2.2
      exact ⟨_, b1, b2, b3, h1, h2, h3, rfl⟩
  have entry : ∀ x, FOEntry v x → ∃ b, EncOEntry x b := fun x h => by
    obtain ⟨b1, h1⟩ := text _ h.1
    obtain ⟨b3, h3⟩ := kind _ h.2.2.1
    obtain ⟨b4, h4⟩ := text _ h.2.2.2.1
    obtain ⟨b5, h5⟩ := texts x.docs h.2.2.2.2
    exact ⟨_, b1, b3, b4, b5, h1, h3, h4, h5, rfl⟩
  have const : ∀ x, FOConst x → ∃ b, EncOConst x b := fun x h => by
    obtain ⟨b1, h1⟩ := text _ h.1
    obtain ⟨b2, h2⟩ := text _ h.2.1
    obtain ⟨b3, h3⟩ := text _ h.2.2.1
    obtain ⟨b4, h4⟩ := texts x.docs h.2.2.2
    exact ⟨_, b1, b2, b3, b4, h1, h2, h3, h4, rfl⟩
  have call : ∀ x, FOCall x → ∃ b, EncOCall x b := fun x h => by
    obtain ⟨b1, h1⟩ := text _ h.1
    obtain ⟨b2, h2⟩ := wList_exists (P := EncOArg) (F := fun a => FText a.1 ∧ FText a.2) (fun a h => by
      obtain ⟨c, hc⟩ := text _ h.1
      obtain ⟨d, hd⟩ := text _ h.2
      exact ⟨_, c, d, hc, hd, rfl⟩) x.args h.2.1
    obtain ⟨b3, h3⟩ := texts x.docs h.2.2
    exact ⟨_, b1, b2, b3, h1, h2, h3, rfl⟩
  have event : ∀ x, FOEvent x → ∃ b, EncOEvent x b := fun x h => by
    obtain ⟨b1, h1⟩ := text _ h.1
    obtain ⟨b2, h2⟩ := texts x.args h.2.1
    obtain ⟨b3, h3⟩ := texts x.docs h.2.2
    exact ⟨_, b1, b2, b3, h1, h2, h3, rfl⟩
  have error : ∀ x, FOError x → ∃ b, EncOError x b := fun x h => by
    obtain ⟨b1, h1⟩ := text _ h.1
    obtain ⟨b2, h2⟩ := texts x.2 h.2
    exact ⟨_, b1, b2, h1, h2, rfl⟩
  obtain ⟨b1, h1⟩ := wList_exists (P := EncOModule v) (fun x (h : FOModule v x) => by
    obtain ⟨b1, h1⟩ := text _ h.1
    obtain ⟨b2, h2⟩ := wOpt_exists (P := EncOStorage) (F := fun s => FText s.1 ∧ FList (FOEntry v) s.2) (fun s h => by
      obtain ⟨c, hc⟩ := text _ h.1
      obtain ⟨d, hd⟩ := wList_exists entry s.2 h.2
      exact ⟨_, c, d, hc, hd, rfl⟩) x.storage h.2.1
    obtain ⟨b3, h3⟩ := wOpt_exists (fun l h => wList_exists call l h) x.calls h.2.2.1
    obtain ⟨b4, h4⟩ := wOpt_exists (fun l h => wList_exists event l h) x.event h.2.2.2.1
    obtain ⟨b5, h5⟩ := wList_exists const x.constants h.2.2.2.2.1
    obtain ⟨b6, h6⟩ := wList_exists error x.errors h.2.2.2.2.2.1
    exact ⟨_, b1, b2, b3, b4, b5, b6, h1, h2, h3, h4, h5, h6, rfl⟩) l hf.1
  obtain ⟨b2, h2⟩ := texts exts hf.2.2
  exact ⟨_, b1, b2, h1, h2, rfl⟩

/-! ## The claim is false: the third hasher of version 9 -/

/-- A module whose only entry is a map with the hasher number 2. -/
def twoxModule : OModule := ⟨b!"M", some (b!"P", [⟨b!"E", 0, .map 2 b!"u8" b!"u8" false, [0], []⟩]), none, none, [], [], 0⟩

/-- Its encoding. -/
def twoxBytes : Str :=
  [4, 4, 77, 1, 4, 80, 4, 4, 69, 0, 1, 2, 8, 117, 56, 8, 117, 56, 0, 4, 0, 0, 0, 0, 0, 0]

theorem twox_written : EncOld 9 [twoxModule] 0 [] twoxBytes := by
  have one : Spec.IsCompact 1 [4] := .inl ⟨by decide, by decide⟩
  have two : Spec.IsCompact 2 [8] := .inl ⟨by decide, by decide⟩
  have zero : Spec.IsCompact 0 [0] := .inl ⟨by decide, by decide⟩
  have u8 : WText b!"u8" [8, 117, 56] := ⟨[8], two, rfl⟩
  have nil : ∀ {α : Type} (P : α → Str → Prop), WList P [] [0] := fun P => ⟨[0], [], zero, rfl, rfl⟩
  have kind : EncOKind (.map 2 b!"u8" b!"u8" false) [1, 2, 8, 117, 56, 8, 117, 56, 0] := ⟨_, _, u8, u8, rfl⟩
  have entry : EncOEntry ⟨b!"E", 0, .map 2 b!"u8" b!"u8" false, [0], []⟩ [4, 69, 0, 1, 2, 8, 117, 56, 8, 117, 56, 0, 4, 0, 0] :=
    ⟨[4, 69], _, [4, 0], [0], ⟨[4], one, rfl⟩, kind, ⟨[4], one, rfl⟩, nil _, rfl⟩
  have storage : EncOStorage (b!"P", [⟨b!"E", 0, .map 2 b!"u8" b!"u8" false, [0], []⟩])
      [4, 80, 4, 4, 69, 0, 1, 2, 8, 117, 56, 8, 117, 56, 0, 4, 0, 0] :=
    ⟨[4, 80], _, ⟨[4], one, rfl⟩, ⟨[4], _, one, ⟨_, [], entry, rfl, rfl⟩, rfl⟩, rfl⟩
  have mod : EncOModule 9 twoxModule [4, 77, 1, 4, 80, 4, 4, 69, 0, 1, 2, 8, 117, 56, 8, 117, 56, 0, 4, 0, 0, 0, 0, 0, 0] :=
    ⟨[4, 77], _, [0], [0], [0], [0], ⟨[4], one, rfl⟩, ⟨_, storage, rfl⟩, rfl, rfl, nil _, nil _, rfl⟩
  exact ⟨_, [0], ⟨[4], _, one, ⟨_, [], mod, rfl, rfl⟩, rfl⟩, nil _, rfl⟩

theorem twox_fits : FOld 9 [twoxModule] 0 [] := by
  have t : ∀ s : Str, s.length ≤ 2 → FText s := fun s h => Nat.lt_of_le_of_lt h (by decide)
  have nil : ∀ {α : Type} (P : α → Prop), FList P [] := fun P => ⟨by simp, by simp⟩
  refine ⟨⟨by simp, ?_⟩, by decide, nil _⟩
  intro x hx
  obtain rfl := List.mem_singleton.1 hx
  refine ⟨t _ (by decide), ?_, by simp [twoxModule], by simp [twoxModule], nil _, nil _, by decide⟩
  intro s hs
  obtain rfl : _ = s := by simpa [twoxModule] using hs
  refine ⟨t _ (by decide), by simp, ?_⟩
  intro e he
  obtain rfl := List.mem_singleton.1 he
  exact ⟨t _ (by decide), by decide, ⟨by decide, t _ (by decide), t _ (by decide)⟩, t _ (by decide), nil _⟩

/-- In version 9 the hasher number 2 is `Twox128`; the library takes it for `Blake2_128Concat`. -/
theorem C82_claim_false : ¬ C82Claim := by
  intro h
  have hr := loaded_readsOld dummyExt 0 none
  obtain ⟨out, h1, h2⟩ := h 9 ⟨loadedEnv dummyExt, fun _ => none⟩ 0 none [twoxModule] 0 [] twoxBytes (by decide) (by decide) hr twox_fits
    (fun h => absurd h (by decide)) twox_written (by decide)
  obtain ⟨out2, read, rest, e, -, h3, h4, -⟩ := C82_exact 9 ⟨loadedEnv dummyExt, fun _ => none⟩ ⟨[], 0, none⟩ [twoxModule] 0 [] twoxBytes hr twox_fits
    (fun h => absurd h (by decide)) twox_written
  have h3 := h3.gives (rest := rest) (by rw [← e]; decide)
  rw [← e] at h3
  obtain rfl := gives_unique h1 h3
  have a := h2.modules
  have b := h4.modules
  generalize out.modules = ms at a b
  cases a with
  | cons a _ =>
    cases b with
    | cons b _ =>
      have := a.storage.symm.trans b.storage
      revert this
      simp [twoxModule, oldEntry, oldKind, hasherNames, hasherNamesOf]

/-- The hypotheses are met: the module above in version 9. -/
example : ∃ out read rest, twoxBytes = read ++ rest ∧ Settles (fun n => processOld 9 n ⟨loadedEnv dummyExt, fun _ => none⟩ ⟨[], 0, none⟩) read out ∧
    DescribedOld 9 hasherNames [twoxModule] none out := by
  obtain ⟨out, read, rest, e, -, h1, h2, -⟩ := C82_exact 9 ⟨loadedEnv dummyExt, fun _ => none⟩ ⟨[], 0, none⟩ [twoxModule] 0 [] twoxBytes
    (loaded_readsOld dummyExt 0 none) twox_fits (fun h => absurd h (by decide)) twox_written
  exact ⟨out, read, rest, e, h1, h2⟩

/-- Two modules of version 13: one with a map of two keys, a call with an argument, an event and a constant; one with an error. -/
def modules13 : List OModule :=
  [⟨b!"Assets", some (b!"As", [⟨b!"Account", 1, .nmap [b!"u32", b!"u64"] [2, 6] b!"u8", [0], [b!"doc"]⟩]),
      some [⟨b!"mint", [(b!"id", b!"Compact<u32>"), (b!"n", b!"u64")], []⟩], some [⟨b!"Minted", [b!"u32"], []⟩],
      [⟨b!"Max", b!"u32", [1, 0, 0, 0], []⟩], [], 7⟩,
    ⟨b!"Sudo", none, none, none, [], [(b!"NotRoot", [b!"doc"])], 3⟩]

theorem modules13_fit : FOld 13 modules13 4 [b!"CheckEra"] := by
  have t : ∀ s : Str, s.length ≤ 20 → FText s := fun s h => Nat.lt_of_le_of_lt h (by decide)
  have nil : ∀ {α : Type} (P : α → Prop), FList P [] := fun P => ⟨by simp, by simp⟩
  have one : ∀ {α : Type} (P : α → Prop) (a : α), P a → FList P [a] := fun P a h => ⟨by simp, by simpa using h⟩
  have two : ∀ {α : Type} (P : α → Prop) (a b : α), P a → P b → FList P [a, b] := fun P a b h k => ⟨by simp, by simp [h, k]⟩
  refine ⟨two _ _ _ ?_ ?_, by decide, one _ _ (t _ (by decide))⟩
  · refine ⟨t _ (by decide), ?_, ?_, ?_, one _ _ ?_, nil _, by decide⟩
    · rintro s ⟨⟩
      exact ⟨t _ (by decide), one _ _ ⟨t _ (by decide), by decide, ⟨rfl, two _ _ _ (t _ (by decide)) (t _ (by decide)),
        two _ _ _ (by decide) (by decide), t _ (by decide)⟩, t _ (by decide), one _ _ (t _ (by decide))⟩⟩
    · rintro s ⟨⟩
      exact one _ _ ⟨t _ (by decide), two _ _ _ ⟨t _ (by decide), t _ (by decide)⟩ ⟨t _ (by decide), t _ (by decide)⟩, nil _⟩
    · rintro s ⟨⟩
      exact one _ _ ⟨t _ (by decide), one _ _ (t _ (by decide)), nil _⟩
    · exact ⟨t _ (by decide), t _ (by decide), t _ (by decide), nil _⟩
  · exact ⟨t _ (by decide), nofun, nofun, nofun, nil _, one _ _ ⟨t _ (by decide), one _ _ (t _ (by decide))⟩, by decide⟩

/-- However they are written, the call `0x0700` is the call of the first of them. -/
example (b : Str) (hw : EncOld 13 modules13 4 [b!"CheckEra"] b) (hl : b.length < 2 ^ 63) :
    ∃ out, Gives (fun n => processOld 13 n ⟨loadedEnv dummyExt, fun _ => none⟩ ⟨[], 0, none⟩) b out ∧
      out.callIndex b!"0700" = some ⟨b!"mint", b!"Assets", [(b!"id", b!"Compact<u32>"), (b!"n", b!"u64")]⟩ ∧
      out.extrinsic = some ⟨[b!"CheckEra"], []⟩ := by
  obtain ⟨out, h1, h2⟩ := C82_partial 13 ⟨loadedEnv dummyExt, fun _ => none⟩ ⟨[], 0, none⟩ modules13 4 [b!"CheckEra"] b (by decide)
    (loaded_readsOld dummyExt 0 none) modules13_fit (fun _ => by decide) hw hl (fun h => absurd h (by decide))
  refine ⟨out, h1, ?_, h2.extrinsic.trans (by kernel_rfl)⟩
  have := (h2.calls 7 0 ⟨b!"mint", b!"Assets", [(b!"id", b!"Compact<u32>"), (b!"n", b!"u64")]⟩).2
    ⟨_, _, ⟨List.mem_cons_self, rfl⟩, rfl, by kernel_rfl⟩
  exact this

example : ∃ b, EncOld 13 modules13 4 [b!"CheckEra"] b := C82_written 13 modules13 4 _ modules13_fit

end ScaleGo
