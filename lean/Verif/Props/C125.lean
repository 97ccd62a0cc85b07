import Verif.Props.C84
import Verif.Props.C124

/-! # C125: reading metadata without a registry, and only the registry of metadata, ends -/

namespace ScaleGo

open ScaleGo.Spec (DataAsks)
open _root_.Spec (Bounded MetaFile behindMagic)

section
variable {env : Env} {ctx : Ctx}

/-- The texts of V9 to V13 metadata end. -/
theorem old_end (h : ReadsOld env ctx) (hu : ∃ s, Resolves env [] 0 b!"U32" .u32 s) :
    EndsAll env ctx b!"StorageFunctionType" ∧ EndsAll env ctx b!"StorageHasher" ∧ EndsAll env ctx b!"ExtrinsicMetadata" := by
  have leaf : ∀ {t s : Str} {cls : Cls}, Resolves env ctx.module ctx.spec t cls s → (∀ c u, ¬ DataAsks env ctx cls s c u) → EndsAll env ctx t :=
    fun hr hn => all_class h.len hu hr fun c u ha => absurd ha (hn c u)
  have hbyte := leaf h.byte fun c u ha => ha
  have hbytes := leaf h.bytes fun c u ha => ha
  have hmany : EndsAll env ctx b!"Vec<Bytes>" := all_class h.len hu h.manyBytes fun c u ⟨h1, h2⟩ => h1 ▸ h2 ▸ hbytes
  refine ⟨leaf h.oldKind fun c u ha => ha, leaf h.hasher fun c u ha => ha, all_class h.len hu h.extrinsic fun c u ⟨h1, h2⟩ => ?_⟩
  subst h1
  simp only [Option.getD_some, List.map_cons, List.map_nil, List.mem_cons, List.not_mem_nil, or_false] at h2
  rcases h2 with rfl | rfl <;> assumption

/-- The texts by which V9 to V13 metadata are read. -/
structure OldEnds (env : Env) (ctx : Ctx) : Prop where
  pallets : ∀ u ∈ palletTexts, EndsAll env ctx u
  kind : EndsAll env ctx b!"StorageFunctionType"
  hasher : EndsAll env ctx b!"StorageHasher"
  extrinsic : EndsAll env ctx b!"ExtrinsicMetadata"

theorem endsIn_type9 (h : OldEnds env ctx) : EndsIn (fun n => readType9 (pau env n) ctx) := by
  unfold readType9
  refine .bind (endsIn_text (h.pallets _ (by decide))) fun _ => ?_
  dsimp only
  exact .ok _

theorem endsIn_arg (h : OldEnds env ctx) : EndsIn (fun n => readArg (pau env n) ctx) := by
  unfold readArg
  refine .bind (endsIn_text (h.pallets _ (by decide))) fun _ => ?_
  dsimp only
  refine .bind (endsIn_type9 h) fun _ => ?_
  dsimp only
  exact .ok _

theorem endsIn_oldCall (h : OldEnds env ctx) : EndsIn (fun n => readOldCall (pau env n) ctx) := by
  unfold readOldCall
  refine .bind (endsIn_text (h.pallets _ (by decide))) fun _ => ?_
  dsimp only
  refine .bind (endsIn_vec (h.pallets _ (by decide)) (endsIn_arg h)) fun _ => ?_
  dsimp only
  refine .bind (endsIn_strs (h.pallets _ (by decide))) fun _ => ?_
  dsimp only
  exact .ok _

theorem endsIn_oldEvent (h : OldEnds env ctx) : EndsIn (fun n => readOldEvent (pau env n) ctx) := by
  unfold readOldEvent
  refine .bind (endsIn_text (h.pallets _ (by decide))) fun _ => ?_
  dsimp only
  refine .bind (endsIn_strs (h.pallets _ (by decide))) fun _ => ?_
  dsimp only
  refine .bind (endsIn_strs (h.pallets _ (by decide))) fun _ => ?_
  dsimp only
  exact .ok _

theorem endsIn_oldKind (nmap : Bool) (h : OldEnds env ctx) : EndsIn (fun n => readOldKind nmap (pau env n) ctx) := by
  have hh : EndsIn (fun n => readText (pau env n) ctx b!"StorageHasher") := endsIn_text h.hasher
  unfold readOldKind
  refine .bind (endsIn_text h.kind) fun kind => ?_
  dsimp only
  by_cases h1 : kind = b!"MapType"
  · simp only [if_pos h1]
    refine .bind hh fun _ => ?_
    dsimp only
    refine .bind (endsIn_type9 h) fun _ => ?_
    dsimp only
    refine .bind (endsIn_type9 h) fun _ => ?_
    dsimp only
    refine .bind (endsIn_bool (h.pallets _ (by decide))) fun _ => ?_
    dsimp only
    exact .ok _
  by_cases h2 : kind = b!"DoubleMapType"
  · simp only [if_neg h1, if_pos h2]
    refine .bind hh fun _ => ?_
    dsimp only
    refine .bind (endsIn_type9 h) fun _ => ?_
    dsimp only
    refine .bind (endsIn_type9 h) fun _ => ?_
    dsimp only
    refine .bind (endsIn_type9 h) fun _ => ?_
    dsimp only
    refine .bind hh fun _ => ?_
    dsimp only
    exact .ok _
  by_cases h3 : kind = b!"PlainType"
  · simp only [if_neg h1, if_neg h2, if_pos h3]
    refine .bind (endsIn_type9 h) fun _ => ?_
    dsimp only
    exact .ok _
  by_cases h4 : nmap = true ∧ kind = b!"NMap"
  · simp only [if_neg h1, if_neg h2, if_neg h3, if_pos h4]
    refine .bind (endsIn_strs (h.pallets _ (by decide))) fun _ => ?_
    dsimp only
    refine .bind (endsIn_strs (h.pallets _ (by decide))) fun _ => ?_
    dsimp only
    refine .bind (endsIn_type9 h) fun _ => ?_
    dsimp only
    exact .ok _
  · simp only [if_neg h1, if_neg h2, if_neg h3, if_neg h4]
    exact .ok _

theorem endsIn_oldEntry (nmap : Bool) (h : OldEnds env ctx) : EndsIn (fun n => readOldEntry nmap (pau env n) ctx) := by
  unfold readOldEntry
  refine .bind (endsIn_text (h.pallets _ (by decide))) fun _ => ?_
  dsimp only
  refine .bind (endsIn_text (h.pallets _ (by decide))) fun _ => ?_
  dsimp only
  refine .bind (endsIn_oldKind nmap h) fun _ => ?_
  dsimp only
  refine .bind (endsIn_text (h.pallets _ (by decide))) fun _ => ?_
  dsimp only
  refine .bind (endsIn_strs (h.pallets _ (by decide))) fun _ => ?_
  dsimp only
  exact .ok _

theorem endsIn_oldStorage (nmap : Bool) (h : OldEnds env ctx) : EndsIn (fun n => readOldStorage nmap (pau env n) ctx) := by
  unfold readOldStorage
  refine .bind (endsIn_text (h.pallets _ (by decide))) fun _ => ?_
  dsimp only
  refine .bind (endsIn_vec (h.pallets _ (by decide)) (endsIn_oldEntry nmap h)) fun _ => ?_
  dsimp only
  exact .ok _

theorem endsIn_oldConst (h : OldEnds env ctx) : EndsIn (fun n => readOldConst (pau env n) ctx) := by
  unfold readOldConst
  refine .bind (endsIn_text (h.pallets _ (by decide))) fun _ => ?_
  dsimp only
  refine .bind (endsIn_type9 h) fun _ => ?_
  dsimp only
  refine .bind (endsIn_text (h.pallets _ (by decide))) fun _ => ?_
  dsimp only
  refine .bind (endsIn_strs (h.pallets _ (by decide))) fun _ => ?_
  dsimp only
  exact .ok _

theorem endsIn_oldError (h : OldEnds env ctx) : EndsIn (fun n => readOldError (pau env n) ctx) := by
  unfold readOldError
  refine .bind (endsIn_text (h.pallets _ (by decide))) fun _ => ?_
  dsimp only
  refine .bind (endsIn_strs (h.pallets _ (by decide))) fun _ => ?_
  dsimp only
  exact .ok _

theorem endsIn_oldModule (version : Nat) (h : OldEnds env ctx) : EndsIn (fun n => readOldModule version (pau env n) ctx) := by
  have hl := h.pallets b!"Compact<u32>" (by decide)
  have hb := h.pallets b!"bool" (by decide)
  unfold readOldModule
  refine .bind (endsIn_text (h.pallets _ (by decide))) fun _ => ?_
  dsimp only
  refine .bind (endsIn_if hb (endsIn_oldStorage _ h)) fun _ => ?_
  dsimp only
  refine .bind (endsIn_if hb (endsIn_vec hl (endsIn_oldCall h))) fun _ => ?_
  dsimp only
  refine .bind (endsIn_if hb (endsIn_vec hl (endsIn_oldEvent h))) fun _ => ?_
  dsimp only
  refine .bind (endsIn_vec hl (endsIn_oldConst h)) fun _ => ?_
  dsimp only
  refine .bind (endsIn_vec hl (endsIn_oldError h)) fun _ => ?_
  dsimp only
  by_cases hv : version < 12
  · simp only [if_pos hv]
    exact .ok _
  simp only [if_neg hv]
  refine .bind (endsIn_int (h.pallets _ (by decide))) fun _ => ?_
  dsimp only
  exact .ok _

theorem endsIn_extrinsic12 (h : OldEnds env ctx) : EndsIn (fun n => readExtrinsic12 (pau env n) ctx) := by
  unfold readExtrinsic12
  refine .bind (endsIn_pau h.extrinsic) fun v => ?_
  dsimp only
  cases v <;> try exact .panic
  refine .res (k := fun _ ids s => .ok ((⟨ids, []⟩ : ExtrinsicMeta), s)) (jsonList_ne jsonText_ne _) fun _ => .ok _

theorem endsIn_old (version : Nat) (reg : RegState) (h : OldEnds reg.env ctx) : EndsIn (fun n => processOld version n reg ctx) := by
  unfold processOld
  refine .bind (endsIn_vec (h.pallets _ (by decide)) (endsIn_oldModule version h)) fun _ => ?_
  dsimp only
  by_cases hv : version < 12
  · simp only [if_pos hv]
    exact .ok _
  simp only [if_neg hv]
  refine .bind (endsIn_extrinsic12 h) fun _ => ?_
  dsimp only
  exact .ok _

end

/-- The step has one result that is not an endless run, with every budget that is enough. -/
def Arrives {α : Type} (f : Nat → Res α) : Prop := ∃ N r, r ≠ .diverge ∧ ∀ n, N ≤ n → f n = r

/-- V9 to V13 metadata at any position of any data. -/
theorem C125_old (version : Nat) (reg : RegState) (ctx : Ctx) (h : ReadsOld reg.env ctx) (hu : ∃ s, Resolves reg.env [] 0 b!"U32" .u32 s)
    (st : St) (hin : st.cur.off ≤ st.cur.data.length) : Arrives fun n => processOld version n reg ctx st := by
  obtain ⟨h1, h2, h3⟩ := old_end h hu
  exact (endsIn_old version reg ⟨pallets_end h.toReadsPallets hu, h1, h2, h3⟩ st hin).1

theorem Arrives.shift {α : Type} {f : Nat → Res α} (h : Arrives fun n => f (n + 2)) : Arrives f := by
  obtain ⟨N, r, hr, h⟩ := h
  refine ⟨N + 2, r, hr, fun n hn => ?_⟩
  obtain ⟨m, rfl⟩ : ∃ m, n = m + 2 := ⟨n - 2, by omega⟩
  exact h m (by omega)

theorem Arrives.unshift {α : Type} {f : Nat → Res α} (h : Arrives f) : Arrives fun n => f (n + 2) := by
  obtain ⟨N, r, hr, h⟩ := h
  exact ⟨N, r, hr, fun n hn => h (n + 2) (by omega)⟩

theorem Arrives.const {α : Type} {r : Res α} (h : r ≠ .diverge) : Arrives fun _ => r := ⟨0, r, h, fun _ _ => rfl⟩

theorem Arrives.bind {α β : Type} {f : Nat → Res α} {k : α → Res β} (h : Arrives f) (hk : ∀ a, k a ≠ .diverge) : Arrives fun n => (f n).bind k := by
  obtain ⟨N, r, hr, h⟩ := h
  refine ⟨N, r.bind k, ?_, fun n hn => by dsimp only; rw [h n hn]⟩
  cases r with
  | ok a => exact hk a
  | panic => exact nofun
  | diverge => exact absurd rfl hr

theorem pre_length {data pre b : Str} (h : data = pre ++ b) : pre.length = data.length - b.length := by
  rw [h, List.length_append]
  omega

/-- With a version that is supported, all depends on what follows. -/
theorem arrives_body {reg : RegState} {ctx : Ctx} (hR : ReadsRoot reg.env ctx) {data : Str} (hl : Bounded data) {v : UInt8} {b : Str}
    (hb : behindMagic data = some (v :: b)) (h9 : 9 ≤ v.toNat) (h15 : v.toNat ≤ 15) (n : Nat) : decodeMetadata (n + 2) reg ctx data =
      (processBody v.toNat (n + 2) reg ctx ⟨⟨data, data.length - b.length⟩, []⟩).bind fun p =>
        .ok (some ⟨versionNames[v.toNat]?.getD [], v.toNat, p.1⟩) := by
  obtain ⟨pre, hp, h⟩ := (decode_eq hR n data hl).2.2 v b hb
  rw [h, if_pos ⟨h9, h15⟩, pre_length hp]

/-- The decoder of metadata, on all data that are not metadata of version 14 or 15. -/
theorem C125_tables (reg : RegState) (ctx : Ctx) (hR : ReadsRoot reg.env ctx) (hO : ReadsOld reg.env ctx)
    (hu : ∃ s, Resolves reg.env [] 0 b!"U32" .u32 s) (data : Str) (hl : Bounded data)
    (hv : ∀ v b, behindMagic data = some (v :: b) → v ≠ 14 ∧ v ≠ 15) : Arrives fun n => decodeMetadata n reg ctx data := by
  refine .shift ?_
  cases hb : behindMagic data with
  | none => exact ⟨0, .ok none, nofun, fun n _ => (decode_eq hR n data hl).1 hb⟩
  | some r =>
    cases r with
    | nil => exact ⟨0, .panic, nofun, fun n _ => (decode_eq hR n data hl).2.1 hb⟩
    | cons v b =>
      by_cases h9 : 9 ≤ v.toNat ∧ v.toNat ≤ 15
      · have h14 : v.toNat ≠ 14 := fun h => (hv v b hb).1 (UInt8.toNat_inj.mp h)
        have h15 : v.toNat ≠ 15 := fun h => (hv v b hb).2 (UInt8.toNat_inj.mp h)
        have := (C125_old v.toNat reg ctx hO hu ⟨⟨data, data.length - b.length⟩, []⟩ (Nat.sub_le _ _)).unshift
        simp only [arrives_body hR hl hb h9.1 h9.2]
        refine .bind (f := fun n => processBody v.toNat (n + 2) reg ctx _) ?_ nofun
        simp only [processBody, if_neg h14, if_neg h15]
        exact this.bind (k := fun p => .ok (MetaBody.old p.1, p.2)) nofun
      · refine ⟨0, .panic, nofun, fun n _ => ?_⟩
        obtain ⟨pre, -, h⟩ := (decode_eq hR n data hl).2.2 v b hb
        dsimp only
        rw [h, if_neg h9]

/-- Metadata of version 14 or 15 end exactly when what is behind the version does. -/
theorem C125_newer (reg : RegState) (ctx : Ctx) (hR : ReadsRoot reg.env ctx) (data b : Str) (hl : Bounded data) (n : Nat) (hn : 2 ≤ n) :
    (behindMagic data = some (14 :: b) → (decodeMetadata n reg ctx data = .diverge ↔
      processV14 n reg ctx ⟨⟨data, data.length - b.length⟩, []⟩ = .diverge)) ∧
    (behindMagic data = some (15 :: b) → (decodeMetadata n reg ctx data = .diverge ↔
      processV15 n reg ctx ⟨⟨data, data.length - b.length⟩, []⟩ = .diverge)) := by
  obtain ⟨n, rfl⟩ : ∃ m, n = m + 2 := ⟨n - 2, by omega⟩
  have e : ∀ {α β : Type} (r : Res α) (k : α → β), (r.bind fun a => .ok (k a)) = .diverge ↔ r = .diverge := by
    intro α β r k
    cases r <;> simp [Res.bind]
  refine ⟨fun hb => ?_, fun hb => ?_⟩
  · rw [arrives_body hR hl hb (by decide) (by decide), e]
    exact e (processV14 (n + 2) reg ctx ⟨⟨data, data.length - b.length⟩, []⟩) fun p => (MetaBody.v14 p.1, p.2)
  · rw [arrives_body hR hl hb (by decide) (by decide), e]
    exact e (processV15 (n + 2) reg ctx ⟨⟨data, data.length - b.length⟩, []⟩) fun p => (MetaBody.v15 p.1, p.2)

/-- Twelve bytes from which `MetadataDecoder.Process` does not return, although `PortableRegistry` does. -/
theorem C125_overflow (ext : Ext) (n : Nat) (hn : 2 ≤ n) :
    decodeMetadata n ⟨loadedEnv ext, fun _ => none⟩ ⟨[], 0, none⟩ (b!"meta" ++ [14, 4, 0, 0, 0, 2, 0, 0]) = .diverge := by
  have hl : Bounded (b!"meta" ++ [14, 4, 0, 0, 0, 2, 0, 0]) := by unfold Bounded; decide
  refine ((C125_newer ⟨loadedEnv ext, fun _ => none⟩ _ (loaded_readsRoot ext 0 none) _ [4, 0, 0, 0, 2, 0, 0] hl n hn).1 (by decide)).mpr ?_
  exact (C124_overflow ⟨loadedEnv ext, fun _ => none⟩ ⟨[], 0, none⟩ selfSeq _ (loaded_readsPortable _ _ _) selfSeq_written selfSeq_fits
    (fun n => seqOfSelf_diverges n _) (b!"meta" ++ [14]) [] [] (by decide) n).1

/-- `PortableRegistry` on all data. -/
theorem C125_registry (env : Env) (ctx : Ctx) (hR : ReadsRoot env ctx) (hp : EndsAll env ctx b!"PortableRegistry") (data : Str) (hl : Bounded data) :
    Arrives fun n => portableRegistry n env ctx data := by
  refine .shift ?_
  cases hb : behindMagic data with
  | none => exact ⟨0, .ok .notMetadata, nofun, fun n _ => (registry_eq hR n data hl).1 hb⟩
  | some r =>
    cases r with
    | nil => exact ⟨0, .panic, nofun, fun n _ => (registry_eq hR n data hl).2.1 hb⟩
    | cons v b =>
      have e : ∀ n, portableRegistry (n + 2) env ctx data = if v.toNat < 14 then .ok .unsupported
          else if v.toNat ≤ 15 then
            (pau env (n + 2) ctx b!"PortableRegistry" ⟨⟨data, data.length - b.length⟩, []⟩).bind fun p => (initPortable p.1).bind fun l => .ok (.types l)
          else .panic := fun n => by
        obtain ⟨pre, hp, h⟩ := (registry_eq hR n data hl).2.2 v b hb
        rw [h, pre_length hp]
      simp only [e]
      by_cases h14 : v.toNat < 14
      · simp only [if_pos h14]; exact .const nofun
      by_cases h15 : v.toNat ≤ 15
      · simp only [if_neg h14, if_pos h15]
        have h1 : Arrives fun n => pau env n ctx b!"PortableRegistry" ⟨⟨data, data.length - b.length⟩, []⟩ :=
          hp ⟨⟨data, data.length - b.length⟩, []⟩ (Nat.sub_le _ _)
        exact h1.unshift.bind fun p => bind_ne_diverge (initPortable_ne _) nofun
      · simp only [if_neg h14, if_neg h15]; exact .const nofun

theorem portable_ends' {ext : Ext} (hr : Spec.ReadsBuiltin ext) (spec : Int) : EndsAll (loadedEnv ext) ⟨[], spec, none⟩ b!"PortableRegistry" := by
  intro st hin
  have hm : (Builtin.types.any fun p => p.1 == b!"PortableRegistry") = true := by kernel_rfl
  obtain ⟨p, hp, he⟩ := List.any_eq_true.mp hm
  have h := C120_builtin ext hr _ _ _ (loads_once ext) spec p hp st hin
  rw [beq_iff_eq.mp he] at h
  exact h

theorem loaded_number (ext : Ext) : ∃ s, Resolves (loadedEnv ext) [] 0 b!"U32" .u32 s :=
  ⟨[], by unfold Resolves loadedEnv; rw [loadedReg_fast]; kernel_rfl⟩

/-- C125 for the library as it starts: `PortableRegistry` ends on all data, and `Process` on all data that are not metadata of version
14 or 15. -/
theorem C125 (ext : Ext) (hr : Spec.ReadsBuiltin ext) (v14 : Str → Option TypeDef) (spec : Int) (data : Str) (hl : Bounded data) :
    (Arrives fun n => portableRegistry n (loadedEnv ext) ⟨[], spec, none⟩ data) ∧
    ((∀ v b, behindMagic data = some (v :: b) → v ≠ 14 ∧ v ≠ 15) → Arrives fun n => decodeMetadata n ⟨loadedEnv ext, v14⟩ ⟨[], spec, none⟩ data) :=
  ⟨C125_registry _ _ (loaded_readsRoot ext spec none) (portable_ends' hr spec) data hl, fun hv =>
    C125_tables ⟨loadedEnv ext, v14⟩ _ (loaded_readsRoot ext spec none) (loaded_readsOld ext spec none) (loaded_number ext) data hl hv⟩

/-! ## The hypotheses are met -/

/-- Data with a version in the middle of nowhere, with an unknown version, and with versions 9 and 13, but no modules at all. -/
example : ∀ data ∈ [[], b!"hello", b!"meta", b!"meta" ++ [200], [1, 40] ++ b!"meta" ++ [9], b!"meta" ++ [13, 255, 255, 255, 255, 255]],
    Arrives fun n => decodeMetadata n ⟨loadedEnv { dummyExt with rows := blankRows }, fun _ => none⟩ ⟨[], 0, none⟩ data := by
  intro data hm
  have h : ∀ data ∈ [[], b!"hello", b!"meta", b!"meta" ++ [200], [1, 40] ++ b!"meta" ++ [9], b!"meta" ++ [13, 255, 255, 255, 255, 255]],
      data.length < 2 ^ 62 ∧ ((behindMagic data).bind List.head?) ∉ [some 14, some 15] := by decide
  refine (C125 _ (blankRows_builtin dummyExt) _ 0 data (h data hm).1).2 fun v b hb => ?_
  have := (h data hm).2
  rw [hb] at this
  simpa using this

end ScaleGo
