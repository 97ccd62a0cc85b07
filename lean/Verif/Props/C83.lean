import Verif.Model.MetaRoot
import Verif.Props.C18
import Verif.Props.C80
import Verif.Props.C82
import Verif.Spec.MetaFile

/-! # C83: the decoder of metadata accepts metadata as nodes give it, and reports anything else -/

namespace ScaleGo
open _root_.Spec (Bounded MetaFile optionLen behindMagic)

/-- The names of the versions, by number. -/
def versionNames : List Str :=
  [b!"MetadataV0Decoder", b!"MetadataV1Decoder", b!"MetadataV2Decoder", b!"MetadataV3Decoder", b!"MetadataV4Decoder",
    b!"MetadataV5Decoder", b!"MetadataV6Decoder", b!"MetadataV7Decoder", b!"MetadataV8Decoder", b!"MetadataV9Decoder",
    b!"MetadataV10Decoder", b!"MetadataV11Decoder", b!"MetadataV12Decoder", b!"MetadataV13Decoder", b!"MetadataV14Decoder",
    b!"MetadataV15Decoder"]

/-- The texts used by the decoder itself have their usual meaning, and nobody registered types with the names of versions. -/
structure ReadsRoot (env : Env) (ctx : Ctx) : Prop where
  option : Resolves env ctx.module ctx.spec b!"Option<Compact<u32>>" (.option []) b!"Compact<u32>"
  compact : Resolves env ctx.module ctx.spec b!"Compact<u32>" .compactU32 []
  version : Resolves env ctx.module ctx.spec b!"MetadataVersion" (.enum versionNames none) []
  classes : ∀ name ∈ versionNames, getCodecClass env ctx.module ctx.spec name = .ok none

/-- The tables of the library after loading do. -/
theorem loaded_readsRoot (ext : Ext) (spec : Int) (md : Option MD) : ReadsRoot (loadedEnv ext) ⟨[], spec, md⟩ := by
  refine ⟨?_, ?_, ?_, ?_⟩
  · unfold Resolves loadedEnv; rw [loadedReg_fast]; kernel_rfl
  · unfold Resolves loadedEnv; rw [loadedReg_fast]; kernel_rfl
  · unfold Resolves loadedEnv; rw [loadedReg_fast]; kernel_rfl
  · unfold loadedEnv
    rw [loadedReg_fast]
    intro name hn
    simp only [versionNames, List.mem_cons, List.not_mem_nil, or_false] at hn
    rcases hn with rfl | rfl | rfl | rfl | rfl | rfl | rfl | rfl | rfl | rfl | rfl | rfl | rfl | rfl | rfl | rfl
    all_goals kernel_rfl

/-- Every input gives metadata or an error. -/
def C83Claim : Prop :=
  ∀ (reg : RegState) (spec : Int) (md : Option MD) (data : Str), MetaReady reg → ReadsRoot reg.env ⟨[], spec, md⟩ → Bounded data →
    ∃ N, ∀ n, N ≤ n → ∃ r, decodeMetadata n reg ⟨[], spec, md⟩ data = .ok r

/-! ## The magic bytes -/

theorem slice_min (data : Str) (i k : Nat) : Spec.slice data i (min (i + k) data.length) = (data.drop i).take k := by
  unfold Spec.slice
  rw [show min (i + k) data.length - i = min k (data.drop i).length by rw [List.length_drop]; omega, ← List.take_take, List.take_length]

theorem compact_step {env : Env} {ctx : Ctx} (h : ReadsRoot env ctx) (n : Nat) {st st' : St} {r : Int × Str}
    (e : processCompactBytes st = .ok (r, st')) : ∃ v, pau env (n + 1) ctx b!"Compact<u32>" st = .ok (v, st') := by
  rw [pau_resolves n st h.compact]
  simp only [Res.ok_bind, process, processCompactU32, e]
  exact ⟨_, rfl⟩

theorem compact_any {env : Env} {ctx : Ctx} (h : ReadsRoot env ctx) (n : Nat) (data : Str) (off : Nat) (cs : List Str)
    (ho : off ≤ data.length) (hl : Bounded data) :
    ∃ v, pau env (n + 1) ctx b!"Compact<u32>" ⟨⟨data, off⟩, cs⟩ = .ok (v, ⟨⟨data, min (off + announced data off) data.length⟩, cs⟩) := by
  obtain ⟨r, e⟩ := processCompactBytes_off data off cs ho hl
  exact compact_step h n e

theorem option_any {env : Env} {ctx : Ctx} (h : ReadsRoot env ctx) (n : Nat) (data : Str) (cs : List Str) (hl : Bounded data) :
    ∃ v, pau env (n + 2) ctx b!"Option<Compact<u32>>" ⟨⟨data, 0⟩, cs⟩ = .ok (v, ⟨⟨data, min (optionLen data) data.length⟩, cs⟩) := by
  unfold Bounded at hl
  have e : nextBytes (1 : Int) _ = _ := nextBytes_general 1 data 0 cs (by omega) (by omega)
  rw [slice_min] at e
  rw [pau_resolves (n + 1) _ h.option]
  simp only [Res.ok_bind, process, processOption, e]
  cases data with
  | nil =>
    obtain ⟨v, hv⟩ := compact_any h n [] 0 cs (by simp) (show (0 : Nat) < 2 ^ 62 by decide)
    refine ⟨v, ?_⟩
    rw [if_pos ⟨by decide, by decide⟩, if_neg (by decide)]
    exact hv
  | cons f b =>
    have hm : min (0 + 1) (f :: b).length = 1 := by simp
    rw [hm]
    by_cases hf : f = 0
    · subst hf
      refine ⟨.nil, ?_⟩
      rw [if_neg (by simp [show bytesToHex [(0 : UInt8)] = b!"00" by decide])]
      simp [optionLen]
    · have hb : bytesToHex [f] ≠ b!"00" := fun e => by
        have : bytesToHex [f] = bytesToHex [0] := e.trans (by decide)
        have := bytesToHex_injective this
        exact hf (by simpa using this)
      obtain ⟨v, hv⟩ := compact_any h n (f :: b) 1 cs (by simp) hl
      refine ⟨v, ?_⟩
      rw [if_pos ⟨by decide, by simpa using hb⟩, if_neg (by decide)]
      refine Eq.trans hv ?_
      cases b with
      | nil => simp [announced, optionLen, hf]
      | cons c b => simp [announced, optionLen, hf]

theorem readMagic_found {env : Env} {ctx : Ctx} {n : Nat} {st st' : St} (e : nextBytes 4 st = .ok (b!"meta", st')) :
    readMagic env n ctx st = .ok (true, st') := by
  unfold readMagic
  rw [e]
  rfl

theorem readMagic_else {env : Env} {ctx : Ctx} {n : Nat} {st st1 st2 st3 : St} {b b' : Str} {v : Val} (e1 : nextBytes 4 st = .ok (b, st1))
    (hb : b ≠ b!"meta") (e2 : pau env n ctx b!"Option<Compact<u32>>" { st1 with cur := st1.cur.reset } = .ok (v, st2))
    (e3 : nextBytes 4 st2 = .ok (b', st3)) : readMagic env n ctx st = .ok (b' == b!"meta", st3) := by
  unfold readMagic
  rw [e1]
  show (if b = b!"meta" then _ else _) = _
  rw [if_neg hb]
  rw [e2, Res.ok_bind]
  dsimp only
  rw [e3, Res.ok_bind]

/-- Where the search for the magic bytes ends. -/
theorem readMagic_eq {env : Env} {ctx : Ctx} (h : ReadsRoot env ctx) (n : Nat) (data : Str) (hl : Bounded data) :
    ∃ off, off ≤ data.length ∧ readMagic env (n + 2) ctx ⟨⟨data, 0⟩, []⟩ = .ok ((behindMagic data).isSome, ⟨⟨data, off⟩, []⟩) ∧
      ∀ rest, behindMagic data = some rest → data.drop off = rest := by
  unfold Bounded at hl
  have e1 : nextBytes (4 : Int) _ = _ := nextBytes_general 4 data 0 [] (by omega) (by omega)
  rw [slice_min] at e1
  rw [List.drop_zero] at e1
  unfold behindMagic
  by_cases h4 : data.take 4 = b!"meta"
  · have : 4 ≤ data.length := by
      have := congrArg List.length h4
      rw [List.length_take] at this
      have e : (b!"meta").length = 4 := rfl
      omega
    rw [if_pos h4]
    rw [h4, show min (0 + 4) data.length = 4 by omega] at e1
    exact ⟨4, this, readMagic_found e1, fun rest hr => by cases hr; rfl⟩
  · obtain ⟨v, hv⟩ := option_any h n data [] hl
    have e2 : nextBytes (4 : Int) _ = _ := nextBytes_general 4 data (min (optionLen data) data.length) [] (by omega) (by omega)
    rw [slice_min] at e2
    have ed : data.drop (min (optionLen data) data.length) = data.drop (optionLen data) := by
      by_cases hk : optionLen data ≤ data.length
      · rw [Nat.min_eq_left hk]
      · rw [Nat.min_eq_right (by omega), List.drop_of_length_le (Nat.le_refl _), List.drop_of_length_le (by omega)]
    rw [ed] at e2
    rw [if_neg h4]
    refine ⟨min (min (optionLen data) data.length + 4) data.length, by omega, (readMagic_else e1 h4 hv e2).trans ?_, ?_⟩
    · by_cases hm : (data.drop (optionLen data)).take 4 = b!"meta"
      · rw [if_pos hm, hm]; rfl
      · rw [if_neg hm]
        have : (List.take 4 (List.drop (optionLen data) data) == b!"meta") = false := by simpa using hm
        rw [this]; rfl
    · intro rest hr
      by_cases hm : (data.drop (optionLen data)).take 4 = b!"meta"
      · rw [if_pos hm] at hr
        cases hr
        have := congrArg List.length hm
        rw [List.length_take, List.length_drop] at this
        have e : (b!"meta").length = 4 := rfl
        rw [List.drop_drop, show min (min (optionLen data) data.length + 4) data.length = optionLen data + 4 by omega]
      · rw [if_neg hm] at hr
        cases hr

/-! ## The version -/

theorem readVersion_eq {env : Env} {ctx : Ctx} (h : ReadsRoot env ctx) (n : Nat) (data : Str) (off : Nat) (hl : Bounded data) {v : UInt8}
    {b : Str} (hd : data.drop off = v :: b) :
    readVersion env (n + 1) ctx ⟨⟨data, off⟩, []⟩ =
      match versionNames[v.toNat]? with
      | some name => .ok ((v.toNat, name), ⟨⟨data, off + 1⟩, []⟩)
      | none => .panic := by
  unfold Bounded at hl
  have ho : off < data.length := by
    have := congrArg List.length hd
    rw [List.length_drop, List.length_cons] at this
    omega
  have hv : data[off]? = some v := by
    rw [← List.head?_drop, hd]; rfl
  unfold readVersion
  simp only [hv]
  have e1 : nextBytes (1 : Int) _ = _ := nextBytes_general 1 data off [] (by omega) (by omega)
  rw [slice_min, hd, show min (off + 1) data.length = off + 1 by omega] at e1
  rw [pau_resolves n _ h.version]
  simp only [Res.ok_bind, process, processEnum, e1, List.take_succ_cons, List.take_zero, List.headD_cons]
  cases hn : versionNames[v.toNat]? with
  | none => rfl
  | some name =>
    have : name ≠ [] := by
      have : ∀ x ∈ versionNames, x ≠ [] := by decide
      exact this name (List.mem_of_getElem? hn)
    simp only [if_neg this]
    rfl

theorem metadataClass_names : ∀ i < 16, (versionNames[i]?.bind metadataClass) = if 9 ≤ i then some i else none := by decide +kernel

theorem decode_eq {reg : RegState} {ctx : Ctx} (h : ReadsRoot reg.env ctx) (n : Nat) (data : Str) (hl : Bounded data) :
    (behindMagic data = none → decodeMetadata (n + 2) reg ctx data = .ok none) ∧
    (behindMagic data = some [] → decodeMetadata (n + 2) reg ctx data = .panic) ∧
    ∀ v b, behindMagic data = some (v :: b) → ∃ pre, data = pre ++ b ∧ decodeMetadata (n + 2) reg ctx data =
      if 9 ≤ v.toNat ∧ v.toNat ≤ 15 then
        (processBody v.toNat (n + 2) reg ctx ⟨⟨data, pre.length⟩, []⟩).bind fun p =>
          .ok (some ⟨versionNames[v.toNat]?.getD [], v.toNat, p.1⟩)
      else .panic := by
  unfold Bounded at hl
  obtain ⟨off, ho, hm, hr⟩ := readMagic_eq h n data hl
  refine ⟨fun e => ?_, fun e => ?_, fun v b e => ?_⟩
  · rw [e] at hm
    unfold decodeMetadata processMetadata
    rw [hm]
    rfl
  · rw [e] at hm
    have hd := hr [] e
    have hx : data[off]? = none := by rw [← List.head?_drop, hd]; rfl
    unfold decodeMetadata processMetadata
    rw [hm]
    simp only [Res.ok_bind, Option.isSome_some, if_true, readVersion, hx]
    rfl
  · rw [e] at hm
    have hd := hr _ e
    have hlen := congrArg List.length hd
    rw [List.length_drop, List.length_cons] at hlen
    refine ⟨data.take (off + 1), ?_, ?_⟩
    · have : b = data.drop (off + 1) := by
        rw [← List.drop_drop, hd]; rfl
      rw [this, List.take_append_drop]
    · unfold decodeMetadata processMetadata
      rw [hm]
      simp only [Res.ok_bind, Option.isSome_some, if_true, readVersion_eq h (n + 1) data off hl hd]
      rw [List.length_take, Nat.min_eq_left (show off + 1 ≤ data.length by omega)]
      cases hn : versionNames[v.toNat]? with
      | none =>
        have : ¬ v.toNat ≤ 15 := fun h => by
          have : v.toNat < versionNames.length := by simp [versionNames]; omega
          rw [List.getElem?_eq_getElem this] at hn
          cases hn
        rw [if_neg (fun h => this h.2)]
        rfl
      | some name =>
        have hlt : v.toNat < 16 := by
          have := (List.getElem?_eq_some_iff.1 hn).1
          simpa [versionNames] using this
        have hc := h.classes name (List.mem_of_getElem? hn)
        have hk := metadataClass_names v.toNat hlt
        rw [hn] at hk
        simp only [Option.bind_some] at hk
        simp only [Res.ok_bind, readBody, hc, hk, Option.getD_some]
        by_cases h9 : 9 ≤ v.toNat
        · rw [if_pos h9, if_pos ⟨h9, by omega⟩]
          simp only
          cases processBody v.toNat (n + 2) reg ctx ⟨⟨data, off + 1⟩, []⟩ <;> rfl
        · rw [if_neg h9, if_neg (fun h => h9 h.1)]
          rfl

/-! ## What the decoder does with any input -/

/-- The error comes exactly when the magic bytes are neither at the start nor behind an optional compact number. -/
theorem C83_error (reg : RegState) (ctx : Ctx) (data : Str) (h : ReadsRoot reg.env ctx) (hl : Bounded data) (n : Nat) (hn : 2 ≤ n) :
    decodeMetadata n reg ctx data = .ok none ↔ behindMagic data = none := by
  obtain ⟨n, rfl⟩ : ∃ m, n = m + 2 := ⟨n - 2, by omega⟩
  obtain ⟨h1, h2, h3⟩ := decode_eq h n data hl
  refine ⟨fun e => ?_, h1⟩
  cases hb : behindMagic data with
  | none => rfl
  | some r =>
    cases r with
    | nil => rw [h2 hb] at e; cases e
    | cons v b =>
      obtain ⟨pre, -, h4⟩ := h3 v b hb
      rw [h4] at e
      split at e
      · cases hp : processBody v.toNat (n + 2) reg ctx ⟨⟨data, pre.length⟩, []⟩ <;> (rw [hp] at e; cases e)
      · cases e

/-- Without a version, and with a version below 9 or above 15, the decoder panics. -/
theorem C83_unsupported (reg : RegState) (ctx : Ctx) (data rest : Str) (h : ReadsRoot reg.env ctx) (hl : Bounded data) (n : Nat) (hn : 2 ≤ n)
    (hb : behindMagic data = some rest) (hv : ∀ v ∈ rest.head?, ¬ (9 ≤ v.toNat ∧ v.toNat ≤ 15)) : decodeMetadata n reg ctx data = .panic := by
  obtain ⟨n, rfl⟩ : ∃ m, n = m + 2 := ⟨n - 2, by omega⟩
  obtain ⟨h1, h2, h3⟩ := decode_eq h n data hl
  cases rest with
  | nil => exact h2 hb
  | cons v b =>
    obtain ⟨pre, -, h4⟩ := h3 v b hb
    rw [h4, if_neg (hv v rfl)]

/-- Metadata that the decoder of its version reads is the result, with name and number of the version. -/
theorem C83_version (reg : RegState) (ctx : Ctx) (v : UInt8) (data read rest : Str) (body : MetaBody) (h : ReadsRoot reg.env ctx) (hl : Bounded data)
    (hb : behindMagic data = some (v :: (read ++ rest))) (h9 : 9 ≤ v.toNat) (h15 : v.toNat ≤ 15)
    (hs : Settles (fun n => processBody v.toNat n reg ctx) read body) :
    ∃ N, ∀ n, N ≤ n → decodeMetadata n reg ctx data = .ok (some ⟨versionNames[v.toNat]?.getD [], v.toNat, body⟩) := by
  obtain ⟨N, hs⟩ := hs
  refine ⟨N + 2, fun n hn => ?_⟩
  obtain ⟨n, rfl⟩ : ∃ m, n = m + 2 := ⟨n - 2, by omega⟩
  obtain ⟨-, -, h3⟩ := decode_eq h n data hl
  obtain ⟨pre, e, h4⟩ := h3 _ _ hb
  rw [h4, if_pos ⟨h9, h15⟩]
  have hlen : pre.length + read.length + rest.length < 2 ^ 63 := by
    unfold Bounded at hl
    rw [e] at hl
    simp only [List.length_append] at hl
    omega
  have := hs (n + 2) (by omega) pre rest [] hlen
  rw [← e] at this
  dsimp only at this
  rw [this]
  rfl

theorem compact_head {n : Nat} {c : Str} (h : Spec.IsCompact n c) : ∃ x r, c = x :: r ∧ r.length + 1 = _root_.Spec.compactLen x := by
  have cons : ∀ k m, 0 < k → Spec.leBytes k m = UInt8.ofNat (m % 256) :: Spec.leBytes (k - 1) (m / 256) := by
    rintro (_ | k) m h
    · omega
    · simp only [Spec.leBytes, List.range_succ_eq_map, List.map_cons, List.map_map, Nat.pow_zero, Nat.div_one, Nat.add_sub_cancel]
      refine congrArg _ (List.map_congr_left fun i _ => ?_)
      simp only [Function.comp_apply, Nat.succ_eq_add_one, Nat.pow_succ, Nat.div_div_eq_div_mul]
      rw [Nat.mul_comm]
  have nat : ∀ m, (UInt8.ofNat (m % 256)).toNat % 4 = m % 4 := fun m => by
    rw [UInt8.toNat_ofNat']
    omega
  rcases h with ⟨h1, rfl⟩ | ⟨h1, h2, rfl⟩ | ⟨h1, h2, rfl⟩ | ⟨h1, k, h4, h5, h6, h7, rfl⟩
  · refine ⟨_, _, cons 1 _ (by decide), ?_⟩
    unfold _root_.Spec.compactLen
    rw [nat, if_pos (by omega)]
    rfl
  · refine ⟨_, _, cons 2 _ (by decide), ?_⟩
    unfold _root_.Spec.compactLen
    rw [nat, if_neg (by omega), if_pos (by omega)]
    rfl
  · refine ⟨_, _, cons 4 _ (by decide), ?_⟩
    unfold _root_.Spec.compactLen
    rw [nat, if_neg (by omega), if_neg (by omega), if_pos (by omega)]
    rfl
  · rw [cons 1 _ (by decide)]
    refine ⟨_, _, rfl, ?_⟩
    unfold _root_.Spec.compactLen
    rw [nat, if_neg (by omega), if_neg (by omega), if_neg (by omega), UInt8.toNat_ofNat']
    show (Spec.leBytes k n).length + 1 = _
    rw [leBytes_length]
    omega

/-- Metadata as a node gives it has the magic bytes where they are looked for. -/
theorem metaFile_behind {v : UInt8} {b data : Str} (h : MetaFile v b data) : behindMagic data = some (v :: b) := by
  rcases h with rfl | ⟨c, -, hc, rfl⟩
  · rfl
  · obtain ⟨x, r, rfl, hr⟩ := compact_head hc
    unfold behindMagic
    rw [if_neg (by simp)]
    have : optionLen (1 :: (x :: r ++ (b!"meta" ++ v :: b))) = (1 :: x :: r).length := by
      simp only [optionLen, List.cons_append, if_neg (show ¬ (1 : UInt8) = 0 by decide), List.length_cons, ← hr]
      omega
    rw [this, show (1 :: (x :: r ++ (b!"meta" ++ v :: b))) = (1 :: x :: r) ++ (b!"meta" ++ v :: b) by simp, List.drop_left]
    rfl

/-! ## The versions -/

/-- Metadata of versions 9 to 13, as it is or as `Option<OpaqueMetadata>`: see `C82_exact`. -/
theorem C83_old (v : UInt8) (reg : RegState) (spec : Int) (md : Option MD) (l : List Spec.OModule) (xv : Nat) (exts : List Str) (b data : Str)
    (h9 : 9 ≤ v.toNat) (h13 : v.toNat ≤ 13) (hR : ReadsRoot reg.env ⟨[], spec, md⟩) (hO : ReadsOld reg.env ⟨[], spec, md⟩)
    (hf : Spec.FOld v.toNat l xv exts) (hd : DistinctIndex v.toNat l) (hw : Spec.EncOld v.toNat l xv exts b) (hm : MetaFile v b data) (hl : Bounded data) :
    ∃ N out, (∀ n, N ≤ n → decodeMetadata n reg ⟨[], spec, md⟩ data = .ok (some ⟨versionNames[v.toNat]?.getD [], v.toNat, .old out⟩)) ∧
      DescribedOld v.toNat Spec.hasherNames l (if v.toNat < 12 then none else some exts) out := by
  obtain ⟨out, read, rest, rfl, -, h1, h2, -⟩ := C82_exact v.toNat reg ⟨[], spec, md⟩ l xv exts b hO hf hd hw
  have : Settles (fun n => processBody v.toNat n reg ⟨[], spec, md⟩) read (.old out) :=
    settles_ifn (by omega) (settles_ifn (by omega) (settles_last h1 (settles_pure _)))
  obtain ⟨N, h3⟩ := C83_version reg _ v data read rest _ hR hl (metaFile_behind hm) h9 (by omega) this
  exact ⟨N, out, h3, h2⟩

/-- Metadata of version 14: see `C79_partial`. -/
theorem C83_v14 (reg : RegState) (spec : Int) (md : Option MD) (l : List (Nat × Spec.PType)) (ps : List Spec.WPallet) (t v : Nat)
    (xs : List Spec.WExtension) (b data : Str) (dup : Str → Nat) (A : Nat → Prop) (fuel : Nat) (st : SiState)
    (hR : ReadsRoot reg.env ⟨[], spec, md⟩) (hr : MetaReady reg) (hw : Written14 l ps t v xs b) (hg : Regular l ps)
    (hU : Understood l spec reg dup A fuel st) (hm : MetaFile 14 b data) (hl : Bounded data) :
    ∃ N out, (∀ n, N ≤ n → decodeMetadata n reg ⟨[], spec, md⟩ data = .ok (some ⟨b!"MetadataV14Decoder", 14, .v14 out⟩)) ∧
      DescribedOut true l ps xs st.ids out := by
  obtain ⟨out, h1, h2, -⟩ := C79_partial reg spec md l ps t v xs b dup A fuel st hr hw hg hU
  have : Settles (fun n => processBody 14 n reg ⟨[], spec, md⟩) b (.v14 out) :=
    settles_if rfl (settles_last h1 (settles_pure _))
  obtain ⟨N, h3⟩ := C83_version reg _ 14 data b [] _ hR hl (by simpa using metaFile_behind hm) (by decide) (by decide) this
  exact ⟨N, out, h3, h2⟩

/-- Metadata of version 15: see `C80_partial`. -/
theorem C83_v15 (reg : RegState) (spec : Int) (md : Option MD) (x : W15) (b data : Str) (dup : Str → Nat) (A : Nat → Prop) (fuel : Nat) (st : SiState)
    (hR : ReadsRoot reg.env ⟨[], spec, md⟩) (hr : MetaReady reg) (hF : x.Fits) (hw : EncW15 x b) (hg : Regular x.types (x.pallets.map Prod.fst))
    (hU : Understood x.types spec reg dup A fuel st) (hk : NoTupleKey x) (hm : MetaFile 15 b data) (hl : Bounded data) :
    ∃ N out, (∀ n, N ≤ n → decodeMetadata n reg ⟨[], spec, md⟩ data = .ok (some ⟨b!"MetadataV15Decoder", 15, .v15 out⟩)) ∧
      Described15 true x st.ids out := by
  obtain ⟨out, h1, h2, -⟩ := C80_partial reg spec md x b dup A fuel st hr hF hw hg hU hk
  have : Settles (fun n => processBody 15 n reg ⟨[], spec, md⟩) b (.v15 out) :=
    settles_ifn (by decide) (settles_if rfl (settles_last h1 (settles_pure _)))
  obtain ⟨N, h3⟩ := C83_version reg _ 15 data b [] _ hR hl (by simpa using metaFile_behind hm) (by decide) (by decide) this
  exact ⟨N, out, h3, h2⟩

/-! ## The claim is false: an unknown version -/

/-- Metadata of version 8 makes the decoder panic. -/
theorem C83_claim_false : ¬ C83Claim := by
  intro h
  have hR : ReadsRoot startReg.env ⟨[], 0, none⟩ := loaded_readsRoot _ 0 none
  have hl : Bounded (b!"meta" ++ [8]) := by unfold Bounded; decide
  obtain ⟨N, h⟩ := h startReg 0 none (b!"meta" ++ [8]) start_ready hR hl
  obtain ⟨r, h⟩ := h (N + 2) (by omega)
  rw [C83_unsupported startReg ⟨[], 0, none⟩ _ [8] hR hl (N + 2) (by omega) rfl (by simp)] at h
  cases h

/-- Two texts that are not metadata, and one that is. -/
example : behindMagic b!"hello, world" = none ∧ behindMagic [] = none ∧ behindMagic ([1, 40] ++ b!"meta" ++ [14, 0]) = some [14, 0] := by decide

/-- The modules of version 13 of the example of C82, in either form. -/
example (b data : Str) (hw : Spec.EncOld 13 modules13 4 [b!"CheckEra"] b) (hm : MetaFile 13 b data) (hl : Bounded data) :
    ∃ N out, (∀ n, N ≤ n → decodeMetadata n startReg ⟨[], 0, none⟩ data = .ok (some ⟨b!"MetadataV13Decoder", 13, .old out⟩)) ∧
      out.extrinsic = some ⟨[b!"CheckEra"], []⟩ := by
  obtain ⟨N, out, h1, h2⟩ := C83_old 13 startReg 0 none modules13 4 _ b data (by decide) (by decide) (loaded_readsRoot _ 0 none)
    (loaded_readsOld _ 0 none) modules13_fit (fun _ => by decide) hw hm hl
  exact ⟨N, out, h1, h2.extrinsic.trans (by kernel_rfl)⟩

/-- The metadata of version 14 of the example of C79, in either form. -/
example (b data : Str) (hw : Written14 demoTypes demoPallets 4 4 [⟨b!"CheckNonce", 3, 0⟩] b) (hm : MetaFile 14 b data) (hl : Bounded data) :
    ∃ N out, (∀ n, N ≤ n → decodeMetadata n startReg ⟨[], 0, none⟩ data = .ok (some ⟨b!"MetadataV14Decoder", 14, .v14 out⟩)) ∧
      out.extrinsic.signedIdentifier = [b!"CheckNonce"] := by
  obtain ⟨st, hs, -, -, -⟩ := demo_done
  obtain ⟨N, out, h1, h2⟩ := C83_v14 startReg 0 none _ _ _ _ _ b data _ _ 5 st (loaded_readsRoot _ 0 none) start_ready hw demo_regular (demo_understood hs) hm hl
  refine ⟨N, out, h1, ?_⟩
  rw [h2.extrinsic]
  kernel_rfl

end ScaleGo
