import Verif.Props.C83

/-! # C84: `PortableRegistry` gives the types of the metadata or an error -/

namespace ScaleGo
open _root_.Spec (Bounded MetaFile behindMagic WRegistry FRegistry PType)

/-- Every input gives types or an error. -/
def C84Claim : Prop :=
  ∀ (reg : RegState) (spec : Int) (md : Option MD) (data : Str), MetaReady reg → ReadsRoot reg.env ⟨[], spec, md⟩ → Bounded data →
    ∃ N, ∀ n, N ≤ n → ∃ r, portableRegistry n reg.env ⟨[], spec, md⟩ data = .ok r

theorem registry_eq {env : Env} {ctx : Ctx} (h : ReadsRoot env ctx) (n : Nat) (data : Str) (hl : Bounded data) :
    (behindMagic data = none → portableRegistry (n + 2) env ctx data = .ok .notMetadata) ∧
    (behindMagic data = some [] → portableRegistry (n + 2) env ctx data = .panic) ∧
    ∀ v b, behindMagic data = some (v :: b) → ∃ pre, data = pre ++ b ∧ portableRegistry (n + 2) env ctx data =
      if v.toNat < 14 then .ok .unsupported
      else if v.toNat ≤ 15 then
        (pau env (n + 2) ctx b!"PortableRegistry" ⟨⟨data, pre.length⟩, []⟩).bind fun p => (initPortable p.1).bind fun l => .ok (.types l)
      else .panic := by
  obtain ⟨off, ho, hm, hr⟩ := readMagic_eq h n data hl
  refine ⟨fun e => ?_, fun e => ?_, fun v b e => ?_⟩
  · rw [e] at hm
    unfold portableRegistry
    rw [hm]
    rfl
  · rw [e] at hm
    have hd := hr [] e
    have hx : data[off]? = none := by rw [← List.head?_drop, hd]; rfl
    unfold portableRegistry
    rw [hm]
    simp only [Res.ok_bind, Option.isSome_some, if_true, readVersion, hx]
    rfl
  · rw [e] at hm
    have hd := hr _ e
    have hlen := congrArg List.length hd
    rw [List.length_drop, List.length_cons] at hlen
    refine ⟨data.take (off + 1), ?_, ?_⟩
    · have : b = data.drop (off + 1) := by
        rw [← List.drop_drop, hd]; rfl
      rw [this, List.take_append_drop]
    · unfold portableRegistry
      rw [hm]
      simp only [Res.ok_bind, Option.isSome_some, if_true, readVersion_eq h (n + 1) data off hl hd]
      rw [List.length_take, Nat.min_eq_left (show off + 1 ≤ data.length by omega)]
      cases hn : versionNames[v.toNat]? with
      | none =>
        have : ¬ v.toNat ≤ 15 := fun h => by
          have : v.toNat < versionNames.length := by simp [versionNames]; omega
          rw [List.getElem?_eq_getElem this] at hn
          cases hn
        rw [if_neg (by omega), if_neg this]
        rfl
      | some name =>
        have hlt : v.toNat < 16 := by
          have := (List.getElem?_eq_some_iff.1 hn).1
          simpa [versionNames] using this
        simp only [Res.ok_bind]
        by_cases h14 : v.toNat < 14
        · rw [if_pos h14, if_pos h14]
        · rw [if_neg h14, if_neg h14, if_pos (by omega)]
          cases pau env (n + 2) ctx b!"PortableRegistry" ⟨⟨data, off + 1⟩, []⟩ <;> rfl

/-- The error for other data comes exactly when `Process` gives an error. -/
theorem C84_error (reg : RegState) (ctx : Ctx) (data : Str) (h : ReadsRoot reg.env ctx) (hl : Bounded data) (n : Nat) (hn : 2 ≤ n) :
    portableRegistry n reg.env ctx data = .ok .notMetadata ↔ behindMagic data = none := by
  obtain ⟨n, rfl⟩ : ∃ m, n = m + 2 := ⟨n - 2, by omega⟩
  obtain ⟨h1, h2, h3⟩ := registry_eq h n data hl
  refine ⟨fun e => ?_, h1⟩
  cases hb : behindMagic data with
  | none => rfl
  | some r =>
    cases r with
    | nil => rw [h2 hb] at e; cases e
    | cons v b =>
      obtain ⟨pre, -, h4⟩ := h3 v b hb
      rw [h4] at e
      split at e
      · cases e
      · split at e
        · cases hp : pau reg.env (n + 2) ctx b!"PortableRegistry" ⟨⟨data, pre.length⟩, []⟩ with
          | ok p =>
            rw [hp] at e
            cases hi : initPortable p.1 <;> (simp only [Res.bind, hi] at e; cases e)
          | panic => rw [hp] at e; cases e
          | diverge => rw [hp] at e; cases e
        · cases e

/-- The error for old metadata comes exactly with versions below 14, whatever follows. -/
theorem C84_unsupported (reg : RegState) (ctx : Ctx) (data rest : Str) (h : ReadsRoot reg.env ctx) (hl : Bounded data) (n : Nat) (hn : 2 ≤ n)
    (hb : behindMagic data = some rest) : portableRegistry n reg.env ctx data = .ok .unsupported ↔ ∃ v ∈ rest.head?, v.toNat < 14 := by
  obtain ⟨n, rfl⟩ : ∃ m, n = m + 2 := ⟨n - 2, by omega⟩
  obtain ⟨-, h2, h3⟩ := registry_eq h n data hl
  cases rest with
  | nil => rw [h2 hb]; exact ⟨nofun, by simp⟩
  | cons v b =>
    obtain ⟨pre, -, h4⟩ := h3 v b hb
    rw [h4]
    by_cases h14 : v.toNat < 14
    · rw [if_pos h14]
      exact ⟨fun _ => ⟨v, rfl, h14⟩, fun _ => rfl⟩
    · rw [if_neg h14]
      refine ⟨fun e => ?_, fun ⟨w, hw, h⟩ => by cases hw; exact absurd h h14⟩
      split at e
      · cases hp : pau reg.env (n + 2) ctx b!"PortableRegistry" ⟨⟨data, pre.length⟩, []⟩ with
        | ok p =>
          rw [hp] at e
          cases hi : initPortable p.1 <;> (simp only [Res.bind, hi] at e; cases e)
        | panic => rw [hp] at e; cases e
        | diverge => rw [hp] at e; cases e
      · cases e

/-- A version above 15 or a missing version makes it panic. -/
theorem C84_panic (reg : RegState) (ctx : Ctx) (data rest : Str) (h : ReadsRoot reg.env ctx) (hl : Bounded data) (n : Nat) (hn : 2 ≤ n)
    (hb : behindMagic data = some rest) (hv : ∀ v ∈ rest.head?, 15 < v.toNat) : portableRegistry n reg.env ctx data = .panic := by
  obtain ⟨n, rfl⟩ : ∃ m, n = m + 2 := ⟨n - 2, by omega⟩
  obtain ⟨-, h2, h3⟩ := registry_eq h n data hl
  cases rest with
  | nil => exact h2 hb
  | cons v b =>
    obtain ⟨pre, -, h4⟩ := h3 v b hb
    have := hv v rfl
    rw [h4, if_neg (by omega), if_neg (by omega)]

/-- Metadata of version 14 or 15 that begins with the types `l` gives the types `l`, whatever follows them. -/
theorem C84_types (v : UInt8) (reg : RegState) (ctx : Ctx) (l : List (Nat × PType)) (b rest data : Str) (h14 : 14 ≤ v.toNat) (h15 : v.toNat ≤ 15)
    (h : ReadsRoot reg.env ctx) (hp : ReadsPortable reg.env ctx) (hw : WRegistry l b) (hf : FRegistry l) (hm : MetaFile v (b ++ rest) data)
    (hl : Bounded data) : ∃ N, ∀ n, N ≤ n → portableRegistry n reg.env ctx data = .ok (.types (kept l)) := by
  obtain ⟨w, ⟨N, hd⟩, hi⟩ := C77_reads reg.env ctx l b hp hw hf
  refine ⟨N + 2, fun n hn => ?_⟩
  obtain ⟨n, rfl⟩ : ∃ m, n = m + 2 := ⟨n - 2, by omega⟩
  obtain ⟨-, -, h3⟩ := registry_eq h n data hl
  obtain ⟨pre, e, h4⟩ := h3 _ _ (metaFile_behind hm)
  rw [h4, if_neg (by omega), if_pos h15]
  have hlen : pre.length + b.length + rest.length < 2 ^ 63 := by
    unfold Bounded at hl
    rw [e] at hl
    simp only [List.length_append] at hl
    omega
  have := hd (n + 2) (by omega) pre rest [] hlen
  rw [← e] at this
  rw [this]
  show (initPortable w).bind _ = _
  rw [hi]
  rfl

/-- Whenever `Process` gives metadata of version 14 or later, `PortableRegistry` gives types, and they are those that `Process`
enters into the library. -/
theorem C84_same (reg : RegState) (ctx : Ctx) (data : Str) (h : ReadsRoot reg.env ctx) (hl : Bounded data) (n : Nat) (hn : 2 ≤ n) (root : MetaRoot)
    (hd : decodeMetadata n reg ctx data = .ok (some root)) (hv : 14 ≤ root.number) :
    ∃ l si, portableRegistry n reg.env ctx data = .ok (.types l) ∧ processSiType { portableCfg l with spec := ctx.spec } n reg = .ok si ∧
      match root.body with
      | .old _ => False
      | .v14 out => out.reg.v14 = si.reg.v14 ∧ ∃ ps, out.reg.env = registerOriginCaller si.reg.env ps
      | .v15 out => out.reg.v14 = si.reg.v14 ∧ ∃ ps, out.reg.env = registerOriginCaller si.reg.env ps := by
  obtain ⟨n, rfl⟩ : ∃ m, n = m + 2 := ⟨n - 2, by omega⟩
  obtain ⟨d1, d2, d3⟩ := decode_eq (reg := reg) h n data hl
  obtain ⟨-, -, r3⟩ := registry_eq h n data hl
  cases hb : behindMagic data with
  | none => rw [d1 hb] at hd; cases hd
  | some rest =>
    cases rest with
    | nil => rw [d2 hb] at hd; cases hd
    | cons v b =>
      obtain ⟨pre, e, h4⟩ := d3 v b hb
      obtain ⟨pre', e', h5⟩ := r3 v b hb
      obtain rfl : pre' = pre := List.append_cancel_right (e'.symm.trans e)
      rw [h4] at hd
      split at hd
      · rename_i hr
        obtain ⟨⟨body, st⟩, hp, hd⟩ := Res.bind_eq_ok.1 hd
        cases hd
        have hv : 14 ≤ v.toNat := hv
        rw [h5, if_neg (by omega), if_pos hr.2]
        unfold processBody at hp
        have common : ∀ {check pallet extrinsic o st'}, processCommon check pallet extrinsic (n + 2) reg ctx ⟨⟨data, pre'.length⟩, []⟩ = .ok (o, st') →
            ∃ l si, ((pau reg.env (n + 2) ctx b!"PortableRegistry" ⟨⟨data, pre'.length⟩, []⟩).bind fun p => (initPortable p.1).bind fun l => Res.ok (PortableOut.types l)) =
              .ok (.types l) ∧ processSiType { portableCfg l with spec := ctx.spec } (n + 2) reg = .ok si ∧ o.1.reg.v14 = si.reg.v14 ∧
              ∃ ps, o.1.reg.env = registerOriginCaller si.reg.env ps := by
          intro check pallet extrinsic o st' hc
          unfold processCommon at hc
          rw [Res.bind_eq_ok] at hc
          obtain ⟨⟨raw, s1⟩, h1, hc⟩ := hc
          rw [Res.bind_eq_ok] at hc
          obtain ⟨l, h2, hc⟩ := hc
          rw [Res.bind_eq_ok] at hc
          obtain ⟨si, h3, hc⟩ := hc
          rw [Res.bind_eq_ok] at hc
          obtain ⟨⟨ps, s2⟩, -, hc⟩ := hc
          rw [Res.bind_eq_ok] at hc
          obtain ⟨texts, -, hc⟩ := hc
          rw [Res.bind_eq_ok] at hc
          obtain ⟨⟨ext, s3⟩, -, hc⟩ := hc
          cases hc
          refine ⟨l, si, ?_, h3, rfl, _, rfl⟩
          rw [h1]
          show (initPortable raw).bind _ = _
          rw [h2]
          rfl
        by_cases h14 : v.toNat = 14
        · rw [if_pos h14, Res.bind_eq_ok] at hp
          obtain ⟨⟨o, s⟩, hp, hq⟩ := hp
          cases hq
          unfold processV14 at hp
          rw [Res.bind_eq_ok] at hp
          obtain ⟨⟨o, s⟩, hp, hq⟩ := hp
          cases hq
          exact common hp
        · have h15 : v.toNat = 15 := by omega
          rw [if_neg h14, if_pos h15, Res.bind_eq_ok] at hp
          obtain ⟨⟨o, s⟩, hp, hq⟩ := hp
          cases hq
          unfold processV15 at hp
          rw [Res.bind_eq_ok] at hp
          obtain ⟨⟨o, s⟩, hp, hq⟩ := hp
          iterate 6
            rw [Res.bind_eq_ok] at hq
            obtain ⟨_, -, hq⟩ := hq
          cases hq
          exact common hp
      · cases hd

/-- Metadata of version 16 makes it panic. -/
theorem C84_claim_false : ¬ C84Claim := by
  intro h
  have hR : ReadsRoot startReg.env ⟨[], 0, none⟩ := loaded_readsRoot _ 0 none
  have hl : Bounded (b!"meta" ++ [16]) := by unfold Bounded; decide
  obtain ⟨N, h⟩ := h startReg 0 none (b!"meta" ++ [16]) start_ready hR hl
  obtain ⟨r, h⟩ := h (N + 2) (by omega)
  rw [C84_panic startReg ⟨[], 0, none⟩ _ [16] hR hl (N + 2) (by omega) rfl (by simp)] at h
  cases h

/-- The types of the example of C79, in either form and with anything behind them. -/
example (b rest data : Str) (hw : WRegistry demoTypes b) (hm : MetaFile 15 (b ++ rest) data) (hl : Bounded data) :
    ∃ N, ∀ n, N ≤ n → portableRegistry n startReg.env ⟨[], 0, none⟩ data = .ok (.types (kept demoTypes)) :=
  C84_types 15 startReg ⟨[], 0, none⟩ demoTypes b rest data (by decide) (by decide) (loaded_readsRoot _ 0 none) (loaded_readsPortable _ 0 none) hw
    (by simp [demoTypes, FRegistry, Spec.FList, Spec.FId, Spec.FType, Spec.FDef, Spec.FText, Spec.FVariant, Spec.FField]) hm hl

/-- Old metadata and something else. -/
example : behindMagic (b!"meta" ++ [13, 0, 0]) = some [13, 0, 0] ∧ behindMagic b!"metb" = none := by decide

end ScaleGo
