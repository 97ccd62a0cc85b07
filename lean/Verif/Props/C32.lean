import Verif.Props.C30

/-! # C32: module-specific overrides apply to the modules they are written for -/

namespace ScaleGo

open ScaleGo.Spec

/-- The full property: for every row of the table of `types/override/override.go`, decoding the type inside the module, both
named in any letter case, uses the replacement, that is, finds what the replacement name stands for outside of modules. -/
def C32Claim : Prop :=
  ∀ row ∈ typesModules, ∀ p ∈ row.2, ∀ (env : Env) (m s : Str) (v : Int), SameName row.1 m → SameName p.1 s →
    (∀ k, env.special k = []) → getCodecClass env m v s = getCodecClass env [] v p.2

theorem tableGet_lower {row : Str × List (Str × Str)} (h : row ∈ typesModules) (hl : toLower row.1 = row.1) :
    tableGet typesModules row.1 = some row.2 := by
  have : ∀ row ∈ typesModules, toLower row.1 = row.1 → tableGet typesModules row.1 = some row.2 := by decide +kernel
  exact this row h hl

theorem override_entry {row : Str × List (Str × Str)} (h : row ∈ typesModules) {p : Str × Str} (hp : p ∈ row.2) :
    row.1 ≠ [] ∧ tableGet row.2 (toLower p.1) = some p.2 ∧ PlainName p.1 ∧ PlainName p.2 ∧
      hasPrefix p.2 b!"BoundedBTreeSet" = false := by
  have : ∀ row ∈ typesModules, ∀ p ∈ row.2, row.1 ≠ [] ∧ tableGet row.2 (toLower p.1) = some p.2 ∧ PlainName p.1 ∧ PlainName p.2 ∧
      hasPrefix p.2 b!"BoundedBTreeSet" = false := by decide +kernel
  exact this row h p hp

theorem sameName_nil {a : Str} (h : SameName a []) : a = [] := by
  cases h; rfl

/-- Lookup of a plain name whatever the module says: the replacement's own spelling for version ranges, its lower-case
spelling in the registry. -/
theorem getCodecClass_module (env : Env) {m s o : Str} (v : Int) (hs : PlainName s)
    (hb : hasPrefix s b!"BoundedBTreeSet" = false) (hm : moduleType (toLower s) m = o) (ho : PlainName o) :
    getCodecClass env m v s =
      .ok (((findSpecial v (env.special o)).or (env.reg (toLower o))).map (fun c => (c, []))) := by
  have hi : getCodecInstant env m s v = .ok ((findSpecial v (env.special o)).or (env.reg (toLower o))) := by
    unfold getCodecInstant
    simp only [hm]
    cases findSpecial v (env.special o) with
    | some c => simp
    | none =>
      simp only [Option.none_or]
      obtain ⟨_, _, _, _, _, _, _, _, _, _, _, h91, _⟩ := ho.absent
      cases hr : env.reg (toLower o) with
      | some c => rfl
      | none =>
        simp only
        rw [if_neg (by intro he; rw [he] at h91; exact h91 (by decide))]
        split
        · exact absurd rfl ho.1
        · rw [if_neg]
          rintro ⟨rfl, -⟩
          exact h91 (by simp)
  obtain ⟨hsp, h35, h38, h40, h41, h44, h45, h58, h59, h60, h62, h91, h93, h10⟩ := hs.absent
  unfold getCodecClass getCodecClassAux
  simp only [convertType_plain hs hb]
  rw [if_neg hs.1]
  simp only [lookupWhole, lookupParts, partsOf, endsWith_absent h62, Bool.false_eq_true, if_false, Res.ok_bind, hi]
  cases (findSpecial v (env.special o)).or (env.reg (toLower o)) with
  | some c => rfl
  | none =>
    simp only [Option.map_none]
    rw [if_neg, if_neg]
    · simp [contains_of_absent 58 (show (58 : UInt8) ∈ b!"::" by decide) h58]
    · rintro ⟨_, hh, _⟩; exact head?_absent h40 hh

theorem not_bounded {row : Str × List (Str × Str)} (h : row ∈ typesModules) {p : Str × Str} (hp : p ∈ row.2) {s : Str}
    (hs : SameName p.1 s) : hasPrefix s b!"BoundedBTreeSet" = false := by
  rw [Bool.eq_false_iff]
  intro hpre
  have h1 : ∀ row ∈ typesModules, ∀ p ∈ row.2, (toLower b!"BoundedBTreeSet").isPrefixOf (toLower p.1) = false := by decide +kernel
  have h2 := h1 row h p hp
  rw [(toLower_eq_iff _ _).2 hs, Bool.eq_false_iff] at h2
  apply h2
  unfold hasPrefix at hpre
  rw [List.isPrefixOf_iff_prefix] at hpre ⊢
  exact hpre.map lowerByte

/-- The property for the rows whose module name is written in lower case: `inclusion`, `scheduler`, `shared`, `assets`,
`beefy`, `ethereum`, `bridgemultisig`. -/
theorem C32_partial (row : Str × List (Str × Str)) (hrow : row ∈ typesModules) (hl : toLower row.1 = row.1) (p : Str × Str)
    (hp : p ∈ row.2) (env : Env) (m s : Str) (v : Int) (hm : SameName row.1 m) (hs : SameName p.1 s)
    (hsp : ∀ k, SameName k p.2 → findSpecial v (env.special k) = none) :
    getCodecClass env m v s = getCodecClass env [] v p.2 := by
  obtain ⟨h1, h2, h3, h4, h5⟩ := override_entry hrow hp
  have hmt : moduleType (toLower s) m = p.2 := by
    unfold moduleType
    rw [if_neg (by rintro rfl; exact h1 (sameName_nil hm)), ← (toLower_eq_iff _ _).2 hm, hl, tableGet_lower hrow hl]
    simp only [← (toLower_eq_iff _ _).2 hs, h2, Option.getD_some]
  rw [getCodecClass_module env v (hs.plain h3) (not_bounded hrow hp hs) hmt h4,
    getCodecClass_plain env v h4 h5 (moduleType_nil _), hsp p.2 ((toLower_eq_iff _ _).1 rfl),
    hsp (toLower p.2) ((toLower_eq_iff _ _).1 (toLower_idem _))]

/-- Which rows these are. -/
theorem C32_rows : (typesModules.filter (fun row => toLower row.1 = row.1)).map (·.1) =
    [b!"inclusion", b!"scheduler", b!"shared", b!"assets", b!"beefy", b!"ethereum", b!"bridgemultisig"] := by decide +kernel

/-- For the other five rows (`parasInclusion`, `parasScheduler`, `parasShared`, `paraDisputes`, `parasDisputes`) the override
is never used, however the module is spelled: every lookup is that outside of modules. -/
theorem C32_unreachable (row : Str × List (Str × Str)) (hrow : row ∈ typesModules) (hl : toLower row.1 ≠ row.1)
    (env : Env) (m s : Str) (v : Int) (hm : SameName row.1 m) :
    getCodecInstant env m s v = getCodecInstant env [] s v := by
  have h1 : ∀ row ∈ typesModules, toLower row.1 ≠ row.1 → tableGet typesModules (toLower row.1) = none := by decide +kernel
  have hmt : ∀ t, moduleType t m = t := by
    intro t
    unfold moduleType
    rw [← (toLower_eq_iff _ _).2 hm, h1 row hrow hl]
    simp
  unfold getCodecInstant
  rw [hmt (toLower s), moduleType_nil]

/-- The full property fails: inside `parasInclusion`, `ValidatorIndex` is not replaced by `ParaValidatorIndex`. -/
theorem C32_claim_false : ¬ C32Claim := by
  intro h
  have := h (b!"parasInclusion", [(b!"validatorindex", b!"ParaValidatorIndex")]) (by decide) (b!"validatorindex", b!"ParaValidatorIndex")
    (by decide) (setReg (setReg (baseEnv dummyExt) b!"validatorindex" .u64) b!"paravalidatorindex" .u32) b!"parasInclusion"
    b!"ValidatorIndex" 0 (by decide +kernel) (by decide +kernel) (fun _ => rfl)
  have e1 : getCodecClass (setReg (setReg (baseEnv dummyExt) b!"validatorindex" .u64) b!"paravalidatorindex" .u32) b!"parasInclusion" 0
    b!"ValidatorIndex" = .ok (some (.u64, [])) := by kernel_rfl
  have e2 : getCodecClass (setReg (setReg (baseEnv dummyExt) b!"validatorindex" .u64) b!"paravalidatorindex" .u32) [] 0
    b!"ParaValidatorIndex" = .ok (some (.u32, [])) := by kernel_rfl
  rw [e1, e2] at this
  simp at this

/-- `Balance` in the module `Assets`. -/
example (env : Env) (hsp : ∀ k, env.special k = []) :
    getCodecClass env b!"Assets" 7 b!"Balance" = getCodecClass env [] 7 b!"TAssetBalance" :=
  C32_partial (b!"assets", [(b!"approval", b!"AssetApproval"), (b!"approvalkey", b!"AssetApprovalKey"),
      (b!"balance", b!"TAssetBalance"), (b!"destroywitness", b!"AssetDestroyWitness")]) (by decide) (by decide)
    (b!"balance", b!"TAssetBalance") (by decide) env _ _ 7 (by decide +kernel) (by decide +kernel) (fun k _ => by rw [hsp]; rfl)

end ScaleGo
