import Verif.Lemmas.Inv
import Verif.Lemmas.Strings

/-! # Decoding behind a prefix compared with decoding without it -/

namespace ScaleGo

/-- `s` is `s'` with `pre` put in front of the buffer. -/
def Sh (pre : Str) (s s' : St) : Prop :=
  s.cur.data = pre ++ s'.cur.data ∧ s.cur.off = pre.length + s'.cur.off ∧ s.calls = s'.calls

/-- `x` (behind the prefix) panics, or `x` and `y` (without prefix) do the same. -/
def Sim {α : Type} (pre : Str) (x y : Res (α × St)) : Prop :=
  x = .panic ∨ (x = .diverge ∧ y = .diverge) ∨ ∃ a s s', x = .ok (a, s) ∧ y = .ok (a, s') ∧ Sh pre s s'

variable {pre : Str}

theorem Sim.panic {α : Type} {y : Res (α × St)} : Sim pre (.panic : Res (α × St)) y := Or.inl rfl

theorem Sim.ok {α : Type} {a : α} {s s' : St} (h : Sh pre s s') : Sim pre (.ok (a, s)) (.ok (a, s')) :=
  Or.inr (Or.inr ⟨a, s, s', rfl, rfl, h⟩)

theorem Sim.bind {α β : Type} {x y : Res (α × St)} {f g : α × St → Res (β × St)} (h : Sim pre x y)
    (hf : ∀ a s s', Sh pre s s' → Sim pre (f (a, s)) (g (a, s'))) : Sim pre (x >>= f) (y >>= g) := by
  rcases h with h | ⟨h, h'⟩ | ⟨a, s, s', h, h', hs⟩
  · rw [h]; exact Sim.panic
  · rw [h, h']; exact Or.inr (Or.inl ⟨rfl, rfl⟩)
  · rw [h, h']; exact hf a s s' hs

theorem Sim.pure {α β : Type} {x : Res α} {f g : α → Res (β × St)} (hf : ∀ a, Sim pre (f a) (g a)) :
    Sim pre (x >>= f) (x >>= g) := by
  cases x with
  | ok a => exact hf a
  | panic => exact Sim.panic
  | diverge => exact Or.inr (Or.inl ⟨rfl, rfl⟩)

theorem bmod_eq_of {i j : Int} (k : Int) (h : i = j + k * 2 ^ 64) (h1 : -(2 ^ 63) ≤ i) (h2 : i < 2 ^ 63) :
    wrap64 j = i := by
  unfold wrap64
  rw [Int.bmod_def]
  split <;> omega

theorem wrap64_spec (j : Int) : ∃ k : Int, wrap64 j = j + k * 2 ^ 64 ∧ -(2 ^ 63) ≤ wrap64 j ∧ wrap64 j < 2 ^ 63 := by
  unfold wrap64
  refine ⟨(j.bmod (2 ^ 64) - j) / 2 ^ 64, ?_, ?_, ?_⟩
  · rw [Int.bmod_def]
    split <;> omega
  · have := Int.le_bmod (x := j) (m := 2 ^ 64) (by decide)
    omega
  · have := Int.bmod_lt (x := j) (m := 2 ^ 64) (by decide)
    omega

theorem nextBytes_sim (n : Int) {s s' : St} (h : Sh pre s s') : Sim pre (nextBytes n s) (nextBytes n s') := by
  obtain ⟨⟨d, o⟩, cs⟩ := s
  obtain ⟨⟨d', o'⟩, cs'⟩ := s'
  obtain ⟨h1, h2, h3⟩ := h
  dsimp only at h1 h2 h3
  subst h1; subst h2; subst h3
  unfold nextBytes getNextBytes
  dsimp only
  obtain ⟨k, e1, e2, e3⟩ := wrap64_spec (((pre.length + o' : Nat) : Int) + n)
  generalize wrap64 (((pre.length + o' : Nat) : Int) + n) = e at e1 e2 e3 ⊢
  by_cases hc : ((pre.length + o' : Nat) : Int) ≤ e
  · have hw : wrap64 ((o' : Int) + n) = e - pre.length :=
      bmod_eq_of k (by push_cast at e1; omega) (by omega) (by omega)
    rw [hw]
    have hl : ((pre ++ d').length : Int) = pre.length + d'.length := by simp
    rw [hl]
    by_cases hg : e > (pre.length : Int) + d'.length
    · rw [if_pos hg, if_pos (show e - pre.length > (d'.length : Int) by omega)]
      by_cases hi : o' ≤ d'.length
      · rw [if_pos (by simp; omega), if_pos hi]
        simp only [Res.ok_bind]
        have e5 : (pre ++ d').drop (pre.length + o') = d'.drop o' := by simp [← List.drop_drop]
        rw [e5]
        exact Sim.ok ⟨rfl, by simp, rfl⟩
      · rw [if_neg (by simp; omega)]
        exact Sim.panic
    · rw [if_neg hg, if_neg (show ¬ (e - pre.length > (d'.length : Int)) by omega), if_pos hc, if_pos (by omega)]
      simp only [Res.ok_bind]
      have e5 : (pre ++ d').drop (pre.length + o') = d'.drop o' := by simp [← List.drop_drop]
      rw [e5, show e.toNat - (pre.length + o') = (e - pre.length).toNat - o' by omega]
      exact Sim.ok ⟨rfl, by dsimp only; omega, rfl⟩
  · by_cases hg : e > ((pre ++ d').length : Int)
    · rw [if_pos hg, if_neg (by omega)]
      exact Sim.panic
    · rw [if_neg hg, if_neg hc]
      exact Sim.panic

theorem getNextU8_sim {s s' : St} (h : Sh pre s s') : Sim pre (getNextU8 s) (getNextU8 s') :=
  Sim.bind (nextBytes_sim _ h) (fun _ _ _ h => Sim.ok h)

theorem processCompactBytes_sim {s s' : St} (h : Sh pre s s') :
    Sim pre (processCompactBytes s) (processCompactBytes s') := by
  unfold processCompactBytes
  refine Sim.bind (nextBytes_sim _ h) (fun b s s' hs => ?_)
  dsimp only
  split
  · exact Sim.ok hs
  · exact Sim.bind (nextBytes_sim _ hs) (fun _ _ _ hs => Sim.ok hs)
  · exact Sim.bind (nextBytes_sim _ hs) (fun _ _ _ hs => Sim.ok hs)
  · exact Sim.bind (nextBytes_sim _ hs) (fun _ _ _ hs => Sim.ok hs)

theorem processCompactU32_sim {s s' : St} (h : Sh pre s s') : Sim pre (processCompactU32 s) (processCompactU32 s') :=
  Sim.bind (processCompactBytes_sim h) (fun _ _ _ hs => Sim.ok hs)

/-- The hypothesis on the recursive call. -/
def RecSim (pre : Str) (r : Rec) : Prop := ∀ ctx ty s s', Sh pre s s' → Sim pre (r ctx ty s) (r ctx ty s')

section
variable {r : Rec} (hr : RecSim pre r)
include hr

theorem procN_sim (ctx : Ctx) (ty : Str) (n : Nat) {s s' : St} (h : Sh pre s s') :
    Sim pre (procN r ctx ty n s) (procN r ctx ty n s') := by
  induction n generalizing s s' with
  | zero => exact Sim.ok h
  | succ n ih =>
    simp only [procN]
    exact Sim.bind (hr _ _ _ _ h) (fun _ _ _ h => Sim.bind (ih h) (fun _ _ _ h => Sim.ok h))

theorem procFields_sim (ctx : Ctx) (fs : List (Str × Str)) (acc : List (Str × Val)) {s s' : St} (h : Sh pre s s') :
    Sim pre (procFields r ctx fs acc s) (procFields r ctx fs acc s') := by
  induction fs generalizing acc s s' with
  | nil => exact Sim.ok h
  | cons f fs ih =>
    obtain ⟨n, t⟩ := f
    simp only [procFields]
    exact Sim.bind (hr _ _ _ _ h) (fun _ _ _ h => ih _ h)

theorem procRows_sim (ctx : Ctx) (rows : List (List Str)) (acc : List (Str × Val)) {s s' : St} (h : Sh pre s s') :
    Sim pre (procRows r ctx rows acc s) (procRows r ctx rows acc s') := by
  induction rows generalizing acc s s' with
  | nil => exact Sim.ok h
  | cons row rows ih =>
    match row with
    | [] => exact Sim.panic
    | [_] => exact Sim.panic
    | n :: t :: _ =>
      simp only [procRows]
      exact Sim.bind (hr _ _ _ _ h) (fun _ _ _ h => ih _ h)

theorem procPairs_sim (ext : Ext) (ctx : Ctx) (parts : List Str) (n : Nat) {s s' : St} (h : Sh pre s s') :
    Sim pre (procPairs ext r ctx parts n s) (procPairs ext r ctx parts n s') := by
  induction n generalizing s s' with
  | zero => exact Sim.ok h
  | succ n ih =>
    simp only [procPairs]
    refine Sim.bind (hr _ _ _ _ h) (fun _ _ _ h => ?_)
    split
    · exact Sim.bind (hr _ _ _ _ h) (fun _ _ _ h => Sim.bind (ih h) (fun _ _ _ h => Sim.ok h))
    · exact Sim.panic

theorem procArgs_sim (ctx : Ctx) (fs : List (Str × Str)) {s s' : St} (h : Sh pre s s') :
    Sim pre (procArgs r ctx fs s) (procArgs r ctx fs s') := by
  induction fs generalizing s s' with
  | nil => exact Sim.ok h
  | cons f fs ih =>
    obtain ⟨n, t⟩ := f
    simp only [procArgs]
    exact Sim.bind (hr _ _ _ _ h) (fun _ _ _ h => Sim.bind (ih h) (fun _ _ _ h => Sim.ok h))

theorem processVec_sim (ctx : Ctx) (sub : Str) {s s' : St} (h : Sh pre s s') :
    Sim pre (processVec r ctx sub s) (processVec r ctx sub s') := by
  unfold processVec
  refine Sim.bind (hr _ _ _ _ h) (fun _ _ _ h => Sim.pure (fun n => ?_))
  dsimp only
  split
  · exact Sim.panic
  · exact Sim.bind (procN_sim hr _ _ _ h) (fun _ _ _ h => Sim.ok h)

theorem processBytes_sim (ctx : Ctx) {s s' : St} (h : Sh pre s s') :
    Sim pre (processBytes r ctx s) (processBytes r ctx s') := by
  unfold processBytes
  exact Sim.bind (hr _ _ _ _ h) (fun _ _ _ h => Sim.pure (fun n =>
    Sim.bind (nextBytes_sim _ h) (fun _ _ _ h => Sim.ok h)))

theorem processEnum_sim (ext : Ext) (ctx : Ctx) (vs : List Str) (tm : Option (List (Str × Str))) {s s' : St}
    (h : Sh pre s s') : Sim pre (processEnum ext r ctx vs tm s) (processEnum ext r ctx vs tm s') := by
  unfold processEnum
  refine Sim.bind (nextBytes_sim _ h) (fun b s s' h => ?_)
  dsimp only
  have hv : Sim pre (match vs[(b.headD 0).toNat]? with
      | some v => Res.ok (if v = [] then Val.nil else Val.str v, s)
      | none => Res.panic) (match vs[(b.headD 0).toNat]? with
      | some v => Res.ok (if v = [] then Val.nil else Val.str v, s')
      | none => Res.panic) := by
    cases vs[(b.headD 0).toNat]? with
    | some v => exact Sim.ok h
    | none => exact Sim.panic
  split
  · exact hv
  · split
    · exact Sim.ok h
    · split
      · exact Sim.panic
      · split
        · exact hv
        · split
          · exact Sim.bind (procRows_sim hr _ _ _ h) (fun _ _ _ h => Sim.ok h)
          · exact Sim.bind (hr _ _ _ _ h) (fun _ _ _ h => Sim.ok h)

/-- The classes that index the buffer absolutely. -/
def AbsIndex (c : Cls) : Prop := c = .float64 ∨ c = .float32 ∨ c = .lookupSource

theorem process_sim (ext : Ext) (ctx : Ctx) (cls : Cls) (sub : Str) (hna : ¬ AbsIndex cls) {s s' : St} (h : Sh pre s s') :
    Sim pre (process ext r ctx cls sub s) (process ext r ctx cls sub s') := by
  cases cls <;> simp only [process]
  case null => exact Sim.ok h
  case empty => exact Sim.ok h
  case u8 => exact Sim.bind (getNextU8_sim h) (fun _ _ _ h => Sim.ok h)
  case u16 => exact Sim.bind (nextBytes_sim _ h) (fun _ _ _ h => Sim.ok h)
  case u32 => exact Sim.bind (nextBytes_sim _ h) (fun _ _ _ h => Sim.ok h)
  case u64 => exact Sim.bind (nextBytes_sim _ h) (fun _ _ _ h => Sim.ok h)
  case u128 =>
    exact Sim.bind (nextBytes_sim _ h) (fun _ _ _ h => Sim.pure (fun _ => Sim.pure (fun _ => Sim.ok h)))
  case u256 =>
    refine Sim.bind (nextBytes_sim _ h) (fun _ _ _ h => ?_)
    dsimp only
    split
    · exact Sim.ok h
    · exact Sim.panic
  case float64 => exact absurd (Or.inl rfl) hna
  case float32 => exact absurd (Or.inr (Or.inl rfl)) hna
  case lookupSource => exact absurd (Or.inr (Or.inr rfl)) hna
  case hash n => exact Sim.bind (nextBytes_sim _ h) (fun _ _ _ h => Sim.ok h)
  case address =>
    refine Sim.bind (nextBytes_sim _ h) (fun _ _ _ h => ?_)
    dsimp only
    split
    · exact Sim.bind (nextBytes_sim _ h) (fun _ _ _ h => Sim.ok h)
    · exact Sim.bind (nextBytes_sim _ h) (fun _ _ _ h => Sim.ok h)
  case genericAddress =>
    refine Sim.bind (nextBytes_sim _ h) (fun _ _ _ h => ?_)
    dsimp only
    split
    · exact Sim.bind (nextBytes_sim _ h) (fun _ _ _ h => Sim.ok h)
    · split
      · exact Sim.bind (nextBytes_sim _ h) (fun _ _ _ h => Sim.ok h)
      · split
        · exact Sim.bind (nextBytes_sim _ h) (fun _ _ _ h => Sim.ok h)
        · split
          · exact Sim.bind (nextBytes_sim _ h) (fun _ _ _ h => Sim.ok h)
          · exact Sim.bind (nextBytes_sim _ h) (fun _ _ _ h => Sim.ok h)
  case option t =>
    unfold processOption
    refine Sim.bind (nextBytes_sim _ h) (fun _ _ _ h => ?_)
    dsimp only
    split
    · split
      · exact Sim.ok h
      · exact hr _ _ _ _ h
    · exact Sim.ok h
  case struct tm =>
    exact Sim.bind (procFields_sim hr _ _ _ h) (fun _ _ _ h => Sim.ok h)
  case enum vs tm => exact processEnum_sim hr _ _ _ _ h
  case bytes => exact processBytes_sim hr _ h
  case string => exact processBytes_sim hr _ h
  case hexBytes =>
    unfold processHexBytes
    exact Sim.bind (hr _ _ _ _ h) (fun _ _ _ h => Sim.pure (fun n =>
      Sim.bind (nextBytes_sim _ h) (fun _ _ _ h => Sim.ok h)))
  case vec t => exact processVec_sim hr _ _ h
  case boundedVec t => exact processVec_sim hr _ _ h
  case authoritiesChange => exact processVec_sim hr _ _ h
  case set vs bits => exact Sim.bind (hr _ _ _ _ h) (fun _ _ _ h => Sim.ok h)
  case compact t =>
    unfold processCompact
    refine Sim.bind (processCompactBytes_sim h) (fun _ _ _ h => ?_)
    dsimp only
    split
    · exact Sim.ok h
    · exact Sim.pure (fun _ => Sim.pure (fun _ => Sim.ok h))
  case compactU32 => exact processCompactU32_sim h
  case compactMoment =>
    unfold processCompactMoment
    exact Sim.bind (processCompactU32_sim h) (fun _ _ _ h => Sim.pure (fun _ => Sim.ok h))
  case bool => exact Sim.bind (nextBytes_sim _ h) (fun _ _ _ h => Sim.ok h)
  case moment => exact Sim.bind (nextBytes_sim _ h) (fun _ _ _ h => Sim.ok h)
  case accountId => exact Sim.bind (nextBytes_sim _ h) (fun _ _ _ h => Sim.ok h)
  case call =>
    unfold processCall
    dsimp only
    have hoff := h.2.1
    refine Sim.bind (nextBytes_sim _ h) (fun _ _ _ h => ?_)
    dsimp only
    split
    · exact Sim.panic
    · refine Sim.bind (procArgs_sim hr _ _ h) (fun _ s1 s1' h => ?_)
      obtain ⟨k1, k2, k3⟩ := h
      have e1 : s1.cur.data.drop s.cur.off = s1'.cur.data.drop s'.cur.off := by
        rw [k1, hoff]; simp [← List.drop_drop]
      have e2 : s1.cur.off - s.cur.off = s1'.cur.off - s'.cur.off := by omega
      rw [e1, e2]
      exact Sim.ok ⟨k1, k2, by simp [k3]⟩
  case era =>
    refine Sim.bind (nextBytes_sim _ h) (fun _ _ _ h => ?_)
    dsimp only
    split
    · exact Sim.ok h
    · exact Sim.bind (nextBytes_sim _ h) (fun _ _ _ h => Sim.ok h)
  case balance =>
    refine Sim.bind (nextBytes_sim _ h) (fun _ _ _ h => ?_)
    dsimp only
    split
    · exact Sim.ok h
    · exact Sim.pure (fun _ => Sim.ok h)
  case logDigest =>
    unfold processLogDigest
    refine Sim.bind (nextBytes_sim _ h) (fun _ _ _ h => ?_)
    dsimp only
    split
    · exact Sim.panic
    · exact Sim.bind (hr _ _ _ _ h) (fun _ _ _ h => Sim.ok h)
  case lockIdentifier => exact Sim.bind (nextBytes_sim _ h) (fun _ _ _ h => Sim.ok h)
  case ecdsaSignature => exact Sim.bind (nextBytes_sim _ h) (fun _ _ _ h => Sim.ok h)
  case ethereumAddress => exact Sim.bind (nextBytes_sim _ h) (fun _ _ _ h => Sim.pure (fun _ => Sim.ok h))
  case data =>
    unfold processData
    refine Sim.bind (nextBytes_sim _ h) (fun _ _ _ h => ?_)
    dsimp only
    split
    · exact Sim.ok h
    · split
      · exact Sim.bind (nextBytes_sim _ h) (fun _ _ _ h => Sim.ok h)
      · split
        · split
          · exact Sim.bind (hr _ _ _ _ h) (fun _ _ _ h => Sim.ok h)
          · exact Sim.panic
        · exact Sim.ok h
  case opaqueCall =>
    unfold processOpaqueCall
    refine Sim.bind (processBytes_sim hr _ h) (fun _ s s' h => ?_)
    dsimp only
    split
    · exact Sim.pure (fun p => Sim.ok ⟨h.1, h.2.1, by simp [h.2.2]⟩)
    · exact Sim.panic
  case bitVec =>
    unfold processBitVec
    exact Sim.bind (hr _ _ _ _ h) (fun _ _ _ h => Sim.pure (fun n =>
      Sim.bind (nextBytes_sim _ h) (fun _ _ _ h => Sim.ok h)))
  case btreeMap t =>
    unfold processBTreeMap
    refine Sim.bind (hr _ _ _ _ h) (fun _ _ _ h => Sim.pure (fun n => ?_))
    dsimp only
    split
    · exact Sim.panic
    · exact Sim.bind (procPairs_sim hr _ _ _ _ h) (fun _ _ _ h => Sim.ok h)
  case box t => exact hr _ _ _ _ h
  case result t =>
    unfold processResult
    refine Sim.bind (nextBytes_sim _ h) (fun _ _ _ h => ?_)
    dsimp only
    split
    · split
      · exact Sim.bind (hr _ _ _ _ h) (fun _ _ _ h => Sim.ok h)
      · split
        · exact Sim.bind (hr _ _ _ _ h) (fun _ _ _ h => Sim.ok h)
        · exact Sim.panic
    · exact Sim.panic
  case wrapperOpaque t =>
    unfold processWrapper
    exact Sim.bind (hr _ _ _ _ h) (fun _ _ _ h => hr _ _ _ _ h)
  case range t =>
    unfold processRange
    exact Sim.bind (hr _ _ _ _ h) (fun _ _ _ h => Sim.bind (hr _ _ _ _ h) (fun _ _ _ h => Sim.ok h))
  case fixedU64 => exact Sim.bind (nextBytes_sim _ h) (fun _ _ _ h => Sim.ok h)
  case fixedI128 =>
    unfold processFixedI128
    refine Sim.bind (hr _ _ _ _ h) (fun _ _ _ h => ?_)
    dsimp only
    split
    · exact Sim.ok h
    · exact Sim.panic
  case intFixed n =>
    refine Sim.bind (nextBytes_sim _ h) (fun _ _ _ h => ?_)
    dsimp only
    split
    · exact Sim.panic
    · split
      · exact Sim.ok h
      · exact Sim.ok h
  case fixedU8 n => exact Sim.bind (nextBytes_sim _ h) (fun _ _ _ h => Sim.ok h)
  case fixedArray n t =>
    unfold processFixedArray
    split
    · split
      · exact Sim.bind (nextBytes_sim _ h) (fun _ _ _ h => Sim.ok h)
      · exact Sim.bind (procN_sim hr _ _ _ h) (fun _ _ _ h => Sim.ok h)
    · exact Sim.bind (getNextU8_sim h) (fun _ _ _ h => Sim.ok h)

end

/-! ## Where a looked-up class comes from -/

/-- Classes that lookup can return: registered ones, fixed arrays from text and tuples. -/
def FromEnv (env : Env) (c : Cls) : Prop :=
  (∃ t, env.reg t = some c) ∨ (∃ t lo hi, (lo, hi, c) ∈ env.special t) ∨ (∃ n t, c = .fixedArray n t) ∨
    ∃ t, c = .struct (some (buildStruct t))

theorem findSpecial_mem {spec : Int} {l : List (Int × Int × Cls)} {c : Cls} (h : findSpecial spec l = some c) :
    ∃ lo hi, (lo, hi, c) ∈ l := by
  induction l with
  | nil => simp [findSpecial] at h
  | cons x xs ih =>
    obtain ⟨lo, hi, d⟩ := x
    simp only [findSpecial] at h
    split at h
    · cases h; exact ⟨lo, hi, by simp⟩
    · obtain ⟨lo', hi', hm⟩ := ih h
      exact ⟨lo', hi', by simp [hm]⟩

theorem getCodecInstant_from {env : Env} {m t : Str} {spec : Int} {c : Cls}
    (h : getCodecInstant env m t spec = .ok (some c)) : FromEnv env c := by
  unfold getCodecInstant at h
  dsimp only at h
  split at h
  · rename_i hs
    cases h
    obtain ⟨lo, hi, hm⟩ := findSpecial_mem hs
    exact Or.inr (Or.inl ⟨_, lo, hi, hm⟩)
  · split at h
    · rename_i hr
      cases h
      exact Or.inl ⟨_, hr⟩
    · split at h
      · cases h
      · split at h
        · cases h
        · split at h
          · unfold fixedArrayText at h
            dsimp only at h
            split at h
            · cases h
              exact Or.inr (Or.inr (Or.inl ⟨_, _, rfl⟩))
            · cases h
          · cases h

theorem getCodecClassAux_from {env : Env} {m : Str} {spec : Int} {n : Nat} {ty : Str} {c : Cls} {sub : Str}
    (h : getCodecClassAux env m spec n ty = .ok (some (c, sub))) : FromEnv env c := by
  induction n generalizing ty with
  | zero => simp [getCodecClassAux] at h
  | succ n ih =>
    unfold getCodecClassAux at h
    dsimp only at h
    generalize convertType ty = t at h
    split at h
    · cases h
    · rw [Res.bind_eq_ok] at h
      obtain ⟨w, h1, h2⟩ := h
      split at h2
      · cases h2
        unfold lookupWhole at h1
        split at h1
        · exact getCodecInstant_from h1
        · cases h1
      · rw [Res.bind_eq_ok] at h2
        obtain ⟨w, h3, h4⟩ := h2
        split at h4
        · cases h4
          unfold lookupParts at h3
          split at h3
          · rw [Res.bind_eq_ok] at h3
            obtain ⟨d, h5, h6⟩ := h3
            cases d with
            | none => cases h6
            | some d => cases h6; exact getCodecInstant_from h5
          · rw [Res.bind_eq_ok] at h3
            obtain ⟨d, h5, h6⟩ := h3
            cases d with
            | none => cases h6
            | some d => cases h6; exact getCodecInstant_from h5
        · split at h4
          · unfold lookupTuple at h4
            rw [Res.bind_eq_ok] at h4
            obtain ⟨d, h5, h6⟩ := h4
            split at h6
            · cases h6; exact Or.inr (Or.inr (Or.inr ⟨_, rfl⟩))
            · cases h6
          · split at h4
            · exact ih h4
            · cases h4

theorem getCodecClass_from {env : Env} {m : Str} {spec : Int} {ty : Str} {c : Cls} {sub : Str}
    (h : getCodecClass env m spec ty = .ok (some (c, sub))) : FromEnv env c := getCodecClassAux_from h

theorem pau_sim (env : Env) (hreg : ∀ t c, env.reg t = some c → ¬ AbsIndex c)
    (hsp : ∀ t lo hi c, (lo, hi, c) ∈ env.special t → ¬ AbsIndex c) (pre : Str) (n : Nat) : RecSim pre (pau env n) := by
  induction n with
  | zero => intro ctx ty s s' _; exact Or.inr (Or.inl ⟨rfl, rfl⟩)
  | succ n ih =>
    intro ctx ty s s' h
    rw [pau, pau]
    cases hg : getCodecClass env ctx.module ctx.spec ty with
    | panic => exact Sim.panic
    | diverge => exact Or.inr (Or.inl ⟨rfl, rfl⟩)
    | ok w =>
      simp only [Res.ok_bind]
      cases w with
      | none => exact Sim.panic
      | some p =>
        obtain ⟨c, sub⟩ := p
        refine process_sim ih _ _ _ _ ?_ h
        rcases getCodecClass_from hg with ⟨t, ht⟩ | ⟨t, lo, hi, ht⟩ | ⟨k, t, rfl⟩ | ⟨tm, rfl⟩
        · exact hreg _ _ ht
        · exact hsp _ _ _ _ ht
        · rintro (h | h | h) <;> cases h
        · rintro (h | h | h) <;> cases h

end ScaleGo
