import Verif.Lemmas.TextChars
import Verif.Lemmas.JsonRows
import Verif.Lemmas.KernelRfl
import Verif.Model.Base
import Verif.Props.C23
import Verif.Props.C36
import Verif.Props.C39

/-!
# C38: portable-registry enums keep variant indices

English claim: for an enum described in metadata with arbitrary, unordered, gappy variant indices, the registered enum has the
variant with index i at position i, gaps are filled with unreachable placeholders, so decoding byte i selects the variant
declared with index i.

Positions and selection hold (`C38_positions`, `C38_selects_partial`, `C38_plain_values`).  The placeholders are reachable: a byte that no
variant has is decoded as `{"empty": nil}`, or as the empty name when no variant has fields (`C38_claim_false`,
`C38_gap_accepted`, `C38_plain_unknown`).
-/

namespace ScaleGo
namespace Spec

/-- The variant with index `k` stands at position `k`; other positions are placeholders; nothing stands behind the last
variant. -/
structure Positions (cfg : SiCfg) (A : Nat → Prop) (vs : List SiVariant) (rows : List (Str × Str)) : Prop where
  variant : ∀ v ∈ vs, ∃ t, rows[v.index]? = some (v.name, t) ∧ VariantText cfg A v t
  gap : ∀ k r, rows[k]? = some r → (∀ v ∈ vs, v.index ≠ k) → r = (b!"empty", b!"NULL")
  last : ∀ k, k < rows.length → ∃ v ∈ vs, k ≤ v.index

/-- The registry describes the enum `i` under the name `n`, which is not in use and leads to the entry made for it. -/
structure NewEnum (cfg : SiCfg) (reg : RegState) (m : Str) (spec : Int) (i : Nat) (vs : List SiVariant) (n : Str) : Prop where
  inside : i < cfg.count
  enum : IsEnum (cfg.types i)
  typ : (cfg.types i).typ = .variant vs
  noPrimitive : (cfg.types i).path.head? ≠ some b!"primitive_types"
  name : nameSiType cfg (cfg.types i) (some i) = .ok n
  apart : Apart cfg i n
  unversioned : Unversioned cfg
  bytes : CfgBytes cfg (· ≠ 35)
  fresh : reg.env.reg (toLower n) = none
  unknown : reg.v14 n = none
  noRange : findSpecial spec (reg.env.special (toLower n)) = none
  verbatim : Verbatim n
  notOverridden : NotOverridden m n

end Spec

open ScaleGo.Spec

/-- The full claim, in terms of decoding: for every enum with distinct indices below 256, a variant is selected by its
index, and every other byte is refused. -/
def C38Claim : Prop :=
  ∀ (cfg : SiCfg) (dup : Str → Nat) (fuel : Nat) (reg : RegState) (st : SiState) (ctx : Ctx) (i : Nat) (vs : List SiVariant) (n : Str),
    countNames cfg 0 cfg.count (fun _ => 0) = .ok dup → processSiType cfg fuel reg = .ok st →
    NewEnum { cfg with dup := dup } reg ctx.module ctx.spec i vs n → (vs.map SiVariant.index).Nodup → (∀ v ∈ vs, v.index < 256) →
    (∀ v ∈ vs, v.fields = [] → ∃ r, (r = .str v.name ∨ r = .map [(v.name, .nil)]) ∧
      Decodes st.reg.env ctx n [UInt8.ofNat v.index] r []) ∧
    (∀ v ∈ vs, ∀ f, v.fields = [f] → ∀ t b val ic, st.ids f.type = some t → Decodes st.reg.env ctx t b val ic →
      Decodes st.reg.env ctx n (UInt8.ofNat v.index :: b) (.map [(v.name, val)]) ic) ∧
    (∀ k : UInt8, (∀ v ∈ vs, v.index ≠ k.toNat) → DecodeRefuses st.reg.env ctx n [k])

/-! ## Layout of the rows -/

theorem layout_cons (s : Nat) (prev : Option Nat) (hs : s = match prev with | none => 0 | some q => q + 1) (p : SiVariant × Str)
    (ps : List (SiVariant × Str)) :
    layout prev (p :: ps) = gapRows (p.1.index - s) ++ [p.1.name, p.2] :: layout (some p.1.index) ps := by
  subst hs
  cases prev with
  | none => rfl
  | some q => simp only [layout, Nat.sub_sub]

theorem layout_rows : ∀ (ps : List (SiVariant × Str)) (s : Nat) (prev : Option Nat), (s = match prev with | none => 0 | some q => q + 1) →
    ps.Pairwise (fun a b => a.1.index < b.1.index) → (∀ p ∈ ps, s ≤ p.1.index) →
    (∀ p ∈ ps, (layout prev ps)[p.1.index - s]? = some [p.1.name, p.2]) ∧
    (∀ k r, (layout prev ps)[k]? = some r → (∀ p ∈ ps, p.1.index ≠ s + k) → r = [b!"empty", b!"NULL"]) ∧
    (∀ k, k < (layout prev ps).length → ∃ p ∈ ps, s + k ≤ p.1.index)
  | [], s, prev, hs, _, _ => by simp [layout]
  | p :: ps, s, prev, hs, hpw, hle => by
    obtain ⟨h1, h2⟩ := List.pairwise_cons.1 hpw
    obtain ⟨ih1, ih2, ih3⟩ := layout_rows ps (p.1.index + 1) (some p.1.index) rfl h2 (fun q hq => h1 q hq)
    have hps := hle p (by simp)
    rw [layout_cons s prev hs]
    have hlen : (gapRows (p.1.index - s)).length = p.1.index - s := by simp [gapRows]
    refine ⟨?_, ?_, ?_⟩
    · intro q hq
      rcases List.mem_cons.1 hq with rfl | hq
      · rw [List.getElem?_append_right (by omega), hlen, Nat.sub_self]
        rfl
      · have hlt := h1 q hq
        rw [List.getElem?_append_right (by omega), hlen]
        obtain ⟨d, hd⟩ : ∃ d, q.1.index - s - (p.1.index - s) = d + 1 := ⟨q.1.index - p.1.index - 1, by omega⟩
        rw [hd, List.getElem?_cons_succ]
        have := ih1 q hq
        rw [show q.1.index - (p.1.index + 1) = d by omega] at this
        exact this
    · intro k r hr hno
      by_cases hk : k < p.1.index - s
      · rw [List.getElem?_append_left (by omega)] at hr
        simp only [gapRows, List.getElem?_replicate, if_pos hk, Option.some.injEq] at hr
        exact hr.symm
      · rw [List.getElem?_append_right (by omega), hlen] at hr
        have hne := hno p (by simp)
        obtain ⟨d, hd⟩ : ∃ d, k - (p.1.index - s) = d + 1 := ⟨k - (p.1.index - s) - 1, by omega⟩
        rw [hd, List.getElem?_cons_succ] at hr
        refine ih2 d r hr fun q hq => ?_
        have := hno q (by simp [hq])
        omega
    · intro k hk
      by_cases hk' : s + k ≤ p.1.index
      · exact ⟨p, by simp, hk'⟩
      · rw [List.length_append, hlen, List.length_cons] at hk
        obtain ⟨q, hq, h⟩ := ih3 (s + k - (p.1.index + 1)) (by omega)
        exact ⟨q, by simp [hq], by omega⟩

theorem mappingRows_get : ∀ {rows : List (List Str)} {l : List (Str × Str)}, mappingRows rows = .ok l →
    l.length = rows.length ∧ ∀ (k : Nat) (a b : Str), rows[k]? = some [a, b] → l[k]? = some (a, b)
  | [], l, h => by cases h; simp
  | [] :: rest, l, h => by cases h
  | [a] :: rest, l, h => by cases h
  | (a :: b :: r) :: rest, l, h => by
    unfold mappingRows at h
    rw [Res.bind_eq_ok] at h
    obtain ⟨l', hl', h⟩ := h
    cases h
    obtain ⟨h1, h2⟩ := mappingRows_get hl'
    refine ⟨by simp [h1], ?_⟩
    intro k x y hk
    cases k with
    | zero =>
      simp only [List.getElem?_cons_zero, Option.some.injEq, List.cons.injEq] at hk ⊢
      rw [hk.1, hk.2.1]
    | succ k => exact h2 k x y hk

theorem layout_pair : ∀ (ps : List (SiVariant × Str)) (prev : Option Nat), ∀ r ∈ layout prev ps, ∃ a b, r = [a, b]
  | [], _, r, h => by simp [layout] at h
  | p :: ps, prev, r, h => by
    unfold layout at h
    rw [List.mem_append, List.mem_cons] at h
    rcases h with h | rfl | h
    · exact ⟨_, _, List.eq_of_mem_replicate h⟩
    · exact ⟨_, _, rfl⟩
    · exact layout_pair ps _ r h

/-- The rows of an enum with fields are positioned by index. -/
theorem enumRows_positions {cfg : SiCfg} {A : Nat → Prop} {vs : List SiVariant} {rows : List (List Str)} {l : List (Str × Str)} (h : EnumRows cfg A vs rows)
    (hl : mappingRows rows = .ok l) (hd : (vs.map SiVariant.index).Nodup) (hf : ∃ v ∈ vs, v.fields ≠ []) : Positions cfg A vs l := by
  obtain ⟨ps, e1, h1, e2⟩ := h
  have hmem : ∀ v, v ∈ vs ↔ ∃ p ∈ ps, p.1 = v := by
    intro v
    rw [← (sortBy_perm SiVariant.index vs).mem_iff, ← e1, List.mem_map]
  have hany : ps.any (fun p => p.1.fields ≠ []) = true := by
    obtain ⟨v, hv, hne⟩ := hf
    obtain ⟨p, hp, rfl⟩ := (hmem v).1 hv
    rw [List.any_eq_true]
    exact ⟨p, hp, by simpa using hne⟩
  rw [if_pos hany] at e2
  subst e2
  have hpw : ps.Pairwise (fun a b => a.1.index < b.1.index) := by
    have := sortBy_strict SiVariant.index vs hd
    rw [← e1, List.pairwise_map] at this
    exact this
  obtain ⟨p1, p2, p3⟩ := layout_rows ps 0 none rfl hpw (by simp)
  obtain ⟨hlen, hget⟩ := mappingRows_get hl
  refine ⟨?_, ?_, ?_⟩
  · intro v hv
    obtain ⟨p, hp, rfl⟩ := (hmem v).1 hv
    exact ⟨p.2, hget _ _ _ (p1 p hp), h1 p hp⟩
  · intro k r hr hno
    have hk : k < (layout none ps).length := by rw [← hlen]; exact (List.getElem?_eq_some_iff.1 hr).1
    have hr' := List.getElem?_eq_getElem hk
    obtain ⟨a, b, hab⟩ := layout_pair ps none _ (List.getElem_mem hk)
    have hgap := p2 k _ hr' (fun p hp => by rw [Nat.zero_add]; exact hno p.1 ((hmem p.1).2 ⟨p, hp, rfl⟩))
    rw [hgap] at hr'
    rw [hget _ _ _ hr'] at hr
    exact (Option.some.inj hr).symm
  · intro k hk
    rw [hlen] at hk
    obtain ⟨p, hp, h⟩ := p3 k hk
    exact ⟨p.1, (hmem p.1).2 ⟨p, hp, rfl⟩, by omega⟩

/-- The rows of an enum without fields are its names and indices. -/
theorem enumRows_values {cfg : SiCfg} {A : Nat → Prop} {vs : List SiVariant} {rows : List (List Str)} {l : List (Str × Str)} (h : EnumRows cfg A vs rows)
    (hl : mappingRows rows = .ok l) (hf : ∀ v ∈ vs, v.fields = []) : l.Perm (vs.map fun v => (v.name, natToDec v.index)) := by
  obtain ⟨ps, e1, h1, e2⟩ := h
  have hmem : ∀ v, v ∈ vs ↔ ∃ p ∈ ps, p.1 = v := by
    intro v
    rw [← (sortBy_perm SiVariant.index vs).mem_iff, ← e1, List.mem_map]
  rw [if_neg] at e2
  swap
  · rw [List.any_eq_true]
    rintro ⟨p, hp, h⟩
    have := hf p.1 ((hmem p.1).2 ⟨p, hp, rfl⟩)
    simp [this] at h
  have e3 : valueRows (ps.map (·.1)) = (ps.map (·.1)).map (fun v => [v.name, natToDec v.index]) := by
    unfold valueRows
    rw [List.filter_eq_self.2]
    intro v hv
    obtain ⟨p, hp, rfl⟩ := List.mem_map.1 hv
    simpa using hf p.1 ((hmem p.1).2 ⟨p, hp, rfl⟩)
  have e4 : ∀ l : List SiVariant, mappingRows (l.map (fun v => [v.name, natToDec v.index])) = .ok (l.map fun v => (v.name, natToDec v.index)) := by
    intro l
    induction l with
    | nil => rfl
    | cons v l ih => simp only [List.map_cons, mappingRows, ih, Res.ok_bind]
  rw [e2, e3, e4] at hl
  cases hl
  rw [e1]
  exact (sortBy_perm SiVariant.index vs).map _

/-! ## Lookup -/

/-- A text that means itself and has an entry leads to it. -/
theorem resolves_entered {env : Env} {m t : Str} {spec : Int} {c : Cls} (hv : convertType t = t) (hne : t ≠ [])
    (hm : NotOverridden m t) (he : Entered env spec t c) : Resolves env m spec t c [] := by
  have hi : getCodecInstant env m t spec = .ok (some c) := by
    unfold getCodecInstant
    simp only [moduleType_notOverridden hm, toLower_idem]
    unfold Entered at he
    cases e : findSpecial spec (env.special (toLower t)) with
    | some c' => rw [e] at he; simpa using he
    | none =>
      rw [e] at he
      simp only [Option.none_or] at he
      simp only [he]
  unfold Resolves getCodecClass getCodecClassAux
  simp only [hv, if_neg hne]
  unfold lookupWhole
  split
  · rw [hi]; rfl
  · next hend =>
    have : partsOf t = none := by unfold partsOf; rw [if_neg hend]
    unfold lookupParts
    rw [this, hi]
    rfl

/-- The entry of the enum after `ProcessSiType`, and that its name leads to it. -/
theorem newEnum_entry {cfg : SiCfg} {dup : Str → Nat} {fuel : Nat} {reg : RegState} {st : SiState} {m : Str} {spec : Int} {i : Nat}
    {vs : List SiVariant} {n : Str} (hd : countNames cfg 0 cfg.count (fun _ => 0) = .ok dup) (h : processSiType cfg fuel reg = .ok st)
    (hE : NewEnum { cfg with dup := dup } reg m spec i vs n) :
    ∃ rows l, EnumRows { cfg with dup := dup } NoEarly vs rows ∧ mappingRows rows = .ok l ∧
      Resolves st.reg.env m spec n (.enum [] (newStruct l)) [] := by
  unfold processSiType at h
  rw [hd, Res.ok_bind] at h
  obtain ⟨c, hc, ho⟩ := process_own (earlyOK_none _) h hE.unversioned hE.inside (.inr hE.enum) hE.noPrimitive hE.name hE.apart
    (fun hm => name_bytes hE.bytes (by decide) hE.name _ hm rfl) hE.fresh hE.unknown
  have hsp := steps_special hE.unversioned hE.bytes (registerTypes_steps (earlyOK_none _) h (fun _ _ h => by cases h))
  have hr : Resolves st.reg.env m spec n c [] := by
    refine resolves_entered (convertType_verbatim hE.verbatim) ?_ hE.notOverridden ?_
    · obtain ⟨⟨c, r, h, _⟩, _⟩ := hE.verbatim.trimmed
      rw [h]; simp
    · unfold Entered
      rw [hsp, hE.noRange, hc]
      rfl
  cases ho with
  | struct ht _ => have := hE.typ; rw [ht] at this; cases this
  | enum ht hrows hl =>
    have := hE.typ
    rw [ht] at this
    cases this
    exact ⟨_, _, hrows, hl, hr⟩

/-- **C38**, positions: the enum is looked up with its variants at the positions given by their indices. -/
theorem C38_positions (cfg : SiCfg) (dup : Str → Nat) (fuel : Nat) (reg : RegState) (st : SiState) (m : Str) (spec : Int) (i : Nat)
    (vs : List SiVariant) (n : Str) (hd : countNames cfg 0 cfg.count (fun _ => 0) = .ok dup) (h : processSiType cfg fuel reg = .ok st)
    (hE : NewEnum { cfg with dup := dup } reg m spec i vs n) (hi : (vs.map SiVariant.index).Nodup) (hf : ∃ v ∈ vs, v.fields ≠ []) :
    ∃ rows, Resolves st.reg.env m spec n (.enum [] (some rows)) [] ∧ Positions { cfg with dup := dup } NoEarly vs rows := by
  obtain ⟨rows, l, h1, h2, h3⟩ := newEnum_entry hd h hE
  have hP := enumRows_positions h1 h2 hi hf
  refine ⟨l, ?_, hP⟩
  obtain ⟨v, hv, _⟩ := hf
  obtain ⟨t, ht, _⟩ := hP.variant v hv
  have hne : l ≠ [] := by rintro rfl; simp at ht
  rw [show newStruct l = some l from if_neg hne] at h3
  exact h3

/-- **C38**, enums with at least one variant with fields: the byte `v.index` followed by a value of the type text of `v`
decodes as that variant.  What is missing from the full claim: other bytes are not refused (`C38_gap_accepted`); type texts
consisting of digits are excluded, with which the enum would be taken for a list of numbers. -/
theorem C38_selects_partial (cfg : SiCfg) (dup : Str → Nat) (fuel : Nat) (reg : RegState) (st : SiState) (ctx : Ctx) (i : Nat)
    (vs : List SiVariant) (n : Str) (hd : countNames cfg 0 cfg.count (fun _ => 0) = .ok dup) (h : processSiType cfg fuel reg = .ok st)
    (hE : NewEnum { cfg with dup := dup } reg ctx.module ctx.spec i vs n) (hi : (vs.map SiVariant.index).Nodup)
    (hf : ∃ v ∈ vs, v.fields ≠ []) (hlt : ∀ v ∈ vs, v.index < 256)
    (hnum : ∃ v ∈ vs, ∀ t, VariantText { cfg with dup := dup } NoEarly v t → ¬ IsNumberText t) :
    ∀ v ∈ vs, ∃ t, VariantText { cfg with dup := dup } NoEarly v t ∧ ∀ b val ic, t ≠ [] → ¬ LooksLikeRows t → Decodes st.reg.env ctx t b val ic →
      Decodes st.reg.env ctx n (UInt8.ofNat v.index :: b) (.map [(v.name, val)]) ic := by
  obtain ⟨rows, hr, hP⟩ := C38_positions cfg dup fuel reg st ctx.module ctx.spec i vs n hd h hE hi hf
  have hnc : ¬ CLike rows := by
    obtain ⟨v, hv, hno⟩ := hnum
    obtain ⟨t, ht, hvt⟩ := hP.variant v hv
    exact fun hc => hno t hvt (hc _ (List.mem_of_getElem? ht))
  intro v hv
  obtain ⟨t, ht, hvt⟩ := hP.variant v hv
  refine ⟨t, hvt, fun b val ic hne hrows hdec => ?_⟩
  have hb : (UInt8.ofNat v.index).toNat = v.index := byte_toNat (hlt v hv)
  exact C23_decode_data st.reg.env ctx n [] [] rows (UInt8.ofNat v.index) v.name t b val ic hnc (by rw [hb]; exact ht) hne hrows hr hdec

/-- A byte below the largest index that no variant has is decoded as the placeholder. -/
theorem C38_gap_accepted (cfg : SiCfg) (dup : Str → Nat) (fuel : Nat) (reg : RegState) (st : SiState) (ctx : Ctx) (i : Nat)
    (vs : List SiVariant) (n s : Str) (hd : countNames cfg 0 cfg.count (fun _ => 0) = .ok dup) (h : processSiType cfg fuel reg = .ok st)
    (hE : NewEnum { cfg with dup := dup } reg ctx.module ctx.spec i vs n) (hi : (vs.map SiVariant.index).Nodup)
    (hf : ∃ v ∈ vs, v.fields ≠ []) (hnull : Resolves st.reg.env ctx.module ctx.spec b!"NULL" .null s) (k : UInt8)
    (hk : ∀ v ∈ vs, v.index ≠ k.toNat) (hkl : ∃ v ∈ vs, k.toNat < v.index) :
    Decodes st.reg.env ctx n [k] (.map [(b!"empty", .nil)]) [] := by
  obtain ⟨rows, hr, hP⟩ := C38_positions cfg dup fuel reg st ctx.module ctx.spec i vs n hd h hE hi hf
  obtain ⟨v, hv, hlt⟩ := hkl
  obtain ⟨t, ht, _⟩ := hP.variant v hv
  have hkr : k.toNat < rows.length := Nat.lt_trans hlt (List.getElem?_eq_some_iff.1 ht).1
  have hrow := List.getElem?_eq_getElem hkr
  have hgap := hP.gap k.toNat _ hrow hk
  rw [hgap] at hrow
  have hnc : ¬ CLike rows := by
    intro hc
    have := hc _ (List.mem_of_getElem? hrow)
    exact absurd (this.2 78 (by decide)) (by decide)
  have hnil : Decodes st.reg.env ctx b!"NULL" [] .nil [] := by
    refine decodes_of_read hnull fun r pre suf cs hl => ?_
    show Res.ok _ = _
    simp
  refine C23_decode_data st.reg.env ctx n [] [] rows k b!"empty" b!"NULL" [] .nil [] hnc hrow (by decide) ?_ hr hnil
  rintro ⟨r, hr⟩
  simp only [List.cons_append, List.cons.injEq] at hr
  exact absurd hr.1 (by decide)

theorem digitsValue_natToDec (n : Nat) : Spec.digitsValue (natToDec n) = n := (natToDec_isNumeral n).2.2.2

theorem plain_rows {cfg : SiCfg} {A : Nat → Prop} {vs : List SiVariant} {rows : List (List Str)} {l : List (Str × Str)} (h : EnumRows cfg A vs rows)
    (hl : mappingRows rows = .ok l) (hf : ∀ v ∈ vs, v.fields = []) :
    CLike l ∧ (∀ p ∈ l, ∃ v ∈ vs, p = (v.name, natToDec v.index)) ∧ (∀ v ∈ vs, (v.name, natToDec v.index) ∈ l) ∧
    ((vs.map SiVariant.index).Nodup → (l.map fun p => Spec.digitsValue p.2).Nodup) := by
  have hp := enumRows_values h hl hf
  have h1 : ∀ p ∈ l, ∃ v ∈ vs, p = (v.name, natToDec v.index) := by
    intro p hm
    obtain ⟨v, hv, e⟩ := List.mem_map.1 (hp.mem_iff.1 hm)
    exact ⟨v, hv, e.symm⟩
  refine ⟨?_, h1, fun v hv => hp.mem_iff.2 (List.mem_map.2 ⟨v, hv, rfl⟩), fun hd => ?_⟩
  · intro p hm
    obtain ⟨v, _, rfl⟩ := h1 p hm
    have := natToDec_isNumeral v.index
    exact ⟨this.1, this.2.1⟩
  · have := (hp.map fun p => Spec.digitsValue p.2).nodup_iff.2
    refine this ?_
    rw [List.map_map]
    have e : ((fun p : Str × Str => Spec.digitsValue p.2) ∘ fun v : SiVariant => (v.name, natToDec v.index)) = SiVariant.index := by
      funext v
      exact digitsValue_natToDec v.index
    rw [e]
    exact hd

/-- **C38**, enums without fields: the byte `v.index` decodes as the name of `v`. -/
theorem C38_plain_values (cfg : SiCfg) (dup : Str → Nat) (fuel : Nat) (reg : RegState) (st : SiState) (ctx : Ctx) (i : Nat)
    (vs : List SiVariant) (n : Str) (hd : countNames cfg 0 cfg.count (fun _ => 0) = .ok dup) (h : processSiType cfg fuel reg = .ok st)
    (hE : NewEnum { cfg with dup := dup } reg ctx.module ctx.spec i vs n) (hi : (vs.map SiVariant.index).Nodup)
    (hf : ∀ v ∈ vs, v.fields = []) (hlt : ∀ v ∈ vs, v.index < 256) :
    ∀ v ∈ vs, Decodes st.reg.env ctx n [UInt8.ofNat v.index] (.str v.name) [] := by
  intro v hv
  obtain ⟨rows, l, h1, h2, h3⟩ := newEnum_entry hd h hE
  obtain ⟨c1, c2, c3, c4⟩ := plain_rows h1 h2 hf
  have hm := c3 v hv
  have hne : l ≠ [] := by rintro rfl; simp at hm
  rw [show newStruct l = some l from if_neg hne] at h3
  have := C23_decode_clike st.reg.env ctx n [] [] l v.name (natToDec v.index) c1 (c4 hi) ?_ hm h3
  · rw [digitsValue_natToDec] at this
    exact this
  · intro p hp
    obtain ⟨w, hw, rfl⟩ := c2 p hp
    simp only [digitsValue_natToDec]
    exact hlt w hw

/-- Without fields, a byte that no variant has is decoded as the empty name. -/
theorem C38_plain_unknown (cfg : SiCfg) (dup : Str → Nat) (fuel : Nat) (reg : RegState) (st : SiState) (ctx : Ctx) (i : Nat)
    (vs : List SiVariant) (n : Str) (hd : countNames cfg 0 cfg.count (fun _ => 0) = .ok dup) (h : processSiType cfg fuel reg = .ok st)
    (hE : NewEnum { cfg with dup := dup } reg ctx.module ctx.spec i vs n) (hne : vs ≠ [])
    (hf : ∀ v ∈ vs, v.fields = []) (hlt : ∀ v ∈ vs, v.index < 256) (k : UInt8) (hk : ∀ v ∈ vs, v.index ≠ k.toNat) :
    Decodes st.reg.env ctx n [k] (.str []) [] := by
  obtain ⟨rows, l, h1, h2, h3⟩ := newEnum_entry hd h hE
  obtain ⟨c1, c2, c3, _⟩ := plain_rows h1 h2 hf
  have hne' : l ≠ [] := by
    obtain ⟨v, hv⟩ := List.exists_mem_of_ne_nil vs hne
    have hm := c3 v hv
    rintro rfl
    simp at hm
  rw [show newStruct l = some l from if_neg hne'] at h3
  refine C23_clike_unknown st.reg.env ctx n [] [] l k c1 ?_ ?_ h3
  · intro p hp
    obtain ⟨w, hw, rfl⟩ := c2 p hp
    simp only [digitsValue_natToDec]
    exact Nat.lt_trans (hlt w hw) (by decide)
  · intro p hp
    obtain ⟨w, hw, rfl⟩ := c2 p hp
    simp only [digitsValue_natToDec]
    exact hk w hw

theorem zip_zipRows : ∀ (a b : List Str), (List.zip a b).map (fun p => [p.1, p.2]) = zipRows a b
  | [], _ => by simp [zipRows]
  | _ :: _, [] => by simp [zipRows]
  | x :: a, y :: b => by
    have := zip_zipRows a b
    simp only [zipRows] at this
    simp only [List.zip_cons_cons, List.map_cons, this, zipRows, List.zipWith_cons_cons]

theorem jsonRows_head : ∀ (l : List (List Str)), l ≠ [] → ∃ r, jsonRows l = b!"[[" ++ r
  | [], h => absurd rfl h
  | [_], _ => ⟨_, rfl⟩
  | _ :: _ :: _, _ => ⟨_, rfl⟩

theorem jsonRows_length : ∀ (l : List (List Str)), (∀ r ∈ l, 2 ≤ r.length) → l ≠ [] → 4 < (jsonRows l).length
  | [], _, h => absurd rfl h
  | a :: l, ha, _ => by
    obtain ⟨x, y, r, hr⟩ : ∃ x y r, a = x :: y :: r := by
      have := ha a (by simp)
      match a, this with
      | x :: y :: r, _ => exact ⟨x, y, r, rfl⟩
    subst hr
    have h1 : 5 ≤ (jsonArr ((x :: y :: r).map jsonStr)).length := by
      simp only [jsonArr, jsonStr, List.map_cons, joinSep, List.length_cons, List.length_append]
      omega
    cases l with
    | nil =>
      simp only [jsonRows, List.map_cons, List.map_nil] at h1 ⊢
      rw [jsonArr]
      simp only [joinSep, List.length_cons, List.length_append] at h1 ⊢
      omega
    | cons b l =>
      simp only [jsonRows, List.map_cons] at h1 ⊢
      rw [jsonArr]
      simp only [joinSep, List.length_cons, List.length_append] at h1 ⊢
      omega

theorem fieldNames_length : ∀ (k : Nat) (fs : List SiField), (fieldNames k fs).length = fs.length
  | _, [] => rfl
  | k, f :: fs => by simp [fieldNames, fieldNames_length (k + 1) fs]

/-- **C38**, variants with several fields: the index is followed by the fields in order. -/
theorem C38_selects_fields (cfg : SiCfg) (dup : Str → Nat) (fuel : Nat) (reg : RegState) (st : SiState) (ctx : Ctx) (i : Nat)
    (vs : List SiVariant) (n : Str) (hd : countNames cfg 0 cfg.count (fun _ => 0) = .ok dup) (h : processSiType cfg fuel reg = .ok st)
    (hE : NewEnum { cfg with dup := dup } reg ctx.module ctx.spec i vs n) (hi : (vs.map SiVariant.index).Nodup)
    (hlt : ∀ v ∈ vs, v.index < 256) (v : SiVariant) (hv : v ∈ vs) (h2 : 2 ≤ v.fields.length)
    (hj : ReadsRows st.reg.env.ext) :
    ∃ ts, Texts { cfg with dup := dup } NoEarly (v.fields.map SiField.type) ts ∧
      ∀ fs : List Field, fs.map (fun f => (f.name, f.ty)) = List.zip (fieldNames 0 v.fields) (ts.map convertType) →
      (fs.map (·.name)).Nodup → (∀ f ∈ fs, ∀ c ∈ f.name ++ f.ty, c.toNat < 128) →
      (∀ f ∈ fs, Decodes st.reg.env ctx f.ty f.bytes f.val f.calls) →
      Decodes st.reg.env ctx n (UInt8.ofNat v.index :: bytesOf fs) (.map [(v.name, .map (valuesOf fs))]) (callsOf fs) := by
  have hf : ∃ v ∈ vs, v.fields ≠ [] := ⟨v, hv, by intro h0; rw [h0] at h2; simp at h2⟩
  obtain ⟨rows, hr, hP⟩ := C38_positions cfg dup fuel reg st ctx.module ctx.spec i vs n hd h hE hi hf
  obtain ⟨t, ht, hvt⟩ := hP.variant v hv
  cases hvt with
  | empty h0 => rw [h0] at h2; simp at h2
  | one h0 _ => rw [h0] at h2; simp at h2
  | @many ts _ hts =>
    refine ⟨ts, hts, fun fs hfs hnd hasc hdec => ?_⟩
    have hb : (UInt8.ofNat v.index).toNat = v.index := byte_toNat (hlt v hv)
    have hz : zipRows (fieldNames 0 v.fields) (ts.map convertType) = fs.map (fun f => [f.name, f.ty]) := by
      rw [← zip_zipRows, ← hfs, List.map_map]
      rfl
    rw [hz] at ht
    have hfn : (fieldNames 0 v.fields).length = v.fields.length := fieldNames_length 0 v.fields
    have htl : ts.length = v.fields.length := by
      have := hts.length_eq
      rw [List.length_map] at this
      exact this.symm
    have hfl : fs.length = v.fields.length := by
      have := congrArg List.length hfs
      simp only [List.length_map, List.length_zip, hfn, htl, Nat.min_self] at this
      exact this
    have hne : fs ≠ [] := by rintro rfl; simp at hfl; omega
    have hlk := jsonRows_head (fs.map (fun f => [f.name, f.ty])) (by simpa using hne)
    have hnc : ¬ CLike rows := by
      intro hc
      obtain ⟨r, hr⟩ := hlk
      have := (hc _ (List.mem_of_getElem? ht)).2 91 (by rw [hr]; simp)
      exact absurd this (by decide)
    refine C23_decode_struct st.reg.env ctx n [] [] rows (UInt8.ofNat v.index) v.name _ fs hnc (by rw [hb]; exact ht) hlk ?_ hne hnd ?_ hr hdec
    · refine jsonRows_length _ ?_ (by simpa using hne)
      intro r hr
      obtain ⟨f, _, rfl⟩ := List.mem_map.1 hr
      simp
    · refine hj _ ?_
      intro r hr s hs c hc
      obtain ⟨f, hf, rfl⟩ := List.mem_map.1 hr
      refine hasc f hf c ?_
      simp only [List.mem_cons, List.not_mem_nil, or_false] at hs
      rcases hs with rfl | rfl
      · exact List.mem_append_left _ hc
      · exact List.mem_append_right _ hc

/-! ## The placeholders are reachable -/

/-- Metadata with the enum `a::E` of the given variants, and the types `u8` and `bool`. -/
def enumCfg (vs : List SiVariant) : SiCfg where
  types := fun i => match i with
    | 0 => { path := [b!"a", b!"E"], typ := .variant vs }
    | 1 => { typ := .primitive b!"U8" }
    | 2 => { typ := .primitive b!"Bool" }
    | _ => {}
  count := 3

/-- `enum a::E { A(u8) = 2, B { x: u8, y: bool } = 0 }` -/
def gappy : List SiVariant := [⟨b!"A", [⟨[], 1, []⟩], 2⟩, ⟨b!"B", [⟨b!"x", 1, []⟩, ⟨b!"y", 2, []⟩], 0⟩]

/-- `enum a::E { A = 7, B = 3 }` -/
def plain : List SiVariant := [⟨b!"A", [], 7⟩, ⟨b!"B", [], 3⟩]

/-- The base registry, with rows read by a parser. -/
def rowsReg : RegState := ⟨baseEnv { dummyExt with rows := readRows }, fun _ => none⟩

/-- The names counted in `enumCfg vs`. -/
def enumDup : Str → Nat := fun s => if s = b!"a:E" then 1 else 0

theorem enum_counted (vs : List SiVariant) : countNames (enumCfg vs) 0 (enumCfg vs).count (fun _ => 0) = .ok enumDup := by
  show Res.ok _ = _
  congr 1

theorem enum_new (vs : List SiVariant) (m : Str) (hm : NotOverridden m b!"a:E") :
    NewEnum { enumCfg vs with dup := enumDup } rowsReg m 0 0 vs b!"a:E" where
  inside := (by decide : 0 < 3)
  enum := ⟨_, _, _, rfl, rfl, by decide, by decide, by
    rintro (h | h | h) <;> exact absurd (show b!"E" = _ from h) (by decide)⟩
  typ := rfl
  noPrimitive := (by decide : some b!"a" ≠ some b!"primitive_types")
  name := by kernel_rfl
  apart := {
    names := by
      intro j n hn he
      match j with
      | 0 => rfl
      | 1 => cases hn; exact absurd he (by decide)
      | 2 => cases hn; exact absurd he (by decide)
      | (k + 3) => cases hn; exact absurd he (by decide)
    tuple := by decide
    primitive := by decide
    signature := by decide
    signer := by decide }
  unversioned := fun _ => rfl
  bytes := {
    path := by
      intro i
      match i with
      | 0 => exact (by decide : ∀ s ∈ [b!"a", b!"E"], ∀ c ∈ s, c ≠ 35)
      | 1 => intro s hs; cases hs
      | 2 => intro s hs; cases hs
      | (k + 3) => intro s hs; cases hs
    pre := by intro c hc; cases hc
    primitive := by
      intro i p hp
      match i with
      | 0 => cases hp
      | 1 => cases hp; decide
      | 2 => cases hp; decide
      | (k + 3) => cases hp }
  fresh := by kernel_rfl
  unknown := rfl
  noRange := by kernel_rfl
  verbatim := ⟨⟨⟨97, b!":E", rfl, by decide⟩, 69, b!"a:", rfl, by decide⟩, by decide, by decide, by decide,
    fun h => absurd ((toLower_eq_iff _ _).2 h) (by decide)⟩
  notOverridden := hm

def enumCtx : Ctx := ⟨[], 0, none⟩

/-- Byte 1 belongs to no variant of `gappy`, and is decoded. -/
theorem gappy_accepts : ∃ st, processSiType (enumCfg gappy) 3 rowsReg = .ok st ∧
    Decodes st.reg.env enumCtx b!"a:E" [1] (.map [(b!"empty", .nil)]) [] := by
  refine ⟨_, rfl, ?_⟩
  refine C38_gap_accepted (enumCfg gappy) enumDup 3 rowsReg _ enumCtx 0 gappy b!"a:E" [] (enum_counted _) rfl (enum_new _ [] (by decide))
    (by decide) (by decide) ?_ 1 (by decide) (by decide)
  unfold Resolves
  kernel_rfl

/-- The claim is false: the placeholders are reachable. -/
theorem C38_claim_false : ¬ C38Claim := by
  intro h
  obtain ⟨st, h1, h2⟩ := gappy_accepts
  exact refuses_not_decodes ((h (enumCfg gappy) enumDup 3 rowsReg st enumCtx 0 gappy b!"a:E" (enum_counted _) h1
    (enum_new _ [] (by decide)) (by decide) (by decide)).2.2 1 (by decide)) h2 (by decide)

/-- The hypotheses of `C38_selects_partial` and `C38_selects_fields` are met by `gappy`, whose indices are neither ordered nor
without gaps. -/
example : ∃ st, processSiType (enumCfg gappy) 3 rowsReg = .ok st ∧
    (∃ t, VariantText { enumCfg gappy with dup := enumDup } NoEarly ⟨b!"A", [⟨[], 1, []⟩], 2⟩ t ∧ ∀ b val ic, t ≠ [] → ¬ LooksLikeRows t →
      Decodes st.reg.env enumCtx t b val ic → Decodes st.reg.env enumCtx b!"a:E" (2 :: b) (.map [(b!"A", val)]) ic) ∧
    (∃ ts, Texts { enumCfg gappy with dup := enumDup } NoEarly [1, 2] ts ∧
      ∀ fs : List Field, fs.map (fun f => (f.name, f.ty)) = List.zip [b!"x", b!"y"] (ts.map convertType) →
      (fs.map (·.name)).Nodup → (∀ f ∈ fs, ∀ c ∈ f.name ++ f.ty, c.toNat < 128) →
      (∀ f ∈ fs, Decodes st.reg.env enumCtx f.ty f.bytes f.val f.calls) →
      Decodes st.reg.env enumCtx b!"a:E" (0 :: bytesOf fs) (.map [(b!"B", .map (valuesOf fs))]) (callsOf fs)) := by
  refine ⟨_, rfl, ?_, ?_⟩
  · have hB : ∀ t, VariantText { enumCfg gappy with dup := enumDup } NoEarly ⟨b!"B", [⟨b!"x", 1, []⟩, ⟨b!"y", 2, []⟩], 0⟩ t → ¬ IsNumberText t := by
      intro t ht hn
      cases ht with
      | empty h => cases h
      | one h => cases h
      | @many ts _ hts =>
        cases hts with
        | cons _ h =>
          obtain ⟨r, hr⟩ := jsonRows_head (zipRows [b!"x", b!"y"] (List.map convertType (_ :: _))) (by cases h; simp [zipRows])
          exact absurd (hn.2 91 (by rw [show fieldNames 0 _ = [b!"x", b!"y"] from rfl, hr]; simp)) (by decide)
    exact C38_selects_partial (enumCfg gappy) enumDup 3 rowsReg _ enumCtx 0 gappy b!"a:E" (enum_counted _) rfl
      (enum_new _ [] (by decide)) (by decide) (by decide) (by decide) ⟨_, by decide, hB⟩ ⟨b!"A", [⟨[], 1, []⟩], 2⟩ (by decide)
  · exact C38_selects_fields (enumCfg gappy) enumDup 3 rowsReg _ enumCtx 0 gappy b!"a:E" (enum_counted _) rfl
      (enum_new _ [] (by decide)) (by decide) (by decide) ⟨b!"B", [⟨b!"x", 1, []⟩, ⟨b!"y", 2, []⟩], 0⟩ (by decide) (by decide)
      (readsRows dummyExt)

/-- The registered rows of `gappy`. -/
example : ∃ st, processSiType (enumCfg gappy) 3 rowsReg = .ok st ∧ st.reg.env.reg b!"a:e" =
    some (.enum [] (some [(b!"B", b!"[[\"x\",\"U8\"],[\"y\",\"Bool\"]]"), (b!"empty", b!"NULL"), (b!"A", b!"U8")])) := by
  refine ⟨_, rfl, ?_⟩
  kernel_rfl

/-- The names of `plain` are selected by their indices. -/
example : ∃ st, processSiType (enumCfg plain) 3 rowsReg = .ok st ∧
    Decodes st.reg.env enumCtx b!"a:E" [7] (.str b!"A") [] ∧ Decodes st.reg.env enumCtx b!"a:E" [3] (.str b!"B") [] ∧
    Decodes st.reg.env enumCtx b!"a:E" [0] (.str []) [] := by
  refine ⟨_, rfl, ?_, ?_, ?_⟩
  · exact C38_plain_values (enumCfg plain) enumDup 3 rowsReg _ enumCtx 0 plain b!"a:E" (enum_counted _) rfl
      (enum_new _ [] (by decide)) (by decide) (by decide) (by decide) ⟨b!"A", [], 7⟩ (by decide)
  · exact C38_plain_values (enumCfg plain) enumDup 3 rowsReg _ enumCtx 0 plain b!"a:E" (enum_counted _) rfl
      (enum_new _ [] (by decide)) (by decide) (by decide) (by decide) ⟨b!"B", [], 3⟩ (by decide)
  · exact C38_plain_unknown (enumCfg plain) enumDup 3 rowsReg _ enumCtx 0 plain b!"a:E" (enum_counted _) rfl
      (enum_new _ [] (by decide)) (by decide) (by decide) (by decide) 0 (by decide)

end ScaleGo
