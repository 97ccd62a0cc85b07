import Verif.Props.C24

/-! # C27: bit vectors

Encoding writes the number of bytes where the number of bits belongs, so of all bit vectors only those of one bit
encode back to their own bytes. -/

namespace Spec

/-- The eight bits of a byte, highest first. -/
def byteBits (x : UInt8) : List UInt8 := [7, 6, 5, 4, 3, 2, 1, 0].map fun j => if x.toNat / 2 ^ j % 2 = 1 then 49 else 48

/-- Bit texts of the bytes, separated by underscores. -/
def underscored : List UInt8 → List UInt8
  | [] => []
  | [x] => byteBits x
  | x :: rest => byteBits x ++ 95 :: underscored rest

/-- The text a bit sequence is shown as. -/
def bitText (b : List UInt8) : List UInt8 := b!"0b" ++ underscored b

/-- Texts separated by underscores. -/
def underscoredTexts : List (List UInt8) → List UInt8
  | [] => []
  | [g] => g
  | g :: rest => g ++ 95 :: underscoredTexts rest

/-- The number that binary digits stand for, most significant digit first. -/
def bitsValue : List UInt8 → Nat
  | [] => 0
  | d :: r => (if d = 49 then 2 ^ r.length else 0) + bitsValue r

/-- The byte for a text between underscores: its number, all ones if that does not fit, zero for texts that are not binary. -/
def groupByte (g : List UInt8) : UInt8 :=
  if g ≠ [] ∧ ∀ d ∈ g, d = 48 ∨ d = 49 then (if bitsValue g < 256 then UInt8.ofNat (bitsValue g) else 255) else 0

end Spec

namespace ScaleGo

/-- The full claim: `n` bits are stored in `(n + 7) / 8` bytes behind the compact number of bits. -/
def C27Claim : Prop :=
  ∀ (env : Env) (ctx : Ctx) (ectx : ECtx) (ty sub sub' : Str) (n : Nat) (c b : Str), Resolves env ctx.module ctx.spec ty .bitVec sub →
    EncResolves env ectx ty .bitVec sub' → LenOK env ctx → LenEncOK env → n < 2 ^ 30 → b.length = (n + 7) / 8 → Spec.IsCompact n c →
    Decodes env ctx ty (c ++ b) (.str (Spec.bitText b)) [] ∧ Encodes env ectx ty (.str (Spec.bitText b)) (c ++ b)

theorem bits8_eq (x : UInt8) : bits8 x = Spec.byteBits x := by
  revert x
  refine forall_byte ?_
  decide +kernel

theorem parseBin_bits (x : UInt8) : UInt8.ofNat (parseBin (Spec.byteBits x)) = x := by
  revert x
  refine forall_byte ?_
  decide +kernel

theorem byteBits_no_sep (x : UInt8) : (95 : UInt8) ∉ Spec.byteBits x := by
  unfold Spec.byteBits
  intro h
  obtain ⟨j, _, hj⟩ := List.mem_map.mp h
  split at hj <;> cases hj

theorem underscored_eq (b : Str) : joinSep b!"_" (b.map bits8) = Spec.underscored b := by
  induction b with
  | nil => rfl
  | cons x rest ih =>
    cases rest with
    | nil => simp [joinSep, Spec.underscored, bits8_eq]
    | cons y rest =>
      rw [List.map_cons, List.map_cons, joinSep]
      rw [List.map_cons] at ih
      rw [ih, show Spec.underscored (x :: y :: rest) = Spec.byteBits x ++ 95 :: Spec.underscored (y :: rest) from rfl, bits8_eq]
      simp

theorem splitSepAux_us : ∀ (a cur r : Str), (95 : UInt8) ∉ a →
    splitSepAux b!"_" 0 cur (a ++ 95 :: r) = (cur.reverse ++ a) :: splitSepAux b!"_" 0 [] r
  | [], cur, r, _ => by simp [splitSepAux]
  | c :: cs, cur, r, h => by
    have hne : ((95 : UInt8) == c) = false := by
      apply beq_false_of_ne
      rintro rfl
      exact h (by simp)
    rw [List.cons_append, splitSepAux, List.isPrefixOf_cons_cons, hne]
    simp only [Bool.false_and, Bool.false_eq_true, if_false]
    rw [splitSepAux_us cs (c :: cur) r (fun hm => h (by simp [hm]))]
    simp

theorem split_underscored (b : Str) (hb : b ≠ []) : splitSep (Spec.underscored b) b!"_" = b.map Spec.byteBits := by
  induction b with
  | nil => exact absurd rfl hb
  | cons x rest ih =>
    cases rest with
    | nil => simp only [Spec.underscored, List.map_cons, List.map_nil, splitSep_none b!"_" _ 95 ⟨[], rfl⟩ (byteBits_no_sep x)]
    | cons y rest =>
      rw [Spec.underscored]
      · unfold splitSep
        rw [splitSepAux_us _ _ _ (byteBits_no_sep x)]
        have := ih (by simp)
        unfold splitSep at this
        rw [this]
        simp
      · simp

/-- Decoding shows the bytes that hold the bits. -/
theorem C27_decode (env : Env) (ctx : Ctx) (ty sub : Str) (n : Nat) (c b : Str) (h : Resolves env ctx.module ctx.spec ty .bitVec sub)
    (hL : LenOK env ctx) (hn : n < 2 ^ 53) (hb : b.length = (n + 7) / 8) (hc : Spec.IsCompact n c) :
    Decodes env ctx ty (c ++ b) (.str (Spec.bitText b)) [] := by
  obtain ⟨N, hN⟩ := len_decodes hL (by omega) hc
  refine decodes_of_decAt h ⟨N, fun m hm => ?_⟩
  show DecAt (processBitVec (pau env m) ctx) _ _ _
  unfold processBitVec
  refine DecAt.step0 (hN m hm) ?_
  simp only [asInt, Res.ok_bind]
  have hr : roundF64 (n : Int) = n := by
    unfold roundF64
    simp only [Int.natAbs_natCast]
    rw [if_pos hn]
  rw [hr]
  refine DecAt.last (decAt_next b _ ?_) fun st => ?_
  · rw [Int.fdiv_eq_ediv_of_nonneg _ (by decide), hb]
    omega
  · simp only [underscored_eq]
    rfl

/-- Encoding the shown text: the number of bytes, then the bytes. -/
theorem C27_encode_exact (env : Env) (ctx : ECtx) (ty sub : Str) (c b : Str) (h : EncResolves env ctx ty .bitVec sub)
    (hL : LenEncOK env) (hb0 : b ≠ []) (hb : b.length < 2 ^ 30) (hc : Spec.IsCompact b.length c) :
    Encodes env ctx ty (.str (Spec.bitText b)) (c ++ b) := by
  obtain ⟨N, hN⟩ := len_encodes hL hb hc
  refine encodes_of_enc h ⟨N, fun n hn => ?_⟩
  show encodeBitVec (enc env n) (.str _) = _
  unfold encodeBitVec
  have ht : trimPrefix (Spec.bitText b) b!"0b" = Spec.underscored b := by
    simp [Spec.bitText, trimPrefix, hasPrefix, List.isPrefixOf]
  have hm : (b.map Spec.byteBits).map (fun p => UInt8.ofNat (parseBin p)) = b := by
    rw [List.map_map]
    conv_rhs => rw [← List.map_id b]
    exact List.map_congr_left fun x _ => parseBin_bits x
  simp only [asStr, Res.ok_bind, ht, split_underscored b hb0, hm, hN n hn, bytesToHex_append, bytesToHex_eq_spec c]

theorem foldl_bin (g : Str) (hg : ∀ d ∈ g, d = 48 ∨ d = 49) : ∀ acc : Nat,
    g.foldl (fun acc b => acc * 2 + (b.toNat - 48)) acc = acc * 2 ^ g.length + Spec.bitsValue g := by
  induction g with
  | nil => intro acc; simp [Spec.bitsValue]
  | cons d r ih =>
    intro acc
    rw [List.foldl_cons, ih (fun x hx => hg x (by simp [hx])), Spec.bitsValue, List.length_cons, Nat.pow_succ]
    rcases hg d (by simp) with rfl | rfl
    · simp [Nat.mul_comm, Nat.mul_assoc]
    · simp only [if_true, show (49 : UInt8).toNat - 48 = 1 from rfl, Nat.add_mul]
      rw [Nat.mul_assoc, Nat.mul_comm 2]
      omega

theorem parseBin_group (g : Str) : UInt8.ofNat (parseBin g) = Spec.groupByte g := by
  unfold parseBin Spec.groupByte
  by_cases h : g ≠ [] ∧ ∀ d ∈ g, d = 48 ∨ d = 49
  · rw [if_pos h, if_neg, foldl_bin g h.2, Nat.zero_mul, Nat.zero_add]
    · split
      · rw [Nat.min_eq_right (by omega)]
      · rw [Nat.min_eq_left (by omega)]
        rfl
    · simp only [Bool.or_eq_true, List.isEmpty_iff, Bool.not_eq_true', not_or, List.all_eq_false]
      refine ⟨h.1, ?_⟩
      rintro ⟨x, hx, hx'⟩
      simp only [decide_eq_true_eq] at hx'
      exact (h.2 x hx).elim hx'.1 hx'.2
  · rw [if_neg h, if_pos]
    · rfl
    · simp only [Bool.or_eq_true, List.isEmpty_iff, Bool.not_eq_true', List.all_eq_false]
      by_cases hg : g = []
      · exact .inl hg
      · refine .inr (Classical.byContradiction fun hn => h ⟨hg, fun d hd => ?_⟩)
        exact Classical.byContradiction fun hd' => hn ⟨d, hd, by simpa using hd'⟩

theorem split_groups (gs : List Str) (hg : gs ≠ []) (hu : ∀ g ∈ gs, (95 : UInt8) ∉ g) : splitSep (Spec.underscoredTexts gs) b!"_" = gs := by
  induction gs with
  | nil => exact absurd rfl hg
  | cons x rest ih =>
    cases rest with
    | nil => simp only [Spec.underscoredTexts, splitSep_none b!"_" _ 95 ⟨[], rfl⟩ (hu x (by simp))]
    | cons y rest =>
      rw [Spec.underscoredTexts]
      · unfold splitSep
        rw [splitSepAux_us _ _ _ (hu x (by simp))]
        have := ih (by simp) (fun g hg => hu g (by simp [hg]))
        unfold splitSep at this
        rw [this]
        simp
      · simp

/-- Encoding any text with the prefix `0b`: the number of groups between underscores, then a byte for each of them. -/
theorem C27_encode_groups (env : Env) (ctx : ECtx) (ty sub : Str) (c : Str) (gs : List Str) (h : EncResolves env ctx ty .bitVec sub)
    (hL : LenEncOK env) (hg : gs ≠ []) (hu : ∀ g ∈ gs, (95 : UInt8) ∉ g) (hb : gs.length < 2 ^ 30) (hc : Spec.IsCompact gs.length c) :
    Encodes env ctx ty (.str (b!"0b" ++ Spec.underscoredTexts gs)) (c ++ gs.map Spec.groupByte) := by
  obtain ⟨N, hN⟩ := len_encodes hL hb hc
  refine encodes_of_enc h ⟨N, fun n hn => ?_⟩
  show encodeBitVec (enc env n) (.str _) = _
  unfold encodeBitVec
  have ht : trimPrefix (b!"0b" ++ Spec.underscoredTexts gs) b!"0b" = Spec.underscoredTexts gs := by
    simp [trimPrefix, hasPrefix, List.isPrefixOf]
  have hm : gs.map (fun p => UInt8.ofNat (parseBin p)) = gs.map Spec.groupByte :=
    List.map_congr_left fun x _ => parseBin_group x
  simp only [asStr, Res.ok_bind, ht, split_groups gs hg hu, hm, List.length_map, hN n hn, bytesToHex_append, bytesToHex_eq_spec c]

/-- Nine digits give a byte of ones, seven digits their number. -/
example : Encodes (baseEnv dummyExt) ⟨-1, none⟩ b!"BitVec" (.str b!"0b100000000_0000101") [8, 255, 5] :=
  C27_encode_groups (baseEnv dummyExt) ⟨-1, none⟩ b!"BitVec" [] [8] [b!"100000000", b!"0000101"]
    ⟨by unfold Resolves; kernel_rfl, by decide⟩ ⟨[], by unfold Resolves; kernel_rfl, by decide⟩ (by decide) (by decide) (by decide)
    (.inl ⟨by decide, by decide⟩)

/-- The empty bit vector is encoded as one byte. -/
theorem C27_empty_wrong (env : Env) (ctx : ECtx) (ty sub : Str) (h : EncResolves env ctx ty .bitVec sub) (hL : LenEncOK env) :
    Encodes env ctx ty (.str (Spec.bitText [])) [4, 0] := by
  have hc : Spec.IsCompact 1 [4] := .inl ⟨by decide, by decide⟩
  obtain ⟨N, hN⟩ := len_encodes hL (by decide) hc
  refine encodes_of_enc h ⟨N, fun n hn => ?_⟩
  show encodeBitVec (enc env n) (.str b!"0b") = _
  unfold encodeBitVec
  have : (splitSep (trimPrefix b!"0b" b!"0b") b!"_").map (fun p => UInt8.ofNat (parseBin p)) = [0] := by decide
  have e := hN n hn
  simp only [asStr, Res.ok_bind, this, List.length_cons, List.length_nil]
  rw [show ((0 + 1 : Nat) : Int) = ((1 : Nat) : Int) from rfl, e]
  rw [← bytesToHex_eq_spec]
  rfl

/-- One bit round-trips. -/
theorem C27_roundtrip_partial (env : Env) (ctx : Ctx) (ectx : ECtx) (ty sub sub' : Str) (c : Str) (x : UInt8)
    (h : Resolves env ctx.module ctx.spec ty .bitVec sub) (h' : EncResolves env ectx ty .bitVec sub') (hL : LenOK env ctx)
    (hL' : LenEncOK env) (hc : Spec.IsCompact 1 c) :
    Decodes env ctx ty (c ++ [x]) (.str (Spec.bitText [x])) [] ∧ Encodes env ectx ty (.str (Spec.bitText [x])) (c ++ [x]) :=
  ⟨C27_decode env ctx ty sub 1 c [x] h hL (by decide) rfl hc, C27_encode_exact env ectx ty sub' c [x] h' hL' (by simp) (by simp) hc⟩

/-- Any other number of bits does not. -/
theorem C27_wrong (env : Env) (ectx : ECtx) (ty sub' : Str) (n : Nat) (c b : Str) (h' : EncResolves env ectx ty .bitVec sub')
    (hL' : LenEncOK env) (hn : n < 2 ^ 30) (hb : b.length = (n + 7) / 8) (hc : Spec.IsCompact n c) (h1 : n ≠ 1) :
    ¬ Encodes env ectx ty (.str (Spec.bitText b)) (c ++ b) := by
  intro hE
  by_cases hb0 : b = []
  · subst hb0
    have h0 := encodes_unique hE (C27_empty_wrong env ectx ty sub' h' hL')
    have hn0 : n = 0 := by simp at hb; omega
    subst hn0
    have hc0 : c = [0] := isCompact_unique hc (.inl ⟨by decide, by decide⟩)
    rw [hc0] at h0
    simp at h0
  · obtain ⟨c', hc'⟩ := isCompact_exists b.length (Nat.lt_trans (show b.length < 2 ^ 30 by omega) (by decide))
    have h0 := encodes_unique hE (C27_encode_exact env ectx ty sub' c' b h' hL' hb0 (by omega) hc')
    have hcc : c = c' := List.append_cancel_right h0
    rw [hcc] at hc
    have : n = b.length := (isCompact_value hc).2.trans (isCompact_value hc').2.symm
    have hpos : 0 < b.length := List.length_pos_iff.mpr hb0
    omega

/-- The full claim is false: two bits. -/
theorem C27_claim_false : ¬ C27Claim := by
  intro hc
  have hr : Resolves (baseEnv dummyExt) [] (-1) b!"BitVec" .bitVec [] := by unfold Resolves; kernel_rfl
  have hl : Resolves (baseEnv dummyExt) [] (-1) b!"Compact<u32>" .compactU32 [] := by unfold Resolves; kernel_rfl
  have hr' : EncResolves (baseEnv dummyExt) ⟨-1, none⟩ b!"BitVec" .bitVec [] := ⟨hr, by decide⟩
  have hcp : Spec.IsCompact 2 [8] := .inl ⟨by decide, by decide⟩
  have := hc _ ⟨[], -1, none⟩ ⟨-1, none⟩ _ _ _ 2 [8] [3] hr hr' ⟨[], hl⟩ ⟨[], hl, by decide⟩ (by decide) rfl hcp
  exact C27_wrong _ ⟨-1, none⟩ _ _ 2 [8] [3] hr' ⟨[], hl, by decide⟩ (by decide) rfl hcp (by decide) this.2

/-- Ten bits in two bytes. -/
example : Spec.bitText [5, 2] = b!"0b00000101_00000010" ∧ [5, 2].length = (10 + 7) / 8 ∧ Spec.IsCompact 10 [40] :=
  ⟨by decide, by decide, .inl ⟨by decide, by decide⟩⟩

end ScaleGo
