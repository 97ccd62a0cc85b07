import Verif.Props.C116
import Verif.Props.C53

/-! # C117: decoded values are encoded to the bytes they came from -/

namespace ScaleGo
open _root_.Spec (Shape Payload Part Scale Leaf Loose Accepts AnyCompact compactNumber compactInt leSum listValue fieldTypes fieldOutputs
  outputs inputs allBytes Tidy Whole)

/-- The full claim: what is decoded, with data left over, is encoded to the bytes that were taken. -/
def C117Claim : Prop :=
  ∀ (env : Env) (ctx : Ctx) (ectx : ECtx) (shape : Str → Shape Str → Prop), LenOK env ctx → LenEncOK env → Describes env ctx ectx shape →
    Whole shape → AllListed env ctx shape → ∀ (ty : Str) (sh : Shape Str) (st : St) (b : Str) (r : Val), shape ty sh → SaneAt st →
    Leaves env ctx ty st b r → Encodes env ectx ty r b

/-- Bytes and value of a layer are canonical, and the library follows the specification when it encodes the value. -/
def Stable (sh : Shape Str) (r : Val) (b : Str) : Prop := Canonical sh r b ∧ Supported sh r r b

/-- For types without parts. -/
theorem stable_leaf {env : Env} {ctx : Ctx} {ectx : ECtx} {ty : Str} {sh : Shape Str} {r : Val} {b : Str}
    (hsh : HasShape env ctx ectx ty sh) (h : Loose sh r b) (hc : Stable sh r b) : Leaf sh r r b := by
  obtain ⟨hc, hok⟩ := hc
  have key := loose_leaf h hc
  cases sh with
  | uint w =>
    obtain ⟨cls, s, s', _, _, hw, _⟩ | ⟨h, _⟩ := hsh
    swap
    · cases h
    obtain ⟨rfl, rfl⟩ := h
    refine ⟨leSum b, leSum_lt b, ?_, ?_, rfl, (leBytes_leSum b).symm⟩
    · simp only [List.mem_cons, List.not_mem_nil, or_false] at hw
      rcases hw with e | e | e | e <;> rw [e] <;> rfl
    · unfold uintValue
      split <;> rfl
  | u128 =>
    obtain ⟨v, n, s, h1, _, h3, h4, h5⟩ := key
    subst h4
    exact ⟨n, s, h1, ⟨_, rfl, h3⟩, h3, rfl, h5⟩
  | u256 =>
    obtain ⟨v, n, h1, _, _, h4, h5⟩ := key
    subst h4
    exact ⟨n, h1, .inl ⟨_, _, rfl⟩, by simp [Denotes], rfl, h5⟩
  | int w =>
    obtain ⟨_, rfl⟩ := h
    obtain ⟨_, ⟨w', i, he, _⟩, _⟩ := hok
    cases he
  | bool =>
    obtain ⟨v, x, _, rfl, hb⟩ := key
    exact ⟨x, rfl, rfl, hb⟩
  | null => exact h
  | unit => exact h
  | compact32 =>
    obtain ⟨v, n, h1, _, _, rfl, hb⟩ := key
    exact ⟨n, h1, rfl, rfl, rfl, hb⟩
  | compact bound decimal =>
    obtain ⟨v, n, h1, _, rfl, hb⟩ := key
    refine ⟨n, h1, ?_, rfl, hb⟩
    cases decimal
    · exact ⟨rfl, rfl⟩
    · simp [CompactInput, Denotes]
  | bytes kind =>
    obtain ⟨v, c, p, h1, h2, rfl, rfl, hb⟩ := key
    exact ⟨c, p, h1, h2, rfl, rfl, hb⟩
  | hash n => exact ⟨h.1, h.2, rfl⟩
  | account => exact ⟨h.1, h.2, rfl⟩
  | balance =>
    obtain ⟨v, n, h1, _, rfl, hb⟩ := key
    refine ⟨n, h1, ?_, rfl, hb⟩
    simp [U128Input, Denotes]
  | era => exact ⟨h.1, h.2, rfl⟩
  | byteArray n => exact ⟨h.1, h.2, rfl⟩
  | bitVec =>
    obtain ⟨v, n, c, p, h1, h2, h3, rfl, rfl, hb⟩ := key
    exact ⟨n, c, p, h1, h2, h3, rfl, rfl, hb⟩
  | names cases =>
    obtain ⟨v, name, n, h1, rfl, rfl, hb⟩ := key
    exact ⟨name, n, h1, rfl, rfl, hb⟩
  | optionBool =>
    obtain ⟨v, ⟨_, rfl, hb⟩ | ⟨x, _, rfl, hb⟩⟩ := key
    · exact .inl ⟨rfl, rfl, hb⟩
    · exact .inr ⟨x, rfl, rfl, hb⟩
  | _ => exact h.elim

/-- If every layer of what was accepted is stable, the value is encoded to the bytes it came from. -/
theorem C117_stable (env : Env) (ctx : Ctx) (ectx : ECtx) (shape : Str → Shape Str → Prop) (hL : LenOK env ctx) (hL' : LenEncOK env)
    (hs : Describes env ctx ectx shape) (hw : Whole shape) (ty : Str) (r : Val) (b : Str) (h : Accepts shape Stable ty r b) :
    Encodes env ectx ty r b := by
  induction h with
  | leaf hsh hl hc => exact (leaf_holds hL hL' (hs _ _ hsh) (stable_leaf (hs _ _ hsh) hl hc) hc.2).1
  | @seq ty el c ps hsh ha hle hlen _ hc ih =>
    obtain ⟨⟨n, c', p', hn, hc, he⟩, _⟩ := hc
    obtain ⟨rfl, _, hnum⟩ := anyCompact_number hc ha he.symm
    rw [compactInt_small hnum (by omega)] at hlen hle
    obtain rfl : ps.length = n := by omega
    obtain ⟨cls, s, s', hD, hE, hv, hv'⟩ | ⟨h, _⟩ := hs _ _ hsh
    swap
    · cases h
    cases hps : ps with
    | nil =>
      subst hps
      obtain rfl : c = [0] := isCompact_unique hc (.inl ⟨by decide, by decide⟩)
      exact C20_encode_empty env ectx ty s' el cls _ hv' hE hL' (by simp [outputs, listValue])
    | cons p qs =>
      rw [← hps]
      have e : listValue (outputs ps) = .slice (outputs ps) := by rw [hps]; rfl
      rw [e]
      have := C20_encode env ectx ty s' el cls (ps.map fun p => (p.out, p.bytes)) c hv' hE hL' (by simp; omega) (by simpa using hc)
        (by simpa using ih)
      simpa [outputs, allBytes, List.map_map, Function.comp_def] using this
  | @none ty el hsh =>
    obtain ⟨cls, s, s', hD, hE, _, _, t, rfl, _⟩ | ⟨h, _⟩ := hs _ _ hsh
    swap
    · cases h
    exact C21_encode_none env ectx ty t s' .nil hE (.inl rfl)
  | @some ty el r b x hsh hx _ hc ih =>
    obtain ⟨cls, s, s', hD, hE, hne, hnb, t, rfl, e1, e2⟩ | ⟨h, _⟩ := hs _ _ hsh
    swap
    · cases h
    obtain ⟨⟨p, hp⟩, hok⟩ := hc
    cases hp
    exact C21_encode_some_partial env ectx ty t s' el b r e2 hnb hE hok ih
  | @struct ty ps hsh _ ih =>
    have hT : ((fieldTypes ps).map Prod.fst).Nodup := (hw _ _ hsh).2
    obtain ⟨cls, s, s', hD, hE, rfl | ⟨hnil, rfl⟩⟩ | ⟨h, _⟩ := hs _ _ hsh
    rotate_left
    · obtain rfl : ps = [] := by simpa [fieldTypes] using hnil
      exact encodes_of_cls hE fun r => rfl
    · cases h
    have := C22_encode env ectx ty s' (decFields ps) (fieldOutputs ps)
      (by simpa [fieldOutputs, fieldTypes, Function.comp_def] using hT) (by simpa [decFields, fieldOutputs] using fun p hp => ⟨p, hp, rfl, rfl⟩)
      (by simpa [decFields, declOf, fieldTypes, List.map_map, Function.comp_def] using hE) (by simpa [decFields] using ih)
    simpa [decFields, bytesOf, allBytes, List.map_map, Function.comp_def] using this
  | @variant ty vs t r b x name hsh hi _ ih =>
    obtain ⟨cls, s, s', hD, hE, vl, tm, rfl, hnc, hf⟩ | ⟨h, _⟩ := hs _ _ hsh
    swap
    · cases h
    obtain ⟨hi256, u, hti, hu, rfl, hne, hrows⟩ := hf _ hi
    dsimp only at hi256 hti hu
    have := enum_encode_data env ectx ty s' vl tm x.toNat _ _ b [(name, r)] r hnc hu hi256 hti hrows (by simp) (by simp) hE ih
    rwa [UInt8.ofNat_toNat] at this
  | @fields ty vs x name ps hsh hi _ ih =>
    have hT : ((fieldTypes ps).map Prod.fst).Nodup := (hw _ _ hsh).2 _ hi _ rfl
    obtain ⟨cls, s, s', hD, hE, vl, tm, rfl, hnc, hf⟩ | ⟨h, _⟩ := hs _ _ hsh
    swap
    · cases h
    obtain ⟨hi256, t', hti, hu, hrows, hlen, hne, hj⟩ := hf _ hi
    dsimp only at hi256 hti hu
    have hps : ps ≠ [] := by rintro rfl; exact hne rfl
    have := enum_encode_struct env ectx ty s' vl tm x.toNat name t' [(name, .map (fieldOutputs ps))] (fieldOutputs ps)
      (decFields ps) hnc hu hi256 hti hrows hlen
      (by simpa [decFields] using hps) (by simpa [decFields, fieldTypes, List.map_map, Function.comp_def] using hj)
      (by simp) (by simp) (by simpa [fieldOutputs, fieldTypes, Function.comp_def] using hT)
      (by simpa [decFields, fieldOutputs] using fun p hp => ⟨p, hp, rfl, rfl⟩) hE (by simpa [decFields] using ih)
    rw [UInt8.ofNat_toNat] at this
    simpa [decFields, bytesOf, allBytes, List.map_map, Function.comp_def] using this
  | @array ty n el ps hsh h0 hlen _ ih =>
    obtain ⟨cls, s, s', hD, hE, rfl, hel⟩ | ⟨h, _⟩ := hs _ _ hsh
    swap
    · cases h
    have := C25_encode env ectx ty s' el (ps.map fun p => (p.out, p.bytes)) n hE (by simpa using hlen) (by simpa using ih)
    simpa [outputs, allBytes, List.map_map, Function.comp_def] using this
  | emptyArray x hsh hc => exact absurd hc.1 (by simp [Canonical])
  | @resultOk ty a e r b hsh _ ih =>
    obtain ⟨ha, he⟩ : (44 : UInt8) ∉ a ∧ (44 : UInt8) ∉ e := (hw _ _ hsh).2
    obtain ⟨cls, s, s', hD, hE, t, rfl, e1, e2⟩ | ⟨h, _⟩ := hs _ _ hsh
    swap
    · cases h
    exact (C24_result_encode env ectx ty t s' a e hE e2 ha he).1 b r ih
  | @resultErr ty a e r b hsh _ ih =>
    obtain ⟨ha, he⟩ : (44 : UInt8) ∉ a ∧ (44 : UInt8) ∉ e := (hw _ _ hsh).2
    obtain ⟨cls, s, s', hD, hE, t, rfl, e1, e2⟩ | ⟨h, _⟩ := hs _ _ hsh
    swap
    · cases h
    exact (C24_result_encode env ectx ty t s' a e hE e2 ha he).2 b r ih

/-- Layers whose values are always encoded to the bytes they came from. -/
def Steady {α : Type} : Shape α → Prop
  | .byteArray _ => False
  | sh => Firm sh

theorem steady_stable {sh : Shape Str} (hT : Tidy sh) (h : Steady sh) (r : Val) (b : Str) : Stable sh r b := by
  cases sh <;> first | exact h.elim | exact ⟨h, h⟩ | exact ⟨h, hT⟩

/-- The claim holds for types built from unsigned integers, hashes, accounts, eras, structs, tuples, enums with data, non-empty arrays
and results. Missing: the types of which `C116_partial` misses bytes, and fixed byte arrays, whose text may begin with `0x`. -/
theorem C117_partial (env : Env) (ctx : Ctx) (ectx : ECtx) (shape : Str → Shape Str → Prop) (hL : LenOK env ctx) (hL' : LenEncOK env)
    (hs : Describes env ctx ectx shape) (hw : Whole shape) (hli : AllListed env ctx shape) (hf : ∀ ty sh, shape ty sh → Steady sh)
    (ty : Str) (sh : Shape Str) (st : St) (b : Str) (r : Val) (hsh : shape ty sh) (hst : SaneAt st) (h : Leaves env ctx ty st b r) :
    Encodes env ectx ty r b :=
  C117_stable env ctx ectx shape hL hL' hs hw ty r b (Accepts_imp (shape := shape) (ok' := Stable)
    (fun ty sh r b hsh _ => steady_stable (hw ty sh hsh).2 (hf ty sh hsh) r b)
    (C116_accepted env ctx ectx shape hL hs hw hli ty sh st b r hsh hst h))

/-- Then different bytes give different values. -/
theorem C117_injective (env : Env) (ctx : Ctx) (ectx : ECtx) (shape : Str → Shape Str → Prop) (hL : LenOK env ctx) (hL' : LenEncOK env)
    (hs : Describes env ctx ectx shape) (hw : Whole shape) (hli : AllListed env ctx shape) (hf : ∀ ty sh, shape ty sh → Steady sh)
    (ty : Str) (sh : Shape Str) (st st' : St) (b b' : Str) (r : Val) (hsh : shape ty sh) (hst : SaneAt st) (hst' : SaneAt st')
    (h : Leaves env ctx ty st b r) (h' : Leaves env ctx ty st' b' r) : b = b' :=
  encodes_unique (C117_partial env ctx ectx shape hL hL' hs hw hli hf ty sh st b r hsh hst h)
    (C117_partial env ctx ectx shape hL hL' hs hw hli hf ty sh st' b' r hsh hst' h')

/-- No value decoded as a signed integer of up to 64 bits is encoded again: the encoder panics. -/
theorem C117_signed_refused (env : Env) (ctx : Ctx) (ectx : ECtx) (shape : Str → Shape Str → Prop) (hL : LenOK env ctx)
    (hs : Describes env ctx ectx shape) (hw : Whole shape) (hli : AllListed env ctx shape) (ty : Str) (w : Nat) (hw8 : w ≤ 8) (st : St)
    (b : Str) (r : Val) (hsh : shape ty (.int w)) (hone : ∀ sh, shape ty sh → sh = .int w) (hst : SaneAt st)
    (h : Leaves env ctx ty st b r) : EncodeRefuses env ectx ty r := by
  have ha := C116_accepted env ctx ectx shape hL hs hw hli ty _ st b r hsh hst h
  have hr : ∃ i, r = .big i := by
    cases ha with
    | leaf hsh hl _ =>
      obtain rfl := hone _ hsh
      exact ⟨_, hl.2⟩
    | seq _ hsh => cases hone _ hsh
    | none hsh => cases hone _ hsh
    | some _ hsh => cases hone _ hsh
    | struct _ hsh => cases hone _ hsh
    | variant _ _ hsh => cases hone _ hsh
    | fields _ _ _ hsh => cases hone _ hsh
    | array _ hsh => cases hone _ hsh
    | emptyArray _ hsh => cases hone _ hsh
    | resultOk hsh => cases hone _ hsh
    | resultErr hsh => cases hone _ hsh
  obtain ⟨i, rfl⟩ := hr
  obtain ⟨cls, s, s', _, hE, _, rfl⟩ | ⟨h, _⟩ := hs _ _ hsh
  swap
  · cases h
  refine encodeRefuses_of_cls hE fun r => ?_
  show encodeIntFixed _ _ _ = _
  unfold encodeIntFixed
  rw [if_pos (by omega)]
  rfl

def i16Shape : Str → Shape Str → Prop := tableShape [(b!"i16", .int 2)]

theorem i16_describes : Describes (baseEnv dummyExt) ⟨[], 0, none⟩ ECtx.none i16Shape := by
  refine describes_table fun p hp => ?_
  simp only [List.mem_cons, List.not_mem_nil, or_false] at hp
  subst hp
  exact .inl ⟨.intFixed 2, [], [], by unfold Resolves; kernel_rfl, ⟨by unfold Resolves; kernel_rfl, by decide⟩, by decide, rfl⟩

theorem i16_one {ty : Str} {sh : Shape Str} (h : i16Shape ty sh) : ty = b!"i16" ∧ sh = .int 2 := by
  simpa [i16Shape, tableShape] using h

theorem i16_whole : Whole i16Shape := by
  intro ty sh h
  obtain ⟨rfl, rfl⟩ := i16_one h
  exact ⟨fun t ht => (List.not_mem_nil ht).elim, trivial⟩

theorem i16_listed : AllListed (baseEnv dummyExt) ⟨[], 0, none⟩ i16Shape := fun _ _ h => nomatch (i16_one h).2

theorem i16_leaves : Leaves (baseEnv dummyExt) ⟨[], 0, none⟩ b!"i16" ⟨⟨[5, 0, 9], 0⟩, []⟩ [5, 0] (.big 5) :=
  ⟨3, ⟨⟨[5, 0, 9], 2⟩, []⟩, by kernel_rfl, by decide, by decide⟩

/-- The number 5 as an `i16` is decoded and not encoded. -/
theorem i16_refused : EncodeRefuses (baseEnv dummyExt) ECtx.none b!"i16" (.big 5) :=
  C117_signed_refused (baseEnv dummyExt) ⟨[], 0, none⟩ ECtx.none i16Shape ⟨[], by unfold Resolves; kernel_rfl⟩ i16_describes i16_whole i16_listed
    b!"i16" 2 (by decide) ⟨⟨[5, 0, 9], 0⟩, []⟩ [5, 0] (.big 5) (by simp [i16Shape, tableShape]) (fun _ h => (i16_one h).2)
    ⟨show _ ≤ _ by decide, by decide⟩ i16_leaves

/-- The full claim is false. -/
theorem C117_claim_false : ¬ C117Claim := by
  intro hc
  have h := hc (baseEnv dummyExt) ⟨[], 0, none⟩ ECtx.none i16Shape ⟨[], by unfold Resolves; kernel_rfl⟩
    ⟨[], by unfold Resolves; kernel_rfl, by decide⟩ i16_describes i16_whole i16_listed b!"i16" (.int 2) ⟨⟨[5, 0, 9], 0⟩, []⟩ [5, 0] (.big 5)
    (by simp [i16Shape, tableShape]) ⟨show _ ≤ _ by decide, by decide⟩ i16_leaves
  obtain ⟨N, hN⟩ := h
  obtain ⟨M, hM⟩ := i16_refused
  have := (hN (max N M) (Nat.le_max_left ..)).symm.trans (hM (max N M) (Nat.le_max_right ..))
  cases this

/-- The hypotheses of `C117_partial` are met by a struct of two integers. -/
example : Encodes pointEnv ECtx.none b!"Point" (.map [(b!"x", .uint 2 513), (b!"y", .int 3)]) [1, 2, 3] :=
  C117_partial pointEnv ⟨[], 0, none⟩ ECtx.none pointShape ⟨[], by unfold Resolves; kernel_rfl⟩
    ⟨[], by unfold Resolves; kernel_rfl, by decide⟩ point_describes point_whole (fun ty vs h => by simp [pointShape, tableShape] at h)
    (fun ty sh h => by
      simp only [pointShape, tableShape, List.mem_cons, List.not_mem_nil, or_false, Prod.mk.injEq] at h
      rcases h with ⟨_, rfl⟩ | ⟨_, rfl⟩ | ⟨_, rfl⟩ <;> trivial)
    b!"Point" (.struct [(b!"x", b!"u16"), (b!"y", b!"u8")]) ⟨⟨[1, 2, 3, 4], 0⟩, []⟩ [1, 2, 3] _ (by simp [pointShape, tableShape])
    ⟨show _ ≤ _ by decide, by decide⟩ ⟨6, ⟨⟨[1, 2, 3, 4], 3⟩, []⟩, by kernel_rfl, by decide, by decide⟩

/-- Those of `C117_stable` by a tree without children. -/
example : Encodes (treeEnv dummyExt) ECtx.none b!"Tree" (leafOut 7) [7, 0, 0] := by
  refine C117_stable _ ⟨[], 0, none⟩ _ treeShape ⟨[], by unfold Resolves; kernel_rfl⟩ ⟨[], by unfold Resolves; kernel_rfl, by decide⟩
    (tree_describes dummyExt) tree_whole _ _ _ ?_
  refine Accepts.struct (shape := treeShape) (ok := Stable) (ty := b!"Tree")
    [⟨b!"v", b!"u16", .nil, .uint 2 7, [7, 0]⟩, ⟨b!"kids", b!"Vec<Tree>", .nil, .nilSlice, [0]⟩]
    (by simp [tableShape, treeShape, fieldTypes]) ?_
  intro p hp
  simp only [List.mem_cons, List.not_mem_nil, or_false] at hp
  rcases hp with rfl | rfl
  · exact .leaf (sh := .uint 2) (by simp [tableShape, treeShape]) ⟨rfl, rfl⟩ ⟨trivial, trivial⟩
  · exact Accepts.seq (el := b!"Tree") (c := [0]) [] (by simp [tableShape, treeShape]) ⟨0, [], rfl, by decide⟩ (by decide) (by decide) (by simp)
      ⟨⟨0, [0], [], by decide, .inl ⟨by decide, by decide⟩, rfl⟩, fun l h => by cases h⟩

end ScaleGo
