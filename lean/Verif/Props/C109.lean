import Verif.Props.C20
import Verif.Lemmas.BuiltinIndex

/-! # C109: bounded lists

`BoundedVec<T, N>` has the bytes of `Vec<T>`. To get `T` the code removes the comma and the bound from the text where they occur
first, which is not at the end when the bound also occurs in `T`. -/

namespace ScaleGo

/-- The type texts `ty` and `vty` have the same values and bytes. -/
def SameCodec (env : Env) (ctx : Ctx) (ectx : ECtx) (ty vty : Str) : Prop :=
  (∀ b v ic, Decodes env ctx ty b v ic ↔ Decodes env ctx vty b v ic) ∧ (∀ b, DecodeRefuses env ctx ty b ↔ DecodeRefuses env ctx vty b) ∧
    (∀ v b, Encodes env ectx ty v b ↔ Encodes env ectx vty v b)

/-- The full property: with `ty` the text of a list of `T` with the bound `N`, and `vty` that of a list of `T`. -/
def C109Claim : Prop :=
  ∀ (env : Env) (ctx : Ctx) (ectx : ECtx) (ty vty T N : Str), (44 : UInt8) ∉ N →
    Resolves env ctx.module ctx.spec ty (.boundedVec []) (T ++ b!"," ++ N) →
    EncResolves env ectx ty (.boundedVec []) (T ++ b!"," ++ N) →
    Resolves env ctx.module ctx.spec vty (.vec []) T → EncResolves env ectx vty (.vec []) T → SameCodec env ctx ectx ty vty

/-! ## The text of the element type -/

theorem splitAux_comma_last (N : Str) (hN : (44 : UInt8) ∉ N) : ∀ (T cur : Str),
    splitSepAux b!"," 0 cur (T ++ 44 :: N) = splitSepAux b!"," 0 cur T ++ [N]
  | [], cur => by
    have := splitSep_none b!"," N 44 ⟨[], rfl⟩ hN
    unfold splitSep at this
    simp [splitSepAux, this]
  | c :: T, cur => by
    rw [List.cons_append, splitSepAux, splitSepAux]
    by_cases hc : c = 44
    · subst hc
      simp [splitAux_comma_last N hN T []]
    · have h1 : (b!",").isPrefixOf (c :: (T ++ 44 :: N)) = false := by simp [List.isPrefixOf, Ne.symm hc]
      have h2 : (b!",").isPrefixOf (c :: T) = false := by simp [List.isPrefixOf, Ne.symm hc]
      rw [h1, h2]
      simp [splitAux_comma_last N hN T (c :: cur)]

theorem splitAux_ne_nil (sep : Str) : ∀ (k : Nat) (cur s : Str), splitSepAux sep k cur s ≠ []
  | _, cur, [] => by simp [splitSepAux]
  | k + 1, cur, c :: s => by rw [splitSepAux]; exact splitAux_ne_nil sep k cur s
  | 0, cur, c :: s => by
    rw [splitSepAux]
    split
    · simp
    · exact splitAux_ne_nil sep 0 (c :: cur) s

/-- The code looks for the comma and the bound from the left. -/
theorem boundedSub_eq (T N : Str) (hN : (44 : UInt8) ∉ N) : boundedSub [] (T ++ b!"," ++ N) = replaceOne (44 :: N) [] (T ++ 44 :: N) := by
  have hs : splitSep (T ++ b!"," ++ N) b!"," = splitSep T b!"," ++ [N] := by
    rw [List.append_assoc]
    exact splitAux_comma_last N hN T []
  have hl : 2 ≤ (splitSep T b!"," ++ [N]).length := by
    have := List.length_pos_iff.mpr (splitAux_ne_nil b!"," 0 [] T)
    unfold splitSep
    rw [List.length_append]
    simp
    omega
  unfold boundedSub
  dsimp only
  rw [hs, if_pos hl]
  simp [lastPiece]

theorem replaceOne_first (old : Str) (ho : old ≠ []) : ∀ (P Q : Str), (∀ s, s <:+ P → s ≠ [] → ¬ old <+: s ++ old) →
    replaceOne old [] (P ++ old ++ Q) = P ++ Q
  | [], Q, _ => by
    cases old with
    | nil => exact absurd rfl ho
    | cons a old =>
      rw [List.nil_append, List.cons_append, replaceOne, if_pos]
      · simp
      · rw [List.isPrefixOf_iff_prefix]
        exact ⟨Q, rfl⟩
  | c :: P, Q, h => by
    have hno : ¬ old.isPrefixOf (c :: (P ++ old ++ Q)) = true := by
      rw [List.isPrefixOf_iff_prefix]
      intro hp
      have h1 := h (c :: P) (List.suffix_refl _) (by simp)
      have h2 : c :: P ++ old <+: c :: (P ++ old ++ Q) := ⟨Q, by simp⟩
      exact h1 (List.prefix_of_prefix_length_le hp h2 (by simp; omega))
    rw [List.cons_append, List.cons_append, replaceOne, if_neg hno,
      replaceOne_first old ho P Q fun s hs => h s (hs.trans (List.suffix_cons _ _))]
    rfl

/-- Where a text that begins with a comma and has no other begins in front of its like, it ends there. -/
theorem comma_prefix {N s : Str} (hN : (44 : UInt8) ∉ N) (hs : s ≠ []) (h : 44 :: N <+: s ++ 44 :: N) : 44 :: N <+: s := by
  by_cases hl : (44 :: N).length ≤ s.length
  · exact List.prefix_of_prefix_length_le h (List.prefix_append _ _) hl
  · exfalso
    obtain ⟨q, hq⟩ := h
    have hlen : s.length < (44 :: N).length := by omega
    have e : (44 :: N ++ q)[s.length]? = (s ++ 44 :: N)[s.length]? := by rw [hq]
    rw [List.getElem?_append_left hlen, List.getElem?_append_right (Nat.le_refl _)] at e
    simp only [Nat.sub_self, List.getElem?_cons_zero] at e
    cases s with
    | nil => exact hs rfl
    | cons a s =>
      rw [List.length_cons, List.getElem?_cons_succ] at e
      exact hN (List.mem_of_getElem? e)

/-- The element type, where the comma and the bound do not occur in it. -/
theorem boundedSub_plain {T N : Str} (hN : (44 : UInt8) ∉ N) (hT : ¬ (44 :: N) <:+: T) : boundedSub [] (T ++ b!"," ++ N) = T := by
  have := replaceOne_first (44 :: N) (by simp) T [] fun s hs hne hp => hT ((comma_prefix hN hne hp).isInfix.trans hs.isInfix)
  rw [List.append_nil, List.append_nil] at this
  rw [boundedSub_eq T N hN, this]

/-- What is taken for the element type otherwise: the bound is removed from where it occurs first, and stays at the end. -/
theorem boundedSub_inner {P Q N : Str} (hN : (44 : UInt8) ∉ N) (hP : ¬ (44 :: N) <:+: P) :
    boundedSub [] (P ++ 44 :: N ++ Q ++ b!"," ++ N) = P ++ Q ++ b!"," ++ N := by
  have := replaceOne_first (44 :: N) (by simp) P (Q ++ 44 :: N) fun s hs hne hp => hP ((comma_prefix hN hne hp).isInfix.trans hs.isInfix)
  rw [boundedSub_eq _ N hN]
  simp only [List.append_assoc, List.cons_append, List.nil_append] at this ⊢
  exact this

/-! ## Codecs -/

theorem pau_same {env : Env} {ctx : Ctx} {ty vty : Str} {cls cls' : Cls} {sub sub' : Str} (h : Resolves env ctx.module ctx.spec ty cls sub)
    (h' : Resolves env ctx.module ctx.spec vty cls' sub')
    (hp : ∀ rec, process env.ext rec ctx cls sub = process env.ext rec ctx cls' sub') (n : Nat) : pau env n ctx ty = pau env n ctx vty := by
  funext st
  cases n with
  | zero => rfl
  | succ n => rw [pau_resolves n st h, pau_resolves n st h', hp]

theorem sameCodec_of {env : Env} {ctx : Ctx} {ectx : ECtx} {ty vty : Str} {cls cls' : Cls} {sub sub' esub esub' : Str}
    (h : Resolves env ctx.module ctx.spec ty cls sub) (h' : Resolves env ctx.module ctx.spec vty cls' sub')
    (hp : ∀ rec, process env.ext rec ctx cls sub = process env.ext rec ctx cls' sub') (he : EncResolves env ectx ty cls esub)
    (he' : EncResolves env ectx vty cls' esub')
    (hq : ∀ rec v, encodeCls env.ext rec ectx cls esub v = encodeCls env.ext rec ectx cls' esub' v) : SameCodec env ctx ectx ty vty := by
  have e := pau_same h h' hp
  refine ⟨fun b v ic => ?_, fun b => ?_, fun v b => ?_⟩
  · unfold Decodes
    simp only [e]
  · unfold DecodeRefuses
    simp only [e]
  · have e2 : ∀ n, enc env n ectx ty v = enc env n ectx vty v := by
      intro n
      cases n with
      | zero => rfl
      | succ n => rw [enc_resolves n v he, enc_resolves n v he', hq]
    unfold Encodes
    simp only [e2]

/-- Lists whose bound does not occur, behind a comma, in the element type. -/
theorem C109_partial (env : Env) (ctx : Ctx) (ectx : ECtx) (ty vty T N : Str) (hN : (44 : UInt8) ∉ N)
    (hin : ¬ (44 :: N) <:+: T) (h : Resolves env ctx.module ctx.spec ty (.boundedVec []) (T ++ b!"," ++ N))
    (he : EncResolves env ectx ty (.boundedVec []) (T ++ b!"," ++ N))
    (h' : Resolves env ctx.module ctx.spec vty (.vec []) T) (he' : EncResolves env ectx vty (.vec []) T) :
    SameCodec env ctx ectx ty vty := by
  have e := boundedSub_plain hN hin
  refine sameCodec_of h h' (fun rec => ?_) he he' fun rec v => ?_
  · show processVec rec ctx (boundedSub [] (T ++ b!"," ++ N)) = processVec rec ctx T
    rw [e]
  · show encodeVec rec ectx (boundedSub [] (T ++ b!"," ++ N)) v = encodeVec rec ectx T v
    rw [e]

/-- Otherwise the elements are read with the text in which the bound is missing at its first place and left at the end. -/
theorem C109_inner_wrong (env : Env) (ctx : Ctx) (ectx : ECtx) (ty vty P Q N : Str) (hN : (44 : UInt8) ∉ N) (hP : ¬ (44 :: N) <:+: P)
    (h : Resolves env ctx.module ctx.spec ty (.boundedVec []) (P ++ 44 :: N ++ Q ++ b!"," ++ N))
    (he : EncResolves env ectx ty (.boundedVec []) (P ++ 44 :: N ++ Q ++ b!"," ++ N))
    (h' : Resolves env ctx.module ctx.spec vty (.vec []) (P ++ Q ++ b!"," ++ N))
    (he' : EncResolves env ectx vty (.vec []) (P ++ Q ++ b!"," ++ N)) : SameCodec env ctx ectx ty vty := by
  have e := boundedSub_inner (Q := Q) hN hP
  refine sameCodec_of h h' (fun rec => ?_) he he' fun rec v => ?_
  · show processVec rec ctx (boundedSub [] _) = processVec rec ctx (if ([] : Str) = [] then _ else _)
    rw [e, if_pos rfl]
  · show encodeVec rec ectx (boundedSub [] _) v = encodeVec rec ectx (if ([] : Str) = [] then _ else _) v
    rw [e, if_pos rfl]

/-- The text of a list of at most `StringLimit` byte strings of at most `StringLimit` bytes. -/
def stringsText : Str := b!"BoundedVec<BoundedVec<u8, StringLimit>, StringLimit>"

/-- No list with an element is read. -/
theorem C109_nested_wrong (n : Nat) : pau (baseEnv dummyExt) (n + 8) ⟨[], 0, none⟩ stringsText ⟨⟨[4, 0], 0⟩, []⟩ = .panic := by
  kernel_rfl

/-- The full claim is false: of the lists of byte strings none with an element is read. -/
theorem C109_claim_false : ¬ C109Claim := by
  intro hc
  have hr : Resolves (baseEnv dummyExt) [] 0 stringsText (.boundedVec []) (b!"BoundedVec<u8, StringLimit>" ++ b!"," ++ b!" StringLimit") := by
    unfold Resolves; kernel_rfl
  have hv : Resolves (baseEnv dummyExt) [] 0 b!"Vec<BoundedVec<u8, StringLimit>>" (.vec []) b!"BoundedVec<u8, StringLimit>" := by
    unfold Resolves; kernel_rfl
  have hi : Resolves (baseEnv dummyExt) [] 0 b!"BoundedVec<u8, StringLimit>" (.boundedVec []) b!"u8, StringLimit" := by
    unfold Resolves; kernel_rfl
  have hL : LenOK (baseEnv dummyExt) ⟨[], 0, none⟩ := ⟨[], by unfold Resolves; kernel_rfl⟩
  have h0 := C20_decode_empty (baseEnv dummyExt) ⟨[], 0, none⟩ _ _ _ _ rfl hi hL
  have h1 := C20_decode (baseEnv dummyExt) ⟨[], 0, none⟩ _ _ _ _ [(.nilSlice, [0], [])] [4] rfl hv hL (by decide)
    (.inl ⟨by decide, by decide +kernel⟩) (by simpa using h0)
  obtain ⟨N, h2⟩ := ((hc _ ⟨[], 0, none⟩ ECtx.none _ _ b!"BoundedVec<u8, StringLimit>" b!" StringLimit" (by decide +kernel) hr ⟨by unfold Resolves; kernel_rfl, by decide +kernel⟩ hv ⟨by unfold Resolves; kernel_rfl, by decide +kernel⟩).1 _ _ _).mpr h1
  have h3 := h2 (N + 8) (by omega) [] [] [] (by decide)
  rw [List.nil_append, List.append_nil] at h3
  exact absurd ((C109_nested_wrong N).symm.trans h3) (by simp)

/-- A list of byte strings whose two bounds differ is read as it should be. -/
example (ext : Ext) (md : Option MD) : SameCodec (baseEnv ext) ⟨[], 0, md⟩ ECtx.none b!"BoundedVec<BoundedVec<u8, KeyLimit>, StringLimit>"
    b!"Vec<BoundedVec<u8, KeyLimit>>" := by
  have hr : Resolves (baseEnv ext) [] 0 b!"BoundedVec<BoundedVec<u8, KeyLimit>, StringLimit>" (.boundedVec [])
      (b!"BoundedVec<u8, KeyLimit>" ++ b!"," ++ b!" StringLimit") := by unfold Resolves; kernel_rfl
  have hv : Resolves (baseEnv ext) [] 0 b!"Vec<BoundedVec<u8, KeyLimit>>" (.vec []) b!"BoundedVec<u8, KeyLimit>" := by
    unfold Resolves; kernel_rfl
  exact C109_partial _ ⟨[], 0, md⟩ _ _ _ b!"BoundedVec<u8, KeyLimit>" b!" StringLimit" (by decide +kernel) (by decide +kernel) hr ⟨by unfold Resolves; kernel_rfl, by decide +kernel⟩ hv ⟨by unfold Resolves; kernel_rfl, by decide +kernel⟩

/-- A list of pairs, of at most `u32` many: its elements are read with the text `(u8),u32`. -/
example (ext : Ext) (md : Option MD) : SameCodec (baseEnv ext) ⟨[], 0, md⟩ ECtx.none b!"BoundedVec<(u8,u32),u32>" b!"Vec<(u8),u32>" := by
  have hr : Resolves (baseEnv ext) [] 0 b!"BoundedVec<(u8,u32),u32>" (.boundedVec []) (b!"(u8" ++ 44 :: b!"u32" ++ b!")" ++ b!"," ++ b!"u32") := by
    unfold Resolves; kernel_rfl
  have hv : Resolves (baseEnv ext) [] 0 b!"Vec<(u8),u32>" (.vec []) (b!"(u8" ++ b!")" ++ b!"," ++ b!"u32") := by unfold Resolves; kernel_rfl
  exact C109_inner_wrong _ ⟨[], 0, md⟩ _ _ _ b!"(u8" b!")" b!"u32" (by decide +kernel) (by decide +kernel) hr ⟨by unfold Resolves; kernel_rfl, by decide +kernel⟩ hv ⟨by unfold Resolves; kernel_rfl, by decide +kernel⟩

end ScaleGo
