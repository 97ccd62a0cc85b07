import Verif.Props.C28

/-! # C29: Encodings of one type are uniquely decodable -/

namespace ScaleGo
open Spec (Shape Scale)

/-- The full claim: when the encoder writes `b` for one well-typed value and something that begins with `b` for another one,
the two stand for the same value. -/
def C29Claim : Prop :=
  ∀ (env : Env) (ctx : Ctx) (ectx : ECtx) (shape : Str → Shape Str → Prop), LenOK env ctx → LenEncOK env →
    Describes env ctx ectx shape → ∀ (ty : Str) (v v' r r' : Val) (b b' c c' x : Str),
    Scale shape (fun _ _ _ _ => True) ty v r c → Scale shape (fun _ _ _ _ => True) ty v' r' c' →
    Encodes env ectx ty v b → Encodes env ectx ty v' b' → b' = b ++ x → b'.length < 2 ^ 63 → r = r'

theorem decodes_prefix {env : Env} {ctx : Ctx} {ty b b' x x' : Str} {v v' : Val} {ic ic' : List Str} (h : Decodes env ctx ty b v ic)
    (h' : Decodes env ctx ty b' v' ic') (he : b ++ x = b' ++ x') (hl : (b ++ x).length < 2 ^ 63) : v = v' ∧ b = b' ∧ x = x' := by
  obtain ⟨N, h⟩ := h
  obtain ⟨M, h'⟩ := h'
  have e1 := h (N + M) (by omega) [] x [] (by simpa using hl)
  have e2 := h' (N + M) (by omega) [] x' [] (by rw [he] at hl; simpa using hl)
  rw [he] at e1
  rw [e1] at e2
  simp only [Res.ok.injEq, Prod.mk.injEq, St.mk.injEq, Cur.mk.injEq, List.length_nil, Nat.zero_add] at e2
  obtain ⟨hv, ⟨_, hlen⟩, _⟩ := e2
  obtain ⟨hb, hx⟩ := List.append_inj he (by omega)
  exact ⟨hv, hb, hx⟩

/-- Of two well-typed values of one type whose bytes continue to the same bytes, both the values and the bytes are equal:
the encodings of a type are prefix free. -/
theorem C29_prefix_free_partial (env : Env) (ctx : Ctx) (ectx : ECtx) (shape : Str → Shape Str → Prop) (hL : LenOK env ctx) (hL' : LenEncOK env)
    (hs : Describes env ctx ectx shape) (ty : Str) (v v' r r' : Val) (b b' x x' : Str) (h : Scale shape Supported ty v r b)
    (h' : Scale shape Supported ty v' r' b') (he : b ++ x = b' ++ x') (hl : (b ++ x).length < 2 ^ 63) : r = r' ∧ b = b' ∧ x = x' :=
  decodes_prefix (C28_partial env ctx ectx shape hL hL' hs ty v r b h).2 (C28_partial env ctx ectx shape hL hL' hs ty v' r' b' h').2 he hl

/-- The same about what the encoder writes. -/
theorem C29_encode_partial (env : Env) (ctx : Ctx) (ectx : ECtx) (shape : Str → Shape Str → Prop) (hL : LenOK env ctx) (hL' : LenEncOK env)
    (hs : Describes env ctx ectx shape) (ty : Str) (v v' r r' : Val) (b b' c c' x : Str) (h : Scale shape Supported ty v r c)
    (h' : Scale shape Supported ty v' r' c') (hE : Encodes env ectx ty v b) (hE' : Encodes env ectx ty v' b') (he : b' = b ++ x)
    (hl : b'.length < 2 ^ 63) : r = r' ∧ x = [] := by
  have e1 := encodes_unique hE (C28_partial env ctx ectx shape hL hL' hs ty v r c h).1
  have e2 := encodes_unique hE' (C28_partial env ctx ectx shape hL hL' hs ty v' r' c' h').1
  subst e1 e2
  obtain ⟨h1, _, h3⟩ := C29_prefix_free_partial env ctx ectx shape hL hL' hs ty v v' r r' b b' x [] h h' (by rw [he]; simp)
    (by rw [← he]; exact hl)
  exact ⟨h1, h3⟩

/-- Lists of parts read one after the other, such as call arguments, are determined by the bytes as well. -/
theorem C29_sequence_partial (env : Env) (ctx : Ctx) (ectx : ECtx) (shape : Str → Shape Str → Prop) (hL : LenOK env ctx) (hL' : LenEncOK env)
    (hs : Describes env ctx ectx shape) (tys : List Str) :
    ∀ (ps qs : List (Spec.Part Str)) (x y : Str), ps.map (·.ty) = tys → qs.map (·.ty) = tys →
      (∀ p ∈ ps, Scale shape Supported p.ty p.inp p.out p.bytes) → (∀ p ∈ qs, Scale shape Supported p.ty p.inp p.out p.bytes) →
      Spec.allBytes ps ++ x = Spec.allBytes qs ++ y → (Spec.allBytes ps ++ x).length < 2 ^ 63 →
      Spec.outputs ps = Spec.outputs qs ∧ Spec.allBytes ps = Spec.allBytes qs ∧ x = y := by
  induction tys with
  | nil =>
    intro ps qs x y hp hq _ _ he _
    obtain rfl := List.map_eq_nil_iff.mp hp
    obtain rfl := List.map_eq_nil_iff.mp hq
    exact ⟨rfl, rfl, by simpa [Spec.allBytes] using he⟩
  | cons t tys ih =>
    intro ps qs x y hp hq h1 h2 he hl
    obtain ⟨p, ps, rfl, hpt, hp⟩ := List.map_eq_cons_iff.mp hp
    obtain ⟨q, qs, rfl, hqt, hq⟩ := List.map_eq_cons_iff.mp hq
    simp only [Spec.allBytes, List.map_cons, List.flatten_cons, List.append_assoc] at he hl
    have hp1 := h1 p (by simp)
    have hq1 := h2 q (by simp)
    rw [hpt] at hp1
    rw [hqt] at hq1
    obtain ⟨e1, e2, e3⟩ := C29_prefix_free_partial env ctx ectx shape hL hL' hs t _ _ _ _ _ _ _ _ hp1 hq1 he hl
    obtain ⟨f1, f2, f3⟩ := ih ps qs x y hp hq (fun p hp => h1 p (by simp [hp])) (fun p hp => h2 p (by simp [hp])) e3
      (by simp only [List.length_append] at hl; simp only [Spec.allBytes, List.length_append]; omega)
    simp only [Spec.outputs, Spec.allBytes] at f1 f2
    exact ⟨by simp [Spec.outputs, e1, f1], by simp [Spec.allBytes, e2, f2], f3⟩

/-- The full claim is false: `None` and `Some` of an empty byte string are encoded alike. -/
theorem C29_claim_false : ¬ C29Claim := by
  intro hc
  have he : EncResolves (baseEnv dummyExt) ECtx.none b!"Option<Vec<u8>>" (.option []) b!"Vec<u8>" :=
    ⟨by unfold Resolves; kernel_rfl, by decide⟩
  have hs : Describes (baseEnv dummyExt) ⟨[], 0, none⟩ ECtx.none
      (tableShape [(b!"Option<Vec<u8>>", .option b!"Vec<u8>"), (b!"Vec<u8>", .bytes .bytes)]) := by
    refine describes_table fun p hp => ?_
    simp only [List.mem_cons, List.not_mem_nil, or_false] at hp
    rcases hp with rfl | rfl
    · exact .inl ⟨.option [], b!"Vec<u8>", b!"Vec<u8>", by unfold Resolves; kernel_rfl, he, by decide, by decide, [], rfl, by decide,
        by decide⟩
    · exact .inl ⟨.bytes, [], [], by unfold Resolves; kernel_rfl, ⟨by unfold Resolves; kernel_rfl, by decide⟩, by decide, rfl⟩
  have hb : Scale (tableShape [(b!"Option<Vec<u8>>", .option b!"Vec<u8>"), (b!"Vec<u8>", .bytes .bytes)]) (fun _ _ _ _ => True)
      b!"Option<Vec<u8>>" (.str []) (.str []) [1, 0] := by
    refine .some (el := b!"Vec<u8>") (by simp [tableShape]) (.leaf (sh := .bytes .bytes) (by simp [tableShape]) ?_ trivial) trivial
    exact ⟨[0], [], by decide, .inl ⟨by decide, by decide⟩, by rfl, rfl, rfl⟩
  have hn : Scale (tableShape [(b!"Option<Vec<u8>>", .option b!"Vec<u8>"), (b!"Vec<u8>", .bytes .bytes)]) (fun _ _ _ _ => True)
      b!"Option<Vec<u8>>" .nil .nil [0] := .none (el := b!"Vec<u8>") (by simp [tableShape])
  have h := hc _ _ _ _ ⟨[], by unfold Resolves; kernel_rfl⟩ ⟨[], by unfold Resolves; kernel_rfl, by decide⟩ hs _ _ _ _ _ _ _ _ _ [] hb hn
    (C21_encode_none (baseEnv dummyExt) ECtx.none _ _ _ (.str []) he (.inr (.inr (.inl rfl))))
    (C21_encode_none (baseEnv dummyExt) ECtx.none _ _ _ .nil he (.inl rfl)) rfl (by decide)
  cases h

/-- Two trees without children whose bytes agree have the same number. -/
example (ext : Ext) (m n : Nat) (hm : m < 2 ^ 16) (hn : n < 2 ^ 16) (h : Spec.leBytes 2 m ++ [0] = Spec.leBytes 2 n ++ [0]) :
    leafOut m = leafOut n :=
  (C29_prefix_free_partial (treeEnv ext) ⟨[], 0, none⟩ ECtx.none treeShape ⟨[], by unfold Resolves; kernel_rfl⟩
    ⟨[], by unfold Resolves; kernel_rfl, by decide⟩ (tree_describes ext) b!"Tree" _ _ _ _ _ _ [] [] (tree_leaf m hm) (tree_leaf n hn)
    (by simpa using h) (by simp [leBytes_length])).1

end ScaleGo
