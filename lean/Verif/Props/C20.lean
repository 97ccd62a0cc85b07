import Verif.Lemmas.Comp

/-! # C20: vectors -/

namespace ScaleGo

/-- Element type text of the vector classes; `none` for other classes. -/
def vecElem (cls : Cls) (sub : Str) : Option Str :=
  match cls with
  | .vec t => some (if t = [] then sub else t)
  | .boundedVec t => some (boundedSub t sub)
  | .authoritiesChange => some b!"AccountId"
  | _ => none

/-- The full claim. `items` are the elements with their bytes. -/
def C20Claim : Prop :=
  ∀ (env : Env) (ctx : Ctx) (ectx : ECtx) (ty sub sub' el : Str) (cls : Cls), vecElem cls sub = some el → vecElem cls sub' = some el →
    Resolves env ctx.module ctx.spec ty cls sub → EncResolves env ectx ty cls sub' → LenOK env ctx → LenEncOK env →
    (∀ (items : List Item) (c : Str), items.length ≤ 524288 → Spec.IsCompact items.length c →
      (∀ x ∈ items, Encodes env ectx el x.1 x.2.1) → (∀ x ∈ items, Decodes env ctx el x.2.1 x.1 x.2.2) →
      Encodes env ectx ty (.slice (items.map (·.1))) (c ++ (items.map (·.2.1)).flatten) ∧
      Decodes env ctx ty (c ++ (items.map (·.2.1)).flatten) (mkSlice (items.map (·.1))) (items.map (·.2.2)).flatten) ∧
    (∀ (n : Nat) (c : Str), 524288 < n → Spec.IsCompact n c → DecodeRefuses env ctx ty c)

theorem vec_process {ext : Ext} {rec : Rec} {ctx : Ctx} {cls : Cls} {sub el : Str} (h : vecElem cls sub = some el) :
    process ext rec ctx cls sub = processVec rec ctx el := by
  unfold vecElem at h
  split at h <;> first | contradiction | (injection h with h; subst h; rfl)

theorem vec_encodeCls {ext : Ext} {rec : ERec} {ctx : ECtx} {cls : Cls} {sub el : Str} (h : vecElem cls sub = some el) (v : Val) :
    encodeCls ext rec ctx cls sub v = encodeVec rec ctx el v := by
  unfold vecElem at h
  split at h <;> first | contradiction | (injection h with h; subst h; rfl)

/-- A list of elements encodes to the compact count and the elements' bytes in order. -/
theorem C20_encode (env : Env) (ctx : ECtx) (ty sub el : Str) (cls : Cls) (items : List (Val × Str)) (c : Str)
    (hv : vecElem cls sub = some el) (h : EncResolves env ctx ty cls sub) (hL : LenEncOK env) (hl : items.length < 2 ^ 30)
    (hc : Spec.IsCompact items.length c) (hi : ∀ x ∈ items, Encodes env ctx el x.1 x.2) :
    Encodes env ctx ty (.slice (items.map (·.1))) (c ++ (items.map (·.2)).flatten) := by
  obtain ⟨N1, h1⟩ := len_encodes hL hl hc
  obtain ⟨N2, h2⟩ := uniform_bound items (P := fun (x : Val × Str) n => enc env n ctx el x.1 = .ok (Spec.hexText x.2)) hi
  refine encodes_of_enc h ⟨max N1 N2, fun n hn => ?_⟩
  rw [vec_encodeCls hv]
  simp only [argOf, encodeVec, Val.elems?, List.length_map]
  rw [h1 n (by omega)]
  simp only [Res.ok_bind]
  rw [enc_list items (h2 n (by omega)) trimHex_hexText]
  simp only [Res.ok_bind, bytesToHex_append]
  rw [bytesToHex_eq_spec c]

/-- An absent or empty list encodes to the count zero alone. -/
theorem C20_encode_empty (env : Env) (ctx : ECtx) (ty sub el : Str) (cls : Cls) (v : Val) (hv : vecElem cls sub = some el)
    (h : EncResolves env ctx ty cls sub) (hL : LenEncOK env) (hvl : v ∈ [.nil, .nilSlice, .str [], .slice [], .strs [], .bytes []]) :
    Encodes env ctx ty v [0] := by
  have h0 : Spec.IsCompact 0 [0] := .inl ⟨by decide, by decide⟩
  obtain ⟨N1, h1⟩ := len_encodes hL (by decide : 0 < 2 ^ 30) h0
  refine encodes_of_enc h ⟨N1, fun n hn => ?_⟩
  rw [vec_encodeCls hv]
  have e := h1 n hn
  simp only [List.mem_cons, List.not_mem_nil, or_false] at hvl
  rcases hvl with rfl | rfl | rfl | rfl | rfl | rfl <;>
    simp only [argOf, encodeVec, Val.elems?, List.map_nil, List.length_nil, encList]
  all_goals
    rw [show ((0 : Nat) : Int) = 0 from rfl] at e
    try rw [show ((0 : Nat) : Int) = 0 from rfl]
    rw [e]
    simp [bytesToHex_eq_spec]

/-- Decoding the compact count and that many elements returns the elements in order. -/
theorem C20_decode (env : Env) (ctx : Ctx) (ty sub el : Str) (cls : Cls) (items : List Item) (c : Str)
    (hv : vecElem cls sub = some el) (h : Resolves env ctx.module ctx.spec ty cls sub) (hL : LenOK env ctx)
    (hl : items.length ≤ 524288) (hc : Spec.IsCompact items.length c) (hi : ∀ x ∈ items, Decodes env ctx el x.2.1 x.1 x.2.2) :
    Decodes env ctx ty (c ++ (items.map (·.2.1)).flatten) (mkSlice (items.map (·.1))) (items.map (·.2.2)).flatten := by
  obtain ⟨N1, h1⟩ := len_decodes hL (by omega) hc
  obtain ⟨N2, h2⟩ := uniform_bound items (P := fun (x : Item) n => DecAt (pau env n ctx el) x.2.1 x.1 x.2.2) hi
  refine decodes_of_decAt h ⟨max N1 N2, fun n hn => ?_⟩
  rw [vec_process hv]
  have e : processVec (pau env n) ctx el = fun st => pau env n ctx b!"Compact<u32>" st >>= fun p => asInt p.1 >>= fun i =>
      (fun (i : Int) (st : St) => if i > 524288 then .panic else procN (pau env n) ctx el i.toNat st >>= fun q => .ok (mkSlice q.1, q.2)) i p.2 := rfl
  rw [e]
  refine decAt_len (k := fun (i : Int) (st : St) => if i > 524288 then .panic else
    procN (pau env n) ctx el i.toNat st >>= fun q => .ok (mkSlice q.1, q.2)) (h1 n (by omega)) ?_
  have hb : ¬ (items.length : Int) > 524288 := by omega
  simp only [if_neg hb, Int.toNat_natCast]
  exact (decAt_procN items (h2 n (by omega))).map mkSlice

/-- The empty vector is one zero byte. -/
theorem C20_decode_empty (env : Env) (ctx : Ctx) (ty sub el : Str) (cls : Cls) (hv : vecElem cls sub = some el)
    (h : Resolves env ctx.module ctx.spec ty cls sub) (hL : LenOK env ctx) : Decodes env ctx ty [0] .nilSlice [] :=
  C20_decode env ctx ty sub el cls [] [0] hv h hL (by decide) (.inl ⟨by decide, by decide⟩) (by simp)

/-- A count above 524288 (and below 2^63) is refused, whatever follows. -/
theorem C20_refuse_partial (env : Env) (ctx : Ctx) (ty sub el : Str) (cls : Cls) (n : Nat) (c : Str)
    (hv : vecElem cls sub = some el) (h : Resolves env ctx.module ctx.spec ty cls sub) (hL : LenOK env ctx) (hlo : 524288 < n)
    (hhi : n < 2 ^ 63) (hc : Spec.IsCompact n c) : DecodeRefuses env ctx ty c := by
  obtain ⟨N, h1⟩ := len_decodes hL hhi hc
  refine decodeRefuses_of_panicAt h ⟨N, fun m hm => ?_⟩
  rw [vec_process hv]
  have e : processVec (pau env m) ctx el = fun st => pau env m ctx b!"Compact<u32>" st >>= fun p => asInt p.1 >>= fun i =>
      (fun (i : Int) (st : St) => if i > 524288 then .panic else procN (pau env m) ctx el i.toNat st >>= fun q => .ok (mkSlice q.1, q.2)) i p.2 := rfl
  rw [e]
  have := panicAt_len (k := fun (i : Int) (st : St) => if i > 524288 then .panic else
    procN (pau env m) ctx el i.toNat st >>= fun q => .ok (mkSlice q.1, q.2)) (h1 m hm) (b := []) (by
      intro pre suf cs _
      simp only [if_pos (show (n : Int) > 524288 by omega)])
  rwa [List.append_nil] at this

/-- The length reader on numbers that do not fit 63 bits: the low 64 bits as a signed number. -/
theorem len_decodes_big {env : Env} {ctx : Ctx} (h : LenOK env ctx) {n : Nat} {b : Str} (hlo : 2 ^ 63 ≤ n) (hb : Spec.IsCompact n b) :
    Decodes env ctx b!"Compact<u32>" b (.int (wrap64 n)) [] := by
  obtain ⟨s, h⟩ := h
  obtain ⟨len, cb, hf, hp⟩ := processCompactBytes_at hb
  refine decodes_of_read h fun r pre suf cs hl => ?_
  show processCompactU32 _ = _
  unfold processCompactU32
  rw [hp pre suf cs hl]
  simp only [Res.ok_bind]
  rcases hf with ⟨h4, hn30, _, _, _⟩ | ⟨h4, hv, hlen, hmin, _⟩
  · omega
  · have hl8 : 8 ≤ cb.length := by
      have := leNat_lt cb
      rw [hv] at this
      have h3 : 256 ^ 7 < 256 ^ cb.length := Nat.lt_of_le_of_lt (Nat.le_trans (by decide) hlo) this
      have := (Nat.pow_lt_pow_iff_right (by decide : 1 < 256)).mp h3
      omega
    have e1 : readInto 8 cb = cb.take 8 := by
      unfold readInto
      rw [show 8 - List.length cb = 0 by omega]
      simp
    have e2 : leNat (cb.take 8) = n % 2 ^ 64 := by
      have hcb : cb = lePut cb.length (leNat cb) := by rw [lePut_leNat]
      rw [hcb, lePut_take 8 _ _ hl8, leNat_lePut, hv, pow256]
    have e3 : wrap64 ((n % 2 ^ 64 : Nat) : Int) = wrap64 (n : Int) := by
      unfold wrap64
      rw [show ((n % 2 ^ 64 : Nat) : Int) = (n : Int) % ((2 ^ 64 : Nat) : Int) by rw [Int.natCast_emod], Int.emod_bmod]
    rw [e1, e2, e3, if_neg (by omega)]

/-- A count of 2^63 or more is taken modulo 2^64: a negative or zero remainder gives an empty vector, with no refusal. -/
theorem C20_huge_wrong (env : Env) (ctx : Ctx) (ty sub el : Str) (cls : Cls) (n : Nat) (c : Str)
    (hv : vecElem cls sub = some el) (h : Resolves env ctx.module ctx.spec ty cls sub) (hL : LenOK env ctx) (hlo : 2 ^ 63 ≤ n)
    (hw : wrap64 n ≤ 0) (hc : Spec.IsCompact n c) : Decodes env ctx ty c .nilSlice [] := by
  obtain ⟨N1, h1⟩ := len_decodes_big hL hlo hc
  refine decodes_of_decAt h ⟨N1, fun m hm => ?_⟩
  rw [vec_process hv]
  have e : processVec (pau env m) ctx el = fun st => pau env m ctx b!"Compact<u32>" st >>= fun p => asInt p.1 >>= fun i =>
      (fun (i : Int) (st : St) => if i > 524288 then .panic else procN (pau env m) ctx el i.toNat st >>= fun q => .ok (mkSlice q.1, q.2)) i p.2 := rfl
  rw [e]
  have := decAt_len (k := fun (i : Int) (st : St) => if i > 524288 then .panic else
    procN (pau env m) ctx el i.toNat st >>= fun q => .ok (mkSlice q.1, q.2)) (b := []) (v := Val.nilSlice) (ic := []) (h1 m hm) (by
      have hb : ¬ (wrap64 n) > 524288 := by omega
      simp only [if_neg hb, Int.toNat_of_nonpos hw]
      exact DecAt.pure _)
  rwa [List.append_nil] at this

theorem refuses_not_decodes {env : Env} {ctx : Ctx} {ty b : Str} {v : Val} {ic : List Str} (h1 : DecodeRefuses env ctx ty b)
    (h2 : Decodes env ctx ty b v ic) (hl : b.length < 2 ^ 63) : False := by
  obtain ⟨N, h1⟩ := h1
  obtain ⟨M, h2⟩ := h2
  have e1 := h1 (N + M) (by omega) [] [] [] (by simpa using hl)
  have e2 := h2 (N + M) (by omega) [] [] [] (by simpa using hl)
  rw [e1] at e2
  cases e2

/-- The full claim is false: the announced count 2^63 decodes as an empty vector. -/
theorem C20_claim_false : ¬ C20Claim := by
  intro hc
  have hr : Resolves (baseEnv dummyExt) [] 0 b!"Vec<u32>" (.vec []) b!"u32" := by unfold Resolves; kernel_rfl
  have he : EncResolves (baseEnv dummyExt) ECtx.none b!"Vec<u32>" (.vec []) b!"u32" := ⟨by unfold Resolves; kernel_rfl, by decide⟩
  have hL : LenOK (baseEnv dummyExt) ⟨[], 0, none⟩ := ⟨[], by unfold Resolves; kernel_rfl⟩
  have hL' : LenEncOK (baseEnv dummyExt) := ⟨[], by unfold Resolves; kernel_rfl, by decide⟩
  have hn : Spec.IsCompact (2 ^ 63) [19, 0, 0, 0, 0, 0, 0, 0, 128] := .inr (.inr (.inr ⟨by decide, 8, by decide⟩))
  have hC := (hc _ ⟨[], 0, none⟩ _ _ _ _ b!"u32" (.vec []) rfl rfl hr he hL hL').2 _ _ (by decide) hn
  exact refuses_not_decodes hC (C20_huge_wrong _ ⟨[], 0, none⟩ _ _ b!"u32" _ _ _ rfl hr hL (by decide) (by decide) hn) (by decide)

/-- A vector of two `u8`. -/
example (ext : Ext) : Resolves (baseEnv ext) [] 0 b!"Vec<bool>" (.vec []) b!"bool" ∧ vecElem (.vec []) b!"bool" = some b!"bool" ∧
    EncResolves (baseEnv ext) ECtx.none b!"Vec<bool>" (.vec []) b!"bool" ∧
    Resolves (baseEnv ext) [] 0 b!"BoundedVec<u64, MaxSize>" (.boundedVec []) b!"u64, MaxSize" ∧
    vecElem (.boundedVec []) b!"u64, MaxSize" = some b!"u64" ∧
    Encodes (baseEnv ext) ECtx.none b!"bool" (.bool true) [1] ∧ Spec.IsCompact 2 [8] ∧ (2 : Nat) ≤ 524288 := by
  refine ⟨by unfold Resolves; kernel_rfl, rfl, ⟨by unfold Resolves; kernel_rfl, by decide⟩, by unfold Resolves; kernel_rfl, by decide +kernel,
    ?_, .inl ⟨by decide, by decide⟩, by decide⟩
  have he : EncResolves (baseEnv ext) ECtx.none b!"bool" .bool [] := ⟨by unfold Resolves; kernel_rfl, by decide⟩
  exact encodes_of_cls he fun r => rfl

end ScaleGo
