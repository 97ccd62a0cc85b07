import Verif.Props.C20

/-! # C24: result, box, wrapper, range and map decoders

The argument text `A,B` of a result, map or range is split at every comma, so argument types that contain commas
themselves are refused or read as something else. -/

namespace ScaleGo

/-- The full claim. -/
def C24Claim : Prop :=
  ∀ (env : Env) (ctx : Ctx) (ty t s : Str),
    (∀ a e, Resolves env ctx.module ctx.spec ty (.result t) s → effSub t s = a ++ b!"," ++ e →
      (∀ b v ic, Decodes env ctx a b v ic → Decodes env ctx ty (0 :: b) (.map [(b!"Ok", v)]) ic) ∧
      (∀ b v ic, Decodes env ctx e b v ic → Decodes env ctx ty (1 :: b) (.map [(b!"Error", v)]) ic) ∧
      ∀ i : UInt8, 1 < i.toNat → DecodeRefuses env ctx ty [i]) ∧
    (Resolves env ctx.module ctx.spec ty (.box t) s → ∀ b v ic, Decodes env ctx (effSub t s) b v ic → Decodes env ctx ty b v ic) ∧
    (Resolves env ctx.module ctx.spec ty (.wrapperOpaque t) s → LenOK env ctx → ∀ n c b v ic, n < 2 ^ 63 → Spec.IsCompact n c →
      Decodes env ctx (effSub t s) b v ic → Decodes env ctx ty (c ++ b) v ic) ∧
    (Resolves env ctx.module ctx.spec ty (.range t) s → ∀ b1 b2 v1 v2 ic1 ic2, Decodes env ctx (effSub t s) b1 v1 ic1 →
      Decodes env ctx (effSub t s) b2 v2 ic2 → Decodes env ctx ty (b1 ++ b2) (.map [(b!"start", v1), (b!"end", v2)]) (ic1 ++ ic2)) ∧
    (Resolves env ctx.module ctx.spec ty (.btreeMap t) s → LenOK env ctx →
      (∀ k w (items : List (Item × Item)) c, effSub t s = k ++ b!"," ++ w → items.length ≤ 1000 → Spec.IsCompact items.length c →
        (∀ x ∈ items, Decodes env ctx k x.1.2.1 x.1.1 x.1.2.2) → (∀ x ∈ items, Decodes env ctx w x.2.2.1 x.2.1 x.2.2.2) →
        Decodes env ctx ty (c ++ (items.map fun x => x.1.2.1 ++ x.2.2.1).flatten)
          (mkSlice (items.map fun x => .map [(env.ext.toStr x.1.1, x.2.1)])) (items.map fun x => x.1.2.2 ++ x.2.2.2).flatten) ∧
      ∀ n c, 1000 < n → Spec.IsCompact n c → DecodeRefuses env ctx ty c)

theorem splitSepAux_comma : ∀ (a cur r : Str), (44 : UInt8) ∉ a →
    splitSepAux b!"," 0 cur (a ++ 44 :: r) = (cur.reverse ++ a) :: splitSepAux b!"," 0 [] r
  | [], cur, r, _ => by simp [splitSepAux]
  | c :: cs, cur, r, h => by
    have hne : ((44 : UInt8) == c) = false := by
      apply beq_false_of_ne
      rintro rfl
      exact h (by simp)
    rw [List.cons_append, splitSepAux, List.isPrefixOf_cons_cons, hne]
    simp only [Bool.false_and, Bool.false_eq_true, if_false]
    rw [splitSepAux_comma cs (c :: cur) r (fun hm => h (by simp [hm]))]
    simp

theorem splitSep_comma (a r : Str) (h : (44 : UInt8) ∉ a) : splitSep (a ++ b!"," ++ r) b!"," = a :: splitSep r b!"," := by
  unfold splitSep
  rw [List.append_assoc]
  exact splitSepAux_comma a [] r h

theorem splitSep_pair (a e : Str) (ha : (44 : UInt8) ∉ a) (he : (44 : UInt8) ∉ e) : splitSep (a ++ b!"," ++ e) b!"," = [a, e] := by
  rw [splitSep_comma a e ha, splitSep_none b!"," e 44 ⟨[], rfl⟩ he]

/-- Result with comma-free argument types. -/
theorem C24_result_partial (env : Env) (ctx : Ctx) (ty t s a e : Str) (h : Resolves env ctx.module ctx.spec ty (.result t) s)
    (hs : effSub t s = a ++ b!"," ++ e) (ha : (44 : UInt8) ∉ a) (he : (44 : UInt8) ∉ e) :
    (∀ b v ic, Decodes env ctx a b v ic → Decodes env ctx ty (0 :: b) (.map [(b!"Ok", v)]) ic) ∧
    (∀ b v ic, Decodes env ctx e b v ic → Decodes env ctx ty (1 :: b) (.map [(b!"Error", v)]) ic) ∧
    ∀ i : UInt8, 1 < i.toNat → DecodeRefuses env ctx ty [i] := by
  have hsp := splitSep_pair a e ha he
  refine ⟨fun b v ic hi => ?_, fun b v ic hi => ?_, fun i hi => ?_⟩
  · obtain ⟨N, hN⟩ := hi
    refine decodes_of_decAt h ⟨N, fun n hn => ?_⟩
    show DecAt (processResult (pau env n) ctx (effSub t s)) _ _ _
    rw [hs]
    unfold processResult
    refine DecAt.byte ?_
    simp only [hsp]
    simp only [if_pos (show bytesToHex [0] = b!"00" ∨ bytesToHex [0] = [] from .inl (by decide))]
    exact DecAt.last (hN n hn) fun _ => rfl
  · obtain ⟨N, hN⟩ := hi
    refine decodes_of_decAt h ⟨N, fun n hn => ?_⟩
    show DecAt (processResult (pau env n) ctx (effSub t s)) _ _ _
    rw [hs]
    unfold processResult
    refine DecAt.byte ?_
    simp only [hsp]
    simp only [if_neg (show ¬ (bytesToHex [1] = b!"00" ∨ bytesToHex [1] = []) by decide),
      if_pos (show bytesToHex [1] = b!"01" by decide)]
    exact DecAt.last (hN n hn) fun _ => rfl
  · refine decodeRefuses_of_process h fun r pre suf cs hl => ?_
    show processResult r ctx (effSub t s) _ = _
    rw [hs]
    unfold processResult
    rw [nextBytes_at pre [i] suf cs 1 rfl hl]
    simp only [Res.ok_bind, hsp]
    have h0 : bytesToHex [i] ≠ b!"00" := by
      rw [show b!"00" = bytesToHex [0] from rfl]
      intro e
      have := List.cons.inj (bytesToHex_injective e)
      rw [this.1] at hi
      exact absurd hi (by decide)
    have h1 : bytesToHex [i] ≠ b!"01" := by
      rw [show b!"01" = bytesToHex [1] from rfl]
      intro e
      have := List.cons.inj (bytesToHex_injective e)
      rw [this.1] at hi
      exact absurd hi (by decide)
    rw [if_neg (by rintro (h | h); exact h0 h; simp [bytesToHex] at h), if_neg h1]

/-- Any other number of commas in the argument text: every input is refused. -/
theorem C24_result_commas (env : Env) (ctx : Ctx) (ty t s : Str) (h : Resolves env ctx.module ctx.spec ty (.result t) s)
    (hs : (splitSep (effSub t s) b!",").length ≠ 2) (i : UInt8) : DecodeRefuses env ctx ty [i] := by
  refine decodeRefuses_of_process h fun r pre suf cs hl => ?_
  show processResult r ctx (effSub t s) _ = _
  unfold processResult
  rw [nextBytes_at pre [i] suf cs 1 rfl hl]
  simp only [Res.ok_bind]
  split
  · rename_i e; rw [e] at hs; simp at hs
  · rfl

/-- Encoding a result with comma-free argument types. -/
theorem C24_result_encode (env : Env) (ctx : ECtx) (ty t s a e : Str) (h : EncResolves env ctx ty (.result t) s)
    (hs : effSub t s = a ++ b!"," ++ e) (ha : (44 : UInt8) ∉ a) (he : (44 : UInt8) ∉ e) :
    (∀ b v, Encodes env ctx a v b → Encodes env ctx ty (.map [(b!"Ok", v)]) (0 :: b)) ∧
    (∀ b v, Encodes env ctx e v b → Encodes env ctx ty (.map [(b!"Error", v)]) (1 :: b)) := by
  have hsp := splitSep_pair a e ha he
  constructor <;>
  · intro b v hi
    obtain ⟨N, hN⟩ := hi
    refine encodes_of_enc h ⟨N, fun n hn => ?_⟩
    show encodeResult (enc env n) ctx (effSub t s) (.map _) = _
    rw [hs]
    unfold encodeResult
    simp only [asMap, Res.ok_bind, hsp, mapGet]
    simp only [if_true, hN n hn, Res.ok_bind]
    rw [← bytesToHex_eq_spec]
    rfl

/-- Box is transparent. -/
theorem C24_box (env : Env) (ctx : Ctx) (ty t s b : Str) (v : Val) (ic : List Str) (h : Resolves env ctx.module ctx.spec ty (.box t) s)
    (hi : Decodes env ctx (effSub t s) b v ic) : Decodes env ctx ty b v ic := by
  obtain ⟨N, hN⟩ := hi
  exact decodes_of_decAt h ⟨N, fun n hn => hN n hn⟩

/-- A wrapper skips a compact length, which is not looked at. -/
theorem C24_wrapper (env : Env) (ctx : Ctx) (ty t s c b : Str) (n : Nat) (v : Val) (ic : List Str)
    (h : Resolves env ctx.module ctx.spec ty (.wrapperOpaque t) s) (hL : LenOK env ctx) (hn : n < 2 ^ 63) (hc : Spec.IsCompact n c)
    (hi : Decodes env ctx (effSub t s) b v ic) : Decodes env ctx ty (c ++ b) v ic := by
  obtain ⟨N, hN⟩ := hi
  obtain ⟨M, hM⟩ := len_decodes hL hn hc
  refine decodes_of_decAt h ⟨max N M, fun n hn => ?_⟩
  show DecAt (processWrapper (pau env n) ctx (effSub t s)) _ _ _
  unfold processWrapper
  exact DecAt.step0 (hM n (by omega)) (hN n (by omega))

theorem range_decodes (env : Env) (ctx : Ctx) (ty t s b1 b2 : Str) (v1 v2 : Val) (ic1 ic2 : List Str)
    (h : Resolves env ctx.module ctx.spec ty (.range t) s) (h1 : Decodes env ctx (rangeTypes (effSub t s)).1 b1 v1 ic1)
    (h2 : Decodes env ctx (rangeTypes (effSub t s)).2 b2 v2 ic2) :
    Decodes env ctx ty (b1 ++ b2) (.map [(b!"start", v1), (b!"end", v2)]) (ic1 ++ ic2) := by
  obtain ⟨N, hN⟩ := h1
  obtain ⟨M, hM⟩ := h2
  refine decodes_of_decAt h ⟨max N M, fun n hn => ?_⟩
  show DecAt (processRange (pau env n) ctx (effSub t s)) _ _ _
  unfold processRange
  refine DecAt.step (hN n (by omega)) ?_
  exact DecAt.last (hM n (by omega)) fun _ => rfl

/-- A range of a comma-free type reads start then end. -/
theorem C24_range_partial (env : Env) (ctx : Ctx) (ty t s b1 b2 : Str) (v1 v2 : Val) (ic1 ic2 : List Str)
    (h : Resolves env ctx.module ctx.spec ty (.range t) s) (hs : (44 : UInt8) ∉ effSub t s) (h1 : Decodes env ctx (effSub t s) b1 v1 ic1)
    (h2 : Decodes env ctx (effSub t s) b2 v2 ic2) :
    Decodes env ctx ty (b1 ++ b2) (.map [(b!"start", v1), (b!"end", v2)]) (ic1 ++ ic2) := by
  have e : rangeTypes (effSub t s) = (effSub t s, effSub t s) := by
    unfold rangeTypes
    rw [splitSep_none b!"," _ 44 ⟨[], rfl⟩ hs]
  exact range_decodes env ctx ty t s b1 b2 v1 v2 ic1 ic2 h (by rw [e]; exact h1) (by rw [e]; exact h2)

/-- A range with different comma-free start and end types. -/
theorem C24_range_two (env : Env) (ctx : Ctx) (ty t s a e b1 b2 : Str) (v1 v2 : Val) (ic1 ic2 : List Str)
    (h : Resolves env ctx.module ctx.spec ty (.range t) s) (hs : effSub t s = a ++ b!"," ++ e) (ha : (44 : UInt8) ∉ a)
    (he : (44 : UInt8) ∉ e) (h1 : Decodes env ctx a b1 v1 ic1) (h2 : Decodes env ctx e b2 v2 ic2) :
    Decodes env ctx ty (b1 ++ b2) (.map [(b!"start", v1), (b!"end", v2)]) (ic1 ++ ic2) := by
  have er : rangeTypes (effSub t s) = (a, e) := by
    unfold rangeTypes
    rw [hs, splitSep_pair a e ha he]
  exact range_decodes env ctx ty t s b1 b2 v1 v2 ic1 ic2 h (by rw [er]; exact h1) (by rw [er]; exact h2)

theorem decAt_pairs {ext : Ext} {rec : Rec} {ctx : Ctx} {k w : Str} {rest : List Str} (items : List (Item × Item))
    (h1 : ∀ x ∈ items, DecAt (rec ctx k) x.1.2.1 x.1.1 x.1.2.2) (h2 : ∀ x ∈ items, DecAt (rec ctx w) x.2.2.1 x.2.1 x.2.2.2) :
    DecAt (procPairs ext rec ctx (k :: w :: rest) items.length) (items.map fun x => x.1.2.1 ++ x.2.2.1).flatten
      (items.map fun x => .map [(ext.toStr x.1.1, x.2.1)]) (items.map fun x => x.1.2.2 ++ x.2.2.2).flatten := by
  induction items with
  | nil => exact DecAt.pure _
  | cons x items ih =>
    have ih := ih (fun y hy => h1 y (by simp [hy])) (fun y hy => h2 y (by simp [hy]))
    have e : procPairs ext rec ctx (k :: w :: rest) (x :: items).length = fun st => rec ctx k st >>= fun p =>
        rec ctx w p.2 >>= fun q => procPairs ext rec ctx (k :: w :: rest) items.length q.2 >>= fun r =>
          .ok (.map [(ext.toStr p.1, q.1)] :: r.1, r.2) := by
      funext st; rfl
    rw [e]
    simp only [List.map_cons, List.flatten_cons, List.append_assoc]
    refine DecAt.step (h1 x (by simp)) ?_
    dsimp only
    refine DecAt.step (h2 x (by simp)) ?_
    dsimp only
    exact DecAt.last ih fun _ => rfl

/-- A map with comma-free key and value types. -/
theorem C24_map_partial (env : Env) (ctx : Ctx) (ty t s k w c : Str) (items : List (Item × Item))
    (h : Resolves env ctx.module ctx.spec ty (.btreeMap t) s) (hL : LenOK env ctx) (hs : effSub t s = k ++ b!"," ++ w)
    (hk : (44 : UInt8) ∉ k) (hw : (44 : UInt8) ∉ w) (hl : items.length ≤ 1000) (hc : Spec.IsCompact items.length c)
    (h1 : ∀ x ∈ items, Decodes env ctx k x.1.2.1 x.1.1 x.1.2.2) (h2 : ∀ x ∈ items, Decodes env ctx w x.2.2.1 x.2.1 x.2.2.2) :
    Decodes env ctx ty (c ++ (items.map fun x => x.1.2.1 ++ x.2.2.1).flatten)
      (mkSlice (items.map fun x => .map [(env.ext.toStr x.1.1, x.2.1)])) (items.map fun x => x.1.2.2 ++ x.2.2.2).flatten := by
  obtain ⟨N0, h0⟩ := len_decodes hL (by omega) hc
  obtain ⟨N1, h1⟩ := uniform_bound items (P := fun (x : Item × Item) n => DecAt (pau env n ctx k) x.1.2.1 x.1.1 x.1.2.2) h1
  obtain ⟨N2, h2⟩ := uniform_bound items (P := fun (x : Item × Item) n => DecAt (pau env n ctx w) x.2.2.1 x.2.1 x.2.2.2) h2
  refine decodes_of_decAt h ⟨N0 + N1 + N2, fun n hn => ?_⟩
  show DecAt (processBTreeMap env.ext (pau env n) ctx (effSub t s)) _ _ _
  rw [hs]
  unfold processBTreeMap
  rw [splitSep_pair k w hk hw]
  refine DecAt.step0 (h0 n (by omega)) ?_
  simp only [asInt, Res.ok_bind]
  simp only [if_neg (show ¬ (items.length : Int) > 1000 by omega), Int.toNat_natCast]
  exact DecAt.last (decAt_pairs items (h1 n (by omega)) (h2 n (by omega))) fun _ => rfl

/-- More than 1000 (and fewer than 2^63) entries are refused. -/
theorem C24_map_refuse_partial (env : Env) (ctx : Ctx) (ty t s : Str) (n : Nat) (c : Str)
    (h : Resolves env ctx.module ctx.spec ty (.btreeMap t) s) (hL : LenOK env ctx) (hlo : 1000 < n)
    (hhi : n < 2 ^ 63) (hc : Spec.IsCompact n c) : DecodeRefuses env ctx ty c := by
  obtain ⟨N, h1⟩ := len_decodes hL hhi hc
  refine decodeRefuses_of_panicAt h ⟨N, fun m hm => ?_⟩
  show PanicAt (processBTreeMap env.ext (pau env m) ctx (effSub t s)) _
  intro pre suf cs hl
  unfold processBTreeMap
  rw [h1 m hm pre suf cs hl]
  simp only [Res.ok_bind, asInt]
  rw [if_pos (show (n : Int) > 1000 by omega)]

/-- The full claim is false: `Result<(u8,u8),u8>` refuses everything. -/
theorem C24_claim_false : ¬ C24Claim := by
  intro hc
  have hr : Resolves (baseEnv dummyExt) [] 0 b!"Result<(u8,u8),u8>" (.result []) b!"(u8,u8),u8" := by unfold Resolves; kernel_rfl
  have h8 : Resolves (baseEnv dummyExt) [] 0 b!"u8" .u8 [] := by unfold Resolves; kernel_rfl
  have hd : Decodes (baseEnv dummyExt) ⟨[], 0, none⟩ b!"u8" [7] (.int 7) [] := by
    refine decodes_of_decAt h8 ⟨0, fun n _ => ?_⟩
    show DecAt processU8 _ _ _
    intro pre suf cs hl
    unfold processU8 getNextU8
    rw [nextBytes_at pre [7] suf cs 1 rfl hl]
    simp
  have h1 := ((hc _ ⟨[], 0, none⟩ _ _ _).1 b!"(u8,u8)" b!"u8" hr rfl).2.1 [7] (.int 7) [] hd
  have h2 := C24_result_commas _ ⟨[], 0, none⟩ _ _ _ hr (by decide) 1
  obtain ⟨N, h1⟩ := h1
  obtain ⟨M, h2⟩ := h2
  have e1 := h1 (N + M) (by omega) [] [] [] (by decide)
  have e2 := h2 (N + M) (by omega) [] [7] [] (by decide)
  simp only [List.nil_append, List.append_nil, List.cons_append] at e1 e2
  rw [e1] at e2
  cases e2

/-- `Result<u32,String>`, `BTreeMap<u32,bool>`, `Range<u32>`, `Box<u8>` and a count. -/
example : Resolves (baseEnv dummyExt) [] 0 b!"Result<u32,String>" (.result []) b!"u32,String" ∧ (44 : UInt8) ∉ b!"u32" ∧
    Resolves (baseEnv dummyExt) [] 0 b!"BTreeMap<u32,bool>" (.btreeMap []) b!"u32,bool" ∧
    Resolves (baseEnv dummyExt) [] 0 b!"Range<u32>" (.range []) b!"u32" ∧
    Resolves (baseEnv dummyExt) [] 0 b!"Box<u8>" (.box []) b!"u8" ∧ LenOK (baseEnv dummyExt) ⟨[], 0, none⟩ ∧ Spec.IsCompact 2 [8] :=
  ⟨by unfold Resolves; kernel_rfl, by decide, by unfold Resolves; kernel_rfl, by unfold Resolves; kernel_rfl,
    by unfold Resolves; kernel_rfl, ⟨[], by unfold Resolves; kernel_rfl⟩, .inl ⟨by decide, by decide⟩⟩

end ScaleGo
