import Verif.Props.C43

/-! # C63: calls are encoded with exactly one value per argument

English claim: encoding a call that the metadata knows writes the two index bytes followed by the encodings of the values given for
its arguments, in order, and these bytes decode to the same call; it is refused unless there is exactly one value per argument.

Encoding and decoding hold (`C63_encode_partial`, `C63_decode`), and so does the refusal of too few values (`C63_missing_partial`).
Values beyond the last argument are ignored (`C63_extra`), which makes the full claim false. -/

namespace ScaleGo

open ScaleGo.Spec

/-- The text of a call index, with or without prefix. -/
def Spec.IndexText (i j : UInt8) (s : Str) : Prop := s = _root_.Spec.hexText [i, j] ∨ s = b!"0x" ++ _root_.Spec.hexText [i, j]

/-- The values used: `call_args` if there are any, else `params`. -/
def Spec.Given (ps as vs : List Val) : Prop := (as = [] ∧ vs = ps) ∨ (as ≠ [] ∧ vs = as)

/-- The full claim. -/
def C63Claim : Prop :=
  ∀ (env : Env) (ctx : ECtx) (md : MD) (ty sub s : Str) (i j : UInt8) (e : CallEntry) (ps as vs : List Val) (bs : List Str),
    ctx.md = some md → EncResolves env ctx ty .call sub → IndexText i j s → md.callIndex (_root_.Spec.hexText [i, j]) = some e →
    Given ps as vs → bs.length = min e.args.length vs.length →
    (∀ (k : Nat) (a : Str × Str) (v : Val) (b : Str), e.args[k]? = some a → vs[k]? = some v → bs[k]? = some b → Encodes env ctx a.2 v b) →
    if vs.length = e.args.length then Encodes env ctx ty (.boxCall s ps as) (i :: j :: bs.flatten)
    else EncodeRefuses env ctx ty (.boxCall s ps as)

theorem encArgs_many (env : Env) (ctx : ECtx) : ∀ (args : List (Str × Str)) (vs : List Val) (bs : List Str), args.length ≤ vs.length →
    bs.length = args.length →
    (∀ (k : Nat) (a : Str × Str) (v : Val) (b : Str), args[k]? = some a → vs[k]? = some v → bs[k]? = some b → Encodes env ctx a.2 v b) →
    ∃ N, ∀ n, N ≤ n → encArgs (enc env n) ctx args vs = .ok (_root_.Spec.hexText bs.flatten)
  | [], vs, bs, _, hb, _ => ⟨0, fun n _ => by
      have : bs = [] := List.eq_nil_of_length_eq_zero hb
      subst this
      cases vs <;> rfl⟩
  | a :: args, [], _, hl, _, _ => by simp at hl
  | a :: args, v :: vs, [], _, hb, _ => by simp at hb
  | a :: args, v :: vs, b :: bs, hl, hb, h => by
      obtain ⟨N1, h1⟩ := h 0 a v b rfl rfl rfl
      obtain ⟨N2, h2⟩ := encArgs_many env ctx args vs bs (by simpa using hl) (by simpa using hb)
        (fun k a' v' b' ha hv hb' => h (k + 1) a' v' b' (by simpa using ha) (by simpa using hv) (by simpa using hb'))
      refine ⟨max N1 N2, fun n hn => ?_⟩
      obtain ⟨an, at'⟩ := a
      rw [encArgs, h1 n (by omega), h2 n (by omega)]
      simp only [Res.ok_bind, List.flatten_cons]
      rw [← bytesToHex_eq_spec, ← bytesToHex_eq_spec, ← bytesToHex_eq_spec, bytesToHex_append]

theorem encArgs_few (env : Env) (ctx : ECtx) : ∀ (args : List (Str × Str)) (vs : List Val) (bs : List Str), vs.length < args.length →
    bs.length = vs.length →
    (∀ (k : Nat) (a : Str × Str) (v : Val) (b : Str), args[k]? = some a → vs[k]? = some v → bs[k]? = some b → Encodes env ctx a.2 v b) →
    ∃ N, ∀ n, N ≤ n → encArgs (enc env n) ctx args vs = .panic
  | [], vs, bs, hl, _, _ => by simp at hl
  | a :: args, [], _, _, _, _ => ⟨0, fun _ _ => rfl⟩
  | a :: args, v :: vs, [], _, hb, _ => by simp at hb
  | a :: args, v :: vs, b :: bs, hl, hb, h => by
      obtain ⟨N1, h1⟩ := h 0 a v b rfl rfl rfl
      obtain ⟨N2, h2⟩ := encArgs_few env ctx args vs bs (by simpa using hl) (by simpa using hb)
        (fun k a' v' b' ha hv hb' => h (k + 1) a' v' b' (by simpa using ha) (by simpa using hv) (by simpa using hb'))
      refine ⟨max N1 N2, fun n hn => ?_⟩
      obtain ⟨an, at'⟩ := a
      rw [encArgs, h1 n (by omega), h2 n (by omega)]
      rfl

theorem encodeCall_entry {ext : Ext} {rec : ERec} {ctx : ECtx} {md : MD} {s : Str} {i j : UInt8} {e : CallEntry} {ps as vs : List Val}
    (hm : ctx.md = some md) (hs : IndexText i j s) (hk : md.callIndex (_root_.Spec.hexText [i, j]) = some e) (hg : Given ps as vs) :
    encodeCall ext rec ctx (.boxCall s ps as) = encArgs rec ctx e.args vs >>= fun r => .ok (_root_.Spec.hexText [i, j] ++ r) := by
  have hi : trimHex s = _root_.Spec.hexText [i, j] := by
    rcases hs with rfl | rfl
    · exact trimHex_hexText _
    · exact trimHex_0x _
  have hv : (if as.isEmpty then ps else as) = vs := by
    rcases hg with ⟨rfl, rfl⟩ | ⟨h, rfl⟩
    · rfl
    · cases vs with
      | nil => exact absurd rfl h
      | cons _ _ => rfl
  unfold encodeCall
  rw [hm]
  simp only [boxCallOf, Res.ok_bind, hi, hk, hv]

/-- Values beyond the last argument are ignored; those of the arguments are written in order behind the index. -/
theorem C63_extra (env : Env) (ctx : ECtx) (md : MD) (ty sub s : Str) (i j : UInt8) (e : CallEntry) (ps as vs : List Val) (bs : List Str)
    (hm : ctx.md = some md) (hr : EncResolves env ctx ty .call sub) (hs : IndexText i j s)
    (hk : md.callIndex (_root_.Spec.hexText [i, j]) = some e) (hg : Given ps as vs) (hl : e.args.length ≤ vs.length)
    (hb : bs.length = e.args.length)
    (h : ∀ (k : Nat) (a : Str × Str) (v : Val) (b : Str), e.args[k]? = some a → vs[k]? = some v → bs[k]? = some b →
      Encodes env ctx a.2 v b) :
    Encodes env ctx ty (.boxCall s ps as) (i :: j :: bs.flatten) := by
  obtain ⟨N, hN⟩ := encArgs_many env ctx e.args vs bs hl hb h
  refine encodes_of_enc hr ⟨N, fun n hn => ?_⟩
  show encodeCall _ _ _ _ = _
  rw [show argOf (.boxCall s ps as) = .boxCall s ps as from rfl, encodeCall_entry hm hs hk hg, hN n hn, Res.ok_bind,
    ← bytesToHex_eq_spec, ← bytesToHex_eq_spec, ← bytesToHex_append]
  rfl

/-- One value per argument: the index bytes and the encodings of the values in order.  The full claim `C63Claim` also has more
values than arguments refused, which they are not (`C63_claim_false`). -/
theorem C63_encode_partial (env : Env) (ctx : ECtx) (md : MD) (ty sub s : Str) (i j : UInt8) (e : CallEntry) (ps as vs : List Val)
    (bs : List Str) (hm : ctx.md = some md) (hr : EncResolves env ctx ty .call sub) (hs : IndexText i j s)
    (hk : md.callIndex (_root_.Spec.hexText [i, j]) = some e) (hg : Given ps as vs) (hl : vs.length = e.args.length)
    (hb : bs.length = e.args.length)
    (h : ∀ (k : Nat) (a : Str × Str) (v : Val) (b : Str), e.args[k]? = some a → vs[k]? = some v → bs[k]? = some b →
      Encodes env ctx a.2 v b) :
    Encodes env ctx ty (.boxCall s ps as) (i :: j :: bs.flatten) :=
  C63_extra env ctx md ty sub s i j e ps as vs bs hm hr hs hk hg (Nat.le_of_eq hl.symm) hb h

/-- Too few values are refused, whichever values they are as long as they can be encoded. -/
theorem C63_missing_partial (env : Env) (ctx : ECtx) (md : MD) (ty sub s : Str) (i j : UInt8) (e : CallEntry) (ps as vs : List Val)
    (bs : List Str) (hm : ctx.md = some md) (hr : EncResolves env ctx ty .call sub) (hs : IndexText i j s)
    (hk : md.callIndex (_root_.Spec.hexText [i, j]) = some e) (hg : Given ps as vs) (hl : vs.length < e.args.length)
    (hb : bs.length = vs.length)
    (h : ∀ (k : Nat) (a : Str × Str) (v : Val) (b : Str), e.args[k]? = some a → vs[k]? = some v → bs[k]? = some b →
      Encodes env ctx a.2 v b) :
    EncodeRefuses env ctx ty (.boxCall s ps as) := by
  obtain ⟨N, hN⟩ := encArgs_few env ctx e.args vs bs hl hb h
  refine encodeRefuses_of_enc hr ⟨N, fun n hn => ?_⟩
  show encodeCall _ _ _ _ = _
  rw [show argOf (.boxCall s ps as) = .boxCall s ps as from rfl, encodeCall_entry hm hs hk hg, hN n hn]
  rfl

/-- The call without metadata panics. -/
theorem C63_no_metadata (env : Env) (ctx : ECtx) (ty sub : Str) (v : Val) (hm : ctx.md = none) (hr : EncResolves env ctx ty .call sub) :
    EncodeRefuses env ctx ty v := by
  refine encodeRefuses_of_enc hr ⟨0, fun n _ => ?_⟩
  show encodeCall _ _ _ _ = _
  unfold encodeCall
  rw [hm]

/-- What a call decodes to. -/
def Spec.callVal (i j : UInt8) (e : CallEntry) (vs : List Val) : Val :=
  .map [(b!"call_index", .str (_root_.Spec.hexText [i, j])), (b!"call_name", .str e.callName), (b!"call_module", .str e.moduleName),
    (b!"params", .params ((e.args.zip vs).map fun a => (a.1.1, a.1.2, a.2)))]

theorem forall2_decAt {env : Env} {ctx : Ctx} {args : List (Str × Str)} {items : List Item}
    (h : List.Forall₂ (fun (a : Str × Str) (x : Item) => Decodes env ctx a.2 x.2.1 x.1 x.2.2) args items) :
    ∃ N, ∀ n, N ≤ n → List.Forall₂ (fun a x => DecAt (pau env n ctx a.2) x.2.1 x.1 x.2.2) args items := by
  induction h with
  | nil => exact ⟨0, fun _ _ => .nil⟩
  | cons h1 _ ih =>
    obtain ⟨N1, h1⟩ := h1
    obtain ⟨N2, h2⟩ := ih
    exact ⟨max N1 N2, fun n hn => .cons (h1 n (by omega)) (h2 n (by omega))⟩

/-- Two index bytes followed by the bytes of the arguments decode to the call of that index, with the arguments named and in order;
the calls reported are those of the arguments and then the call itself. -/
theorem C63_decode (env : Env) (ctx : Ctx) (md : MD) (ty sub : Str) (i j : UInt8) (e : CallEntry) (items : List Item)
    (hm : ctx.md = some md) (hr : Resolves env ctx.module ctx.spec ty .call sub)
    (hk : md.callIndex (_root_.Spec.hexText [i, j]) = some e)
    (h : List.Forall₂ (fun (a : Str × Str) (x : Item) => Decodes env { ctx with module := e.moduleName } a.2 x.2.1 x.1 x.2.2) e.args items) :
    Decodes env ctx ty (i :: j :: (items.map (·.2.1)).flatten) (callVal i j e (items.map (·.1)))
      ((items.map (·.2.2)).flatten ++ [_root_.Spec.hexText (i :: j :: (items.map (·.2.1)).flatten)]) := by
  obtain ⟨N, hN⟩ := forall2_decAt h
  refine decodes_of_decAt hr ⟨N, fun n hn pre suf cs hl => ?_⟩
  have d := decAt_procArgs e.args items (hN n hn)
  generalize hB : (items.map (·.2.1)).flatten = B at d hl ⊢
  have l2 := nextBytes_at pre [i, j] (B ++ suf) cs 2 rfl (by simp only [List.length_append, List.length_cons, List.length_nil] at hl ⊢; omega)
  have l3 := d (pre ++ [i, j]) suf cs (by simp only [List.length_append, List.length_cons, List.length_nil] at hl ⊢; omega)
  have hraw : ((pre ++ ([i, j] ++ (B ++ suf))).drop pre.length).take (pre.length + ([i, j].length + B.length) - pre.length) =
      i :: j :: B := by
    rw [List.drop_left, Nat.add_sub_cancel_left, ← List.append_assoc, ← List.length_append, List.take_left]
    rfl
  rw [show i :: j :: B = [i, j] ++ B from rfl]
  simp only [List.append_assoc, List.length_append, Nat.add_assoc] at l2 l3 hraw ⊢
  show processCall _ _ _ = _
  unfold processCall
  rw [l2, Res.ok_bind]
  rw [← bytesToHex_eq_spec] at hk
  rw [hm] at l3
  simp only [hm, hk, Option.getD_some]
  rw [l3, Res.ok_bind]
  dsimp only
  rw [hraw, bytesToHex_eq_spec, bytesToHex_eq_spec, List.append_assoc]
  rfl

/-- The call of `rtEntry` given two values is encoded like that with the first one. -/
theorem C63_claim_false : ¬ C63Claim := by
  intro hc
  have h := hc rtEnv ⟨0, some (rtMD [])⟩ (rtMD []) b!"Call" [] b!"0000" 0 0 rtEntry [.int 7, .int 8] [] [.int 7, .int 8] [[7]] rfl
    ⟨by unfold Resolves; kernel_rfl, by decide⟩ (.inl (by decide)) (by rfl) (.inl ⟨rfl, rfl⟩) rfl
    (fun k a v b ha hv hb => by
      match k, ha, hv, hb with
      | 0, ha, hv, hb =>
        cases ha; cases hv; cases hb
        exact encodes_of_eval 9 (by kernel_rfl)
      | k + 1, _, _, hb => simp at hb)
  rw [if_neg (by decide)] at h
  obtain ⟨N, h⟩ := h
  obtain ⟨M, h'⟩ := encodes_of_eval (env := rtEnv) (ctx := ⟨0, some (rtMD [])⟩) (ty := b!"Call") (b := [0, 0, 7])
    (v := .boxCall b!"0000" [.int 7, .int 8] []) 9 (by kernel_rfl)
  have h1 := h (max N M) (by omega)
  rw [h' (max N M) (by omega)] at h1
  cases h1

/-- The call 0000 with the argument 7: bytes and what they decode to; without the argument it is refused. -/
example : Encodes rtEnv ⟨0, some (rtMD [])⟩ b!"Call" (.boxCall b!"0x0000" [] [.int 7]) [0, 0, 7] ∧
    Decodes rtEnv ⟨[], 0, some (rtMD [])⟩ b!"Call" [0, 0, 7] (callVal 0 0 rtEntry [.int 7]) [b!"000007"] ∧
    EncodeRefuses rtEnv ⟨0, some (rtMD [])⟩ b!"Call" (.boxCall b!"0000" [] []) :=
  ⟨C63_encode_partial rtEnv ⟨0, some (rtMD [])⟩ (rtMD []) b!"Call" [] b!"0x0000" 0 0 rtEntry [] [.int 7] [.int 7] [[7]] rfl
    ⟨by unfold Resolves; kernel_rfl, by decide⟩ (.inr (by decide)) (by rfl) (.inr ⟨by simp, rfl⟩) rfl rfl
    (fun k a v b ha hv hb => by
      match k, ha, hv, hb with
      | 0, ha, hv, hb =>
        cases ha; cases hv; cases hb
        exact encodes_of_eval 9 (by kernel_rfl)
      | k + 1, _, _, hb => simp at hb),
   C63_decode rtEnv ⟨[], 0, some (rtMD [])⟩ (rtMD []) b!"Call" [] 0 0 rtEntry [rtItem] rfl (by unfold Resolves; kernel_rfl) (by rfl)
     (.cons (C07_decode rtEnv _ b!"u8" 1 7 [] (by decide) (by decide) (by unfold Resolves; kernel_rfl)) .nil),
   C63_missing_partial rtEnv ⟨0, some (rtMD [])⟩ (rtMD []) b!"Call" [] b!"0000" 0 0 rtEntry [] [] [] [] rfl
    ⟨by unfold Resolves; kernel_rfl, by decide⟩ (.inl (by decide)) (by rfl) (.inl ⟨rfl, rfl⟩) (by decide) rfl
    (fun k a v b _ hv _ => by simp at hv)⟩

end ScaleGo
