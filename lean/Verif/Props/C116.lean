import Verif.Lemmas.LooseInv

/-! # C116: only encodings are decoded -/

namespace ScaleGo
open _root_.Spec (Shape Payload Part Scale Leaf Loose Accepts AnyCompact compactNumber compactInt leSum listValue fieldTypes fieldOutputs
  outputs inputs allBytes partsOf Tidy Whole)

/-- Every variant of the library's definition of an enum is listed in its description. -/
def AllListed (env : Env) (ctx : Ctx) (shape : Str → Shape Str → Prop) : Prop :=
  ∀ ty vs, shape ty (.enum vs) → ∀ names tm s, Resolves env ctx.module ctx.spec ty (.enum names (some tm)) s →
    ∀ i < tm.length, ∃ v ∈ vs, v.1 = i

/-- Decoding a `ty` at the cursor of `st` returned `r`, took the bytes `b`, and did not reach the end of the data. -/
def Leaves (env : Env) (ctx : Ctx) (ty : Str) (st : St) (b : Str) (r : Val) : Prop :=
  ∃ n st', pau env n ctx ty st = .ok (r, st') ∧ st'.cur.off < st'.cur.data.length ∧
    b = Spec.slice st.cur.data st.cur.off st'.cur.off

/-- The full claim: what is decoded, with data left over, is the SCALE encoding of a value of the type. -/
def C116Claim : Prop :=
  ∀ (env : Env) (ctx : Ctx) (ectx : ECtx) (shape : Str → Shape Str → Prop), LenOK env ctx → Describes env ctx ectx shape →
    Whole shape → AllListed env ctx shape → ∀ (ty : Str) (sh : Shape Str) (st : St) (b : Str) (r : Val), shape ty sh → SaneAt st →
    Leaves env ctx ty st b r → ∃ v, Scale shape (fun _ _ _ _ => True) ty v r b

/-- What the recursive call returns is accepted. -/
def RecAcc (shape : Str → Shape Str → Prop) (ctx : Ctx) (rec : Rec) : Prop :=
  ∀ ty sh st st' v, shape ty sh → SaneAt st → rec ctx ty st = .ok (v, st') → Left st' →
    ∃ b, Took st b st' ∧ Accepts shape (fun _ _ _ => True) ty v b

section
variable {shape : Str → Shape Str → Prop} {ctx : Ctx} {rec : Rec} (hr : RecInv rec) (ha : RecAcc shape ctx rec)
include hr ha

theorem procN_inv {ty : Str} {sh : Shape Str} (hty : shape ty sh) : ∀ (k : Nat) {st st' : St} {vs : List Val}, SaneAt st →
    procN rec ctx ty k st = .ok (vs, st') → Left st' →
    ∃ ps : List (Part Str), ps.length = k ∧ outputs ps = vs ∧ Took st (allBytes ps) st' ∧
      ∀ p ∈ ps, Accepts shape (fun _ _ _ => True) ty p.out p.bytes
  | 0, st, st', vs, _, h, _ => by
    obtain ⟨rfl, rfl⟩ := ok_inj h
    exact ⟨[], rfl, rfl, Took.refl _, by simp⟩
  | k + 1, st, st', vs, hs, h, hlt => by
    simp only [procN, Res.bind_eq_ok] at h
    obtain ⟨⟨v, s1⟩, h1, ⟨ws, s2⟩, h2, h3⟩ := h
    obtain ⟨rfl, rfl⟩ := ok_inj h3
    have hs1 := hs.adv (hr _ _ _ hs.1 _ _ h1)
    have hl1 : Left s1 := (procN_post hr _ _ _ hs1.1 _ _ h2).before hlt
    obtain ⟨b, t1, a1⟩ := ha _ _ _ _ _ hty hs h1 hl1
    obtain ⟨ps, e1, e2, t2, a2⟩ := procN_inv hty k hs1 h2 hlt
    refine ⟨⟨[], ty, .nil, v, b⟩ :: ps, by simp [e1], by simp [outputs] at e2 ⊢; exact e2, ?_, ?_⟩
    · simpa [allBytes] using t1.trans t2
    · simpa using ⟨a1, a2⟩

theorem procFields_inv : ∀ (fs : List (Str × Str)) (acc : List (Str × Val)) {st st' : St} {m : List (Str × Val)},
    (∀ t ∈ fs.map Prod.snd, ∃ sh, shape t sh) → (acc.map Prod.fst ++ fs.map Prod.fst).Nodup → SaneAt st →
    procFields rec ctx fs acc st = .ok (m, st') → Left st' →
    ∃ ps : List (Part Str), fieldTypes ps = fs ∧ m = acc ++ fieldOutputs ps ∧ Took st (allBytes ps) st' ∧
      ∀ p ∈ ps, Accepts shape (fun _ _ _ => True) p.ty p.out p.bytes
  | [], acc, st, st', m, _, _, _, h, _ => by
    obtain ⟨rfl, rfl⟩ := ok_inj h
    exact ⟨[], rfl, by simp [fieldOutputs], Took.refl _, by simp⟩
  | (n, t) :: fs, acc, st, st', m, hp, hd, hs, h, hlt => by
    simp only [procFields, Res.bind_eq_ok] at h
    obtain ⟨⟨v, s1⟩, h1, h2⟩ := h
    have hs1 := hs.adv (hr _ _ _ hs.1 _ _ h1)
    have hl1 : Left s1 := (procFields_post hr _ _ _ hs1.1 _ _ h2).before hlt
    obtain ⟨sh, hsh⟩ := hp t (by simp)
    obtain ⟨b, t1, a1⟩ := ha _ _ _ _ _ hsh hs h1 hl1
    have hn : n ∉ acc.map Prod.fst := by
      rw [List.nodup_append] at hd
      intro hm
      exact hd.2.2 n hm n (by simp) rfl
    dsimp only at h2
    rw [mapSet_new v hn] at h2
    obtain ⟨ps, e1, e2, t2, a2⟩ := procFields_inv fs (acc ++ [(n, v)]) (fun t ht => hp t (by simp at ht ⊢; exact .inr ht))
      (by simpa using hd) hs1 h2 hlt
    refine ⟨⟨n, t, .nil, v, b⟩ :: ps, ?_, ?_, ?_, ?_⟩
    · simp [fieldTypes] at e1 ⊢; exact e1
    · rw [e2]; simp [fieldOutputs]
    · simpa [allBytes] using t1.trans t2
    · simpa using ⟨a1, a2⟩

end

theorem procRows_fields (rec : Rec) (ctx : Ctx) : ∀ (fs : List (Str × Str)) (acc : List (Str × Val)) (st : St),
    procRows rec ctx (fs.map fun f => [f.1, f.2]) acc st = procFields rec ctx fs acc st
  | [], acc, st => rfl
  | (n, t) :: fs, acc, st => by
    simp only [List.map_cons, procRows, procFields, procRows_fields rec ctx fs]

/-- Whatever is decoded, with data left over, belongs to the language described by `Accepts`. -/
theorem decoded_accepted {env : Env} {ctx : Ctx} {ectx : ECtx} {shape : Str → Shape Str → Prop} (hL : LenOK env ctx)
    (hs : Describes env ctx ectx shape) (hw : Whole shape) (hli : AllListed env ctx shape) : ∀ n, RecAcc shape ctx (pau env n)
  | 0 => fun _ _ _ _ _ _ _ h _ => by cases h
  | n + 1 => by
    have ih := decoded_accepted hL hs hw hli n
    have hr := pau_post env n
    intro ty sh st st' v hsh hst he hlt
    obtain ⟨hp, hT⟩ := hw ty sh hsh
    by_cases hfl : Flat sh
    · obtain ⟨b, t, hb⟩ := leaf_inv hL (hs _ _ hsh) hfl hT hst he hlt
      exact ⟨b, t, .leaf hsh hb trivial⟩
    obtain ⟨cls, s, s', hD, hE, hc⟩ | ⟨rfl, _⟩ := hs _ _ hsh
    swap
    · exact absurd trivial hfl
    rw [pau_resolves n _ hD] at he
    cases sh with
    | same el => exact hc.elim
    | seq el =>
      have he' : processVec (pau env n) ctx el st = .ok (v, st') := by
        obtain ⟨hv, _⟩ := hc
        unfold vecElem at hv
        split at hv <;> cases hv <;> exact he
      unfold processVec at he'
      simp only [Res.bind_eq_ok] at he'
      obtain ⟨⟨l, s1⟩, h1, i, h2, h3⟩ := he'
      dsimp only at h3
      split at h3
      · cases h3
      rename_i hle
      rw [Res.bind_eq_ok] at h3
      obtain ⟨⟨vs, s2⟩, h4, h5⟩ := h3
      obtain ⟨rfl, rfl⟩ := ok_inj h5
      have hs1 := hst.adv (hr _ _ _ hst.1 _ _ h1)
      have hl1 : Left s1 := (procN_post hr _ _ _ hs1.1 _ _ h4).before hlt
      obtain ⟨c, t1, hc1, rfl⟩ := len_inv hL hst h1 hl1
      cases h2
      obtain ⟨sh', hel⟩ := hp el (List.mem_singleton.mpr rfl)
      obtain ⟨ps, e1, e2, t2, a2⟩ := procN_inv hr ih hel _ hs1 h4 hlt
      refine ⟨c ++ allBytes ps, t1.trans t2, ?_⟩
      rw [← e2, ← listValue_eq]
      exact .seq ps hsh hc1 (by omega) e1 a2 trivial
    | option el =>
      obtain ⟨hne, hnb, t, rfl, e1, e2⟩ := hc
      change processOption (pau env n) ctx (effSub t s) st = _ at he
      rw [e1] at he
      unfold processOption at he
      rw [Res.bind_eq_ok] at he
      obtain ⟨⟨b, s1⟩, h1, h2⟩ := he
      dsimp only at h2
      have hs1 := nextBytes_sane hst h1
      split at h2
      · rename_i h0
        have hl1 : Left s1 := (hr _ _ _ hs1.1 _ _ h2).before hlt
        obtain ⟨x, rfl, t1⟩ := byte_inv hst h1 hl1
        obtain ⟨sh', hel⟩ := hp el (List.mem_singleton.mpr rfl)
        obtain ⟨b, t2, a2⟩ := ih _ _ _ _ _ hel hs1 h2 hlt
        exact ⟨x :: b, t1.trans t2, .some x hsh (by rintro rfl; exact h0.2 rfl) a2 trivial⟩
      · rename_i h0
        obtain ⟨rfl, rfl⟩ := ok_inj h2
        obtain ⟨x, rfl, t1⟩ := byte_inv hst h1 hlt
        have hx : x = 0 := by
          by_contra hx
          exact h0 ⟨hne, fun e => hx ((hexText_one x 0).mp e)⟩
        subst hx
        exact ⟨[0], t1, .none hsh⟩
    | struct fs =>
      have he' : processStruct (pau env n) ctx (some fs) st = .ok (v, st') := by
        rcases hc with rfl | ⟨rfl, rfl⟩ <;> exact he
      unfold processStruct at he'
      rw [Res.bind_eq_ok] at he'
      obtain ⟨⟨m, s1⟩, h1, h2⟩ := he'
      obtain ⟨rfl, rfl⟩ := ok_inj h2
      obtain ⟨ps, e1, e2, t1, a1⟩ := procFields_inv hr ih fs [] (fun t ht => hp t ht) (by rw [List.map_nil, List.nil_append]; exact hT) hst h1 hlt
      refine ⟨allBytes ps, t1, ?_⟩
      rw [← e1] at hsh
      rw [e2, List.nil_append]
      exact .struct ps hsh a1
    | enum vs =>
      obtain ⟨names, tm, rfl, hnc, hf⟩ := hc
      change processEnum env.ext (pau env n) ctx names (some tm) st = _ at he
      unfold processEnum at he
      rw [Res.bind_eq_ok] at he
      obtain ⟨⟨b, s1⟩, h1, h2⟩ := he
      dsimp only at h2
      rw [isCLike_false hnc] at h2
      simp only [Bool.false_eq_true, if_false] at h2
      have hs1 := nextBytes_sane hst h1
      split at h2
      · cases h2
      rename_i name u hu
      have hl := (List.getElem?_eq_some_iff.mp hu).1
      obtain ⟨⟨i, name', pl⟩, hv, hi⟩ := hli ty vs hsh names tm s hD _ hl
      dsimp only at hi
      obtain ⟨_, u', hti, _, hvar⟩ := hf _ hv
      dsimp only at hti hvar
      rw [hi, hu] at hti
      cases hti
      cases pl with
      | unit => exact hvar.elim
      | one t =>
        obtain ⟨rfl, hne, hrows⟩ := hvar
        rw [if_neg hne, variantRows_none env.ext hrows] at h2
        simp only [Res.bind_eq_ok] at h2
        obtain ⟨⟨w, s2⟩, h3, h4⟩ := h2
        obtain ⟨rfl, rfl⟩ := ok_inj h4
        have hl1 : Left s1 := (hr _ _ _ hs1.1 _ _ h3).before hlt
        obtain ⟨x, rfl, t1⟩ := byte_inv hst h1 hl1
        simp only [List.headD_cons] at hi
        obtain ⟨sh', hel⟩ := hp u (List.mem_flatMap.mpr ⟨_, hv, List.mem_singleton.mpr rfl⟩)
        obtain ⟨b, t2, a2⟩ := ih _ _ _ _ _ hel hs1 h3 hlt
        exact ⟨x :: b, t1.trans t2, .variant x name hsh (hi ▸ hv) a2⟩
      | fields fs =>
        obtain ⟨⟨r, hrows⟩, hlen, hne, hj⟩ := hvar
        have hvr : variantRows env.ext u = some (fs.map fun f => [f.1, f.2]) := by
          unfold variantRows
          have hpre : hasPrefix u b!"[[" = true := by rw [hrows]; simp [hasPrefix, List.isPrefixOf]
          rw [if_pos ⟨hlen, hpre⟩, hj]
          cases fs with
          | nil => exact absurd rfl hne
          | cons f fs => simp
        have hune : u ≠ [] := by intro e; rw [e] at hlen; simp at hlen
        rw [if_neg hune, hvr] at h2
        simp only [Res.bind_eq_ok] at h2
        obtain ⟨⟨m, s2⟩, h3, h4⟩ := h2
        obtain ⟨rfl, rfl⟩ := ok_inj h4
        rw [procRows_fields] at h3
        have hl1 : Left s1 := (procFields_post hr _ _ _ hs1.1 _ _ h3).before hlt
        obtain ⟨x, rfl, t1⟩ := byte_inv hst h1 hl1
        simp only [List.headD_cons] at hi
        obtain ⟨ps, e1, e2, t2, a2⟩ := procFields_inv hr ih fs []
          (fun t ht => hp t (List.mem_flatMap.mpr ⟨_, hv, ht⟩))
          (by simpa using hT _ hv fs rfl) hs1 h3 hlt
        refine ⟨x :: allBytes ps, t1.trans t2, ?_⟩
        dsimp only
        rw [e2, List.nil_append]
        refine .fields x name ps hsh ?_ a2
        rw [e1, ← hi]
        exact hv
    | array k el =>
      obtain ⟨rfl, hel⟩ := hc
      change processFixedArray (pau env n) ctx k el st = _ at he
      unfold processFixedArray at he
      by_cases hk : 0 < k
      · rw [if_pos (by omega), if_neg (fun e => hel ((equalFold_u8 el).mp e)), Res.bind_eq_ok] at he
        obtain ⟨⟨vs, s1⟩, h1, h2⟩ := he
        obtain ⟨rfl, rfl⟩ := ok_inj h2
        obtain ⟨sh', hsh'⟩ := hp el (List.mem_singleton.mpr rfl)
        obtain ⟨ps, e1, e2, t2, a2⟩ := procN_inv hr ih hsh' _ hst h1 hlt
        refine ⟨allBytes ps, t2, ?_⟩
        rw [← e2]
        exact .array ps hsh hk (by simpa using e1) a2
      · obtain rfl : k = 0 := by omega
        rw [if_neg (by decide)] at he
        unfold getNextU8 at he
        simp only [Res.bind_eq_ok] at he
        obtain ⟨⟨j, s1⟩, ⟨⟨b, s2⟩, h1, h2⟩, h3⟩ := he
        obtain ⟨rfl, rfl⟩ := ok_inj h2
        obtain ⟨rfl, rfl⟩ := ok_inj h3
        obtain ⟨x, rfl, t⟩ := byte_inv hst h1 hlt
        exact ⟨[x], t, .emptyArray x hsh trivial⟩
    | result a e =>
      obtain ⟨t, rfl, e1, e2⟩ := hc
      change processResult (pau env n) ctx (effSub t s) st = _ at he
      rw [e1] at he
      unfold processResult at he
      rw [Res.bind_eq_ok] at he
      obtain ⟨⟨b, s1⟩, h1, h2⟩ := he
      have hs1 := nextBytes_sane hst h1
      rw [splitSep_pair a e hT.1 hT.2] at h2
      dsimp only at h2
      split at h2
      · rename_i h0
        simp only [Res.bind_eq_ok] at h2
        obtain ⟨⟨w, s2⟩, h3, h4⟩ := h2
        obtain ⟨rfl, rfl⟩ := ok_inj h4
        have hl1 : Left s1 := (hr _ _ _ hs1.1 _ _ h3).before hlt
        obtain ⟨x, rfl, t1⟩ := byte_inv hst h1 hl1
        obtain rfl : x = 0 := by
          rcases h0 with h0 | h0
          · exact (hexText_one x 0).mp h0
          · exact absurd h0 (by simp [bytesToHex])
        obtain ⟨sh', hel⟩ := hp a (.head _)
        obtain ⟨b, t2, a2⟩ := ih _ _ _ _ _ hel hs1 h3 hlt
        exact ⟨0 :: b, t1.trans t2, .resultOk hsh a2⟩
      · split at h2
        swap
        · cases h2
        rename_i h0
        simp only [Res.bind_eq_ok] at h2
        obtain ⟨⟨w, s2⟩, h3, h4⟩ := h2
        obtain ⟨rfl, rfl⟩ := ok_inj h4
        have hl1 : Left s1 := (hr _ _ _ hs1.1 _ _ h3).before hlt
        obtain ⟨x, rfl, t1⟩ := byte_inv hst h1 hl1
        obtain rfl : x = 1 := (hexText_one x 1).mp h0
        obtain ⟨sh', hel⟩ := hp e (.tail _ (.head _))
        obtain ⟨b, t2, a2⟩ := ih _ _ _ _ _ hel hs1 h3 hlt
        exact ⟨1 :: b, t1.trans t2, .resultErr hsh a2⟩
    | _ => exact absurd trivial hfl

/-- Which byte strings are decoded, and to what: those of `Accepts`. -/
theorem C116_accepted (env : Env) (ctx : Ctx) (ectx : ECtx) (shape : Str → Shape Str → Prop) (hL : LenOK env ctx)
    (hs : Describes env ctx ectx shape) (hw : Whole shape) (hli : AllListed env ctx shape) (ty : Str) (sh : Shape Str) (st : St) (b : Str)
    (r : Val) (hsh : shape ty sh) (hst : SaneAt st) (h : Leaves env ctx ty st b r) : Accepts shape (fun _ _ _ => True) ty r b := by
  obtain ⟨n, st', h1, h2, rfl⟩ := h
  obtain ⟨b, t, ha⟩ := decoded_accepted hL hs hw hli n ty sh st st' r hsh hst h1 h2
  rw [t.bytes]
  exact ha

/-- The canonical bytes of a layer: the ones the SCALE specification allows. -/
def Canonical {α : Type} : Shape α → Val → Str → Prop
  | .int w, _, b => 2 ≤ w ∧ leSum b ≠ 2 ^ (8 * w - 1)
  | .bool, _, b => b = [0] ∨ b = [1]
  | .compact32, _, b => ∃ n < 2 ^ 32, Spec.IsCompact n b
  | .compact bound _, r, b => (∃ n < bound, Spec.IsCompact n b) ∧ r ≠ .dec (-1) 0
  | .bytes _, _, b => ∃ n c p, n < 2 ^ 32 ∧ Spec.IsCompact n c ∧ b = c ++ p
  | .balance, _, b => leSum b ≠ 2 ^ 128 - 1
  | .bitVec, _, b => ∃ n c p, n < 2 ^ 32 ∧ Spec.IsCompact n c ∧ b = c ++ p
  | .names cases, _, b => ∃ x : UInt8, x.toNat ∈ cases.map Prod.snd ∧ b = [x]
  | .optionBool, _, b => b = [0] ∨ b = [1] ∨ b = [2]
  | .seq _, _, b => ∃ n c p, n < 2 ^ 32 ∧ Spec.IsCompact n c ∧ b = c ++ p
  | .option _, _, b => ∃ p, b = 1 :: p
  | .array n _, _, _ => 0 < n
  | _, _, _ => True

theorem anyCompact_number {n : Nat} {c c' p p' : Str} (hc : Spec.IsCompact n c) (ha : AnyCompact c') (h : c ++ p = c' ++ p') :
    c' = c ∧ p' = p ∧ compactNumber c' = n := by
  obtain ⟨x, r, rfl, hl⟩ := ha
  obtain ⟨h1, h2⟩ := isCompact_value hc
  cases c with
  | nil => exact absurd rfl (isCompact_ne_nil hc)
  | cons y q =>
    simp only [List.cons_append, List.cons.injEq] at h
    obtain ⟨rfl, h⟩ := h
    simp only [List.headD_cons, List.length_cons] at h1
    obtain ⟨rfl, rfl⟩ := List.append_inj h (by omega)
    refine ⟨rfl, rfl, ?_⟩
    rw [compactNumber, h2, leSum_eq, leSum_eq]
    have hy : (y.toNat % 4 = 3) ↔ ¬ (y :: q).length ≤ 4 := by
      rw [List.length_cons, hl]
      unfold Spec.compactLen
      have := Nat.mod_lt y.toNat (show 4 > 0 by decide)
      split
      · omega
      · split
        · omega
        · split <;> omega
    by_cases h4 : (y :: q).length ≤ 4
    · rw [if_neg (fun e => hy.mp e h4), if_pos h4]
    · rw [if_pos (hy.mpr h4), if_neg h4, List.drop_one, List.tail_cons]

theorem compactInt_small {c : Str} {n : Nat} (h : compactNumber c = n) (hn : n < 2 ^ 63) : compactInt c = n := by
  unfold compactInt Spec.twos
  rw [h, Nat.mod_eq_of_lt (by omega), if_pos (by omega)]

/-- Canonical bytes of types without parts are SCALE. -/
theorem loose_leaf {α : Type} {sh : Shape α} {r : Val} {b : Str} (h : Loose sh r b) (hc : Canonical sh r b) : ∃ v, Leaf sh v r b := by
  cases sh with
  | uint w =>
    obtain ⟨rfl, rfl⟩ := h
    exact ⟨.int (leSum b), leSum b, leSum_lt b, rfl, rfl, rfl, (leBytes_leSum b).symm⟩
  | u128 =>
    obtain ⟨hl, s, hs, rfl⟩ := h
    exact ⟨.str s, leSum b, s, by have := leSum_lt b; rwa [hl] at this, ⟨_, rfl, hs⟩, hs, rfl, by rw [← hl]; exact (leBytes_leSum b).symm⟩
  | u256 =>
    obtain ⟨hl, rfl⟩ := h
    exact ⟨.big (leSum b), leSum b, by have := leSum_lt b; rwa [hl] at this, .inr ⟨_, rfl⟩, rfl, rfl, by
      rw [← hl]; exact (leBytes_leSum b).symm⟩
  | int w =>
    obtain ⟨rfl, rfl⟩ := h
    obtain ⟨h2, hne⟩ := hc
    have hlt := leSum_lt b
    rw [if_neg (by omega)]
    have hp : (2 : Nat) ^ (8 * b.length) = 2 * 2 ^ (8 * b.length - 1) := by
      rw [← Nat.pow_succ']; congr 1; omega
    have hp' : (2 : Int) ^ (8 * b.length) = 2 * 2 ^ (8 * b.length - 1) := by exact_mod_cast hp
    have hpos := Nat.two_pow_pos (8 * b.length - 1)
    have hx : ∃ q : Nat, 2 ^ (8 * b.length - 1) = q := ⟨_, rfl⟩
    obtain ⟨q, hq⟩ := hx
    have hq' : (2 : Int) ^ (8 * b.length - 1) = (q : Int) := by rw [← hq]; push_cast; rfl
    rw [hq] at hp hne hpos ⊢
    rw [hq'] at hp'
    refine ⟨.sint b.length (if leSum b ≤ q then leSum b else (leSum b : Int) - 2 ^ (8 * b.length)),
      (if leSum b ≤ q then leSum b else (leSum b : Int) - 2 ^ (8 * b.length)), b.length, ?_, rfl, ?_, rfl, ?_⟩
    · unfold Spec.SignedRange
      rw [hq', hp']
      split <;> constructor <;> omega
    · unfold GoRange
      dsimp only
      rw [hq', hp']
      split <;> constructor <;> omega
    · unfold Spec.signedBytes
      have e : ((if leSum b ≤ q then (leSum b : Int) else (leSum b : Int) - 2 ^ (8 * b.length)) % 2 ^ (8 * b.length)).toNat = leSum b := by
        rw [hp']
        split
        · rw [Int.emod_eq_of_lt (by omega) (by omega)]; omega
        · rw [Int.sub_emod_right, Int.emod_eq_of_lt (by omega) (by omega)]; omega
      rw [e]
      exact (leBytes_leSum b).symm
  | bool =>
    obtain ⟨x, rfl, rfl⟩ := h
    rcases hc with hc | hc <;> cases hc
    · exact ⟨.bool false, false, rfl, rfl, rfl⟩
    · exact ⟨.bool true, true, rfl, rfl, rfl⟩
  | null => exact ⟨.nil, h⟩
  | unit => exact ⟨.nil, h⟩
  | compact32 =>
    obtain ⟨ha, rfl⟩ := h
    obtain ⟨n, hn, hc⟩ := hc
    have := anyCompact_number (p := []) (p' := []) hc ha rfl
    rw [compactInt_small this.2.2 (by omega)]
    exact ⟨.int n, n, hn, rfl, rfl, rfl, hc⟩
  | compact bound decimal =>
    obtain ⟨ha, hr⟩ := h
    obtain ⟨⟨n, hn, hc⟩, hm⟩ := hc
    obtain ⟨_, _, hnum⟩ := anyCompact_number (p := []) (p' := []) hc ha rfl
    rw [hnum, Nat.mod_eq_of_lt hn] at hr
    rcases hr with rfl | ⟨_, _, rfl⟩
    · exact ⟨.int n, n, hn, rfl, rfl, hc⟩
    · exact absurd rfl hm
  | bytes kind =>
    obtain ⟨c, p, ha, hp, rfl, rfl⟩ := h
    obtain ⟨n, c', p', hn, hc, he⟩ := hc
    obtain ⟨rfl, rfl, hnum⟩ := anyCompact_number hc ha he.symm
    rw [compactInt_small hnum (by omega)] at hp
    obtain rfl : n = p.length := by omega
    exact ⟨_, c, p, hn, hc, rfl, rfl, rfl⟩
  | hash n => exact ⟨r, h.1, h.2, rfl⟩
  | account => exact ⟨r, h.1, h.2, rfl⟩
  | balance =>
    obtain ⟨hl, rfl⟩ := h
    have hc' : leSum b ≠ 2 ^ 128 - 1 := hc
    rw [if_neg hc']
    exact ⟨.big (leSum b), leSum b, by have := leSum_lt b; rwa [hl] at this, rfl, rfl, by rw [← hl]; exact (leBytes_leSum b).symm⟩
  | era => exact ⟨r, h.1, h.2, rfl⟩
  | byteArray n => exact ⟨r, h.1, h.2, rfl⟩
  | bitVec =>
    obtain ⟨c, p, ha, h1, h2, rfl, rfl⟩ := h
    obtain ⟨n, c', p', hn, hc, he⟩ := hc
    obtain ⟨rfl, rfl, hnum⟩ := anyCompact_number hc ha he.symm
    rw [compactInt_small hnum (by omega)] at h1 h2
    exact ⟨_, n, c, p, hn, by omega, hc, rfl, rfl, rfl⟩
  | names cases =>
    obtain ⟨x, rfl, h⟩ := h
    obtain ⟨y, hy, he⟩ := hc
    cases he
    rcases h with ⟨name, hm, rfl⟩ | ⟨hno, rfl⟩
    · exact ⟨.str name, name, x.toNat, hm, rfl, rfl, by simp⟩
    · exact absurd hy hno
  | optionBool =>
    obtain ⟨x, rfl, rfl⟩ := h
    rcases hc with hc | hc | hc <;> cases hc
    · exact ⟨.nil, .inl ⟨rfl, rfl, rfl⟩⟩
    · exact ⟨.bool true, .inr ⟨true, rfl, rfl, rfl⟩⟩
    · exact ⟨.bool false, .inr ⟨false, rfl, rfl, rfl⟩⟩
  | _ => exact h.elim

/-- Inputs for the parts. -/
theorem fill {α : Type} {Q : α → Val → Val → Str → Prop} : ∀ ps : List (Part α), (∀ p ∈ ps, ∃ v, Q p.ty v p.out p.bytes) →
    ∃ qs : List (Part α), fieldTypes qs = fieldTypes ps ∧ fieldOutputs qs = fieldOutputs ps ∧ outputs qs = outputs ps ∧
      allBytes qs = allBytes ps ∧ qs.length = ps.length ∧ ∀ q ∈ qs, q.ty ∈ ps.map (·.ty) ∧ Q q.ty q.inp q.out q.bytes
  | [], _ => ⟨[], rfl, rfl, rfl, rfl, rfl, by simp⟩
  | p :: ps, h => by
    obtain ⟨qs, e1, e2, e3, e4, e5, e6⟩ := fill ps fun q hq => h q (by simp [hq])
    obtain ⟨v, hv⟩ := h p (by simp)
    refine ⟨⟨p.name, p.ty, v, p.out, p.bytes⟩ :: qs, ?_, ?_, ?_, ?_, by simp [e5], ?_⟩
    · simp only [fieldTypes, List.map_cons] at e1 ⊢; rw [e1]
    · simp only [fieldOutputs, List.map_cons] at e2 ⊢; rw [e2]
    · simp only [outputs, List.map_cons] at e3 ⊢; rw [e3]
    · simp only [allBytes, List.map_cons, List.flatten_cons] at e4 ⊢; rw [e4]
    · intro q hq
      rcases List.mem_cons.mp hq with rfl | hq
      · exact ⟨by simp, hv⟩
      · obtain ⟨a, b⟩ := e6 q hq
        exact ⟨by simp at a ⊢; exact .inr a, b⟩

theorem names_of {α : Type} {ps : List (Part α)} : ps.map (·.name) = (fieldTypes ps).map Prod.fst := by
  simp [fieldTypes, Function.comp_def]

/-- If every layer of what was accepted is canonical, it is SCALE. -/
theorem C116_canonical (shape : Str → Shape Str → Prop) (hw : Whole shape) (ty : Str) (r : Val) (b : Str)
    (h : Accepts shape Canonical ty r b) : ∃ v, Scale shape (fun _ _ _ _ => True) ty v r b := by
  induction h with
  | leaf hsh hl hc =>
    obtain ⟨v, hv⟩ := loose_leaf hl hc
    exact ⟨v, .leaf hsh hv trivial⟩
  | @seq ty el c ps hsh ha hle hlen _ hc ih =>
    obtain ⟨n, c', p', hn, hc, he⟩ := hc
    obtain ⟨rfl, _, hnum⟩ := anyCompact_number hc ha he.symm
    rw [compactInt_small hnum (by omega)] at hlen
    obtain ⟨qs, e1, e2, e3, e4, e5, e6⟩ := fill (Q := fun _ v r b => Scale shape (fun _ _ _ _ => True) el v r b) ps ih
    rw [← e3, ← e4]
    have e : qs.length = n := by omega
    exact ⟨_, .seq qs hsh (by omega) (by rw [e]; exact hc) (fun q hq => (e6 q hq).2) trivial⟩
  | none hsh => exact ⟨_, .none hsh⟩
  | some x hsh hx _ hc ih =>
    obtain ⟨v, hv⟩ := ih
    obtain ⟨p, hp⟩ := hc
    cases hp
    exact ⟨v, .some hsh hv trivial⟩
  | struct ps hsh _ ih =>
    obtain ⟨qs, e1, e2, e3, e4, e5, e6⟩ := fill (Q := Scale shape (fun _ _ _ _ => True)) ps ih
    have hT : ((fieldTypes ps).map Prod.fst).Nodup := (hw _ _ hsh).2
    rw [← e1] at hT hsh
    rw [← names_of] at hT
    rw [← e2, ← e4]
    exact ⟨.map (qs.map fun q => (q.name, q.inp)), .struct qs hsh hT (by simpa [Function.comp_def] using hT)
      (fun q hq => List.mem_map.mpr ⟨q, hq, rfl⟩) (fun q hq => (e6 q hq).2)⟩
  | variant x name hsh hv _ ih =>
    obtain ⟨v, hv'⟩ := ih
    have := Scale.variant x.toNat name hsh hv hv'
    rw [UInt8.ofNat_toNat] at this
    exact ⟨_, this⟩
  | fields x name ps hsh hv _ ih =>
    obtain ⟨qs, e1, e2, e3, e4, e5, e6⟩ := fill (Q := Scale shape (fun _ _ _ _ => True)) ps ih
    have hT : ((fieldTypes ps).map Prod.fst).Nodup := (hw _ _ hsh).2 _ hv _ rfl
    rw [← e1] at hT hv
    rw [← names_of] at hT
    rw [← e2, ← e4]
    have := Scale.fields (m := qs.map fun q => (q.name, q.inp)) x.toNat name qs hsh hv hT (by simpa [Function.comp_def] using hT)
      (fun q hq => List.mem_map.mpr ⟨q, hq, rfl⟩) (fun q hq => (e6 q hq).2)
    rw [UInt8.ofNat_toNat] at this
    exact ⟨_, this⟩
  | @array ty n el ps hsh _ hlen _ ih =>
    obtain ⟨qs, e1, e2, e3, e4, e5, e6⟩ := fill (Q := fun _ v r b => Scale shape (fun _ _ _ _ => True) el v r b) ps ih
    rw [← e3, ← e4]
    exact ⟨_, .array qs hsh (by omega) (fun q hq => (e6 q hq).2) trivial⟩
  | emptyArray x hsh hc => exact absurd hc (by simp [Canonical])
  | resultOk hsh _ ih =>
    obtain ⟨v, hv⟩ := ih
    exact ⟨_, .resultOk hsh hv trivial⟩
  | resultErr hsh _ ih =>
    obtain ⟨v, hv⟩ := ih
    exact ⟨_, .resultErr hsh hv trivial⟩

theorem Accepts_imp {α : Type} {shape : α → Shape α → Prop} {ok ok' : Shape α → Val → Str → Prop}
    (himp : ∀ ty sh r b, shape ty sh → ok sh r b → ok' sh r b) {ty : α} {r : Val} {b : Str} (h : Accepts shape ok ty r b) :
    Accepts shape ok' ty r b := by
  induction h with
  | leaf hsh hl hc => exact .leaf hsh hl (himp _ _ _ _ hsh hc)
  | seq ps hsh ha hle hlen _ hc ih => exact .seq ps hsh ha hle hlen ih (himp _ _ _ _ hsh hc)
  | none hsh => exact .none hsh
  | some x hsh hx _ hc ih => exact .some x hsh hx ih (himp _ _ _ _ hsh hc)
  | struct ps hsh _ ih => exact .struct ps hsh ih
  | variant x name hsh hv _ ih => exact .variant x name hsh hv ih
  | fields x name ps hsh hv _ ih => exact .fields x name ps hsh hv ih
  | array ps hsh h0 hlen _ ih => exact .array ps hsh h0 hlen ih
  | emptyArray x hsh hc => exact .emptyArray x hsh (himp _ _ _ _ hsh hc)
  | resultOk hsh _ ih => exact .resultOk hsh ih
  | resultErr hsh _ ih => exact .resultErr hsh ih

/-- Layers whose bytes are always canonical when they are accepted. -/
def Firm {α : Type} : Shape α → Prop
  | .int _ | .bool | .compact32 | .compact _ _ | .bytes _ | .balance | .bitVec | .names _ | .optionBool | .seq _ | .option _ => False
  | .array n _ => 0 < n
  | _ => True

theorem firm_canonical {α : Type} {sh : Shape α} (h : Firm sh) (r : Val) (b : Str) : Canonical sh r b := by
  cases sh <;> first | exact h.elim | exact h

/-- The claim holds for types built from unsigned integers, hashes, accounts, eras, fixed byte arrays, structs, tuples, enums
with data, non-empty arrays and results. Missing: booleans, lengths and compact numbers, options, signed integers, balances, enums
of names, empty arrays, all of which have byte strings that are decoded although no value has them as its encoding. -/
theorem C116_partial (env : Env) (ctx : Ctx) (ectx : ECtx) (shape : Str → Shape Str → Prop) (hL : LenOK env ctx)
    (hs : Describes env ctx ectx shape) (hw : Whole shape) (hli : AllListed env ctx shape) (hf : ∀ ty sh, shape ty sh → Firm sh)
    (ty : Str) (sh : Shape Str) (st : St) (b : Str) (r : Val) (hsh : shape ty sh) (hst : SaneAt st) (h : Leaves env ctx ty st b r) :
    ∃ v, Scale shape (fun _ _ _ _ => True) ty v r b :=
  C116_canonical shape hw ty r b (Accepts_imp (shape := shape) (ok' := Canonical) (fun ty sh r b hsh _ => firm_canonical (hf ty sh hsh) r b)
    (C116_accepted env ctx ectx shape hL hs hw hli ty sh st b r hsh hst h))

/-- The full claim is false: the byte 02 is decoded as the boolean `false`. -/
theorem C116_claim_false : ¬ C116Claim := by
  intro hc
  have hs : Describes (baseEnv dummyExt) ⟨[], 0, none⟩ ECtx.none (tableShape [(b!"bool", .bool)]) := by
    refine describes_table fun p hp => ?_
    simp only [List.mem_cons, List.not_mem_nil, or_false] at hp
    subst hp
    exact .inl ⟨.bool, [], [], by unfold Resolves; kernel_rfl, ⟨by unfold Resolves; kernel_rfl, by decide⟩, rfl⟩
  have hw : Whole (tableShape [(b!"bool", .bool)]) := by
    intro ty sh h
    simp only [tableShape, List.mem_cons, List.not_mem_nil, or_false, Prod.mk.injEq] at h
    obtain ⟨rfl, rfl⟩ := h
    exact ⟨fun t ht => (List.not_mem_nil ht).elim, trivial⟩
  obtain ⟨v, h⟩ := hc (baseEnv dummyExt) ⟨[], 0, none⟩ ECtx.none _ ⟨[], by unfold Resolves; kernel_rfl⟩ hs hw
    (fun ty vs h => by simp [tableShape] at h) b!"bool" .bool ⟨⟨[2, 0], 0⟩, []⟩ [2] (.bool false) (by simp [tableShape])
    ⟨show _ ≤ _ by decide, by decide⟩ ⟨2, ⟨⟨[2, 0], 1⟩, []⟩, by kernel_rfl, by decide, by decide⟩
  have key : ∀ ty v r b, Scale (tableShape [(b!"bool", .bool)]) (fun _ _ _ _ => True) ty v r b → ∃ x : Bool, b = [if x then 1 else 0] := by
    intro ty v r b h
    cases h with
    | leaf hsh hl _ =>
      simp only [tableShape, List.mem_cons, List.not_mem_nil, or_false, Prod.mk.injEq] at hsh
      obtain ⟨_, rfl⟩ := hsh
      obtain ⟨x, _, _, hb⟩ := hl
      exact ⟨x, hb⟩
    | same hsh => simp [tableShape] at hsh
    | seq _ hsh => simp [tableShape] at hsh
    | none hsh => simp [tableShape] at hsh
    | some hsh => simp [tableShape] at hsh
    | struct _ hsh => simp [tableShape] at hsh
    | unitVariant _ _ hsh => simp [tableShape] at hsh
    | variant _ _ hsh => simp [tableShape] at hsh
    | fields _ _ _ hsh => simp [tableShape] at hsh
    | array _ hsh => simp [tableShape] at hsh
    | resultOk hsh => simp [tableShape] at hsh
    | resultErr hsh => simp [tableShape] at hsh
  obtain ⟨x, hb⟩ := key _ _ _ _ h
  cases x <;> exact absurd hb (by decide)

theorem tree_whole : Whole treeShape := by
  intro ty sh h
  simp only [treeShape, tableShape, List.mem_cons, List.not_mem_nil, or_false, Prod.mk.injEq] at h
  rcases h with ⟨rfl, rfl⟩ | ⟨rfl, rfl⟩ | ⟨rfl, rfl⟩
  · refine ⟨fun t ht => ?_, show List.Nodup _ by decide⟩
    rcases (show t = b!"u16" ∨ t = b!"Vec<Tree>" from by simpa [_root_.Spec.partsOf] using ht) with rfl | rfl
    · exact ⟨.uint 2, by simp [treeShape, tableShape]⟩
    · exact ⟨.seq b!"Tree", by simp [treeShape, tableShape]⟩
  · refine ⟨fun t ht => ?_, trivial⟩
    obtain rfl : t = b!"Tree" := by simpa [_root_.Spec.partsOf] using ht
    exact ⟨.struct [(b!"v", b!"u16"), (b!"kids", b!"Vec<Tree>")], by simp [treeShape, tableShape]⟩
  · exact ⟨fun t ht => (List.not_mem_nil ht).elim, trivial⟩

/-- The hypotheses of `C116_accepted` are met by a tree whose list of children has its length 0 written in two bytes. -/
example : Accepts treeShape (fun _ _ _ => True) b!"Tree" (leafOut 7) [7, 0, 1, 0] :=
  C116_accepted (treeEnv dummyExt) ⟨[], 0, none⟩ ECtx.none treeShape ⟨[], by unfold Resolves; kernel_rfl⟩ (tree_describes dummyExt) tree_whole
    (fun ty vs h => by simp [treeShape, tableShape] at h) b!"Tree" _ ⟨⟨[7, 0, 1, 0, 9], 0⟩, []⟩ [7, 0, 1, 0] (leafOut 7)
    (by simp only [treeShape, tableShape]; exact List.mem_cons_self) ⟨show _ ≤ _ by decide, by decide⟩
    ⟨6, ⟨⟨[7, 0, 1, 0, 9], 4⟩, []⟩, by kernel_rfl, by decide, by decide⟩

/-- With the length in one byte it is canonical. -/
example : ∃ v, Scale treeShape (fun _ _ _ _ => True) b!"Tree" v (leafOut 7) [7, 0, 0] := by
  refine C116_canonical treeShape tree_whole _ _ _ ?_
  refine Accepts.struct (shape := treeShape) (ok := Canonical) (ty := b!"Tree")
    [⟨b!"v", b!"u16", .nil, .uint 2 7, [7, 0]⟩, ⟨b!"kids", b!"Vec<Tree>", .nil, .nilSlice, [0]⟩]
    (by simp [tableShape, treeShape, fieldTypes]) ?_
  intro p hp
  simp only [List.mem_cons, List.not_mem_nil, or_false] at hp
  rcases hp with rfl | rfl
  · exact .leaf (sh := .uint 2) (by simp [tableShape, treeShape]) ⟨rfl, rfl⟩ trivial
  · exact Accepts.seq (el := b!"Tree") (c := [0]) [] (by simp [tableShape, treeShape]) ⟨0, [], rfl, by decide⟩ (by decide) (by decide) (by simp)
      ⟨0, [0], [], by decide, .inl ⟨by decide, by decide⟩, rfl⟩

def pointEnv : Env := addTypes (baseEnv dummyExt) [(b!"point", .struct (some [(b!"x", b!"u16"), (b!"y", b!"u8")]))]

def pointShape : Str → Shape Str → Prop :=
  tableShape [(b!"Point", .struct [(b!"x", b!"u16"), (b!"y", b!"u8")]), (b!"u16", .uint 2), (b!"u8", .uint 1)]

theorem point_describes : Describes pointEnv ⟨[], 0, none⟩ ECtx.none pointShape := by
  refine describes_table fun p hp => ?_
  simp only [List.mem_cons, List.not_mem_nil, or_false] at hp
  rcases hp with rfl | rfl | rfl
  · exact .inl ⟨_, [], [], by unfold Resolves; kernel_rfl, ⟨by unfold Resolves; kernel_rfl, by decide⟩, .inl rfl⟩
  · exact .inl ⟨.u16, [], [], by unfold Resolves; kernel_rfl, ⟨by unfold Resolves; kernel_rfl, by decide⟩, by decide, by rfl⟩
  · exact .inl ⟨.u8, [], [], by unfold Resolves; kernel_rfl, ⟨by unfold Resolves; kernel_rfl, by decide⟩, by decide, by rfl⟩

theorem point_whole : Whole pointShape := by
  intro ty sh h
  simp only [pointShape, tableShape, List.mem_cons, List.not_mem_nil, or_false, Prod.mk.injEq] at h
  rcases h with ⟨rfl, rfl⟩ | ⟨rfl, rfl⟩ | ⟨rfl, rfl⟩
  · refine ⟨fun t ht => ?_, show List.Nodup _ by decide⟩
    rcases (show t = b!"u16" ∨ t = b!"u8" from by simpa [_root_.Spec.partsOf] using ht) with rfl | rfl
    · exact ⟨.uint 2, by simp [pointShape, tableShape]⟩
    · exact ⟨.uint 1, by simp [pointShape, tableShape]⟩
  · exact ⟨fun t ht => (List.not_mem_nil ht).elim, trivial⟩
  · exact ⟨fun t ht => (List.not_mem_nil ht).elim, trivial⟩

/-- The hypotheses of `C116_partial` are met by a struct of two integers. -/
example : ∃ v, Scale pointShape (fun _ _ _ _ => True) b!"Point" v (.map [(b!"x", .uint 2 513), (b!"y", .int 3)]) [1, 2, 3] :=
  C116_partial pointEnv ⟨[], 0, none⟩ ECtx.none pointShape ⟨[], by unfold Resolves; kernel_rfl⟩ point_describes point_whole
    (fun ty vs h => by simp [pointShape, tableShape] at h)
    (fun ty sh h => by
      simp only [pointShape, tableShape, List.mem_cons, List.not_mem_nil, or_false, Prod.mk.injEq] at h
      rcases h with ⟨_, rfl⟩ | ⟨_, rfl⟩ | ⟨_, rfl⟩ <;> trivial)
    b!"Point" (.struct [(b!"x", b!"u16"), (b!"y", b!"u8")]) ⟨⟨[1, 2, 3, 4], 0⟩, []⟩ [1, 2, 3] _ (by simp [pointShape, tableShape])
    ⟨show _ ≤ _ by decide, by decide⟩ ⟨6, ⟨⟨[1, 2, 3, 4], 3⟩, []⟩, by kernel_rfl, by decide, by decide⟩

end ScaleGo
