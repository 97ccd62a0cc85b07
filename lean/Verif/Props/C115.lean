import Verif.Props.C11
import Verif.Props.C12
import Verif.Lemmas.Json
import Verif.Lemmas.ExtrinsicInv
import Verif.Lemmas.KernelRfl
import Verif.Lemmas.Comp
import Verif.Model.Base

/-! # C115: decoded values survive being stored as JSON

`GenericExtrinsic` carries JSON names and `ToMap` writes and reads it, so decoded values are stored as JSON and encoded again later.  What
comes back of a value (`jsonBack`) is encoded to the same bytes, in every part of nested values, as long as texts are UTF-8 and numbers
below 2^53.  The full claim is false of the code: U256 comes back as text, of which the encoder takes the characters; signed
integers below 128 bits, which it refuses as they are, come back as doubles, of which it takes the bits; larger numbers lose digits. -/

namespace ScaleGo

/-- The full claim: what was decoded from `b` and is encoded to `b` is still encoded to `b` after it was stored as JSON. -/
def C115Claim : Prop :=
  ∀ (env : Env) (ctx : Ctx) (ectx : ECtx) (ty b : Str) (v w : Val) (ic : List Str), ExactFloats env.ext → cleanVal v = true →
    Decodes env ctx ty b v ic → Encodes env ectx ty v b → jsonBack v = some w → Encodes env ectx ty w b

/-- Values in the Go types of the decoder, with numbers below 2^53: before and after JSON the bytes are the same. -/
theorem C115_partial (env : Env) (ctx : ECtx) (ty b : Str) (v w : Val) (hx : ExactFloats env.ext) (hc : cleanVal v = true)
    (he : EncodesOut env ctx ty v b) (hb : jsonBack v = some w) : Encodes env ctx ty v b ∧ Encodes env ctx ty w b := by
  obtain ⟨N, he⟩ := he
  exact ⟨⟨N, fun n hn => (encOut_le env n ctx ty v).ok (he n hn)⟩, ⟨N, fun n hn => (encOut_follows hx n).back hc hb (he n hn)⟩⟩

/-- The classes whose values are handed out in the same Go type whatever the bytes. -/
def AlwaysOut (cls : Cls) : Prop :=
  cls = .u8 ∨ cls = .u16 ∨ cls = .u32 ∨ cls = .u128 ∨ cls = .balance

theorem readInto_lt (w : Nat) (b : Str) : leNat (readInto w b) < 2 ^ (8 * w) := by
  have h := leNat_lt (readInto w b)
  have hl : (readInto w b).length = w := by simp [readInto]; omega
  rw [hl, show (256 : Nat) = 2 ^ 8 by rfl, ← Nat.pow_mul] at h
  exact h

/-- Whatever the decoder returns for these classes is covered; for U64 and moments if it is below 2^53, and for 128-bit signed integers if
they are. -/
theorem C115_handed_out (env : Env) (ctx : Ctx) (ty sub : Str) (cls : Cls) (n : Nat) (st st' : St) (v : Val)
    (h : Resolves env ctx.module ctx.spec ty cls sub) (hd : pau env n ctx ty st = .ok (v, st')) :
    (AlwaysOut cls → handedOut cls v = true) ∧
    ((cls = .u64 ∨ cls = .moment) → ∃ k, v = .uint 8 k ∧ (k < 2 ^ 53 → handedOut cls v = true)) ∧
    (∀ w, cls = .intFixed w → ∃ i, v = .big i ∧ (16 ≤ w → i.natAbs < 2 ^ 53 → handedOut cls v = true)) := by
  obtain ⟨n, rfl⟩ : ∃ k, n = k + 1 := ⟨n - 1, by cases n <;> first | omega | cases hd⟩
  rw [pau_resolves n st h] at hd
  have hu : ∀ {w : Nat}, processUint w st = .ok (v, st') → ∃ b, v = .uint w (leNat (readInto w b)) := by
    intro w hd
    unfold processUint at hd
    rw [Res.bind_eq_ok] at hd
    obtain ⟨⟨b, s⟩, _, hd⟩ := hd
    cases hd
    exact ⟨b, rfl⟩
  refine ⟨?_, ?_, ?_⟩
  · rintro (rfl | rfl | rfl | rfl | rfl)
    · simp only [process, processU8, getNextU8] at hd
      rw [Res.bind_eq_ok] at hd
      obtain ⟨⟨k, s⟩, h1, hd⟩ := hd
      rw [Res.bind_eq_ok] at h1
      obtain ⟨⟨b, s2⟩, _, h1⟩ := h1
      cases h1
      cases hd
      have := (b.headD 0).toNat_lt
      simp only [handedOut, decide_eq_true_eq]
      omega
    · obtain ⟨b, rfl⟩ := hu hd
      have := readInto_lt 2 b
      simpa [handedOut] using this
    · obtain ⟨b, rfl⟩ := hu hd
      have := readInto_lt 4 b
      simpa [handedOut] using this
    · simp only [process, processU128] at hd
      rw [Res.bind_eq_ok] at hd
      obtain ⟨⟨b, s⟩, _, hd⟩ := hd
      rw [Res.bind_eq_ok] at hd
      obtain ⟨u, _, hd⟩ := hd
      rw [Res.bind_eq_ok] at hd
      obtain ⟨t, _, hd⟩ := hd
      cases hd
      rfl
    · simp only [process, processBalance] at hd
      rw [Res.bind_eq_ok] at hd
      obtain ⟨⟨b, s⟩, _, hd⟩ := hd
      simp only at hd
      split at hd
      · cases hd
        rfl
      · rw [Res.bind_eq_ok] at hd
        obtain ⟨u, _, hd⟩ := hd
        cases hd
        rfl
  · rintro (rfl | rfl)
    · obtain ⟨b, rfl⟩ := hu hd
      exact ⟨_, rfl, fun hk => by simpa [handedOut] using hk⟩
    · simp only [process, processMoment] at hd
      rw [Res.bind_eq_ok] at hd
      obtain ⟨⟨b, s⟩, _, hd⟩ := hd
      cases hd
      exact ⟨_, rfl, fun hk => by simpa [handedOut] using hk⟩
  · rintro w rfl
    simp only [process, processIntFixed] at hd
    rw [Res.bind_eq_ok] at hd
    obtain ⟨⟨b, s⟩, _, hd⟩ := hd
    simp only at hd
    split at hd
    · cases hd
    · split at hd
      · cases hd
        exact ⟨_, rfl, fun h1 h2 => by simp only [handedOut, decide_eq_true_eq]; exact ⟨h1, h2⟩⟩
      · cases hd
        exact ⟨_, rfl, fun h1 h2 => by simp only [handedOut, decide_eq_true_eq]; exact ⟨h1, h2⟩⟩

/-! ## Where it goes wrong -/

theorem leNat_ge : ∀ (s : Str), s ≠ [] → (∀ c ∈ s, 1 ≤ c.toNat) → 256 ^ (s.length - 1) ≤ leNat s
  | [], h, _ => absurd rfl h
  | [c], _, hc => by
    have := hc c (by simp)
    simp [leNat]
    omega
  | c :: d :: s, _, hc => by
    have := leNat_ge (d :: s) (by simp) (fun x hx => hc x (by simp [hx]))
    rw [leNat]
    simp only [List.length_cons, Nat.add_sub_cancel] at this ⊢
    rw [Nat.pow_succ]
    omega

theorem digitsFold_lt : ∀ (s : Str) (acc : Nat), (∀ c ∈ s, 48 ≤ c.toNat ∧ c.toNat ≤ 57) →
    s.foldl (fun acc c => acc * 10 + (c.toNat - 48)) acc < (acc + 1) * 10 ^ s.length
  | [], acc, _ => by simp
  | c :: s, acc, h => by
    rw [List.foldl_cons]
    have h1 := digitsFold_lt s (acc * 10 + (c.toNat - 48)) (fun x hx => h x (by simp [hx]))
    have h2 := h c (by simp)
    refine Nat.lt_of_lt_of_le h1 ?_
    rw [List.length_cons, Nat.pow_succ', ← Nat.mul_assoc]
    exact Nat.mul_le_mul_right _ (by omega)

theorem digitsValue_lt (s : Str) (h : ∀ c ∈ s, 48 ≤ c.toNat ∧ c.toNat ≤ 57) : Spec.digitsValue s < 10 ^ s.length := by
  have := digitsFold_lt s 0 h
  simpa [Spec.digitsValue] using this

/-- U256: the characters of the digits are written. -/
theorem C115_u256_wrong (env : Env) (ctx : ECtx) (ty sub : Str) (n : Nat) (hn : n < 2 ^ 256) (h : EncResolves env ctx ty .u256 sub) :
    ∃ s, Spec.IsNumeral s n ∧ jsonBack (.dec n 0) = some (.str s) ∧ Encodes env ctx ty (.str s) s ∧ ¬ Encodes env ctx ty (.str s) (Spec.leBytes 32 n) := by
  have hnum := natToDec_isNumeral n
  have hx : ¬ b!"0x" <+: natToDec n := by
    rintro ⟨t, ht⟩
    have := hnum.2.1 120 (by rw [← ht]; simp)
    simp at this
  have he := (C11_encode_text env ctx ty sub h).2 _ hx
  refine ⟨natToDec n, hnum, ?_, he, fun hbad => ?_⟩
  · show some (Val.str (decimalText n 0)) = _
    have : decimalText n 0 = natToDec n := by
      simp only [decimalText, intToDec]
      simp
    rw [this]
  · have hu := encodes_unique he hbad
    have hl : (natToDec n).length = 32 := by rw [hu, leBytes_length]
    have h1 := leNat_ge (natToDec n) (natToDec_ne_nil n) (fun c hc => by have := (hnum.2.1 c hc).1; omega)
    have h2 : leNat (natToDec n) = n := by
      rw [hu, ← lePut_eq_spec]
      exact leNat_lePut_of_lt (by rw [show (256 : Nat) = 2 ^ 8 by rfl, ← Nat.pow_mul]; exact hn)
    have h3 := digitsValue_lt (natToDec n) hnum.2.1
    rw [hnum.2.2.2, hl] at h3
    rw [h2, hl] at h1
    have : (10 : Nat) ^ 32 < 256 ^ (32 - 1) := by decide
    omega

/-- Signed integers below 128 bits: refused as decoded; after JSON the first bytes of a double are written. -/
theorem C115_signed_wrong (env : Env) (ctx : ECtx) (ty sub : Str) (w : Nat) (i : Int) (hw : w < 16) (h : EncResolves env ctx ty (.intFixed w) sub) :
    EncodeRefuses env ctx ty (.big i) ∧ ∃ b, jsonBack (.big i) = some (.float 8 b) ∧
      Encodes env ctx ty (.float 8 b) ((Spec.leBytes 8 b ++ List.replicate (w - 8) 0).take w) ∧ (i.natAbs < 2 ^ 53 → Spec.IsDouble b i) := by
  refine ⟨encodeRefuses_of_cls h fun r => ?_, floatBits i, rfl, encodes_of_cls h fun r => ?_, floatBits_exact⟩
  · show encodeIntFixed env.ext w _ = _
    simp only [argOf, encodeIntFixed, binaryWrite]
    rw [if_pos (by omega)]
  · show encodeIntFixed env.ext w _ = _
    simp only [argOf, encodeIntFixed, binaryWrite]
    rw [if_pos (by omega), if_neg (by omega), Int.toNat_natCast, lePut_eq_spec]
    congr 2
    simp [readInto, leBytes_length, List.take_append]

theorem floatBits_down {m k : Nat} (hl : m.log2 = k) (hk : 52 < k)
    (h : 2 * (m % 2 ^ (k - 52)) < 2 ^ (k - 52) ∨ (2 * (m % 2 ^ (k - 52)) = 2 ^ (k - 52) ∧ m / 2 ^ (k - 52) % 2 = 0)) :
    floatBits (m : Int) = (k + 1022) * 2 ^ 52 + m / 2 ^ (k - 52) := by
  have hm : m ≠ 0 := by rintro rfl; simp at hl; omega
  have hn : ¬ ((m : Int) < 0) := by omega
  have hk' : ¬ k ≤ 52 := by omega
  unfold floatBits
  simp only [Int.natAbs_natCast, hl, hm, hn, hk', if_false, if_pos h]
  omega

theorem lePut_zeros : ∀ (w n : Nat), 256 ^ w ∣ n → lePut w n = List.replicate w 0
  | 0, _, _ => rfl
  | w + 1, n, h => by
    obtain ⟨k, rfl⟩ := h
    have e : 256 ^ (w + 1) * k = 256 * (256 ^ w * k) := by rw [Nat.pow_succ', Nat.mul_assoc]
    rw [e, lePut, Nat.mul_mod_right, Nat.mul_div_cancel_left _ (by decide), lePut_zeros w _ ⟨k, rfl⟩]
    rfl

/-- Small signed integers of up to 32 bits are all written as zero after JSON. -/
theorem C115_signed_zero (env : Env) (ctx : ECtx) (ty sub : Str) (w : Nat) (i : Int) (hw : w ≤ 4) (hi : i.natAbs < 2 ^ 20)
    (h : EncResolves env ctx ty (.intFixed w) sub) : ∃ v, jsonBack (.big i) = some v ∧ Encodes env ctx ty v (List.replicate w 0) := by
  refine ⟨_, rfl, encodes_of_cls h fun r => ?_⟩
  show encodeIntFixed env.ext w (.float 8 (floatBits i)) = _
  simp only [encodeIntFixed, binaryWrite]
  rw [if_pos (by omega), if_neg (by omega), Int.toNat_natCast]
  congr 2
  have hz : 2 ^ 32 ∣ floatBits i := by
    unfold floatBits
    simp only
    split
    · exact Nat.dvd_zero _
    · rename_i hm
      have hk : i.natAbs.log2 < 20 := (Nat.log2_lt hm).mpr hi
      rw [if_pos (show i.natAbs.log2 ≤ 52 by omega)]
      have he : (2 : Nat) ^ 32 ∣ 2 ^ (52 - i.natAbs.log2) := Nat.pow_dvd_pow 2 (by omega)
      refine Nat.dvd_add (Nat.dvd_add ?_ ?_) (Nat.dvd_mul_left_of_dvd he _)
      · split
        · exact Nat.pow_dvd_pow 2 (by decide)
        · exact Nat.dvd_zero _
      · exact Nat.dvd_mul_left_of_dvd (Nat.pow_dvd_pow 2 (by decide)) _
  rw [readInto, lePut_take w 8 _ (by omega), lePut_length, show w - 8 = 0 by omega, List.replicate_zero, List.append_nil]
  refine lePut_zeros w _ (Nat.dvd_trans ?_ hz)
  rw [show (256 : Nat) = 2 ^ 8 by rfl, ← Nat.pow_mul]
  exact Nat.pow_dvd_pow 2 (by omega)

/-- Numbers next to a power of two from 2^53 on come back as the power of two. -/
theorem C115_large_wrong (k w : Nat) (hk : 53 ≤ k) : jsonBack (.uint w (2 ^ k + 1)) = jsonBack (.uint w (2 ^ k)) ∧
    jsonBack (.big (2 ^ k + 1)) = jsonBack (.big (2 ^ k)) := by
  have hb : floatBits ((2 ^ k + 1 : Nat) : Int) = floatBits ((2 ^ k : Nat) : Int) := by
    have hp := Nat.two_pow_pos k
    have hk1 : (2 : Nat) ^ 1 ≤ 2 ^ k := Nat.pow_le_pow_right (by decide) (by omega)
    have l1 : (2 ^ k + 1).log2 = k := (Nat.log2_eq_iff (by omega)).mpr ⟨by omega, by rw [Nat.pow_succ]; omega⟩
    have l2 : (2 ^ k).log2 = k := Nat.log2_two_pow
    have hd : (2 : Nat) ^ k = 2 ^ (k - 52) * 2 ^ 52 := by rw [← Nat.pow_add]; congr 1; omega
    have hd2 : (2 : Nat) ^ (k - 52) = 2 * 2 ^ (k - 53) := by rw [← Nat.pow_succ']; congr 1; omega
    have hd3 := Nat.two_pow_pos (k - 53)
    have d1 : (2 ^ k + 1) / 2 ^ (k - 52) = 2 ^ 52 := by
      rw [hd, Nat.mul_add_div (by omega)]
      rw [Nat.div_eq_of_lt (by omega), Nat.add_zero]
    have d2 : (2 ^ k + 1) % 2 ^ (k - 52) = 1 := by
      rw [hd, Nat.mul_add_mod]
      exact Nat.mod_eq_of_lt (by omega)
    have d3 : 2 ^ k / 2 ^ (k - 52) = 2 ^ 52 := by
      rw [hd]; exact Nat.mul_div_cancel_left _ (by omega)
    have d4 : 2 ^ k % 2 ^ (k - 52) = 0 := by
      rw [hd]; exact Nat.mul_mod_right _ _
    rw [floatBits_down l1 (by omega), floatBits_down l2 (by omega), d1, d3]
    · rw [d4]
      left; omega
    · rw [d2, d1]
      by_cases h1 : (2 : Nat) ^ (k - 52) = 2
      · right; rw [h1]; decide
      · left; omega
  constructor
  · show some (Val.float 8 (floatBits ((2 ^ k + 1 : Nat) : Int))) = some (Val.float 8 (floatBits ((2 ^ k : Nat) : Int)))
    rw [hb]
  · show some (Val.float 8 (floatBits (2 ^ k + 1))) = some (Val.float 8 (floatBits (2 ^ k)))
    have : floatBits (2 ^ k + 1) = floatBits (2 ^ k) := by exact_mod_cast hb
    rw [this]

/-! ## Extrinsics -/

/-- Two lists of the same length, related element by element. -/
inductive AllPairs {α β : Type} (R : α → β → Prop) : List α → List β → Prop
  | nil : AllPairs R [] []
  | cons {a b l l'} : R a b → AllPairs R l l' → AllPairs R (a :: l) (b :: l')

theorem AllPairs.same {α : Type} {R : α → α → Prop} (h : ∀ a, R a a) : ∀ l, AllPairs R l l
  | [] => .nil
  | a :: l => .cons (h a) (AllPairs.same h l)

/-- The same value, or what came back of it. -/
def Kept (v w : Val) : Prop := w = v ∨ (cleanVal v = true ∧ jsonBack v = some w)

theorem Follows.kept {r r' : ERec} (F : Follows r r') {ctx : ECtx} {ty h : Str} {v w : Val} (hk : Kept v w) (he : r ctx ty v = .ok h) :
    r' ctx ty w = .ok h := by
  rcases hk with rfl | ⟨hc, hb⟩
  · exact (F.same _ _ _).ok he
  · exact F.back hc hb he

theorem encExt_kept {r r' : ERec} (F : Follows r r') (id : Str) {v w : Val} (hk : Kept v w) : ∀ {l : List (Str × Str)} {h : Str},
    encExt r id v l = .ok h → encExt r' id w l = .ok h
  | [], _, he => he
  | (n, t) :: rest, h, he => by
    rw [encExt] at he ⊢
    split at he
    · rename_i hn
      rw [if_pos hn]
      rw [Res.bind_eq_ok] at he
      obtain ⟨a, ha, he⟩ := he
      rw [Res.bind_eq_ok] at he
      obtain ⟨b, hb, he⟩ := he
      rw [F.kept hk ha, Res.ok_bind, encExt_kept F id hk hb]
      exact he
    · rename_i hn
      rw [if_neg hn]
      exact encExt_kept F id hk he

theorem encExts_kept {r r' : ERec} (F : Follows r r') (l : List (Str × Str)) : ∀ {e e' : List (Str × Val)} {h : Str},
    AllPairs (fun a b => a.1 = b.1 ∧ Kept a.2 b.2) e e' → encExts r l e = .ok h → encExts r' l e' = .ok h
  | [], _, _, .nil, he => he
  | (i, v) :: e, _, h, .cons (b := (i', w)) hk hks, he => by
    obtain ⟨h1, h2⟩ := hk
    simp only at h1 h2
    subst h1
    rw [encExts, Res.bind_eq_ok] at he
    obtain ⟨a, ha, he⟩ := he
    rw [Res.bind_eq_ok] at he
    obtain ⟨b, hb, he⟩ := he
    rw [encExts, encExt_kept F i h2 ha, Res.ok_bind, encExts_kept F l hks hb]
    exact he

theorem encParams_kept {r r' : ERec} (F : Follows r r') (ctx : ECtx) : ∀ {l : List (Str × Str)} {e e' : List Val} {h : Str},
    AllPairs Kept e e' → encParams r ctx l e = .ok h → encParams r' ctx l e' = .ok h
  | [], _, _, _, .nil, he => he
  | [], _, _, _, .cons _ _, he => he
  | _ :: _, _, _, _, .nil, he => he
  | (_, t) :: l, v :: e, w :: e', h, .cons hk hks, he => by
    rw [encParams, Res.bind_eq_ok] at he
    obtain ⟨a, ha, he⟩ := he
    rw [Res.bind_eq_ok] at he
    obtain ⟨b, hb, he⟩ := he
    rw [encParams, F.kept hk ha, Res.ok_bind, encParams_kept F ctx hks hb]
    exact he

theorem encSignedPart_kept {r r' : ERec} (F : Follows r r') (env : Env) (m : MD) {g g' : ExtrinsicIn} {h : Str}
    (h1 : g'.version = g.version) (h2 : Kept g.signer g'.signer) (h3 : Kept g.signatureRaw g'.signatureRaw) (h4 : g'.era = g.era)
    (h5 : g'.nonce = g.nonce) (h6 : g'.tip = g.tip) (h7 : AllPairs (fun a b => a.1 = b.1 ∧ Kept a.2 b.2) g.extensions g'.extensions)
    (he : encSignedPart env r m g = .ok h) : encSignedPart env r' m g' = .ok h := by
  unfold encSignedPart at he ⊢
  rw [h1]
  split at he
  · rename_i hv
    rw [if_pos hv]
    unfold encSigned at he ⊢
    rw [Res.bind_eq_ok] at he
    obtain ⟨a, ha, he⟩ := he
    rw [Res.bind_eq_ok] at he
    obtain ⟨b, hb, he⟩ := he
    rw [Res.bind_eq_ok] at he
    obtain ⟨c, hc, he⟩ := he
    rw [Res.bind_eq_ok] at he
    obtain ⟨d, hd, he⟩ := he
    rw [F.kept h2 ha, Res.ok_bind, F.kept h3 hb, Res.ok_bind, h4, (F.same _ _ _).ok hc, Res.ok_bind, h5, (F.same _ _ _).ok hd, Res.ok_bind]
    split at he
    · cases he
    · rename_i y hy
      rw [Res.bind_eq_ok] at he
      obtain ⟨e, h8, he⟩ := he
      rw [Res.bind_eq_ok] at he
      obtain ⟨f, h9, he⟩ := he
      have : encTip r' y g'.tip = .ok e := by
        rw [h6]
        unfold encTip at h8 ⊢
        split at h8
        · rename_i hi
          rw [if_pos hi]
          exact (F.same _ _ _).ok h8
        · rename_i hi
          rw [if_neg hi]
          exact h8
      rw [this, Res.ok_bind, encExts_kept F _ h7 h9]
      exact he
  · rename_i hv
    rw [if_neg hv]
    exact he

theorem kept_list : ∀ {l l' : List Val}, cleanList l = true → jsonBackList l = some l' → AllPairs Kept l l'
  | [], l', _, h => by
    simp only [jsonBackList, Option.some.injEq] at h
    subst h; exact .nil
  | v :: vs, l', hc, h => by
    simp only [cleanList, Bool.and_eq_true] at hc
    rw [jsonBackList] at h
    simp only [Option.bind_eq_bind, Option.bind_eq_some_iff] at h
    obtain ⟨w, hw, ws, hws, h⟩ := h
    cases h
    exact .cons (.inr ⟨hc.1, hw⟩) (kept_list hc.2 hws)

theorem kept_map : ∀ {l l' : List (Str × Val)}, cleanMap l = true → jsonBackMap l = some l' →
    AllPairs (fun a b => a.1 = b.1 ∧ Kept a.2 b.2) l l'
  | [], l', _, h => by
    simp only [jsonBackMap, Option.some.injEq] at h
    subst h; exact .nil
  | (k, v) :: vs, l', hc, h => by
    simp only [cleanMap, Bool.and_eq_true] at hc
    rw [jsonBackMap] at h
    simp only [Option.bind_eq_bind, Option.bind_eq_some_iff] at h
    obtain ⟨w, hw, ws, hws, h⟩ := h
    cases h
    exact .cons ⟨(jsonText_clean hc.1.1).symm, .inr ⟨hc.1.2, hw⟩⟩ (kept_map hc.2 hws)

/-- An extrinsic stored as JSON is encoded to the same text. -/
theorem C115_extrinsic (env : Env) (n : Nat) (spec : Int) (m : MD) (g g' : ExtrinsicIn) (s p : Str) (e : CallEntry)
    (hx : ExactFloats env.ext) (hr : reload g = some g')
    (hc : utf8Valid g.version = true ∧ utf8Valid g.era = true ∧ utf8Valid g.callCode = true ∧ cleanVal g.signer = true ∧
      cleanVal g.signatureRaw = true ∧ cleanMap g.extensions = true ∧ cleanList g.params = true) (ht : g.tip.2 = 0)
    (he : m.callIndex g.callCode = some e) (hs : encSignedPart env (encOut env n) m g = .ok s)
    (hp : encParams (encOut env n) ⟨spec, some m⟩ e.args g.params = .ok p) :
    encodeExtrinsic env n spec (some m) g' = encodeExtrinsic env n spec (some m) g := by
  obtain ⟨c1, c2, c3, c4, c5, c6, c7⟩ := hc
  unfold reload at hr
  simp only [Option.bind_eq_bind, Option.bind_eq_some_iff] at hr
  obtain ⟨a, ha, b, hb, x, hx', y, hy, t, ht', hr⟩ := hr
  cases hr
  have htip : t = g.tip := by
    have h0 : decimalText g.tip.1 0 = intToDec g.tip.1 := by simp [decimalText]
    rw [ht, h0, intToDec_decParse, Option.some.injEq] at ht'
    rw [← ht', ← ht]
  have F := encOut_follows hx n
  have s1 : encSignedPart env (enc env n) m g = .ok s :=
    encSignedPart_kept F env m rfl (.inl rfl) (.inl rfl) rfl rfl rfl
      (AllPairs.same (fun _ => ⟨rfl, .inl rfl⟩) _) hs
  have p1 : encParams (enc env n) ⟨spec, some m⟩ e.args g.params = .ok p :=
    encParams_kept F _ (AllPairs.same (fun _ => .inl rfl) _) hp
  have p2 : encParams (enc env n) ⟨spec, some m⟩ e.args y = .ok p := encParams_kept F _ (kept_list c7 hy) hp
  have s2 := encSignedPart_kept F env m (g' := ⟨jsonText' g.version, a, b, jsonText' g.era, g.nonce, t, x, jsonText' g.callCode, y⟩)
    (jsonText_clean c1) (.inr ⟨c4, ha⟩) (.inr ⟨c5, hb⟩) (jsonText_clean c2) rfl htip (kept_map c6 hx') hs
  simp only [jsonText_clean c1, jsonText_clean c2, jsonText_clean c3] at s2 ⊢
  unfold encodeExtrinsic
  simp only [s1, s2, Res.ok_bind, he, p1, p2, jsonBackList_length hy]

/-! ## Concrete cases -/

/-- The whole number next to zero of a double. -/
def doubleInt (b : Nat) : Int :=
  if b = 0 then 0
  else
    let m : Nat := (2 ^ 52 + b % 2 ^ 52) * 2 ^ (b / 2 ^ 52 % 2048) / 2 ^ 1075
    if 2 ^ 63 ≤ b then -(m : Int) else m

/-- Conversions of doubles as Go has them, for the examples. -/
def exactExt : Ext :=
  { dummyExt with
    decOfFloat := fun b => some (doubleInt b, 0)
    floatToInt := doubleInt
    floatToUint := fun _ b => (doubleInt b).toNat }

set_option exponentiation.threshold 2000 in
theorem doubleInt_eq {b : Nat} {i : Int} (h : Spec.IsDouble b i) : doubleInt b = i := by
  unfold Spec.IsDouble at h
  unfold doubleInt
  split at h
  · rw [if_pos h]
    exact (by assumption : i = 0).symm
  · obtain ⟨_, h2, h3, _, h5⟩ := h
    have hb : b ≠ 0 := by
      rintro rfl
      exact absurd h3 (by decide)
    rw [if_neg hb, h5, Nat.mul_div_cancel _ (Nat.two_pow_pos _)]
    clear h5
    dsimp only
    split
    · rename_i hs
      have := h2.mp hs
      omega
    · rename_i hs
      have : ¬ i < 0 := fun hi => hs (h2.mpr hi)
      omega

theorem exactExt_exact : ExactFloats exactExt where
  toInt := fun h _ => doubleInt_eq h
  toUint := fun {b n w} h _ _ => by
    show (doubleInt b).toNat = n
    rw [doubleInt_eq h]
    rfl
  toDec := fun {b i} h _ => ⟨i, 0, by
    show some (doubleInt b, (0 : Int)) = _
    rw [doubleInt_eq h], by simp [decTrunc]⟩

theorem encOut_step (env : Env) : ∀ n, ERecLe (encOut env n) (encOut env (n + 1))
  | 0 => fun _ _ _ => Or.inl rfl
  | n + 1 => by
    intro ctx ty v
    rw [encOut, encOut]
    split
    · exact Le.refl _
    · refine Le.bind (Le.refl _) (fun r => ?_)
      split
      · exact Le.refl _
      · split
        · exact Le.bind (encodeCls_mono (encOut_step env n) _ _ _ _ _) (fun _ => Le.refl _)
        · exact Or.inl rfl

theorem encodesOut_of {env : Env} {ctx : ECtx} {ty b : Str} {v : Val} (N : Nat) (h : encOut env N ctx ty v = .ok (Spec.hexText b)) :
    EncodesOut env ctx ty v b := by
  refine ⟨N, fun n hn => ?_⟩
  induction hn with
  | refl => exact h
  | step _ ih => exact (encOut_step env _ ctx ty v).ok ih

/-- The full claim is false. -/
theorem C115_claim_false : ¬ C115Claim := by
  intro h
  have hr : Resolves (baseEnv exactExt) [] 0 b!"U256" .u256 [] := by unfold Resolves; kernel_rfl
  have he : EncResolves (baseEnv exactExt) ECtx.none b!"U256" .u256 [] := ⟨by unfold Resolves; kernel_rfl, by decide⟩
  obtain ⟨s, _, h1, _, h3⟩ := C115_u256_wrong (baseEnv exactExt) ECtx.none b!"U256" [] 7 (by decide) he
  exact h3 (h (baseEnv exactExt) ⟨[], 0, none⟩ ECtx.none b!"U256" _ _ _ [] exactExt_exact rfl
    (C11_decode _ ⟨[], 0, none⟩ _ [] 7 (by decide) hr) (C11_encode _ _ _ [] _ 7 (by decide) he (.inl ⟨_, _, rfl⟩) (denotes_dec_zero _)) h1)

-- a vector of optional 64-bit numbers, as decoded, and as it comes back
example : jsonBack (.slice [.uint 8 5, .nil]) = some (.slice [.float 8 0x4014000000000000, .nil]) ∧
    EncodesOut (baseEnv exactExt) ECtx.none b!"Vec<Option<u64>>" (.slice [.uint 8 5, .nil]) [8, 1, 5, 0, 0, 0, 0, 0, 0, 0, 0] ∧
    ExactFloats (baseEnv exactExt).ext ∧ cleanVal (.slice [.uint 8 5, .nil]) = true :=
  ⟨by kernel_rfl, encodesOut_of 9 (by kernel_rfl), exactExt_exact, by decide⟩

/-- A registry with exact doubles that knows a signature type. -/
def jsonEnv : Env := addTypes (baseEnv exactExt) [(b!"extrinsicsignature", .hash 2)]

/-- Metadata with one call and one extension. -/
def jsonMD : MD where
  version := 14
  callIndex := fun k => if k = b!"0100" then some ⟨b!"c", b!"M", [(b!"a", b!"u64"), (b!"b", b!"Option<u32>"), (b!"c", b!"Vec<Balance>")]⟩ else none
  eventIndex := fun _ => none
  extrinsic := some ⟨[b!"A", b!"ChargeTransactionPayment"], [(b!"A", b!"u8"), (b!"ChargeTransactionPayment", b!"Compact<Balance>")]⟩

/-- A signed extrinsic. -/
def jsonG : ExtrinsicIn := ⟨b!"84", .str b!"aaaa", .str b!"bbbb", b!"00", 77, (10000000000, 0), [(b!"A", .int 1)], b!"0100",
  [.uint 8 300, .uint 4 7, .slice [.dec 1000000000000000000000 0]]⟩

example : ∃ g', reload jsonG = some g' ∧
    encSignedPart jsonEnv (encOut jsonEnv 9) jsonMD jsonG = .ok b!"aaaabbbb0035010700e40b540201" ∧
    encParams (encOut jsonEnv 9) ⟨0, some jsonMD⟩ [(b!"a", b!"u64"), (b!"b", b!"Option<u32>"), (b!"c", b!"Vec<Balance>")] jsonG.params =
      .ok b!"2c010000000000000107000000040000a0dec5adc9353600000000000000" :=
  ⟨_, rfl, by kernel_rfl, by kernel_rfl⟩

-- 2^53 + 1 comes back as 2^53
example : jsonBack (.uint 8 9007199254740993) = some (.float 8 0x4340000000000000) ∧
    enc (baseEnv exactExt) 9 ECtx.none b!"u64" (.float 8 0x4340000000000000) = .ok b!"0000000000002000" := ⟨by kernel_rfl, by kernel_rfl⟩

end ScaleGo
