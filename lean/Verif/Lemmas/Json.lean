import Verif.Model.Json
import Verif.Lemmas.Dec
import Verif.Lemmas.Mono
import Verif.Spec.Json

/-! # Values written as JSON and read back -/

namespace ScaleGo
theorem bits_parts {s k q : Nat} (hs : s = 0 ∨ s = 2 ^ 63) (hk : k ≤ 52) (h1 : 2 ^ 52 ≤ q) (h2 : q < 2 ^ 53) :
    (s + (k + 1022) * 2 ^ 52 + q) < 2 ^ 64 ∧ (2 ^ 63 ≤ s + (k + 1022) * 2 ^ 52 + q ↔ s = 2 ^ 63) ∧
    (s + (k + 1022) * 2 ^ 52 + q) / 2 ^ 52 % 2048 = k + 1023 ∧ 2 ^ 52 + (s + (k + 1022) * 2 ^ 52 + q) % 2 ^ 52 = q := by
  rcases hs with rfl | rfl
  · refine ⟨by omega, ⟨fun h => by omega, fun h => by omega⟩, by omega, by omega⟩
  · refine ⟨by omega, ⟨fun _ => rfl, fun h => by omega⟩, by omega, by omega⟩

theorem exp_sum {k : Nat} (h : k < 53) : 52 - k + (k + 1023) = 1075 := by omega

set_option exponentiation.threshold 2000 in
theorem floatBits_exact {i : Int} (h : i.natAbs < 2 ^ 53) : Spec.IsDouble (floatBits i) i := by
  unfold Spec.IsDouble
  split
  · subst_vars; rfl
  · rename_i h0
    have hm : i.natAbs ≠ 0 := by omega
    have hk : i.natAbs.log2 < 53 := (Nat.log2_lt hm).mpr h
    have h1 := Nat.log2_self_le hm
    have h2 : i.natAbs < 2 ^ (i.natAbs.log2 + 1) := Nat.lt_log2_self
    generalize hkk : i.natAbs.log2 = k at *
    have e1 : (2 : Nat) ^ 52 = 2 ^ k * 2 ^ (52 - k) := by rw [← Nat.pow_add]; congr 1; omega
    have e2 : (2 : Nat) ^ 53 = 2 ^ (k + 1) * 2 ^ (52 - k) := by rw [← Nat.pow_add]; congr 1; omega
    have q1 : 2 ^ 52 ≤ i.natAbs * 2 ^ (52 - k) := by rw [e1]; exact Nat.mul_le_mul_right _ h1
    have q2 : i.natAbs * 2 ^ (52 - k) < 2 ^ 53 := by rw [e2]; exact Nat.mul_lt_mul_of_pos_right h2 (Nat.two_pow_pos _)
    obtain ⟨p1, p2, p3, p4⟩ := bits_parts (s := if i < 0 then 2 ^ 63 else 0) (by split <;> simp) (by omega : k ≤ 52) q1 q2
    have hf : floatBits i = (if i < 0 then 2 ^ 63 else 0) + (k + 1022) * 2 ^ 52 + i.natAbs * 2 ^ (52 - k) := by
      unfold floatBits
      simp only [hkk]
      rw [if_neg hm, if_pos (by omega : k ≤ 52)]
    rw [hf]
    have h3' : 0 < ((if i < 0 then 2 ^ 63 else 0) + (k + 1022) * 2 ^ 52 + i.natAbs * 2 ^ (52 - k)) / 2 ^ 52 % 2048 := by
      rw [p3]; omega
    have h4' : ((if i < 0 then 2 ^ 63 else 0) + (k + 1022) * 2 ^ 52 + i.natAbs * 2 ^ (52 - k)) / 2 ^ 52 % 2048 < 2047 := by
      rw [p3]; omega
    have h5 : (2 ^ 52 + ((if i < 0 then 2 ^ 63 else 0) + (k + 1022) * 2 ^ 52 + i.natAbs * 2 ^ (52 - k)) % 2 ^ 52) *
        2 ^ (((if i < 0 then 2 ^ 63 else 0) + (k + 1022) * 2 ^ 52 + i.natAbs * 2 ^ (52 - k)) / 2 ^ 52 % 2048) = i.natAbs * 2 ^ 1075 := by
      rw [p3, p4, Nat.mul_assoc, ← Nat.pow_add]
      rw [exp_sum hk]
    have h2' : (2 ^ 63 ≤ (if i < 0 then 2 ^ 63 else 0) + (k + 1022) * 2 ^ 52 + i.natAbs * 2 ^ (52 - k) ↔ i < 0) := by
      rw [p2]; split <;> simp_all
    exact ⟨p1, h2', h3', h4', h5⟩

/-! ## Texts -/

theorem natToDec_decParse (n : Nat) : decParse (natToDec n) = some ((n : Int), 0) := decParse_numeral (natToDec_isNumeral n)

theorem intToDec_decParse (i : Int) : decParse (intToDec i) = some (i, 0) := by
  unfold intToDec
  split
  · rename_i h
    have hn := natToDec_isNumeral i.natAbs
    have hd := isNumeral_digits hn
    have hdot : (46 : UInt8) ∉ (45 :: natToDec i.natAbs) := fun hm => by
      rcases List.mem_cons.mp hm with h | h
      · cases h
      · have := hn.2.1 46 h
        simp at this
    unfold decParse
    have h1 : splitExp (45 :: natToDec i.natAbs) = (45 :: natToDec i.natAbs, none) := by
      rw [splitExp, splitExp_digits hd]; rfl
    rw [h1]
    simp only [expPart, coefPart]
    rw [splitSep_none b!"." _ 46 ⟨[], rfl⟩ hdot]
    simp only [decToInt?, isNumeral_decToNat hn]
    simp
    omega
  · rw [natToDec_decParse]
    congr 2; omega

theorem decimalText_parse {c e : Int} (h : 0 ≤ e) : ∃ c', decParse (decimalText c e) = some (c', 0) ∧ c' = decTrunc c e := by
  unfold decimalText decTrunc
  rw [if_pos h, if_pos h]
  exact ⟨_, intToDec_decParse _, rfl⟩

theorem jsonText_clean {s : Str} (h : utf8Valid s = true) : jsonText' s = s := if_pos h

theorem decimalText_ne (c e : Int) : decimalText c e ≠ [] := by
  unfold decimalText
  split
  · unfold intToDec
    split
    · simp
    · exact natToDec_ne_nil _
  · dsimp only
    have hi : ∀ (s : Str) (p : Nat), s ≠ [] → (if s.length > p then s.take (s.length - p) else b!"0") ≠ [] := by
      intro s p hs
      split
      · intro h
        have := congrArg List.length h
        simp at this
        omega
      · simp
    have := hi (natToDec c.natAbs) (-e).toNat (natToDec_ne_nil _)
    generalize (if (natToDec c.natAbs).length > (-e).toNat then (natToDec c.natAbs).take ((natToDec c.natAbs).length - (-e).toNat)
      else b!"0") = x at this ⊢
    have hn : ∀ f : Str, (if f = [] then x else x ++ b!"." ++ f) ≠ [] := by
      intro f
      split
      · exact this
      · simp
    by_cases h : c < 0
    · rw [if_pos h]
      simp
    · rw [if_neg h]
      exact hn _

/-! ## Maps and lists -/

theorem jsonBackMap_get : ∀ {m ms : List (Str × Val)}, cleanMap m = true → jsonBackMap m = some ms → ∀ k,
    match mapGet m k with
    | none => mapGet ms k = none
    | some v => cleanVal v = true ∧ ∃ w, jsonBack v = some w ∧ mapGet ms k = some w
  | [], ms, _, h, k => by
    simp only [jsonBackMap, Option.some.injEq] at h
    subst h; rfl
  | (k', v) :: m, ms, hc, h, k => by
    simp only [cleanMap, Bool.and_eq_true] at hc
    rw [jsonBackMap] at h
    simp only [Option.bind_eq_bind, Option.bind_eq_some_iff] at h
    obtain ⟨w, hw, ws, hws, h⟩ := h
    cases h
    rw [jsonText_clean hc.1.1]
    by_cases hk : k' = k
    · simp only [mapGet, if_pos hk]
      exact ⟨hc.1.2, w, hw, rfl⟩
    · simp only [mapGet, if_neg hk]
      exact jsonBackMap_get hc.2 hws k

theorem jsonBackMap_find (tm : List (Str × Str)) : ∀ {m ms : List (Str × Val)}, cleanMap m = true → jsonBackMap m = some ms →
    ∀ {i t v}, findEntry tm m = some (i, t, v) → cleanVal v = true ∧ ∃ w, jsonBack v = some w ∧ findEntry tm ms = some (i, t, w)
  | [], ms, _, h, _, _, _, hf => by simp [findEntry] at hf
  | (k', v) :: m, ms, hc, h, i, t, x, hf => by
    simp only [cleanMap, Bool.and_eq_true] at hc
    rw [jsonBackMap] at h
    simp only [Option.bind_eq_bind, Option.bind_eq_some_iff] at h
    obtain ⟨w, hw, ws, hws, h⟩ := h
    cases h
    rw [jsonText_clean hc.1.1]
    simp only [findEntry] at hf ⊢
    split at hf
    · rename_i i' t' he
      cases hf
      exact ⟨hc.1.2, w, hw, rfl⟩
    · rename_i he
      exact jsonBackMap_find tm hc.2 hws hf

/-! ## Values that are handed out -/

theorem out_u8 {v : Val} (h : handedOut .u8 v = true) : ∃ i, v = .int i ∧ 0 ≤ i ∧ i < 2 ^ 8 := by
  unfold handedOut at h
  split at h <;> simp_all

theorem out_u16 {v : Val} (h : handedOut .u16 v = true) : ∃ n, v = .uint 2 n ∧ n < 2 ^ 16 := by
  unfold handedOut at h
  split at h <;> simp_all

theorem out_u32 {v : Val} (h : handedOut .u32 v = true) : ∃ n, v = .uint 4 n ∧ n < 2 ^ 32 := by
  unfold handedOut at h
  split at h <;> simp_all

theorem out_u64 {v : Val} (h : handedOut .u64 v = true) : ∃ n, v = .uint 8 n ∧ n < 2 ^ 53 := by
  unfold handedOut at h
  split at h <;> simp_all

theorem out_moment {v : Val} (h : handedOut .moment v = true) : ∃ n, v = .uint 8 n ∧ n < 2 ^ 53 := by
  unfold handedOut at h
  split at h <;> simp_all

theorem out_u128 {v : Val} (h : handedOut .u128 v = true) : ∃ s, v = .str s := by
  unfold handedOut at h
  split at h <;> simp_all

theorem out_balance {v : Val} (h : handedOut .balance v = true) : ∃ c e, v = .dec c e ∧ 0 ≤ e := by
  unfold handedOut at h
  split at h <;> simp_all
  exact ⟨_, _, ⟨rfl, rfl⟩, h⟩

theorem out_compactU32 {v : Val} (h : handedOut .compactU32 v = true) : ∃ i, v = .int i ∧ 0 ≤ i ∧ i < 2 ^ 53 := by
  unfold handedOut at h
  split at h <;> simp_all

theorem out_compactMoment {v : Val} (h : handedOut .compactMoment v = true) : ∃ i, v = .int i ∧ 0 ≤ i ∧ i < 2 ^ 53 := by
  unfold handedOut at h
  split at h <;> simp_all

theorem out_logDigest {v : Val} (h : handedOut .logDigest v = true) : ∃ s, v = .str s := by
  unfold handedOut at h
  split at h <;> simp_all

theorem out_intFixed {v : Val} {n : Int} (h : handedOut (.intFixed n) v = true) : ∃ i, v = .big i ∧ 16 ≤ n ∧ i.natAbs < 2 ^ 53 := by
  unfold handedOut at h
  split at h <;> simp_all

theorem out_compact {v : Val} {t : Str} (h : handedOut (.compact t) v = true) :
    (∃ n, v = .uint 8 n ∧ n < 2 ^ 53) ∨ (∃ c e, v = .dec c e ∧ 0 ≤ e) ∨ ∃ i, v = .int i ∧ i.natAbs < 2 ^ 53 := by
  unfold handedOut at h
  split at h <;> simp_all
  exact ⟨_, _, ⟨rfl, rfl⟩, h⟩

theorem out_enum {v : Val} {vs : List Str} {tm : Option (List (Str × Str))} (h : handedOut (.enum vs tm) v = true) :
    (∃ s, v = .str s) ∨ ∃ l m, tm = some l ∧ v = .map m ∧ isCLike l = false ∧ (findEntry l m).isSome = true := by
  unfold handedOut at h
  split at h <;> simp_all

/-! ## The encoder on the value that was read back -/

/-- What two encoders have to do with each other for the theorems below. -/
structure Follows (r r' : ERec) : Prop where
  same : ERecLe r r'
  back : ∀ {ctx ty v w h}, cleanVal v = true → jsonBack v = some w → r ctx ty v = .ok h → r' ctx ty w = .ok h

section
variable {r r' : ERec} (F : Follows r r')
include F

theorem encList_back (ctx : ECtx) (ty : Str) (f : Str → Str) : ∀ {l l' : List Val} {h : Str}, cleanList l = true →
    jsonBackList l = some l' → encList r ctx ty f l = .ok h → encList r' ctx ty f l' = .ok h
  | [], l', h, _, hb, he => by
    simp only [jsonBackList, Option.some.injEq] at hb
    subst hb; exact he
  | v :: vs, l', h, hc, hb, he => by
    simp only [cleanList, Bool.and_eq_true] at hc
    rw [jsonBackList] at hb
    simp only [Option.bind_eq_bind, Option.bind_eq_some_iff] at hb
    obtain ⟨w, hw, ws, hws, hb⟩ := hb
    cases hb
    rw [encList, Res.bind_eq_ok] at he
    obtain ⟨a, ha, he⟩ := he
    rw [Res.bind_eq_ok] at he
    obtain ⟨b, hb, he⟩ := he
    rw [encList, F.back hc.1 hw ha, Res.ok_bind, encList_back ctx ty f hc.2 hws hb]
    exact he

theorem encFields_back (ctx : ECtx) {m ms : List (Str × Val)} (hc : cleanMap m = true) (hb : jsonBackMap m = some ms) :
    ∀ {fs : List (Str × Str)} {h : Str}, encFields r ctx m fs = .ok h → encFields r' ctx ms fs = .ok h
  | [], h, he => he
  | (n, t) :: rest, h, he => by
    rw [encFields, Res.bind_eq_ok] at he
    obtain ⟨a, ha, he⟩ := he
    rw [Res.bind_eq_ok] at he
    obtain ⟨b, hb', he⟩ := he
    have h1 : r' ctx t ((mapGet ms n).getD .nil) = .ok a := by
      have := jsonBackMap_get hc hb n
      cases hg : mapGet m n with
      | none =>
        rw [hg] at this ha
        simp only at this
        rw [this]
        exact (F.same _ _ _).ok ha
      | some v =>
        rw [hg] at this ha
        obtain ⟨h1, w, h2, h3⟩ := this
        rw [h3]
        exact F.back h1 h2 ha
    rw [encFields, h1, Res.ok_bind, encFields_back ctx hc hb hb']
    exact he

theorem encRows_back (ctx : ECtx) {m ms : List (Str × Val)} (hc : cleanMap m = true) (hb : jsonBackMap m = some ms) :
    ∀ {rows : List (List Str)} {h : Str}, encRows r ctx m rows = .ok h → encRows r' ctx ms rows = .ok h
  | [], h, he => he
  | [] :: _, h, he => by cases he
  | [_] :: _, h, he => by cases he
  | (n :: t :: _) :: rest, h, he => by
    rw [encRows, Res.bind_eq_ok] at he
    obtain ⟨a, ha, he⟩ := he
    rw [Res.bind_eq_ok] at he
    obtain ⟨b, hb', he⟩ := he
    have h1 : r' ctx t ((mapGet ms n).getD .nil) = .ok a := by
      have := jsonBackMap_get hc hb n
      cases hg : mapGet m n with
      | none =>
        rw [hg] at this ha
        simp only at this
        rw [this]
        exact (F.same _ _ _).ok ha
      | some v =>
        rw [hg] at this ha
        obtain ⟨h1, w, h2, h3⟩ := this
        rw [h3]
        exact F.back h1 h2 ha
    rw [encRows, h1, Res.ok_bind, encRows_back ctx hc hb hb']
    exact he

omit F in
theorem jsonBackList_length : ∀ {l l' : List Val}, jsonBackList l = some l' → l'.length = l.length
  | [], l', h => by simp only [jsonBackList, Option.some.injEq] at h; subst h; rfl
  | v :: vs, l', h => by
    rw [jsonBackList] at h
    simp only [Option.bind_eq_bind, Option.bind_eq_some_iff] at h
    obtain ⟨w, hw, ws, hws, h⟩ := h
    cases h
    simp [jsonBackList_length hws]

omit F in
theorem jsonBackList_strs : ∀ {l : List Str}, l.all utf8Valid = true → jsonBackList (l.map .str) = some (l.map .str) ∧
    cleanList (l.map .str) = true ∧ l.map (fun s => Val.str (jsonText' s)) = l.map .str
  | [], _ => ⟨rfl, rfl, rfl⟩
  | s :: l, h => by
    simp only [List.all_cons, Bool.and_eq_true] at h
    obtain ⟨h1, h2, h3⟩ := jsonBackList_strs h.2
    simp only [List.map_cons, jsonBackList, cleanList, h1, h2, h3, jsonBack, jsonText_clean h.1, cleanVal, h.1]
    exact ⟨rfl, by simp, trivial⟩

omit F in
/-- A value with elements comes back as a slice of the elements that came back, or as nil if there are none. -/
theorem elems_back {v w : Val} {l : List Val} (hc : cleanVal v = true) (hb : jsonBack v = some w) (he : v.elems? = some l) :
    (w = .nil ∧ l = []) ∨ (∃ l', w = .slice l' ∧ cleanList l = true ∧ jsonBackList l = some l') := by
  cases v <;> simp only [Val.elems?, Option.some.injEq, reduceCtorEq] at he
  case slice l0 =>
    subst he
    rw [jsonBack] at hb
    simp only [Option.map_eq_some_iff] at hb
    obtain ⟨l', h1, h2⟩ := hb
    exact Or.inr ⟨l', h2.symm, hc, h1⟩
  case nilSlice => subst he; cases hb; exact Or.inl ⟨rfl, rfl⟩
  case bytes => cases hb
  case params => cases hb
  case strs l0 =>
    subst he
    rw [jsonBack] at hb
    split at hb
    · cases hb
      rename_i h
      exact Or.inl ⟨rfl, by rw [h]; rfl⟩
    · cases hb
      have h := jsonBackList_strs hc
      exact Or.inr ⟨_, by rw [h.2.2], h.2.1, h.1⟩

theorem encodeVec_back (ctx : ECtx) (sub : Str) {v w : Val} {h : Str} (hc : cleanVal v = true) (hb : jsonBack v = some w)
    (he : encodeVec r ctx sub v = .ok h) : encodeVec r' ctx sub (argOf w) = .ok h := by
  unfold encodeVec at he
  split at he
  · cases hb
    exact (F.same _ _ _).ok he
  · split at he
    · rename_i l hl
      rw [Res.bind_eq_ok] at he
      obtain ⟨a, ha, he⟩ := he
      rw [Res.bind_eq_ok] at he
      obtain ⟨b, hb', he⟩ := he
      have ha' := (F.same _ _ _).ok ha
      rcases elems_back hc hb hl with ⟨rfl, rfl⟩ | ⟨l', rfl, h1, h2⟩
      · cases hb'
        cases he
        simpa [encodeVec, argOf] using ha'
      · show encodeVec r' ctx sub (.slice l') = _
        simp only [encodeVec, Val.elems?]
        rw [jsonBackList_length h2, ha', Res.ok_bind, encList_back F ctx sub trimHex h1 h2 hb']
        exact he
    · cases he

theorem encodeFixedArray_back (ctx : ECtx) (n : Int) (sub : Str) {v w : Val} {h : Str} (hc : cleanVal v = true)
    (hb : jsonBack v = some w) (he : encodeFixedArray r ctx n sub v = .ok h) : encodeFixedArray r' ctx n sub (argOf w) = .ok h := by
  unfold encodeFixedArray at he
  split at he
  · rename_i s
    cases hb
    rw [jsonText_clean hc]
    exact he
  · split at he
    · rename_i l hl
      split at he
      · cases he
      · rename_i hn
        rcases elems_back hc hb hl with ⟨rfl, rfl⟩ | ⟨l', rfl, h1, h2⟩
        · cases he
          rfl
        · show encodeFixedArray r' ctx n sub (.slice l') = _
          simp only [encodeFixedArray, Val.elems?]
          rw [jsonBackList_length h2, if_neg hn]
          exact encList_back F ctx sub id h1 h2 he
    · cases he

omit F in
theorem asMap_back {v w : Val} {m : List (Str × Val)} (hc : cleanVal v = true) (hb : jsonBack v = some w) (h : asMap v = .ok m) :
    ∃ ms, w = .map ms ∧ cleanMap m = true ∧ jsonBackMap m = some ms := by
  cases v <;> simp only [asMap, reduceCtorEq, Res.ok.injEq] at h
  subst h
  rw [jsonBack] at hb
  simp only [Option.map_eq_some_iff] at hb
  obtain ⟨ms, h1, h2⟩ := hb
  exact ⟨ms, h2.symm, hc, h1⟩

omit F in
theorem asStr_back {v w : Val} {s : Str} (hc : cleanVal v = true) (hb : jsonBack v = some w) (h : asStr v = .ok s) : w = .str s := by
  cases v <;> simp only [asStr, reduceCtorEq, Res.ok.injEq] at h
  subst h
  cases hb
  rw [jsonText_clean hc]

omit F in
theorem isNil_back {v w : Val} (hb : jsonBack v = some w) (h : v.isNil = true) : w = .nil := by
  cases v <;> simp only [Val.isNil, Bool.false_eq_true] at h
  · cases hb; rfl
  · cases hb; rfl
  · rename_i l; cases l
    · cases hb; rfl
    · simp at h
  · cases hb

omit F in
theorem notNil_back {v w : Val} (hc : cleanVal v = true) (hb : jsonBack v = some w) (h : v.isNil = false) (hs : v ≠ .str []) :
    w.isNil = false ∧ w ≠ .str [] := by
  cases v <;> simp only [Val.isNil, Bool.true_eq_false] at h <;> try (cases hb; exact ⟨rfl, fun hx => by cases hx⟩)
  case float => 
    rw [jsonBack] at hb
    split at hb
    · cases hb; exact ⟨rfl, by simp⟩
    · cases hb
  case str s =>
    cases hb
    rw [jsonText_clean hc]
    exact ⟨rfl, hs⟩
  case dec c e =>
    cases hb
    exact ⟨rfl, fun h => decimalText_ne c e (by injection h)⟩
  case bytes => cases hb
  case slice => 
    rw [jsonBack] at hb
    simp only [Option.map_eq_some_iff] at hb
    obtain ⟨_, _, rfl⟩ := hb
    exact ⟨rfl, by simp⟩
  case strs l =>
    rw [jsonBack] at hb
    split at hb
    · subst_vars; simp at h
    · cases hb; exact ⟨rfl, by simp⟩
  case map => 
    rw [jsonBack] at hb
    simp only [Option.map_eq_some_iff] at hb
    obtain ⟨_, _, rfl⟩ := hb
    exact ⟨rfl, by simp⟩
  all_goals cases hb

omit F in
theorem encodeOption_other (r : ERec) (ctx : ECtx) (sub : Str) {v : Val} (hn : v.isNil = false) (hs : v ≠ .str []) :
    encodeOption r ctx sub v = if sub = b!"bool" then
      (match v with
      | .bool b => .ok (if b then b!"01" else b!"02")
      | _ => .panic)
    else (r ctx sub v >>= fun x => .ok (b!"01" ++ x)) := by
  unfold encodeOption
  split
  · exact absurd rfl hs
  · rw [if_neg (by simp [hn])]
    rfl

theorem encodeOption_back (ctx : ECtx) (sub : Str) {v w : Val} {h : Str} (hc : cleanVal v = true) (hb : jsonBack v = some w)
    (he : encodeOption r ctx sub v = .ok h) : encodeOption r' ctx sub (argOf w) = .ok h := by
  by_cases hs : v = .str []
  · subst hs
    cases hb
    exact he
  · cases hn : v.isNil with
    | true =>
      cases isNil_back hb hn
      have : encodeOption r ctx sub v = .ok b!"00" := by
        unfold encodeOption
        split
        · rfl
        · rw [if_pos hn]
      rw [this] at he
      cases he
      rfl
    | false =>
      obtain ⟨h1, h2⟩ := notNil_back hc hb hn hs
      have ha : argOf w = w := by cases w <;> first | rfl | simp [Val.isNil] at h1
      rw [ha]
      rw [encodeOption_other r ctx sub hn hs] at he
      rw [encodeOption_other r' ctx sub h1 h2]
      by_cases hsub : sub = b!"bool"
      · rw [if_pos hsub] at he ⊢
        split at he
        · cases hb
          exact he
        · cases he
      · rw [if_neg hsub] at he ⊢
        rw [Res.bind_eq_ok] at he
        obtain ⟨a, ha, he⟩ := he
        rw [F.back hc hb ha]
        exact he

theorem encodeEnum_back (ext : Ext) (ctx : ECtx) (vs : List Str) (tm : Option (List (Str × Str))) {v w : Val} {h : Str}
    (hc : cleanVal v = true) (hb : jsonBack v = some w)
    (ho : (∃ s, v = .str s) ∨ ∃ l m, tm = some l ∧ v = .map m ∧ isCLike l = false ∧ (findEntry l m).isSome = true)
    (he : encodeEnum ext r ctx vs tm v = .ok h) : encodeEnum ext r' ctx vs tm (argOf w) = .ok h := by
  rcases ho with ⟨s, rfl⟩ | ⟨l, m, rfl, rfl, hl, hf⟩
  · cases hb
    rw [jsonText_clean hc]
    exact (encodeEnum_mono F.same ext ctx vs tm _).ok he
  · obtain ⟨ms, rfl, h1, h2⟩ := asMap_back (m := m) hc hb rfl
    show encodeEnum ext r' ctx vs (some l) (.map ms) = _
    unfold encodeEnum at he ⊢
    simp only [hl, Bool.false_eq_true, if_false] at he ⊢
    obtain ⟨⟨i, t, x⟩, hx⟩ := Option.isSome_iff_exists.mp hf
    obtain ⟨c1, y, c2, c3⟩ := jsonBackMap_find l h1 h2 hx
    rw [hx] at he
    rw [c3]
    simp only at he ⊢
    cases hv : variantRows ext t with
    | some rows =>
      rw [hv] at he
      simp only at he ⊢
      rw [Res.bind_eq_ok] at he
      obtain ⟨vm, hvm, he⟩ := he
      rw [Res.bind_eq_ok] at he
      obtain ⟨b, hb', he⟩ := he
      obtain ⟨ws, rfl, d1, d2⟩ := asMap_back c1 c2 hvm
      show (do let vm ← Res.ok ws; let r ← encRows r' ctx vm rows; Res.ok (u8Encode i ++ r)) = _
      rw [Res.ok_bind, encRows_back F ctx d1 d2 hb']
      exact he
    | none =>
      rw [hv] at he
      simp only at he ⊢
      rw [Res.bind_eq_ok] at he
      obtain ⟨b, hb', he⟩ := he
      rw [F.back c1 c2 hb']
      exact he

omit F in
theorem compactShort_trunc {c e c' e' : Int} (h : decTrunc c e = decTrunc c' e') : decIntPart c e = decIntPart c' e' := by
  unfold decIntPart
  rw [h]

omit F in
theorem encodeCompact_trunc {ext : Ext} {v w : Val} {c e c' e' : Int} (hv : compactInput ext v = .ok (c, e))
    (hw : compactInput ext w = .ok (c', e')) (h : decTrunc c e = decTrunc c' e') : encodeCompact ext w = encodeCompact ext v := by
  unfold encodeCompact
  rw [hv, hw]
  simp only [Res.ok_bind]
  rw [compactShort_trunc h, h]

theorem encodeCls_back {ext : Ext} (hx : ExactFloats ext) (ctx : ECtx) (cls : Cls) (sub : Str) {v w : Val} {h : Str}
    (hc : cleanVal v = true) (hb : jsonBack v = some w) (ho : handedOut cls v = true)
    (he : encodeCls ext r ctx cls sub v = .ok h) : encodeCls ext r' ctx cls sub (argOf w) = .ok h := by
  have hs : ∀ {β : Type} {f : Str → Res β} {x : β}, (asStr v >>= f) = .ok x →
      encodeCls ext r' ctx cls sub (argOf w) = .ok h := by
    intro β f x hy
    rw [Res.bind_eq_ok] at hy
    obtain ⟨s, hy, _⟩ := hy
    rw [asStr_back hc hb hy]
    cases v <;> simp only [asStr, reduceCtorEq, Res.ok.injEq] at hy
    subst hy
    exact (encodeCls_mono F.same ext ctx cls sub _).ok he
  have hs' : ∀ {s : Str}, asStr v = .ok s → encodeCls ext r' ctx cls sub (argOf w) = .ok h := by
    intro s hy
    exact hs (f := fun s => .ok s) (by rw [hy]; rfl)
  cases cls
  case u8 =>
    obtain ⟨i, rfl, h1, h2⟩ := out_u8 ho
    cases hb
    rw [← he]
    simp only [encodeCls, encodeU8, argOf]
    rw [hx.toInt (floatBits_exact (by omega)) (by omega)]
  case u16 =>
    obtain ⟨n, rfl, h1⟩ := out_u16 ho
    cases hb
    rw [← he]
    simp only [encodeCls, encodeU16, argOf]
    rw [hx.toUint (floatBits_exact (by omega)) (by omega) h1]
  case u32 =>
    obtain ⟨n, rfl, h1⟩ := out_u32 ho
    cases hb
    rw [← he]
    simp only [encodeCls, encodeU32, argOf]
    rw [hx.toUint (floatBits_exact (by omega)) (by omega) h1]
  case u64 =>
    obtain ⟨n, rfl, h1⟩ := out_u64 ho
    cases hb
    rw [← he]
    simp only [encodeCls, encodeU64, argOf]
    rw [hx.toUint (floatBits_exact (by omega)) (by omega) (by omega)]
  case moment =>
    obtain ⟨n, rfl, h1⟩ := out_moment ho
    cases hb
    rw [← he]
    simp only [encodeCls, encodeU64, argOf]
    rw [hx.toUint (floatBits_exact (by omega)) (by omega) (by omega)]
  case u128 =>
    obtain ⟨s, rfl⟩ := out_u128 ho
    cases hb
    rw [jsonText_clean hc]
    exact he
  case balance =>
    obtain ⟨c, e, rfl, h1⟩ := out_balance ho
    cases hb
    obtain ⟨c', h2, h3⟩ := decimalText_parse (c := c) h1
    rw [← he]
    simp only [encodeCls, encodeU128, argOf, u128Input, h2]
    rw [h3]
    simp [decTrunc]
  case compact t =>
    rcases out_compact ho with ⟨n, rfl, h1⟩ | ⟨c, e, rfl, h1⟩ | ⟨i, rfl, h1⟩
    · cases hb
      obtain ⟨c, e, h2, h3⟩ := hx.toDec (floatBits_exact (i := (n : Int)) (by omega)) (by omega)
      rw [← he]
      refine encodeCompact_trunc (c := wrap64 n) (e := 0) (c' := c) (e' := e) rfl ?_ ?_
      · simp only [argOf, compactInput, h2]
      · rw [h3, wrap64_nat (by omega)]; simp [decTrunc]
    · cases hb
      obtain ⟨c', h2, h3⟩ := decimalText_parse (c := c) h1
      rw [← he]
      refine encodeCompact_trunc (c := c) (e := e) (c' := c') (e' := 0) rfl ?_ ?_
      · simp only [argOf, compactInput, h2]
      · rw [h3]; simp [decTrunc]
    · cases hb
      obtain ⟨c, e, h2, h3⟩ := hx.toDec (floatBits_exact h1) h1
      rw [← he]
      refine encodeCompact_trunc (c := i) (e := 0) (c' := c) (e' := e) rfl ?_ ?_
      · simp only [argOf, compactInput, h2]
      · rw [h3]; simp [decTrunc]
  case compactU32 =>
    obtain ⟨i, rfl, h1, h2⟩ := out_compactU32 ho
    cases hb
    rw [← he]
    simp only [encodeCls, encodeCompactU32, argOf]
    rw [hx.toInt (floatBits_exact (by omega)) (by omega)]
  case compactMoment =>
    obtain ⟨i, rfl, h1, h2⟩ := out_compactMoment ho
    cases hb
    rw [← he]
    simp only [encodeCls, encodeCompactU32, argOf]
    rw [hx.toInt (floatBits_exact (by omega)) (by omega)]
  case intFixed n =>
    obtain ⟨i, rfl, h1, h2⟩ := out_intFixed ho
    cases hb
    obtain ⟨c, e, h3, h4⟩ := hx.toDec (floatBits_exact h2) h2
    rw [← he]
    simp only [encodeCls, encodeIntFixed, argOf, intFixedInput, h3, h4]
    rw [if_neg (by omega), if_neg (by omega)]
  case enum vs tm => exact encodeEnum_back F ext ctx vs tm hc hb (out_enum ho) he
  case logDigest => exact encodeEnum_back F ext ctx _ none hc hb (Or.inl (out_logDigest ho)) he
  case fixedU64 => simp [handedOut] at ho
  case u256 => simp [handedOut] at ho
  case call => simp [handedOut] at ho
  case bool =>
    cases v <;> simp only [encodeCls, encodeBool, reduceCtorEq] at he
    cases hb
    exact he
  case fixedU8 n =>
    cases v <;> simp only [encodeCls, encodeFixedU8, reduceCtorEq] at he
    · cases hb
      rw [jsonText_clean hc]
      exact he
    · cases hb
  case data =>
    simp only [encodeCls, encodeData] at he
    rw [Res.bind_eq_ok] at he
    obtain ⟨m, hm, he⟩ := he
    obtain ⟨ms, rfl, h1, h2⟩ := asMap_back hc hb hm
    simp only [encodeCls, encodeData, argOf, asMap, Res.ok_bind]
    cases m with
    | nil => cases he
    | cons p m =>
      obtain ⟨k, x⟩ := p
      simp only [cleanMap, Bool.and_eq_true] at h1
      rw [jsonBackMap] at h2
      simp only [Option.bind_eq_bind, Option.bind_eq_some_iff] at h2
      obtain ⟨y, hy, ws, hws, h2⟩ := h2
      cases h2
      rw [jsonText_clean h1.1.1]
      simp only at he ⊢
      split at he
      · split at he
        · rename_i hk
          rw [if_pos hk]
          exact (F.same _ _ _).ok he
        · rename_i hk
          rw [if_neg hk]
          rw [Res.bind_eq_ok] at he
          obtain ⟨a, ha, he⟩ := he
          rw [Res.bind_eq_ok] at he
          obtain ⟨s, hs, he⟩ := he
          rw [Res.bind_eq_ok] at he
          obtain ⟨b, hb', he⟩ := he
          rw [(F.same _ _ _).ok ha, asStr_back h1.1.2 hy hs]
          simp only [Res.ok_bind, asStr]
          rw [(F.same _ _ _).ok hb']
          exact he
      · split at he
        · rename_i hk
          rw [if_pos hk]
          split at he
          · cases he
          · rw [Res.bind_eq_ok] at he
            obtain ⟨a, ha, he⟩ := he
            rw [Res.bind_eq_ok] at he
            obtain ⟨s, hs, he⟩ := he
            rw [(F.same _ _ _).ok ha, asStr_back h1.1.2 hy hs]
            exact he
        · cases he
  case result t =>
    simp only [encodeCls, encodeResult] at he
    rw [Res.bind_eq_ok] at he
    obtain ⟨m, hm, he⟩ := he
    obtain ⟨ms, rfl, h1, h2⟩ := asMap_back hc hb hm
    simp only [encodeCls, encodeResult, argOf, asMap, Res.ok_bind]
    have g1 := jsonBackMap_get h1 h2 b!"Ok"
    have g2 := jsonBackMap_get h1 h2 b!"Error"
    split at he
    · split at he
      · rename_i d hd
        rw [hd] at g1
        obtain ⟨c1, y, c2, c3⟩ := g1
        rw [c3]
        rw [Res.bind_eq_ok] at he
        obtain ⟨a, ha, he⟩ := he
        simp only
        rw [F.back c1 c2 ha]
        exact he
      · rename_i hd
        rw [hd] at g1
        rw [g1]
        simp only
        split at he
        · rename_i d hd
          rw [hd] at g2
          obtain ⟨c1, y, c2, c3⟩ := g2
          rw [c3]
          rw [Res.bind_eq_ok] at he
          obtain ⟨a, ha, he⟩ := he
          simp only
          rw [F.back c1 c2 ha]
          exact he
        · cases he
    · cases he
  case empty => exact he
  case hash => exact hs he
  case ethereumAddress => exact hs he
  case option t => exact encodeOption_back F ctx _ hc hb he
  case struct tm =>
    simp only [encodeCls, encodeStruct] at he
    rw [Res.bind_eq_ok] at he
    obtain ⟨m, hm, he⟩ := he
    obtain ⟨ms, rfl, h1, h2⟩ := asMap_back hc hb hm
    exact encFields_back F ctx h1 h2 he
  case bytes => exact hs he
  case opaqueCall => exact hs he
  case hexBytes => exact hs he
  case string => exact hs he
  case bitVec => exact hs he
  case accountId => exact hs' he
  case era => exact hs' he
  case vec t => exact encodeVec_back F ctx _ hc hb he
  case boundedVec t => exact encodeVec_back F ctx _ hc hb he
  case authoritiesChange => exact encodeVec_back F ctx _ hc hb he
  case fixedArray n t => exact encodeFixedArray_back F ctx n t hc hb he
  all_goals cases he

end

theorem argOf_back {v w : Val} (hb : jsonBack v = some w) : ∃ w', jsonBack (argOf v) = some w' ∧ argOf w' = argOf w := by
  cases v
  case nil =>
    cases hb
    exact ⟨_, rfl, rfl⟩
  all_goals exact ⟨w, hb, rfl⟩

theorem argOf_clean {v : Val} (hc : cleanVal v = true) : cleanVal (argOf v) = true := by
  cases v <;> first | exact hc | rfl

theorem encOut_le (env : Env) : ∀ n, ERecLe (encOut env n) (enc env n)
  | 0 => fun _ _ _ => Le.refl _
  | n + 1 => by
    intro ctx ty v
    rw [enc, encOut]
    split
    · exact Le.refl _
    · refine Le.bind (Le.refl _) (fun r => ?_)
      split
      · exact Le.refl _
      · split
        · exact Le.bind (encodeCls_mono (encOut_le env n) _ _ _ _ _) (fun _ => Le.refl _)
        · exact Or.inl rfl

theorem encOut_follows {env : Env} (hx : ExactFloats env.ext) : ∀ n, Follows (encOut env n) (enc env n)
  | 0 => ⟨encOut_le env 0, fun _ _ h => by cases h⟩
  | n + 1 => by
    refine ⟨encOut_le env (n + 1), ?_⟩
    intro ctx ty v w h hc hb he
    rw [encOut] at he
    rw [enc]
    split at he
    · rename_i hn
      rw [if_pos hn]
      exact he
    · rename_i hn
      rw [if_neg hn]
      rw [Res.bind_eq_ok] at he
      obtain ⟨r, hr, he⟩ := he
      rw [hr, Res.ok_bind]
      split at he
      · cases he
      · split at he
        · rename_i ho
          rw [Res.bind_eq_ok] at he
          obtain ⟨o, h1, he⟩ := he
          obtain ⟨w', hb', hw'⟩ := argOf_back hb
          have := encodeCls_back (encOut_follows hx n) hx _ _ _ (argOf_clean hc) hb' ho h1
          rw [hw'] at this
          simp only
          rw [this]
          exact he
        · cases he

end ScaleGo
