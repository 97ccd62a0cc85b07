import Verif.Props.C127

/-! # C128: what is encoded is the hex text of whole bytes

`EncodeWithOpt` returns a text that callers decode as hex, and hex that is not is read as zero bytes (C01). Most classes build the text from
bytes. Some hand on the text they are given: account ids, eras and hashes always, byte strings and arrays after `0x`, identity data if the
number in its key fits. -/

namespace ScaleGo

namespace Spec

/-- The text after a leading `0x`, if there is one. -/
def after0x : Str → Str
  | 48 :: 120 :: r => r
  | s => s

/-- The text given to a class that hands it on is hex. -/
def HexGiven : Cls → Val → Prop
  | .accountId, .str s | .era, .str s | .hash _, .str s | .ethereumAddress, .str s => ∃ b, after0x (_root_.Spec.asciiLower s) = _root_.Spec.hexText b
  | .hexBytes, .str s => ∀ c ∈ after0x s, _root_.Spec.IsHexChar c
  | .bytes, .str s | .opaqueCall, .str s => ∀ r, s = b!"0x" ++ r → ∀ c ∈ r, _root_.Spec.IsHexChar c
  | .fixedU8 _, .str s | .fixedArray _ _, .str s | .u256, .str s => ∀ r, s = b!"0x" ++ r → ∃ b, after0x (_root_.Spec.asciiLower r) = _root_.Spec.hexText b
  | .data, .map m => ∀ k s l, (k, .str s) ∈ m → scanInt (k.drop 3) = some l → wrap64 (l + 1) = s.length →
      ∃ b, _root_.Spec.asciiLower s = _root_.Spec.hexText b
  | _, _ => True

/-- The texts that encoding `v` by `t` hands on are hex, but for those within identity data. -/
def TextsHex (env : Env) (ctx : ECtx) (t : Str) (v : Val) : Prop :=
  ∀ u x, Visits env ctx t v u x → ∀ cls s, Resolves env [] ctx.spec u cls s → HexGiven cls (argOf x)

/-- All texts that encoding `v` by `t` hands on are hex. -/
def AllHexGiven (env : Env) (ctx : ECtx) (t : Str) (v : Val) : Prop :=
  TextsHex env ctx t v ∧ ∀ u m, Visits env ctx t v u (.map m) → ∀ s, Resolves env [] ctx.spec u .data s →
    ∀ k w x, (k, .str x) ∈ m → (k, w) ∈ dataTM → TextsHex env ECtx.none w (.str x)

/-- The call indices of the metadata are hex. -/
def HexIndices (md : Option MD) : Prop := ∀ d, md = some d → ∀ i e, d.callIndex i = some e → ∃ b, i = _root_.Spec.hexText b

end Spec

open ScaleGo.Spec (Alike AlikeList AlikeMap AlikeParams SortedJson EncStep Visits Decided Definite HexGiven TextsHex AllHexGiven HexIndices after0x)

/-! ## Hex texts -/

/-- The hex text of some bytes. -/
def IsHexText (s : Str) : Prop := ∃ b, s = bytesToHex b

theorem IsHexText.append {s t : Str} (hs : IsHexText s) (ht : IsHexText t) : IsHexText (s ++ t) := by
  obtain ⟨a, rfl⟩ := hs
  obtain ⟨b, rfl⟩ := ht
  exact ⟨a ++ b, (bytesToHex_append a b).symm⟩

theorem IsHexText.nil : IsHexText [] := ⟨[], rfl⟩
theorem IsHexText.u8 (i : Int) : IsHexText (u8Encode i) := ⟨_, rfl⟩
theorem IsHexText.of (b : Str) : IsHexText (bytesToHex b) := ⟨b, rfl⟩

/-- A text that `EncodeWithOpt` turns into the hex text of bytes. -/
def HexOut (s : Str) : Prop := IsHexText (trimHex (toLower s))

theorem IsHexText.out {s : Str} (h : IsHexText s) : HexOut s := by
  obtain ⟨b, rfl⟩ := h
  exact ⟨b, by rw [toLower_bytesToHex, trimHex_bytesToHex]⟩

theorem hexChar_lower (c : UInt8) (h : Spec.IsHexChar c) : ∃ d, d < 16 ∧ lowerByte c = hexDigit d := by
  have h16 : ∀ c : UInt8, ((48 ≤ c.toNat ∧ c.toNat ≤ 57) ∨ (97 ≤ c.toNat ∧ c.toNat ≤ 102) ∨ (65 ≤ c.toNat ∧ c.toNat ≤ 70)) →
      ∃ d : Fin 16, lowerByte c = hexDigit d.val :=
    forall_byte (P := fun c => ((48 ≤ c.toNat ∧ c.toNat ≤ 57) ∨ (97 ≤ c.toNat ∧ c.toNat ≤ 102) ∨ (65 ≤ c.toNat ∧ c.toNat ≤ 70)) →
      ∃ d : Fin 16, lowerByte c = hexDigit d.val) (by decide +kernel)
  obtain ⟨d, hd⟩ := h16 c h
  exact ⟨d.val, d.isLt, hd⟩

/-- An even number of hex digits is the hex text of bytes, but for letter case. -/
theorem digits_hex : ∀ (k : Nat) {s : Str}, s.length = 2 * k → (∀ c ∈ s, Spec.IsHexChar c) → IsHexText (toLower s)
  | 0, s, hl, _ => by
    obtain rfl : s = [] := List.eq_nil_of_length_eq_zero (by omega)
    exact .nil
  | k + 1, a :: c :: s, hl, hd => by
    have ih := digits_hex k (s := s) (by simp at hl; omega) fun x hx => hd x (by simp [hx])
    obtain ⟨x, hx, hx'⟩ := hexChar_lower a (hd a (by simp))
    obtain ⟨y, hy, hy'⟩ := hexChar_lower c (hd c (by simp))
    have : IsHexText [hexDigit x, hexDigit y] := ⟨[UInt8.ofNat (16 * x + y)], by
      have e : (UInt8.ofNat (16 * x + y)).toNat = 16 * x + y := by
        rw [UInt8.toNat_ofNat']
        omega
      simp only [bytesToHex, e]
      rw [show (16 * x + y) / 16 = x by omega, show (16 * x + y) % 16 = y by omega]⟩
    have e : toLower (a :: c :: s) = [hexDigit x, hexDigit y] ++ toLower s := by simp [toLower, hx', hy']
    rw [e]
    exact this.append ih
  | k + 1, [], hl, _ => by simp at hl
  | k + 1, [_], hl, _ => by simp at hl; omega

theorem evenHex_lower {s : Str} (h : ∀ c ∈ s, Spec.IsHexChar c) : IsHexText (toLower (evenHex s)) := by
  unfold evenHex
  split
  · refine digits_hex ((s.length + 1) / 2) (by simp; omega) fun c hc => ?_
    rcases List.mem_append.mp hc with hc | hc
    · exact h c hc
    · simp only [List.mem_singleton] at hc
      subst hc
      unfold Spec.IsHexChar
      decide
  · exact digits_hex (s.length / 2) (by omega) h

theorem trimHex_after (s : Str) : trimHex s = after0x s := by
  unfold after0x
  split
  · rename_i r
    exact trimHex_0x r
  · rename_i hne
    unfold trimHex trimPrefix
    rw [if_neg]
    intro hp
    obtain ⟨r, rfl⟩ := List.isPrefixOf_iff_prefix.mp hp
    exact hne r rfl

theorem hexOut_iff {s : Str} : HexOut s ↔ ∃ b, after0x (Spec.asciiLower s) = Spec.hexText b := by
  unfold HexOut IsHexText
  simp only [trimHex_after, toLower_eq_spec, bytesToHex_eq_spec]

theorem lower_addHex (s : Str) : trimHex (toLower (addHex (toLower s))) = trimHex (toLower s) := by
  have hi : toLower (toLower s) = toLower s := by
    have : ∀ c : UInt8, lowerByte (lowerByte c) = lowerByte c := forall_byte (P := fun c => lowerByte (lowerByte c) = lowerByte c) (by decide +kernel)
    simp [toLower, this]
  unfold addHex
  split
  · rw [hi]
  · rename_i hp
    have e : toLower (b!"0x" ++ toLower s) = b!"0x" ++ toLower (toLower s) := by
      rw [show toLower (b!"0x" ++ toLower s) = toLower b!"0x" ++ toLower (toLower s) by simp [toLower]]
      rfl
    rw [e, trimHex_0x, hi]
    unfold trimHex trimPrefix
    rw [if_neg hp]

theorem joined_out {a : Str} {s : Str} (h : IsHexText (toLower s)) : HexOut (bytesToHex a ++ s) := by
  obtain ⟨b, hb⟩ := h
  refine ⟨a ++ b, ?_⟩
  have e : toLower (bytesToHex a ++ s) = bytesToHex (a ++ b) := by
    rw [bytesToHex_append, ← hb]
    conv_rhs => rw [← toLower_bytesToHex a]
    simp [toLower]
  rw [e, trimHex_bytesToHex]

/-! ## The classes -/

section
variable {ext : Ext} {rec : ERec} {ctx : ECtx}

/-- What is wanted of encodings. -/
def RecHex (rec : ERec) (ctx : ECtx) (u : Str) (x : Val) : Prop := ∀ s, rec ctx u x = .ok s → IsHexText s

theorem encList_hex {u : Str} {f : Str → Str} (hf : ∀ b, f (bytesToHex b) = bytesToHex b) : ∀ {l : List Val} {out : Str}, (∀ x ∈ l, RecHex rec ctx u x) →
    encList rec ctx u f l = .ok out → IsHexText out
  | [], out, _, h => by cases h; exact .nil
  | v :: l, out, hr, h => by
    rw [encList] at h
    obtain ⟨a, h1, h⟩ := Res.bind_eq_ok.mp h
    obtain ⟨b, h2, h⟩ := Res.bind_eq_ok.mp h
    cases h
    obtain ⟨a, rfl⟩ := hr v (by simp) _ h1
    rw [hf]
    exact (IsHexText.of a).append (encList_hex hf (fun x hx => hr x (by simp [hx])) h2)

theorem encFields_hex {m : List (Str × Val)} : ∀ {fs : List (Str × Str)} {out : Str}, (∀ n u, (n, u) ∈ fs → RecHex rec ctx u ((mapGet m n).getD .nil)) →
    encFields rec ctx m fs = .ok out → IsHexText out
  | [], out, _, h => by cases h; exact .nil
  | (n, u) :: fs, out, hr, h => by
    rw [encFields] at h
    obtain ⟨a, h1, h⟩ := Res.bind_eq_ok.mp h
    obtain ⟨b, h2, h⟩ := Res.bind_eq_ok.mp h
    cases h
    exact (hr n u (by simp) _ h1).append (encFields_hex (fun n u hm => hr n u (by simp [hm])) h2)

theorem encRows_hex {m : List (Str × Val)} : ∀ {fs : List (List Str)} {out : Str}, (∀ n u r, (n :: u :: r) ∈ fs → RecHex rec ctx u ((mapGet m n).getD .nil)) →
    encRows rec ctx m fs = .ok out → IsHexText out
  | [], out, _, h => by cases h; exact .nil
  | (n :: u :: r) :: fs, out, hr, h => by
    rw [encRows] at h
    obtain ⟨a, h1, h⟩ := Res.bind_eq_ok.mp h
    obtain ⟨b, h2, h⟩ := Res.bind_eq_ok.mp h
    cases h
    exact (hr n u r (by simp) _ h1).append (encRows_hex (fun n u r hm => hr n u r (by simp [hm])) h2)
  | [] :: _, _, _, h => by cases h
  | [_] :: _, _, _, h => by cases h

theorem encArgs_hex : ∀ (as : List (Str × Str)) {l : List Val} {out : Str}, (∀ n u x, ((n, u), x) ∈ as.zip l → RecHex rec ctx u x) →
    encArgs rec ctx as l = .ok out → IsHexText out
  | [], _, out, _, h => by cases h; exact .nil
  | _ :: _, [], _, _, h => by cases h
  | (n, t) :: as, v :: l, out, hr, h => by
    rw [encArgs] at h
    obtain ⟨a, h1, h⟩ := Res.bind_eq_ok.mp h
    obtain ⟨b, h2, h⟩ := Res.bind_eq_ok.mp h
    cases h
    exact (hr n t v (by simp) _ h1).append (encArgs_hex as (fun n u x hx => hr n u x (by simp [hx])) h2)

theorem encodeVec_hex {u : Str} {v : Val} {out : Str} (hi : ∀ u i, RecHex rec ECtx.none u (.int i)) (hr : ∀ l, v.elems? = some l → ∀ x ∈ l, RecHex rec ctx u x)
    (h : encodeVec rec ctx u v = .ok out) : IsHexText out := by
  unfold encodeVec at h
  split at h
  · exact hi _ _ _ h
  · split at h
    · rename_i l hl
      obtain ⟨a, h1, h⟩ := Res.bind_eq_ok.mp h
      obtain ⟨b, h2, h⟩ := Res.bind_eq_ok.mp h
      cases h
      exact (hi _ _ _ h1).append (encList_hex trimHex_bytesToHex (hr l hl) h2)
    · cases h

theorem hexOrText_iff {s : Str} : HexOut (hexOrText s) ↔ ∀ r, s = b!"0x" ++ r → ∃ b, after0x (Spec.asciiLower r) = Spec.hexText b := by
  unfold hexOrText
  split
  · rename_i hp
    obtain ⟨r, rfl⟩ := List.isPrefixOf_iff_prefix.mp hp
    rw [trimHex_0x, hexOut_iff]
    exact ⟨fun h r' hr => by cases List.append_cancel_left hr; exact h, fun h => h r rfl⟩
  · rename_i hp
    exact iff_of_true (IsHexText.of s).out fun r hr => absurd (List.isPrefixOf_iff_prefix.mpr ⟨r, hr.symm⟩) hp

theorem hexOrText_out {s : Str} (hs : ∀ r, s = b!"0x" ++ r → ∃ b, after0x (Spec.asciiLower r) = Spec.hexText b) : HexOut (hexOrText s) :=
  hexOrText_iff.mpr hs

theorem encodeArray_hex {k : Int} {u : Str} {v : Val} {out : Str} (hs : HexGiven (.fixedArray k u) v) (hr : ∀ l, v.elems? = some l → ∀ x ∈ l, RecHex rec ctx u x)
    (h : encodeFixedArray rec ctx k u v = .ok out) : HexOut out := by
  unfold encodeFixedArray at h
  split at h
  · split at h
    · cases h; exact IsHexText.nil.out
    · cases h; exact hexOrText_out hs
  · split at h
    · rename_i l hl
      split at h
      · cases h
      · exact (encList_hex (fun _ => rfl) (hr l hl) h).out
    · cases h

theorem encodeOption_hex {u : Str} {v : Val} {out : Str} (hr : RecHex rec ctx u v) (h : encodeOption rec ctx u v = .ok out) : IsHexText out := by
  unfold encodeOption at h
  split at h
  · cases h; exact ⟨[0], rfl⟩
  · split at h
    · cases h; exact ⟨[0], rfl⟩
    · split at h
      · split at h
        · cases h
          split
          · exact ⟨[1], rfl⟩
          · exact ⟨[2], rfl⟩
        · cases h
      · obtain ⟨r, h1, h⟩ := Res.bind_eq_ok.mp h
        cases h
        exact IsHexText.append ⟨[1], rfl⟩ (hr _ h1)

theorem encodeEnum_hex {s : Str} {vs : List Str} {tm : Option (List (Str × Str))} {v : Val} {out : Str}
    (hr : ∀ u x, EncStep ext ctx.md (.enum vs tm) s v u x → RecHex rec ctx u x) (h : encodeEnum ext rec ctx vs tm v = .ok out) : IsHexText out := by
  have hf : (match sliceIndex (ext.toStr v) vs with
    | some i => .ok (u8Encode i)
    | none => .ok [] : Res Str) = .ok out → IsHexText out := by
    intro h
    split at h
    · cases h; exact .u8 _
    · cases h; exact .nil
  unfold encodeEnum at h
  cases tm with
  | none => exact hf h
  | some tm =>
    dsimp only at h
    split at h
    · cases h; exact .u8 _
    · split at h
      · rename_i m _
        split at h
        · rename_i i w y he
          obtain ⟨k, hk, hv⟩ := findEntry_some he
          have ht := findVariant_entry hv
          split at h
          · rename_i rows hrows
            cases y with
            | map vm =>
              simp only [asMap, Res.ok_bind] at h
              obtain ⟨r, h1, h⟩ := Res.bind_eq_ok.mp h
              cases h
              exact (IsHexText.u8 _).append (encRows_hex (fun n u r hm => hr _ _ (.variantField rfl ht hk hrows hm)) h1)
            | _ => cases h
          · rename_i hrows
            obtain ⟨r, h1, h⟩ := Res.bind_eq_ok.mp h
            cases h
            exact (IsHexText.u8 _).append (hr _ _ (.variant rfl ht hk hrows) _ h1)
        · exact hf h
      · split at h
        · cases h; exact .u8 _
        · exact hf h
      · exact hf h

theorem encodeResult_hex {t s : Str} {v : Val} {out : Str} (hr : ∀ u x, EncStep ext ctx.md (.result t) s v u x → RecHex rec ctx u x)
    (h : encodeResult rec ctx (effSub t s) v = .ok out) : IsHexText out := by
  unfold encodeResult at h
  cases v with
  | map m =>
    simp only [asMap, Res.ok_bind] at h
    split at h
    · rename_i a e hs
      split at h
      · rename_i d hd
        obtain ⟨r, h1, h⟩ := Res.bind_eq_ok.mp h
        cases h
        exact IsHexText.append ⟨[0], rfl⟩ (hr _ _ (.ok rfl hs (mapGet_mem' hd)) _ h1)
      · split at h
        · rename_i d hd
          obtain ⟨r, h1, h⟩ := Res.bind_eq_ok.mp h
          cases h
          exact IsHexText.append ⟨[1], rfl⟩ (hr _ _ (.error rfl hs (mapGet_mem' hd)) _ h1)
        · cases h
    · cases h
  | _ => cases h

theorem encodeCall_hex {s : Str} {v : Val} {out : Str} (hm : HexIndices ctx.md) (hr : ∀ u x, EncStep ext ctx.md .call s v u x → RecHex rec ctx u x)
    (h : encodeCall ext rec ctx v = .ok out) : IsHexText out := by
  unfold encodeCall at h
  split at h
  · cases h
  rename_i d hd
  obtain ⟨⟨i, ps, as⟩, h1, h⟩ := Res.bind_eq_ok.mp h
  dsimp only at h
  split at h
  · cases h
  rename_i e he
  obtain ⟨r, h2, h⟩ := Res.bind_eq_ok.mp h
  cases h
  obtain ⟨b, hb⟩ := hm d hd _ e he
  rw [hb, ← bytesToHex_eq_spec]
  exact (IsHexText.of b).append (encArgs_hex e.args (fun n u x hx => hr _ _ (.arg rfl hd h1 he hx)) h2)

theorem typeMap_at {k : Str} : ∀ {tm : List (Str × Str)} {i : Nat}, sliceIndex k (tm.map Prod.fst) = some i → (k, (tm.map Prod.snd).getD i []) ∈ tm
  | [], _, h => by cases h
  | (a, w) :: tm, i, h => by
    simp only [List.map_cons, sliceIndex] at h
    split at h
    · rename_i ha
      cases h
      simp [← ha]
    · obtain ⟨j, hj, rfl⟩ := Option.map_eq_some_iff.mp h
      have := typeMap_at hj
      simp only [List.map_cons, List.getD_cons_succ, List.mem_cons]
      exact .inr this

theorem encodeData_hex {v : Val} {out : Str} (hs : HexGiven .data v) (hi : ∀ u i, RecHex rec ECtx.none u (.int i))
    (hn : ∀ m, v = .map m → ∀ k w x, (k, .str x) ∈ m → (k, w) ∈ dataTM → RecHex rec ECtx.none w (.str x))
    (h : encodeData rec v = .ok out) : HexOut out := by
  unfold encodeData at h
  cases v with
  | map m =>
    simp only [asMap, Res.ok_bind] at h
    split at h
    · cases h
    rename_i k y m
    split at h
    · rename_i i hk
      split at h
      · exact (hi _ _ _ h).out
      · obtain ⟨a, h1, h⟩ := Res.bind_eq_ok.mp h
        obtain ⟨x, h2, h⟩ := Res.bind_eq_ok.mp h
        obtain ⟨b, h3, h⟩ := Res.bind_eq_ok.mp h
        cases h
        cases y with
        | str y =>
          cases h2
          refine ((hi _ _ _ h1).append (hn _ rfl k _ _ (by simp) ?_ _ h3)).out
          exact typeMap_at hk
        | _ => cases h2
    · split at h
      · split at h
        · cases h
        rename_i l hl
        obtain ⟨a, h1, h⟩ := Res.bind_eq_ok.mp h
        cases y with
        | str y =>
          obtain ⟨a, rfl⟩ := hi _ _ _ h1
          simp only [asStr, Res.ok_bind] at h
          split at h
          · rename_i hlen
            cases h
            obtain ⟨b, hb⟩ := hs k y l (by simp) hl hlen
            exact joined_out ⟨b, by rw [toLower_eq_spec, bytesToHex_eq_spec, hb]⟩
          · cases h
            exact ((IsHexText.of a).append (.of y)).out
        | _ => cases h
      · cases h
  | _ => cases h

theorem encodeBytes_hex {v : Val} {out : Str} (hs : HexGiven .bytes v) (hi : ∀ u i, RecHex rec ECtx.none u (.int i)) (h : encodeBytes rec v = .ok out) :
    HexOut out := by
  cases v with
  | str s =>
    unfold encodeBytes at h
    simp only [asStr, Res.ok_bind] at h
    obtain ⟨l, h1, h⟩ := Res.bind_eq_ok.mp h
    cases h
    obtain ⟨a, rfl⟩ := hi _ _ _ h1
    split
    · rename_i hp
      obtain ⟨r, rfl⟩ := List.isPrefixOf_iff_prefix.mp hp
      rw [trimHex_0x]
      exact joined_out (evenHex_lower (hs r rfl))
    · exact ((IsHexText.of a).append (.of s)).out
  | _ => cases h

theorem encodeHexBytes_hex {v : Val} {out : Str} (hs : HexGiven .hexBytes v) (hi : ∀ u i, RecHex rec ECtx.none u (.int i)) (h : encodeHexBytes rec v = .ok out) :
    HexOut out := by
  cases v with
  | str s =>
    unfold encodeHexBytes at h
    simp only [asStr, Res.ok_bind] at h
    obtain ⟨l, h1, h⟩ := Res.bind_eq_ok.mp h
    cases h
    obtain ⟨a, rfl⟩ := hi _ _ _ h1
    rw [trimHex_after]
    exact joined_out (evenHex_lower hs)
  | _ => cases h

theorem encodeString_hex {v : Val} {out : Str} (hi : ∀ u i, RecHex rec ECtx.none u (.int i)) (h : encodeString rec v = .ok out) : IsHexText out := by
  cases v with
  | str s =>
    unfold encodeString at h
    simp only [asStr, Res.ok_bind] at h
    obtain ⟨l, h1, h⟩ := Res.bind_eq_ok.mp h
    cases h
    exact (hi _ _ _ h1).append (.of s)
  | _ => cases h

theorem encodeBitVec_hex {v : Val} {out : Str} (hi : ∀ u i, RecHex rec ECtx.none u (.int i)) (h : encodeBitVec rec v = .ok out) : IsHexText out := by
  cases v with
  | str s =>
    unfold encodeBitVec at h
    simp only [asStr, Res.ok_bind] at h
    obtain ⟨l, h1, h⟩ := Res.bind_eq_ok.mp h
    cases h
    exact (hi _ _ _ h1).append (.of _)
  | _ => cases h

theorem encodeHash_hex {v : Val} {out : Str} (hs : ∀ s, v = .str s → ∃ b, after0x (Spec.asciiLower s) = Spec.hexText b) (h : encodeHash v = .ok out) : HexOut out := by
  cases v with
  | str s =>
    unfold encodeHash at h
    simp only [asStr, Res.ok_bind] at h
    cases h
    unfold HexOut
    rw [lower_addHex]
    exact hexOut_iff.mpr (hs s rfl)
  | _ => cases h

theorem encodeU256_hex {v : Val} {out : Str} (hs : HexGiven .u256 v) (h : encodeU256 v = .ok out) : HexOut out := by
  unfold encodeU256 at h
  dsimp only at h
  split at h
  · rename_i s
    split at h
    · cases h; exact IsHexText.nil.out
    · have := hexOrText_out hs
      unfold hexOrText at this
      split at h
      · cases h
        rename_i hp
        rwa [if_pos hp] at this
      · cases h
        exact (IsHexText.of _).out
  · cases h; exact (IsHexText.of _).out
  · cases h; exact (IsHexText.of _).out
  · cases h

theorem encodeCls_hex {cls : Cls} {s : Str} {v : Val} {out : Str} (hs : HexGiven cls v) (hm : HexIndices ctx.md) (hi : ∀ u i, RecHex rec ECtx.none u (.int i))
    (hn : cls = .data → ∀ m, v = .map m → ∀ k w x, (k, .str x) ∈ m → (k, w) ∈ dataTM → RecHex rec ECtx.none w (.str x))
    (hr : ∀ u x, EncStep ext ctx.md cls s v u x → RecHex rec ctx u x) (h : encodeCls ext rec ctx cls s v = .ok out) : HexOut out := by
  cases cls with
  | option t => exact (encodeOption_hex (hr _ _ (.option rfl)) h).out
  | struct tm =>
    simp only [encodeCls, encodeStruct] at h
    cases v with
    | map m =>
      refine (encFields_hex (fun n u hn => ?_) h).out
      cases tm with
      | none => cases hn
      | some tm => exact hr _ _ (.field rfl hn)
    | _ => cases h
  | enum vs tm => exact (encodeEnum_hex hr h).out
  | logDigest => exact (encodeEnum_hex (ctx := ctx) (rec := rec) (ext := ext) (s := s) (tm := none) (fun u x hx => (logDigest_step hx rfl).elim) h).out
  | bytes => exact encodeBytes_hex hs hi h
  | opaqueCall => exact encodeBytes_hex (by cases v <;> exact hs) hi h
  | hexBytes => exact encodeHexBytes_hex hs hi h
  | string => exact (encodeString_hex hi h).out
  | bitVec => exact (encodeBitVec_hex hi h).out
  | vec t => exact (encodeVec_hex hi (fun l hl x hx => hr _ _ (.vec rfl hl hx)) h).out
  | boundedVec t => exact (encodeVec_hex hi (fun l hl x hx => hr _ _ (.boundedVec rfl hl hx)) h).out
  | authoritiesChange => exact (encodeVec_hex hi (fun l hl x hx => hr _ _ (.authorities rfl hl hx)) h).out
  | call => exact (encodeCall_hex hm hr h).out
  | data => exact encodeData_hex hs hi (hn rfl) h
  | result t => exact (encodeResult_hex hr h).out
  | fixedArray k t => exact encodeArray_hex hs (fun l hl x hx => hr _ _ (.array rfl hl hx)) h
  | hash k => exact encodeHash_hex (by rintro x rfl; exact hs) h
  | ethereumAddress => exact encodeHash_hex (by rintro x rfl; exact hs) h
  | accountId | era =>
    cases v with
    | str x =>
      cases h
      exact hexOut_iff.mpr hs
    | _ => cases h
  | u256 => exact encodeU256_hex hs h
  | u128 | balance =>
    simp only [encodeCls, encodeU128] at h
    obtain ⟨i, _, h⟩ := Res.bind_eq_ok.mp h
    obtain ⟨u, _, h⟩ := Res.bind_eq_ok.mp h
    cases h
    exact (IsHexText.of _).out
  | compact t =>
    simp only [encodeCls, encodeCompact] at h
    obtain ⟨i, _, h⟩ := Res.bind_eq_ok.mp h
    split at h
    · cases h; exact (IsHexText.of _).out
    · split at h
      · cases h; exact IsHexText.nil.out
      · cases h; exact (IsHexText.of _).out
  | intFixed k =>
    simp only [encodeCls, encodeIntFixed] at h
    split at h
    · split at h
      · cases h
      · split at h
        · cases h
        · cases h; exact (IsHexText.of _).out
    · obtain ⟨i, _, h⟩ := Res.bind_eq_ok.mp h
      obtain ⟨u, _, h⟩ := Res.bind_eq_ok.mp h
      cases h
      exact (IsHexText.of _).out
  | fixedU8 k =>
    cases v with
    | str x => cases h; exact hexOrText_out hs
    | bytes x =>
      cases h
      rw [trimHex_bytesToHex]
      exact (IsHexText.of _).out
    | _ => cases h
  | bool =>
    cases v with
    | bool b =>
      cases h
      cases b
      · exact IsHexText.out ⟨[0], rfl⟩
      · exact IsHexText.out ⟨[1], rfl⟩
    | _ => cases h
  | empty => cases h; exact IsHexText.nil.out
  | u8 | u16 | u32 | u64 | moment | fixedU64 | compactU32 | compactMoment => cases h; exact (IsHexText.of _).out
  | _ => cases h

end

/-! ## Integers and texts lead to themselves only -/

theorem step_same {ext : Ext} {cls : Cls} {s u : Str} {v x : Val} (hv : (∃ i, v = .int i) ∨ ∃ t, v = .str t) (h : EncStep ext none cls s v u x) : x = v := by
  rcases hv with ⟨i, rfl⟩ | ⟨i, rfl⟩ <;> cases h <;> first | rfl | contradiction

theorem visits_same {env : Env} {n : Int} {t u : Str} {v x : Val} (hv : (∃ i, v = .int i) ∨ ∃ s, v = .str s) (h : Visits env ⟨n, none⟩ t v u x) : x = v := by
  induction h with
  | here => rfl
  | @next t u w s v x y cls hr hs _ ih =>
    have ha : argOf v = v := by rcases hv with ⟨i, rfl⟩ | ⟨i, rfl⟩ <;> rfl
    rw [ha] at hs
    have := step_same hv hs
    subst this
    exact ih hv

theorem int_given (cls : Cls) (i : Int) : HexGiven cls (.int i) := by cases cls <;> trivial

theorem int_allHex (env : Env) (n : Int) (t : Str) (i : Int) : AllHexGiven env ⟨n, none⟩ t (.int i) := by
  refine ⟨fun u x h cls s _ => ?_, fun u m h => ?_⟩
  · rw [visits_same (.inl ⟨i, rfl⟩) h]
    exact int_given cls i
  · have := visits_same (.inl ⟨i, rfl⟩) h
    cases this

theorem str_allHex {env : Env} {n : Int} {t x : Str} (h : TextsHex env ⟨n, none⟩ t (.str x)) : AllHexGiven env ⟨n, none⟩ t (.str x) := by
  refine ⟨h, fun u m h => ?_⟩
  have := visits_same (.inr ⟨x, rfl⟩) h
  cases this

theorem enc_hex {env : Env} : ∀ (n : Nat) {ctx : ECtx} {t : Str} {v : Val}, HexIndices ctx.md → AllHexGiven env ctx t v → RecHex (enc env n) ctx t v
  | 0, _, _, _, _, _, _, h => by cases h
  | n + 1, ctx, t, v, hm, hd, out, h => by
    rw [enc] at h
    split at h
    · cases h; exact .nil
    obtain ⟨r, hc, h⟩ := Res.bind_eq_ok.mp h
    cases r with
    | none => cases h
    | some p =>
      obtain ⟨cls, s⟩ := p
      obtain ⟨o, ho, h⟩ := Res.bind_eq_ok.mp h
      cases h
      have h0 : HexIndices ECtx.none.md := fun d hd => by cases hd
      refine encodeCls_hex (hd.1 t v (.here t v) cls s hc) hm (fun u i => enc_hex n h0 (int_allHex env _ u i)) ?_
        (fun u x hx => enc_hex n hm ⟨fun w y hw => hd.1 w y (.next hc hx hw), fun w m hw => hd.2 w m (.next hc hx hw)⟩) ho
      rintro rfl m hv k w x hk hw
      have : v = .map m := by cases v <;> first | exact hv | cases hv
      subst this
      exact enc_hex n h0 (str_allHex (hd.2 t m (.here t _) s hc k w x hk hw))

/-! ## The properties -/

/-- The full property: whatever `Encode` returns is the hex text of whole bytes. -/
def C128Claim : Prop := ∀ (ext : Ext) (fuel : Nat) (l : List (Str × TypeDef)) (rs : RegState), regCustomTypes fuel ⟨baseEnv ext, fun _ => none⟩ l = .ok rs →
  ∀ (ctx : ECtx), HexIndices ctx.md → ∀ (t : Str) (v : Val) (n : Nat) (out : Str), enc rs.env n ctx t v = .ok out → ∃ b, out = _root_.Spec.hexText b

/-- C128, as far as it holds: if the texts that are handed on as they are (account ids, hashes, eras, `0x` texts, the letters of hex bytes and of
identity data) are hex themselves, then what `Encode` returns is the hex text of whole bytes, whatever the value and the type. -/
theorem C128_partial (env : Env) (ctx : ECtx) (hm : HexIndices ctx.md) (t : Str) (v : Val) (hv : AllHexGiven env ctx t v) (n : Nat) (out : Str)
    (h : enc env n ctx t v = .ok out) : ∃ b, out = _root_.Spec.hexText b := by
  obtain ⟨b, hb⟩ := enc_hex n hm hv out h
  exact ⟨b, by rw [hb, bytesToHex_eq_spec]⟩

/-- Integers need no hypothesis: whatever type they are encoded by, if a text comes out it is that of whole bytes. -/
theorem C128_int (env : Env) (spec : Int) (t : Str) (i : Int) (n : Nat) (out : Str) (h : enc env n ⟨spec, none⟩ t (.int i) = .ok out) :
    ∃ b, out = _root_.Spec.hexText b :=
  C128_partial env ⟨spec, none⟩ (fun d hd => by cases hd) t (.int i) (int_allHex env spec t i) n out h

/-- What becomes of a text that is given as an account id or an era: it is returned as it is, in lower case and without `0x`, hex or not. -/
theorem C128_text_returned (env : Env) (ctx : ECtx) (t s x : Str) (cls : Cls) (hc : cls = .accountId ∨ cls = .era) (hr : EncResolves env ctx t cls s) (n : Nat) :
    enc env (n + 1) ctx t (.str x) = .ok (after0x (_root_.Spec.asciiLower x)) := by
  rw [enc_resolves n _ hr, ← toLower_eq_spec, ← trimHex_after]
  rcases hc with rfl | rfl <;> rfl

/-- The classes that hand a text on as it is, but for letter case and `0x`. -/
def HandsOn : Cls → Prop
  | .accountId | .era | .hash _ | .ethereumAddress | .fixedU8 _ | .fixedArray _ _ | .u256 => True
  | _ => False

/-- For these classes the condition is exact: what comes out is the hex text of whole bytes if and only if the text handed on is hex. -/
theorem C128_exact (env : Env) (ctx : ECtx) (t s x : Str) (cls : Cls) (hc : HandsOn cls) (hr : EncResolves env ctx t cls s) (n : Nat) :
    ∃ out, enc env (n + 1) ctx t (.str x) = .ok out ∧ ((∃ b, out = _root_.Spec.hexText b) ↔ HexGiven cls (.str x)) := by
  have key : ∀ o, encodeCls env.ext (enc env n) ctx cls s (.str x) = .ok o → (HexOut o ↔ HexGiven cls (.str x)) →
      ∃ out, enc env (n + 1) ctx t (.str x) = .ok out ∧ ((∃ b, out = _root_.Spec.hexText b) ↔ HexGiven cls (.str x)) := by
    intro o ho hi
    refine ⟨trimHex (toLower o), by rw [enc_resolves n _ hr]; exact congrArg (· >>= _) ho, ?_⟩
    rw [← hi]
    unfold HexOut IsHexText
    simp only [bytesToHex_eq_spec]
  cases cls with
  | accountId | era => exact key x rfl hexOut_iff
  | hash | ethereumAddress =>
    refine key _ rfl ?_
    unfold HexOut
    rw [lower_addHex]
    exact hexOut_iff
  | fixedU8 => exact key _ rfl hexOrText_iff
  | fixedArray k u =>
    by_cases he : x = []
    · subst he
      exact key [] rfl (iff_of_true IsHexText.nil.out fun r hr => by cases hr)
    · refine key _ ?_ hexOrText_iff
      simp [encodeCls, encodeFixedArray, he]
  | u256 =>
    by_cases he : x = []
    · subst he
      exact key [] rfl (iff_of_true IsHexText.nil.out fun r hr => by cases hr)
    · refine key (hexOrText x) ?_ hexOrText_iff
      simp only [encodeCls, encodeU256, he, if_false, hexOrText]
      split <;> rfl
  | _ => exact hc.elim

theorem C128_claim_false : ¬ C128Claim := by
  intro h
  have e : enc (baseEnv dummyExt) 3 ⟨0, none⟩ b!"AccountId" (.str b!"hello") = .ok b!"hello" := by kernel_rfl
  have hr : regCustomTypes 1 ⟨baseEnv dummyExt, fun _ => none⟩ [] = .ok ⟨baseEnv dummyExt, fun _ => none⟩ := rfl
  obtain ⟨b, hb⟩ := h dummyExt 1 [] _ hr ⟨0, none⟩ (fun d hd => by cases hd) _ _ 3 _ e
  have := congrArg List.length hb
  rw [← bytesToHex_eq_spec, bytesToHex_length] at this
  simp at this
  omega

theorem allHex_of {env : Env} {ctx : ECtx} {t s : Str} {v : Val} {cls : Cls} (hr : Resolves env [] ctx.spec t cls s) (hg : HexGiven cls (argOf v)) (hd : cls ≠ .data)
    (hs : ∀ u x, EncStep env.ext ctx.md cls s (argOf v) u x → AllHexGiven env ctx u x) : AllHexGiven env ctx t v := by
  refine ⟨fun u x hx => ?_, fun u m hx => ?_⟩
  · cases hx with
    | here => intro c w hc; cases Res.ok.inj (hr.symm.trans hc); exact hg
    | next h1 h2 h3 => cases Res.ok.inj (hr.symm.trans h1); exact (hs _ _ h2).1 _ _ h3
  · cases hx with
    | here => intro w hc; cases Res.ok.inj (hr.symm.trans hc); exact absurd rfl hd
    | next h1 h2 h3 => cases Res.ok.inj (hr.symm.trans h1); exact (hs _ _ h2).2 _ _ h3

/-- A text of odd length inside a struct shifts what follows by half a byte. -/
example : (orderReg dummyExt >>= fun rs => enc rs.env 9 ⟨0, none⟩ b!"(AccountId, u8)" (.map [(b!"col1", .str b!"abc"), (b!"col2", .int 7)])) = .ok b!"abc07" := by
  kernel_rfl

/-- The hypotheses are met by a struct with an account id in it. -/
example : HexIndices (none : Option MD) ∧
    AllHexGiven (baseEnv dummyExt) ⟨0, none⟩ b!"(AccountId, u8)" (.map [(b!"col1", .str b!"0xAB12"), (b!"col2", .int 7)]) ∧
    enc (baseEnv dummyExt) 9 ⟨0, none⟩ b!"(AccountId, u8)" (.map [(b!"col1", .str b!"0xAB12"), (b!"col2", .int 7)]) = .ok b!"ab1207" := by
  refine ⟨(fun d hd => by cases hd), ?_, by kernel_rfl⟩
  refine allHex_of (cls := .struct (some [(b!"col1", b!"AccountId"), (b!"col2", b!"u8")])) (s := []) (by unfold Resolves; kernel_rfl) trivial (by simp) fun u x hx => ?_
  cases hx with
  | field he hn =>
    cases he
    simp only [List.mem_cons, Prod.mk.injEq, List.not_mem_nil, or_false] at hn
    rcases hn with ⟨rfl, rfl⟩ | ⟨rfl, rfl⟩
    · refine allHex_of (cls := .accountId) (s := []) (by unfold Resolves; kernel_rfl) ⟨[171, 18], by decide⟩ (by simp) fun u x hx => ?_
      cases hx <;> contradiction
    · exact int_allHex _ _ _ _
  | _ => contradiction

/-- An account id that is hex, and one that is not. -/
example : HandsOn .accountId ∧ EncResolves (baseEnv dummyExt) ⟨0, none⟩ b!"AccountId" .accountId [] ∧
    enc (baseEnv dummyExt) 1 ⟨0, none⟩ b!"AccountId" (.str b!"0XAb") = .ok b!"ab" ∧ enc (baseEnv dummyExt) 1 ⟨0, none⟩ b!"AccountId" (.str b!"5Gr") = .ok b!"5gr" :=
  ⟨trivial, ⟨by unfold Resolves; kernel_rfl, by decide⟩, by kernel_rfl, by kernel_rfl⟩

end ScaleGo
