import Verif.Lemmas.LooseInv
import Verif.Props.C42

/-! # The lax language is decoded: types without parts -/

namespace ScaleGo
open _root_.Spec (Shape Payload Part Loose Accepts AnyCompact compactNumber compactInt leSum Tidy Whole)

theorem u32Value_eq {x : UInt8} {r : Str} (h : r.length + 1 = Spec.compactLen x) : u32Value x r = compactInt (x :: r) := by
  unfold u32Value compactInt compactNumber
  dsimp only
  rw [readInto_value, leSum_eq, leSum_eq]
  by_cases hx : x.toNat % 4 = 3
  · rw [if_pos hx, if_pos hx, show (256 : Nat) ^ 8 = 2 ^ 64 by decide, wrap64_twos]
  · rw [if_neg hx, if_neg hx]
    have hl : (x :: r).length ≤ 4 := by
      rw [List.length_cons, h]
      unfold Spec.compactLen
      have := Nat.mod_lt x.toNat (by decide : 4 > 0)
      split
      · omega
      · split
        · omega
        · rw [if_pos (by omega)]
    have hb := leNat_lt (x :: r)
    have hp : 256 ^ (x :: r).length ≤ 256 ^ 4 := Nat.pow_le_pow_right (by decide) hl
    rw [Nat.mod_eq_of_lt (by omega)]
    unfold Spec.twos
    rw [if_pos (by omega)]

theorem compactU32_loose {c : Str} (h : AnyCompact c) : DecAt processCompactU32 c (.int (compactInt c)) [] := by
  obtain ⟨x, r, rfl, hl⟩ := h
  rw [← u32Value_eq hl]
  exact compactU32_at x r hl

/-- A length in any form. -/
theorem len_loose {env : Env} {ctx : Ctx} (hL : LenOK env ctx) {c : Str} (h : AnyCompact c) :
    Decodes env ctx b!"Compact<u32>" c (.int (compactInt c)) [] := by
  obtain ⟨s, hs⟩ := hL
  exact decodes_of_decAt hs ⟨0, fun n _ => compactU32_loose h⟩

/-- What the inner type of a compact makes of any bytes, and the division, are defined. -/
theorem compact_inner_reads {env : Env} {sub isub cb : Str} {icls : Cls} {bound : Nat} {decimal : Bool} (len : Int)
    (hk : (icls, bound, decimal) ∈ compactKinds) (hr : Resolves env [] 0 sub icls isub) (hcb : cb.length < 2 ^ 60) (n : Nat) :
    ∃ v s r, pau env (n + 1) Ctx.fresh sub ⟨⟨cb, 0⟩, []⟩ = .ok (v, s) ∧ compactDivide len v = .ok r := by
  have hr' : Resolves env Ctx.fresh.module Ctx.fresh.spec sub icls isub := hr
  rw [pau_resolves n _ hr']
  simp only [compactKinds, List.mem_cons, Prod.mk.injEq, List.not_mem_nil, or_false] at hk
  rcases hk with ⟨rfl, rfl, rfl⟩ | ⟨rfl, rfl, rfl⟩ | ⟨rfl, rfl, rfl⟩ | ⟨rfl, rfl, rfl⟩
  · obtain ⟨s, hs⟩ := nextBytes_whole 4 cb (by decide) (by omega)
    refine ⟨.uint 4 (leNat (readInto 4 (cb.take 4))), s, _, ?_, rfl⟩
    show processUint 4 _ = _
    unfold processUint
    rw [hs]
    rfl
  · obtain ⟨s, hs⟩ := nextBytes_whole 8 cb (by decide) (by omega)
    refine ⟨.uint 8 (leNat (readInto 8 (cb.take 8))), s, _, ?_, rfl⟩
    show processUint 8 _ = _
    unfold processUint
    rw [hs]
    rfl
  · obtain ⟨t, m, s, ht, hs⟩ : ∃ t m s, Spec.IsNumeral t m ∧ processU128 ⟨⟨cb, 0⟩, []⟩ = .ok (.str t, s) := by
      by_cases h16 : cb.length ≤ 16
      · obtain ⟨w, ⟨t, ht, rfl⟩, N, hN⟩ := whole_unsigned (w := 16) (by decide) hr h16
        obtain ⟨s, hs⟩ := hN (N + 1) (by omega)
        rw [pau_resolves N _ hr'] at hs
        exact ⟨t, _, s, ht, hs⟩
      · obtain ⟨t, ht, N, hN⟩ := C10_decode env Ctx.fresh sub isub (leNat cb % 2 ^ 128) (Nat.mod_lt _ (by decide)) hr
        have e : Spec.leBytes 16 (leNat cb % 2 ^ 128) = cb.take 16 := by
          rw [← lePut_eq_spec, show (2 : Nat) ^ 128 = 256 ^ 16 by decide, lePut_mod _ _ _ (Nat.dvd_refl _)]
          conv => rhs; rw [← lePut_leNat cb]
          rw [lePut_take _ _ _ (by omega)]
        have hs := hN (N + 1) (by omega) [] (cb.drop 16) [] (by rw [e]; simp; omega)
        rw [e] at hs
        simp only [List.nil_append, List.take_append_drop, List.length_nil] at hs
        rw [pau_resolves N _ hr'] at hs
        exact ⟨t, _, _, ht, hs⟩
    exact ⟨.str t, s, _, hs, by simp only [compactDivide, decParse_numeral ht]; rfl⟩
  · obtain ⟨s, hs⟩ := nextBytes_whole 16 cb (by decide) (by omega)
    have e : processBalance ⟨⟨cb, 0⟩, []⟩ =
        .ok (.dec (if leSum (readInto 16 cb) = 2 ^ 128 - 1 then -1 else leSum (readInto 16 cb)) 0, s) := by
      unfold processBalance
      rw [show (16 : Int) = ((16 : Nat) : Int) by rfl, hs]
      simp only [Res.ok_bind]
      rw [readInto_take, balance_reads _ (readInto_length _ _)]
    exact ⟨_, s, _, e, rfl⟩

/-- Bytes whose value the shape determines: not the largest compact decimal, which `Balance` and `u128` read differently, and not unknown
members of enums of names, which some enums refuse. Bit sequences must fit a buffer. -/
def Sure {α : Type} : Shape α → Val → Str → Prop
  | .compact bound decimal, _, b => decimal = true → compactNumber b % bound ≠ bound - 1
  | .bitVec, _, b => b.length < 2 ^ 48
  | .names cases, _, b => ∀ x : UInt8, b = [x] → x.toNat ∈ cases.map Prod.snd
  | _, _, _ => True

/-- Enums of names that read unknown members as the empty name. -/
def Tolerant (env : Env) (ctx : Ctx) (ty : Str) (sh : Shape Str) : Prop :=
  ∃ cases vs tm s, sh = .names cases ∧ Resolves env ctx.module ctx.spec ty (.enum vs (some tm)) s

theorem lenBytes_loose {env : Env} {ctx : Ctx} (hL : LenOK env ctx) {c p : Str} {f : Int → Int} {g : Str → Val} (hc : AnyCompact c)
    (hp : f (compactInt c) = p.length) :
    ∃ N, ∀ n, N ≤ n → DecAt (fun st => pau env n ctx b!"Compact<u32>" st >>= fun q => asInt q.1 >>= fun i => nextBytes (f i) q.2 >>=
      fun z => Res.ok (g z.1, z.2)) (c ++ p) (g p) [] := by
  obtain ⟨N, hN⟩ := len_loose hL hc
  exact ⟨N, fun n hn => decAt_len (k := fun i st => nextBytes (f i) st >>= fun z => Res.ok (g z.1, z.2)) (hN n hn)
    (DecAt.map (decAt_next p _ hp) g)⟩

theorem leaf_loose {env : Env} {ctx : Ctx} {ectx : ECtx} (hL : LenOK env ctx) {ty : Str} {sh : Shape Str} {r : Val} {b : Str}
    (hsh : HasShape env ctx ectx ty sh) (hl : Loose sh r b) (hs : Sure sh r b ∨ Tolerant env ctx ty sh) : Decodes env ctx ty b r [] := by
  rcases hsh with ⟨cls, s, s', hD, hE, hc⟩ | ⟨rfl, ⟨s, hD⟩, hE⟩
  swap
  · obtain ⟨rfl, rfl⟩ := hl
    exact null_decodes hD
  cases sh with
  | uint w =>
    obtain ⟨rfl, rfl⟩ := hl
    obtain ⟨hw, rfl⟩ := hc
    have := C07_decode env ctx ty b.length (leSum b) s hw (leSum_lt b) hD
    rwa [leBytes_leSum] at this
  | u128 =>
    obtain ⟨hb, t, ht, rfl⟩ := hl
    obtain rfl := hc
    have hlt := leSum_lt b
    rw [hb] at hlt
    obtain ⟨t', ht', hd⟩ := C10_decode env ctx ty s (leSum b) hlt hD
    rw [numeral_unique ht ht']
    rwa [← hb, leBytes_leSum] at hd
  | u256 =>
    obtain ⟨hb, rfl⟩ := hl
    obtain rfl := hc
    have hlt := leSum_lt b
    rw [hb] at hlt
    have := C11_decode env ctx ty s (leSum b) hlt hD
    rwa [← hb, leBytes_leSum] at this
  | int w =>
    obtain ⟨hb, rfl⟩ := hl
    obtain ⟨hw, rfl⟩ := hc
    refine decodes_of_decAt hD ⟨0, fun n _ => ?_⟩
    show DecAt (processIntFixed w) _ _ _
    unfold processIntFixed
    refine DecAt.last (decAt_next b w (by rw [hb])) fun st => ?_
    dsimp only
    by_cases h1 : w = 1
    · subst h1
      obtain ⟨x, rfl⟩ := List.length_eq_one_iff.mp hb
      rw [show u256OfBytes (reverseBytes [x]) = some 0 from rfl]
      rfl
    · have hw' : 2 ≤ w ∧ w % 2 = 0 := by
        simp only [List.mem_cons, List.not_mem_nil, or_false] at hw
        omega
      have := intFixed_value w (leSum b) hw'.1 hw'.2 (by have := leSum_lt b; rwa [hb] at this)
      rw [show Spec.leBytes w (leSum b) = b by rw [← hb]; exact leBytes_leSum b] at this
      rw [this]
      have e1 : ((w : Int) * 8 - 1).toNat = 8 * w - 1 := by omega
      have e2 : ((w : Int) * 8).toNat = 8 * w := by omega
      rw [e1, e2, if_neg h1]
      have c : ((leSum b : Int) > 2 ^ (8 * w - 1)) ↔ ¬ leSum b ≤ 2 ^ (8 * w - 1) := by
        rw [Nat.not_le]
        constructor
        · intro h; exact_mod_cast h
        · intro h; exact_mod_cast h
      by_cases hle : leSum b ≤ 2 ^ (8 * w - 1)
      · dsimp only
        rw [if_neg (by rw [c]; exact fun q => q hle), if_pos hle]
      · dsimp only
        rw [if_pos (c.mpr hle), if_neg hle]
  | bool =>
    obtain ⟨x, rfl, rfl⟩ := hl
    obtain rfl := hc
    refine decodes_of_decAt hD ⟨0, fun n _ => ?_⟩
    show DecAt processBool _ _ _
    unfold processBool
    refine DecAt.byte ?_
    have e : (bytesToHex [x] = b!"01") = (x = 1) := propext (hexText_one x 1)
    simp only [e]
    exact DecAt.pure _
  | null => exact hc.elim
  | unit =>
    obtain ⟨rfl, rfl⟩ := hl
    obtain rfl := hc
    refine decodes_of_read hD fun r pre suf cs hl => ?_
    show Res.ok _ = _
    simp
  | compact32 =>
    obtain ⟨hb, rfl⟩ := hl
    obtain rfl := hc
    exact decodes_of_decAt hD ⟨0, fun n _ => compactU32_loose hb⟩
  | compact bound decimal =>
    obtain ⟨⟨x, l, rfl, hlen⟩, hv⟩ := hl
    obtain ⟨t, icls, isub, rfl, hs', hk, hr⟩ := hc
    refine decodes_of_decAt hD ⟨1, fun n hn => ?_⟩
    obtain ⟨n, rfl⟩ : ∃ k, n = k + 1 := ⟨n - 1, by omega⟩
    show DecAt (processCompact _ (effSub t s)) _ _ _
    unfold processCompact
    refine DecAt.last (compactBytes_at x l hlen) fun st => ?_
    dsimp only
    rw [if_neg hs']
    have hcl : Spec.compactLen x ≤ 68 ∧ (x.toNat % 4 = 3 → 4 < Spec.compactLen x) ∧ (x.toNat % 4 ≠ 3 → Spec.compactLen x ≤ 4) := by
      have := x.toNat_lt
      have := Nat.mod_lt x.toNat (by decide : 4 > 0)
      unfold Spec.compactLen
      split
      · omega
      · split
        · omega
        · split <;> omega
    have hbound : 2 ^ 32 ≤ bound := by
      simp only [compactKinds, List.mem_cons, Prod.mk.injEq, List.not_mem_nil, or_false] at hk
      rcases hk with ⟨rfl, rfl, rfl⟩ | ⟨rfl, rfl, rfl⟩ | ⟨rfl, rfl, rfl⟩ | ⟨rfl, rfl, rfl⟩ <;> decide
    generalize hcb : (if x.toNat % 4 = 3 then l else x :: l) = cb
    have hcbl : cb.length < 2 ^ 60 ∧ (((Spec.compactLen x : Nat) : Int) ≤ 4 → cb.length ≤ 4) := by
      subst hcb
      split <;> simp <;> omega
    obtain ⟨w, s2, r', h3, h4⟩ := compact_inner_reads ((Spec.compactLen x : Nat) : Int) hk hr hcbl.1 n
    have hval := compact_reads hk hr hcbl.1 h3 h4 hcbl.2
    rw [h3]
    simp only [Res.ok_bind]
    rw [h4]
    simp only [Res.ok_bind]
    have e : leNat cb % bound / (if ((Spec.compactLen x : Nat) : Int) ≤ 4 then 4 else 1) = compactNumber (x :: l) % bound := by
      subst hcb
      by_cases hx : x.toNat % 4 = 3
      · rw [if_pos hx, if_neg (by have := hcl.2.1 hx; omega), Nat.div_one, compactNumber, if_pos hx, leSum_eq]
      · have h4' := hcl.2.2 hx
        have hb := leNat_lt (x :: l)
        have hp : 256 ^ (x :: l).length ≤ 256 ^ 4 := Nat.pow_le_pow_right (by decide) (by simp; omega)
        rw [if_neg hx, if_pos (by omega), Nat.mod_eq_of_lt (by omega), compactNumber, if_neg hx, leSum_eq, Nat.mod_eq_of_lt (by omega)]
    have hne : decimal = true → compactNumber (x :: l) % bound ≠ bound - 1 := by
      rcases hs with hs | ⟨_, _, _, _, h, _⟩
      · exact hs
      · cases h
    rw [e] at hval
    rcases hval with hval | ⟨hd, h4', hm, _⟩
    · rcases hv with hv | ⟨hd, hm, _⟩
      · rw [hval, hv]
      · exact absurd hm (hne hd)
    · rw [hm, if_neg (by omega), Nat.div_one] at e
      exact absurd e.symm (hne hd)
  | bytes kind =>
    obtain ⟨c, p, hcp, hp, rfl, rfl⟩ := hl
    obtain ⟨hk, rfl⟩ := hc
    simp only [List.mem_cons, List.not_mem_nil, or_false] at hk
    rcases hk with rfl | rfl | rfl
    · have := decodes_of_decAt hD (lenBytes_loose (f := id) (g := fun p => .str (asciiOrHex p)) hL hcp hp.symm)
      rwa [asciiOrHex_shown] at this
    · have := decodes_of_decAt hD (lenBytes_loose (f := id) (g := fun p => .str (addHex (bytesToHex p))) hL hcp hp.symm)
      rw [addHex_hexText] at this
      simpa [shown] using this
    · have := decodes_of_decAt hD (lenBytes_loose (f := id) (g := fun p => .str (asciiOrHex p)) hL hcp hp.symm)
      rw [asciiOrHex_shown] at this
      simpa [shown] using this
  | hash n =>
    obtain ⟨rfl, rfl⟩ := hl
    obtain rfl := hc
    exact C50_decode_hash env ctx ty s _ b rfl hD
  | account =>
    obtain ⟨hb, rfl⟩ := hl
    obtain rfl := hc
    exact C50_decode_account env ctx ty s b hb hD
  | balance =>
    obtain ⟨hb, rfl⟩ := hl
    obtain rfl := hc
    have hlt := leSum_lt b
    rw [hb] at hlt
    have e : Spec.leBytes 16 (leSum b) = b := by rw [← hb, leBytes_leSum]
    by_cases hm : leSum b = 2 ^ 128 - 1
    · rw [if_pos hm, ← e, hm]
      exact C51_maximum_wrong env ctx ty s hD
    · rw [if_neg hm]
      have := C51_decode_partial env ctx ty s (leSum b) hlt hm hD
      rwa [e] at this
  | era =>
    obtain ⟨hb, rfl⟩ := hl
    obtain rfl := hc
    rcases hb with rfl | ⟨x, y, hx, rfl⟩
    · exact C48_decode_immortal env ctx ty s hD
    · exact C48_decode_mortal env ctx ty s x y hx hD
  | byteArray n =>
    obtain ⟨rfl, rfl⟩ := hl
    rcases hc with rfl | ⟨h0, el, rfl, hel⟩
    · exact C25_decode_u8 env ctx ty s [] b _ (.inl rfl) hD
    · exact C25_decode_u8 env ctx ty s el b _ (.inr ⟨rfl, h0, hel⟩) hD
  | bitVec =>
    obtain ⟨c, p, hcp, hp1, hp2, rfl, rfl⟩ := hl
    obtain rfl := hc
    have hlen : (c ++ p).length < 2 ^ 48 := by
      rcases hs with hs | ⟨_, _, _, _, h, _⟩
      · exact hs
      · cases h
    rw [List.length_append] at hlen
    have e : roundF64 (compactInt c) = compactInt c := by
      unfold roundF64
      rw [if_pos (by omega)]
    have := decodes_of_decAt hD (lenBytes_loose (f := fun i => -((-(roundF64 i)).fdiv 8))
      (g := fun p => .str (b!"0b" ++ joinSep b!"_" (p.map bits8))) (p := p) hL hcp
      (by rw [e, Int.fdiv_eq_ediv_of_nonneg _ (by decide)]; omega))
    rw [underscored_eq] at this
    exact this
  | names cases =>
    obtain ⟨x, rfl, hx⟩ := hl
    rcases hc with ⟨vs, tm, rfl, hcl, rfl, hd1, hd2, hlt⟩ | ⟨vs, rfl, rfl, hd, hne, hlen⟩
    · have hlt' : ∀ p ∈ tm, Spec.digitsValue p.2 < 256 := fun p hp => hlt _ (List.mem_map.mpr ⟨p, hp, rfl⟩)
      rcases hx with ⟨name, hm, rfl⟩ | ⟨hno, rfl⟩
      · obtain ⟨⟨nm, t⟩, hmem, he⟩ := List.mem_map.mp hm
        obtain ⟨rfl, hx⟩ := Prod.mk.inj he
        rw [List.map_map] at hd2
        have := C23_decode_clike env ctx ty s vs tm _ t hcl hd2 hlt' hmem hD
        rwa [hx, UInt8.ofNat_toNat] at this
      · exact C23_clike_unknown env ctx ty s vs tm x hcl (fun p hp => Nat.lt_trans (hlt' p hp) (by decide))
          (fun p hp e => hno (List.mem_map.mpr ⟨_, List.mem_map.mpr ⟨p, hp, rfl⟩, e⟩)) hD
    · rcases hx with ⟨name, hm, rfl⟩ | ⟨hno, rfl⟩
      · have hn := List.mem_zipIdx_iff_getElem?.1 hm
        exact (C23_decode_names env ctx ty s vs x hD).1 name hn (by rintro rfl; exact hne (List.mem_of_getElem? hn))
      · rcases hs with hs | ⟨_, _, _, _, _, h⟩
        · exact absurd (hs x rfl) hno
        · unfold Resolves at hD h
          rw [hD] at h
          cases h
  | optionBool =>
    obtain ⟨x, rfl, rfl⟩ := hl
    obtain ⟨t, rfl, e1, e2⟩ := hc
    refine decodes_of_decAt hD ⟨0, fun n _ => ?_⟩
    show DecAt (processOption (pau env n) ctx (effSub t s)) _ _ _
    rw [e1]
    unfold processOption
    refine DecAt.byte ?_
    have ez : (bytesToHex [x] = b!"00") = (x = 0) := propext (hexText_one x 0)
    have eo : (bytesToHex [x] = b!"01") = (x = 1) := propext (hexText_one x 1)
    simp only [ne_eq, ez, eo]
    by_cases hx : x = 0
    · simp only [hx, not_true_eq_false, and_false, if_false, if_true]
      exact DecAt.pure _
    · rw [if_neg hx]
      simp only [hx, not_false_eq_true, and_true, if_pos (show ¬ b!"bool" = [] by decide), if_true]
      exact DecAt.pure _
  | _ => exact hl.elim

end ScaleGo
