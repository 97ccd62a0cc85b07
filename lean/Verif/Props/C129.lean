import Verif.Props.C128
import Verif.Props.C11
import Verif.Props.C57

/-! # C129: types of fixed width are read and written with exactly that width

Integers, truth values, hashes, accounts and structs and arrays of them have a width that their type alone decides.  The decoder takes as
many bytes.  The encoder passes on texts given as hashes, accounts and the like whatever their length. -/

namespace ScaleGo

namespace Spec

/-- Width in bytes of a class without parts. -/
def ownWidth : Cls → Option Nat
  | .u8 | .bool => some 1
  | .u16 => some 2
  | .u32 => some 4
  | .u64 | .moment | .fixedU64 => some 8
  | .u128 | .balance => some 16
  | .u256 | .accountId => some 32
  | .ethereumAddress => some 20
  | .hash n => some n
  | .intFixed n | .fixedU8 n => if 0 < n then some n.toNat else none
  | .empty => some 0
  | _ => none

mutual
/-- The type text has a fixed width. -/
inductive Wide (env : Env) (mo : Str) (sp : Int) : Str → Nat → Prop
  | own {t s : Str} {cls : Cls} {w : Nat} : Resolves env mo sp t cls s → _root_.Spec.asciiLower t ≠ b!"null" → ownWidth cls = some w → Wide env mo sp t w
  | struct {t s : Str} {tm : List (Str × Str)} {w : Nat} : Resolves env mo sp t (.struct (some tm)) s → _root_.Spec.asciiLower t ≠ b!"null" →
      WideAll env mo sp tm w → Wide env mo sp t w
  | array {t u s : Str} {n : Int} {w : Nat} : Resolves env mo sp t (.fixedArray n u) s → _root_.Spec.asciiLower t ≠ b!"null" → 0 < n → Wide env mo sp u w →
      (_root_.Spec.asciiLower u = b!"u8" → w = 1) → Wide env mo sp t (n.toNat * w)

/-- The members have fixed widths, of this sum. -/
inductive WideAll (env : Env) (mo : Str) (sp : Int) : List (Str × Str) → Nat → Prop
  | nil : WideAll env mo sp [] 0
  | cons {n u : Str} {l : List (Str × Str)} {w x : Nat} : Wide env mo sp u w → WideAll env mo sp l x → WideAll env mo sp ((n, u) :: l) (w + x)
end

/-- What is given to a class has its size. -/
def Sized : Cls → Val → Prop
  | .accountId, .str s => (after0x (_root_.Spec.asciiLower s)).length = 64
  | .hash n, .str s => (after0x (_root_.Spec.asciiLower s)).length = 2 * n
  | .ethereumAddress, .str s => (after0x (_root_.Spec.asciiLower s)).length = 40
  | .fixedU8 n, .str s => (∀ r, s = b!"0x" ++ r → (after0x (_root_.Spec.asciiLower r)).length = 2 * n.toNat) ∧ ((∀ r, s ≠ b!"0x" ++ r) → s.length = n.toNat)
  | .fixedU8 n, .bytes s => s.length = n.toNat
  | .u256, .str s => (∀ r, s = b!"0x" ++ r → (after0x (_root_.Spec.asciiLower r)).length = 64) ∧ ((∀ r, s ≠ b!"0x" ++ r) → s.length = 32)
  | .u256, .big i => 0 ≤ i ∧ i < 2 ^ 256
  | .u256, .dec c e => 0 ≤ decTrunc c e ∧ decTrunc c e < 2 ^ 256
  | .fixedArray _ _, .str _ => False
  | _, _ => True

/-- All that encoding `v` by `t` comes to has the size of its class. -/
def AllSized (env : Env) (ctx : ECtx) (t : Str) (v : Val) : Prop :=
  ∀ u x, Visits env ctx t v u x → ∀ cls s, Resolves env [] ctx.spec u cls s → Sized cls (argOf x)

end Spec

open ScaleGo.Spec (EncStep Visits HexGiven TextsHex AllHexGiven HexIndices after0x ownWidth Wide WideAll Sized AllSized)

/-! ## Writing -/

theorem hexOut_length (b : Str) : (trimHex (toLower (bytesToHex b))).length = 2 * b.length := by
  rw [toLower_bytesToHex, trimHex_bytesToHex, bytesToHex_length]

theorem hexOrText_length {s : Str} {k : Nat} (h1 : ∀ r, s = b!"0x" ++ r → (after0x (Spec.asciiLower r)).length = 2 * k) (h2 : (∀ r, s ≠ b!"0x" ++ r) → s.length = k) :
    (trimHex (toLower (hexOrText s))).length = 2 * k := by
  unfold hexOrText
  split
  · rename_i hp
    obtain ⟨r, rfl⟩ := List.isPrefixOf_iff_prefix.mp hp
    rw [trimHex_0x, trimHex_after, toLower_eq_spec]
    exact h1 r rfl
  · rename_i hp
    rw [hexOut_length, h2 fun r hr => hp (List.isPrefixOf_iff_prefix.mpr ⟨r, hr.symm⟩)]

theorem u256_length {i : Int} (h : 0 ≤ i ∧ i < 2 ^ 256) : (trimHex (toLower (bytesToHex (reverseBytes (hexToBytes (rightJustify0 (intToHex i) 64)))))).length = 2 * 32 := by
  obtain ⟨n, rfl⟩ := Int.eq_ofNat_of_zero_le h.1
  rw [hexOut_length, intToHex_nat, rightJustify_natToHex n 63 (by have := h.2; norm_cast at this), show 63 + 1 = 2 * 32 by rfl, hexFix_bytes, hexToBytes_bytesToHex,
    reverseBytes_length]
  simp

theorem bigInt_length {i : Int} {n : Nat} {b : Str} (h : bigIntToIntBytes i n = .ok b) (hn : 0 < n) : b.length = n := by
  have hp : (256 : Nat) ^ n = 2 ^ (n * 8 - 1) * 2 := by
    rw [← pow_succ, show n * 8 - 1 + 1 = 8 * n by omega, pow_mul]
    norm_num
  unfold bigIntToIntBytes at h
  dsimp only at h
  split at h
  · split at h
    · cases h
    · rename_i h0 h1
      cases h
      have hlt : i.natAbs < 256 ^ n := by
        have : ((2 : Nat) ^ (n * 8 - 1) : Int) = ((2 ^ (n * 8 - 1) : Nat) : Int) := by push_cast; rfl
        push_cast at this
        have h2 : (i : Int) ≤ ((2 ^ (n * 8 - 1) : Nat) : Int) - 1 := by push_cast; omega
        rw [hp]
        generalize (2 : Nat) ^ (n * 8 - 1) = P at h2 ⊢
        omega
      have := byteLen_le hlt
      simp only [List.length_append, List.length_replicate, beMin_length]
      omega
  · split at h
    · cases h
    · rename_i h0 h1
      cases h
      have hlt : (i + 1).natAbs < 256 ^ n := by
        rw [hp]
        generalize (2 : Nat) ^ (n * 8 - 1) = P at h1 ⊢
        omega
      have := byteLen_le hlt
      simp only [List.length_map, List.length_append, List.length_replicate, beMin_length]
      omega

theorem own_length {ext : Ext} {rec : ERec} {ctx : ECtx} {cls : Cls} {s o : Str} {v : Val} {w : Nat} (hw : ownWidth cls = some w) (hs : Sized cls v)
    (h : encodeCls ext rec ctx cls s v = .ok o) : (trimHex (toLower o)).length = 2 * w := by
  cases cls with
  | u8 => cases h; cases hw; exact hexOut_length [_]
  | u16 => cases h; cases hw; exact (hexOut_length _).trans (by rw [lePut_length])
  | u32 => cases h; cases hw; exact (hexOut_length _).trans (by rw [lePut_length])
  | u64 | moment | fixedU64 => cases h; cases hw; exact (hexOut_length _).trans (by rw [lePut_length])
  | u128 | balance =>
    cases hw
    simp only [encodeCls, encodeU128] at h
    obtain ⟨i, _, h⟩ := Res.bind_eq_ok.mp h
    obtain ⟨u, _, h⟩ := Res.bind_eq_ok.mp h
    cases h
    rw [hexOut_length]
    simp [U128.putBytes]
  | bool =>
    cases hw
    cases v with
    | bool b => cases h; cases b <;> rfl
    | _ => cases h
  | empty => cases hw; cases h; rfl
  | accountId =>
    cases hw
    cases v with
    | str x => cases h; rw [trimHex_after, toLower_eq_spec]; exact hs
    | _ => cases h
  | hash k =>
    cases hw
    cases v with
    | str x => cases h; rw [lower_addHex, trimHex_after, toLower_eq_spec]; exact hs
    | _ => cases h
  | ethereumAddress =>
    cases hw
    cases v with
    | str x => cases h; rw [lower_addHex, trimHex_after, toLower_eq_spec]; exact hs
    | _ => cases h
  | fixedU8 k =>
    simp only [ownWidth] at hw
    split at hw
    · cases hw
      cases v with
      | str x => cases h; exact hexOrText_length hs.1 hs.2
      | bytes b => cases h; rw [trimHex_bytesToHex, hexOut_length, show b.length = k.toNat from hs]
      | _ => cases h
    · cases hw
  | u256 =>
    cases hw
    cases v with
    | str x =>
      have := hexOrText_length (k := 32) hs.1 hs.2
      simp only [encodeCls, encodeU256] at h
      split at h
      · rename_i he
        subst he
        cases hs.2 fun r hr => by cases hr
      · unfold hexOrText at this
        split at h
        · rename_i hp
          cases h
          rwa [if_pos hp] at this
        · rename_i hp
          cases h
          rwa [if_neg hp] at this
    | big i => cases h; exact u256_length hs
    | dec c e => cases h; exact u256_length hs
    | _ => cases h
  | intFixed k =>
    simp only [ownWidth] at hw
    split at hw
    · rename_i hk
      cases hw
      simp only [encodeCls, encodeIntFixed] at h
      split at h
      · split at h
        · cases h
        · split at h
          · cases h
          · cases h
            rw [hexOut_length, readInto_length]
      · obtain ⟨i, _, h⟩ := Res.bind_eq_ok.mp h
        obtain ⟨u, hu, h⟩ := Res.bind_eq_ok.mp h
        cases h
        rw [hexOut_length, bigInt_length hu (by omega)]
    · cases hw
  | _ => cases hw

theorem encList_length {rec : ERec} {ctx : ECtx} {u : Str} {w : Nat} : ∀ {l : List Val} {out : Str}, (∀ x ∈ l, ∀ o, rec ctx u x = .ok o → o.length = 2 * w) →
    encList rec ctx u id l = .ok out → out.length = 2 * (l.length * w)
  | [], out, _, h => by cases h; simp
  | x :: l, out, hx, h => by
    simp only [encList] at h
    obtain ⟨a, h1, h⟩ := Res.bind_eq_ok.mp h
    obtain ⟨b, h2, h⟩ := Res.bind_eq_ok.mp h
    cases h
    have e1 := hx x (by simp) a h1
    have e2 := encList_length (fun y hy => hx y (by simp [hy])) h2
    simp only [id, List.length_append, List.length_cons, e1, e2]
    ring

/-- What is to be shown of a part. -/
def GivenWell (env : Env) (ctx : ECtx) (t : Str) (v : Val) : Prop := AllHexGiven env ctx t v ∧ AllSized env ctx t v

theorem GivenWell.step {env : Env} {ctx : ECtx} {t u s : Str} {v x : Val} {cls : Cls} (h : GivenWell env ctx t v) (hr : Resolves env [] ctx.spec t cls s)
    (hs : EncStep env.ext ctx.md cls s (argOf v) u x) : GivenWell env ctx u x :=
  ⟨⟨fun w y hw => h.1.1 w y (.next hr hs hw), fun w m hw => h.1.2 w m (.next hr hs hw)⟩, fun w y hw => h.2 w y (.next hr hs hw)⟩

theorem HexOut.length {o : Str} (h : IsHexText o) : (trimHex (toLower o)).length = o.length := by
  obtain ⟨b, rfl⟩ := h
  rw [toLower_bytesToHex, trimHex_bytesToHex]

mutual
theorem enc_width {env : Env} {ctx : ECtx} (hm : HexIndices ctx.md) {t : Str} {w : Nat} (hw : Wide env [] ctx.spec t w) (n : Nat) (v : Val) (out : Str)
    (hv : GivenWell env ctx t v) (h : enc env n ctx t v = .ok out) : out.length = 2 * w := by
  cases n with
  | zero => cases h
  | succ n =>
    cases hw with
    | own hr hne ho =>
      rw [enc_resolves n _ ⟨hr, hne⟩] at h
      obtain ⟨o, h1, h⟩ := Res.bind_eq_ok.mp h
      cases h
      exact own_length ho (hv.2 t v (.here t v) _ _ hr) h1
    | struct hr hne ha =>
      rw [enc_resolves n _ ⟨hr, hne⟩] at h
      obtain ⟨o, h1, h⟩ := Res.bind_eq_ok.mp h
      cases h
      simp only [encodeCls, encodeStruct] at h1
      obtain ⟨m, h2, h1⟩ := Res.bind_eq_ok.mp h1
      have hv' : argOf v = .map m := by
        generalize argOf v = a at h2
        cases a <;> cases h2
        rfl
      have hg : ∀ k u, (k, u) ∈ _ → GivenWell env ctx u ((mapGet m k).getD .nil) := fun k u hk => hv.step hr (by rw [hv']; exact .field rfl hk)
      rw [HexOut.length (encFields_hex (fun k u hk => enc_hex n hm (hg k u hk).1) h1)]
      exact fields_width hm ha n m o hg h1
    | @array _ u s k w hr hne hn hu h8 =>
      rw [enc_resolves n _ ⟨hr, hne⟩] at h
      obtain ⟨o, h1, h⟩ := Res.bind_eq_ok.mp h
      cases h
      have hz := hv.2 t v (.here t v) _ _ hr
      simp only [encodeCls, encodeFixedArray] at h1
      split at h1
      · rename_i hs
        rw [hs] at hz
        exact hz.elim
      · split at h1
        · rename_i l hl
          split at h1
          · cases h1
          · rename_i hlen
            have hg : ∀ x ∈ l, GivenWell env ctx _ x := fun x hx => hv.step hr (.array rfl hl hx)
            rw [HexOut.length (encList_hex (fun _ => rfl) (fun x hx => enc_hex n hm (hg x hx).1) h1),
              encList_length (fun x hx o ho => enc_width hm hu n x o (hg x hx) ho) h1, show l.length = k.toNat by omega]
        · cases h1
theorem fields_width {env : Env} {ctx : ECtx} (hm : HexIndices ctx.md) {tm : List (Str × Str)} {w : Nat} (hw : WideAll env [] ctx.spec tm w) (n : Nat)
    (m : List (Str × Val)) (out : Str) (hv : ∀ k u, (k, u) ∈ tm → GivenWell env ctx u ((mapGet m k).getD .nil))
    (h : encFields (enc env n) ctx m tm = .ok out) : out.length = 2 * w := by
  cases hw with
  | nil => cases h; rfl
  | cons h1 h2 =>
    simp only [encFields] at h
    obtain ⟨a, h3, h⟩ := Res.bind_eq_ok.mp h
    obtain ⟨b, h4, h⟩ := Res.bind_eq_ok.mp h
    cases h
    rw [List.length_append, enc_width hm h1 n _ _ (hv _ _ (by simp)) h3, fields_width hm h2 n m _ (fun k u hk => hv k u (by simp [hk])) h4]
    omega
end

/-! ## Reading -/

/-- The position moves on by `w` bytes. -/
def Moved (st st' : St) (w : Nat) : Prop := st'.cur.data = st.cur.data ∧ st'.cur.off = st.cur.off + w

theorem nextBytes_moved {n : Int} {w : Nat} {st st' : St} {b : Str} (hn : n = w) (hl : st.cur.data.length < 2 ^ 63) (hr : st.cur.off + w ≤ st.cur.data.length)
    (h : nextBytes n st = .ok (b, st')) : Moved st st' w := by
  subst hn
  unfold nextBytes getNextBytes at h
  dsimp only at h
  rw [wrap64_small (by omega) (by omega), if_neg (by omega), if_pos (by omega)] at h
  cases h
  exact ⟨rfl, by dsimp only; omega⟩

theorem own_moved {ext : Ext} {rec : Rec} {ctx : Ctx} {cls : Cls} {s : Str} {v : Val} {w : Nat} {st st' : St} (hw : ownWidth cls = some w)
    (hl : st.cur.data.length < 2 ^ 63) (hr : st.cur.off + w ≤ st.cur.data.length) (h : process ext rec ctx cls s st = .ok (v, st')) : Moved st st' w := by
  cases cls with
  | empty => cases hw; cases h; exact ⟨rfl, rfl⟩
  | u8 =>
    cases hw
    simp only [process, processU8, getNextU8] at h
    obtain ⟨⟨b, s1⟩, h1, h⟩ := Res.bind_eq_ok.mp h
    obtain ⟨⟨b', s2⟩, h2, h1⟩ := Res.bind_eq_ok.mp h1
    cases h1
    cases h
    exact nextBytes_moved rfl hl hr h2
  | fixedU8 k =>
    simp only [ownWidth] at hw
    split at hw
    · cases hw
      obtain ⟨⟨b, s1⟩, h1, h⟩ := Res.bind_eq_ok.mp h
      cases h
      exact nextBytes_moved (by omega) hl hr h1
    · cases hw
  | intFixed k =>
    simp only [ownWidth] at hw
    split at hw
    · cases hw
      obtain ⟨⟨b, s1⟩, h1, h⟩ := Res.bind_eq_ok.mp h
      dsimp only at h
      have := nextBytes_moved (w := k.toNat) (by omega) hl hr h1
      split at h
      · cases h
      · split at h <;> cases h <;> exact this
    · cases hw
  | u16 | u32 | u64 | moment | fixedU64 | hash | accountId | bool =>
    cases hw
    obtain ⟨⟨b, s1⟩, h1, h⟩ := Res.bind_eq_ok.mp h
    cases h
    exact nextBytes_moved rfl hl hr h1
  | u128 =>
    cases hw
    obtain ⟨⟨b, s1⟩, h1, h⟩ := Res.bind_eq_ok.mp h
    obtain ⟨u, _, h⟩ := Res.bind_eq_ok.mp h
    obtain ⟨u, _, h⟩ := Res.bind_eq_ok.mp h
    cases h
    exact nextBytes_moved rfl hl hr h1
  | balance =>
    cases hw
    obtain ⟨⟨b, s1⟩, h1, h⟩ := Res.bind_eq_ok.mp h
    dsimp only at h
    have := nextBytes_moved (w := 16) rfl hl hr h1
    split at h
    · cases h; exact this
    · obtain ⟨u, _, h⟩ := Res.bind_eq_ok.mp h
      cases h
      exact this
  | u256 =>
    cases hw
    obtain ⟨⟨b, s1⟩, h1, h⟩ := Res.bind_eq_ok.mp h
    dsimp only at h
    have := nextBytes_moved (w := 32) rfl hl hr h1
    split at h
    · cases h; exact this
    · cases h
  | ethereumAddress =>
    cases hw
    obtain ⟨⟨b, s1⟩, h1, h⟩ := Res.bind_eq_ok.mp h
    obtain ⟨u, _, h⟩ := Res.bind_eq_ok.mp h
    cases h
    exact nextBytes_moved rfl hl hr h1
  | _ => cases hw

theorem procN_moved {rec : Rec} {ctx : Ctx} {u : Str} {w : Nat}
    (hu : ∀ v st st', st.cur.data.length < 2 ^ 63 → st.cur.off + w ≤ st.cur.data.length → rec ctx u st = .ok (v, st') → Moved st st' w) :
    ∀ {n : Nat} {st st' : St} {vs : List Val}, st.cur.data.length < 2 ^ 63 → st.cur.off + n * w ≤ st.cur.data.length → procN rec ctx u n st = .ok (vs, st') →
    Moved st st' (n * w)
  | 0, st, st', vs, _, _, h => by cases h; exact ⟨rfl, by simp⟩
  | n + 1, st, st', vs, hl, hr, h => by
    obtain ⟨⟨v, s1⟩, h1, h⟩ := Res.bind_eq_ok.mp h
    obtain ⟨⟨vs', s2⟩, h2, h⟩ := Res.bind_eq_ok.mp h
    cases h
    rw [Nat.succ_mul] at hr
    obtain ⟨d1, o1⟩ := hu _ _ _ hl (by omega) h1
    obtain ⟨d2, o2⟩ := procN_moved hu (n := n) (st := s1) (by rw [d1]; exact hl) (by rw [d1, o1]; omega) h2
    exact ⟨d2.trans d1, by rw [o2, o1, Nat.succ_mul]; omega⟩

theorem pau_width {env : Env} {ctx : Ctx} {t : Str} {w : Nat} (hw : Wide env ctx.module ctx.spec t w) : ∀ (n : Nat) (v : Val) (st st' : St),
    st.cur.data.length < 2 ^ 63 → st.cur.off + w ≤ st.cur.data.length → pau env n ctx t st = .ok (v, st') → Moved st st' w := by
  refine Wide.rec
    (motive_1 := fun t w _ => ∀ (n : Nat) (v : Val) (st st' : St), st.cur.data.length < 2 ^ 63 → st.cur.off + w ≤ st.cur.data.length →
      pau env n ctx t st = .ok (v, st') → Moved st st' w)
    (motive_2 := fun tm w _ => ∀ (n : Nat) (acc m : List (Str × Val)) (st st' : St), st.cur.data.length < 2 ^ 63 → st.cur.off + w ≤ st.cur.data.length →
      procFields (pau env n) ctx tm acc st = .ok (m, st') → Moved st st' w) ?_ ?_ ?_ ?_ ?_ hw
  · rintro t s cls w hc hne ho (_ | n) v st st' hl hr h
    · cases h
    · rw [pau_resolves n st hc] at h
      exact own_moved ho hl hr h
  · rintro t s tm w hc hne ha ih (_ | n) v st st' hl hr h
    · cases h
    · rw [pau_resolves n st hc] at h
      obtain ⟨⟨m, s1⟩, h1, h⟩ := Res.bind_eq_ok.mp h
      cases h
      exact ih n [] m st _ hl hr h1
  · rintro t u s k w hc hne hn hu h8 ih (_ | n) v st st' hl hr h
    · cases h
    · rw [pau_resolves n st hc] at h
      simp only [process, processFixedArray] at h
      rw [if_pos hn] at h
      split at h
      · rename_i h8'
        obtain ⟨⟨b, s1⟩, h1, h⟩ := Res.bind_eq_ok.mp h
        cases h
        obtain rfl := h8 ((equalFold_u8 _).mp h8')
        exact nextBytes_moved (by omega) hl hr h1
      · obtain ⟨⟨vs, s1⟩, h1, h⟩ := Res.bind_eq_ok.mp h
        cases h
        exact procN_moved (fun v st st' hl hr h => ih n v st st' hl hr h) hl hr h1
  · rintro n acc m st st' hl hr h
    cases h
    exact ⟨rfl, rfl⟩
  · rintro k u l w x h1 h2 ih1 ih2 n acc m st st' hl hr h
    simp only [procFields] at h
    obtain ⟨⟨v, s1⟩, h3, h⟩ := Res.bind_eq_ok.mp h
    obtain ⟨d1, o1⟩ := ih1 n v st s1 hl (by omega) h3
    obtain ⟨d2, o2⟩ := ih2 n _ m s1 st' (by rw [d1]; exact hl) (by rw [d1, o1]; omega) h
    exact ⟨d2.trans d1, by rw [o2, o1]; omega⟩

theorem nextBytes_enough {n : Int} {w : Nat} {st : St} (hn : n = w) (hl : st.cur.data.length < 2 ^ 63) (hr : st.cur.off + w ≤ st.cur.data.length) :
    ∃ b st', nextBytes n st = .ok (b, st') ∧ b.length = w := by
  subst hn
  unfold nextBytes getNextBytes
  dsimp only
  rw [wrap64_small (by omega) (by omega), if_neg (by omega), if_pos (by omega)]
  exact ⟨_, _, rfl, by simp; omega⟩

theorem own_ok {ext : Ext} (hk : ∀ a, 20 ≤ (ext.keccak a).length) {rec : Rec} {ctx : Ctx} {cls : Cls} {s : Str} {w : Nat} {st : St} (hw : ownWidth cls = some w)
    (hl : st.cur.data.length < 2 ^ 63) (hr : st.cur.off + w ≤ st.cur.data.length) : ∃ v st', process ext rec ctx cls s st = .ok (v, st') := by
  cases cls with
  | empty => exact ⟨_, _, rfl⟩
  | u8 =>
    cases hw
    obtain ⟨b, s1, h1, _⟩ := nextBytes_enough (n := 1) rfl hl hr
    exact ⟨_, _, by simp only [process, processU8, getNextU8, h1, Res.ok_bind]; rfl⟩
  | fixedU8 k =>
    simp only [ownWidth] at hw
    split at hw
    · cases hw
      obtain ⟨b, s1, h1, _⟩ := nextBytes_enough (n := k) (by omega) hl hr
      exact ⟨_, _, by simp only [process, processFixedU8, h1, Res.ok_bind]; rfl⟩
    · cases hw
  | intFixed k =>
    simp only [ownWidth] at hw
    split at hw
    · cases hw
      obtain ⟨b, s1, h1, hb⟩ := nextBytes_enough (n := k) (w := k.toNat) (by omega) hl hr
      have hne : (reverseBytes b).isEmpty = false := by
        rw [List.isEmpty_eq_false_iff]
        intro e
        have := congrArg List.length e
        simp at this
        rw [this] at hb
        simp at hb
        omega
      simp only [process, processIntFixed, h1, Res.ok_bind, u256OfBytes, hne]
      simp only [Bool.false_eq_true, if_false]
      split
      · exact ⟨_, _, rfl⟩
      · exact ⟨_, _, rfl⟩
    · cases hw
  | u16 | u32 | u64 | moment | fixedU64 | hash | accountId | bool =>
    cases hw
    obtain ⟨b, s1, h1, _⟩ := nextBytes_enough rfl hl hr
    exact ⟨_, _, Res.bind_eq_ok.mpr ⟨_, h1, rfl⟩⟩
  | u128 =>
    cases hw
    obtain ⟨b, s1, h1, hb⟩ := nextBytes_enough (n := 16) rfl hl hr
    obtain ⟨u, hu, _⟩ := U128.fromBytes_spec b hb
    exact ⟨_, _, by simp only [process, processU128, h1, Res.ok_bind, hb, Nat.lt_irrefl, if_false, hu, U128.toString_eq]; rfl⟩
  | balance =>
    cases hw
    obtain ⟨b, s1, h1, hb⟩ := nextBytes_enough (n := 16) rfl hl hr
    obtain ⟨u, hu, _⟩ := U128.fromBytes_spec (readInto 16 b) (readInto_length 16 b)
    simp only [process, processBalance, h1, Res.ok_bind, hu]
    split
    · exact ⟨_, _, rfl⟩
    · exact ⟨_, _, rfl⟩
  | u256 =>
    cases hw
    obtain ⟨b, s1, h1, hb⟩ := nextBytes_enough (n := 32) rfl hl hr
    have hne : (reverseBytes b).isEmpty = false := by
      rw [List.isEmpty_eq_false_iff]
      intro e
      have := congrArg List.length e
      simp at this
      simp [this] at hb
    exact ⟨_, _, by simp only [process, processU256, h1, Res.ok_bind, u256OfBytes, hne, Bool.false_eq_true, if_false]; rfl⟩
  | ethereumAddress =>
    cases hw
    obtain ⟨b, s1, h1, hb⟩ := nextBytes_enough (n := 20) rfl hl hr
    have : ∃ r, ethEncode ext.keccak (bytesToHex b) = .ok r := by
      unfold ethEncode
      split
      · exact ⟨_, rfl⟩
      · have hlen : ((trimHex (bytesToHex b)).take 40).length ≤ (bytesToHex (ext.keccak (trimHex (bytesToHex b)))).length := by
          rw [bytesToHex_length]
          have := hk (trimHex (bytesToHex b))
          rw [List.length_take]
          omega
        exact ⟨_, Res.bind_eq_ok.mpr ⟨_, ethLoop_eq _ _ (bytesToHex_mem _) hlen, rfl⟩⟩
    obtain ⟨r, hr'⟩ := this
    exact ⟨_, _, by simp only [process, processEthereumAddress, h1, Res.ok_bind, hr']; rfl⟩
  | _ => cases hw

theorem procN_ok {rec : Rec} {ctx : Ctx} {u : Str} {w : Nat}
    (hu : ∀ st, st.cur.data.length < 2 ^ 63 → st.cur.off + w ≤ st.cur.data.length → ∃ v st', rec ctx u st = .ok (v, st') ∧ Moved st st' w) :
    ∀ (n : Nat) (st : St), st.cur.data.length < 2 ^ 63 → st.cur.off + n * w ≤ st.cur.data.length → ∃ vs st', procN rec ctx u n st = .ok (vs, st')
  | 0, st, _, _ => ⟨_, _, rfl⟩
  | n + 1, st, hl, hr => by
    rw [Nat.succ_mul] at hr
    obtain ⟨v, s1, h1, d1, o1⟩ := hu st hl (by omega)
    obtain ⟨vs, s2, h2⟩ := procN_ok hu n s1 (by rw [d1]; exact hl) (by rw [d1, o1]; omega)
    exact ⟨_, _, Res.bind_eq_ok.mpr ⟨_, h1, Res.bind_eq_ok.mpr ⟨_, h2, rfl⟩⟩⟩

theorem pau_enough {env : Env} (hk : ∀ a, 20 ≤ (env.ext.keccak a).length) {ctx : Ctx} {t : Str} {w : Nat} (hw : Wide env ctx.module ctx.spec t w) :
    ∃ N, ∀ n, N ≤ n → ∀ st : St, st.cur.data.length < 2 ^ 63 → st.cur.off + w ≤ st.cur.data.length → ∃ v st', pau env n ctx t st = .ok (v, st') := by
  refine Wide.rec
    (motive_1 := fun t w _ => ∃ N, ∀ n, N ≤ n → ∀ st : St, st.cur.data.length < 2 ^ 63 → st.cur.off + w ≤ st.cur.data.length → ∃ v st', pau env n ctx t st = .ok (v, st'))
    (motive_2 := fun tm w _ => ∃ N, ∀ n, N ≤ n → ∀ (acc : List (Str × Val)) (st : St), st.cur.data.length < 2 ^ 63 → st.cur.off + w ≤ st.cur.data.length →
      ∃ m st', procFields (pau env n) ctx tm acc st = .ok (m, st')) ?_ ?_ ?_ ?_ ?_ hw
  · intro t s cls w hc hne ho
    refine ⟨1, fun n hn st hl hr => ?_⟩
    obtain ⟨n, rfl⟩ : ∃ k, n = k + 1 := ⟨n - 1, by omega⟩
    rw [pau_resolves n st hc]
    exact own_ok hk ho hl hr
  · rintro t s tm w hc hne ha ⟨N, ih⟩
    refine ⟨N + 1, fun n hn st hl hr => ?_⟩
    obtain ⟨n, rfl⟩ : ∃ k, n = k + 1 := ⟨n - 1, by omega⟩
    rw [pau_resolves n st hc]
    obtain ⟨m, s1, h⟩ := ih n (by omega) [] st hl hr
    exact ⟨_, _, Res.bind_eq_ok.mpr ⟨_, h, rfl⟩⟩
  · rintro t u s k w hc hne hn' hu h8 ⟨N, ih⟩
    refine ⟨N + 1, fun n hn st hl hr => ?_⟩
    obtain ⟨n, rfl⟩ : ∃ k, n = k + 1 := ⟨n - 1, by omega⟩
    rw [pau_resolves n st hc]
    simp only [process, processFixedArray]
    rw [if_pos hn']
    split
    · rename_i h8'
      obtain rfl := h8 ((equalFold_u8 _).mp h8')
      obtain ⟨b, s1, h1, _⟩ := nextBytes_enough (n := k) (w := k.toNat * 1) (by omega) hl hr
      exact ⟨_, _, Res.bind_eq_ok.mpr ⟨_, h1, rfl⟩⟩
    · obtain ⟨vs, s1, h1⟩ := procN_ok (rec := pau env n) (ctx := ctx) (u := u) (w := w)
        (fun st hl hr => by
          obtain ⟨v, s1, h⟩ := ih n (by omega) st hl hr
          exact ⟨v, s1, h, pau_width hu n v st s1 hl hr h⟩) k.toNat st hl hr
      exact ⟨_, _, Res.bind_eq_ok.mpr ⟨_, h1, rfl⟩⟩
  · exact ⟨0, fun n _ acc st _ _ => ⟨_, _, rfl⟩⟩
  · rintro k u l w x h1 h2 ⟨N, ih1⟩ ⟨M, ih2⟩
    refine ⟨max N M, fun n hn acc st hl hr => ?_⟩
    obtain ⟨v, s1, h3⟩ := ih1 n (by omega) st hl (by omega)
    obtain ⟨d1, o1⟩ := pau_width h1 n v st s1 hl (by omega) h3
    obtain ⟨m, s2, h4⟩ := ih2 n (by omega) _ s1 (by rw [d1]; exact hl) (by rw [d1, o1]; omega)
    exact ⟨_, _, Res.bind_eq_ok.mpr ⟨_, h3, h4⟩⟩

/-! ## The properties -/

/-- The full property: values of fixed width are written with exactly that width. -/
def C129Claim : Prop := ∀ (ext : Ext) (fuel : Nat) (l : List (Str × TypeDef)) (rs : RegState), regCustomTypes fuel ⟨baseEnv ext, fun _ => none⟩ l = .ok rs →
  ∀ (ctx : ECtx), HexIndices ctx.md → ∀ (t : Str) (w : Nat), Wide rs.env [] ctx.spec t w → ∀ (v : Val), AllHexGiven rs.env ctx t v → ∀ (n : Nat) (out : Str),
  enc rs.env n ctx t v = .ok out → ∃ b, out = _root_.Spec.hexText b ∧ b.length = w

/-- C129, as far as it holds for writing: if what is given as a hash, an account, bytes or a big integer has the size of its type, a type of
fixed width is written with exactly that width. -/
theorem C129_partial (env : Env) (ctx : ECtx) (hm : HexIndices ctx.md) (t : Str) (w : Nat) (hw : Wide env [] ctx.spec t w) (v : Val) (hv : AllHexGiven env ctx t v)
    (hs : AllSized env ctx t v) (n : Nat) (out : Str) (h : enc env n ctx t v = .ok out) : ∃ b, out = _root_.Spec.hexText b ∧ b.length = w := by
  obtain ⟨b, hb⟩ := C128_partial env ctx hm t v hv n out h
  refine ⟨b, hb, ?_⟩
  have := enc_width hm hw n v out ⟨hv, hs⟩ h
  rw [hb, ← bytesToHex_eq_spec, bytesToHex_length] at this
  omega

/-- Reading takes exactly the width, wherever there are enough bytes. -/
theorem C129_decode (env : Env) (ctx : Ctx) (t : Str) (w : Nat) (hw : Wide env ctx.module ctx.spec t w) (n : Nat) (v : Val) (st st' : St)
    (hl : st.cur.data.length < 2 ^ 63) (hr : st.cur.off + w ≤ st.cur.data.length) (h : pau env n ctx t st = .ok (v, st')) :
    st'.cur.data = st.cur.data ∧ st'.cur.off = st.cur.off + w := pau_width hw n v st st' hl hr h

/-- Reading a type of fixed width never fails where there are enough bytes, whatever the bytes are. -/
theorem C129_total (env : Env) (hk : ∀ a, 20 ≤ (env.ext.keccak a).length) (ctx : Ctx) (t : Str) (w : Nat) (hw : Wide env ctx.module ctx.spec t w) (st : St)
    (hl : st.cur.data.length < 2 ^ 63) (hr : st.cur.off + w ≤ st.cur.data.length) :
    ∃ N v st', (∀ n, N ≤ n → pau env n ctx t st = .ok (v, st')) ∧ st'.cur.data = st.cur.data ∧ st'.cur.off = st.cur.off + w := by
  obtain ⟨N, hN⟩ := pau_enough hk hw
  obtain ⟨v, st', h⟩ := hN N le_rfl st hl hr
  refine ⟨N, v, st', fun n hn => ?_, C129_decode env ctx t w hw N v st st' hl hr h⟩
  rcases pau_mono env hn ctx t st with h' | h'
  · rw [h] at h'
    cases h'
  · rw [← h', h]

/-- What is written for a type of fixed width can be read again by this type, and all of it is read. -/
theorem C129_back (env : Env) (hk : ∀ a, 20 ≤ (env.ext.keccak a).length) (ctx : ECtx) (hm : HexIndices ctx.md) (t : Str) (w : Nat) (hw : Wide env [] ctx.spec t w)
    (hw63 : w < 2 ^ 63) (v : Val) (hv : AllHexGiven env ctx t v) (hs : AllSized env ctx t v) (n : Nat) (out : Str) (h : enc env n ctx t v = .ok out) :
    ∃ b, out = _root_.Spec.hexText b ∧ ∃ N v' st', (∀ m, N ≤ m → pau env m ⟨[], ctx.spec, ctx.md⟩ t ⟨⟨b, 0⟩, []⟩ = .ok (v', st')) ∧ st'.cur.off = b.length := by
  obtain ⟨b, hb, hl⟩ := C129_partial env ctx hm t w hw v hv hs n out h
  obtain ⟨N, v', st', h1, h2, h3⟩ := C129_total env hk ⟨[], ctx.spec, ctx.md⟩ t w hw ⟨⟨b, 0⟩, []⟩ (by simpa [hl] using hw63) (by simp [hl])
  exact ⟨b, hb, N, v', st', h1, by rw [h3, hl]; simp⟩

/-- A hash is written with as many bytes as it is given with, whatever its type. -/
theorem C129_hash_short (env : Env) (ctx : ECtx) (t s b : Str) (k : Nat) (hr : EncResolves env ctx t (.hash k) s) (n : Nat) :
    enc env (n + 1) ctx t (.str (b!"0x" ++ _root_.Spec.hexText b)) = .ok (_root_.Spec.hexText b) := by
  rw [enc_resolves n _ hr, ← bytesToHex_eq_spec]
  show Res.ok (trimHex (toLower (addHex (toLower (b!"0x" ++ bytesToHex b))))) = _
  rw [lower_addHex, trimHex_lower_0x, bytesToHex_eq_spec]

theorem C129_claim_false : ¬ C129Claim := by
  intro h
  have hr : regCustomTypes 1 ⟨baseEnv dummyExt, fun _ => none⟩ [] = .ok ⟨baseEnv dummyExt, fun _ => none⟩ := rfl
  have hc : Resolves (baseEnv dummyExt) [] 0 b!"H256" (.hash 32) [] := by unfold Resolves; kernel_rfl
  obtain ⟨b, hb, hl⟩ := h dummyExt 1 [] _ hr ⟨0, none⟩ (fun d hd => by cases hd) b!"H256" 32 (.own hc (by decide) rfl) (.str b!"0x01")
    (allHex_of hc ⟨[1], by decide⟩ (by simp) fun u x hx => by cases hx <;> contradiction) 1 b!"01"
    (C129_hash_short (baseEnv dummyExt) ⟨0, none⟩ b!"H256" [] [1] 32 ⟨hc, by decide⟩ 0)
  have := congrArg List.length hb
  rw [← bytesToHex_eq_spec, bytesToHex_length, hl] at this
  cases this

/-- A short hash in a struct: the number behind it is read as part of it. -/
example : enc (baseEnv dummyExt) 9 ⟨0, none⟩ b!"(H256, u8)" (.map [(b!"col1", .str b!"0x01"), (b!"col2", .int 7)]) = .ok b!"0107" := by kernel_rfl

theorem hashPair_wide (mo : Str) (hm : mo = []) : Wide (baseEnv dummyExt) mo 0 b!"(H160, [u16; 3])" 26 := by
  subst hm
  refine .struct (tm := [(b!"col1", b!"H160"), (b!"col2", b!"[u16; 3]")]) (s := []) (by unfold Resolves; kernel_rfl) (by decide)
    (.cons (w := 20) (.own (cls := .hash 20) (s := []) (by unfold Resolves; kernel_rfl) (by decide) rfl)
      (.cons (w := 3 * 2) (.array (n := 3) (u := b!"u16") (s := []) (by unfold Resolves; kernel_rfl) (by decide) (by decide)
        (.own (cls := .u16) (s := []) (by unfold Resolves; kernel_rfl) (by decide) rfl) (by decide)) .nil))

/-- The hypotheses of C129_decode are met. -/
example : Wide (baseEnv dummyExt) [] 0 b!"(H160, [u16; 3])" 26 ∧
    (pau (baseEnv dummyExt) 9 ⟨[], 0, none⟩ b!"(H160, [u16; 3])" ⟨⟨List.replicate 30 1, 2⟩, []⟩ >>= fun r => .ok r.2.cur.off) = .ok 28 :=
  ⟨hashPair_wide [] rfl, by kernel_rfl⟩

theorem allSized_of {env : Env} {ctx : ECtx} {t s : Str} {v : Val} {cls : Cls} (hr : Resolves env [] ctx.spec t cls s) (hg : Sized cls (argOf v))
    (hs : ∀ u x, EncStep env.ext ctx.md cls s (argOf v) u x → AllSized env ctx u x) : AllSized env ctx t v := by
  intro u x hx
  cases hx with
  | here => intro c w hc; cases Res.ok.inj (hr.symm.trans hc); exact hg
  | next h1 h2 h3 => cases Res.ok.inj (hr.symm.trans h1); exact hs _ _ h2 _ _ h3

/-- The hypotheses of C129_total are met: the digest of the example functions is of 32 bytes. -/
example : (∀ a, 20 ≤ (dummyExt.keccak a).length) ∧ Wide (baseEnv dummyExt) [] 0 b!"(H160, [u16; 3])" 26 ∧ (List.replicate 30 (1 : UInt8)).length < 2 ^ 63 ∧ 2 + 26 ≤ 30 :=
  ⟨fun _ => by simp [dummyExt], hashPair_wide [] rfl, by simp, by simp⟩

/-- The hypotheses of C129_partial and C129_back are met. -/
example : AllHexGiven (baseEnv dummyExt) ⟨0, none⟩ b!"(H160, u16)" (.map [(b!"col1", .str (b!"0x" ++ List.replicate 40 65)), (b!"col2", .int 7)]) ∧
    AllSized (baseEnv dummyExt) ⟨0, none⟩ b!"(H160, u16)" (.map [(b!"col1", .str (b!"0x" ++ List.replicate 40 65)), (b!"col2", .int 7)]) ∧
    (enc (baseEnv dummyExt) 9 ⟨0, none⟩ b!"(H160, u16)" (.map [(b!"col1", .str (b!"0x" ++ List.replicate 40 65)), (b!"col2", .int 7)])) =
      .ok (List.replicate 40 97 ++ b!"0700") := by
  have h1 : Resolves (baseEnv dummyExt) [] 0 b!"(H160, u16)" (.struct (some [(b!"col1", b!"H160"), (b!"col2", b!"u16")])) [] := by unfold Resolves; kernel_rfl
  have h2 : Resolves (baseEnv dummyExt) [] 0 b!"H160" (.hash 20) [] := by unfold Resolves; kernel_rfl
  have h3 : Resolves (baseEnv dummyExt) [] 0 b!"u16" .u16 [] := by unfold Resolves; kernel_rfl
  have g2 : AllHexGiven (baseEnv dummyExt) ⟨0, none⟩ b!"H160" (.str (b!"0x" ++ List.replicate 40 65)) :=
    allHex_of h2 ⟨List.replicate 20 170, by kernel_rfl⟩ (by simp) fun u x hx => by cases hx <;> contradiction
  have k2 : AllSized (baseEnv dummyExt) ⟨0, none⟩ b!"H160" (.str (b!"0x" ++ List.replicate 40 65)) :=
    allSized_of h2 (show (after0x (Spec.asciiLower (b!"0x" ++ List.replicate 40 65))).length = 2 * 20 by kernel_rfl) fun u x hx => by cases hx <;> contradiction
  have g3 : AllHexGiven (baseEnv dummyExt) ⟨0, none⟩ b!"u16" (.int 7) := int_allHex _ _ _ _
  have k3 : AllSized (baseEnv dummyExt) ⟨0, none⟩ b!"u16" (.int 7) := allSized_of h3 trivial fun u x hx => by cases hx <;> contradiction
  refine ⟨allHex_of h1 trivial (by simp) fun u x hx => ?_, allSized_of h1 trivial fun u x hx => ?_, by kernel_rfl⟩
  · obtain ⟨n, hn, rfl⟩ := step_struct hx
    simp only [Option.getD_some, List.mem_cons, Prod.mk.injEq, List.not_mem_nil, or_false] at hn
    rcases hn with ⟨rfl, rfl⟩ | ⟨rfl, rfl⟩
    · exact g2
    · exact g3
  · obtain ⟨n, hn, rfl⟩ := step_struct hx
    simp only [Option.getD_some, List.mem_cons, Prod.mk.injEq, List.not_mem_nil, or_false] at hn
    rcases hn with ⟨rfl, rfl⟩ | ⟨rfl, rfl⟩
    · exact k2
    · exact k3

end ScaleGo
