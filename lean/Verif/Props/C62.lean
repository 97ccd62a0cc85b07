import Verif.Props.C07
import Verif.Props.C20
import Verif.Props.C43

/-! # C62: addresses decode to the account or index they contain

English claim: an address written as ff and an account id decodes to the account id; an address written as an account index (a byte
below f0, or fc, fd, fe and the index in 2, 4, 8 bytes) decodes to the index; in both cases exactly these bytes are consumed.

The first form holds for all three address types (`C62_partial`).  The index forms do not: `GenericAddress` returns nil
(`C62_generic_index`) and takes a small index for the beginning of an account id; `GenericLookupSource` reads the index from the
beginning of the whole buffer and consumes only the marker (`C62_lookup_index`), and panics in every buffer of 32 bytes
(`C62_lookup_32`). -/

namespace ScaleGo

/-- The bytes of an account index. -/
def Spec.indexForms : List (UInt8 × Nat) := [(252, 2), (253, 4), (254, 8)]

/-- The full claim. -/
def C62Claim : Prop :=
  ∀ (env : Env) (ctx : Ctx) (ty sub : Str) (c : Cls), c ∈ [Cls.address, .genericAddress, .lookupSource] →
    Resolves env ctx.module ctx.spec ty c sub →
    (∀ b : Str, b.length = 32 → Decodes env ctx ty (255 :: b) (.str (_root_.Spec.hexText b)) []) ∧
    (∀ p ∈ Spec.indexForms, ∀ i < 2 ^ (8 * p.2), Decodes env ctx ty (p.1 :: _root_.Spec.leBytes p.2 i) (.str (natToDec i)) []) ∧
    (∀ i < 240, Decodes env ctx ty [UInt8.ofNat i] (.str (natToDec i)) [])

theorem byte_hex (x y : UInt8) : bytesToHex [x] = bytesToHex [y] ↔ x = y :=
  ⟨fun e => (List.cons.inj (bytesToHex_injective e)).1, by rintro rfl; rfl⟩

theorem res_bind_of {α β : Type} {x : Res α} {a : α} (h : x = .ok a) (f : α → Res β) {y : Res β} (hy : f a = y) : (x >>= f) = y := by
  rw [h]; exact hy

theorem lookupSkip_not32 {d : Str} (o : Nat) (cs : List Str) (hd : d.length ≠ 32) : lookupSkip ⟨⟨d, o⟩, cs⟩ = .ok ((), ⟨⟨d, o⟩, cs⟩) := by
  unfold lookupSkip
  rw [if_neg hd]

/-- **C62**: `ff` and an account id, for all three types.  Missing: the index forms. -/
theorem C62_partial (env : Env) (ctx : Ctx) (ty sub : Str) (c : Cls) (hc : c ∈ [Cls.address, .genericAddress, .lookupSource])
    (h : Resolves env ctx.module ctx.spec ty c sub) (b : Str) (hb : b.length = 32) :
    Decodes env ctx ty (255 :: b) (.str (_root_.Spec.hexText b)) [] := by
  simp only [List.mem_cons, List.not_mem_nil, or_false] at hc
  rcases hc with rfl | rfl | rfl
  · refine decodes_of_decAt h ⟨0, fun n _ => ?_⟩
    show DecAt processAddress _ _ _
    unfold processAddress
    refine DecAt.byte ?_
    dsimp only
    simp only [if_pos (show bytesToHex [255] = b!"ff" by decide)]
    refine DecAt.last (decAt_next b 32 (by rw [hb]; rfl)) fun st => ?_
    dsimp only
    rw [bytesToHex_eq_spec]
  · refine decodes_of_decAt h ⟨0, fun n _ => ?_⟩
    show DecAt processGenericAddress _ _ _
    unfold processGenericAddress
    refine DecAt.byte ?_
    dsimp only
    simp only [if_pos (show bytesToHex [255] = b!"ff" by decide)]
    refine DecAt.last (decAt_next b 32 (by rw [hb]; rfl)) fun st => ?_
    dsimp only
    rw [bytesToHex_eq_spec]
  · refine decodes_of_read h fun r pre suf cs hl => ?_
    show processLookupSource r _ = _
    have hl' : pre.length + ([255] ++ b).length + suf.length < 2 ^ 63 := by simpa using hl
    have e1 := nextBytes_at1 pre [255] b suf cs 1 rfl hl'
    have e2 := nextBytes_at2 pre [255] b suf cs 32 (by rw [hb]; rfl) hl'
    unfold processLookupSource
    refine res_bind_of (lookupSkip_not32 _ _ (by simp; omega)) _ (res_bind_of e1 _ ?_)
    simp only [List.cons_append, List.nil_append, if_true]
    refine res_bind_of e2 _ ?_
    simp only [bytesToHex_eq_spec]
    rfl

/-- The index forms of `GenericAddress` consume the index and return nil. -/
theorem C62_generic_index (env : Env) (ctx : Ctx) (ty sub : Str) (h : Resolves env ctx.module ctx.spec ty .genericAddress sub)
    (p : UInt8 × Nat) (hp : p ∈ Spec.indexForms) (b : Str) (hb : b.length = p.2) : Decodes env ctx ty (p.1 :: b) .nil [] := by
  refine decodes_of_decAt h ⟨0, fun n _ => ?_⟩
  show DecAt processGenericAddress _ _ _
  unfold processGenericAddress
  refine DecAt.byte ?_
  simp only [Spec.indexForms, List.mem_cons, List.not_mem_nil, or_false] at hp
  rcases hp with rfl | rfl | rfl
  · simp only [show (bytesToHex [252] = b!"ff") = False by decide, show (bytesToHex [252] = b!"fc") = True by decide, if_true, if_false]
    exact DecAt.last (decAt_next b 2 (by rw [hb]; rfl)) fun st => rfl
  · simp only [show (bytesToHex [253] = b!"ff") = False by decide, show (bytesToHex [253] = b!"fc") = False by decide,
      show (bytesToHex [253] = b!"fd") = True by decide, if_true, if_false]
    exact DecAt.last (decAt_next b 4 (by rw [hb]; rfl)) fun st => rfl
  · simp only [show (bytesToHex [254] = b!"ff") = False by decide, show (bytesToHex [254] = b!"fc") = False by decide,
      show (bytesToHex [254] = b!"fd") = False by decide, show (bytesToHex [254] = b!"fe") = True by decide, if_true, if_false]
    exact DecAt.last (decAt_next b 8 (by rw [hb]; rfl)) fun st => rfl

/-- A byte read anywhere in a buffer. -/
theorem nextByte {d : Str} {o : Nat} {x : UInt8} (cs : List Str) (hx : d[o]? = some x) (hl : d.length < 2 ^ 63) :
    nextBytes 1 ⟨⟨d, o⟩, cs⟩ = .ok ([x], ⟨⟨d, o + 1⟩, cs⟩) := by
  obtain ⟨ho, hx⟩ := List.getElem?_eq_some_iff.1 hx
  have e : d = d.take o ++ ([x] ++ d.drop (o + 1)) := by
    rw [← hx]
    simp
  have hlen : (d.take o).length = o := by simp; omega
  have := nextBytes_at (d.take o) [x] (d.drop (o + 1)) cs 1 rfl (by simp; omega)
  rw [← e, hlen] at this
  exact this

/-- An index form of `GenericLookupSource`, wherever it stands in a buffer: the index is read at the beginning of the buffer, not
behind the marker, of eight bytes only four are used, and only the marker is consumed. -/
theorem C62_lookup_index (env : Env) (ctx : Ctx) (ty sub sub' : Str) (h : Resolves env ctx.module ctx.spec ty .lookupSource sub)
    (hu : Resolves env [] 0 b!"U32" .u32 sub') (p : UInt8 × Nat) (hp : p ∈ Spec.indexForms) (d : Str) (o i : Nat) (cs : List Str)
    (hd : d[o]? = some p.1) (h32 : d.length ≠ 32) (hlen : p.2 < d.length) (hl : d.length < 2 ^ 63)
    (hi : (d.drop 1).take (min p.2 4) = _root_.Spec.leBytes (min p.2 4) i) (hib : i < 2 ^ (8 * min p.2 4)) (n : Nat) :
    pau env (n + 2) ctx ty ⟨⟨d, o⟩, cs⟩ = .ok (.str (natToDec i), ⟨⟨d, o + 1⟩, cs⟩) := by
  have hf : p.1 ≠ 255 ∧ lookupSpan p.1 = (1, p.2) ∧ 1 < p.2 := by
    simp only [Spec.indexForms, List.mem_cons, List.not_mem_nil, or_false] at hp
    rcases hp with rfl | rfl | rfl <;> decide
  rw [pau_resolves (n + 1) _ h]
  show processLookupSource (pau env (n + 1)) _ = _
  unfold processLookupSource
  refine res_bind_of (lookupSkip_not32 _ _ h32) _ (res_bind_of (nextByte cs hd hl) _ ?_)
  simp only [if_neg hf.1, hf.2.1]
  rw [if_neg (by omega), pau_resolves (ctx := Ctx.fresh) n _ hu]
  have hu32 : ∀ st, process env.ext (pau env n) Ctx.fresh .u32 sub' st = processUint 4 st := fun st => rfl
  rw [hu32]
  unfold processUint
  have hcap : ((d.drop 1).take p.2).length = p.2 := by rw [List.length_take, List.length_drop]; omega
  have hval : leNat (_root_.Spec.leBytes (min p.2 4) i) = i := leNat_leBytes (by rw [pow256]; exact hib)
  by_cases h4 : p.2 ≤ 4
  · rw [show min p.2 4 = p.2 by omega] at hi hval
    rw [hi]
    have := nextBytes_end [] (_root_.Spec.leBytes p.2 i) [] 4 (by rw [leBytes_length]; exact h4) (by simp)
    simp only [List.nil_append, List.length_nil] at this
    rw [show ((4 : Nat) : Int) = 4 from rfl] at *
    rw [this]
    simp only [Res.ok_bind]
    rw [readInto_short (by rw [leBytes_length]; exact h4), leNat_pad, hval]
  · rw [show min p.2 4 = 4 by omega] at hi hval
    have e : (d.drop 1).take p.2 = [] ++ (_root_.Spec.leBytes 4 i ++ ((d.drop 1).take p.2).drop 4) := by
      rw [← hi, List.nil_append]
      have := List.take_append_drop 4 ((d.drop 1).take p.2)
      rw [List.take_take, show min 4 p.2 = 4 by omega] at this
      exact this.symm
    rw [e]
    have := nextBytes_at [] (_root_.Spec.leBytes 4 i) (((d.drop 1).take p.2).drop 4) [] 4 (by rw [leBytes_length]; rfl)
      (by rw [leBytes_length, List.length_drop, hcap, List.length_nil]; omega)
    simp only [List.length_nil] at this
    rw [show ((4 : Nat) : Int) = 4 from rfl] at *
    rw [this]
    simp only [Res.ok_bind]
    rw [readInto_self (leBytes_length 4 i), hval]

/-- In a buffer of 32 bytes `GenericLookupSource` panics. -/
theorem C62_lookup_32 (env : Env) (ctx : Ctx) (ty sub : Str) (h : Resolves env ctx.module ctx.spec ty .lookupSource sub) (d : Str)
    (cs : List Str) (hd : d.length = 32) (n : Nat) : pau env (n + 1) ctx ty ⟨⟨d, 0⟩, cs⟩ = .panic := by
  rw [pau_resolves n _ h]
  show processLookupSource (pau env n) _ = _
  have e1 := nextBytes_end [] d cs 32 (by omega) (by simp)
  have e2 := nextBytes_end d [] cs 1 (by simp) (by omega)
  simp only [List.nil_append, List.length_nil, List.append_nil] at e1 e2
  have e0 : lookupSkip ⟨⟨d, 0⟩, cs⟩ = .ok ((), ⟨⟨d, d.length⟩, cs⟩) := by
    unfold lookupSkip
    rw [if_pos hd]
    exact res_bind_of e1 _ rfl
  unfold processLookupSource
  exact res_bind_of e0 _ (res_bind_of e2 _ rfl)

theorem genericAddress_base : Resolves (baseEnv dummyExt) [] 0 b!"GenericAddress" .genericAddress [] := by unfold Resolves; kernel_rfl

theorem lookupSource_base : Resolves (baseEnv dummyExt) [] 0 b!"GenericLookupSource" .lookupSource [] := by unfold Resolves; kernel_rfl

/-- The claim is false: account index 300 decodes to nil. -/
theorem C62_claim_false : ¬ C62Claim := by
  intro h
  have h1 := (h (baseEnv dummyExt) ⟨[], 0, none⟩ b!"GenericAddress" [] .genericAddress (by decide) genericAddress_base).2.1 (252, 2) (by decide)
    300 (by decide)
  have h2 := C62_generic_index (baseEnv dummyExt) ⟨[], 0, none⟩ b!"GenericAddress" [] genericAddress_base (252, 2) (by decide)
    (_root_.Spec.leBytes 2 300) (by decide)
  exact absurd (decodes_val_unique h1 h2 (by decide)) (by intro e; cases e)

/-- A lookup source `fc 2c 01` behind three other bytes: its index 300 is not read, but 0x0605 from the beginning of the
buffer is. -/
example (n : Nat) : pau (baseEnv dummyExt) (n + 2) ⟨[], 0, none⟩ b!"GenericLookupSource" ⟨⟨[4, 5, 6, 252, 44, 1], 3⟩, []⟩ =
    .ok (.str b!"1541", ⟨⟨[4, 5, 6, 252, 44, 1], 4⟩, []⟩) :=
  C62_lookup_index (baseEnv dummyExt) ⟨[], 0, none⟩ b!"GenericLookupSource" [] [] lookupSource_base (by unfold Resolves; kernel_rfl) (252, 2)
    (by decide) [4, 5, 6, 252, 44, 1] 3 1541 [] rfl (by decide) (by decide) (by decide) (by decide) (by decide) n

end ScaleGo
