import Verif.Model.ExtrinsicHash
import Verif.Props.C43

/-! # C88: the hash of an extrinsic -/

namespace ScaleGo

open ScaleGo.Spec

namespace Spec

/-- The decoder took `data`, of which it kept the length `len`, as the extrinsic `body`: either bare, or behind a compact number that
is its length. -/
def TakenAs (data : Str) (len : Int) (body : Str) : Prop :=
  (len = 0 ∧ data = body) ∨
    (len = body.length ∧ body ≠ [] ∧ ∃ q, data = q ++ body ∧ compactAt data = some (body.length, q.length))

end Spec

/-- C88 in full: the hash of a signed extrinsic is the hash of its SCALE length followed by its bytes, however it was given; an
unsigned extrinsic has no hash. -/
def C88Claim : Prop := ∀ (blake : Str → Str) (env : Env) (fuel : Nat) (md : MD) (opt : ExtOpt) (data : Str) (x : Extrinsic) (h : Str)
  (st : St), decodeWithHash blake env fuel md opt data = .ok (x, h, st) →
  (x.signed = none → h = []) ∧
  ∀ s body p, x.signed = some s → TakenAs data x.length body → _root_.Spec.IsCompact body.length p →
    h = _root_.Spec.hexText (blake (p ++ body))

/-- Exactly the versions with a signature contain a transaction. -/
theorem signed_contains {env : Env} {rec : Rec} {ctx : Ctx} {md : MD} {opt : ExtOpt} {v : Str} {st st' : St} {s : Option Signed}
    (h : readSigned env rec ctx md opt v st = .ok (s, st')) : containsTransaction v = s.isSome := by
  unfold readSigned at h
  split at h
  · rename_i hv
    cases h
    rcases hv with hv | hv <;> (rw [hv]; decide)
  · split at h
    · rename_i hv
      rw [Res.bind_eq_ok] at h
      obtain ⟨a, _, h⟩ := h
      cases h
      rw [hv, Option.isSome_some]; decide
    · split at h
      · rename_i hv
        rw [Res.bind_eq_ok] at h
        obtain ⟨a, _, h⟩ := h
        cases h
        rw [hv, Option.isSome_some]; decide
      · cases h

theorem decodeWithHash_inv {blake : Str → Str} {env : Env} {fuel : Nat} {md : MD} {opt : ExtOpt} {data : Str} {x : Extrinsic} {h : Str}
    {st : St} (e : decodeWithHash blake env fuel md opt data = .ok (x, h, st)) :
    decodeExtrinsic env fuel md opt data = .ok (x, st) ∧
      h = if x.signed.isSome then bytesToHex (blake (if x.length > 0 then data else lengthBytes data.length ++ data)) else [] := by
  unfold decodeWithHash at e
  rw [Res.bind_eq_ok] at e
  obtain ⟨⟨y, s⟩, e1, e2⟩ := e
  cases e2
  refine ⟨e1, ?_⟩
  unfold decodeExtrinsic processExtrinsic at e1
  dsimp only at e1
  rw [Res.bind_eq_ok] at e1
  obtain ⟨⟨len, s1⟩, _, e1⟩ := e1
  rw [Res.bind_eq_ok] at e1
  obtain ⟨⟨b, s2⟩, _, e1⟩ := e1
  rw [Res.bind_eq_ok] at e1
  obtain ⟨⟨sg, s3⟩, e5, e1⟩ := e1
  rw [Res.bind_eq_ok] at e1
  obtain ⟨⟨c, s4⟩, _, e1⟩ := e1
  cases e1
  unfold generateHash
  rw [signed_contains e5]
  cases sg <;> rfl

/-- An unsigned extrinsic has no hash. -/
theorem C88_unsigned (blake : Str → Str) (env : Env) (fuel : Nat) (md : MD) (opt : ExtOpt) (data : Str) (x : Extrinsic) (h : Str)
    (st : St) (e : decodeWithHash blake env fuel md opt data = .ok (x, h, st)) (hs : x.signed = none) : h = [] := by
  rw [(decodeWithHash_inv e).2, hs]
  rfl

/-- Given with a length, the hash is the hash of the bytes given, however the length was written. -/
theorem C88_prefixed (blake : Str → Str) (env : Env) (fuel : Nat) (md : MD) (opt : ExtOpt) (data : Str) (x : Extrinsic) (h : Str)
    (st : St) (e : decodeWithHash blake env fuel md opt data = .ok (x, h, st)) (s : Signed) (hs : x.signed = some s)
    (hl : 0 < x.length) : h = _root_.Spec.hexText (blake data) := by
  rw [(decodeWithHash_inv e).2, hs]
  simp only [Option.isSome_some, if_true]
  rw [if_pos hl, bytesToHex_eq_spec]

/-- Given without a length, the hash is the hash of the bytes behind their SCALE length, as long as they are fewer than 2^30. -/
theorem C88_bare (blake : Str → Str) (env : Env) (fuel : Nat) (md : MD) (opt : ExtOpt) (data : Str) (x : Extrinsic) (h : Str)
    (st : St) (e : decodeWithHash blake env fuel md opt data = .ok (x, h, st)) (s : Signed) (hs : x.signed = some s)
    (hl : x.length = 0) (hd : data.length < 2 ^ 30) (p : Str) (hp : _root_.Spec.IsCompact data.length p) :
    h = _root_.Spec.hexText (blake (p ++ data)) := by
  obtain ⟨b, hb, hc⟩ := compactShort_spec hd
  rw [(decodeWithHash_inv e).2, hs, hl]
  simp only [Option.isSome_some, if_true]
  rw [if_neg (by decide), bytesToHex_eq_spec, lengthBytes, hb, Option.getD_some, isCompact_unique hc hp]

/-- From 2^30 bytes on the length is missing from the hashed bytes. -/
theorem C88_large (blake : Str → Str) (env : Env) (fuel : Nat) (md : MD) (opt : ExtOpt) (data : Str) (x : Extrinsic) (h : Str)
    (st : St) (e : decodeWithHash blake env fuel md opt data = .ok (x, h, st)) (s : Signed) (hs : x.signed = some s)
    (hl : x.length = 0) (hd : 2 ^ 30 ≤ data.length) : h = _root_.Spec.hexText (blake data) := by
  rw [(decodeWithHash_inv e).2, hs, hl]
  simp only [Option.isSome_some, if_true]
  rw [if_neg (by decide), bytesToHex_eq_spec, lengthBytes, compactShort_none (by omega)]
  rfl

/-- C88 for extrinsics shorter than 2^30 bytes, given bare or behind their SCALE length: missing are longer bare ones and those behind
a length that is not written in the shortest form. -/
theorem C88_partial (blake : Str → Str) (env : Env) (fuel : Nat) (md : MD) (opt : ExtOpt) (data : Str) (x : Extrinsic) (h : Str)
    (st : St) (e : decodeWithHash blake env fuel md opt data = .ok (x, h, st)) :
    (x.signed = none → h = []) ∧
    ∀ s body p, x.signed = some s → TakenAs data x.length body → _root_.Spec.IsCompact body.length p → body.length < 2 ^ 30 →
      (x.length ≠ 0 → data = p ++ body) → h = _root_.Spec.hexText (blake (p ++ body)) := by
  refine ⟨C88_unsigned blake env fuel md opt data x h st e, ?_⟩
  rintro s body p hs (⟨hl, rfl⟩ | ⟨hl, hb, q, rfl, _⟩) hp hlt hq
  · exact C88_bare blake env fuel md opt _ x h st e s hs hl hlt p hp
  · have hpos : 0 < body.length := List.length_pos_iff.2 hb
    have := hq (by omega)
    rw [C88_prefixed blake env fuel md opt _ x h st e s hs (by omega), this]

/-- Length, presence of a signature and hash of a decoded extrinsic. -/
def hashOf : Res (Extrinsic × Str × St) → Option (Int × Bool × Str)
  | .ok (x, h, _) => some (x.length, x.signed.isSome, h)
  | _ => none

theorem hashOf_some {r : Res (Extrinsic × Str × St)} {l : Int} {h : Str} (e : hashOf r = some (l, true, h)) :
    ∃ x s st, r = .ok (x, h, st) ∧ x.length = l ∧ x.signed = some s := by
  match r, e with
  | .ok (x, h', st), e =>
    simp only [hashOf, Option.some.injEq, Prod.mk.injEq] at e
    obtain ⟨s, hs⟩ := Option.isSome_iff_exists.1 e.2.1
    exact ⟨x, s, st, by rw [e.2.2], e.1, hs⟩

/-- The signed extrinsic of the examples, without its length. -/
def hashBody : Str := [132, 170, 170, 187, 187, 0, 0, 4, 8, 0, 0, 7]

/-- The full claim is false: behind its length 12 written with two bytes (31 00) the extrinsic has another hash than behind its SCALE
length (30). -/
theorem C88_claim_false : ¬ C88Claim := by
  intro hc
  have e : hashOf (decodeWithHash id rtEnv 9 (rtMD rtGood) rtOpt ([49, 0] ++ hashBody)) =
      some (12, true, b!"310084aaaabbbb00000408000007") := by kernel_rfl
  obtain ⟨x, s, st, e1, e2, e3⟩ := hashOf_some e
  have := (hc id rtEnv 9 (rtMD rtGood) rtOpt _ x _ st e1).2 s hashBody [48] e3
    (.inr ⟨e2, by decide, [49, 0], rfl, by decide⟩) (.inl ⟨by decide, rfl⟩)
  exact absurd this (by decide)

/-- The same extrinsic bare and behind its SCALE length: in both cases the hash is taken of the latter form. -/
example : hashOf (decodeWithHash id rtEnv 9 (rtMD rtGood) rtOpt hashBody) = some (0, true, b!"3084aaaabbbb00000408000007") ∧
    hashOf (decodeWithHash id rtEnv 9 (rtMD rtGood) rtOpt ([48] ++ hashBody)) = some (12, true, b!"3084aaaabbbb00000408000007") ∧
    TakenAs hashBody 0 hashBody ∧ TakenAs ([48] ++ hashBody) 12 hashBody ∧ _root_.Spec.IsCompact hashBody.length [48] :=
  ⟨by kernel_rfl, by kernel_rfl, .inl ⟨rfl, rfl⟩, .inr ⟨rfl, by decide, [48], rfl, by decide⟩, .inl ⟨by decide, rfl⟩⟩

end ScaleGo
