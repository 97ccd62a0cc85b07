import Verif.Lemmas.ExtrinsicInv
import Verif.Lemmas.Comp
import Verif.Lemmas.KernelRfl
import Verif.Model.Base

/-! # C44: order of the signed extensions

Iterating over the Go map of supplied extensions is modelled by a list in iteration order, so the same map iterated differently is a
permutation of the list. -/

namespace ScaleGo

/-- C44 in full: the same map iterated in another order gives the same bytes. -/
def C44Claim : Prop := ∀ (env : Env) (fuel : Nat) (spec : Int) (md : MD) (g : ExtrinsicIn) (l : List (Str × Val)),
  (g.extensions.map (·.1)).Nodup → g.extensions.Perm l →
  encodeExtrinsic env fuel spec (some md) { g with extensions := l } = encodeExtrinsic env fuel spec (some md) g

/-- Metadata with one call without arguments and two extensions of one byte. -/
def extMD : MD where
  version := 14
  callIndex := fun k => if k = b!"0000" then some ⟨b!"c", b!"M", []⟩ else none
  eventIndex := fun _ => none
  extrinsic := some ⟨[b!"A", b!"B"], [(b!"A", b!"u8"), (b!"B", b!"u8")]⟩

/-- A registry that also knows a signature type. -/
def sigEnv : Env := addTypes (baseEnv dummyExt) [(b!"extrinsicsignature", .hash 2)]

/-- A signed extrinsic with the given extensions. -/
def extG (l : List (Str × Val)) : ExtrinsicIn := ⟨b!"84", .str b!"aaaa", .str b!"bbbb", b!"00", 0, (0, 0), l, b!"0000", []⟩

/-- The bytes depend on the iteration order: with A = 1 and B = 2 either 01 02 or 02 01 is written. -/
theorem C44_claim_false : ¬ C44Claim := by
  intro h
  have h1 := h sigEnv 9 0 extMD (extG [(b!"A", .int 1), (b!"B", .int 2)]) [(b!"B", .int 2), (b!"A", .int 1)] (by decide)
    (List.Perm.swap _ _ _)
  have e1 : encodeExtrinsic sigEnv 9 0 (some extMD) (extG [(b!"A", .int 1), (b!"B", .int 2)]) =
      .ok (.ok (b!"2c84aaaabbbb000001020000")) := by kernel_rfl
  have e2 : encodeExtrinsic sigEnv 9 0 (some extMD) (extG [(b!"B", .int 2), (b!"A", .int 1)]) =
      .ok (.ok (b!"2c84aaaabbbb000002010000")) := by kernel_rfl
  rw [e1] at h1
  have := h1.symm.trans e2
  exact absurd (Except.ok.inj (Res.ok.inj this)) (by decide)

/-- Extensions that the metadata does not list contribute nothing. -/
theorem encExt_unlisted {rec : ERec} {id : Str} {v : Val} {ms : List (Str × Str)} (h : id ∉ ms.map (·.1)) : encExt rec id v ms = .ok [] := by
  induction ms with
  | nil => rfl
  | cons m ms ih =>
    obtain ⟨n, t⟩ := m
    simp only [List.map_cons, List.mem_cons, not_or] at h
    rw [encExt, if_neg (fun e => h.1 e.symm), ih h.2]

theorem encExts_filter {rec : ERec} {ms : List (Str × Str)} (l : List (Str × Val)) :
    encExts rec ms l = encExts rec ms (l.filter fun p => decide (p.1 ∈ ms.map (·.1))) := by
  induction l with
  | nil => rfl
  | cons p l ih =>
    obtain ⟨id, v⟩ := p
    by_cases h : id ∈ ms.map (·.1)
    · rw [List.filter_cons_of_pos (by simpa using h), encExts, encExts, ih]
    · rw [List.filter_cons_of_neg (by simpa using h), encExts, encExt_unlisted h, Res.ok_bind, ih]
      cases encExts rec ms (l.filter fun p => decide (p.1 ∈ ms.map (·.1))) <;> rfl

theorem encodeExtrinsic_congr {env : Env} {fuel : Nat} {spec : Int} {md : MD} {g : ExtrinsicIn} {l : List (Str × Val)}
    (h : ∀ x, md.extrinsic = some x → encExts (enc env fuel) x.signedExtensions l = encExts (enc env fuel) x.signedExtensions g.extensions) :
    encodeExtrinsic env fuel spec (some md) { g with extensions := l } = encodeExtrinsic env fuel spec (some md) g := by
  have : encSignedPart env (enc env fuel) md { g with extensions := l } = encSignedPart env (enc env fuel) md g := by
    unfold encSignedPart encSigned
    dsimp only
    cases hx : md.extrinsic with
    | none => rfl
    | some x => simp only [h x hx]
  unfold encodeExtrinsic
  dsimp only
  rw [this]

/-- The part that holds: when the metadata lists at most one of the supplied extensions, the iteration order does not matter; nor
does it for versions other than 84. -/
theorem C44_partial (env : Env) (fuel : Nat) (spec : Int) (md : MD) (g : ExtrinsicIn) (l : List (Str × Val)) (hp : g.extensions.Perm l)
    (h : g.version ≠ b!"84" ∨ ∀ x, md.extrinsic = some x → (g.extensions.filter fun p => decide (p.1 ∈ x.signedExtensions.map (·.1))).length ≤ 1) :
    encodeExtrinsic env fuel spec (some md) { g with extensions := l } = encodeExtrinsic env fuel spec (some md) g := by
  rcases h with h | h
  · have : encSignedPart env (enc env fuel) md { g with extensions := l } = encSignedPart env (enc env fuel) md g := by
      unfold encSignedPart
      rw [if_neg h, if_neg h]
    unfold encodeExtrinsic
    dsimp only
    rw [this]
  · refine encodeExtrinsic_congr fun x hx => ?_
    have hl := h x hx
    have hf := hp.filter (fun p => decide (p.1 ∈ x.signedExtensions.map (·.1)))
    rw [encExts_filter l, encExts_filter g.extensions]
    revert hf hl
    generalize g.extensions.filter (fun p => decide (p.1 ∈ x.signedExtensions.map (·.1))) = a
    generalize l.filter (fun p => decide (p.1 ∈ x.signedExtensions.map (·.1))) = b
    intro hl hf
    match a, hl with
    | [], _ => rw [hf.nil_eq]
    | [y], _ => rw [List.singleton_perm.1 hf]

/-- What is written for one extension. -/
theorem encExt_listed {rec : ERec} {id t b : Str} {v : Val} {ms : List (Str × Str)} (hn : (ms.map (·.1)).Nodup) (hm : (id, t) ∈ ms)
    (h : rec ECtx.none t v = .ok b) : encExt rec id v ms = .ok b := by
  induction ms with
  | nil => cases hm
  | cons m ms ih =>
    obtain ⟨n, t'⟩ := m
    simp only [List.map_cons, List.nodup_cons] at hn
    rcases List.mem_cons.1 hm with e | hm
    · cases e
      rw [encExt, if_pos rfl, h, encExt_unlisted hn.1]
      simp only [Res.ok_bind, List.append_nil]
    · rw [encExt, if_neg, ih hn.2 hm]
      rintro rfl
      exact hn.1 (List.mem_map.2 ⟨_, hm, rfl⟩)

/-- Exactly what is written: the encodings in the order in which the map is iterated, each with the type the metadata gives. -/
theorem C44_iteration_order (env : Env) (fuel : Nat) (ms : List (Str × Str)) (hn : (ms.map (·.1)).Nodup)
    (items : List (Str × Val × Str × Str)) (hm : ∀ x ∈ items, (x.1, x.2.2.1) ∈ ms)
    (h : ∀ x ∈ items, enc env fuel ECtx.none x.2.2.1 x.2.1 = .ok (Spec.hexText x.2.2.2)) :
    encExts (enc env fuel) ms (items.map fun x => (x.1, x.2.1)) = .ok (Spec.hexText (items.map (·.2.2.2)).flatten) := by
  induction items with
  | nil => rfl
  | cons x items ih =>
    have h1 := encExt_listed hn (hm x (by simp)) (h x (by simp))
    have h2 := ih (fun y hy => hm y (by simp [hy])) (fun y hy => h y (by simp [hy]))
    simp only [List.map_cons, List.flatten_cons, encExts, h1, h2, Res.ok_bind]
    rw [← bytesToHex_eq_spec, ← bytesToHex_eq_spec, ← bytesToHex_eq_spec, bytesToHex_append]

/-- Whatever the iteration order, the same extensions are written, so the number of bytes is the same. -/
theorem C44_same_length (rec : ERec) (ms : List (Str × Str)) (l l' : List (Str × Val)) (hp : l.Perm l') (a : Str)
    (h : encExts rec ms l = .ok a) : ∃ b, encExts rec ms l' = .ok b ∧ b.Perm a := by
  induction hp generalizing a with
  | nil => exact ⟨a, h, .refl _⟩
  | cons p _ ih =>
    obtain ⟨id, v⟩ := p
    rw [encExts, Res.bind_eq_ok] at h
    obtain ⟨x, h1, h⟩ := h
    rw [Res.bind_eq_ok] at h
    obtain ⟨y, h2, h⟩ := h
    cases h
    obtain ⟨b, h3, h4⟩ := ih y h2
    exact ⟨x ++ b, by simp only [encExts, h1, h3, Res.ok_bind], h4.append_left x⟩
  | swap p q l =>
    obtain ⟨i1, v1⟩ := p
    obtain ⟨i2, v2⟩ := q
    rw [encExts, Res.bind_eq_ok] at h
    obtain ⟨x, h1, h⟩ := h
    rw [Res.bind_eq_ok] at h
    obtain ⟨y, h2, h⟩ := h
    rw [encExts, Res.bind_eq_ok] at h2
    obtain ⟨z, h3, h2⟩ := h2
    rw [Res.bind_eq_ok] at h2
    obtain ⟨w, h4, h2⟩ := h2
    cases h; cases h2
    refine ⟨z ++ (x ++ w), by simp only [encExts, h1, h3, h4, Res.ok_bind], ?_⟩
    rw [← List.append_assoc, ← List.append_assoc]
    exact List.Perm.append_right w List.perm_append_comm
  | trans _ _ ih1 ih2 =>
    obtain ⟨b, h1, h2⟩ := ih1 a h
    obtain ⟨c, h3, h4⟩ := ih2 b h1
    exact ⟨c, h3, h4.trans h2⟩

/-- One listed extension among two supplied ones. -/
example : ((extG [(b!"A", .int 1), (b!"Z", .int 2)]).extensions.filter
    fun p => decide (p.1 ∈ [(b!"A", b!"u8"), (b!"B", b!"u8")].map (·.1))).length ≤ 1 ∧
    encExts (enc sigEnv 9) [(b!"A", b!"u8"), (b!"B", b!"u8")] [(b!"B", .int 2), (b!"Z", .int 2), (b!"A", .int 1)] = .ok b!"0201" :=
  ⟨by decide, by kernel_rfl⟩

end ScaleGo
