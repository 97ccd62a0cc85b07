import Verif.Lemmas.History
import Verif.Lemmas.KernelRfl
import Verif.Model.Base

/-! # C30: type lookup ignores letter case and leaves other names alone

A history of registrations, each with its own `RegCustomTypes` call, is replayed from an arbitrary state of the tables;
afterwards every spelling of a registered name is looked up. -/

namespace ScaleGo

open ScaleGo.Spec

/-- No module-specific override (table of `types/override/override.go`) is written for this module and name. -/
def Spec.NotOverridden (m s : Str) : Prop :=
  ∀ row ∈ typesModules, SameName row.1 m → ∀ p ∈ row.2, ¬ SameName p.1 s

instance (a b : Str) : Decidable (SameName a b) := decidable_of_iff _ (toLower_eq_iff a b)

instance (m s : Str) : Decidable (NotOverridden m s) :=
  inferInstanceAs (Decidable (∀ row ∈ typesModules, SameName row.1 m → ∀ p ∈ row.2, ¬ SameName p.1 s))

theorem tableGet_mem {α : Type} {l : List (Str × α)} {k : Str} {v : α} (h : tableGet l k = some v) : (k, v) ∈ l := by
  induction l with
  | nil => simp [tableGet] at h
  | cons p l ih =>
    obtain ⟨k', v'⟩ := p
    unfold tableGet at h
    split at h
    · rename_i hk; subst hk; simp at h; simp [h]
    · exact List.mem_cons_of_mem _ (ih h)

theorem moduleType_notOverridden {m s : Str} (h : NotOverridden m s) : moduleType (toLower s) m = toLower s := by
  unfold moduleType
  split
  · rfl
  · split
    · rfl
    · rename_i row hrow
      cases hp : tableGet row (toLower s) with
      | none => rfl
      | some x =>
        exfalso
        refine h _ (tableGet_mem hrow) ?_ _ (tableGet_mem hp) ?_
        · rw [← toLower_eq_iff]; exact toLower_idem m
        · rw [← toLower_eq_iff]; exact toLower_idem s

theorem Spec.SameName.plain {a b : Str} (h : SameName a b) (ha : PlainName a) : PlainName b := by
  have hl := (toLower_eq_iff a b).2 h
  have hp := ha.lower
  rw [hl] at hp
  have key : ∀ c : UInt8, isNameByte (lowerByte c) = true → isNameByte c = true := by
    intro c
    exact forall_byte (P := fun c => isNameByte (lowerByte c) = true → isNameByte c = true) (by decide +kernel) c
  refine ⟨fun he => hp.1 (by simp [he, toLower]), ?_⟩
  have h2 := hp.2
  simp only [toLower, List.all_map, List.all_eq_true, Function.comp] at h2
  exact List.all_eq_true.2 (fun c hc => key c (h2 c hc))

/-- The full property, for identifiers registered without version range: every spelling resolves to the latest
registration, and a name that was not registered resolves as before. -/
def C30Claim : Prop :=
  ∀ (fuel : Nat) (st : RegState) (es : List Entry) (rs : List (Str × TypeDef)) (m s : Str) (v : Int),
    (∀ e ∈ es, PlainName e.name ∧ e.range = none) → List.Forall₂ Registers es rs → (∀ k, st.env.special k = []) →
    PlainName s → NotOverridden m s →
    ∃ st', registerAll fuel st rs = .ok st' ∧
      (∀ c, LastPlain s es c → getCodecClass st'.env m v s = .ok (some (c, []))) ∧
      (NoPlain s es → getCodecClass st'.env m v s = getCodecClass st.env m v s)

/-- The names for which the property holds are those not beginning with `BoundedBTreeSet` in this very spelling, which
`ConvertType` renames (`C30_claim_false`).  Version ranges may be mixed into the history as long as none of them covers the
looked-up name and version. -/
theorem C30_partial (fuel : Nat) (st : RegState) (es : List Entry) (rs : List (Str × TypeDef)) (m s : Str) (v : Int)
    (hv : v ≤ 99999999) (hf : ∀ e ∈ es, e.Fits) (h : List.Forall₂ Registers es rs)
    (hsp : findSpecial v (st.env.special (toLower s)) = none) (hno : NoRange s v es)
    (hs : PlainName s) (hb : hasPrefix s b!"BoundedBTreeSet" = false) (hm : NotOverridden m s) :
    ∃ st', registerAll fuel st rs = .ok st' ∧
      (∀ c, LastPlain s es c → getCodecClass st'.env m v s = .ok (some (c, []))) ∧
      (NoPlain s es → getCodecClass st'.env m v s = getCodecClass st.env m v s) := by
  refine ⟨_, registerAll_entries fuel st es rs hf h, ?_, ?_⟩
  · intro c hc
    rw [getCodecClass_plain _ v hs hb (moduleType_notOverridden hm)]
    simp only [storeAll_none hv hno, hsp, storeAll_last hc, Option.none_or, Option.map_some]
  · intro hp
    rw [getCodecClass_plain _ v hs hb (moduleType_notOverridden hm),
      getCodecClass_plain _ v hs hb (moduleType_notOverridden hm)]
    simp only [storeAll_none hv hno, storeAll_noPlain hp]

/-- In particular one registration: all spellings agree and every other name is left alone. -/
theorem C30_one_partial (fuel : Nat) (st : RegState) (name : Str) (d : TypeDef) (c : Cls) (hn : PlainName name)
    (hd : Defines d c) (hv14 : d.v14 = false) (hsp : ∀ k, st.env.special k = []) :
    ∃ st', regCustomTypes fuel st [(name, d)] = .ok st' ∧
      ∀ s m (v : Int), PlainName s → hasPrefix s b!"BoundedBTreeSet" = false → NotOverridden m s → v ≤ 99999999 →
        (SameName name s → getCodecClass st'.env m v s = .ok (some (c, []))) ∧
        (¬ SameName name s → getCodecClass st'.env m v s = getCodecClass st.env m v s) := by
  have hr : List.Forall₂ Registers [⟨name, none, c⟩] [(name, d)] := .cons ⟨rfl, hd, hv14⟩ .nil
  have h1 := registerAll_entries fuel st _ _ (by simp [Entry.Fits, hn]) hr
  obtain ⟨st', he⟩ : ∃ st', regCustomTypes fuel st [(name, d)] = .ok st' := ⟨_, regCustomTypes_one fuel st name hv14 hd⟩
  refine ⟨st', he, fun s m v hs hb hm hv => ?_⟩
  obtain ⟨st'', h2, h3, h4⟩ := C30_partial fuel st _ _ m s v hv (by simp [Entry.Fits, hn]) hr (by rw [hsp]; rfl)
    (by intro e he r; simp at he; simp [he]) hs hb hm
  have : st'' = st' := by
    unfold registerAll at h2
    rw [he] at h2
    simp only [Res.ok_bind, registerAll, Res.ok.injEq] at h2
    exact h2.symm
  subst this
  exact ⟨fun hsn => h3 c (.here _ _ hsn rfl (by simp)), fun hsn => h4 (by intro e he; simp at he; simp [he, hsn])⟩

/-- A type registered as `BoundedBTreeSet` is not found under that spelling: `BTreeSet` is looked up instead. -/
theorem C30_claim_false : ¬ C30Claim := by
  intro h
  obtain ⟨st', h1, h2, _⟩ := h 0 ⟨baseEnv dummyExt, fun _ => none⟩ [⟨b!"BoundedBTreeSet", none, .set [b!"a"] 8⟩]
    [(b!"BoundedBTreeSet", { kind := b!"set", values := [b!"a"], bits := 8 })] [] b!"BoundedBTreeSet" 0
    (by intro e he; simp at he; subst he; exact ⟨by decide, rfl⟩)
    (.cons ⟨rfl, .set _ rfl, rfl⟩ .nil) (fun _ => rfl) (by decide) (by decide +kernel)
  have h3 := h2 _ (.here _ _ ((toLower_eq_iff _ _).1 rfl) rfl (by simp))
  have h4 : registerAll 0 ⟨baseEnv dummyExt, fun _ => none⟩ [(b!"BoundedBTreeSet", { kind := b!"set", values := [b!"a"], bits := 8 })] =
      .ok ⟨setReg (baseEnv dummyExt) b!"boundedbtreeset" (.set [b!"a"] 8), fun _ => none⟩ := by rfl
  rw [h4] at h1
  cases h1
  have h5 : getCodecClass (setReg (baseEnv dummyExt) b!"boundedbtreeset" (.set [b!"a"] 8)) [] 0 b!"BoundedBTreeSet" =
      .ok (some (.vec [], [])) := by kernel_rfl
  rw [h5] at h3
  simp at h3

/-- Two registrations of one name in different spellings, looked up in a third one. -/
example : ∃ st', registerAll 0 ⟨baseEnv dummyExt, fun _ => none⟩
      [(b!"MyType", { kind := b!"struct", mapping := [[b!"a", b!"u8"]] }), (b!"mytype", { kind := b!"set", values := [b!"x"], bits := 8 })] = .ok st' ∧
    (∀ c, LastPlain b!"MYTYPE" [⟨b!"MyType", none, .struct (some [(b!"a", b!"u8")])⟩, ⟨b!"mytype", none, .set [b!"x"] 8⟩] c →
      getCodecClass st'.env b!"balances" 5 b!"MYTYPE" = .ok (some (c, []))) := by
  obtain ⟨st', h1, h2, _⟩ := C30_partial 0 ⟨baseEnv dummyExt, fun _ => none⟩
    [⟨b!"MyType", none, .struct (some [(b!"a", b!"u8")])⟩, ⟨b!"mytype", none, .set [b!"x"] 8⟩]
    [(b!"MyType", { kind := b!"struct", mapping := [[b!"a", b!"u8"]] }), (b!"mytype", { kind := b!"set", values := [b!"x"], bits := 8 })]
    b!"balances" b!"MYTYPE" 5 (by decide)
    (by intro e he; simp at he; rcases he with rfl | rfl <;> exact ⟨by decide, by simp⟩)
    (.cons ⟨rfl, .struct _ _ rfl (by simp) rfl, rfl⟩ (.cons ⟨rfl, .set _ rfl, rfl⟩ .nil)) rfl
    (by intro e he; simp at he; rcases he with rfl | rfl <;> simp) (by decide) (by decide) (by decide +kernel)
  exact ⟨st', h1, h2⟩

example : LastPlain b!"MYTYPE" [⟨b!"MyType", none, .struct (some [(b!"a", b!"u8")])⟩, ⟨b!"mytype", none, .set [b!"x"] 8⟩] (.set [b!"x"] 8) :=
  .later _ _ _ (.here ⟨b!"mytype", none, .set [b!"x"] 8⟩ _ ((toLower_eq_iff _ _).1 rfl) rfl (by simp))

end ScaleGo
