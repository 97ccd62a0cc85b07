import Verif.Props.C28
import Verif.Props.C63

/-! # Calls within calls -/

namespace Spec
open ScaleGo (Val Str CallEntry)

/-- An argument: its type, the value to encode, the value decoded, its bytes, and the calls contained in it. -/
structure Argument (α : Type) where
  ty : α
  inp : Val
  out : Val
  bytes : Str
  calls : List Str

/-- The bytes of all arguments. -/
def joined {α : Type} (ps : List (Argument α)) : Str := (ps.map (·.bytes)).flatten

/-- The calls contained in the arguments. -/
def inner {α : Type} (ps : List (Argument α)) : List Str := (ps.map (·.calls)).flatten

/-- Values with calls in them, to any depth.  `V` gives the values without calls, `isCall` the types of calls, `isList` the types of
lists of calls with the type of their items, `L` the lengths of lists, and `entry` the calls of the chain by index with the types of
their arguments.  The last argument lists the bytes of all calls contained in the value, as hex, inner calls before the calls they
are in. -/
inductive Nested {α : Type} (V : α → Val → Val → Str → Prop) (isCall : α → Prop) (isList : α → α → Prop) (L : Nat → Prop)
    (entry : UInt8 → UInt8 → CallEntry → List α → Prop) : α → Val → Val → Str → List Str → Prop
  | value {t y r b} : V t y r b → Nested V isCall isList L entry t y r b []
  | call {t i j e s gs hs} (ps : List (Argument α)) : isCall t → entry i j e (ps.map (·.ty)) → ScaleGo.Spec.IndexText i j s →
      ScaleGo.Spec.Given gs hs (ps.map (·.inp)) → (∀ p ∈ ps, Nested V isCall isList L entry p.ty p.inp p.out p.bytes p.calls) →
      Nested V isCall isList L entry t (.boxCall s gs hs) (ScaleGo.Spec.callVal i j e (ps.map (·.out))) (i :: j :: joined ps)
        (inner ps ++ [hexText (i :: j :: joined ps)])
  | list {t el c} (ps : List (Argument α)) : isList t el → L ps.length → IsCompact ps.length c → (∀ p ∈ ps, p.ty = el) →
      (∀ p ∈ ps, Nested V isCall isList L entry p.ty p.inp p.out p.bytes p.calls) →
      Nested V isCall isList L entry t (.slice (ps.map (·.inp))) (listValue (ps.map (·.out))) (c ++ joined ps) (inner ps)

end Spec

namespace ScaleGo
open _root_.Spec (Argument Nested joined inner)
open ScaleGo.Spec

/-- `u` is written as calls are. -/
def WritesCalls (env : Env) (u : Str) : Prop := ∀ ectx y b, Encodes env ectx b!"Call" y b → Encodes env ectx u y b

/-- `u` is read as calls are. -/
def ReadsCalls (env : Env) (u : Str) : Prop := ∀ ctx b r cs, Decodes env ctx b!"Call" b r cs → Decodes env ctx u b r cs

section
variable {α : Type} {V : α → Val → Val → Str → Prop} {isCall : α → Prop} {isList : α → α → Prop} {L : Nat → Prop}
  {entry : UInt8 → UInt8 → CallEntry → List α → Prop} {env : Env} {md : MD} {text : α → Str}

/-- Values with calls in them are encoded if those without are. -/
theorem nested_encodes (hcall : ∀ spec, EncResolves env ⟨spec, some md⟩ b!"Call" .call []) (hlen : LenEncOK env)
    (hV : ∀ t y r b, V t y r b → ∀ spec, Encodes env ⟨spec, some md⟩ (text t) y b)
    (hC : ∀ t, isCall t → WritesCalls env (text t))
    (hT : ∀ t el, isList t el → ∃ u, u ≠ [] ∧ (∀ spec, EncResolves env ⟨spec, some md⟩ (text t) (.vec []) u) ∧
      ∀ ectx y b, Encodes env ectx (text el) y b → Encodes env ectx u y b)
    (hL : ∀ n, L n → n ≤ 524288)
    (hE : ∀ i j e ts, entry i j e ts → md.callIndex (_root_.Spec.hexText [i, j]) = some e ∧ e.args.map Prod.snd = ts.map text)
    {t : α} {y r : Val} {b : Str} {cs : List Str} (h : Nested V isCall isList L entry t y r b cs) (spec : Int) :
    Encodes env ⟨spec, some md⟩ (text t) y b := by
  induction h with
  | value h => exact hV _ _ _ _ h spec
  | @call t i j e s gs hs ps ht he hs hg _ ih =>
    obtain ⟨hk, ha⟩ := hE _ _ _ _ he
    have hlen : e.args.length = ps.length := by simpa using congrArg List.length ha
    refine hC _ ht _ _ _ (C63_encode_partial env ⟨spec, some md⟩ md b!"Call" [] s i j e gs _ (ps.map (·.inp)) (ps.map (·.bytes)) rfl (hcall spec) hs hk hg
      (by simp [hlen]) (by simp [hlen]) ?_)
    intro k a v' b' h1 h2 h3
    simp only [List.getElem?_map, Option.map_eq_some_iff] at h2 h3
    obtain ⟨p, hp, rfl⟩ := h2
    obtain ⟨p', hp', rfl⟩ := h3
    rw [hp] at hp'
    cases hp'
    have e1 : (e.args.map Prod.snd)[k]? = some a.2 := by rw [List.getElem?_map, h1]; rfl
    rw [ha, List.map_map, List.getElem?_map, hp] at e1
    rw [← Option.some.inj e1]
    exact ih p (List.mem_of_getElem? hp)
  | @list t el c ps ht hl hc hel _ ih =>
    obtain ⟨u, h2, h1, hu⟩ := hT _ _ ht
    have := C20_encode env ⟨spec, some md⟩ (text t) u u (.vec []) (ps.map fun p => (p.inp, p.bytes)) c (by simp [vecElem]) (h1 spec) hlen
      (by have := hL _ hl; simp; omega) (by simpa using hc) (by
        intro x hx
        obtain ⟨p, hp, rfl⟩ := List.mem_map.1 hx
        have := ih p hp
        rw [hel p hp] at this
        exact hu _ _ _ this)
    simpa [joined, Function.comp_def] using this

/-- Values with calls in them are decoded if those without are. -/
theorem nested_decodes {okm : Str → Prop} (hcall : ∀ m spec, Resolves env m spec b!"Call" .call []) (hlen : ∀ ctx, LenOK env ctx)
    (hV : ∀ t y r b, V t y r b → ∀ m spec, okm m → Decodes env ⟨m, spec, some md⟩ (text t) b r [])
    (hC : ∀ t, isCall t → ReadsCalls env (text t))
    (hT : ∀ t el, isList t el → ∃ u, u ≠ [] ∧ (∀ m spec, Resolves env m spec (text t) (.vec []) u) ∧
      ∀ ctx b r cs, Decodes env ctx (text el) b r cs → Decodes env ctx u b r cs)
    (hL : ∀ n, L n → n ≤ 524288)
    (hE : ∀ i j e ts, entry i j e ts → md.callIndex (_root_.Spec.hexText [i, j]) = some e ∧ e.args.map Prod.snd = ts.map text ∧ okm e.moduleName)
    {t : α} {y r : Val} {b : Str} {cs : List Str} (h : Nested V isCall isList L entry t y r b cs) (m : Str) (spec : Int) (hm : okm m) :
    Decodes env ⟨m, spec, some md⟩ (text t) b r cs := by
  induction h generalizing m with
  | value h => exact hV _ _ _ _ h m spec hm
  | @call t i j e s gs hs ps ht he hs hg _ ih =>
    obtain ⟨hk, ha, hmod⟩ := hE _ _ _ _ he
    have := C63_decode env ⟨m, spec, some md⟩ md b!"Call" [] i j e (ps.map fun p => (p.out, p.bytes, p.calls)) rfl (hcall m spec) hk (by
      have hf : List.Forall₂ (fun (a : Str) (x : Argument α) => Decodes env ⟨e.moduleName, spec, some md⟩ a x.bytes x.out x.calls) (ps.map fun p => text p.ty) ps := by
        rw [List.forall₂_map_left_iff]
        exact List.forall₂_same.2 fun p hp => ih p hp _ hmod
      rw [List.forall₂_map_right_iff]
      rw [List.map_map] at ha
      have ha' : (ps.map fun p => text p.ty) = e.args.map Prod.snd := ha.symm
      rw [ha', List.forall₂_map_left_iff] at hf
      exact hf)
    have h2 := hC _ ht _ _ _ _ this
    simpa [joined, inner, Function.comp_def] using h2
  | @list t el c ps ht hl hc hel _ ih =>
    obtain ⟨u, h2, h1, hu⟩ := hT _ _ ht
    have := C20_decode env ⟨m, spec, some md⟩ (text t) u u (.vec []) (ps.map fun p => (p.out, p.bytes, p.calls)) c (by simp [vecElem]) (h1 m spec) (hlen _)
      (by have := hL _ hl; simpa using this) (by simpa using hc) (by
        intro x hx
        obtain ⟨p, hp, rfl⟩ := List.mem_map.1 hx
        have := ih p hp m hm
        rw [hel p hp] at this
        exact hu _ _ _ _ this)
    have e : mkSlice (ps.map (·.out)) = _root_.Spec.listValue (ps.map (·.out)) := by
      cases ps <;> rfl
    rw [← e]
    simpa [joined, inner, Function.comp_def] using this

end

end ScaleGo
