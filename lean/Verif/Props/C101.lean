import Verif.Lemmas.CallTypes
import Verif.Props.C81
import Verif.Props.C100

/-! # C101: calls within calls follow metadata of versions 14 and 15

English claim: once metadata of version 14 or 15 has been read, a call whose arguments are again calls or lists of calls, to any depth,
is encoded as the indices of each call followed by its arguments; these bytes decode to the call with all calls in it, all of which are
reported; and unsigned extrinsics with such a call round-trip.

A type is the type of calls of the runtime if its variants are the pallets with their calls, and it has the name that runtimes give it. -/

namespace ScaleGo
open _root_.Spec (Shape Scale WPallet PType PVariant PField WExtension Argument Nested joined inner)
open ScaleGo.Spec

/-! ## What the metadata says -/

/-- The type `i` is the type of the calls of the runtime: a variant for each pallet that has calls, with the calls of the pallet as its only
field.  Its path ends in `RuntimeCall`, or `Call` in older runtimes, and does not begin with one of three names. -/
def CallType (l : List (Nat × PType)) (ps : List WPallet) (i : Nat) : Prop :=
  ∃ (t : PType) (vs : List PVariant) (p : Str) (qs : List Str), (i, t) ∈ l ∧ t.typ = .variant vs ∧ t.path.map keptText = p :: qs ∧
    (p :: qs).getLast? ∈ [some b!"RuntimeCall", some b!"Call"] ∧ ¬ SameName p b!"Option" ∧ ¬ SameName p b!"Result" ∧ p ≠ b!"primitive_types" ∧
    ∀ a k, (∃ x ∈ ps, x.index = a ∧ x.calls = some k) ↔ ∃ v ∈ vs, ∃ f, v.index = a ∧ v.fields = [f] ∧ f.type = k

/-- The type `i` is that of lists of the type `k` of calls. -/
def CallsType (l : List (Nat × PType)) (ps : List WPallet) (i k : Nat) : Prop :=
  (∃ t : PType, (i, t) ∈ l ∧ t.typ = .sequence k ∧ t.path = []) ∧ CallType l ps k

/-- The calls of the pallets with `ok`, by index, and the types of their arguments. -/
def WiredCall (l : List (Nat × PType)) (ps : List WPallet) (ok : WPallet → Prop) (ids : Nat → Option Str) (i j : UInt8) (e : CallEntry)
    (ts : List Nat) : Prop :=
  ∃ x v, IsCallOf l ps x v i j ∧ ok x ∧ e = wireCall ids x v ∧ ts = v.fields.map PField.type

/-- Values of the types of the metadata that may have calls in them. -/
abbrev WireNested (R : Nat → Shape Nat → Prop) (L : Nat → Prop) (l : List (Nat × PType)) (ps : List WPallet) (ok : WPallet → Prop)
    (ids : Nat → Option Str) : Nat → Val → Val → Str → List Str → Prop :=
  Nested (fun i y r b => i < l.length ∧ Scale R (SupportedBy fun _ => True) i y r b) (CallType l ps) (CallsType l ps) L (WiredCall l ps ok ids)

/-- Values with calls in them are written and read as the metadata says, and so are extrinsics. -/
structure Nests (R : Nat → Shape Nat → Prop) (L : Nat → Prop) (l : List (Nat × PType)) (ps : List WPallet) (ok : WPallet → Prop)
    (ids : Nat → Option Str) (env : Env) (md : MD) : Prop where
  encode : ∀ i y r b cs, WireNested R L l ps (fun _ => True) ids i y r b cs → ∀ spec, Encodes env ⟨spec, some md⟩ (siText ids i) y b
  decode : ∀ i y r b cs, WireNested R L l ps ok ids i y r b cs → ∀ spec, Decodes env ⟨[], spec, some md⟩ (siText ids i) b r cs
  call : ∀ x v i j (as : List (Argument Nat)), IsCallOf l ps x v i j → ok x → v.fields.map PField.type = as.map (·.ty) →
    (∀ a ∈ as, WireNested R L l ps ok ids a.ty a.inp a.out a.bytes a.calls) → ∀ spec,
    Decodes env ⟨[], spec, some md⟩ b!"Call" (i :: j :: joined as) (callVal i j (wireCall ids x v) (as.map (·.out)))
      (inner as ++ [_root_.Spec.hexText (i :: j :: joined as)])
  extrinsic : ∀ x v i j (as : List (Argument Nat)), IsCallOf l ps x v i j → ok x → v.fields.map PField.type = as.map (·.ty) →
    (∀ a ∈ as, WireNested R L l ps ok ids a.ty a.inp a.out a.bytes a.calls) → ∀ spec opt (g : ExtrinsicIn),
    g.version = b!"04" ∨ g.version = b!"05" → g.callCode = _root_.Spec.hexText [i, j] → g.params = as.map (·.inp) →
    (joined as).length < 2 ^ 61 → RoundTrips env spec md opt g (wireCall ids x v) (as.map fun a => (a.out, a.bytes, a.calls)) none

/-- The full claim, for metadata of version 14. -/
def C101Claim : Prop :=
  ∀ (reg : RegState) (spec : Int) (md0 : Option MD) (l : List (Nat × PType)) (ps : List WPallet) (t v : Nat) (xs : List WExtension) (b : Str)
    (dup : Str → Nat) (A : Nat → Prop) (fuel : Nat) (st : SiState), MetaReady reg → Written14 l ps t v xs b → Regular l ps →
    Understood l spec reg dup A fuel st →
    ∃ out, Settles (fun n => processV14 n reg ⟨[], spec, md0⟩) b out ∧ ∀ md, Uses md out →
      Nests (Covered { wireCfg l spec with dup := dup } A) (fun _ => True) l ps (fun _ => True) st.ids out.reg.env md

/-! ## What holds -/

theorem callType_like {l : List (Nat × PType)} {ps : List WPallet} {spec : Int} {dup : Str → Nat} (hd : (l.map Prod.fst).Nodup) {i : Nat}
    (h : CallType l ps i) : CallLike (({ wireCfg l spec with dup := dup } : SiCfg).types i) := by
  obtain ⟨t, vs, p, qs, h1, h2, h3, h4, h5, h6, h7, -⟩ := h
  have e : ({ wireCfg l spec with dup := dup } : SiCfg).types i = keptType t := (C77_lookup l hd).1 _ h1
  have fold : ∀ {w : Str}, ¬ SameName p w → equalFold p w = false := by
    intro w hw
    unfold equalFold
    rw [beq_eq_false_iff_ne]
    exact fun e => hw ((toLower_eq_iff _ _).1 e)
  rw [e]
  refine ⟨vs.map keptVariant, p, qs, by simp [keptType, h2, keptDef], h3, fold h5, fold h6, h7, ?_⟩
  have hl : (p :: qs).getLast? = some (lastOf (p :: qs)) := by
    unfold lastOf
    rw [List.getLastD_eq_getLast?]
    cases e : (p :: qs).getLast? with
    | none => simp at e
    | some => rfl
  rw [hl] at h4
  simp only [List.mem_cons, Option.some.injEq, List.not_mem_nil, or_false] at h4
  exact h4.symm

section
variable {l : List (Nat × PType)} {ps : List WPallet} {spec0 : Int} {reg : RegState} {dup : Str → Nat} {A : Nat → Prop} {fuel : Nat}
  {st : SiState} {o : List (Str × Nat)} (hr : MetaReady reg) (hU : Understood l spec0 reg dup A fuel st) (hn : l.map Prod.fst = List.range l.length)
include hr hU hn

omit hn in
theorem wire_call (m : Str) (spec : Int) : Resolves (registerOriginCaller st.reg.env o) m spec b!"Call" .call [] :=
  origin_word hr hU (by decide +kernel) (by kernel_rfl) (by decide +kernel) m spec

/-- Every text of a type of calls is written and read as calls are. -/
theorem wire_same {i : Nat} {t : Str} (h : CallType l ps i) (ht : Text { wireCfg l spec0 with dup := dup } A i t) :
    Same (registerOriginCaller st.reg.env o) t b!"Call" := by
  have hd : (l.map Prod.fst).Nodup := by rw [hn]; exact List.nodup_range
  have hL := (hU.loaded hr.toReady).origin hU.tidy hr.origin o
  have hl := callType_like (spec := spec0) (dup := dup) hd h
  have hcall : reg.env.reg b!"call" = some .call := hr.classes (b!"call", .call) (by decide +kernel)
  rcases call_text hl ht with rfl | ⟨h1, h2, h3⟩
  · exact ⟨fun _ _ _ => rfl, fun _ _ _ => rfl⟩
  · have hdone := hU.done
    unfold processSiType at hdone
    rw [hU.counted] at hdone
    have he := calls_entered hU.early hdone hU.tidy hcall hl h1 h2 h3
    have hf := hU.tidy.fresh i t h2 h3
    have hc : Clean t := (name_clean hU.tidy.names h2).resolve_left h3
    have hv : convertType t = t := convertType_verbatim (hc.verbatim fun e => by
      rw [← toLower_eq_iff] at e
      have h60 : (60 : UInt8) ∉ t := fun h => (name_plain hU.tidy.names h2 60 h).1 rfl
      refine h60 (mem_lower ?_ (by decide))
      rw [e]; decide)
    have ho : toLower t ≠ b!"origincaller" := fun e => hr.origin (by rw [← e]; exact hf)
    have he' : (registerOriginCaller st.reg.env o).reg (toLower t) = some .call := by
      show (if toLower t = b!"origincaller" then _ else st.reg.env.reg (toLower t)) = _
      rw [if_neg ho, he]
    refine same_lookup _ (fun m spec => ?_) ?_ (by decide)
    · have := looksUp_entry hL hr.special hv h3 he' m spec (by rw [hv]; exact (call_never hl h1 h2 h3).apply m)
      exact this.trans (wire_call hr hU (o := o) m spec).symm
    · intro e
      have := hr.stock.entry (b!"null", .null) (by decide +kernel)
      rw [← e, hf] at this
      cases this

/-- The text of a list of calls. -/
theorem wire_list {i k : Nat} (h : CallsType l ps i k) : ∃ u, u ≠ [] ∧
    (∀ m spec, Resolves (registerOriginCaller st.reg.env o) m spec (siText st.ids i) (.vec []) u) ∧ toLower (siText st.ids i) ≠ b!"null" ∧
      Same (registerOriginCaller st.reg.env o) u b!"Call" := by
  have hd : (l.map Prod.fst).Nodup := by rw [hn]; exact List.nodup_range
  have hL := (hU.loaded hr.toReady).origin hU.tidy hr.origin o
  obtain ⟨⟨t, h1, h2, h3⟩, hk⟩ := h
  have e : ({ wireCfg l spec0 with dup := dup } : SiCfg).types i = keptType t := (C77_lookup l hd).1 _ h1
  have hi : i < l.length := by
    have : i ∈ l.map Prod.fst := List.mem_map.2 ⟨_, h1, rfl⟩
    rw [hn] at this
    exact List.mem_range.1 this
  obtain ⟨w, hw, -⟩ := texts_of hn hU.counted hU.early hU.tidy.names hU.done i hi
  have et : siText st.ids i = w := by unfold siText; rw [hw]; rfl
  obtain ⟨s, hs, rfl⟩ := list_text (k := k) (by rw [e]; simp [keptType, h2, keptDef]) (by rw [e]; simp [keptType, h3]) (hL.ids i w hw)
  have hsame := wire_same hr hU hn (o := o) hk hs
  have hc := text_clean hU.tidy.names hs
  have hnot : ¬ SameName (generic b!"Vec" s) b!"Vec<u8>" := by
    intro e
    rw [← toLower_eq_iff] at e
    have : toLower (generic b!"Vec" s) = b!"vec<" ++ (toLower s ++ b!">") := by
      rw [show generic b!"Vec" s = b!"Vec<" ++ (s ++ b!">") from rfl, toLower_append, toLower_append]
      rfl
    rw [this, show toLower b!"Vec<u8>" = b!"vec<" ++ (b!"u8" ++ b!">") by decide] at e
    have eu : toLower s = b!"u8" := List.append_cancel_right (List.append_cancel_left e)
    rcases call_text (callType_like (spec := spec0) (dup := dup) hd hk) hs with rfl | ⟨-, h2, h3⟩
    · exact absurd eu (by decide)
    · have := hU.tidy.fresh k s h2 h3
      rw [eu, hr.classes (b!"u8", .u8) (by decide +kernel)] at this
      cases this
  rw [et]
  refine ⟨s, hc.ne_nil, fun m spec => ?_, fun e => absurd (List.cons.inj e).1 (by decide), hsame⟩
  refine meta_vec hr hL rfl hc hnot m spec ?_
  have hcl : Clean (generic b!"Vec" s) := by
    have := Clean.generic (w := b!"Vec") (by decide) hc
    simpa [generic] using this
  rw [convertType_verbatim (hcl.verbatim hnot)]
  exact (never_symbol (c := 60) (by decide) (by simp [generic])).apply m

theorem wire_calls {i : Nat} (h : CallType l ps i) : Same (registerOriginCaller st.reg.env o) (siText st.ids i) b!"Call" := by
  have hL := (hU.loaded hr.toReady).origin hU.tidy hr.origin o
  have hi : i < l.length := by
    obtain ⟨t, _, _, _, h1, _⟩ := h
    have : i ∈ l.map Prod.fst := List.mem_map.2 ⟨_, h1, rfl⟩
    rw [hn] at this
    exact List.mem_range.1 this
  obtain ⟨w, hw, -⟩ := texts_of hn hU.counted hU.early hU.tidy.names hU.done i hi
  have et : siText st.ids i = w := by unfold siText; rw [hw]; rfl
  rw [et]
  exact wire_same hr hU hn h (hL.ids i w hw)

end

theorem Same.symm' {env : Env} {r t : Str} (h : Same env r t) : Same env t r :=
  ⟨fun n ctx st => (h.decode n ctx st).symm, fun n ctx v => (h.encode n ctx v).symm⟩

theorem Same.trans' {env : Env} {r s t : Str} (h : Same env r s) (h' : Same env s t) : Same env r t :=
  ⟨fun n ctx st => (h.decode n ctx st).trans (h'.decode n ctx st), fun n ctx v => (h.encode n ctx v).trans (h'.encode n ctx v)⟩

/-- Calls within calls of pallets that override none of the names of the metadata follow the metadata. -/
theorem nests_of {check : Bool} {l : List (Nat × PType)} {ps : List WPallet} {xs : List WExtension} {spec0 : Int} {reg : RegState} {dup : Str → Nat}
    {A : Nat → Prop} {fuel : Nat} {st : SiState} {o : List (Str × Nat)} (hr : MetaReady reg) (hU : Understood l spec0 reg dup A fuel st) (hR : Regular l ps)
    {out : V14Out} (hD : DescribedOut check l ps xs st.ids out) (ho : out.reg.env = registerOriginCaller st.reg.env o) (md : MD) (hm : Uses md out) :
    Nests (Covered { wireCfg l spec0 with dup := dup } A) (· ≤ 524288) l ps (fun x => Untouched { wireCfg l spec0 with dup := dup } (keptText x.name))
      st.ids out.reg.env md := by
  obtain ⟨hver, hc, he⟩ := hm
  have hL := (hU.loaded hr.toReady).origin hU.tidy hr.origin o
  have hnum := hR.numbered
  have hcall := wire_call hr hU (o := o)
  have unt : Untouched { wireCfg l spec0 with dup := dup } [] := fun _ _ _ _ => notOverridden_nil _
  have known : ∀ {ok i j e ts}, WiredCall l ps ok st.ids i j e ts → md.callIndex (_root_.Spec.hexText [i, j]) = some e ∧
      e.args.map Prod.snd = ts.map (siText st.ids) := by
    rintro ok i j e ts ⟨x, v, h, -, rfl, rfl⟩
    rw [hc]
    refine ⟨(hD.calls i j _).2 (described_call h), ?_⟩
    simp [wireCall, Function.comp_def]
  have list : ∀ i k, CallsType l ps i k → ∃ u, u ≠ [] ∧ (∀ m spec, Resolves (registerOriginCaller st.reg.env o) m spec (siText st.ids i) (.vec []) u) ∧
      toLower (siText st.ids i) ≠ b!"null" ∧ Same (registerOriginCaller st.reg.env o) u (siText st.ids k) := by
    intro i k h
    obtain ⟨u, h1, h2, h3, h4⟩ := wire_list hr hU hnum (o := o) h
    exact ⟨u, h1, h2, h3, h4.trans' (wire_calls hr hU hnum h.2).symm'⟩
  rw [ho]
  have enc : ∀ {ok i y r b cs}, WireNested (Covered { wireCfg l spec0 with dup := dup } A) (· ≤ 524288) l ps ok st.ids i y r b cs → ∀ spec,
      Encodes (registerOriginCaller st.reg.env o) ⟨spec, some md⟩ (siText st.ids i) y b := by
    intro ok i y r b cs h spec
    refine nested_encodes (text := siText st.ids) (fun spec => ⟨hcall _ _, by decide⟩) (len_ok hU.tidy hr.stock hL hr.special (ctx := ⟨[], 0, none⟩)).2
      (fun t y r b h spec => (origin_scale hr hU hnum (ctx := ⟨[], 0, none⟩) ⟨spec, some md⟩ unt h.1 h.2).1) ?_ ?_ (fun _ h => h) (fun i j e ts h => known h) h spec
    · exact fun t ht ectx y b h => (wire_calls hr hU hnum ht).encodes h
    · intro t el ht
      obtain ⟨u, h1, h2, h3, h4⟩ := list t el ht
      exact ⟨u, h1, fun spec => ⟨h2 _ _, h3⟩, fun ectx y b h => h4.encodes h⟩
  have dec : ∀ {i y r b cs}, WireNested (Covered { wireCfg l spec0 with dup := dup } A) (· ≤ 524288) l ps
      (fun x => Untouched { wireCfg l spec0 with dup := dup } (keptText x.name)) st.ids i y r b cs → ∀ m spec,
      Untouched { wireCfg l spec0 with dup := dup } m → Decodes (registerOriginCaller st.reg.env o) ⟨m, spec, some md⟩ (siText st.ids i) b r cs := by
    intro i y r b cs h m spec hm
    refine nested_decodes (text := siText st.ids) (okm := Untouched { wireCfg l spec0 with dup := dup }) hcall
      (fun ctx => (len_ok hU.tidy hr.stock hL hr.special).1) (fun t y r b h m spec hm => (origin_scale hr hU hnum (ctx := ⟨m, spec, some md⟩) ECtx.none hm h.1 h.2).2)
      (fun t ht ctx b r cs h => (wire_calls hr hU hnum ht).decodes h) ?_ (fun _ h => h) ?_ h m spec hm
    · intro t el ht
      obtain ⟨u, h1, h2, -, h4⟩ := list t el ht
      exact ⟨u, h1, h2, fun ctx b r cs h => h4.decodes h⟩
    · intro i j e ts h
      refine ⟨(known h).1, (known h).2, ?_⟩
      obtain ⟨x, v, -, hok, rfl, -⟩ := h
      exact hok
  constructor
  · exact fun i y r b cs h spec => enc h spec
  · exact fun i y r b cs h spec => dec h [] spec unt
  · intro x v i j as h hok ht ha spec
    have hk := known (ok := fun _ => True) ⟨x, v, h, trivial, rfl, rfl⟩
    have := C63_decode (registerOriginCaller st.reg.env o) ⟨[], spec, some md⟩ md b!"Call" [] i j (wireCall st.ids x v)
      (as.map fun p => (p.out, p.bytes, p.calls)) rfl (hcall _ _) hk.1 (by
        have hf : List.Forall₂ (fun (a : Nat) (x' : Argument Nat) => Decodes (registerOriginCaller st.reg.env o) ⟨keptText x.name, spec, some md⟩
            (siText st.ids a) x'.bytes x'.out x'.calls) (as.map (·.ty)) as := by
          rw [List.forall₂_map_left_iff]
          exact List.forall₂_same.2 fun p hp => dec (ha p hp) _ _ hok
        rw [← ht, List.forall₂_map_left_iff] at hf
        rw [List.forall₂_map_right_iff]
        show List.Forall₂ _ (v.fields.map fun f => (fieldName f, siText st.ids f.type)) _
        rw [List.forall₂_map_left_iff]
        exact hf)
    simpa [joined, inner, Function.comp_def] using this
  · intro x v i j as h hok ht ha spec opt g hg hcode hpar hlen
    have hk := known (ok := fun _ => True) ⟨x, v, h, trivial, rfl, rfl⟩
    have hal : v.fields.length = as.length := by simpa using congrArg List.length ht
    refine C43_bare g.version hg _ spec md opt g i j (wireCall st.ids x v) (as.map fun p => (p.out, p.bytes, p.calls))
      (len_ok hU.tidy hr.stock hL hr.special) rfl ⟨hcode, by rw [hcode]; exact hk.1, by simp [hpar, wireCall, hal], ?_⟩
      (by simpa [joined, Function.comp_def] using hlen)
    rw [hpar, wireCall]
    dsimp only
    clear hlen hpar hk hal h
    generalize v.fields = fs at ht
    induction fs generalizing as with
    | nil =>
      cases as with
      | nil => exact .nil
      | cons => cases ht
    | cons f fs ih =>
      cases as with
      | nil => cases ht
      | cons p as =>
        simp only [List.map_cons, List.cons.injEq] at ht
        refine .cons ?_ (ih as (fun q hq => ha q (by simp [hq])) ht.2)
        dsimp only
        rw [ht.1]
        exact ⟨enc (ha p (by simp)) spec, dec (ha p (by simp)) _ _ hok⟩

/-- V14 metadata that is understood serves calls within calls of the pallets whose name overrides none of the names of the metadata. -/
theorem C101_v14_partial (reg : RegState) (spec : Int) (md0 : Option MD) (l : List (Nat × PType)) (ps : List WPallet) (t v : Nat) (xs : List WExtension)
    (b : Str) (dup : Str → Nat) (A : Nat → Prop) (fuel : Nat) (st : SiState) (hr : MetaReady reg) (hw : Written14 l ps t v xs b) (hR : Regular l ps)
    (hU : Understood l spec reg dup A fuel st) :
    ∃ out, Settles (fun n => processV14 n reg ⟨[], spec, md0⟩) b out ∧ ∀ md, Uses md out →
      Nests (Covered { wireCfg l spec with dup := dup } A) (· ≤ 524288) l ps (fun x => Untouched { wireCfg l spec with dup := dup } (keptText x.name)) st.ids
        out.reg.env md := by
  obtain ⟨out, h1, h2, h3⟩ := C79_partial reg spec md0 l ps t v xs b dup A fuel st hr hw hR hU
  exact ⟨out, h1, fun md hm => nests_of hr hU hR h2 (by rw [h3]) md hm⟩

/-- The same for V15 metadata. -/
theorem C101_v15_partial (reg : RegState) (spec : Int) (md0 : Option MD) (x : W15) (b : Str) (dup : Str → Nat) (A : Nat → Prop) (fuel : Nat) (st : SiState)
    (hr : MetaReady reg) (hF : x.Fits) (hw : EncW15 x b) (hR : Regular x.types (x.pallets.map Prod.fst)) (hU : Understood x.types spec reg dup A fuel st) :
    ∃ out, Settles (fun n => processV15 n reg ⟨[], spec, md0⟩) b out ∧ ∀ md, Uses md out.toV14Out →
      Nests (Covered { wireCfg x.types spec with dup := dup } A) (· ≤ 524288) x.types (x.pallets.map Prod.fst)
        (fun p => Untouched { wireCfg x.types spec with dup := dup } (keptText p.name)) st.ids out.reg.env md := by
  obtain ⟨out, h1, h2, h3⟩ := C80_exact reg spec md0 x b dup A fuel st hr hF hw hR hU
  exact ⟨out, h1, fun md hm => nests_of hr hU hR h2.common (by rw [h3]) md hm⟩

/-- A pallet may replace a type of the metadata, as in C81. -/
theorem C101_claim_false : ¬ C101Claim := by
  intro h
  obtain ⟨st, hs, ht, hd⟩ := over_done
  obtain ⟨b, hb, hl⟩ := over_written
  have hU := over_understood hs
  obtain ⟨out, h1, h3⟩ := h startReg 0 none overTypes overPallets 0 4 [] b _ _ 5 st start_ready hb over_regular hU
  obtain ⟨out', h1', h2, h3'⟩ := C79_partial startReg 0 none overTypes overPallets 0 4 [] b _ _ 5 st start_ready hb over_regular hU
  cases settles_unique hl h1 h1'
  have hw := h3 ⟨14, out.callIndex, out.eventIndex, none⟩ ⟨by show (14 : Int) ≤ 14; decide, rfl, rfl⟩
  have hcall : IsCallOf overTypes overPallets ⟨b!"Assets", none, some 2, none, [], none, 0⟩ ⟨b!"go", [⟨some b!"x", 0, none, []⟩], 0, []⟩ 0 0 :=
    ⟨by simp [overPallets], rfl, 2, _, rfl, over_variants, by simp, rfl⟩
  have e0 : out.callIndex b!"0000" = some overEntry := by
    have := (h2.calls 0 0 _).2 (described_call (ids := st.ids) hcall)
    rw [show _root_.Spec.hexText [0, 0] = b!"0000" by decide] at this
    rw [this]
    simp only [wireCall, overEntry, List.map_cons, List.map_nil, ht]
    rfl
  have hv : Scale (Covered { wireCfg overTypes 0 with dup := overDup } (· = 1)) (SupportedBy fun _ => True) 0
      (.map [(b!"a", .uint 2 1), (b!"b", .uint 2 2)]) (.map [(b!"a", .uint 2 1), (b!"b", .uint 2 2)]) [1, 0, 2, 0] := by
    rw [over_wire]
    exact over_value
  obtain ⟨N, hN⟩ := hw.call _ _ 0 0 [⟨0, _, _, _, []⟩] hcall trivial rfl (by
    intro a ha
    simp only [List.mem_cons, List.not_mem_nil, or_false] at ha
    subst ha
    exact .value ⟨by decide, hv⟩) 0
  have e1 := hN (N + 40) (by omega) [] [] [] (by decide)
  rw [h3', show overPallets.map (fun x => (keptText x.name, x.index)) = [(b!"Assets", 0)] by decide] at e1
  have e2 := hd ⟨14, out.callIndex, out.eventIndex, none⟩ N e0
  have e3 := e1.symm.trans e2
  have e4 := congrArg Prod.fst (Res.ok.inj e3)
  have e5 := (Val.map.inj e4)
  simp [wireCall, overEntry] at e5

/-! ## The hypotheses are met -/

/-- The types `enum r::RuntimeCall { System(2) = 0, Utility(1) = 7 }`, `enum pallet_utility::pallet::Call { batch { calls: Vec<RuntimeCall> } = 0,
as_derivative { index: u16, call: RuntimeCall } = 1 }`, `enum frame_system::pallet::Call { remark { n: u16 } = 3 }`, `Vec<RuntimeCall>` and `u16`. -/
def nestTypes : List (Nat × PType) :=
  [(0, ⟨[b!"r", b!"RuntimeCall"], [], .variant [⟨b!"System", [⟨none, 2, none, []⟩], 0, []⟩, ⟨b!"Utility", [⟨none, 1, none, []⟩], 7, []⟩], []⟩),
    (1, ⟨[b!"pallet_utility", b!"pallet", b!"Call"], [], .variant [⟨b!"batch", [⟨some b!"calls", 3, none, []⟩], 0, []⟩,
      ⟨b!"as_derivative", [⟨some b!"index", 4, none, []⟩, ⟨some b!"call", 0, none, []⟩], 1, []⟩], []⟩),
    (2, ⟨[b!"frame_system", b!"pallet", b!"Call"], [], .variant [⟨b!"remark", [⟨some b!"n", 4, none, []⟩], 3, []⟩], []⟩),
    (3, ⟨[], [], .sequence 0, []⟩), (4, ⟨[], [], .primitive 4, []⟩)]

def nestPallets : List WPallet := [⟨b!"System", none, some 2, none, [], none, 0⟩, ⟨b!"Utility", none, some 1, none, [], none, 7⟩]

def nestDup : Str → Nat := fun k => if k = b!"r:RuntimeCall" then 0 + 1 else 0

def nestCfg : SiCfg where
  types := fun i => match i with
    | 0 => { path := [b!"r", b!"RuntimeCall"], typ := .variant [⟨b!"System", [⟨b!"", 2, []⟩], 0⟩, ⟨b!"Utility", [⟨b!"", 1, []⟩], 7⟩] }
    | 1 => { path := [b!"pallet_utility", b!"pallet", b!"Call"], typ := .variant [⟨b!"batch", [⟨b!"calls", 3, []⟩], 0⟩,
        ⟨b!"as_derivative", [⟨b!"index", 4, []⟩, ⟨b!"call", 0, []⟩], 1⟩] }
    | 2 => { path := [b!"frame_system", b!"pallet", b!"Call"], typ := .variant [⟨b!"remark", [⟨b!"n", 4, []⟩], 3⟩] }
    | 3 => { typ := .sequence 0 }
    | 4 => { typ := .primitive b!"U16" }
    | _ => {}
  count := 5

def nest : SiCfg := { nestCfg with dup := nestDup }

theorem nest_cases {P : Nat → Prop} (h0 : P 0) (h1 : P 1) (h2 : P 2) (h3 : P 3) (h4 : P 4) (h : ∀ k, P (k + 5)) : ∀ i, P i
  | 0 => h0 | 1 => h1 | 2 => h2 | 3 => h3 | 4 => h4 | (k + 5) => h k

theorem nest_wire : wireCfg nestTypes 0 = nestCfg := by
  have h : ∀ i, (wireCfg nestTypes 0).types i = nestCfg.types i := by
    refine nest_cases ?_ ?_ ?_ ?_ ?_ (fun k => ?_)
    iterate 5 exact (by decide +kernel)
    show portableType (kept nestTypes) (k + 5) = {}
    unfold portableType
    rw [List.find?_eq_none.2]
    intro p hp
    have : p.1 ∈ List.range 5 := by
      have : p.1 ∈ (kept nestTypes).map Prod.fst := List.mem_map.2 ⟨p, List.mem_reverse.1 hp, rfl⟩
      exact (by decide +kernel : (kept nestTypes).map Prod.fst = List.range 5) ▸ this
    have := List.mem_range.1 this
    simp only [beq_iff_eq]
    omega
  have hc : (wireCfg nestTypes 0).count = nestCfg.count := by decide +kernel
  show SiCfg.mk (wireCfg nestTypes 0).types (wireCfg nestTypes 0).count _ _ _ _ _ = SiCfg.mk nestCfg.types nestCfg.count _ _ _ _ _
  rw [funext h, hc]
  rfl

theorem nest_paths : ∀ i, (nest.types i).path ∈ [[], [b!"r", b!"RuntimeCall"], [b!"pallet_utility", b!"pallet", b!"Call"],
    [b!"frame_system", b!"pallet", b!"Call"]] := by
  refine nest_cases ?_ ?_ ?_ ?_ ?_ (fun k => ?_)
  rotate_right
  · exact List.mem_cons_self
  all_goals decide

theorem nest_names : ∀ i n, nameSiType nest (nest.types i) (some i) = .ok n → n = [] ∨ (i, n) ∈ [(0, b!"r:RuntimeCall")] := by
  refine nest_cases ?_ ?_ ?_ ?_ ?_ (fun k n h => ?_)
  rotate_right
  · cases h
    exact .inl rfl
  all_goals intro n h; cases h; decide

theorem nest_early : EarlyOK nest (· = 4) where
  inside := by rintro i rfl; decide
  kind := by rintro i rfl; exact .inl ⟨_, rfl, rfl⟩
  wrapper := by
    intro i n p ps h
    have := nest_paths i
    revert h
    unfold IsWrapper
    generalize (nest.types i).path = q at this
    intro h
    exfalso
    revert q
    decide
  extrinsic := by
    intro i name p h
    have := nest_paths i
    revert h
    unfold IsExtrinsic
    generalize (nest.types i).path = q at this
    intro h
    exfalso
    revert q
    decide
  core := by rintro i h rfl; cases h

theorem nest_plain : PlainNames nest where
  segments := by
    intro i
    have := nest_paths i
    generalize (nest.types i).path = q at this
    intro s hs
    refine ident_of ?_
    revert s
    revert q
    decide
  pre := fun h => absurd rfl h
  named := by
    refine nest_cases ?_ ?_ ?_ ?_ ?_ (fun k => ?_)
    rotate_right
    · rintro (⟨_, h⟩ | ⟨_, h⟩) <;> cases h
    all_goals rintro (⟨_, h⟩ | ⟨_, h⟩) <;> first | (cases h; done) | (intro e; cases e)
  primitive := nest_cases (fun p h => by cases h) (fun p h => by cases h) (fun p h => by cases h) (fun p h => by cases h)
    (fun p h => by cases h; exact ⟨ident_of (by decide), by decide⟩) fun _ p h => by cases h
  crate := by
    intro i
    have := nest_paths i
    generalize (nest.types i).path = q at this
    revert q
    decide
  whole := by
    intro i
    unfold pathName
    have := nest_paths i
    generalize (nest.types i).path = q at this
    revert q
    decide
  range := nest_cases (fun h => by cases h) (fun h => by cases h) (fun h => by cases h) (fun h => by cases h) (fun h => by cases h) fun _ h => by cases h

theorem nest_tidy : Tidy nest (· = 4) startReg.env.reg where
  names := nest_plain
  unversioned := fun _ => rfl
  apart := by
    intro i n h hne
    have hi := (nest_names i n h).resolve_left hne
    have hnames : ∀ j m, nameSiType nest (nest.types j) (some j) = .ok m → toLower m = toLower n → j = i := by
      intro j m h' e
      rcases nest_names j m h' with rfl | hj
      · cases n with
        | nil => exact absurd rfl hne
        | cons => cases e
      · simp only [List.mem_cons, List.not_mem_nil, or_false, Prod.mk.injEq] at hi hj
        rw [hi.1, hj.1]
    have rest : ∀ p ∈ [(0, b!"r:RuntimeCall")], ¬ b!"tuple:" <+: toLower p.2 ∧ ¬ b!"primitive_types:" <+: toLower p.2 ∧
        toLower p.2 ≠ b!"extrinsicsignature" ∧ toLower p.2 ≠ b!"extrinsicsigner" := by decide
    obtain ⟨h1, h2, h3, h4⟩ := rest _ hi
    exact ⟨hnames, h1, h2, h3, h4⟩
  fresh := by
    intro i n h hne
    have hi := (nest_names i n h).resolve_left hne
    rw [startReg_fast]
    exact (by decide +kernel : ∀ p ∈ [(0, b!"r:RuntimeCall")], fastReg (toLower p.2) = none) _ hi
  tuples := by
    have none : ∀ i ks, (nest.types i).typ ≠ .tuple ks := nest_cases (fun _ h => by cases h) (fun _ h => by cases h) (fun _ h => by cases h)
      (fun _ h => by cases h) (fun _ h => by cases h) fun _ _ h => by cases h
    intro i j ks ls ts us h
    exact absurd h (none i ks)
  freshTuples := fun _ _ _ _ _ _ => start_tuples _
  closed := by
    intro i hi
    obtain ⟨k, rfl⟩ := Nat.exists_eq_add_of_le' hi
    rfl

theorem nest_done : ∃ st, processSiType nestCfg 5 startReg = .ok st ∧ siText st.ids 0 = b!"Call" ∧ siText st.ids 3 = b!"Vec<Call>" ∧
    siText st.ids 4 = b!"U16" := by
  rw [startReg_fast]
  exact ⟨_, rfl, rfl, rfl, rfl⟩

theorem nest_understood {st : SiState} (h : processSiType nestCfg 5 startReg = .ok st) :
    Understood nestTypes 0 startReg nestDup (· = 4) 5 st := by
  constructor <;> rw [nest_wire]
  · rfl
  · exact nest_early
  · exact nest_tidy
  · exact h

/-- The calls `remark`, `batch` and `as_derivative`. -/
def remarkCall : PVariant := ⟨b!"remark", [⟨some b!"n", 4, none, []⟩], 3, []⟩
def nestBatch : PVariant := ⟨b!"batch", [⟨some b!"calls", 3, none, []⟩], 0, []⟩
def asCall : PVariant := ⟨b!"as_derivative", [⟨some b!"index", 4, none, []⟩, ⟨some b!"call", 0, none, []⟩], 1, []⟩
def nestSystem : WPallet := ⟨b!"System", none, some 2, none, [], none, 0⟩
def nestUtility : WPallet := ⟨b!"Utility", none, some 1, none, [], none, 7⟩

theorem nest_variants1 : VariantType nestTypes 1 [nestBatch, asCall] := ⟨_, by simp [nestTypes]; rfl, rfl⟩
theorem nest_variants2 : VariantType nestTypes 2 [remarkCall] := ⟨_, by simp [nestTypes]; rfl, rfl⟩

theorem nest_regular : Regular nestTypes nestPallets where
  numbered := rfl
  pallets := by decide
  calls := by
    intro x hx i hi
    simp only [nestPallets, List.mem_cons, List.not_mem_nil, or_false] at hx
    rcases hx with rfl | rfl <;> cases hi
    · exact ⟨_, nest_variants2, by decide⟩
    · exact ⟨_, nest_variants1, by decide⟩
  events := by simp [nestPallets]
  errors := by simp [nestPallets]
  constants := by simp [nestPallets]
  keys := by simp [nestPallets]

theorem nest_written : ∃ b, Written14 nestTypes nestPallets 0 4 [] b := by
  have f1 : _root_.Spec.FRegistry nestTypes := by
    simp [nestTypes, _root_.Spec.FRegistry, _root_.Spec.FList, _root_.Spec.FId, _root_.Spec.FType, _root_.Spec.FDef, _root_.Spec.FText,
      _root_.Spec.FVariant, _root_.Spec.FField]
  have f2 : _root_.Spec.FList _root_.Spec.FPallet nestPallets := by
    simp [nestPallets, _root_.Spec.FList, _root_.Spec.FPallet, _root_.Spec.FText, _root_.Spec.FId]
  obtain ⟨b1, h1⟩ := C77_written _ f1
  obtain ⟨b2, h2⟩ := C78_written _ f2
  exact ⟨_, ⟨b1, b2, [0] ++ ([4] ++ [0]), h1, h2, ⟨[0], _, .inl ⟨by decide, by decide⟩, ⟨[0], _, .inl ⟨by decide, by decide⟩, rfl, rfl⟩,
    by decide⟩, rfl⟩, f1, f2, by simp [_root_.Spec.FId], by decide, by simp [_root_.Spec.FList]⟩

theorem nest_callType : CallType nestTypes nestPallets 0 := by
  refine ⟨_, _, b!"r", [b!"RuntimeCall"], List.mem_cons_self, rfl, by decide +kernel, by decide, by decide, by decide, by decide, fun a k => ?_⟩
  simp only [nestPallets, List.mem_cons, List.not_mem_nil, or_false, exists_eq_or_imp, exists_eq_left]
  simp only [List.cons.injEq, and_true, Option.some.injEq]
  constructor
  · rintro (⟨rfl, rfl⟩ | ⟨rfl, rfl⟩)
    · exact .inl ⟨_, rfl, rfl, rfl⟩
    · exact .inr ⟨_, rfl, rfl, rfl⟩
  · rintro (⟨f, rfl, rfl, rfl⟩ | ⟨f, rfl, rfl, rfl⟩)
    · exact .inl ⟨rfl, rfl⟩
    · exact .inr ⟨rfl, rfl⟩

theorem nest_remark : IsCallOf nestTypes nestPallets nestSystem remarkCall 0 3 := ⟨by simp [nestPallets, nestSystem], rfl, 2, _, rfl, nest_variants2, by simp, rfl⟩
theorem nest_batch : IsCallOf nestTypes nestPallets nestUtility nestBatch 7 0 := ⟨by simp [nestPallets, nestUtility], rfl, 1, _, rfl, nest_variants1, by simp, rfl⟩
theorem nest_as : IsCallOf nestTypes nestPallets nestUtility asCall 7 1 := ⟨by simp [nestPallets, nestUtility], rfl, 1, _, rfl, nest_variants1, by simp, rfl⟩

section
variable {L : Nat → Prop} {ok : WPallet → Prop} {ids : Nat → Option Str}

theorem nest_u16 (n : Nat) (h : n < 65536) (b : Str) (hb : b = _root_.Spec.leBytes 2 n) :
    WireNested (Covered nest (· = 4)) L nestTypes nestPallets ok ids 4 (.uint 2 n) (.uint 2 n) b [] := by
  have hu : Covered nest (· = 4) 4 (.uint 2) := .primitive rfl rfl (by decide) (by simp [_root_.Spec.primitiveShapes])
  exact .value ⟨by decide, .leaf hu ⟨n, h, rfl, rfl, rfl, hb⟩ trivial⟩

/-- The call `remark(n)` and what is read of it. -/
def remarkIn (n : Nat) : Val := .boxCall b!"0003" [.uint 2 n] []
def remarkOut (ids : Nat → Option Str) (n : Nat) : Val := callVal 0 3 (wireCall ids nestSystem remarkCall) [.uint 2 n]

theorem nest_remarks (hS : ok nestSystem) (n : Nat) (h : n < 65536) (b : Str) (hb : b = _root_.Spec.leBytes 2 n) :
    WireNested (Covered nest (· = 4)) L nestTypes nestPallets ok ids 0 (remarkIn n) (remarkOut ids n) (0 :: 3 :: b) [_root_.Spec.hexText (0 :: 3 :: b)] := by
  have := Nested.call (V := fun i y r b => i < nestTypes.length ∧ Scale (Covered nest (· = 4)) (SupportedBy fun _ => True) i y r b)
    (isCall := CallType nestTypes nestPallets) (isList := CallsType nestTypes nestPallets) (L := L) (entry := WiredCall nestTypes nestPallets ok ids) (t := 0)
    (s := b!"0003") (gs := [.uint 2 n]) (hs := []) [⟨4, .uint 2 n, .uint 2 n, b, []⟩] nest_callType ⟨_, _, nest_remark, hS, rfl, rfl⟩ (.inl (by decide)) (.inl ⟨rfl, rfl⟩)
    (fun p hp => by
      obtain rfl := List.mem_singleton.1 hp
      exact nest_u16 n h b hb)
  simp only [joined, inner, List.map_cons, List.map_nil, List.flatten_cons, List.flatten_nil, List.append_nil, List.nil_append] at this
  exact this

/-- The call `as_derivative(9, remark(6))` and what is read of it. -/
def asIn : Val := .boxCall b!"0701" [.uint 2 9, remarkIn 6] []
def asOut (ids : Nat → Option Str) : Val := callVal 7 1 (wireCall ids nestUtility asCall) [.uint 2 9, remarkOut ids 6]

theorem nest_derivative (hS : ok nestSystem) (hU : ok nestUtility) :
    WireNested (Covered nest (· = 4)) L nestTypes nestPallets ok ids 0 asIn (asOut ids) [7, 1, 9, 0, 0, 3, 6, 0] [b!"00030600", b!"0701090000030600"] := by
  exact Nested.call (t := 0) (s := b!"0701") (gs := [.uint 2 9, remarkIn 6]) (hs := []) [⟨4, .uint 2 9, .uint 2 9, [9, 0], []⟩,
    ⟨0, remarkIn 6, remarkOut ids 6, [0, 3, 6, 0], [b!"00030600"]⟩] nest_callType ⟨_, _, nest_as, hU, rfl, rfl⟩ (.inl (by decide)) (.inl ⟨rfl, rfl⟩)
    (fun p hp => by
      simp only [List.mem_cons, List.not_mem_nil, or_false] at hp
      rcases hp with rfl | rfl
      · exact nest_u16 9 (by decide) _ (by decide)
      · exact nest_remarks hS 6 (by decide) [6, 0] (by decide))

/-- The list of calls `remark(5), as_derivative(9, remark(6))` is an argument of the batch. -/
theorem nest_list (hS : ok nestSystem) (hU : ok nestUtility) (hL : L 2) :
    WireNested (Covered nest (· = 4)) L nestTypes nestPallets ok ids 3 (.slice [remarkIn 5, asIn]) (.slice [remarkOut ids 5, asOut ids])
      [8, 0, 3, 5, 0, 7, 1, 9, 0, 0, 3, 6, 0] [b!"00030500", b!"00030600", b!"0701090000030600"] := by
  refine Nested.list (el := 0) (c := [8]) [⟨0, remarkIn 5, remarkOut ids 5, [0, 3, 5, 0], [b!"00030500"]⟩,
    ⟨0, asIn, asOut ids, [7, 1, 9, 0, 0, 3, 6, 0], [b!"00030600", b!"0701090000030600"]⟩] ⟨⟨_, by simp [nestTypes]; rfl, rfl, rfl⟩, nest_callType⟩ hL
    (.inl ⟨by simp, (by decide : ([8] : Str) = _root_.Spec.leBytes 1 (4 * 2))⟩) ?_ ?_
  · intro p hp
    simp only [List.mem_cons, List.not_mem_nil, or_false] at hp
    rcases hp with rfl | rfl <;> rfl
  · intro p hp
    simp only [List.mem_cons, List.not_mem_nil, or_false] at hp
    rcases hp with rfl | rfl
    · exact nest_remarks hS 5 (by decide) [5, 0] (by decide)
    · exact nest_derivative hS hU

/-- The whole batch. -/
theorem nest_whole (hS : ok nestSystem) (hU : ok nestUtility) (hL : L 2) :
    WireNested (Covered nest (· = 4)) L nestTypes nestPallets ok ids 0 (.boxCall b!"0700" [.slice [remarkIn 5, asIn]] [])
      (callVal 7 0 (wireCall ids nestUtility nestBatch) [.slice [remarkOut ids 5, asOut ids]])
      [7, 0, 8, 0, 3, 5, 0, 7, 1, 9, 0, 0, 3, 6, 0] [b!"00030500", b!"00030600", b!"0701090000030600", b!"0700080003050007010900" ++ b!"00030600"] :=
  Nested.call (t := 0) (s := b!"0700") (gs := [.slice [remarkIn 5, asIn]]) (hs := [])
    [⟨3, .slice [remarkIn 5, asIn], .slice [remarkOut ids 5, asOut ids], [8, 0, 3, 5, 0, 7, 1, 9, 0, 0, 3, 6, 0], [b!"00030500", b!"00030600", b!"0701090000030600"]⟩]
    nest_callType ⟨_, _, nest_batch, hU, rfl, rfl⟩ (.inl (by decide)) (.inl ⟨rfl, rfl⟩) fun p hp => by
      obtain rfl := List.mem_singleton.1 hp
      exact nest_list hS hU hL

end

theorem nest_untouched (x : WPallet) : Untouched nest (keptText x.name) := by
  intro i n hn hne
  have hi := (nest_names i n hn).resolve_left hne
  have key : ∀ p ∈ [(0, b!"r:RuntimeCall")], NeverOverridden p.2 := by decide +kernel
  exact (key _ hi).apply _

/-- With this metadata a batch of `remark(5)` and `as_derivative(9, remark(6))` is written to fifteen bytes, which are read back and tell of
four calls. -/
example : ∃ b out, Settles (fun n => processV14 n startReg ⟨[], 0, none⟩) b out ∧ ∀ md, Uses md out → ∃ five six derived batch,
    five = callVal 0 3 ⟨b!"remark", b!"System", [(b!"n", b!"U16")]⟩ [.uint 2 5] ∧
    six = callVal 0 3 ⟨b!"remark", b!"System", [(b!"n", b!"U16")]⟩ [.uint 2 6] ∧
    derived = callVal 7 1 ⟨b!"as_derivative", b!"Utility", [(b!"index", b!"U16"), (b!"call", b!"Call")]⟩ [.uint 2 9, six] ∧
    batch = callVal 7 0 ⟨b!"batch", b!"Utility", [(b!"calls", b!"Vec<Call>")]⟩ [.slice [five, derived]] ∧
    Encodes out.reg.env ⟨0, some md⟩ b!"Call" (.boxCall b!"0700" [.slice [.boxCall b!"0003" [.uint 2 5] [],
      .boxCall b!"0701" [.uint 2 9, .boxCall b!"0003" [.uint 2 6] []] []]] []) [7, 0, 8, 0, 3, 5, 0, 7, 1, 9, 0, 0, 3, 6, 0] ∧
    Decodes out.reg.env ⟨[], 0, some md⟩ b!"Call" [7, 0, 8, 0, 3, 5, 0, 7, 1, 9, 0, 0, 3, 6, 0] batch
      [b!"00030500", b!"00030600", b!"0701090000030600", b!"070008000305000701090000030600"] := by
  obtain ⟨st, hs, h0, h3, h4⟩ := nest_done
  obtain ⟨b, hb⟩ := nest_written
  obtain ⟨out, h1, h2⟩ := C101_v14_partial startReg 0 none _ _ _ _ _ b _ _ 5 st start_ready hb nest_regular (nest_understood hs)
  have e1 : wireCall st.ids nestSystem remarkCall = ⟨b!"remark", b!"System", [(b!"n", b!"U16")]⟩ := by
    simp [wireCall, remarkCall, nestSystem, fieldName, h4]
    decide +kernel
  have e2 : wireCall st.ids nestUtility asCall = ⟨b!"as_derivative", b!"Utility", [(b!"index", b!"U16"), (b!"call", b!"Call")]⟩ := by
    simp [wireCall, asCall, nestUtility, fieldName, h4, h0]
    decide +kernel
  have e3 : wireCall st.ids nestUtility nestBatch = ⟨b!"batch", b!"Utility", [(b!"calls", b!"Vec<Call>")]⟩ := by
    simp [wireCall, nestBatch, nestUtility, fieldName, h3]
    decide +kernel
  refine ⟨b, out, h1, fun md hm => ⟨_, _, _, _, rfl, rfl, rfl, rfl, ?_, ?_⟩⟩
  · have hw := h2 md hm
    rw [nest_wire] at hw
    have := hw.encode _ _ _ _ _ (nest_whole trivial trivial (by decide)) 0
    rw [h0] at this
    exact this
  · have hw := h2 md hm
    rw [nest_wire] at hw
    have := hw.decode _ _ _ _ _ (nest_whole (nest_untouched _) (nest_untouched _) (by decide)) 0
    unfold asOut remarkOut at this
    rw [h0, e1, e2, e3] at this
    exact this

end ScaleGo
