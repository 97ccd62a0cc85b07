import Verif.Props.C63
import Verif.Props.C50
import Verif.Props.C80

/-! # C81: calls, extrinsics and events follow the metadata

English claim: once metadata of version 14 or 15 has been read, every call that it describes is encoded as its two indices and the
SCALE encodings of its arguments, these bytes decode to the call with its arguments, unsigned extrinsics with the call
round-trip, and lists of events that it describes decode to these events.

What a call or an event is made of is taken from the metadata as written (`WPallet`, `PVariant`); the encodings of the arguments
are those of `Scale` over the shapes of the portable types. -/

namespace ScaleGo
open _root_.Spec (Shape Scale WPallet PType PVariant WExtension WText WList FText FList FId FPallet FRegistry)
open ScaleGo.Spec

/-! ## What the metadata says -/

/-- A value given to the encoder, the value seen by the reader, the bytes. -/
abbrev Arg := Val × Val × Str

def Arg.item (a : Arg) : Item := (a.2.1, a.2.2, [])

/-- The bytes of all arguments. -/
def argBytes (as : List Arg) : Str := (as.map fun a => a.2.2).flatten

/-- One argument for each field, encoded as its type demands; `R` gives the shapes of the types. -/
def Arguments (R : Nat → Shape Nat → Prop) (l : List (Nat × PType)) (v : PVariant) (as : List Arg) : Prop :=
  List.Forall₂ (fun f a => f.type < l.length ∧ Scale R (SupportedBy fun _ => True) f.type a.1 a.2.1 a.2.2) v.fields as

/-- `v` is the call with the index `b` of the pallet `x`, whose index is `a`. -/
def IsCallOf (l : List (Nat × PType)) (ps : List WPallet) (x : WPallet) (v : PVariant) (a b : UInt8) : Prop :=
  x ∈ ps ∧ x.index = a.toNat ∧ ∃ i vs, x.calls = some i ∧ VariantType l i vs ∧ v ∈ vs ∧ v.index = b.toNat

/-- The same for events. -/
def IsEventOf (l : List (Nat × PType)) (ps : List WPallet) (x : WPallet) (v : PVariant) (a b : UInt8) : Prop :=
  x ∈ ps ∧ x.index = a.toNat ∧ ∃ i vs, x.event = some i ∧ VariantType l i vs ∧ v ∈ vs ∧ v.index = b.toNat

/-- The name of a call, its pallet, and names and type texts of its arguments. -/
def wireCall (ids : Nat → Option Str) (x : WPallet) (v : PVariant) : CallEntry :=
  ⟨keptText v.name, keptText x.name, v.fields.map fun f => (fieldName f, siText ids f.type)⟩

/-- `b` is the record of `ev`: phase, two indices, arguments, and a list of topics of 32 bytes each. -/
def EventRecord (R : Nat → Shape Nat → Prop) (l : List (Nat × PType)) (ps : List WPallet) (ok : WPallet → Prop) (ids : Nat → Option Str)
    (b : Str) (ev : Event) : Prop :=
  ∃ (x : WPallet) (v : PVariant) (i j : UInt8) (as : List Arg) (pb c : Str) (ts : List Str), IsEventOf l ps x v i j ∧ ok x ∧ Arguments R l v as ∧
    IsPhase pb ev.phase ev.extrinsicIdx ∧ (∀ t ∈ ts, t.length = 32) ∧ ts.length ≤ 524288 ∧ _root_.Spec.IsCompact ts.length c ∧
    b = pb ++ ([i, j] ++ (argBytes as ++ (c ++ ts.flatten))) ∧ ev.type = _root_.Spec.hexText [i, j] ∧
    ev.moduleId = keptText x.name ∧ ev.eventId = keptText v.name ∧
    ev.params = (v.fields.map fun f => siText ids f.type).zip ((v.fields.map fieldName).zip (as.map fun a => a.2.1)) ∧
    ev.topics = ts.map (fun t => b!"0x" ++ _root_.Spec.hexText t) ∧ ev.paramsRaw = _root_.Spec.hexText (argBytes as)

/-- Values, for example of storage and constants, and calls, extrinsics and events of the pallets with `ok` follow the metadata. -/
structure Works (R : Nat → Shape Nat → Prop) (l : List (Nat × PType)) (ps : List WPallet) (ok : WPallet → Prop) (ids : Nat → Option Str)
    (env : Env) (md : MD) : Prop where
  value : ∀ i v r b, i < l.length → Scale R (SupportedBy fun _ => True) i v r b → ∀ ectx spec,
    Encodes env ectx (siText ids i) v b ∧ Decodes env ⟨[], spec, some md⟩ (siText ids i) b r []
  encode : ∀ x v i j as, IsCallOf l ps x v i j → ok x → Arguments R l v as → ∀ spec s gs hs, IndexText i j s → Given gs hs (as.map fun a => a.1) →
    Encodes env ⟨spec, some md⟩ b!"Call" (.boxCall s gs hs) (i :: j :: argBytes as)
  decode : ∀ x v i j as, IsCallOf l ps x v i j → ok x → Arguments R l v as → ∀ m spec,
    Decodes env ⟨m, spec, some md⟩ b!"Call" (i :: j :: argBytes as) (callVal i j (wireCall ids x v) (as.map fun a => a.2.1))
      [_root_.Spec.hexText (i :: j :: argBytes as)]
  extrinsic : ∀ x v i j as, IsCallOf l ps x v i j → ok x → Arguments R l v as → ∀ spec opt (g : ExtrinsicIn),
    g.version = b!"04" ∨ g.version = b!"05" → g.callCode = _root_.Spec.hexText [i, j] → g.params = as.map (fun a => a.1) →
    (argBytes as).length < 2 ^ 61 → RoundTrips env spec md opt g (wireCall ids x v) (as.map Arg.item) none
  events : ∀ (rs : List (Str × Event)), (∀ r ∈ rs, EventRecord R l ps ok ids r.1 r.2) → rs.map (·.2.idx) = List.range rs.length →
    ∀ spec module c suf, _root_.Spec.IsCompact rs.length c → c.length + (rs.map (·.1)).flatten.length + suf.length < 2 ^ 63 → rs.length < 2 ^ 63 →
    ∃ N, ∀ fuel, N ≤ fuel → decodeEvents env fuel spec md module (c ++ ((rs.map (·.1)).flatten ++ suf)) =
      .ok (rs.map (·.2), ⟨⟨c ++ ((rs.map (·.1)).flatten ++ suf), c.length + (rs.map (·.1)).flatten.length⟩, []⟩)

/-- The metadata as used afterwards. -/
def Uses (md : MD) (out : V14Out) : Prop := 14 ≤ md.version ∧ md.callIndex = out.callIndex ∧ md.eventIndex = out.eventIndex

/-- V14 metadata that is understood serves all its pallets. -/
def C81Claim : Prop :=
  ∀ (reg : RegState) (spec : Int) (md0 : Option MD) (l : List (Nat × PType)) (ps : List WPallet) (t v : Nat) (xs : List WExtension) (b : Str)
    (dup : Str → Nat) (A : Nat → Prop) (fuel : Nat) (st : SiState), MetaReady reg → Written14 l ps t v xs b → Regular l ps →
    Understood l spec reg dup A fuel st →
    ∃ out, Settles (fun n => processV14 n reg ⟨[], spec, md0⟩) b out ∧ DescribedOut true l ps xs st.ids out ∧ ∀ md, Uses md out →
      Works (Covered { wireCfg l spec with dup := dup } A) l ps (fun _ => True) st.ids out.reg.env md

/-! ## What holds -/

section
variable {l : List (Nat × PType)} {ps : List WPallet} {spec0 : Int} {reg : RegState} {dup : Str → Nat} {A : Nat → Prop} {fuel : Nat}
  {st : SiState} {o : List (Str × Nat)} (hr : MetaReady reg) (hU : Understood l spec0 reg dup A fuel st)
include hr hU

/-- Values of a type of the metadata under the text of the type. -/
theorem origin_scale (hn : l.map Prod.fst = List.range l.length) {ctx : Ctx} (ectx : ECtx) (hm : Untouched { wireCfg l spec0 with dup := dup } ctx.module)
    {i : Nat} (hi : i < l.length) {v r : Val} {b : Str}
    (hs : Scale (Covered { wireCfg l spec0 with dup := dup } A) (SupportedBy fun _ => True) i v r b) :
    Encodes (registerOriginCaller st.reg.env o) ectx (siText st.ids i) v b ∧
      Decodes (registerOriginCaller st.reg.env o) ctx (siText st.ids i) b r [] := by
  have hL := (hU.loaded hr.toReady).origin hU.tidy hr.origin o
  obtain ⟨t, ht, -⟩ := texts_of hn hU.counted hU.early hU.tidy.names hU.done i hi
  have e : siText st.ids i = t := by unfold siText; rw [ht]; rfl
  rw [e]
  obtain ⟨h1, h2⟩ := len_ok hU.tidy hr.stock hL hr.special (ctx := ctx)
  exact C28_partial _ _ _ (HasShape (registerOriginCaller st.reg.env o) ctx ectx) h1 h2 (fun _ _ h => h) _ _ _ _
    (scale_spelled hU.tidy hr.stock hL hr.special hr.rows hm hs t ⟨t, hL.ids i t ht, .inl rfl⟩)

/-- Words of the library still have their meaning, in every module. -/
theorem origin_word {t : Str} {c : Cls} (h1 : (toLower t, c) ∈ metaClasses) (h2 : convertType t = t) (h3 : NeverOverridden t) (m : Str) (spec : Int) :
    Resolves (registerOriginCaller st.reg.env o) m spec t c [] := by
  have hL := (hU.loaded hr.toReady).origin hU.tidy hr.origin o
  exact meta_looksUp hr hL h1 h2 m spec (by rw [h2]; exact h3.apply m)

theorem origin_topics (ctx : Ctx) (ts : List Str) (c : Str) (h : ∀ t ∈ ts, t.length = 32) (hl : ts.length ≤ 524288)
    (hc : _root_.Spec.IsCompact ts.length c) :
    Decodes (registerOriginCaller st.reg.env o) ctx b!"Vec<Hash>" (c ++ ts.flatten) (mkSlice (ts.map fun t => .str (b!"0x" ++ _root_.Spec.hexText t))) [] := by
  have hL := (hU.loaded hr.toReady).origin hU.tidy hr.origin o
  have hv := meta_vec hr hL (t := b!"Vec<Hash>") (a := b!"Hash") (by decide) (clean_word (by decide) (by decide) (by decide) (by decide)) (by decide)
    ctx.module ctx.spec ((by decide +kernel : NeverOverridden (convertType b!"Vec<Hash>")).apply _)
  have hh := origin_word hr hU (o := o) (t := b!"Hash") (c := .hash 32) (by decide +kernel) (by kernel_rfl) (by decide +kernel) ctx.module ctx.spec
  have hlen := (len_ok hU.tidy hr.stock hL hr.special (ctx := ctx)).1
  have := C20_decode _ ctx b!"Vec<Hash>" b!"Hash" b!"Hash" (.vec []) (ts.map fun t => (.str (b!"0x" ++ _root_.Spec.hexText t), t, [])) c rfl hv hlen
    (by simpa using hl) (by simpa using hc) (by
      intro x hx
      obtain ⟨t, ht, rfl⟩ := List.mem_map.1 hx
      exact C50_decode_hash _ ctx _ [] 32 t (h t ht) hh)
  simpa [Function.comp_def] using this

end

theorem described_call {l : List (Nat × PType)} {ps : List WPallet} {ids : Nat → Option Str} {x : WPallet} {v : PVariant} {i j : UInt8}
    (h : IsCallOf l ps x v i j) : DescribedCall l ps ids i.toNat j.toNat (wireCall ids x v) := by
  obtain ⟨h1, h2, k, vs, h3, h4, h5, h6⟩ := h
  exact ⟨x, h1, h2, k, vs, h3, h4, v, h5, h6, rfl⟩

theorem forall2_getElem? {α β : Type} {R : α → β → Prop} {l : List α} {m : List β} (h : List.Forall₂ R l m) {k : Nat} {a : α} {b : β}
    (ha : l[k]? = some a) (hb : m[k]? = some b) : R a b := by
  induction h generalizing k with
  | nil => simp at ha
  | cons h _ ih =>
    cases k with
    | zero =>
      simp only [List.getElem?_cons_zero, Option.some.injEq] at ha hb
      subst ha hb
      exact h
    | succ k => exact ih (by simpa using ha) (by simpa using hb)

/-- Whatever describes a pallet in the output, calls, extrinsics and events of pallets that override none of the names of the
metadata follow it. -/
theorem works_of {check : Bool} {l : List (Nat × PType)} {ps : List WPallet} {xs : List WExtension} {spec0 : Int} {reg : RegState} {dup : Str → Nat}
    {A : Nat → Prop} {fuel : Nat} {st : SiState} {o : List (Str × Nat)} (hr : MetaReady reg) (hU : Understood l spec0 reg dup A fuel st) (hR : Regular l ps)
    {out : V14Out} (hD : DescribedOut check l ps xs st.ids out) (ho : out.reg.env = registerOriginCaller st.reg.env o) (md : MD) (hm : Uses md out) :
    Works (Covered { wireCfg l spec0 with dup := dup } A) l ps (fun x => Untouched { wireCfg l spec0 with dup := dup } (keptText x.name)) st.ids
      out.reg.env md := by
  obtain ⟨hver, hc, he⟩ := hm
  have hL := (hU.loaded hr.toReady).origin hU.tidy hr.origin o
  have hcall : ∀ m spec, Resolves (registerOriginCaller st.reg.env o) m spec b!"Call" .call [] :=
    origin_word hr hU (by decide +kernel) (by kernel_rfl) (by decide +kernel)
  have known : ∀ {x v i j}, IsCallOf l ps x v i j → md.callIndex (_root_.Spec.hexText [i, j]) = some (wireCall st.ids x v) := by
    intro x v i j h
    rw [hc]
    exact (hD.calls i j _).2 (described_call h)
  constructor
  · intro i v r b hi hs ectx spec
    rw [ho]
    exact origin_scale hr hU hR.numbered ectx (fun _ _ _ _ => notOverridden_nil _) hi hs
  · intro x v i j as h hok ha spec s gs hs hi hg
    rw [ho]
    have := C63_encode_partial (registerOriginCaller st.reg.env o) ⟨spec, some md⟩ md b!"Call" [] s i j (wireCall st.ids x v) gs hs (as.map fun a => a.1)
      (as.map fun a => a.2.2) rfl ⟨hcall _ _, by decide⟩ hi (known h) hg (by simp [wireCall, ha.length_eq]) (by simp [wireCall, ha.length_eq]) (by
        intro k a v' b h1 h2 h3
        simp only [wireCall, List.getElem?_map, Option.map_eq_some_iff] at h1 h2 h3
        obtain ⟨f, hf, rfl⟩ := h1
        obtain ⟨y, hy, rfl⟩ := h2
        obtain ⟨y', hy', rfl⟩ := h3
        rw [hy] at hy'
        cases hy'
        have := forall2_getElem? ha hf hy
        exact (origin_scale hr hU hR.numbered (ctx := ⟨[], 0, none⟩) ⟨spec, some md⟩ (fun _ _ _ _ => notOverridden_nil _) this.1 this.2).1)
    exact this
  · intro x v i j as h hok ha m spec
    rw [ho]
    have := C63_decode (registerOriginCaller st.reg.env o) ⟨m, spec, some md⟩ md b!"Call" [] i j (wireCall st.ids x v) (as.map Arg.item) rfl (hcall _ _)
      (known h) (by
        rw [wireCall, List.forall₂_map_left_iff, List.forall₂_map_right_iff]
        exact ha.imp fun f a h => (origin_scale hr hU hR.numbered ECtx.none hok h.1 h.2).2)
    have e0 : ((as.map Arg.item).map fun x => x.2.2).flatten = [] := by
      rw [List.flatten_eq_nil_iff]
      intro y hy
      simp only [List.map_map, List.mem_map] at hy
      obtain ⟨a, -, rfl⟩ := hy
      rfl
    rw [e0] at this
    simpa [Arg.item, argBytes, Function.comp_def] using this
  · intro x v i j as h hok ha spec opt g hg hcode hp hlen
    rw [ho]
    refine C43_bare g.version hg _ spec md opt g i j (wireCall st.ids x v) (as.map Arg.item) (len_ok hU.tidy hr.stock hL hr.special) rfl
      ⟨hcode, by rw [hcode]; exact known h, by simp [hp, wireCall, ha.length_eq], ?_⟩ (by simpa [Arg.item, argBytes, Function.comp_def] using hlen)
    rw [hp, wireCall]
    dsimp only
    clear hlen hp known h
    have : List.Forall₂ (fun f (a : Arg) => f.type < l.length ∧ Scale (Covered { wireCfg l spec0 with dup := dup } A) (SupportedBy fun _ => True) f.type a.1 a.2.1 a.2.2) v.fields as := ha
    clear ha
    revert this
    generalize v.fields = fs
    intro this
    induction this with
    | nil => exact .nil
    | cons h _ ih =>
      exact .cons ⟨(origin_scale hr hU hR.numbered (ctx := ⟨[], 0, none⟩) ⟨spec, some md⟩ (fun _ _ _ _ => notOverridden_nil _) h.1 h.2).1,
        (origin_scale hr hU hR.numbered (ctx := ⟨_, _, _⟩) ECtx.none hok h.1 h.2).2⟩ ih
  · intro rs h hidx spec module c suf hcc hlen hn
    rw [ho]
    have := C45_decodes (registerOriginCaller st.reg.env o) spec md module (len_ok hU.tidy hr.stock hL hr.special).1
      (fun m => ⟨[], origin_word hr hU (by decide +kernel) (by kernel_rfl) (by decide +kernel) m spec⟩) (rs.map fun r => (r.1, r.2, []))
      (by
        intro r hr'
        obtain ⟨q, hq, rfl⟩ := List.mem_map.1 hr'
        obtain ⟨x, v, i, j, as, pb, tc, ts, h1, h2, h3, h4, h5, h6, h7, h8, h9, h10, h11, h12, h13, h14⟩ := h q hq
        obtain ⟨hx, hxi, k, vs, hev, hvt, hv, hvi⟩ := h1
        refine ⟨pb, tc ++ ts.flatten, i, j, ⟨keptText v.name, keptText x.name, v.fields.map fun f => siText st.ids f.type, v.fields.map fieldName,
          v.fields.map fun f => convertType (fieldTypeName f)⟩, as.map Arg.item, ?_, h4, ?_, ?_, ?_, h9, h10, h11, ?_, ?_, ?_⟩
        · simpa [Arg.item, argBytes, Function.comp_def] using h8
        · rw [he]
          exact (hD.events i j _).2 ⟨x, hx, hxi, k, vs, hev, hvt, v, hv, hvi, rfl⟩
        · dsimp only
          rw [List.forall₂_map_left_iff, List.forall₂_map_right_iff]
          exact h3.imp fun f a h => (origin_scale hr hU hR.numbered ECtx.none h2 h.1 h.2).2
        · unfold IsTopics
          rw [if_pos (by omega)]
          have := origin_topics hr hU (o := o) ⟨keptText x.name, spec, some md⟩ ts tc h5 h6 h7
          rw [show (if (q.2.topics = []) then Val.nilSlice else .slice (q.2.topics.map .str)) = mkSlice (ts.map fun t => .str (b!"0x" ++ _root_.Spec.hexText t)) from ?_]
          · exact this
          · rw [h13]
            cases ts <;> simp [mkSlice]
        · dsimp only
          rw [h12, if_pos (by simp)]
          simp [Arg.item, Function.comp_def]
        · simpa [Arg.item, argBytes, Function.comp_def] using h14
        · symm
          rw [List.flatten_eq_nil_iff]
          intro y hy
          simp only [List.map_map, List.mem_map] at hy
          obtain ⟨a, -, rfl⟩ := hy
          rfl)
      (by simpa [Function.comp_def] using hidx) c suf (by simpa using hcc) (by simpa [Function.comp_def] using hlen) (by simpa using hn)
    have e0 : ((rs.map fun r => (r.1, r.2, ([] : List Str))).map fun x => x.2.2).flatten = [] := by
      rw [List.flatten_eq_nil_iff]
      intro y hy
      simp only [List.map_map, List.mem_map] at hy
      obtain ⟨a, -, rfl⟩ := hy
      rfl
    rw [e0] at this
    simpa [Function.comp_def] using this

/-- V14 metadata that is understood serves the pallets whose name overrides none of the names of the metadata. -/
theorem C81_v14_partial (reg : RegState) (spec : Int) (md0 : Option MD) (l : List (Nat × PType)) (ps : List WPallet) (t v : Nat) (xs : List WExtension)
    (b : Str) (dup : Str → Nat) (A : Nat → Prop) (fuel : Nat) (st : SiState) (hr : MetaReady reg) (hw : Written14 l ps t v xs b) (hR : Regular l ps)
    (hU : Understood l spec reg dup A fuel st) :
    ∃ out, Settles (fun n => processV14 n reg ⟨[], spec, md0⟩) b out ∧ DescribedOut true l ps xs st.ids out ∧ ∀ md, Uses md out →
      Works (Covered { wireCfg l spec with dup := dup } A) l ps (fun x => Untouched { wireCfg l spec with dup := dup } (keptText x.name)) st.ids
        out.reg.env md := by
  obtain ⟨out, h1, h2, h3⟩ := C79_partial reg spec md0 l ps t v xs b dup A fuel st hr hw hR hU
  exact ⟨out, h1, h2, fun md hm => works_of hr hU hR h2 (by rw [h3]) md hm⟩

/-- The same for V15 metadata. -/
theorem C81_v15_partial (reg : RegState) (spec : Int) (md0 : Option MD) (x : W15) (b : Str) (dup : Str → Nat) (A : Nat → Prop) (fuel : Nat) (st : SiState)
    (hr : MetaReady reg) (hF : x.Fits) (hw : EncW15 x b) (hR : Regular x.types (x.pallets.map Prod.fst)) (hU : Understood x.types spec reg dup A fuel st) :
    ∃ out, Settles (fun n => processV15 n reg ⟨[], spec, md0⟩) b out ∧ Described15 false x st.ids out ∧ ∀ md, Uses md out.toV14Out →
      Works (Covered { wireCfg x.types spec with dup := dup } A) x.types (x.pallets.map Prod.fst)
        (fun p => Untouched { wireCfg x.types spec with dup := dup } (keptText p.name)) st.ids out.reg.env md := by
  obtain ⟨out, h1, h2, h3⟩ := C80_exact reg spec md0 x b dup A fuel st hr hF hw hR hU
  exact ⟨out, h1, h2, fun md hm => works_of hr hU hR h2.common (by rw [h3]) md hm⟩

/-! ## The claim is false: a pallet may replace a type of the metadata -/

/-- The types `struct Approval { a: u16, b: u16 }`, `u16` and `enum p::C { go { x: Approval } }`. -/
def overTypes : List (Nat × PType) :=
  [(0, ⟨[b!"Approval"], [], .composite [⟨some b!"a", 1, none, []⟩, ⟨some b!"b", 1, none, []⟩], []⟩), (1, ⟨[], [], .primitive 4, []⟩),
    (2, ⟨[b!"p", b!"C"], [], .variant [⟨b!"go", [⟨some b!"x", 0, none, []⟩], 0, []⟩], []⟩)]

/-- A pallet `Assets` with this call. -/
def overPallets : List WPallet := [⟨b!"Assets", none, some 2, none, [], none, 0⟩]

def overDup : Str → Nat := fun k => if k = b!"p:C" then (if k = b!"Approval" then 0 + 1 else 0) + 1 else if k = b!"Approval" then 0 + 1 else 0

def overCfg : SiCfg where
  types := fun i => match i with
    | 0 => { path := [b!"Approval"], typ := .composite [⟨b!"a", 1, []⟩, ⟨b!"b", 1, []⟩] }
    | 1 => { typ := .primitive b!"U16" }
    | 2 => { path := [b!"p", b!"C"], typ := .variant [⟨b!"go", [⟨b!"x", 0, []⟩], 0⟩] }
    | _ => {}
  count := 3

def over : SiCfg := { overCfg with dup := overDup }

theorem over_cases {P : Nat → Prop} (h0 : P 0) (h1 : P 1) (h2 : P 2) (h : ∀ k, P (k + 3)) : ∀ i, P i
  | 0 => h0 | 1 => h1 | 2 => h2 | (k + 3) => h k

theorem over_wire : wireCfg overTypes 0 = overCfg := by
  have h : ∀ i, (wireCfg overTypes 0).types i = overCfg.types i := by
    refine over_cases ?_ ?_ ?_ (fun k => ?_)
    iterate 3 exact (by decide +kernel)
    show portableType (kept overTypes) (k + 3) = {}
    unfold portableType
    rw [List.find?_eq_none.2]
    intro p hp
    have : p.1 ∈ List.range 3 := by
      have : p.1 ∈ (kept overTypes).map Prod.fst := List.mem_map.2 ⟨p, List.mem_reverse.1 hp, rfl⟩
      exact (by decide +kernel : (kept overTypes).map Prod.fst = List.range 3) ▸ this
    have := List.mem_range.1 this
    simp only [beq_iff_eq]
    omega
  have hc : (wireCfg overTypes 0).count = overCfg.count := by decide +kernel
  show SiCfg.mk (wireCfg overTypes 0).types (wireCfg overTypes 0).count _ _ _ _ _ = SiCfg.mk overCfg.types overCfg.count _ _ _ _ _
  rw [funext h, hc]
  rfl

theorem over_paths : ∀ i, (over.types i).path ∈ [[], [b!"Approval"], [b!"p", b!"C"]] := by
  refine over_cases ?_ ?_ ?_ (fun k => ?_)
  rotate_right
  · exact List.mem_cons_self
  all_goals decide

theorem over_names : ∀ i n, nameSiType over (over.types i) (some i) = .ok n → n = [] ∨ (i, n) ∈ [(0, b!"Approval"), (2, b!"p:C")] := by
  refine over_cases ?_ ?_ ?_ (fun k n h => ?_)
  rotate_right
  · cases h
    exact .inl rfl
  all_goals intro n h; cases h; decide

theorem over_early : EarlyOK over (· = 1) where
  inside := by rintro i rfl; decide
  kind := by rintro i rfl; exact .inl ⟨_, rfl, rfl⟩
  wrapper := by
    intro i n p ps h
    have := over_paths i
    revert h
    unfold IsWrapper
    generalize (over.types i).path = q at this
    intro h
    exfalso
    revert q
    decide
  extrinsic := by
    intro i name p h
    have := over_paths i
    revert h
    unfold IsExtrinsic
    generalize (over.types i).path = q at this
    intro h
    exfalso
    revert q
    decide
  core := by rintro i h rfl; cases h

theorem over_plain : PlainNames over where
  segments := by
    intro i
    have := over_paths i
    generalize (over.types i).path = q at this
    intro s hs
    refine ident_of ?_
    revert s
    revert q
    decide
  pre := fun h => absurd rfl h
  named := by
    refine over_cases ?_ ?_ ?_ (fun k => ?_)
    rotate_right
    · rintro (⟨_, h⟩ | ⟨_, h⟩) <;> cases h
    all_goals rintro (⟨_, h⟩ | ⟨_, h⟩) <;> first | (cases h; done) | (intro e; cases e)
  primitive := over_cases (fun p h => by cases h) (fun p h => by cases h; exact ⟨ident_of (by decide), by decide⟩) (fun p h => by cases h)
    fun _ p h => by cases h
  crate := by
    intro i
    have := over_paths i
    generalize (over.types i).path = q at this
    revert q
    decide
  whole := by
    intro i
    unfold pathName
    have := over_paths i
    generalize (over.types i).path = q at this
    revert q
    decide
  range := over_cases (fun h => by cases h) (fun h => by cases h) (fun h => by cases h) fun _ h => by cases h

theorem over_tidy : Tidy over (· = 1) startReg.env.reg where
  names := over_plain
  unversioned := fun _ => rfl
  apart := by
    intro i n h hne
    have hi := (over_names i n h).resolve_left hne
    have hnames : ∀ j m, nameSiType over (over.types j) (some j) = .ok m → toLower m = toLower n → j = i := by
      intro j m h' e
      rcases over_names j m h' with rfl | hj
      · cases n with
        | nil => exact absurd rfl hne
        | cons => cases e
      · exact (by decide : ∀ p ∈ [(0, b!"Approval"), (2, b!"p:C")], ∀ q ∈ [(0, b!"Approval"), (2, b!"p:C")],
          toLower q.2 = toLower p.2 → q.1 = p.1) _ hi _ hj e
    have rest : ∀ p ∈ [(0, b!"Approval"), (2, b!"p:C")], ¬ b!"tuple:" <+: toLower p.2 ∧ ¬ b!"primitive_types:" <+: toLower p.2 ∧
        toLower p.2 ≠ b!"extrinsicsignature" ∧ toLower p.2 ≠ b!"extrinsicsigner" := by decide
    obtain ⟨h1, h2, h3, h4⟩ := rest _ hi
    exact ⟨hnames, h1, h2, h3, h4⟩
  fresh := by
    intro i n h hne
    have hi := (over_names i n h).resolve_left hne
    rw [startReg_fast]
    exact (by decide +kernel : ∀ p ∈ [(0, b!"Approval"), (2, b!"p:C")], fastReg (toLower p.2) = none) _ hi
  tuples := by
    have none : ∀ i ks, (over.types i).typ ≠ .tuple ks := over_cases (fun _ h => by cases h) (fun _ h => by cases h) (fun _ h => by cases h)
      fun _ _ h => by cases h
    intro i j ks ls ts us h
    exact absurd h (none i ks)
  freshTuples := fun _ _ _ _ _ _ => start_tuples _
  closed := by
    intro i hi
    obtain ⟨k, rfl⟩ := Nat.exists_eq_add_of_le' hi
    rfl

/-- What the call of the pallet is entered as. -/
def overEntry : CallEntry := ⟨b!"go", b!"Assets", [(b!"x", b!"Approval")]⟩

/-- Its argument is read as a struct of the library, which has other fields. -/
theorem over_done : ∃ st, processSiType overCfg 5 startReg = .ok st ∧ siText st.ids 0 = b!"Approval" ∧
    ∀ (md : MD) (n : Nat), md.callIndex b!"0000" = some overEntry → pau (registerOriginCaller st.reg.env [(b!"Assets", 0)]) (n + 40)
      ⟨[], 0, some md⟩ b!"Call" ⟨⟨[0, 0, 1, 0, 2, 0], 0⟩, []⟩ =
        .ok (callVal 0 0 overEntry [.map [(b!"amount", .uint 8 131073), (b!"deposit", .dec 0 0)]], ⟨⟨[0, 0, 1, 0, 2, 0], 6⟩, [b!"000001000200"]⟩) := by
  rw [startReg_fast]
  refine ⟨_, rfl, rfl, fun md n hk => ?_⟩
  generalize hE : registerOriginCaller _ [(b!"Assets", 0)] = env
  have h1 : pau env (n + 40) ⟨[], 0, some md⟩ b!"Call" ⟨⟨[0, 0, 1, 0, 2, 0], 0⟩, []⟩ =
      processCall (pau env (n + 39)) ⟨[], 0, some md⟩ ⟨⟨[0, 0, 1, 0, 2, 0], 0⟩, []⟩ := by
    subst hE
    kernel_rfl
  have h2 : nextBytes 2 ⟨⟨[0, 0, 1, 0, 2, 0], 0⟩, []⟩ = .ok ([0, 0], ⟨⟨[0, 0, 1, 0, 2, 0], 2⟩, []⟩) := rfl
  rw [h1]
  unfold processCall
  rw [h2, Res.ok_bind]
  simp only [show bytesToHex [0, 0] = b!"0000" by decide, hk]
  subst hE
  refine Eq.trans (b := Res.ok _) ?_ rfl
  kernel_rfl

theorem over_understood {st : SiState} (h : processSiType overCfg 5 startReg = .ok st) :
    Understood overTypes 0 startReg overDup (· = 1) 5 st := by
  constructor <;> rw [over_wire]
  · rfl
  · exact over_early
  · exact over_tidy
  · exact h

theorem over_variants : VariantType overTypes 2 [⟨b!"go", [⟨some b!"x", 0, none, []⟩], 0, []⟩] := ⟨_, by simp [overTypes]; rfl, rfl⟩

theorem over_regular : Regular overTypes overPallets where
  numbered := rfl
  pallets := by decide
  calls := by
    intro x hx i hi
    simp only [overPallets, List.mem_cons, List.not_mem_nil, or_false] at hx
    subst hx
    cases hi
    exact ⟨_, over_variants, by decide⟩
  events := by simp [overPallets]
  errors := by simp [overPallets]
  constants := by simp [overPallets]
  keys := by simp [overPallets]

theorem over_written : ∃ b, Written14 overTypes overPallets 0 4 [] b ∧ b.length < 2 ^ 63 := by
  have sm : ∀ n : Nat, n < 64 → Spec.IsCompact n [UInt8.ofNat (4 * n)] := fun n h => .inl ⟨h,
    (by decide : ∀ n < 64, [UInt8.ofNat (4 * n)] = Spec.leBytes 1 (4 * n)) n h⟩
  have no : ∀ {α : Type} {P : α → Str → Prop}, WList P [] [0] := ⟨_, _, sm 0 (by decide), rfl, rfl⟩
  have tx : ∀ s : Str, s.length < 64 → WText s ([UInt8.ofNat (4 * s.length)] ++ s) := fun s h => ⟨_, sm _ h, rfl⟩
  have c0 := sm 0 (by decide)
  refine ⟨_, ⟨⟨_, _, _, ⟨_, _, sm 3 (by decide),
      ⟨_, _, ⟨_, _, c0, ⟨_, _, _, _, ⟨_, _, sm 1 (by decide), ⟨_, _, tx _ (by decide), rfl, rfl⟩, rfl⟩, no,
          ⟨_, ⟨_, _, sm 2 (by decide), ⟨_, _, ⟨_, _, _, _, ⟨_, tx _ (by decide), rfl⟩, sm 1 (by decide), rfl, no, rfl⟩,
            ⟨_, _, ⟨_, _, _, _, ⟨_, tx _ (by decide), rfl⟩, sm 1 (by decide), rfl, no, rfl⟩, rfl, rfl⟩, rfl⟩, rfl⟩, rfl⟩, no, rfl⟩, rfl⟩,
        ⟨_, _, ⟨_, _, sm 1 (by decide), ⟨_, _, _, _, no, no, rfl, no, rfl⟩, rfl⟩,
          ⟨_, _, ⟨_, _, sm 2 (by decide), ⟨_, _, _, _, ⟨_, _, sm 2 (by decide), ⟨_, _, tx _ (by decide), ⟨_, _, tx _ (by decide), rfl, rfl⟩, rfl⟩, rfl⟩, no,
            ⟨_, ⟨_, _, sm 1 (by decide), ⟨_, _, ⟨_, _, _, tx _ (by decide), ⟨_, _, sm 1 (by decide),
              ⟨_, _, ⟨_, _, _, _, ⟨_, tx _ (by decide), rfl⟩, c0, rfl, no, rfl⟩, rfl, rfl⟩, rfl⟩, no, rfl⟩, rfl, rfl⟩, rfl⟩, rfl⟩, no, rfl⟩, rfl⟩,
            rfl, rfl⟩, rfl⟩, rfl⟩, rfl⟩,
    ⟨_, _, sm 1 (by decide), ⟨_, _, ⟨_, _, _, _, _, _, tx _ (by decide), rfl, ⟨_, sm 2 (by decide), rfl⟩, rfl, no, rfl, rfl⟩, rfl, rfl⟩, rfl⟩,
    ⟨_, _, c0, no, rfl⟩, rfl⟩, ?_, ?_, ?_, by decide, ?_⟩, ?_⟩
  · simp [FRegistry, overTypes, FList, FId, FText, _root_.Spec.FType, _root_.Spec.FDef, _root_.Spec.FField, _root_.Spec.FVariant]
  · simp [overPallets, FPallet, FList, FText, FId]
  · simp [FId]
  · simp [FList]
  · decide

theorem over_value : Scale (Covered over (· = 1)) (SupportedBy fun _ => True) 0 (.map [(b!"a", .uint 2 1), (b!"b", .uint 2 2)])
    (.map [(b!"a", .uint 2 1), (b!"b", .uint 2 2)]) [1, 0, 2, 0] := by
  have hc : Covered over (· = 1) 0 (.struct [(b!"a", 1), (b!"b", 1)]) := by
    refine .own ⟨by decide, by decide⟩ (.inl ⟨_, rfl, by decide, ?_⟩) (OwnShape.struct (fs := [⟨b!"a", 1, []⟩, ⟨b!"b", 1, []⟩]) rfl)
    have := over_paths 0
    unfold IsWrapper
    generalize (over.types 0).path = q at this
    revert q
    decide
  have hu : Covered over (· = 1) 1 (.uint 2) := .primitive rfl rfl (by decide) (by simp [_root_.Spec.primitiveShapes])
  refine Scale.struct [⟨b!"a", 1, .uint 2 1, .uint 2 1, [1, 0]⟩, ⟨b!"b", 1, .uint 2 2, .uint 2 2, [2, 0]⟩] hc (by decide) (by decide) (by simp) ?_
  intro p hp
  simp only [List.mem_cons, List.not_mem_nil, or_false] at hp
  rcases hp with rfl | rfl
  · exact .leaf hu ⟨1, by decide, rfl, rfl, rfl, by decide⟩ trivial
  · exact .leaf hu ⟨2, by decide, rfl, rfl, rfl, by decide⟩ trivial

/-- The decoded argument has the fields of the replacement. -/
theorem C81_claim_false : ¬ C81Claim := by
  intro h
  obtain ⟨st, hs, ht, hd⟩ := over_done
  obtain ⟨b, hb, hl⟩ := over_written
  have hU := over_understood hs
  obtain ⟨out, h1, h2, h3⟩ := h startReg 0 none overTypes overPallets 0 4 [] b _ _ 5 st start_ready hb over_regular hU
  obtain ⟨out', h1', -, h3'⟩ := C79_partial startReg 0 none overTypes overPallets 0 4 [] b _ _ 5 st start_ready hb over_regular hU
  cases settles_unique hl h1 h1'
  have hw := h3 ⟨14, out.callIndex, out.eventIndex, none⟩ ⟨by show (14 : Int) ≤ 14; decide, rfl, rfl⟩
  have hcall : IsCallOf overTypes overPallets ⟨b!"Assets", none, some 2, none, [], none, 0⟩ ⟨b!"go", [⟨some b!"x", 0, none, []⟩], 0, []⟩ 0 0 :=
    ⟨by simp [overPallets], rfl, 2, _, rfl, over_variants, by simp, rfl⟩
  have e0 : out.callIndex b!"0000" = some overEntry := by
    have := (h2.calls 0 0 _).2 (described_call (ids := st.ids) hcall)
    rw [show _root_.Spec.hexText [0, 0] = b!"0000" by decide] at this
    rw [this]
    simp only [wireCall, overEntry, List.map_cons, List.map_nil, ht]
    rfl
  have hv : Scale (Covered { wireCfg overTypes 0 with dup := overDup } (· = 1)) (SupportedBy fun _ => True) 0
      (.map [(b!"a", .uint 2 1), (b!"b", .uint 2 2)]) (.map [(b!"a", .uint 2 1), (b!"b", .uint 2 2)]) [1, 0, 2, 0] := by
    rw [over_wire]
    exact over_value
  obtain ⟨N, hN⟩ := hw.decode _ _ 0 0 [(_, _, _)] hcall trivial (.cons ⟨by decide, hv⟩ .nil) [] 0
  have e1 := hN (N + 40) (by omega) [] [] [] (by decide)
  rw [h3', show overPallets.map (fun x => (keptText x.name, x.index)) = [(b!"Assets", 0)] by decide] at e1
  have e2 := hd ⟨14, out.callIndex, out.eventIndex, none⟩ N e0
  have e3 := e1.symm.trans e2
  have e4 := congrArg Prod.fst (Res.ok.inj e3)
  have e5 := (Val.map.inj e4)
  simp [wireCall, overEntry] at e5

/-! ## The hypotheses are met -/

theorem demo_untouched (x : WPallet) : Untouched demo (keptText x.name) := by
  intro i n hn hne
  have hi := (demo_names i n hn).resolve_left hne
  have key : ∀ p ∈ [(0, b!"a:S"), (1, b!"a:P"), (4, b!"a:E")], NeverOverridden p.2 := by decide +kernel
  exact (key _ hi).apply _

theorem demo_variants : VariantType demoTypes 4 [⟨b!"A", [], 2, []⟩, ⟨b!"B", [⟨none, 0, none, []⟩], 0, []⟩,
    ⟨b!"C", [⟨some b!"x", 3, none, []⟩, ⟨some b!"y", 5, none, []⟩], 7, []⟩] := ⟨_, by simp [demoTypes]; rfl, rfl⟩

/-- The call `C(5, Some([255]))` of the pallet 5. -/
theorem demo_arguments : Arguments (Covered demo demoEarly) demoTypes ⟨b!"C", [⟨some b!"x", 3, none, []⟩, ⟨some b!"y", 5, none, []⟩], 7, []⟩
    [(.uint 2 5, .uint 2 5, [5, 0]), (.str b!"0xff", .str b!"0xff", [1, 4, 255])] := by
  refine .cons ⟨by decide, .leaf demo_u16 ⟨5, by decide, rfl, rfl, rfl, by decide⟩ trivial⟩ (.cons ⟨by decide, ?_⟩ .nil)
  have ht : ¬ _root_.Spec.IsText [255] := by decide
  refine .some demo_option (.leaf demo_bytes ⟨[4], [255], by decide, .inl ⟨by decide, by decide⟩, ?_, rfl, rfl⟩ ?_) ?_
  · rw [shown, if_neg (fun h => ht h.2)]
    rfl
  · intro c p e hc
    obtain ⟨_, rfl, rfl⟩ := isCompact_prefix (m := 1) (b := [4]) (.inl ⟨by decide, by decide⟩) hc (x := [255]) (y := p) e
    exact ⟨by decide, fun h => ht h.2.1, fun h => by cases h.1⟩
  · unfold SupportedBy CountsAsNone
    simp

/-- With the metadata of the example of C79 the call is encoded to seven bytes which decode to it, and a record of the event
`B(S { n: 515, kids: [] })` of the pallet 9, applied by extrinsic 7, with one topic, is read as this event. -/
example : ∃ b out, Settles (fun n => processV14 n startReg ⟨[], 0, none⟩) b out ∧ ∀ md, Uses md out →
    Encodes out.reg.env ⟨0, some md⟩ b!"Call" (.boxCall b!"0507" [.uint 2 5, .str b!"0xff"] []) [5, 7, 5, 0, 1, 4, 255] ∧
    Decodes out.reg.env ⟨[], 0, some md⟩ b!"Call" [5, 7, 5, 0, 1, 4, 255] (callVal 5 7
      ⟨b!"C", b!"Left", [(b!"x", b!"U16"), (b!"y", b!"option<Vec<U8>>")]⟩ [.uint 2 5, .str b!"0xff"]) [b!"050705000104ff"] ∧
    ∃ N ev, ∀ fuel, N ≤ fuel → decodeEvents out.reg.env fuel 0 md [] ([4, 0, 7, 0, 0, 0, 9, 0, 3, 2, 0, 4] ++ List.replicate 32 1) =
      .ok ([ev], ⟨⟨[4, 0, 7, 0, 0, 0, 9, 0, 3, 2, 0, 4] ++ List.replicate 32 1, 44⟩, []⟩) ∧ ev.eventId = b!"B" ∧ ev.extrinsicIdx = 7 ∧
        ev.params = [(b!"a:S", [], demoKidOut)] := by
  obtain ⟨st, hs, h3, h0, h5⟩ := demo_done
  obtain ⟨b, hb⟩ := demo_written
  obtain ⟨out, h1, -, h2⟩ := C81_v14_partial startReg 0 none _ _ _ _ _ b _ _ 5 st start_ready hb demo_regular (demo_understood hs)
  have t3 : siText st.ids 3 = b!"U16" := by unfold siText; rw [h3]; rfl
  have t0 : siText st.ids 0 = b!"a:S" := by unfold siText; rw [h0]; rfl
  have t5 : siText st.ids 5 = b!"option<Vec<U8>>" := by unfold siText; rw [h5]; rfl
  refine ⟨b, out, h1, fun md hm => ?_⟩
  have hw := h2 md hm
  rw [demo_wire] at hw
  have hc : IsCallOf demoTypes demoPallets _ _ 5 7 := ⟨List.mem_cons_self, rfl, 4, _, rfl, demo_variants,
    List.mem_cons_of_mem _ (List.mem_cons_of_mem _ List.mem_cons_self), rfl⟩
  have hcr : IsEventOf demoTypes demoPallets _ _ 9 0 := ⟨List.mem_cons_of_mem _ List.mem_cons_self, rfl, 4, _, rfl, demo_variants,
    List.mem_cons_of_mem _ List.mem_cons_self, rfl⟩
  refine ⟨hw.encode _ _ 5 7 _ hc (demo_untouched _) demo_arguments 0 _ _ _ (.inl (by decide)) (.inl ⟨rfl, rfl⟩), ?_, ?_⟩
  · have := hw.decode _ _ 5 7 _ hc (demo_untouched _) demo_arguments [] 0
    rw [show wireCall st.ids _ _ = ⟨b!"C", b!"Left", [(b!"x", b!"U16"), (b!"y", b!"option<Vec<U8>>")]⟩ from ?_] at this
    · exact this
    · simp [wireCall, fieldName, t3, t5]
      decide +kernel
  · let ev : Event := ⟨0, 0, 7, b!"0900", b!"Right", b!"B", [(b!"a:S", [], demoKidOut)], [b!"0x" ++ _root_.Spec.hexText (List.replicate 32 1)], b!"030200"⟩
    obtain ⟨N, h⟩ := hw.events [([0, 7, 0, 0, 0, 9, 0, 3, 2, 0, 4] ++ List.replicate 32 1, ev)] (by
        intro r hr
        simp only [List.mem_cons, List.not_mem_nil, or_false] at hr
        subst hr
        refine ⟨_, _, 9, 0, [(demoKid, demoKidOut, [3, 2, 0])], [0, 7, 0, 0, 0], [4], [List.replicate 32 1], hcr, demo_untouched _,
          .cons ⟨by decide, demo_leaf 515 (by decide)⟩ .nil, .inl ⟨7, by decide, by decide, rfl, rfl⟩, by simp, by simp, .inl ⟨by decide, by decide⟩,
          by decide, by decide, by decide, by decide, ?_, rfl, by decide⟩
        simp [ev, t0, fieldName]) rfl 0 [] [4] [] (.inl ⟨by decide, by decide⟩) (by simp) (by simp)
    exact ⟨N, ev, fun fuel hf => ⟨h fuel hf, rfl, rfl, rfl⟩⟩

end ScaleGo
