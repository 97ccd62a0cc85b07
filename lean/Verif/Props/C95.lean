import Verif.Lemmas.SignedTypes
import Verif.Props.C81

/-! # C95: signed extrinsics follow the metadata

English claim: once metadata of version 14 or 15 has been read, an extrinsic that is signed as the metadata describes is encoded as its
length, the version, the SCALE encodings of signer, signature, era, nonce, tip and of the extensions that carry data, and the call;
these bytes decode to the same parts.

The types of signer and signature are, in version 14, the parameters `Address` and `Signature` of the type of extrinsics; version 15
lists them. -/

namespace ScaleGo
open _root_.Spec (Shape Scale WPallet PType PVariant WExtension)
open ScaleGo.Spec

/-! ## What the metadata says -/

/-- The extension that carries the tip. -/
def payment : Str := b!"ChargeTransactionPayment"

/-- The extensions with data of their own beside the tip. -/
def dataExts (opt : ExtOpt) (xs : List WExtension) : List WExtension :=
  xs.filter fun x => decide (Enabled opt (keptText x.identifier) ∧ keptText x.identifier ≠ payment)

/-- The parts of the signature of `g` are encoded as the types `a` of signers, `s` of signatures and those of the extensions demand. -/
structure SignedAs (R : Nat → Shape Nat → Prop) (l : List (Nat × PType)) (xs : List WExtension) (ids : Nat → Option Str) (a s : Nat) (opt : ExtOpt)
    (g : ExtrinsicIn) (p : SignedParts) (ys : List ExtItem) : Prop where
  signer : Scale R (SupportedBy fun _ => True) a g.signer p.signer p.signerB
  sig : Scale R (SupportedBy fun _ => True) s g.signatureRaw p.sig p.sigB
  text : p.sig = .str p.sigText ∨ ∃ n, p.sig = .map [(n, .str p.sigText)]
  era : g.era = _root_.Spec.hexText p.eraB ∧ (p.eraB = [0] ∨ ∃ x y, x ≠ 0 ∧ p.eraB = [x, y])
  nonce : ∃ n : Nat, g.nonce = n ∧ n < 2 ^ 63 ∧ _root_.Spec.IsCompact n p.nonceB
  tip : ∃ n : Nat, g.tip = ((n : Int), 0) ∧ n < 2 ^ 128 - 1 ∧ _root_.Spec.IsCompact n p.tipB
  paid : payment ∈ xs.map (fun x => keptText x.identifier) ∨ g.tip = (0, 0)
  given : g.extensions = ys.map fun y => (y.name, y.value)
  exts : List.Forall₂ (fun x y => y.name = keptText x.identifier ∧ y.type = siText ids x.type ∧ x.type < l.length ∧
    Scale R (SupportedBy fun _ => True) x.type y.value y.decoded y.bytes) (dataExts opt xs) ys

/-- Signed extrinsics with calls of the pallets with `ok` follow the metadata. -/
def Signs (R : Nat → Shape Nat → Prop) (l : List (Nat × PType)) (ps : List WPallet) (xs : List WExtension) (ok : WPallet → Prop)
    (okX : ExtOpt → ExtrinsicIn → Prop) (ids : Nat → Option Str) (env : Env) (md : MD) (a s : Nat) : Prop :=
  ∀ x v i j as, IsCallOf l ps x v i j → ok x → Arguments R l v as → ∀ spec opt (g : ExtrinsicIn) p ys, opt.module = [] → opt.signedExtensions = [] →
    okX opt g → g.version = b!"84" → g.callCode = _root_.Spec.hexText [i, j] → g.params = as.map (fun a => a.1) → SignedAs R l xs ids a s opt g p ys →
    (argBytes as).length + p.signerB.length + p.sigB.length + p.eraB.length + p.nonceB.length + p.tipB.length + (ys.map (·.bytes)).flatten.length <
      2 ^ 61 →
    RoundTrips env spec md opt g (wireCall ids x v) (as.map Arg.item) (some (p, ys))

/-- The metadata as used for signed extrinsics. -/
def UsesAll (md : MD) (out : V14Out) : Prop := Uses md out ∧ md.extrinsic = some out.extrinsic

/-- The names of the extensions differ. -/
def Named (xs : List WExtension) : Prop := (xs.map fun x => keptText x.identifier).Nodup

/-- The types as kept have the parameter `name`, and it is the type `p`. -/
def HasParam (t : SiType) (name : Str) (p : Nat) : Prop :=
  (∃ q ∈ t.params, _root_.Spec.asciiLower q.1 = name) ∧ ∀ q ∈ t.params, _root_.Spec.asciiLower q.1 = name → q.2 = p

/-- The library when metadata is to be used for signed extrinsics. -/
structure SignReady (reg : RegState) : Prop extends MetaReady reg where
  words : ∀ p ∈ [(b!"eraextrinsic", Cls.era), (b!"balance", .balance), (b!"u64", .u64), (b!"compact", .compact [])], reg.env.reg p.1 = some p.2
  compacts : ∀ k ∈ [b!"compact<u64>", b!"compact<balance>"], reg.env.reg k = none

/-- V15 metadata that is understood serves extrinsics with its signers and signatures. -/
def C95Claim : Prop :=
  ∀ (reg : RegState) (spec : Int) (md0 : Option MD) (x : W15) (b : Str) (dup : Str → Nat) (A : Nat → Prop) (fuel : Nat) (st : SiState),
    SignReady reg → x.Fits → EncW15 x b → Regular x.types (x.pallets.map Prod.fst) → Understood x.types spec reg dup A fuel st →
    Named x.extensions → ∃ out, Settles (fun n => processV15 n reg ⟨[], spec, md0⟩) b out ∧ Described15 false x st.ids out ∧
      ∀ md, UsesAll md out.toV14Out →
      Signs (Covered { wireCfg x.types spec with dup := dup } A) x.types (x.pallets.map Prod.fst) x.extensions
        (fun p => Untouched { wireCfg x.types spec with dup := dup } (keptText p.name)) (fun _ _ => True) st.ids out.reg.env md x.address x.signature

/-! ## What holds -/

/-- Among the types is the extrinsic of `sp_runtime`; all such types have the same signers and signatures, of types other than the
unit and results. -/
structure Signing (cfg : SiCfg) (A : Nat → Prop) (l : List (Nat × PType)) (a s : Nat) : Prop where
  known : ∃ i t fs, (i, t) ∈ l ∧ IsExtrinsic (keptType t) ∧ t.typ = .composite fs
  address : ∀ i t, (i, t) ∈ l → IsExtrinsic (keptType t) → HasParam (keptType t) b!"address" a
  signature : ∀ i t, (i, t) ∈ l → IsExtrinsic (keptType t) → HasParam (keptType t) b!"signature" s
  aliased : ∀ sh, Covered cfg A a sh ∨ Covered cfg A s sh → Aliased cfg A sh

/-- The tip comes first. -/
def PaysFirst (xs : List WExtension) (opt : ExtOpt) : Prop :=
  payment ∈ xs.map (fun x => keptText x.identifier) →
    ∃ x rest, xs.filter (fun x => decide (Enabled opt (keptText x.identifier))) = x :: rest ∧ keptText x.identifier = payment

/-- Tips that the encoder writes correctly: see C16. -/
def TipWritten (g : ExtrinsicIn) : Prop := g.tip.1 < 2 ^ 30 ∨ 2 ^ 30 ≤ g.tip.1 % 2 ^ 64 ∧ g.tip.1 % 2 ^ 64 < 2 ^ 63

theorem hasParam_find {t : SiType} {name low : Str} {p : Nat} (hl : toLower name = low) (h : HasParam t low p) : findParameter name t.params = some p := by
  obtain ⟨h1, h2⟩ := h
  revert h1 h2
  generalize t.params = l
  intro h1 h2
  induction l with
  | nil => simp at h1
  | cons q l ih =>
    obtain ⟨n, x⟩ := q
    unfold findParameter
    by_cases e : equalFold n name = true
    · rw [if_pos e]
      have : _root_.Spec.asciiLower n = low := by
        unfold equalFold at e
        rw [beq_iff_eq] at e
        rw [← hl, ← e, toLower_eq_spec]
      exact congrArg some (h2 (n, x) List.mem_cons_self this)
    · rw [if_neg e]
      have hne : _root_.Spec.asciiLower n ≠ low := by
        intro h
        apply e
        unfold equalFold
        rw [beq_iff_eq, hl, ← h, toLower_eq_spec]
      refine ih ?_ fun q hq => h2 q (List.mem_cons_of_mem _ hq)
      obtain ⟨q, hq, h⟩ := h1
      rcases List.mem_cons.1 hq with rfl | hq
      · exact absurd h hne
      · exact ⟨q, hq, h⟩

section
variable {l : List (Nat × PType)} {ps : List WPallet} {spec0 : Int} {reg : RegState} {dup : Str → Nat} {A : Nat → Prop} {fuel : Nat}
  {st : SiState} {o : List (Str × Nat)} (hr : SignReady reg) (hU : Understood l spec0 reg dup A fuel st)
include hr hU

/-- Values of signers and signatures under the names of their types. -/
theorem origin_param (hn : l.map Prod.fst = List.range l.length) {a s : Nat} (hS : Signing { wireCfg l spec0 with dup := dup } A l a s)
    {key : Str} {p : Nat} (hk : key = b!"ExtrinsicSignature" ∧ p = s ∨ key = b!"ExtrinsicSigner" ∧ p = a)
    {ctx : Ctx} (hc : ctx.module = []) (ectx : ECtx) {v r : Val} {b : Str}
    (hs : Scale (Covered { wireCfg l spec0 with dup := dup } A) (SupportedBy fun _ => True) p v r b) :
    ((registerOriginCaller st.reg.env o).reg (toLower key)).isSome = true ∧ Encodes (registerOriginCaller st.reg.env o) ectx key v b ∧
      Decodes (registerOriginCaller st.reg.env o) ctx key b r [] := by
  have hnd : (l.map Prod.fst).Nodup := by rw [hn]; exact List.nodup_range
  have hlook := C77_lookup l hnd
  have hal : ∀ sh, Covered { wireCfg l spec0 with dup := dup } A p sh → Aliased { wireCfg l spec0 with dup := dup } A sh := by
    intro sh h
    rcases hk with ⟨-, rfl⟩ | ⟨-, rfl⟩
    · exact hS.aliased sh (.inr h)
    · exact hS.aliased sh (.inl h)
  have hpar : ∀ {i t name}, (i, t) ∈ l → IsExtrinsic (keptType t) → ParamKey key name → findParameter name (keptType t).params = some p := by
    intro i t name hm hx hkn
    rcases hk with ⟨rfl, rfl⟩ | ⟨rfl, rfl⟩ <;> rcases hkn with ⟨h1, rfl⟩ | ⟨h1, rfl⟩
    · exact hasParam_find (by decide) (hS.signature _ _ hm hx)
    · exact absurd h1 (by decide)
    · exact absurd h1 (by decide)
    · exact hasParam_find (by decide) (hS.address _ _ hm hx)
  have huniq : ∀ i, ParamOf { wireCfg l spec0 with dup := dup } key i → i = p := by
    rintro i ⟨x, name, hx, hkn, hf⟩
    by_cases hm : x ∈ l.map Prod.fst
    · obtain ⟨q, hq, rfl⟩ := List.mem_map.1 hm
      have e : (portableCfg (kept l)).types q.1 = keptType q.2 := hlook.1 _ hq
      change IsExtrinsic ((portableCfg (kept l)).types q.1) at hx
      change findParameter name ((portableCfg (kept l)).types q.1).params = some i at hf
      rw [e] at hx hf
      rw [hpar hq hx hkn] at hf
      exact (Option.some.inj hf).symm
    · have e : (portableCfg (kept l)).types x = {} := hlook.2.1 _ hm
      change IsExtrinsic ((portableCfg (kept l)).types x) at hx
      rw [e] at hx
      exact absurd hx.1 (by decide)
  obtain ⟨i, t, fs, hm, hx, ht⟩ := hS.known
  have e : (portableCfg (kept l)).types i = keptType t := hlook.1 _ hm
  have hdone := hU.done
  unfold processSiType at hdone
  rw [hU.counted] at hdone
  have hi : i < (portableCfg (kept l)).count := by
    rw [hlook.2.2, ← List.mem_range, ← hn]
    exact List.mem_map.2 ⟨_, hm, rfl⟩
  have hp := process_params hU.early hdone hU.tidy hr.stock (fun _ => hr.unseen) hi (x := i) (by
    show IsExtrinsic ((portableCfg (kept l)).types i)
    rw [e]; exact hx) (fs := fs.map keptField) (by
    show ((portableCfg (kept l)).types i).typ = _
    rw [e]
    show keptDef t.typ = _
    rw [ht]; rfl)
  obtain ⟨sh, hcov⟩ : ∃ sh, Covered { wireCfg l spec0 with dup := dup } A p sh := by cases hs <;> exact ⟨_, ‹_›⟩
  have key' : ∃ name, ParamKey key name := by
    rcases hk with ⟨rfl, -⟩ | ⟨rfl, -⟩
    · exact ⟨_, .inl ⟨rfl, rfl⟩⟩
    · exact ⟨_, .inr ⟨rfl, rfl⟩⟩
  obtain ⟨name, hkn⟩ := key'
  obtain ⟨c, hc1, hc2⟩ := hp (by
    show IsExtrinsic ((portableCfg (kept l)).types i)
    rw [e]; exact hx) key name p hkn (by
    show findParameter name ((portableCfg (kept l)).types i).params = _
    rw [e]; exact hpar hm hx hkn) sh hcov (hal sh hcov)
  have hL := (hU.loaded hr.toReady).origin hU.tidy hr.origin o
  have hc3 : (registerOriginCaller st.reg.env o).reg (toLower key) = some c := by
    have e : ∀ k, (registerOriginCaller st.reg.env o).reg k =
      if k = b!"origincaller" then some (.enum [] (some (originRows (sortBy (·.2) o) []))) else st.reg.env.reg k := fun k => rfl
    rw [e, if_neg, hc1]
    rcases hk with ⟨rfl, -⟩ | ⟨rfl, -⟩ <;> decide
  refine ⟨by rw [hc3]; rfl, ?_⟩
  obtain ⟨h1, h2⟩ := len_ok hU.tidy hr.stock hL hr.special (ctx := ctx)
  exact C28_partial _ _ _ (HasShape (registerOriginCaller st.reg.env o) ctx ectx) h1 h2 (fun _ _ h => h) _ _ _ _
    (scale_param hU.tidy hr.stock hL hr.special hr.rows (by rw [hc]; exact fun _ _ _ _ => notOverridden_nil _) (hk.imp And.left And.left)
      huniq hal hc3 hc2 hs)

/-- A word of the library that metadata does not replace. -/
theorem sign_word {t : Str} {c : Cls} (h1 : (toLower t, c) ∈ [(b!"eraextrinsic", Cls.era), (b!"balance", .balance), (b!"u64", .u64), (b!"compact", .compact [])])
    (h2 : convertType t = t) (hl : Lasting (toLower t)) (m : Str) (spec : Int) (h3 : NotOverridden m t) :
    Resolves (registerOriginCaller st.reg.env o) m spec t c [] := by
  have hL := (hU.loaded hr.toReady).origin hU.tidy hr.origin o
  have hne : t ≠ [] := by rintro rfl; exact hl.1 rfl
  exact looksUp_entry hL hr.special h2 hne (hL.kept _ _ (hr.words _ h1) hl) m spec (by rw [h2]; exact h3)

/-- The compact integers of a signature. -/
theorem sign_compact {a : Str} (ha : a = b!"U64" ∨ a = b!"Balance") (m : Str) (spec : Int) :
    Resolves (registerOriginCaller st.reg.env o) m spec (generic b!"Compact" a) (.compact []) a := by
  have hL := (hU.loaded hr.toReady).origin hU.tidy hr.origin o
  have hk : (registerOriginCaller st.reg.env o).reg b!"compact" = some (.compact []) :=
    hL.kept _ _ (hr.words (b!"compact", .compact []) (by decide +kernel)) (by decide +kernel)
  have hv : Verbatim (generic b!"Compact" a) := by
    rcases ha with rfl | rfl
    · exact ⟨⟨⟨67, b!"ompact<U64>", rfl, rfl⟩, 62, b!"Compact<U64", rfl, rfl⟩, by decide, by decide, by decide, by decide⟩
    · exact ⟨⟨⟨67, b!"ompact<Balance>", rfl, rfl⟩, 62, b!"Compact<Balance", rfl, rfl⟩, by decide, by decide, by decide, by decide⟩
  refine looksUp_wrapper hL hr.special (w := b!"Compact") (by decide) (by decide +kernel) (by rcases ha with rfl | rfl <;> decide) hv ?_ hk m spec ?_
  · rw [hL.generics _ (.inl ?_) ?_ ?_]
    · rcases ha with rfl | rfl
      · exact hr.compacts b!"compact<u64>" (by decide +kernel)
      · exact hr.compacts b!"compact<balance>" (by decide +kernel)
    all_goals rcases ha with rfl | rfl <;> decide
  · rcases ha with rfl | rfl
    · exact (by decide +kernel : NeverOverridden (convertType (generic b!"Compact" b!"U64"))).apply m
    · exact (by decide +kernel : NeverOverridden (convertType (generic b!"Compact" b!"Balance"))).apply m

end

theorem filter_first {α : Type} {f : α → Str} {e : α → Prop} [DecidablePred e] {key : Str} {l : List α} {x : α} {rest : List α}
    (hn : (l.map f).Nodup) (h : l.filter (fun a => decide (e a)) = x :: rest) (hx : f x = key) :
    l.filter (fun a => decide (e a ∧ f a ≠ key)) = rest := by
  have h1 : l.filter (fun a => decide (e a ∧ f a ≠ key)) = (x :: rest).filter (fun a => decide (f a ≠ key)) := by
    rw [← h, List.filter_filter]
    congr 1
    funext a
    by_cases e1 : e a <;> by_cases e2 : f a = key <;> simp [e1, e2]
  rw [h1, List.filter_cons, if_neg (by simp [hx]), List.filter_eq_self]
  intro a ha
  have hn2 : ((x :: rest).map f).Nodup := by
    rw [← h]
    exact hn.sublist (List.filter_sublist.map _)
  rw [List.map_cons, List.nodup_cons] at hn2
  simp only [decide_eq_true_eq]
  intro e
  exact hn2.1 (List.mem_map.2 ⟨a, ha, e.trans hx.symm⟩)

/-- Whatever describes the metadata in the output, signed extrinsics follow it. -/
theorem signs_of {check : Bool} {l : List (Nat × PType)} {ps : List WPallet} {xs : List WExtension} {spec0 : Int} {reg : RegState} {dup : Str → Nat}
    {A : Nat → Prop} {fuel : Nat} {st : SiState} {o : List (Str × Nat)} (hr : SignReady reg) (hU : Understood l spec0 reg dup A fuel st) (hR : Regular l ps)
    (hN : Named xs) {a s : Nat} (hS : Signing { wireCfg l spec0 with dup := dup } A l a s) {out : V14Out} (hD : DescribedOut check l ps xs st.ids out)
    (ho : out.reg.env = registerOriginCaller st.reg.env o) (md : MD) (hm : UsesAll md out) :
    Signs (Covered { wireCfg l spec0 with dup := dup } A) l ps xs (fun x => Untouched { wireCfg l spec0 with dup := dup } (keptText x.name))
      (fun opt g => PaysFirst xs opt ∧ TipWritten g) st.ids out.reg.env md a s := by
  intro x v i j as hcall hok has spec opt g p ys hmod hopt hokx hver hcode hpar hp hlen
  obtain ⟨⟨hv14, hc, -⟩, hx⟩ := hm
  have hext := hD.extrinsic
  have hL := (hU.loaded hr.toReady).origin hU.tidy hr.origin o
  have hkn : md.callIndex (_root_.Spec.hexText [i, j]) = some (wireCall st.ids x v) := by
    rw [hc]
    exact (hD.calls i j _).2 (described_call hcall)
  have hsigner := fun ectx ctx (h : ctx.module = []) => origin_param hr hU (o := o) hR.numbered hS (.inr ⟨rfl, rfl⟩) (ctx := ctx) h ectx hp.signer
  have hsig := fun ectx ctx (h : ctx.module = []) => origin_param hr hU (o := o) hR.numbered hS (.inl ⟨rfl, rfl⟩) (ctx := ctx) h ectx hp.sig
  have hera := fun m sp => sign_word hr hU (o := o) (t := b!"EraExtrinsic") (c := .era) (by decide +kernel) (by kernel_rfl) (by decide +kernel) m sp
    ((by decide +kernel : NeverOverridden b!"EraExtrinsic").apply m)
  have hu64 := sign_word hr hU (o := o) (t := b!"U64") (c := .u64) (by decide +kernel) (by kernel_rfl) (by decide +kernel) [] 0 (notOverridden_nil _)
  have hbal := sign_word hr hU (o := o) (t := b!"Balance") (c := .balance) (by decide +kernel) (by kernel_rfl) (by decide +kernel) [] 0 (notOverridden_nil _)
  have hcn := sign_compact hr hU (o := o) (a := b!"U64") (.inl rfl)
  have hct := sign_compact hr hU (o := o) (a := b!"Balance") (.inr rfl)
  have e1 : encSignerType (registerOriginCaller st.reg.env o) md = b!"ExtrinsicSigner" :=
    if_pos ⟨hv14, (hsigner ECtx.none ⟨[], 0, none⟩ rfl).1⟩
  have e2 : signerType (registerOriginCaller st.reg.env o) md = b!"ExtrinsicSigner" :=
    if_pos ⟨hv14, (hsigner ECtx.none ⟨[], 0, none⟩ rfl).1⟩
  obtain ⟨n, hn1, hn2, hn3⟩ := hp.nonce
  obtain ⟨m, hm1, hm2, hm3⟩ := hp.tip
  have htip : (m : Int) < 2 ^ 30 ∨ 2 ^ 30 ≤ (m : Int) % 2 ^ 64 ∧ (m : Int) % 2 ^ 64 < 2 ^ 63 := by
    have := hokx.2
    unfold TipWritten at this
    rw [hm1] at this
    exact this
  rw [ho]
  let p' : SignedParts := { p with tipV := .dec m 0 }
  have hSO : SignedOK (registerOriginCaller st.reg.env o) md opt g p' := by
    refine ⟨?_, (hsig _ ⟨opt.module, opt.spec, some md⟩ hmod).2.1, (hsig ECtx.none ⟨opt.module, opt.spec, some md⟩ hmod).2.2, ?_, ?_, ?_, ?_, ?_, ?_, ?_, ?_, ?_⟩
    · rw [e1]; exact (hsigner _ ⟨opt.module, opt.spec, some md⟩ hmod).2.1
    · show signatureOf p.sig = .ok p.sigText
      rcases hp.text with e | ⟨n, e⟩ <;> rw [e] <;> rfl
    · rw [hp.era.1]
      exact C48_encode _ ECtx.none _ [] _ ⟨hera _ _, by decide⟩
    · rw [hp.era.1]
      show Decodes _ _ _ p.eraB _ _
      rcases hp.era.2 with e | ⟨x, y, hne, e⟩ <;> rw [e]
      · exact C48_decode_immortal _ _ _ [] (hera _ _)
      · exact C48_decode_mortal _ _ _ [] x y hne (hera _ _)
    · obtain ⟨b, hb1, hb2⟩ := C16_encode_partial (registerOriginCaller st.reg.env o) ECtx.none b!"Compact<U64>" [] b!"U64" n (.int g.nonce)
        ⟨hcn _ _, by decide⟩ (by rw [hn1]; rfl) (fun _ h => by cases h) (by omega) (by rw [wrap64_nat hn2]; omega)
      rw [isCompact_unique hn3 hb1]
      exact hb2
    · rw [hn1]
      exact C16_decode (registerOriginCaller st.reg.env o) _ b!"Compact<U64>" [] b!"U64" [] .u64 n p.nonceB _ (hcn _ _) (by decide) hu64
        ⟨by omega, rfl⟩ hn3 (fun h => by cases h)
    · rw [hn1]; omega
    · obtain ⟨b, hb1, hb2⟩ := C16_encode_partial (registerOriginCaller st.reg.env o) ECtx.none b!"Compact<Balance>" [] b!"Balance" m (.dec g.tip.1 g.tip.2)
        ⟨hct _ _, by decide⟩ (by rw [hm1]; show Denotes (.dec m 0) m; simp [Denotes]) (fun _ h => by cases h)
        (Nat.lt_of_lt_of_le hm2 (by decide)) (by
          rcases htip with h | ⟨h, h'⟩
          · left; omega
          · right
            unfold wrap64
            rw [Int.bmod_def]
            split <;> omega)
      show Encodes _ _ _ _ p.tipB
      rw [isCompact_unique hm3 hb1]
      exact hb2
    · exact C16_decode (registerOriginCaller st.reg.env o) _ b!"Compact<Balance>" [] b!"Balance" [] .balance m p.tipB _ (hct _ _) (by decide) hbal
        ⟨by omega, rfl⟩ hm3 (fun _ => by omega)
    · rw [hm1]; rfl
  have hXO : ExtsOK (registerOriginCaller st.reg.env o) md opt g ys := by
    have hall : ∀ y ∈ ys, ∃ i, y.type = siText st.ids i ∧ i < l.length ∧
        Scale (Covered { wireCfg l spec0 with dup := dup } A) (SupportedBy fun _ => True) i y.value y.decoded y.bytes := by
      have key : ∀ (zs : List WExtension) (ys : List ExtItem), List.Forall₂ (fun x y => y.name = keptText x.identifier ∧ y.type = siText st.ids x.type ∧
          x.type < l.length ∧ Scale (Covered { wireCfg l spec0 with dup := dup } A) (SupportedBy fun _ => True) x.type y.value y.decoded y.bytes) zs ys →
          ∀ y ∈ ys, ∃ i, y.type = siText st.ids i ∧ i < l.length ∧
            Scale (Covered { wireCfg l spec0 with dup := dup } A) (SupportedBy fun _ => True) i y.value y.decoded y.bytes := by
        intro zs ys this
        induction this with
        | nil => simp
        | @cons x y _ _ h _ ih =>
          intro z hz
          rcases List.mem_cons.1 hz with rfl | hz
          · exact ⟨x.type, h.2⟩
          · exact ih z hz
      exact key _ _ hp.exts
    refine ⟨hp.given, fun y hy => ?_, fun y hy => ?_⟩
    · obtain ⟨i, h1, h2, h3⟩ := hall y hy
      rw [h1]
      exact (origin_scale hr.toMetaReady hU hR.numbered (ctx := ⟨[], 0, none⟩) ECtx.none (fun _ _ _ _ => notOverridden_nil _) h2 h3).1
    · obtain ⟨i, h1, h2, h3⟩ := hall y hy
      rw [h1]
      exact (origin_scale hr.toMetaReady hU hR.numbered (ctx := ⟨opt.module, opt.spec, some md⟩) ECtx.none
        (by rw [hmod]; exact fun _ _ _ _ => notOverridden_nil _) h2 h3).2
  have hCO : CallOK (registerOriginCaller st.reg.env o) spec md opt g i j (wireCall st.ids x v) (as.map Arg.item) := by
    refine ⟨hcode, by rw [hcode]; exact hkn, by simp [hpar, wireCall, has.length_eq], ?_⟩
    rw [hpar, wireCall]
    dsimp only
    have : List.Forall₂ (fun f (a : Arg) => f.type < l.length ∧ Scale (Covered { wireCfg l spec0 with dup := dup } A) (SupportedBy fun _ => True) f.type a.1 a.2.1 a.2.2) v.fields as := has
    revert this
    clear hlen hpar hkn hcall has
    generalize v.fields = fs
    intro this
    induction this with
    | nil => exact .nil
    | cons h _ ih =>
      exact .cons ⟨(origin_scale hr.toMetaReady hU hR.numbered (ctx := ⟨[], 0, none⟩) ⟨spec, some md⟩ (fun _ _ _ _ => notOverridden_nil _) h.1 h.2).1,
        (origin_scale hr.toMetaReady hU hR.numbered (ctx := ⟨_, _, _⟩) ECtx.none hok h.1 h.2).2⟩ ih
  have hmap : ∀ (zs : List WExtension) (ys : List ExtItem), List.Forall₂ (fun x y => y.name = keptText x.identifier ∧ y.type = siText st.ids x.type ∧ x.type < l.length ∧
      Scale (Covered { wireCfg l spec0 with dup := dup } A) (SupportedBy fun _ => True) x.type y.value y.decoded y.bytes) zs ys →
      (zs.map fun x => (keptText x.identifier, siText st.ids x.type)) = ys.map fun y => (y.name, y.type) := by
    intro zs ys h
    induction h with
    | nil => rfl
    | cons h _ ih => rw [List.map_cons, List.map_cons, ih, h.1, h.2.1]
  have hfil : ∀ (e : WExtension → Prop) [DecidablePred e] (f : (Str × Str) → Prop) [DecidablePred f],
      (∀ x, e x ↔ f (keptText x.identifier, siText st.ids x.type)) →
      (xs.map fun x => (keptText x.identifier, siText st.ids x.type)).filter (fun y => decide (f y)) =
        (xs.filter fun x => decide (e x)).map fun x => (keptText x.identifier, siText st.ids x.type) := by
    intro e _ f _ h
    rw [List.filter_map]
    congr 1
    apply List.filter_congr
    intro x _
    simp only [Function.comp, decide_eq_decide]
    exact (h x).symm
  have hrt : RoundTrips (registerOriginCaller st.reg.env o) spec md opt g (wireCall st.ids x v) (as.map Arg.item) (some (p', ys)) := by
    refine C43_signed_partial _ spec md opt g i j (wireCall st.ids x v) (as.map Arg.item) p' ys _ (len_ok hU.tidy hr.stock hL hr.special) hver hCO hSO hXO hx ?_ ?_
      hopt hv14 ?_ ((xs.filter fun x => decide (Enabled opt (keptText x.identifier))).map (fun x => siText st.ids x.type)).head! ?_ ?_
    · rw [hext]; simp [Function.comp_def]
    · rw [hext]; simpa [Function.comp_def, Named] using hN
    · rw [e2]; exact (hsigner ECtx.none ⟨opt.module, opt.spec, some md⟩ hmod).2.2
    · rw [hext]
      dsimp only
      rw [hfil (fun x => Enabled opt (keptText x.identifier)) (fun y => Enabled opt y.1) (fun _ => Iff.rfl)]
      by_cases hin : payment ∈ xs.map fun x => keptText x.identifier
      · left
        refine ⟨hin, ?_⟩
        obtain ⟨z, rest, h1, h2⟩ := hokx.1 hin
        have := filter_first (f := fun x : WExtension => keptText x.identifier) hN h1 h2
        have hd : dataExts opt xs = rest := this
        have hf := hp.exts
        rw [hd] at hf
        rw [h1, List.map_cons, hmap _ _ hf, h2]
        rfl
      · right
        refine ⟨hin, hp.paid.resolve_left hin, ?_⟩
        rw [← hmap _ _ hp.exts]
        congr 1
        unfold dataExts
        apply List.filter_congr
        intro z hz
        rw [decide_eq_decide]
        exact ⟨fun h => ⟨h, fun e => hin (List.mem_map.2 ⟨z, hz, e⟩)⟩, And.left⟩
    · simpa [Arg.item, argBytes, Function.comp_def] using hlen
  exact hrt

/-- V14 metadata with the extrinsic of `sp_runtime` serves extrinsics with its signers and signatures; missing are other types of
extrinsics, extensions with data listed before the tip, tips that C16 excepts, and pallets whose name overrides types. -/
theorem C95_v14_partial (reg : RegState) (spec : Int) (md0 : Option MD) (l : List (Nat × PType)) (ps : List WPallet) (t v : Nat) (xs : List WExtension)
    (b : Str) (dup : Str → Nat) (A : Nat → Prop) (fuel : Nat) (st : SiState) (a s : Nat) (hr : SignReady reg) (hw : Written14 l ps t v xs b)
    (hR : Regular l ps) (hU : Understood l spec reg dup A fuel st) (hN : Named xs) (hS : Signing { wireCfg l spec with dup := dup } A l a s) :
    ∃ out, Settles (fun n => processV14 n reg ⟨[], spec, md0⟩) b out ∧ DescribedOut true l ps xs st.ids out ∧ ∀ md, UsesAll md out →
      Signs (Covered { wireCfg l spec with dup := dup } A) l ps xs (fun x => Untouched { wireCfg l spec with dup := dup } (keptText x.name))
        (fun opt g => PaysFirst xs opt ∧ TipWritten g) st.ids out.reg.env md a s := by
  obtain ⟨out, h1, h2, h3⟩ := C79_partial reg spec md0 l ps t v xs b dup A fuel st hr.toMetaReady hw hR hU
  exact ⟨out, h1, h2, fun md hm => signs_of hr hU hR hN hS h2 (by rw [h3]) md hm⟩

/-- The same for V15 metadata. -/
theorem C95_v15_partial (reg : RegState) (spec : Int) (md0 : Option MD) (x : W15) (b : Str) (dup : Str → Nat) (A : Nat → Prop) (fuel : Nat) (st : SiState)
    (hr : SignReady reg) (hF : x.Fits) (hw : EncW15 x b) (hR : Regular x.types (x.pallets.map Prod.fst)) (hU : Understood x.types spec reg dup A fuel st)
    (hN : Named x.extensions) (hS : Signing { wireCfg x.types spec with dup := dup } A x.types x.address x.signature) :
    ∃ out, Settles (fun n => processV15 n reg ⟨[], spec, md0⟩) b out ∧ Described15 false x st.ids out ∧ ∀ md, UsesAll md out.toV14Out →
      Signs (Covered { wireCfg x.types spec with dup := dup } A) x.types (x.pallets.map Prod.fst) x.extensions
        (fun p => Untouched { wireCfg x.types spec with dup := dup } (keptText p.name)) (fun opt g => PaysFirst x.extensions opt ∧ TipWritten g) st.ids
        out.reg.env md x.address x.signature := by
  obtain ⟨out, h1, h2, h3⟩ := C80_exact reg spec md0 x b dup A fuel st hr.toMetaReady hF hw hR hU
  exact ⟨out, h1, h2, fun md hm => signs_of hr hU hR hN hS h2.common (by rw [h3]) md hm⟩

/-! ## What does not hold -/

theorem start_signReady : SignReady startReg where
  toMetaReady := start_ready
  words := by rw [startReg_fast]; intro p hp; simp only [List.mem_cons, List.not_mem_nil, or_false] at hp; rcases hp with rfl | rfl | rfl | rfl <;> kernel_rfl
  compacts := by rw [startReg_fast]; decide +kernel

/-- One pallet with the calls of `a::E`. -/
def signPallets : List WPallet := [⟨b!"Left", none, some 4, none, [], none, 5⟩]

/-- Metadata which lists numbers as signers and byte sequences as signatures. -/
def signMeta : W15 where
  types := demoTypes
  pallets := signPallets.map fun p => (p, [])
  version := 4
  address := 3
  call := 4
  signature := 6
  extra := 0
  extensions := []
  type := 0
  apis := []
  outer := (4, 4, 4)
  custom := []

theorem signMeta_fits : signMeta.Fits where
  types := demoMeta_fits.types
  pallets := by simp [signMeta, signPallets, Spec.FList, Spec.FPallet, Spec.FText, Spec.FId]
  version := by decide
  ids := by simp [signMeta, Spec.FId]
  extensions := by simp [signMeta, Spec.FList]
  type := by simp [signMeta, Spec.FId]
  apis := by simp [signMeta, Spec.FList]
  outer := by simp [signMeta, Spec.FId]
  custom := by simp [signMeta, Spec.FCustom]

theorem signMeta_regular : Regular demoTypes signPallets where
  numbered := rfl
  pallets := by decide
  calls := by
    intro x hx i hi
    simp only [signPallets, List.mem_cons, List.not_mem_nil, or_false] at hx
    subst hx
    cases hi
    exact ⟨_, demo_variants, by decide⟩
  events := by simp [signPallets]
  errors := by simp [signPallets]
  constants := by simp [signPallets]
  keys := by simp [signPallets]

open _root_.Spec (WList WText) in
theorem signMeta_written : ∃ b, EncW15 signMeta b ∧ b.length < 2 ^ 63 := by
  have sm : ∀ n : Nat, n < 64 → Spec.IsCompact n [UInt8.ofNat (4 * n)] := fun n h => .inl ⟨h,
    (by decide : ∀ n < 64, [UInt8.ofNat (4 * n)] = Spec.leBytes 1 (4 * n)) n h⟩
  have no : ∀ {α : Type} {P : α → Str → Prop}, WList P [] [0] := ⟨_, _, sm 0 (by decide), rfl, rfl⟩
  have tx : ∀ s : Str, s.length < 64 → WText s ([UInt8.ofNat (4 * s.length)] ++ s) := fun s h => ⟨_, sm _ h, rfl⟩
  have c0 := sm 0 (by decide)
  refine ⟨_, ⟨_, _, _, _, ⟨_, _, sm 8 (by decide),
      ⟨_, _, ⟨_, _, c0, ⟨_, _, _, _, ⟨_, _, sm 2 (by decide), ⟨_, _, tx _ (by decide), ⟨_, _, tx _ (by decide), rfl, rfl⟩, rfl⟩, rfl⟩, no,
          ⟨_, ⟨_, _, sm 2 (by decide), ⟨_, _, ⟨_, _, _, _, ⟨_, tx _ (by decide), rfl⟩, sm 1 (by decide), rfl, no, rfl⟩,
            ⟨_, _, ⟨_, _, _, _, ⟨_, tx _ (by decide), rfl⟩, sm 2 (by decide), rfl, no, rfl⟩, rfl, rfl⟩, rfl⟩, rfl⟩, rfl⟩, no, rfl⟩, rfl⟩,
      ⟨_, _, ⟨_, _, sm 1 (by decide), ⟨_, _, _, _, ⟨_, _, sm 2 (by decide), ⟨_, _, tx _ (by decide), ⟨_, _, tx _ (by decide), rfl, rfl⟩, rfl⟩, rfl⟩, no,
          ⟨_, ⟨_, _, sm 1 (by decide), ⟨_, _, ⟨_, _, _, _, rfl, sm 3 (by decide), rfl, no, rfl⟩, rfl, rfl⟩, rfl⟩, rfl⟩, no, rfl⟩, rfl⟩,
      ⟨_, _, ⟨_, _, sm 2 (by decide), ⟨_, _, _, _, no, no, ⟨_, sm 0 (by decide), rfl⟩, no, rfl⟩, rfl⟩,
      ⟨_, _, ⟨_, _, sm 3 (by decide), ⟨_, _, _, _, no, no, rfl, no, rfl⟩, rfl⟩,
      ⟨_, _, ⟨_, _, sm 4 (by decide), ⟨_, _, _, _, ⟨_, _, sm 2 (by decide), ⟨_, _, tx _ (by decide), ⟨_, _, tx _ (by decide), rfl, rfl⟩, rfl⟩, rfl⟩, no,
          ⟨_, ⟨_, _, sm 3 (by decide), ⟨_, _, ⟨_, _, _, tx _ (by decide), no, no, rfl⟩,
            ⟨_, _, ⟨_, _, _, tx _ (by decide), ⟨_, _, sm 1 (by decide), ⟨_, _, ⟨_, _, _, _, rfl, c0, rfl, no, rfl⟩, rfl, rfl⟩, rfl⟩, no, rfl⟩,
            ⟨_, _, ⟨_, _, _, tx _ (by decide), ⟨_, _, sm 2 (by decide), ⟨_, _, ⟨_, _, _, _, ⟨_, tx _ (by decide), rfl⟩, sm 3 (by decide), rfl, no, rfl⟩,
              ⟨_, _, ⟨_, _, _, _, ⟨_, tx _ (by decide), rfl⟩, sm 5 (by decide), rfl, no, rfl⟩, rfl, rfl⟩, rfl⟩, rfl⟩, no, rfl⟩, rfl, rfl⟩, rfl⟩, rfl⟩, rfl⟩, rfl⟩, no, rfl⟩, rfl⟩,
      ⟨_, _, ⟨_, _, sm 5 (by decide), ⟨_, _, _, _, ⟨_, _, sm 1 (by decide), ⟨_, _, tx _ (by decide), rfl, rfl⟩, rfl⟩,
          ⟨_, _, sm 1 (by decide), ⟨_, _, ⟨_, _, tx _ (by decide), ⟨_, sm 6 (by decide), rfl⟩, rfl⟩, rfl, rfl⟩, rfl⟩,
          ⟨_, ⟨_, _, sm 2 (by decide), ⟨_, _, ⟨_, _, _, tx _ (by decide), no, no, rfl⟩,
            ⟨_, _, ⟨_, _, _, tx _ (by decide), ⟨_, _, sm 1 (by decide), ⟨_, _, ⟨_, _, _, _, rfl, sm 6 (by decide), rfl, no, rfl⟩, rfl, rfl⟩, rfl⟩, no, rfl⟩,
              rfl, rfl⟩, rfl⟩, rfl⟩, rfl⟩, no, rfl⟩, rfl⟩,
      ⟨_, _, ⟨_, _, sm 6 (by decide), ⟨_, _, _, _, no, no, ⟨_, sm 7 (by decide), rfl⟩, no, rfl⟩, rfl⟩,
      ⟨_, _, ⟨_, _, sm 7 (by decide), ⟨_, _, _, _, no, no, rfl, no, rfl⟩, rfl⟩, rfl, rfl⟩, rfl⟩, rfl⟩, rfl⟩, rfl⟩, rfl⟩, rfl⟩, rfl⟩, rfl⟩,
    ⟨_, _, sm 1 (by decide), ⟨_, _, ⟨_, _, ⟨_, _, _, _, _, _, tx _ (by decide), rfl, ⟨_, sm 4 (by decide), rfl⟩, rfl, no, rfl, rfl⟩, no, rfl⟩, rfl, rfl⟩, rfl⟩,
    ⟨_, _, _, _, _, sm 3 (by decide), sm 4 (by decide), sm 6 (by decide), c0, no, rfl⟩,
    ⟨_, _, _, _, _, _, c0, no, sm 4 (by decide), sm 4 (by decide), sm 4 (by decide), no, rfl⟩, rfl⟩, ?_⟩
  decide +kernel

theorem demo_signer : ∃ st, processSiType demoCfg 5 startReg = .ok st ∧
    ∀ o, (registerOriginCaller st.reg.env o).reg b!"extrinsicsigner" = none ∧
      ∀ n, enc (registerOriginCaller st.reg.env o) (n + 40) ECtx.none b!"AccountId" (.uint 2 5) = .panic := by
  rw [startReg_fast]
  refine ⟨_, rfl, fun o => ⟨?_, fun n => ?_⟩⟩ <;> kernel_rfl

/-- Signers listed as 16-bit numbers are encoded as accounts, which panics. -/
theorem C95_claim_false : ¬ C95Claim := by
  intro h
  obtain ⟨st, hs, hd⟩ := demo_signer
  obtain ⟨b, hb, hl⟩ := signMeta_written
  have e : signMeta.pallets.map Prod.fst = signPallets := rfl
  obtain ⟨out, h1, h2, h3⟩ := h startReg 0 none signMeta b _ _ 5 st start_signReady signMeta_fits hb (by rw [e]; exact signMeta_regular)
    (demo_understood hs) (by simp [signMeta, Named])
  obtain ⟨out', h1', -, h3'⟩ := C80_exact startReg 0 none signMeta b _ _ 5 st start_ready signMeta_fits hb (by rw [e]; exact signMeta_regular)
    (demo_understood hs)
  cases settles_unique hl h1 h1'
  have hw := h3 ⟨15, out.callIndex, out.eventIndex, some out.extrinsic⟩ ⟨⟨by show (14 : Int) ≤ 15; decide, rfl, rfl⟩, rfl⟩
  have e2 : wireCfg signMeta.types 0 = demoCfg := demo_wire
  rw [e, e2] at hw
  have hc : IsCallOf demoTypes signPallets _ _ 5 7 := ⟨List.mem_cons_self, rfl, 4, _, rfl, demo_variants,
    List.mem_cons_of_mem _ (List.mem_cons_of_mem _ List.mem_cons_self), rfl⟩
  have ht : ¬ _root_.Spec.IsText [255] := by decide
  obtain ⟨hx, N, -, hN, -⟩ := hw _ _ 5 7 _ hc (demo_untouched _) demo_arguments 0 ⟨[], 0, [], []⟩
    { version := b!"84", signer := .uint 2 5, signatureRaw := .str b!"0xff", era := b!"00", nonce := 0, tip := (0, 0), extensions := [],
      callCode := b!"0507", params := [.uint 2 5, .str b!"0xff"] }
    ⟨.uint 2 5, [5, 0], .str b!"0xff", b!"0xff", [4, 255], [0], [0], .dec 0 0, [0]⟩ [] rfl rfl trivial rfl (by decide) rfl
    { signer := .leaf demo_u16 ⟨5, by decide, rfl, rfl, rfl, by decide⟩ trivial
      sig := .leaf demo_bytes ⟨[4], [255], by decide, .inl ⟨by decide, by decide⟩, by rw [shown, if_neg (fun h => ht h.2)]; rfl, rfl, rfl⟩ (by
        intro c p e hc
        obtain ⟨_, rfl, rfl⟩ := isCompact_prefix (m := 1) (b := [4]) (.inl ⟨by decide, by decide⟩) hc (x := [255]) (y := p) e
        exact ⟨by decide, fun h => ht h.2.1, fun h => by cases h.1⟩)
      text := .inl rfl
      era := ⟨by decide, .inl rfl⟩
      nonce := ⟨0, rfl, by decide, .inl ⟨by decide, by decide⟩⟩
      tip := ⟨0, rfl, by decide, .inl ⟨by decide, by decide⟩⟩
      paid := .inr rfl
      given := rfl
      exts := by simp [signMeta, dataExts] } (by decide)
  have hN := hN (N + 40) (by omega)
  rw [h3'] at hN
  obtain ⟨hd1, hd2⟩ := hd (signMeta.pallets.map fun p => (keptText p.1.name, p.1.index))
  have e3 : encSignerType (registerOriginCaller st.reg.env (signMeta.pallets.map fun p => (keptText p.1.name, p.1.index)))
      ⟨15, out.callIndex, out.eventIndex, some out.extrinsic⟩ = b!"AccountId" := by
    refine if_neg fun h => ?_
    have := h.2
    rw [show toLower b!"ExtrinsicSigner" = b!"extrinsicsigner" by decide, hd1] at this
    cases this
  unfold encodeExtrinsic encSignedPart encSigned at hN
  dsimp only at hN
  rw [if_pos rfl, e3, hd2] at hN
  cases hN

/-! ## The hypotheses are met -/

/-- Addresses with an account number or raw bytes, signatures of 64 bytes, a call with an argument, and the extrinsic of `sp_runtime`. -/
def uxTypes : List (Nat × PType) :=
  [(0, ⟨[b!"sp_runtime", b!"multiaddress", b!"MultiAddress"], [],
      .variant [⟨b!"Id", [⟨none, 1, none, []⟩], 0, []⟩, ⟨b!"Raw", [⟨none, 2, none, []⟩], 2, []⟩], []⟩),
    (1, ⟨[], [], .primitive 4, []⟩), (2, ⟨[], [], .sequence 3, []⟩), (3, ⟨[], [], .primitive 3, []⟩),
    (4, ⟨[b!"sp_runtime", b!"MultiSignature"], [],
      .variant [⟨b!"Ed25519", [⟨none, 5, none, []⟩], 0, []⟩, ⟨b!"Sr25519", [⟨none, 5, none, []⟩], 1, []⟩], []⟩),
    (5, ⟨[], [], .array 64 3, []⟩),
    (6, ⟨[b!"p", b!"C"], [], .variant [⟨b!"go", [⟨some b!"x", 1, none, []⟩], 0, []⟩], []⟩),
    (7, ⟨[b!"sp_runtime", b!"generic", b!"unchecked_extrinsic", b!"UncheckedExtrinsic"],
      [⟨b!"Address", some 0⟩, ⟨b!"Call", some 6⟩, ⟨b!"Signature", some 4⟩, ⟨b!"Extra", none⟩], .composite [⟨none, 2, none, []⟩], []⟩)]

/-- The pallet `Main` with this call. -/
def uxPallets : List WPallet := [⟨b!"Main", none, some 6, none, [], none, 3⟩]

def uxCfg : SiCfg where
  types := fun i => match i with
    | 0 => { path := [b!"sp_runtime", b!"multiaddress", b!"MultiAddress"], typ := .variant [⟨b!"Id", [⟨[], 1, []⟩], 0⟩, ⟨b!"Raw", [⟨[], 2, []⟩], 2⟩] }
    | 1 => { typ := .primitive b!"U16" }
    | 2 => { typ := .sequence 3 }
    | 3 => { typ := .primitive b!"U8" }
    | 4 => { path := [b!"sp_runtime", b!"MultiSignature"], typ := .variant [⟨b!"Ed25519", [⟨[], 5, []⟩], 0⟩, ⟨b!"Sr25519", [⟨[], 5, []⟩], 1⟩] }
    | 5 => { typ := .array 64 3 }
    | 6 => { path := [b!"p", b!"C"], typ := .variant [⟨b!"go", [⟨b!"x", 1, []⟩], 0⟩] }
    | 7 => { path := [b!"sp_runtime", b!"generic", b!"unchecked_extrinsic", b!"UncheckedExtrinsic"],
             params := [(b!"Address", 0), (b!"Call", 6), (b!"Signature", 4), (b!"Extra", 0)], typ := .composite [⟨[], 2, []⟩] }
    | _ => {}
  count := 8

def uxDup : Str → Nat := match countNames uxCfg 0 8 (fun _ => 0) with
  | .ok d => d
  | _ => fun _ => 0

def ux : SiCfg := { uxCfg with dup := uxDup }

def uxEarly (i : Nat) : Prop := i = 1 ∨ i = 3

theorem ux_wire : wireCfg uxTypes 0 = uxCfg := by
  have h : ∀ i, (wireCfg uxTypes 0).types i = uxCfg.types i := by
    refine demo_cases ?_ ?_ ?_ ?_ ?_ ?_ ?_ ?_ (fun k => ?_)
    iterate 8 exact (by decide +kernel)
    show portableType (kept uxTypes) (k + 8) = {}
    unfold portableType
    rw [List.find?_eq_none.2]
    intro p hp
    have : p.1 ∈ List.range 8 := by
      have : p.1 ∈ (kept uxTypes).map Prod.fst := List.mem_map.2 ⟨p, List.mem_reverse.1 hp, rfl⟩
      exact (by decide +kernel : (kept uxTypes).map Prod.fst = List.range 8) ▸ this
    have := List.mem_range.1 this
    simp only [beq_iff_eq]
    omega
  have hc : (wireCfg uxTypes 0).count = uxCfg.count := by decide +kernel
  show SiCfg.mk (wireCfg uxTypes 0).types (wireCfg uxTypes 0).count _ _ _ _ _ = SiCfg.mk uxCfg.types uxCfg.count _ _ _ _ _
  rw [funext h, hc]
  rfl

theorem ux_paths : ∀ i, (ux.types i).path ∈ [[], [b!"sp_runtime", b!"multiaddress", b!"MultiAddress"], [b!"sp_runtime", b!"MultiSignature"], [b!"p", b!"C"],
    [b!"sp_runtime", b!"generic", b!"unchecked_extrinsic", b!"UncheckedExtrinsic"]] := by
  refine demo_cases ?_ ?_ ?_ ?_ ?_ ?_ ?_ ?_ (fun k => ?_)
  rotate_right
  · exact List.mem_cons_self
  all_goals decide

/-- The names of the types. -/
def uxNames : List (Nat × Str) := [(0, b!"sp_runtime:multiaddress:MultiAddress"), (4, b!"sp_runtime:MultiSignature"), (6, b!"p:C"),
  (7, b!"sp_runtime:generic:unchecked_extrinsic:UncheckedExtrinsic")]

theorem ux_names : ∀ i n, nameSiType ux (ux.types i) (some i) = .ok n → n = [] ∨ (i, n) ∈ uxNames := by
  refine demo_cases ?_ ?_ ?_ ?_ ?_ ?_ ?_ ?_ (fun k n h => ?_)
  rotate_right
  · cases h
    exact .inl rfl
  all_goals intro n h; cases h; decide

theorem ux_not_wrapper (i : Nat) : ¬ IsWrapper (ux.types i) := by
  have := ux_paths i
  unfold IsWrapper
  generalize (ux.types i).path = q at this
  revert q
  decide

theorem ux_not_call (i : Nat) : ¬ IsCallTag (ux.types i) := by
  have := ux_paths i
  unfold IsCallTag
  generalize (ux.types i).path = q at this
  revert q
  decide

theorem ux_extrinsic : ∀ i, IsExtrinsic (ux.types i) → i = 7 := by
  refine demo_cases ?_ ?_ ?_ ?_ ?_ ?_ ?_ ?_ (fun k => ?_)
  rotate_right
  · intro h; exact absurd h.1 (by show ¬ 2 ≤ 0; decide)
  all_goals first
    | exact fun _ => rfl
    | (intro h; exact absurd h.1 (by decide))
    | (intro h; exact absurd h.2 (by decide))

theorem ux_early : EarlyOK ux uxEarly where
  inside := by rintro i (rfl | rfl) <;> decide
  kind := by rintro i (rfl | rfl) <;> exact .inl ⟨_, rfl, rfl⟩
  wrapper := fun i _ _ _ h => absurd h (ux_not_wrapper i)
  extrinsic := by
    intro i name p h hn hp
    obtain rfl := ux_extrinsic i h
    rcases hn with rfl | rfl <;> cases hp <;> rintro (h | h) <;> cases h
  core := by rintro i h (rfl | rfl) <;> cases h

theorem ux_plain : PlainNames ux where
  segments := by
    intro i
    have := ux_paths i
    generalize (ux.types i).path = q at this
    intro s hs
    refine ident_of ?_
    revert s
    revert q
    decide
  pre := fun h => absurd rfl h
  named := by
    refine demo_cases ?_ ?_ ?_ ?_ ?_ ?_ ?_ ?_ (fun k => ?_)
    rotate_right
    · rintro (⟨_, h⟩ | ⟨_, h⟩) <;> cases h
    all_goals rintro (⟨_, h⟩ | ⟨_, h⟩) <;> first | (cases h; done) | (intro e; cases e)
  primitive := by
    refine demo_cases ?_ ?_ ?_ ?_ ?_ ?_ ?_ ?_ (fun k => ?_) <;> intro p h <;> cases h <;> exact ⟨ident_of (by decide), by decide⟩
  crate := by
    intro i
    have := ux_paths i
    generalize (ux.types i).path = q at this
    revert q
    decide
  whole := by
    intro i
    unfold pathName
    have := ux_paths i
    generalize (ux.types i).path = q at this
    revert q
    decide
  range := by refine demo_cases ?_ ?_ ?_ ?_ ?_ ?_ ?_ ?_ (fun k => ?_) <;> intro h <;> cases h

theorem ux_tidy : Tidy ux uxEarly startReg.env.reg where
  names := ux_plain
  unversioned := fun _ => rfl
  apart := by
    intro i n h hne
    have hi := (ux_names i n h).resolve_left hne
    have hnames : ∀ j m, nameSiType ux (ux.types j) (some j) = .ok m → toLower m = toLower n → j = i := by
      intro j m h' e
      rcases ux_names j m h' with rfl | hj
      · cases n with
        | nil => exact absurd rfl hne
        | cons => cases e
      · exact (by decide +kernel : ∀ p ∈ uxNames, ∀ q ∈ uxNames, toLower q.2 = toLower p.2 → q.1 = p.1) _ hi _ hj e
    have rest : ∀ p ∈ uxNames, ¬ b!"tuple:" <+: toLower p.2 ∧ ¬ b!"primitive_types:" <+: toLower p.2 ∧
        toLower p.2 ≠ b!"extrinsicsignature" ∧ toLower p.2 ≠ b!"extrinsicsigner" := by decide +kernel
    obtain ⟨h1, h2, h3, h4⟩ := rest _ hi
    exact ⟨hnames, h1, h2, h3, h4⟩
  fresh := by
    intro i n h hne
    have hi := (ux_names i n h).resolve_left hne
    rw [startReg_fast]
    exact (by decide +kernel : ∀ p ∈ uxNames, fastReg (toLower p.2) = none) _ hi
  tuples := by
    have none : ∀ i ks, (ux.types i).typ ≠ .tuple ks := by
      refine demo_cases ?_ ?_ ?_ ?_ ?_ ?_ ?_ ?_ (fun k => ?_) <;> intro _ h <;> cases h
    intro i j ks ls ts us h
    exact absurd h (none i ks)
  freshTuples := fun _ _ _ _ _ _ => start_tuples _
  closed := by
    intro i hi
    obtain ⟨k, rfl⟩ := Nat.exists_eq_add_of_le' hi
    rfl

theorem ux_done : ∃ st, processSiType uxCfg 5 startReg = .ok st ∧ st.ids 1 = some b!"U16" := by
  rw [startReg_fast]
  exact ⟨_, rfl, rfl⟩

theorem ux_understood {st : SiState} (h : processSiType uxCfg 5 startReg = .ok st) : Understood uxTypes 0 startReg uxDup uxEarly 5 st := by
  constructor <;> rw [ux_wire]
  · rfl
  · exact ux_early
  · exact ux_tidy
  · exact h

theorem ux_variants : VariantType uxTypes 6 [⟨b!"go", [⟨some b!"x", 1, none, []⟩], 0, []⟩] := ⟨_, by simp [uxTypes]; rfl, rfl⟩

theorem ux_regular : Regular uxTypes uxPallets where
  numbered := rfl
  pallets := by decide
  calls := by
    intro x hx i hi
    simp only [uxPallets, List.mem_cons, List.not_mem_nil, or_false] at hx
    subst hx
    cases hi
    exact ⟨_, ux_variants, by decide⟩
  events := by simp [uxPallets]
  errors := by simp [uxPallets]
  constants := by simp [uxPallets]
  keys := by simp [uxPallets]

theorem ux_late {i : Nat} (h : i ≠ 1 ∧ i ≠ 3) : Late ux uxEarly i := by
  refine ⟨fun e => e.elim h.1 h.2, ?_⟩
  have := ux_paths i
  generalize (ux.types i).path = q at this
  revert q
  decide

theorem ux_u16 : Covered ux uxEarly 1 (.uint 2) := .primitive (.inl rfl) rfl (by decide) (by simp [_root_.Spec.primitiveShapes])

theorem ux_array : Covered ux uxEarly 5 (.byteArray 64) :=
  .byteArray (p := b!"U8") (ux_late (by decide)) rfl (by decide) (by decide) (.inr rfl) (by decide) rfl (by decide)

theorem ux_id : Covered ux uxEarly 0 (.enum [(0, b!"Id", .one 1)]) := by
  refine .own (ux_late (by decide)) (.inr ⟨_, _, _, rfl, rfl, by decide, by decide, ux_not_call 0⟩)
    (OwnShape.variant (vs := [⟨b!"Id", [⟨[], 1, []⟩], 0⟩, ⟨b!"Raw", [⟨[], 2, []⟩], 2⟩]) (v := ⟨b!"Id", [⟨[], 1, []⟩], 0⟩) rfl (by decide) (by decide)
    (by decide) (by decide) (by decide) (by decide) ?_ (by decide))
  intro f hf t ht
  simp only [List.mem_cons, List.not_mem_nil, or_false] at hf
  subst hf
  rw [text_primitive (p := b!"U16") ht (.inl rfl) rfl (by decide)]
  rintro ⟨r, h⟩
  cases h

theorem ux_sr : Covered ux uxEarly 4 (.enum [(1, b!"Sr25519", .one 5)]) := by
  refine .own (ux_late (by decide)) (.inr ⟨_, _, _, rfl, rfl, by decide, by decide, ux_not_call 4⟩)
    (OwnShape.variant (vs := [⟨b!"Ed25519", [⟨[], 5, []⟩], 0⟩, ⟨b!"Sr25519", [⟨[], 5, []⟩], 1⟩]) (v := ⟨b!"Sr25519", [⟨[], 5, []⟩], 1⟩) rfl (by decide)
    (by decide) (by decide) (by decide) (by decide) (by decide) ?_ (by decide))
  intro f hf t ht
  simp only [List.mem_cons, List.not_mem_nil, or_false] at hf
  subst hf
  have : t = b!"[U8; 64]" := by
    cases ht with
    | array _ h _ h' =>
      cases h
      rw [text_primitive (p := b!"U8") h' (.inr rfl) rfl (by decide)]
      decide
    | name _ h hne => cases h; exact absurd rfl hne
    | emptyName _ h => exact absurd h (by
        rintro (⟨_, h, _⟩ | ⟨_, _, _, h, _⟩) <;> cases h)
    | override _ h => exact absurd rfl h
    | result _ h => cases h
    | option _ h => cases h
    | call _ h => cases h
    | primitive h => cases h
    | primitiveTypes h => cases h
    | account h => cases h
    | wrapper _ h => cases h
    | newtype _ h => cases h
    | selfNewtype _ h => cases h
    | arrayZero _ h => cases h
    | sequence _ h => cases h
    | compact _ h => cases h
    | tupleNil _ h => cases h
    | tuple _ _ h => cases h
    | bits _ h => cases h
    | range _ h => cases h
    | nothing _ h => cases h
    | dealtPrimitive _ h => cases h
  rw [this]
  rintro ⟨r, h⟩
  cases h

theorem ux_signing : Signing ux uxEarly uxTypes 0 4 where
  known := ⟨7, _, _, by simp [uxTypes]; rfl, by unfold IsExtrinsic; decide +kernel, rfl⟩
  address := by
    intro i t h hx
    simp only [uxTypes, List.mem_cons, Prod.mk.injEq, List.not_mem_nil, or_false] at h
    rcases h with ⟨-, rfl⟩ | ⟨-, rfl⟩ | ⟨-, rfl⟩ | ⟨-, rfl⟩ | ⟨-, rfl⟩ | ⟨-, rfl⟩ | ⟨-, rfl⟩ | ⟨-, rfl⟩
    iterate 7 exact absurd hx (by unfold IsExtrinsic; decide +kernel)
    exact ⟨by decide +kernel, by decide +kernel⟩
  signature := by
    intro i t h hx
    simp only [uxTypes, List.mem_cons, Prod.mk.injEq, List.not_mem_nil, or_false] at h
    rcases h with ⟨-, rfl⟩ | ⟨-, rfl⟩ | ⟨-, rfl⟩ | ⟨-, rfl⟩ | ⟨-, rfl⟩ | ⟨-, rfl⟩ | ⟨-, rfl⟩ | ⟨-, rfl⟩
    iterate 7 exact absurd hx (by unfold IsExtrinsic; decide +kernel)
    exact ⟨by decide +kernel, by decide +kernel⟩
  aliased := by
    have key : ∀ i sh, i = 0 ∨ i = 4 → Covered ux uxEarly i sh → Aliased ux uxEarly sh := by
      rintro i sh hi h
      cases h with
      | primitive _ h => rcases hi with rfl | rfl <;> cases h
      | crate _ h => rcases hi with rfl | rfl <;> cases h
      | account => trivial
      | newtype _ _ _ _ h => exact h
      | own _ _ h => cases h <;> trivial
      | bytes => trivial
      | seq => trivial
      | byteArray => trivial
      | array _ h => rcases hi with rfl | rfl <;> cases h
      | unit _ h => rcases hi with rfl | rfl <;> rcases h with h | h | ⟨_, h⟩ <;> cases h
      | compact _ h => rcases hi with rfl | rfl <;> cases h
      | wrapped _ h => rcases hi with rfl | rfl <;> cases h
      | tuple => trivial
      | bits => trivial
      | option => trivial
      | result _ _ h h' => rcases hi with rfl | rfl <;> cases h <;> cases h'
    exact fun sh h => h.elim (key 0 sh (.inl rfl)) (key 4 sh (.inr rfl))

open _root_.Spec (FRegistry FList FId FText FPallet) in
theorem ux_written : ∃ b, Written14 uxTypes uxPallets 7 4 [⟨b!"CheckNonce", 1, 1⟩, ⟨payment, 1, 1⟩] b := by
  have f1 : FRegistry uxTypes := by
    simp [uxTypes, FRegistry, FList, FId, _root_.Spec.FType, _root_.Spec.FDef, FText, _root_.Spec.FVariant, _root_.Spec.FField]
  have f2 : FList FPallet uxPallets := by simp [uxPallets, FList, FPallet, FText, FId]
  obtain ⟨b1, h1⟩ := C77_written _ f1
  obtain ⟨b2, h2⟩ := C78_written _ f2
  refine ⟨_, ⟨b1, b2, [28, 4] ++ ([8] ++ (([40] ++ b!"CheckNonce" ++ [4] ++ [4]) ++ ([96] ++ payment ++ [4] ++ [4]))), h1, h2,
    ⟨[28], _, .inl ⟨by decide, by decide⟩, ⟨[8], _, .inl ⟨by decide, by decide⟩,
    ⟨_, _, ⟨_, [4], [4], ⟨[40], .inl ⟨by decide, by decide⟩, rfl⟩, .inl ⟨by decide, by decide⟩, .inl ⟨by decide, by decide⟩, rfl⟩,
      ⟨_, [], ⟨_, [4], [4], ⟨[96], .inl ⟨by decide, by decide⟩, rfl⟩, .inl ⟨by decide, by decide⟩, .inl ⟨by decide, by decide⟩, rfl⟩, rfl, rfl⟩, rfl⟩, rfl⟩,
    by decide⟩, rfl⟩, f1, f2, by simp [FId], by decide, by simp [FList, _root_.Spec.FExtension, FText, FId, payment]⟩

/-- `MultiSignature::Sr25519` with 64 bytes 255. -/
def uxSig : Str := List.replicate 64 255

/-- The extrinsic of account 5, with nonce 1 and tip 2. -/
def uxIn : ExtrinsicIn :=
  { version := b!"84", signer := .map [(b!"Id", .uint 2 5)], signatureRaw := .map [(b!"Sr25519", .str (b!"0x" ++ _root_.Spec.hexText uxSig))],
    era := b!"00", nonce := 1, tip := (2, 0), extensions := [], callCode := b!"0300", params := [.uint 2 7] }

/-- Its signature. -/
def uxParts : SignedParts :=
  ⟨.map [(b!"Id", .uint 2 5)], [0, 5, 0], .map [(b!"Sr25519", .str (b!"0x" ++ _root_.Spec.hexText uxSig))], b!"0x" ++ _root_.Spec.hexText uxSig, 1 :: uxSig,
    [0], [4], .dec 2 0, [8]⟩

/-- A signed extrinsic is written as the bytes that the metadata demands, 76 after the length. -/
example : ∃ b out, Settles (fun n => processV14 n startReg ⟨[], 0, none⟩) b out ∧ ∀ md, UsesAll md out →
    RoundTrips out.reg.env 0 md ⟨[], 0, [], []⟩ uxIn ⟨b!"go", b!"Main", [(b!"x", b!"U16")]⟩ [(.uint 2 7, [7, 0], [])] (some (uxParts, [])) ∧
    ∃ N, ∀ n, N ≤ n → encodeExtrinsic out.reg.env n 0 (some md) uxIn =
      .ok (.ok (_root_.Spec.hexText ([0x31, 0x01] ++ ([0x84] ++ ([0, 5, 0] ++ (1 :: uxSig) ++ [0] ++ [4] ++ [8]) ++ [3, 0] ++ [7, 0])))) := by
  obtain ⟨st, hs, h1⟩ := ux_done
  obtain ⟨b, hb⟩ := ux_written
  have hS : Signing { wireCfg uxTypes 0 with dup := uxDup } uxEarly uxTypes 0 4 := by rw [ux_wire]; exact ux_signing
  obtain ⟨out, h2, h3, h4⟩ := C95_v14_partial startReg 0 none uxTypes uxPallets 7 4 _ b _ _ 5 st 0 4 start_signReady hb ux_regular (ux_understood hs)
    (by unfold Named; decide +kernel) hS
  refine ⟨b, out, h2, fun md hm => ?_⟩
  have hw := h4 md hm
  rw [ux_wire] at hw
  have ht : ¬ _root_.Spec.IsText uxSig := by decide +kernel
  have hshow : shown .bytes uxSig = b!"0x" ++ _root_.Spec.hexText uxSig := by rw [shown, if_neg (fun h => ht h.2)]
  have key := hw ⟨b!"Main", none, some 6, none, [], none, 3⟩ ⟨b!"go", [⟨some b!"x", 1, none, []⟩], 0, []⟩ 3 0 [(.uint 2 7, .uint 2 7, [7, 0])]
    ⟨by simp [uxPallets], rfl, 6, _, rfl, ux_variants, by simp, rfl⟩ (by
      intro i n hn hne
      have hi := (ux_names i n hn).resolve_left hne
      exact ((by decide +kernel : ∀ p ∈ uxNames, NeverOverridden p.2) _ hi).apply _)
    (.cons ⟨by decide, .leaf ux_u16 ⟨7, by decide, rfl, rfl, rfl, by decide⟩ trivial⟩ .nil) 0 ⟨[], 0, [], []⟩ uxIn uxParts [] rfl rfl
    ⟨fun _ => ⟨⟨payment, 1, 1⟩, [], by kernel_rfl, by decide +kernel⟩, .inl (by decide)⟩ rfl (by decide) rfl
    { signer := .variant 0 b!"Id" ux_id List.mem_cons_self (.leaf ux_u16 ⟨5, by decide, rfl, rfl, rfl, by decide⟩ trivial)
      sig := .variant 1 b!"Sr25519" ux_sr List.mem_cons_self (.leaf ux_array ⟨by decide, by rw [hshow], rfl⟩ (fun h => ht h.1))
      text := .inr ⟨_, rfl⟩
      era := ⟨by decide, .inl rfl⟩
      nonce := ⟨1, rfl, by decide, .inl ⟨by decide, by decide⟩⟩
      tip := ⟨2, rfl, by decide, .inl ⟨by decide, by decide⟩⟩
      paid := .inl (by decide +kernel)
      given := rfl
      exts := by rw [show dataExts ⟨[], 0, [], []⟩ _ = [] by kernel_rfl]; exact .nil } (by decide)
  have t1 : siText st.ids 1 = b!"U16" := by unfold siText; rw [h1]; rfl
  have e : wireCall st.ids ⟨b!"Main", none, some 6, none, [], none, 3⟩ ⟨b!"go", [⟨some b!"x", 1, none, []⟩], 0, []⟩ =
      ⟨b!"go", b!"Main", [(b!"x", b!"U16")]⟩ := by
    simp [wireCall, fieldName, t1]
    decide +kernel
  rw [e] at key
  refine ⟨key, ?_⟩
  obtain ⟨h, N, ⟨c, body, rfl, hl, hc⟩, h5, -⟩ := key
  have hx : signedBytes md (some (uxParts, [])) = [0, 5, 0] ++ (1 :: uxSig) ++ [0] ++ [4] ++ [8] := by
    have : b!"ChargeTransactionPayment" ∈ out.extrinsic.signedIdentifier := by
      rw [h3.extrinsic]
      exact (by decide +kernel : payment ∈ [b!"CheckNonce", payment].map keptText)
    unfold signedBytes
    rw [hm.2]
    dsimp only
    rw [if_pos this]
    decide
  rw [hx] at hl
  have hbody : body = [0x84] ++ ([0, 5, 0] ++ (1 :: uxSig) ++ [0] ++ [4] ++ [8]) ++ [3, 0] ++ [7, 0] := by
    apply hexText_injective
    rw [hl]
    decide +kernel
  have hlen : body.length = 76 := by rw [hbody]; decide
  have hcc := isCompact_unique (hc (by rw [hlen]; decide)) (c := [0x31, 0x01]) (by rw [hlen]; exact .inr (.inl ⟨by decide, by decide, by decide⟩))
  refine ⟨N, fun n hn => ?_⟩
  rw [h5 n hn, hcc, hbody]

end ScaleGo
