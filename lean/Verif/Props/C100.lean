import Verif.Lemmas.Nested
import Verif.Props.C94

/-! # C100: calls within calls follow metadata of versions 9 to 13

English claim: once metadata of version 9 to 13 has been read, a call whose arguments are again calls or lists of calls, as those of
batches, proxies and proposals are, to any depth, is encoded as the indices of each call followed by its arguments; these bytes decode
to the call with all calls in it, all of which are reported. -/

namespace ScaleGo
open _root_.Spec (Argument Nested joined inner OModule OCall FOld EncOld)
open ScaleGo.Spec

/-- How modules declare calls as arguments: `Call` or `Proposal` of the runtime or the trait, in a box or not. -/
def callTexts : List Str :=
  [b!"", b!"T::", b!"<T as Trait>::", b!"<T as Config>::", b!"<T as Trait<I>>::", b!"<T as Config<I>>::"].flatMap fun p =>
    [b!"Call", b!"Proposal"].flatMap fun n => [p ++ n, b!"Box<" ++ p ++ n ++ b!">"]

/-- Lists of calls. -/
def CallList (t el : Str) : Prop := el ∈ callTexts ∧ t = b!"Vec<" ++ el ++ b!">"

/-- The calls of the modules with `ok`, by index, and the type texts of their arguments. -/
def ListedCall (v : Nat) (l : List OModule) (ok : OModule → Prop) (i j : UInt8) (e : CallEntry) (ts : List Str) : Prop :=
  ∃ x c, IsOldCall v l x c i j ∧ ok x ∧ e = oldCallEntry x c ∧ ts = c.args.map Prod.snd

/-- Values of a text that may have calls in them: those of `V`, and calls of texts with `C`, in lists of lengths with `L`. -/
abbrev OldNested (V : TextRel) (C : Str → Prop) (L : Nat → Prop) (v : Nat) (l : List OModule) (ok : OModule → Prop) :
    Str → Val → Val → Str → List Str → Prop :=
  Nested V (fun t => t ∈ callTexts ∧ C t) (fun t el => CallList t el ∧ C el) L (ListedCall v l ok)

/-! ## Lookups -/

/-- The texts that a lookup of `t` consults. -/
def consulted : Nat → Str → List Str
  | 0, _ => []
  | n + 1, t =>
    let t := convertType t
    [t, b!"Struct"] ++ ((partsOf t).map fun p => p.1).toList ++ (if contains t b!"::" then consulted n (lastPiece (splitSep t b!"::")) else [])

theorem instant_held {env : Env} {t : Str} (h : Held env t) (hn : NeverOverridden t) (ext : Ext) (m : Str) (spec : Int) :
    getCodecInstant env m t spec = getCodecInstant (loadedEnv ext) [] t 0 := by
  have e1 := moduleType_notOverridden (hn.apply m)
  have e2 := moduleType_notOverridden (hn.apply [])
  unfold getCodecInstant
  rw [e1, e2]
  dsimp only
  rw [toLower_idem, h.1, h.2]
  rfl

theorem lookup_held {env : Env} (ext : Ext) (m : Str) (spec : Int) (n : Nat) : ∀ (t : Str), (∀ w ∈ consulted n t, Held env w ∧ NeverOverridden w) →
    getCodecClassAux env m spec n t = getCodecClassAux (loadedEnv ext) [] 0 n t := by
  induction n with
  | zero => intro t _; rfl
  | succ n ih =>
    intro t h
    have key : ∀ w ∈ consulted (n + 1) t, getCodecInstant env m w spec = getCodecInstant (loadedEnv ext) [] w 0 := fun w hw =>
      instant_held (h w hw).1 (h w hw).2 ext m spec
    unfold consulted at h key
    unfold getCodecClassAux
    dsimp only at h key ⊢
    have hw : lookupWhole env m spec (convertType t) = lookupWhole (loadedEnv ext) [] 0 (convertType t) := by
      unfold lookupWhole
      split
      · exact key _ (by simp)
      · rfl
    have hp : lookupParts env m spec (convertType t) = lookupParts (loadedEnv ext) [] 0 (convertType t) := by
      unfold lookupParts
      cases e : partsOf (convertType t) with
      | none => dsimp only; rw [key _ (by simp)]
      | some p =>
        obtain ⟨a, b⟩ := p
        dsimp only
        rw [key a (by simp [e])]
    have ht : lookupTuple env m spec (convertType t) = lookupTuple (loadedEnv ext) [] 0 (convertType t) := by
      unfold lookupTuple
      rw [key _ (by simp)]
    rw [hw, hp, ht]
    by_cases hc : contains (convertType t) b!"::" = true
    · rw [ih _ (fun w hw => h w (by rw [if_pos hc]; simp [hw]))]
    · have hc' : ¬ (contains (convertType t) b!"::" = true ∧ convertType t ≠ b!"::") := fun h => hc h.1
      rw [if_neg hc', if_neg hc']

/-- Registries in which the texts of calls have their built-in entries. -/
structure CallsReady (env : Env) : Prop extends OldReady env where
  calls : ∀ t ∈ callTexts, ∀ u ∈ [typeText t, typeText (b!"Vec<" ++ t ++ b!">")], ∀ w ∈ consulted (u.length + 1) u, Held env w

/-- Values with calls in them are written and read as the metadata says; `V` and `R` give the values without calls that are written and
that are read, `C` and `D` the texts of calls. -/
structure NestsOld (V R : TextRel) (C D : Str → Prop) (L : Nat → Prop) (v : Nat) (l : List OModule) (ok : OModule → Prop) (env : Env) (md : MD) : Prop where
  encode : ∀ t y r b cs, OldNested V C L v l (fun _ => True) t y r b cs → ∀ spec, Encodes env ⟨spec, some md⟩ (typeText t) y b
  decode : ∀ t y r b cs, OldNested R D L v l ok t y r b cs → ∀ spec, Decodes env ⟨[], spec, some md⟩ (typeText t) b r cs
  extrinsic : ∀ x c i j (ps : List (Argument Str)), IsOldCall v l x c i j → ok x → c.args.map Prod.snd = ps.map (·.ty) →
    (∀ p ∈ ps, OldNested V C L v l ok p.ty p.inp p.out p.bytes p.calls) → ∀ spec opt (g : ExtrinsicIn),
    g.version = b!"04" ∨ g.version = b!"05" → g.callCode = _root_.Spec.hexText [i, j] → g.params = ps.map (·.inp) →
    (joined ps).length < 2 ^ 61 → RoundTrips env spec md opt g (oldCallEntry x c) (ps.map fun p => (p.out, p.bytes, p.calls)) none

/-- The full claim. -/
def C100Claim : Prop :=
  ∀ (v : Nat) (reg : RegState) (spec : Int) (md0 : Option MD) (l : List OModule) (xv : Nat) (exts : List Str) (b : Str), 9 ≤ v → v ≤ 13 →
    ReadsOld reg.env ⟨[], spec, md0⟩ → CallsReady reg.env → FOld v l xv exts → DistinctIndex v l → EncOld v l xv exts b → b.length < 2 ^ 63 →
    ∃ out, Gives (fun n => processOld v n reg ⟨[], spec, md0⟩) b out ∧ ∀ md, UsesOld v md out →
      NestsOld (fun t y r b => TextValue (fun _ => True) (fun _ => True) (fun _ => True) (fun _ _ _ _ => True) t y r b ∨ AccountValue t y r b)
        (fun t y r b => TextValue (fun _ => True) (fun _ => True) (fun _ => True) (fun _ _ _ _ => True) t y r b ∨ AccountValue t y r b)
        (fun _ => True) (fun _ => True) (fun _ => True) v l (fun _ => True) out.reg.env md

/-! ## What holds -/

/-- The library as loaded is ready. -/
theorem loaded_callsReady (ext : Ext) : CallsReady (loadedEnv ext) :=
  { loaded_oldReady ext with calls := fun _ _ _ _ _ _ => held_loaded ext _ }

/-- All texts consulted for calls and lists of calls. -/
def allConsulted : List Str :=
  callTexts.flatMap fun t => [typeText t, typeText (b!"Vec<" ++ t ++ b!">")].flatMap fun u => consulted (u.length + 1) u

theorem mem_consulted {t u w : Str} (ht : t ∈ callTexts) (hu : u ∈ [typeText t, typeText (b!"Vec<" ++ t ++ b!">")]) (hw : w ∈ consulted (u.length + 1) u) :
    w ∈ allConsulted := List.mem_flatMap.2 ⟨t, ht, List.mem_flatMap.2 ⟨u, hu, hw⟩⟩

theorem consulted_plain : ∀ w ∈ allConsulted, NeverOverridden w ∧ toLower w ≠ b!"origincaller" := by decide +kernel

theorem calls_origin {env : Env} (h : CallsReady env) (o : List (Str × Nat)) : CallsReady (registerOriginCaller env o) :=
  { ready_origin h.toOldReady o with
    calls := fun t ht u hu w hw => held_origin (h.calls t ht u hu w hw) (consulted_plain _ (mem_consulted ht hu hw)).2 }

theorem ready_lookup {env : Env} (h : CallsReady env) {t u : Str} (ht : t ∈ callTexts) (hu : u ∈ [typeText t, typeText (b!"Vec<" ++ t ++ b!">")])
    (m : Str) (spec : Int) : getCodecClass env m spec u = getCodecClass (loadedEnv dummyExt) [] 0 u :=
  lookup_held dummyExt m spec _ u fun w hw => ⟨h.calls t ht u hu w hw, (consulted_plain _ (mem_consulted ht hu hw)).1⟩

/-- The texts of calls that are looked up as boxes, which can be read only. -/
def boxedTexts : List Str := [b!"Box<<T as Config>::Proposal>", b!"Box<<T as Trait<I>>::Call>", b!"Box<<T as Config<I>>::Call>"]

theorem call_table : ∀ t ∈ callTexts, t ∉ boxedTexts →
    getCodecClass { loadedEnv dummyExt with reg := fastReg } [] 0 (typeText t) = .ok (some (.call, [])) ∧ toLower (typeText t) ≠ b!"null" := by
  decide +kernel

theorem box_table : ∀ t ∈ boxedTexts, toLower (typeText t) ≠ b!"null" ∧ ∃ s ∈ callTexts, s ∉ boxedTexts ∧ typeText s = s ∧
    getCodecClass { loadedEnv dummyExt with reg := fastReg } [] 0 (typeText t) = .ok (some (.box [], s)) := by
  decide +kernel

/-- What a lookup of a list finds is written as the text of the elements is. -/
def listRow (t : Str) : Bool :=
  match getCodecClass { loadedEnv dummyExt with reg := fastReg } [] 0 (typeText (b!"Vec<" ++ t ++ b!">")) with
  | .ok (some (.vec [], u)) => decide (u ≠ [] ∧ toLower u ≠ b!"null" ∧ toLower (typeText t) ≠ b!"null" ∧ convertType u = convertType (typeText t) ∧
      toLower (typeText (b!"Vec<" ++ t ++ b!">")) ≠ b!"null")
  | _ => false

theorem list_table : ∀ t ∈ callTexts, listRow t = true := by decide +kernel

theorem fast_loaded (ext : Ext) : { loadedEnv ext with reg := fastReg } = loadedEnv ext := by
  rw [← loadedReg_fast]
  rfl

/-- Texts that are looked up alike are written and read alike. -/
theorem same_lookup (env : Env) {r t : Str} (h : ∀ m spec, getCodecClass env m spec r = getCodecClass env m spec t) (hr : toLower r ≠ b!"null")
    (ht : toLower t ≠ b!"null") : Same env r t := by
  constructor
  · intro n ctx st
    cases n with
    | zero => rfl
    | succ n => unfold pau; rw [h]
  · intro n ctx v
    cases n with
    | zero => rfl
    | succ n =>
      have nn : ∀ {x : Str}, toLower x ≠ b!"null" → equalFold x b!"Null" = false := fun hx => by
        unfold equalFold
        rw [beq_eq_false_iff_ne]
        exact hx
      unfold enc
      rw [h, nn hr, nn ht]

theorem Same.encodes {env : Env} {r t : Str} (h : Same env r t) {ectx : ECtx} {y : Val} {b : Str} (he : Encodes env ectx t y b) : Encodes env ectx r y b := by
  obtain ⟨N, h1⟩ := he
  exact ⟨N, fun n hn => by rw [h.encode]; exact h1 n hn⟩

theorem Same.decodes {env : Env} {r t : Str} (h : Same env r t) {ctx : Ctx} {b : Str} {y : Val} {cs : List Str} (he : Decodes env ctx t b y cs) :
    Decodes env ctx r b y cs := by
  obtain ⟨N, h1⟩ := he
  exact ⟨N, fun n hn pre suf cs hl => by rw [h.decode]; exact h1 n hn pre suf cs hl⟩

theorem ready_call {env : Env} (h : CallsReady env) (m : Str) (spec : Int) : Resolves env m spec b!"Call" .call [] :=
  old_word h.call (by rw [loadedReg_fast]; kernel_rfl) (by kernel_rfl) (by decide +kernel) (by simp) m spec

theorem ready_text {env : Env} (h : CallsReady env) {t : Str} (ht : t ∈ callTexts) (hb : t ∉ boxedTexts) (m : Str) (spec : Int) :
    Resolves env m spec (typeText t) .call [] := by
  have := (call_table t ht hb).1
  rw [fast_loaded, ← ready_lookup h ht (by simp) m spec] at this
  exact this

theorem ready_same {env : Env} (h : CallsReady env) {t : Str} (ht : t ∈ callTexts) (hb : t ∉ boxedTexts) : Same env (typeText t) b!"Call" :=
  same_lookup env (fun m spec => (ready_text h ht hb m spec).trans (ready_call h m spec).symm) (call_table t ht hb).2 (by decide)

theorem boxed_call : ∀ t ∈ boxedTexts, t ∈ callTexts := by decide

theorem ready_box {env : Env} (h : CallsReady env) {t : Str} (ht : t ∈ boxedTexts) :
    ∃ s ∈ callTexts, s ∉ boxedTexts ∧ typeText s = s ∧ ∀ m spec, Resolves env m spec (typeText t) (.box []) s := by
  obtain ⟨-, s, h1, h2, h3, h4⟩ := box_table t ht
  refine ⟨s, h1, h2, h3, fun m spec => ?_⟩
  rw [fast_loaded, ← ready_lookup h (boxed_call t ht) (by simp) m spec] at h4
  exact h4

theorem ready_reads {env : Env} (h : CallsReady env) {t : Str} (ht : t ∈ callTexts) : ReadsCalls env (typeText t) := by
  intro ctx b r cs hd
  by_cases hb : t ∈ boxedTexts
  · obtain ⟨s, h1, h2, h3, h4⟩ := ready_box h hb
    refine C24_box env ctx (typeText t) [] s b r cs (h4 _ _) ?_
    have := (ready_same h h1 h2).decodes hd
    rw [h3] at this
    rw [show effSub [] s = s from ?_]
    · exact this
    · unfold effSub
      split <;> first | rfl | simp_all
  · exact (ready_same h ht hb).decodes hd

theorem ready_list {env : Env} (h : CallsReady env) {t el : Str} (ht : CallList t el) : ∃ u, u ≠ [] ∧
    (∀ m spec, Resolves env m spec (typeText t) (.vec []) u) ∧ toLower (typeText t) ≠ b!"null" ∧ Same env u (typeText el) := by
  obtain ⟨hel, rfl⟩ := ht
  have := list_table el hel
  unfold listRow at this
  split at this
  · rename_i u e
    obtain ⟨h1, h2, h3, h4, h5⟩ := of_decide_eq_true this
    refine ⟨u, h1, fun m spec => ?_, h5, same_converted env h4 h2 h3⟩
    rw [fast_loaded, ← ready_lookup h hel (by simp) m spec] at e
    exact e
  · cases this

/-- Values that are read. -/
abbrev ReadValue : TextRel := fun t y r b => GoodValue t y r b ∨ AccountValue t y r b

/-- Whatever was read, calls of modules that have no types of their own by the names of basic types follow it to any depth. -/
theorem nestsOld_of {v : Nat} {names : List Str} {l : List OModule} {exts : Option (List Str)} {out : OldOut}
    (hD : DescribedOld v names l exts out) (hR : CallsReady out.reg.env) (md : MD) (hm : UsesOld v md out) :
    NestsOld GoodValue ReadValue (· ∉ boxedTexts) (fun _ => True) (· ≤ 524288) v l (fun x => ∀ n ∈ ownModules, ¬ SameName (keptText x.name) n)
      out.reg.env md := by
  obtain ⟨hver, hc, he⟩ := hm
  have hB := hR.toBuiltIn
  have own : ∀ n ∈ ownModules, ¬ SameName ([] : Str) n := by decide
  have known : ∀ {ok i j e ts}, ListedCall v l ok i j e ts → md.callIndex (_root_.Spec.hexText [i, j]) = some e ∧ e.args.map Prod.snd = ts.map typeText := by
    rintro ok i j e ts ⟨x, c, h, -, rfl, rfl⟩
    rw [hc]
    refine ⟨(hD.calls i j _).2 ⟨x, c, h.1, h.2, rfl⟩, ?_⟩
    simp [oldCallEntry, Function.comp_def]
  have enc : ∀ {ok t y r b cs}, OldNested GoodValue (· ∉ boxedTexts) (· ≤ 524288) v l ok t y r b cs → ∀ spec,
      Encodes out.reg.env ⟨spec, some md⟩ (typeText t) y b := by
    intro ok t y r b cs h spec
    refine nested_encodes (text := typeText) (fun spec => ⟨ready_call hR _ _, by decide⟩) (old_ready hB ⟨[], 0, none⟩).2
      (fun t y r b h spec => (good_call hB h ⟨spec, some md⟩ (ctx := ⟨[], 0, none⟩) own).1) ?_ ?_ (fun _ h => h) (fun i j e ts h => known h) h spec
    · exact fun t ht ectx y b h => (ready_same hR ht.1 ht.2).encodes h
    · intro t el ht
      obtain ⟨u, h1, h2, h3, h4⟩ := ready_list hR ht.1
      exact ⟨u, h1, fun spec => ⟨h2 _ _, h3⟩, fun ectx y b h => h4.encodes h⟩
  have dec : ∀ {V : TextRel} {C t y r b cs}, (∀ t y r b, V t y r b → ReadValue t y r b) →
      OldNested V C (· ≤ 524288) v l (fun x => ∀ n ∈ ownModules, ¬ SameName (keptText x.name) n) t y r b cs →
      ∀ m spec, (∀ n ∈ ownModules, ¬ SameName m n) → Decodes out.reg.env ⟨m, spec, some md⟩ (typeText t) b r cs := by
    intro V C t y r b cs hV h m spec hm
    refine nested_decodes (text := typeText) (okm := fun m => ∀ n ∈ ownModules, ¬ SameName m n) (ready_call hR) (fun ctx => (old_ready hB ctx).1)
      ?_ (fun t ht => ready_reads hR ht.1) ?_ (fun _ h => h) ?_ h m spec hm
    · intro t y r b h m spec hm
      rcases hV t y r b h with h | h
      · exact (good_call hB h ECtx.none (ctx := ⟨m, spec, some md⟩) hm).2
      · exact account_call hR.address h ⟨m, spec, some md⟩
    · intro t el ht
      obtain ⟨u, h1, h2, -, h4⟩ := ready_list hR ht.1
      exact ⟨u, h1, h2, fun ctx b r cs h => h4.decodes h⟩
    · intro i j e ts h
      refine ⟨(known h).1, (known h).2, ?_⟩
      obtain ⟨x, c, -, hok, rfl, -⟩ := h
      exact hok
  constructor
  · exact fun t y r b cs h spec => enc h spec
  · exact fun t y r b cs h spec => dec (fun _ _ _ _ h => h) h [] spec own
  · intro x c i j ps h hok ht hp spec opt g hg hcode hpar hlen
    have hk := known (ok := fun _ => True) ⟨x, c, h, trivial, rfl, rfl⟩
    have hal : c.args.length = ps.length := by simpa using congrArg List.length ht
    refine C43_bare g.version hg _ spec md opt g i j (oldCallEntry x c) (ps.map fun p => (p.out, p.bytes, p.calls))
      ⟨(old_ready hB _).1, (old_ready hB ⟨[], 0, none⟩).2⟩ rfl ⟨hcode, by rw [hcode]; exact hk.1, by simp [hpar, oldCallEntry, hal], ?_⟩
      (by simpa [joined, Function.comp_def] using hlen)
    rw [hpar, oldCallEntry]
    dsimp only
    clear hlen hpar hk hal h
    generalize c.args = fs at ht
    induction fs generalizing ps with
    | nil =>
      cases ps with
      | nil => exact .nil
      | cons => cases ht
    | cons f fs ih =>
      cases ps with
      | nil => cases ht
      | cons p ps =>
        simp only [List.map_cons, List.cons.injEq] at ht
        refine .cons ?_ (ih ps (fun q hq => hp q (by simp [hq])) ht.2)
        dsimp only
        rw [ht.1]
        exact ⟨enc (hp p (by simp)) spec, dec (fun _ _ _ _ h => .inl h) (hp p (by simp)) _ _ hok⟩

/-- With metadata of versions 9 to 13 calls in calls are written and read, boxes that are looked up as such and destinations being read only. -/
theorem C100_partial (v : Nat) (reg : RegState) (spec : Int) (md0 : Option MD) (l : List OModule) (xv : Nat) (exts : List Str) (b : Str)
    (hr : ReadsOld reg.env ⟨[], spec, md0⟩) (hR : CallsReady reg.env) (hf : FOld v l xv exts) (hd : DistinctIndex v l) (hw : EncOld v l xv exts b)
    (hl : b.length < 2 ^ 63) :
    ∃ out, Gives (fun n => processOld v n reg ⟨[], spec, md0⟩) b out ∧ ∀ md, UsesOld v md out →
      NestsOld GoodValue ReadValue (· ∉ boxedTexts) (fun _ => True) (· ≤ 524288) v l (fun x => ∀ n ∈ ownModules, ¬ SameName (keptText x.name) n)
        out.reg.env md := by
  obtain ⟨out, read, rest, rfl, -, h1, h2, h3⟩ := C82_exact v reg ⟨[], spec, md0⟩ l xv exts b hr hf hd hw
  refine ⟨out, h1.gives hl, fun md hm => nestsOld_of h2 ?_ md hm⟩
  rw [h3]
  split
  · exact hR
  · exact calls_origin hR _

/-! ## What does not -/

/-- No value is encoded as a call in a box that is looked up as such. -/
theorem C100_boxed (env : Env) (hR : CallsReady env) (ectx : ECtx) (t : Str) (ht : t ∈ boxedTexts) (v : Val) : EncodeRefuses env ectx (typeText t) v := by
  obtain ⟨s, -, -, -, h⟩ := ready_box hR ht
  exact encodeRefuses_of_enc (cls := .box []) (sub := s) ⟨h _ _, (box_table t ht).1⟩ ⟨0, fun _ _ => rfl⟩

/-- So no call that begins with such an argument, such as a proposal, can be written. -/
theorem C100_proposal (v : Nat) (names : List Str) (l : List OModule) (exts : Option (List Str)) (out : OldOut) (md : MD) (x : OModule) (c : OCall)
    (n t : Str) (rest : List (Str × Str)) (i j : UInt8) (hD : DescribedOld v names l exts out) (hR : CallsReady out.reg.env) (hm : UsesOld v md out)
    (hc : IsOldCall v l x c i j) (ht : t ∈ boxedTexts) (ha : c.args = (n, t) :: rest) (spec : Int) (s : Str) (gs hs vs : List Val) (hi : IndexText i j s)
    (hg : Given gs hs vs) : EncodeRefuses out.reg.env ⟨spec, some md⟩ b!"Call" (.boxCall s gs hs) := by
  have hk : md.callIndex (_root_.Spec.hexText [i, j]) = some (oldCallEntry x c) := by
    rw [hm.2.1]
    exact (hD.calls i j _).2 ⟨x, c, hc.1, hc.2, rfl⟩
  have he : (oldCallEntry x c).args = (keptText n, typeText t) :: rest.map fun a => (keptText a.1, typeText a.2) := by
    simp [oldCallEntry, ha]
  cases vs with
  | nil =>
    refine encodeRefuses_of_enc ⟨ready_call hR _ _, by decide⟩ ⟨0, fun k _ => ?_⟩
    change encodeCall out.reg.env.ext (enc out.reg.env k) ⟨spec, some md⟩ (argOf (.boxCall s gs hs)) = Res.panic
    rw [show argOf (.boxCall s gs hs) = .boxCall s gs hs from rfl, encodeCall_entry rfl hi hk hg, he]
    rfl
  | cons y vs =>
    obtain ⟨N, hN⟩ := C100_boxed out.reg.env hR ⟨spec, some md⟩ t ht y
    refine encodeRefuses_of_enc ⟨ready_call hR _ _, by decide⟩ ⟨N, fun k hk' => ?_⟩
    change encodeCall out.reg.env.ext (enc out.reg.env k) ⟨spec, some md⟩ (argOf (.boxCall s gs hs)) = Res.panic
    rw [show argOf (.boxCall s gs hs) = .boxCall s gs hs from rfl, encodeCall_entry rfl hi hk hg, he, encArgs, hN k hk']
    rfl

/-- A call without calls in it. -/
def burnCall : OCall := ⟨b!"burn", [(b!"value", b!"Compact<T::Balance>")], []⟩

/-- A call with a list of calls. -/
def batchCall : OCall := ⟨b!"batch", [(b!"calls", b!"Vec<<T as Config>::Call>")], []⟩

/-- A call with a call in a box. -/
def proposeCall : OCall := ⟨b!"propose", [(b!"proposal", b!"Box<<T as Config>::Proposal>")], []⟩

/-- A module with the three. -/
def batchModule : OModule := ⟨b!"Utility", none, some [burnCall, batchCall, proposeCall], none, [], [], 0⟩

theorem batch_fits : FOld 9 [batchModule] 0 [] := by
  have t : ∀ s : Str, s.length ≤ 40 → _root_.Spec.FText s := fun s h => Nat.lt_of_le_of_lt h (by decide)
  have nil : ∀ {α : Type} (P : α → Prop), _root_.Spec.FList P [] := fun P => ⟨by simp, by simp⟩
  have one : ∀ {α : Type} (P : α → Prop) (a : α), P a → _root_.Spec.FList P [a] := fun P a h => ⟨by simp, by simpa using h⟩
  have three : ∀ {α : Type} (P : α → Prop) (a b c : α), P a → P b → P c → _root_.Spec.FList P [a, b, c] := fun P a b c h k m => ⟨by simp, by simp [h, k, m]⟩
  refine ⟨one _ _ ⟨t _ (by decide), nofun, ?_, nofun, nil _, nil _, by decide⟩, by decide, nil _⟩
  rintro s ⟨⟩
  exact three _ _ _ _ ⟨t _ (by decide), one _ _ ⟨t _ (by decide), t _ (by decide)⟩, nil _⟩
    ⟨t _ (by decide), one _ _ ⟨t _ (by decide), t _ (by decide)⟩, nil _⟩ ⟨t _ (by decide), one _ _ ⟨t _ (by decide), t _ (by decide)⟩, nil _⟩

open _root_.Spec (WText WList EncOArg EncOCall EncOEvent EncOModule) in
theorem batch_written : ∃ b, EncOld 9 [batchModule] 0 [] b ∧ b.length < 2 ^ 63 := by
  have zero : _root_.Spec.IsCompact 0 [0] := .inl ⟨by decide, by decide⟩
  have one : _root_.Spec.IsCompact 1 [4] := .inl ⟨by decide, by decide⟩
  have three : _root_.Spec.IsCompact 3 [12] := .inl ⟨by decide, by decide⟩
  have text : ∀ (s : Str) (c : UInt8), s.length < 64 → [c] = _root_.Spec.leBytes 1 (4 * s.length) → WText s ([c] ++ s) := fun s c h e =>
    ⟨[c], .inl ⟨h, e⟩, rfl⟩
  have nil : ∀ {α : Type} (P : α → Str → Prop), WList P [] [0] := fun P => ⟨[0], [], zero, rfl, rfl⟩
  have single : ∀ {α : Type} (P : α → Str → Prop) (a : α) (s : Str), P a s → WList P [a] ([4] ++ (s ++ [])) := fun P a s h => ⟨[4], _, one, ⟨_, _, h, rfl, rfl⟩, rfl⟩
  have value : EncOArg (b!"value", b!"Compact<T::Balance>") _ := ⟨_, _, text _ 20 (by decide) (by decide), text _ 76 (by decide) (by decide), rfl⟩
  have calls : EncOArg (b!"calls", b!"Vec<<T as Config>::Call>") _ := ⟨_, _, text _ 20 (by decide) (by decide), text _ 96 (by decide) (by decide), rfl⟩
  have prop : EncOArg (b!"proposal", b!"Box<<T as Config>::Proposal>") _ := ⟨_, _, text _ 32 (by decide) (by decide), text _ 112 (by decide) (by decide), rfl⟩
  have call1 : EncOCall burnCall _ := ⟨_, _, _, text _ 16 (by decide) (by decide), single _ _ _ value, nil _, rfl⟩
  have call2 : EncOCall batchCall _ := ⟨_, _, _, text _ 20 (by decide) (by decide), single _ _ _ calls, nil _, rfl⟩
  have call3 : EncOCall proposeCall _ := ⟨_, _, _, text _ 28 (by decide) (by decide), single _ _ _ prop, nil _, rfl⟩
  have mod : EncOModule 9 batchModule _ :=
    ⟨_, [0], _, [0], [0], [0], text _ 28 (by decide) (by decide), rfl,
      ⟨_, ⟨[12], _, three, ⟨_, _, call1, ⟨_, _, call2, ⟨_, _, call3, rfl, rfl⟩, rfl⟩, rfl⟩, rfl⟩, rfl⟩, rfl, nil _, nil _, rfl⟩
  exact ⟨_, ⟨_, [0], ⟨[4], _, one, ⟨_, [], mod, rfl, rfl⟩, rfl⟩, nil _, rfl⟩, by decide +kernel⟩

theorem burn_listed (ok : OModule → Prop) (h : ok batchModule) : ListedCall 9 [batchModule] ok 0 0 (oldCallEntry batchModule burnCall) [b!"Compact<T::Balance>"] :=
  ⟨batchModule, burnCall, ⟨⟨[], [], rfl, rfl, rfl⟩, rfl⟩, h, rfl, rfl⟩

theorem batch_listed (ok : OModule → Prop) (h : ok batchModule) : ListedCall 9 [batchModule] ok 0 1 (oldCallEntry batchModule batchCall) [b!"Vec<<T as Config>::Call>"] :=
  ⟨batchModule, batchCall, ⟨⟨[], [], rfl, rfl, rfl⟩, rfl⟩, h, rfl, rfl⟩

theorem propose_listed (ok : OModule → Prop) (h : ok batchModule) :
    ListedCall 9 [batchModule] ok 0 2 (oldCallEntry batchModule proposeCall) [b!"Box<<T as Config>::Proposal>"] :=
  ⟨batchModule, proposeCall, ⟨⟨[], [], rfl, rfl, rfl⟩, rfl⟩, h, rfl, rfl⟩

section
variable {V : TextRel} {C : Str → Prop} {L : Nat → Prop} {ok : OModule → Prop}

/-- A call that burns 5, as any text of calls. -/
theorem burn_nested (hV : ∀ t y r b, GoodValue t y r b → V t y r b) (h : ok batchModule) {t : Str} (ht : t ∈ callTexts) (hC : C t) :
    OldNested V C L 9 [batchModule] ok t (.boxCall b!"0000" [.dec 5 0] []) (callVal 0 0 (oldCallEntry batchModule burnCall) [.dec 5 0]) [0, 0, 20] [b!"000014"] :=
  Nested.call (t := t) (s := b!"0000") (gs := [.dec 5 0]) (hs := []) [⟨b!"Compact<T::Balance>", .dec 5 0, .dec 5 0, [20], []⟩] ⟨ht, hC⟩ (burn_listed ok h)
    (.inl (by decide)) (.inl ⟨rfl, rfl⟩) fun p hp => by
      obtain rfl := List.mem_singleton.1 hp
      exact .value (hV _ _ _ _ transfer_value)

/-- The same twice in a batch. -/
theorem batch_nested (hV : ∀ t y r b, GoodValue t y r b → V t y r b) (h : ok batchModule) (hL : L 2) {t : Str} (ht : t ∈ callTexts) (hC : C t)
    (hC' : C b!"<T as Config>::Call") :
    OldNested V C L 9 [batchModule] ok t (.boxCall b!"0001" [.slice [.boxCall b!"0000" [.dec 5 0] [], .boxCall b!"0000" [.dec 5 0] []]] [])
      (callVal 0 1 (oldCallEntry batchModule batchCall) [.slice [callVal 0 0 (oldCallEntry batchModule burnCall) [.dec 5 0],
        callVal 0 0 (oldCallEntry batchModule burnCall) [.dec 5 0]]]) [0, 1, 8, 0, 0, 20, 0, 0, 20] [b!"000014", b!"000014", b!"000108000014000014"] := by
  let q : Argument Str := ⟨b!"<T as Config>::Call", .boxCall b!"0000" [.dec 5 0] [], callVal 0 0 (oldCallEntry batchModule burnCall) [.dec 5 0], [0, 0, 20], [b!"000014"]⟩
  exact Nested.call (t := t) (s := b!"0001") (gs := [.slice [q.inp, q.inp]]) (hs := [])
    [⟨b!"Vec<<T as Config>::Call>", .slice [q.inp, q.inp], .slice [q.out, q.out], [8, 0, 0, 20, 0, 0, 20], [b!"000014", b!"000014"]⟩] ⟨ht, hC⟩ (batch_listed ok h)
    (.inl (by decide)) (.inl ⟨rfl, rfl⟩) fun p hp => by
      obtain rfl := List.mem_singleton.1 hp
      refine Nested.list (el := b!"<T as Config>::Call") (c := [8]) [q, q] ⟨⟨by decide, rfl⟩, hC'⟩ hL (.inl ⟨by decide, by decide⟩) ?_ ?_
      · intro p hp
        obtain rfl : p = q := by simpa using hp
        rfl
      · intro p hp
        obtain rfl : p = q := by simpa using hp
        exact burn_nested hV h (by decide) hC'

/-- The batch as a proposal. -/
theorem propose_nested (hV : ∀ t y r b, GoodValue t y r b → V t y r b) (h : ok batchModule) (hL : L 2) (hC : ∀ t, C t) :
    OldNested V C L 9 [batchModule] ok b!"Call"
      (.boxCall b!"0002" [.boxCall b!"0001" [.slice [.boxCall b!"0000" [.dec 5 0] [], .boxCall b!"0000" [.dec 5 0] []]] []] [])
      (callVal 0 2 (oldCallEntry batchModule proposeCall) [callVal 0 1 (oldCallEntry batchModule batchCall)
        [.slice [callVal 0 0 (oldCallEntry batchModule burnCall) [.dec 5 0], callVal 0 0 (oldCallEntry batchModule burnCall) [.dec 5 0]]]])
      [0, 2, 0, 1, 8, 0, 0, 20, 0, 0, 20] [b!"000014", b!"000014", b!"000108000014000014", b!"0002000108000014000014"] :=
  Nested.call (t := b!"Call") (s := b!"0002") (gs := [.boxCall b!"0001" [.slice [.boxCall b!"0000" [.dec 5 0] [], .boxCall b!"0000" [.dec 5 0] []]] []]) (hs := [])
    [⟨b!"Box<<T as Config>::Proposal>", .boxCall b!"0001" [.slice [.boxCall b!"0000" [.dec 5 0] [], .boxCall b!"0000" [.dec 5 0] []]] [], _,
      [0, 1, 8, 0, 0, 20, 0, 0, 20], [b!"000014", b!"000014", b!"000108000014000014"]⟩] ⟨by decide, hC _⟩ (propose_listed ok h)
    (.inl (by decide)) (.inl ⟨rfl, rfl⟩) fun p hp => by
      obtain rfl := List.mem_singleton.1 hp
      exact batch_nested hV h hL (by decide) (hC _) (hC _)

end

/-- The full claim is false: a proposal in a box cannot be written. -/
theorem C100_claim_false : ¬ C100Claim := by
  intro h
  have hr := loaded_readsOld dummyExt 0 none
  obtain ⟨b, hb, hl⟩ := batch_written
  obtain ⟨out, h1, h2⟩ := h 9 ⟨loadedEnv dummyExt, fun _ => none⟩ 0 none _ 0 [] b (by decide) (by decide) hr (loaded_callsReady _) batch_fits
    (fun h => absurd h (by decide)) hb hl
  obtain ⟨out2, read, rest, rfl, -, h3, h4, h5⟩ := C82_exact 9 ⟨loadedEnv dummyExt, fun _ => none⟩ ⟨[], 0, none⟩ _ 0 [] b hr batch_fits
    (fun h => absurd h (by decide)) hb
  obtain rfl := gives_unique h1 (h3.gives hl)
  have hR : CallsReady out.reg.env := by rw [h5]; exact loaded_callsReady _
  let md : MD := ⟨9, out.callIndex, out.eventIndex, none⟩
  have hm : UsesOld 9 md out := ⟨rfl, rfl, rfl⟩
  obtain ⟨N, hN⟩ := (h2 md hm).encode _ _ _ _ _ (propose_nested (fun _ _ _ _ h => .inl (C94_values h)) trivial trivial fun _ => trivial) 0
  obtain ⟨M, hM⟩ := C100_proposal 9 _ _ _ out md batchModule proposeCall _ _ _ 0 2 h4 hR hm ⟨⟨[], [], rfl, rfl, rfl⟩, rfl⟩ (by decide) rfl 0 b!"0002" _ _ _
    (.inl (by decide)) (.inl ⟨rfl, rfl⟩)
  have e1 := hN (N + M) (by omega)
  have e2 := hM (N + M) (by omega)
  rw [show typeText b!"Call" = b!"Call" by kernel_rfl] at e1
  rw [e2] at e1
  cases e1

/-! ## An example -/

/-- With the metadata above a batch of two calls that burn 5 each is written to nine bytes, which are read back and tell of three calls; a
proposal of the batch is read and tells of four. -/
example : ∃ b out, Gives (fun n => processOld 9 n ⟨loadedEnv dummyExt, fun _ => none⟩ ⟨[], 0, none⟩) b out ∧ ∀ md, UsesOld 9 md out → ∃ burn batch proposal,
    burn = callVal 0 0 ⟨b!"burn", b!"Utility", [(b!"value", b!"Compact<Balance>")]⟩ [.dec 5 0] ∧
    batch = callVal 0 1 ⟨b!"batch", b!"Utility", [(b!"calls", b!"Vec<<T as Config>::Call>")]⟩ [.slice [burn, burn]] ∧
    proposal = callVal 0 2 ⟨b!"propose", b!"Utility", [(b!"proposal", b!"Box<<T as Config>::Proposal>")]⟩ [batch] ∧
    Encodes out.reg.env ⟨0, some md⟩ b!"Call" (.boxCall b!"0001" [.slice [.boxCall b!"0000" [.dec 5 0] [], .boxCall b!"0000" [.dec 5 0] []]] [])
      [0, 1, 8, 0, 0, 20, 0, 0, 20] ∧
    Decodes out.reg.env ⟨[], 0, some md⟩ b!"Call" [0, 1, 8, 0, 0, 20, 0, 0, 20] batch [b!"000014", b!"000014", b!"000108000014000014"] ∧
    Decodes out.reg.env ⟨[], 0, some md⟩ b!"Call" [0, 2, 0, 1, 8, 0, 0, 20, 0, 0, 20] proposal
      [b!"000014", b!"000014", b!"000108000014000014", b!"0002000108000014000014"] := by
  obtain ⟨b, hb, hl⟩ := batch_written
  obtain ⟨out, h1, h2⟩ := C100_partial 9 ⟨loadedEnv dummyExt, fun _ => none⟩ 0 none _ 0 [] b (loaded_readsOld dummyExt 0 none)
    (loaded_callsReady _) batch_fits (fun h => absurd h (by decide)) hb hl
  have ok : ∀ n ∈ ownModules, ¬ SameName (keptText batchModule.name) n := by decide +kernel
  have e : typeText b!"Call" = b!"Call" := by kernel_rfl
  have e1 : oldCallEntry batchModule burnCall = ⟨b!"burn", b!"Utility", [(b!"value", b!"Compact<Balance>")]⟩ := by kernel_rfl
  have e2 : oldCallEntry batchModule batchCall = ⟨b!"batch", b!"Utility", [(b!"calls", b!"Vec<<T as Config>::Call>")]⟩ := by kernel_rfl
  have e3 : oldCallEntry batchModule proposeCall = ⟨b!"propose", b!"Utility", [(b!"proposal", b!"Box<<T as Config>::Proposal>")]⟩ := by kernel_rfl
  refine ⟨b, out, h1, fun md hm => ⟨_, _, _, rfl, rfl, rfl, ?_, ?_, ?_⟩⟩
  · have := (h2 md hm).encode _ _ _ _ _ (batch_nested (t := b!"Call") (fun _ _ _ _ h => h) trivial (by decide) (by decide) (by decide) (by decide)) 0
    rw [e] at this
    exact this
  · have := (h2 md hm).decode _ _ _ _ _ (batch_nested (t := b!"Call") (fun _ _ _ _ h => .inl h) ok (by decide) (by decide) trivial trivial) 0
    rw [e, e1, e2] at this
    exact this
  · have := (h2 md hm).decode _ _ _ _ _ (propose_nested (fun _ _ _ _ h => .inl h) ok (by decide) fun _ => trivial) 0
    rw [e, e1, e2, e3] at this
    exact this

end ScaleGo
