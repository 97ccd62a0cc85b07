import Verif.Props.C62
import Verif.Props.C81
import Verif.Props.C82
import Verif.Props.C93

/-! # C94: calls, extrinsics and events follow metadata of versions 9 to 13

English claim: once metadata of version 9 to 13 has been read, every call it describes whose argument types are texts over the basic
types is encoded as its two indices and the SCALE encodings of the arguments, these bytes decode to the call with its arguments,
unsigned extrinsics with the call round-trip, and lists of events it describes decode to these events. -/

namespace ScaleGo
open _root_.Spec (Shape Scale Names substrate TypeOver MeansOver SugarOver Means Sugar RustType runtimeTypes OModule OCall OEvent FOld EncOld)
open ScaleGo.Spec

/-! ## What the metadata says -/

/-- Relation between a type text of the metadata, a value given to the encoder, the value seen by the reader, and the bytes. -/
abbrev TextRel := Str → Val → Val → Str → Prop

/-- Values of a text as generic code has it: those of what the text means. -/
def TextOver (N : Names) (D : Str → Prop) (T : List Str → Prop) (L : Nat → Prop) (ok : Shape Str → Val → Val → Str → Prop) : TextRel := fun raw v r b =>
  ∃ t, SugarOver N D raw t ∧ Scale (MeansOver N T L) ok t v r b

/-- The same over the names of Substrate. -/
abbrev TextValue := TextOver substrate

/-- How the destination of a transfer is declared. -/
def destinationText : Str := b!"<T::Lookup as StaticLookup>::Source"

/-- Accounts as destinations: the byte `ff` and the account. -/
def AccountValue : TextRel := fun raw v r b =>
  raw = destinationText ∧ ∃ a : Str, a.length = 32 ∧ v = .str (_root_.Spec.hexText a) ∧ r = .str (_root_.Spec.hexText a) ∧ b = 255 :: a

/-- One argument for each type. -/
def OldArguments (V : TextRel) (ts : List Str) (as : List Arg) : Prop := List.Forall₂ (fun t a => V t a.1 a.2.1 a.2.2) ts as

/-- In metadata of version `v`, `c` is the call with the index `j` of the module `x`, whose number is `i`. -/
def IsOldCall (v : Nat) (l : List OModule) (x : OModule) (c : OCall) (i j : UInt8) : Prop :=
  CallModule v l i.toNat x ∧ (x.calls.getD [])[j.toNat]? = some c

/-- The same for events. -/
def IsOldEvent (v : Nat) (l : List OModule) (x : OModule) (e : OEvent) (i j : UInt8) : Prop :=
  EventModule v l i.toNat x ∧ (x.event.getD [])[j.toNat]? = some e

/-- The name of a call, its module, and names and type texts of its arguments. -/
def oldCallEntry (x : OModule) (c : OCall) : CallEntry :=
  ⟨keptText c.name, keptText x.name, c.args.map fun a => (keptText a.1, typeText a.2)⟩

/-- `b` is the record of `ev`: phase, two indices, arguments, and a list of topics of 32 bytes each. -/
def OldRecord (V : TextRel) (v : Nat) (l : List OModule) (ok : OModule → Prop) (b : Str) (ev : Event) : Prop :=
  ∃ (x : OModule) (e : OEvent) (i j : UInt8) (as : List Arg) (pb c : Str) (ts : List Str), IsOldEvent v l x e i j ∧ ok x ∧ OldArguments V e.args as ∧
    IsPhase pb ev.phase ev.extrinsicIdx ∧ (∀ t ∈ ts, t.length = 32) ∧ ts.length ≤ 524288 ∧ _root_.Spec.IsCompact ts.length c ∧
    b = pb ++ ([i, j] ++ (argBytes as ++ (c ++ ts.flatten))) ∧ ev.type = _root_.Spec.hexText [i, j] ∧
    ev.moduleId = keptText x.name ∧ ev.eventId = keptText e.name ∧
    ev.params = (e.args.map keptText).zip ((e.args.map fun _ => []).zip (as.map fun a => a.2.1)) ∧
    ev.topics = ts.map (fun t => b!"0x" ++ _root_.Spec.hexText t) ∧ ev.paramsRaw = _root_.Spec.hexText (argBytes as)

/-- Values, for example of storage and constants, calls and extrinsics to be written with arguments of `V`, calls to be read with
arguments of `R`, and events with arguments of `V` follow the metadata for the versions of `S`; calls and events are those of modules with `ok`. -/
structure WorksOld (S : Int → Prop) (V R : TextRel) (v : Nat) (l : List OModule) (ok : OModule → Prop) (env : Env) (md : MD) : Prop where
  value : ∀ t y r b, V t y r b → ∀ ectx spec, S ectx.spec → S spec → Encodes env ectx (typeText t) y b ∧ Decodes env ⟨[], spec, some md⟩ (typeText t) b r []
  encode : ∀ x c i j as, IsOldCall v l x c i j → OldArguments V (c.args.map Prod.snd) as → ∀ spec s gs hs, S spec → IndexText i j s →
    Given gs hs (as.map fun a => a.1) → Encodes env ⟨spec, some md⟩ b!"Call" (.boxCall s gs hs) (i :: j :: argBytes as)
  decode : ∀ x c i j as, IsOldCall v l x c i j → ok x → OldArguments R (c.args.map Prod.snd) as → ∀ m spec, S spec →
    Decodes env ⟨m, spec, some md⟩ b!"Call" (i :: j :: argBytes as) (callVal i j (oldCallEntry x c) (as.map fun a => a.2.1))
      [_root_.Spec.hexText (i :: j :: argBytes as)]
  extrinsic : ∀ x c i j as, IsOldCall v l x c i j → ok x → OldArguments V (c.args.map Prod.snd) as → ∀ spec opt (g : ExtrinsicIn), S spec → S opt.spec →
    g.version = b!"04" ∨ g.version = b!"05" → g.callCode = _root_.Spec.hexText [i, j] → g.params = as.map (fun a => a.1) →
    (argBytes as).length < 2 ^ 61 → RoundTrips env spec md opt g (oldCallEntry x c) (as.map Arg.item) none
  events : ∀ (rs : List (Str × Event)), (∀ r ∈ rs, OldRecord V v l ok r.1 r.2) → rs.map (·.2.idx) = List.range rs.length →
    ∀ spec module c suf, S spec → _root_.Spec.IsCompact rs.length c → c.length + (rs.map (·.1)).flatten.length + suf.length < 2 ^ 63 → rs.length < 2 ^ 63 →
    ∃ N, ∀ fuel, N ≤ fuel → decodeEvents env fuel spec md module (c ++ ((rs.map (·.1)).flatten ++ suf)) =
      .ok (rs.map (·.2), ⟨⟨c ++ ((rs.map (·.1)).flatten ++ suf), c.length + (rs.map (·.1)).flatten.length⟩, []⟩)

theorem WorksOld.mono {S : Int → Prop} {V R : TextRel} {v : Nat} {l : List OModule} {ok ok' : OModule → Prop} {env : Env} {md : MD}
    (h : WorksOld S V R v l ok env md) (ho : ∀ x, ok' x → ok x) : WorksOld S V R v l ok' env md where
  value := h.value
  encode := h.encode
  decode x c i j as h1 h2 := h.decode x c i j as h1 (ho x h2)
  extrinsic x c i j as h1 h2 := h.extrinsic x c i j as h1 (ho x h2)
  events rs hr := h.events rs fun r h' => by
    obtain ⟨x, e, i, j, as, pb, c, ts, h1, h2, h3⟩ := hr r h'
    exact ⟨x, e, i, j, as, pb, c, ts, h1, ho x h2, h3⟩

/-- The metadata as used afterwards. -/
def UsesOld (v : Nat) (md : MD) (out : OldOut) : Prop := md.version = v ∧ md.callIndex = out.callIndex ∧ md.eventIndex = out.eventIndex

/-- Registries with the built-in entries of the types that are needed; types of other names may have been registered. -/
structure OldReady (env : Env) : Prop extends BuiltIn env where
  call : Held env b!"Call"
  address : Held env b!"Address"

/-- The full claim. -/
def C94Claim : Prop :=
  ∀ (v : Nat) (reg : RegState) (spec : Int) (md0 : Option MD) (l : List OModule) (xv : Nat) (exts : List Str) (b : Str), 9 ≤ v → v ≤ 13 →
    ReadsOld reg.env ⟨[], spec, md0⟩ → OldReady reg.env → FOld v l xv exts → DistinctIndex v l → EncOld v l xv exts b → b.length < 2 ^ 63 →
    ∃ out, Gives (fun n => processOld v n reg ⟨[], spec, md0⟩) b out ∧ ∀ md, UsesOld v md out →
      WorksOld (fun _ => True) (fun t y r b => TextValue (fun _ => True) (fun _ => True) (fun _ => True) (fun _ _ _ _ => True) t y r b ∨ AccountValue t y r b)
        (fun t y r b => TextValue (fun _ => True) (fun _ => True) (fun _ => True) (fun _ _ _ _ => True) t y r b ∨ AccountValue t y r b)
        v l (fun _ => True) out.reg.env md

/-! ## What holds -/

theorem held_loaded (ext : Ext) (t : Str) : Held (loadedEnv ext) t := ⟨rfl, rfl⟩

/-- The library as loaded is ready. -/
theorem loaded_oldReady (ext : Ext) : OldReady (loadedEnv ext) :=
  { builtIn_loaded ext with call := held_loaded ext _, address := held_loaded ext _ }

theorem over_origin {N : Names} (hN : Wordy N) {t : Str} (h : TypeOver N t) : toLower t ≠ b!"origincaller" := by
  have key : ∀ {s : Str} {c : UInt8}, c ∈ s → lowerByte c ∉ b!"origincaller" → toLower s ≠ b!"origincaller" := fun hc hn e =>
    hn (by rw [← e]; exact List.mem_map.2 ⟨_, hc, rfl⟩)
  cases h with
  | name h => exact (hN.word h).origin
  | compact32 => decide
  | compact _ => exact key (c := 60) (by simp) (by decide)
  | vec _ => exact key (c := 60) (by simp) (by decide)
  | option _ => exact key (c := 60) (by simp) (by decide)
  | array n _ => exact key (c := 91) (by simp) (by decide)
  | tuple _ _ _ => exact key (c := 40) (by simp) (by decide)

theorem rust_origin {t : Str} (h : RustType t) : toLower t ≠ b!"origincaller" := over_origin substrate_wordy h

theorem origin_env (env : Env) (o : List (Str × Nat)) :
    registerOriginCaller env o = setReg env b!"origincaller" (.enum [] (some (originRows (sortBy (·.2) o) []))) := by
  unfold registerOriginCaller regCustomKey
  rw [show splitSep b!"origincaller" b!"#" = [b!"origincaller"] by decide +kernel]

theorem origin_reg (env : Env) (o : List (Str × Nat)) {k : Str} (hk : k ≠ b!"origincaller") : (registerOriginCaller env o).reg k = env.reg k := by
  rw [origin_env]
  show (if _ then _ else _) = _
  rw [if_neg hk]

theorem origin_special (env : Env) (o : List (Str × Nat)) (k : Str) : (registerOriginCaller env o).special k = env.special k := by rw [origin_env]; rfl

theorem held_origin {env : Env} {o : List (Str × Nat)} {t : Str} (h : Held env t) (ht : toLower t ≠ b!"origincaller") :
    Held (registerOriginCaller env o) t := by
  refine ⟨?_, by rw [origin_special]; exact h.2⟩
  rw [← h.1, origin_reg env o ht]

theorem entered_origin {env : Env} {o : List (Str × Nat)} {t : Str} {spec : Int} {c : Cls} (h : Entered env spec t c) (ht : toLower t ≠ b!"origincaller") :
    Entered (registerOriginCaller env o) spec t c := by
  unfold Entered
  rw [origin_special, origin_reg env o ht]
  exact h

/-- What a class stands for does not depend on the registry, but for compacts. -/
theorem classIs_ext {env env' : Env} {c : Cls} {s s' : Str} {sh : Shape Str} (he : env'.ext = env.ext) (hs : ∀ n d, sh ≠ .compact n d) (h : ClassIs env c s s' sh) :
    ClassIs env' c s s' sh := by
  cases sh with
  | compact n d => exact absurd rfl (hs n d)
  | enum vs =>
    obtain ⟨as, tm, h1, h2, h3⟩ := h
    refine ⟨as, tm, h1, h2, fun v hv => ?_⟩
    obtain ⟨h4, u, h5, h6, h7⟩ := h3 v hv
    refine ⟨h4, u, h5, h6, ?_⟩
    revert h7
    cases v.2.2 with
    | fields fs => intro h; exact ⟨h.1, h.2.1, h.2.2.1, by rw [he]; exact h.2.2.2⟩
    | _ => exact id
  | _ => exact h

theorem speaks_origin {env : Env} {S : Int → Prop} {N : Names} (hN : Wordy N) (h : Speaks env S N) (o : List (Str × Nat)) :
    Speaks (registerOriginCaller env o) S N where
  types {w sh} hw := by
    obtain ⟨h1, c, h2, h3⟩ := h.types hw
    exact ⟨h1, c, fun spec hs => entered_origin (h2 spec hs) (hN.word hw).origin, classIs_ext (by rw [origin_env]; rfl) h1.2.2 h3⟩
  compact {w n d} hw := by
    obtain ⟨h1, c, h2, h3⟩ := h.compact hw
    exact ⟨h1, c, h2, entered_origin h3 (compacts_word hN hw).origin⟩
  free {t} ht hf := by
    obtain ⟨h1, h2⟩ := h.free ht hf
    exact ⟨by rw [origin_reg env o (over_origin hN ht)]; exact h1, by rw [origin_special]; exact h2⟩
  words w hw := held_origin (h.words w hw) ((by decide : ∀ w ∈ [b!"Vec", b!"Option", b!"Compact", b!"Struct", b!"empty", b!"Null", b!"Bytes", b!"Compact<u32>"],
    toLower w ≠ b!"origincaller") w hw)

/-- Registries with the names of `N` and the built-in entries of the types that calls and events need beside them. -/
structure ReadyOver (env : Env) (S : Int → Prop) (N : Names) : Prop extends Speaks env S N where
  others : ∀ w ∈ [b!"Call", b!"Address", b!"u32", b!"Hash", b!"Vec<Hash>"], Held env w

theorem OldReady.over {env : Env} (h : OldReady env) {S : Int → Prop} : ReadyOver env S substrate where
  toSpeaks := h.speaks
  others w hw := by
    have rh : RustType b!"Hash" := .name (sh := .hash 32) (by simp [substrate, runtimeTypes])
    simp only [List.mem_cons, List.not_mem_nil, or_false] at hw
    rcases hw with rfl | rfl | rfl | rfl | rfl
    · exact h.call
    · exact h.address
    · exact h.types _ rust_u32
    · exact h.types _ rh
    · exact h.types _ (.vec rh)

theorem readyOver_origin {env : Env} {S : Int → Prop} {N : Names} (hN : Wordy N) (h : ReadyOver env S N) (o : List (Str × Nat)) :
    ReadyOver (registerOriginCaller env o) S N where
  toSpeaks := speaks_origin hN h.toSpeaks o
  others w hw := held_origin (h.others w hw)
    ((by decide : ∀ w ∈ [b!"Call", b!"Address", b!"u32", b!"Hash", b!"Vec<Hash>"], toLower w ≠ b!"origincaller") w hw)

theorem ready_origin {env : Env} (h : OldReady env) (o : List (Str × Nat)) : OldReady (registerOriginCaller env o) where
  types t ht := held_origin (h.types t ht) (rust_origin ht)
  words w hw := held_origin (h.words w hw) ((by decide : ∀ w ∈ [b!"Vec", b!"Option", b!"Compact", b!"Struct", b!"empty", b!"Null"], toLower w ≠ b!"origincaller") w hw)
  call := held_origin h.call (by decide)
  address := held_origin h.address (by decide)

/-- Letters, digits and signs. -/
def Printable (s : Str) : Prop := ∀ c ∈ s, 32 ≤ c.toNat ∧ c.toNat ≤ 127

instance (s : Str) : Decidable (Printable s) := by unfold Printable; exact inferInstance

theorem Printable.append {s t : Str} (h1 : Printable s) (h2 : Printable t) : Printable (s ++ t) := fun c hc => (List.mem_append.1 hc).elim (h1 c) (h2 c)

theorem printable_comma {l : List Str} (h : ∀ s ∈ l, Printable s) : Printable (_root_.Spec.commaText l) := by
  induction l with
  | nil => exact fun c hc => by cases hc
  | cons a l ih =>
    cases l with
    | nil => exact h a (by simp)
    | cons b l => exact ((h a (by simp)).append (by decide)).append (ih fun s hs => h s (by simp [hs]))

theorem printable_dec (n : Nat) : Printable (natToDec n) := fun c hc =>
  forall_byte (P := fun c => isDigit c = true → 32 ≤ c.toNat ∧ c.toNat ≤ 127) (by decide +kernel) c (List.all_eq_true.1 (natToDec_digits n) c hc)

theorem printable_marked {D : Str → Prop} {r w : Str} (h : _root_.Spec.Marked D r w) (hw : Word w) : Printable r := by
  have hw : Printable w := fun c hc => forall_byte (P := fun c => isNameByte c = true → 32 ≤ c.toNat ∧ c.toNat ≤ 127) (by decide +kernel) c
    (List.all_eq_true.1 hw.plain.2 c hc)
  obtain ⟨p, s, h1, h2, rfl⟩ := h
  have hp : Printable p := by rcases h1 with rfl | ⟨rfl | rfl | rfl, -⟩ <;> decide
  have hs : Printable s := by rcases h2 with rfl | ⟨rfl | rfl, -⟩ <;> decide
  exact (hp.append hw).append hs

theorem sugar_printable {N : Names} (hN : Wordy N) {D : Str → Prop} {r t : Str} (h : SugarOver N D r t) : Printable r := by
  induction h with
  | name h hm => exact printable_marked hm (hN.word h)
  | compact h hm => exact ((by decide : Printable b!"Compact<").append (printable_marked hm (compact_words hN h))).append (by decide)
  | vec _ ih => exact ((by decide : Printable b!"Vec<").append ih).append (by decide)
  | deque _ _ ih => exact ((by decide : Printable b!"VecDeque<").append ih).append (by decide)
  | option _ ih => exact ((by decide : Printable b!"Option<").append ih).append (by decide)
  | array n _ ih => exact ((((by decide : Printable b!"[").append ih).append (by decide)).append (printable_dec n)).append (by decide)
  | tuple ps _ _ ih =>
    refine ((by decide : Printable b!"(").append (printable_comma fun s hs => ?_)).append (by decide)
    obtain ⟨p, hp, rfl⟩ := List.mem_map.1 hs
    exact ih p hp

theorem printable_kept {s : Str} (h : Printable s) : keptText s = s := keptText_of fun c hc => ⟨(h c hc).2, .inl (h c hc).1⟩

theorem convert_twice {N : Names} (hN : Wordy N) {t : Str} (h : TypeOver N t) : convertType (convertType t) = convertType t := by
  by_cases e : SameName t b!"Vec<u8>"
  · rw [(over_neat hN h).convert_bytes e]
    kernel_rfl
  · have := convertType_verbatim ((over_neat hN h).verbatim e)
    rw [this, this]

theorem convert_not_null {N : Names} (hN : Wordy N) {t : Str} (h : TypeOver N t) : toLower (convertType t) ≠ b!"null" := by
  by_cases e : SameName t b!"Vec<u8>"
  · rw [(over_neat hN h).convert_bytes e]
    decide
  · rw [convertType_verbatim ((over_neat hN h).verbatim e)]
    exact over_not_null hN h

/-- Values that the library writes and reads. -/
abbrev GoodOver (N : Names) : TextRel :=
  TextOver N (· ∈ [b!"T::", b!"VecDeque<", b!"<T>", b!"<T as Trait>::", b!"<T, I>"]) FlatTuple ArrayLength Supported

/-- Those of the names of Substrate. -/
abbrev GoodValue : TextRel := GoodOver substrate

section
variable {env : Env} {S : Int → Prop} {N : Names} (hN : Wordy N) (hB : Speaks env S N)
include hN hB

/-- A value under the text as kept for calls, storage and constants. -/
theorem over_call {raw : Str} {v r : Val} {b : Str} (h : GoodOver N raw v r b) (ectx : ECtx) {ctx : Ctx} (hs : S ctx.spec) (he : S ectx.spec)
    (hm : Foreign N ctx.module) : Encodes env ectx (typeText raw) v b ∧ Decodes env ctx (typeText raw) b r [] := by
  obtain ⟨t, hsu, h⟩ := h
  obtain ⟨⟨K, h1⟩, ⟨M, h2⟩⟩ := over_partial hN hB ctx ectx t t v r b hs he hm h (.inl rfl)
  have hr := sugar_over hsu
  have e0 : typeText raw = convertType t := by
    unfold typeText
    rw [printable_kept (sugar_printable hN hsu)]
    exact convert_sugar hN hsu
  have e : Same env (convertType t) t := same_converted env (convert_twice hN hr) (convert_not_null hN hr) (over_not_null hN hr)
  rw [e0]
  exact ⟨⟨K, fun n hn => by rw [e.encode]; exact h1 n hn⟩, M, fun n hn pre suf cs hl => by rw [e.decode]; exact h2 n hn pre suf cs hl⟩

/-- A value under the text itself. -/
theorem text_value {raw : Str} {v r : Val} {b : Str} (h : GoodOver N raw v r b) (ectx : ECtx) {ctx : Ctx} (hs : S ctx.spec) (he : S ectx.spec)
    (hm : Foreign N ctx.module) : Encodes env ectx raw v b ∧ Decodes env ctx raw b r [] := by
  obtain ⟨t, hsu, h⟩ := h
  obtain ⟨⟨K, h1⟩, ⟨M, h2⟩⟩ := over_partial hN hB ctx ectx t t v r b hs he hm h (.inl rfl)
  have e := C93_words_partial N hN env raw t hsu
  exact ⟨⟨K, fun n hn => by rw [e.encode]; exact h1 n hn⟩, M, fun n hn pre suf cs hl => by rw [e.decode]; exact h2 n hn pre suf cs hl⟩

/-- A value under the text as kept for events. -/
theorem over_event {raw : Str} {v r : Val} {b : Str} (h : GoodOver N raw v r b) {ctx : Ctx} (hs : S ctx.spec) (hm : Foreign N ctx.module) :
    Decodes env ctx (keptText raw) b r [] := by
  have := (text_value hN hB h ⟨ctx.spec, none⟩ hs hs hm).2
  obtain ⟨t, hsu, -⟩ := h
  rw [printable_kept (sugar_printable hN hsu)]
  exact this

end

theorem good_call {env : Env} (hB : BuiltIn env) {raw : Str} {v r : Val} {b : Str} (h : GoodValue raw v r b) (ectx : ECtx) {ctx : Ctx}
    (hm : ∀ n ∈ ownModules, ¬ SameName ctx.module n) : Encodes env ectx (typeText raw) v b ∧ Decodes env ctx (typeText raw) b r [] :=
  over_call (S := fun _ => True) substrate_wordy hB.speaks h ectx trivial trivial (foreign_substrate hm)

theorem old_word {env : Env} {t : Str} {c : Cls} (h : Held env t) (h1 : loadedReg (toLower t) = some c) (h2 : convertType t = t) (h3 : NeverOverridden t)
    (h4 : t ≠ []) (m : Str) (spec : Int) : Resolves env m spec t c [] :=
  resolves_converted h2 h4 (h3.apply m) (old_entered h h1)

theorem account_call {env : Env} (hR : Held env b!"Address") {raw : Str} {v r : Val} {b : Str} (h : AccountValue raw v r b) (ctx : Ctx) :
    Decodes env ctx (typeText raw) b r [] := by
  obtain ⟨rfl, a, ha, rfl, rfl, rfl⟩ := h
  have e : typeText destinationText = b!"Address" := by kernel_rfl
  rw [e]
  exact C62_partial env ctx _ [] .address (by simp)
    (old_word hR (by rw [loadedReg_fast]; kernel_rfl) (by kernel_rfl) (by decide +kernel) (by simp) _ _) a ha

/-- Lists of 32 bytes. -/
theorem old_topics {env : Env} {S : Int → Prop} {N : Names} (hR : ReadyOver env S N) (ctx : Ctx) (ts : List Str) (c : Str) (h : ∀ t ∈ ts, t.length = 32) (hl : ts.length ≤ 524288)
    (hc : _root_.Spec.IsCompact ts.length c) :
    Decodes env ctx b!"Vec<Hash>" (c ++ ts.flatten) (mkSlice (ts.map fun t => .str (b!"0x" ++ _root_.Spec.hexText t))) [] := by
  have rh : RustType b!"Hash" := .name (sh := .hash 32) (by simp [substrate, runtimeTypes])
  have hg : Held env b!"Vec<Hash>" := hR.others _ (by simp)
  have hv : Resolves env ctx.module ctx.spec b!"Vec<Hash>" (.vec []) b!"Hash" :=
    old_wrapper (S := fun _ => True) (w := b!"Vec") (a := b!"Hash") hg.at (hR.words _ (by simp)) (by decide +kernel) (by decide +kernel) (by simp)
      ((rust_neat (.vec rh)).verbatim (by decide)) (vec_none _) old_vec _ _ trivial ((by decide +kernel : NeverOverridden (convertType b!"Vec<Hash>")).apply _)
  have hh : Resolves env ctx.module ctx.spec b!"Hash" (.hash 32) [] :=
    old_word (hR.others _ (by simp)) (by rw [loadedReg_fast]; kernel_rfl) (by kernel_rfl) (by decide +kernel) (by simp) _ _
  have := C20_decode _ ctx b!"Vec<Hash>" b!"Hash" b!"Hash" (.vec []) (ts.map fun t => (.str (b!"0x" ++ _root_.Spec.hexText t), t, [])) c rfl hv
    (speaks_ready hR.toSpeaks ctx).1 (by simpa using hl) (by simpa using hc) (by
      intro x hx
      obtain ⟨t, ht, rfl⟩ := List.mem_map.1 hx
      exact C50_decode_hash _ ctx _ [] 32 t (h t ht) hh)
  simpa [Function.comp_def] using this

theorem args_over {env : Env} {S : Int → Prop} {N : Names} (hN : Wordy N) (hR : ReadyOver env S N) (args : List (Str × Str)) (as : List Arg) {m : Str} (hm : Foreign N m)
    (ha : OldArguments (fun t y r b => GoodOver N t y r b ∨ AccountValue t y r b) (args.map Prod.snd) as) {spec : Int} (hs : S spec) (md : Option MD) :
    List.Forall₂ (fun (a : Str × Str) (x : Item) => Decodes env ⟨m, spec, md⟩ a.2 x.2.1 x.1 x.2.2) (args.map fun a => (keptText a.1, typeText a.2))
      (as.map Arg.item) := by
  unfold OldArguments at ha
  rw [List.forall₂_map_left_iff] at ha
  induction ha with
  | nil => exact .nil
  | cons h _ ih =>
    refine .cons ?_ ih
    dsimp only [Arg.item]
    rcases h with h | h
    · exact (over_call hN hR.toSpeaks h ⟨spec, none⟩ (ctx := ⟨m, spec, md⟩) hs hs hm).2
    · exact account_call (hR.others _ (by simp)) h ⟨m, spec, md⟩

theorem args_read {env : Env} (hR : OldReady env) (args : List (Str × Str)) (as : List Arg) {m : Str} (hm : ∀ n ∈ ownModules, ¬ SameName m n)
    (ha : OldArguments (fun t y r b => GoodValue t y r b ∨ AccountValue t y r b) (args.map Prod.snd) as) (spec : Int) (md : Option MD) :
    List.Forall₂ (fun (a : Str × Str) (x : Item) => Decodes env ⟨m, spec, md⟩ a.2 x.2.1 x.1 x.2.2) (args.map fun a => (keptText a.1, typeText a.2))
      (as.map Arg.item) := args_over (S := fun _ => True) substrate_wordy hR.over args as (foreign_substrate hm) ha trivial md

theorem foreign_nil (N : Names) : Foreign N [] := fun _ _ _ => notOverridden_nil _

/-- Whatever was read, calls, extrinsics and events of modules that have no types of their own by the names follow it. -/
theorem worksOver_of {v : Nat} {names : List Str} {l : List OModule} {exts : Option (List Str)} {out : OldOut} {S : Int → Prop} {N : Names} (hN : Wordy N) (hv : 9 ≤ v)
    (hD : DescribedOld v names l exts out) (hR : ReadyOver out.reg.env S N) (md : MD) (hm : UsesOld v md out) :
    WorksOld S (GoodOver N) (fun t y r b => GoodOver N t y r b ∨ AccountValue t y r b) v l (fun x => Foreign N (keptText x.name)) out.reg.env md := by
  obtain ⟨hver, hc, he⟩ := hm
  have hB := hR.toSpeaks
  have hcall : ∀ m spec, Resolves out.reg.env m spec b!"Call" .call [] :=
    old_word (hR.others _ (by simp)) (by rw [loadedReg_fast]; kernel_rfl) (by kernel_rfl) (by decide +kernel) (by simp)
  have own := foreign_nil N
  have known : ∀ {x c i j}, IsOldCall v l x c i j → md.callIndex (_root_.Spec.hexText [i, j]) = some (oldCallEntry x c) := by
    intro x c i j h
    rw [hc]
    exact (hD.calls i j _).2 ⟨x, c, h.1, h.2, rfl⟩
  have flat : ∀ as : List Arg, ((as.map Arg.item).map fun x => x.2.2).flatten = [] := by
    intro as
    rw [List.flatten_eq_nil_iff]
    intro y hy
    simp only [List.map_map, List.mem_map] at hy
    obtain ⟨a, -, rfl⟩ := hy
    rfl
  constructor
  · intro t y r b h ectx spec he hs
    exact over_call hN hB h ectx hs he own
  · intro x c i j as h ha spec s gs hs hS hi hg
    have hlen : c.args.length = as.length := by simpa using ha.length_eq
    refine C63_encode_partial out.reg.env ⟨spec, some md⟩ md b!"Call" [] s i j (oldCallEntry x c) gs hs (as.map fun a => a.1)
      (as.map fun a => a.2.2) rfl ⟨hcall _ _, by decide⟩ hi (known h) hg (by simp [oldCallEntry, hlen]) (by simp [oldCallEntry, hlen]) ?_
    intro k a v' b h1 h2 h3
    simp only [oldCallEntry, List.getElem?_map, Option.map_eq_some_iff] at h1 h2 h3
    obtain ⟨f, hf, rfl⟩ := h1
    obtain ⟨y, hy, rfl⟩ := h2
    obtain ⟨y', hy', rfl⟩ := h3
    rw [hy] at hy'
    cases hy'
    have := forall2_getElem? (a := f.2) ha (by rw [List.getElem?_map, hf]; rfl) hy
    dsimp only
    exact (over_call hN hB this ⟨spec, some md⟩ (ctx := ⟨[], spec, none⟩) hS hS own).1
  · intro x c i j as h hok ha m spec hS
    have := C63_decode out.reg.env ⟨m, spec, some md⟩ md b!"Call" [] i j (oldCallEntry x c) (as.map Arg.item) rfl (hcall _ _)
      (known h) (args_over hN hR c.args as hok ha hS (some md))
    rw [flat] at this
    simpa [Arg.item, argBytes, Function.comp_def] using this
  · intro x c i j as h hok ha spec opt g hS hO hg hcode hp hlen
    have hal : c.args.length = as.length := by simpa using ha.length_eq
    refine C43_bare g.version hg _ spec md opt g i j (oldCallEntry x c) (as.map Arg.item) ⟨(speaks_ready hB _).1, (speaks_ready hB ⟨[], 0, none⟩).2⟩ rfl
      ⟨hcode, by rw [hcode]; exact known h, by simp [hp, oldCallEntry, hal], ?_⟩ (by simpa [Arg.item, argBytes, Function.comp_def] using hlen)
    rw [hp, oldCallEntry]
    dsimp only
    clear hlen hp known h hal
    unfold OldArguments at ha
    rw [List.forall₂_map_left_iff] at ha
    generalize c.args = fs at ha
    induction ha with
    | nil => exact .nil
    | cons h _ ih =>
      refine .cons ?_ ih
      dsimp only [Arg.item]
      exact ⟨(over_call hN hB h ⟨spec, some md⟩ (ctx := ⟨[], spec, none⟩) hS hS own).1, (over_call hN hB h ⟨spec, none⟩ (ctx := ⟨_, _, _⟩) hO hS hok).2⟩
  · intro rs h hidx spec module c suf hS hcc hlen hn
    have := C45_decodes out.reg.env spec md module (speaks_ready hB _).1
      (fun m => ⟨[], old_word (t := b!"U32") (hR.others b!"u32" (by simp)) (by rw [loadedReg_fast]; kernel_rfl) (by kernel_rfl) (by decide +kernel) (by simp) m spec⟩)
      (rs.map fun r => (r.1, r.2, []))
      (by
        intro r hr'
        obtain ⟨q, hq, rfl⟩ := List.mem_map.1 hr'
        obtain ⟨x, e, i, j, as, pb, tc, ts, h1, h2, h3, h4, h5, h6, h7, h8, h9, h10, h11, h12, h13, h14⟩ := h q hq
        refine ⟨pb, tc ++ ts.flatten, i, j, ⟨keptText e.name, keptText x.name, e.args.map keptText, [], []⟩, as.map Arg.item, ?_, h4, ?_, ?_, ?_, h9, h10,
          h11, ?_, ?_, ?_⟩
        · simpa [Arg.item, argBytes, Function.comp_def] using h8
        · rw [he]
          exact (hD.events i j _).2 ⟨x, e, h1.1, h1.2, rfl⟩
        · dsimp only
          rw [List.forall₂_map_left_iff, List.forall₂_map_right_iff]
          exact h3.imp fun f a h => over_event hN hB h hS h2
        · unfold IsTopics
          rw [if_pos (by omega)]
          have := old_topics hR ⟨keptText x.name, spec, some md⟩ ts tc h5 h6 h7
          rw [show (if (q.2.topics = []) then Val.nilSlice else .slice (q.2.topics.map .str)) = mkSlice (ts.map fun t => .str (b!"0x" ++ _root_.Spec.hexText t)) from ?_]
          · exact this
          · rw [h13]
            cases ts <;> simp [mkSlice]
        · dsimp only
          rw [h12]
          have : (if ([] : List Str).length = (e.args.map keptText).length then [] else (e.args.map keptText).map fun _ => ([] : Str)) = e.args.map fun _ => [] := by
            cases e.args with
            | nil => rfl
            | cons a r => rw [if_neg (by simp), List.map_map]; rfl
          rw [this]
          simp [Arg.item, Function.comp_def]
        · simpa [Arg.item, argBytes, Function.comp_def] using h14
        · exact (flat as).symm)
      (by simpa [Function.comp_def] using hidx) c suf (by simpa using hcc) (by simpa [Function.comp_def] using hlen) (by simpa using hn)
    have e0 : ((rs.map fun r => (r.1, r.2, ([] : List Str))).map fun x => x.2.2).flatten = [] := by
      rw [List.flatten_eq_nil_iff]
      intro y hy
      simp only [List.map_map, List.mem_map] at hy
      obtain ⟨a, -, rfl⟩ := hy
      rfl
    rw [e0] at this
    simpa [Function.comp_def] using this

/-- The same for the names of Substrate, whatever the version. -/
theorem worksOld_of {v : Nat} {names : List Str} {l : List OModule} {exts : Option (List Str)} {out : OldOut} (hv : 9 ≤ v)
    (hD : DescribedOld v names l exts out) (hR : OldReady out.reg.env) (md : MD) (hm : UsesOld v md out) :
    WorksOld (fun _ => True) GoodValue (fun t y r b => GoodValue t y r b ∨ AccountValue t y r b) v l (fun x => ∀ n ∈ ownModules, ¬ SameName (keptText x.name) n)
      out.reg.env md :=
  (worksOver_of substrate_wordy hv hD hR.over md hm).mono fun _ h => foreign_substrate h

/-- Metadata of versions 9 to 13 serves the values that are written and read (C93); calls with accounts as destinations are read. -/
theorem C94_partial (v : Nat) (reg : RegState) (spec : Int) (md0 : Option MD) (l : List OModule) (xv : Nat) (exts : List Str) (b : Str) (hv : 9 ≤ v)
    (hr : ReadsOld reg.env ⟨[], spec, md0⟩) (hR : OldReady reg.env) (hf : FOld v l xv exts) (hd : DistinctIndex v l) (hw : EncOld v l xv exts b)
    (hl : b.length < 2 ^ 63) :
    ∃ out, Gives (fun n => processOld v n reg ⟨[], spec, md0⟩) b out ∧ ∀ md, UsesOld v md out →
      WorksOld (fun _ => True) GoodValue (fun t y r b => GoodValue t y r b ∨ AccountValue t y r b) v l (fun x => ∀ n ∈ ownModules, ¬ SameName (keptText x.name) n)
        out.reg.env md := by
  obtain ⟨out, read, rest, rfl, -, h1, h2, h3⟩ := C82_exact v reg ⟨[], spec, md0⟩ l xv exts b hr hf hd hw
  refine ⟨out, h1.gives hl, fun md hm => worksOld_of hv h2 ?_ md hm⟩
  rw [h3]
  split
  · exact hR
  · exact ready_origin hR _

theorem sugar_more {N : Names} {D D' : Str → Prop} (hD : ∀ x, D x → D' x) {r t : Str} (h : SugarOver N D r t) : SugarOver N D' r t := by
  have hm : ∀ {r w : Str}, _root_.Spec.Marked D r w → _root_.Spec.Marked D' r w := by
    rintro r w ⟨p, s, h1, h2, rfl⟩
    exact ⟨p, s, h1.imp_right fun h => ⟨h.1, hD _ h.2⟩, h2.imp_right fun h => ⟨h.1, hD _ h.2⟩, rfl⟩
  induction h with
  | name h h' => exact .name h (hm h')
  | compact h h' => exact .compact h (hm h')
  | vec _ ih => exact .vec ih
  | deque h _ ih => exact .deque (hD _ h) ih
  | option _ ih => exact .option ih
  | array n _ ih => exact .array n ih
  | tuple ps h _ ih => exact .tuple ps h ih

theorem scale_more {α : Type} {shape shape' : α → Shape α → Prop} (hs : ∀ {a sh}, shape a sh → shape' a sh) {ok : Shape α → Val → Val → Str → Prop} {ty : α}
    {v r : Val} {b : Str} (h : Scale shape ok ty v r b) : Scale shape' (fun _ _ _ _ => True) ty v r b := by
  induction h with
  | leaf h1 h2 _ => exact .leaf (hs h1) h2 trivial
  | same h1 _ ih => exact .same (hs h1) ih
  | seq ps h1 h2 h3 _ _ ih => exact .seq ps (hs h1) h2 h3 ih trivial
  | none h => exact .none (hs h)
  | some h _ _ ih => exact .some (hs h) ih trivial
  | struct ps h1 h2 h3 h4 _ ih => exact .struct ps (hs h1) h2 h3 h4 ih
  | unitVariant i n h1 h2 => exact .unitVariant i n (hs h1) h2
  | variant i n h1 h2 _ ih => exact .variant i n (hs h1) h2 ih
  | fields i n ps h1 h2 h3 h4 h5 _ ih => exact .fields i n ps (hs h1) h2 h3 h4 h5 ih
  | array ps h1 h2 _ _ ih => exact .array ps (hs h1) h2 ih trivial
  | resultOk h _ _ ih => exact .resultOk (hs h) ih trivial
  | resultErr h _ _ ih => exact .resultErr (hs h) ih trivial

/-- What is served is part of what is claimed. -/
theorem C94_values {t : Str} {y r : Val} {b : Str} (h : GoodValue t y r b) :
    TextValue (fun _ => True) (fun _ => True) (fun _ => True) (fun _ _ _ _ => True) t y r b := by
  obtain ⟨u, h1, h2⟩ := h
  exact ⟨u, sugar_more (fun _ _ => trivial) h1, scale_more C92_means h2⟩

/-! ## What does not -/

/-- No value is encoded as the destination of a transfer. -/
theorem C94_destination (env : Env) (hR : OldReady env) (ectx : ECtx) (v : Val) : EncodeRefuses env ectx (typeText destinationText) v := by
  have e : typeText destinationText = b!"Address" := by kernel_rfl
  rw [e]
  exact encodeRefuses_of_enc (cls := .address) (sub := [])
    ⟨old_word hR.address (by rw [loadedReg_fast]; kernel_rfl) (by kernel_rfl) (by decide +kernel) (by simp) _ _, by decide⟩ ⟨0, fun _ _ => rfl⟩

/-- So no call that begins with a destination, such as a transfer, can be written. -/
theorem C94_transfer (v : Nat) (names : List Str) (l : List OModule) (exts : Option (List Str)) (out : OldOut) (md : MD) (x : OModule) (c : OCall)
    (n : Str) (rest : List (Str × Str)) (i j : UInt8) (hD : DescribedOld v names l exts out) (hR : OldReady out.reg.env) (hm : UsesOld v md out)
    (hc : IsOldCall v l x c i j) (ha : c.args = (n, destinationText) :: rest) (spec : Int) (s : Str) (gs hs vs : List Val) (hi : IndexText i j s)
    (hg : Given gs hs vs) : EncodeRefuses out.reg.env ⟨spec, some md⟩ b!"Call" (.boxCall s gs hs) := by
  have hcall : Resolves out.reg.env [] spec b!"Call" .call [] :=
    old_word hR.call (by rw [loadedReg_fast]; kernel_rfl) (by kernel_rfl) (by decide +kernel) (by simp) _ _
  have hk : md.callIndex (_root_.Spec.hexText [i, j]) = some (oldCallEntry x c) := by
    rw [hm.2.1]
    exact (hD.calls i j _).2 ⟨x, c, hc.1, hc.2, rfl⟩
  have he : (oldCallEntry x c).args = (keptText n, typeText destinationText) :: rest.map fun a => (keptText a.1, typeText a.2) := by
    simp [oldCallEntry, ha]
  cases vs with
  | nil =>
    refine encodeRefuses_of_enc ⟨hcall, by decide⟩ ⟨0, fun k _ => ?_⟩
    change encodeCall out.reg.env.ext (enc out.reg.env k) ⟨spec, some md⟩ (argOf (.boxCall s gs hs)) = Res.panic
    rw [show argOf (.boxCall s gs hs) = .boxCall s gs hs from rfl, encodeCall_entry rfl hi hk hg, he]
    rfl
  | cons y vs =>
    obtain ⟨N, hN⟩ := C94_destination out.reg.env hR ⟨spec, some md⟩ y
    refine encodeRefuses_of_enc ⟨hcall, by decide⟩ ⟨N, fun k hk' => ?_⟩
    change encodeCall out.reg.env.ext (enc out.reg.env k) ⟨spec, some md⟩ (argOf (.boxCall s gs hs)) = Res.panic
    rw [show argOf (.boxCall s gs hs) = .boxCall s gs hs from rfl, encodeCall_entry rfl hi hk hg, he, encArgs, hN k hk']
    rfl

/-- The arguments of a transfer. -/
def transferCall : OCall := ⟨b!"transfer", [(b!"dest", destinationText), (b!"value", b!"Compact<T::Balance>")], []⟩

/-- The event that tells of it. -/
def transferEvent : OEvent := ⟨b!"Transfer", [b!"AccountId", b!"AccountId", b!"Balance"], []⟩

/-- A module with a transfer and with a call without a destination. -/
def transferModule : OModule :=
  ⟨b!"Balances", none, some [transferCall, ⟨b!"burn", [(b!"value", b!"Compact<T::Balance>")], []⟩], some [transferEvent], [], [], 0⟩

theorem transfer_fits : FOld 9 [transferModule] 0 [] := by
  have t : ∀ s : Str, s.length ≤ 40 → _root_.Spec.FText s := fun s h => Nat.lt_of_le_of_lt h (by decide)
  have nil : ∀ {α : Type} (P : α → Prop), _root_.Spec.FList P [] := fun P => ⟨by simp, by simp⟩
  have one : ∀ {α : Type} (P : α → Prop) (a : α), P a → _root_.Spec.FList P [a] := fun P a h => ⟨by simp, by simpa using h⟩
  have two : ∀ {α : Type} (P : α → Prop) (a b : α), P a → P b → _root_.Spec.FList P [a, b] := fun P a b h k => ⟨by simp, by simp [h, k]⟩
  have three : ∀ {α : Type} (P : α → Prop) (a b c : α), P a → P b → P c → _root_.Spec.FList P [a, b, c] := fun P a b c h k m => ⟨by simp, by simp [h, k, m]⟩
  refine ⟨one _ _ ⟨t _ (by decide), nofun, ?_, ?_, nil _, nil _, by decide⟩, by decide, nil _⟩
  · rintro s ⟨⟩
    exact two _ _ _ ⟨t _ (by decide), two _ _ _ ⟨t _ (by decide), t _ (by decide)⟩ ⟨t _ (by decide), t _ (by decide)⟩, nil _⟩
      ⟨t _ (by decide), one _ _ ⟨t _ (by decide), t _ (by decide)⟩, nil _⟩
  · rintro s ⟨⟩
    exact one _ _ ⟨t _ (by decide), three _ _ _ _ (t _ (by decide)) (t _ (by decide)) (t _ (by decide)), nil _⟩

theorem transfer_call : IsOldCall 9 [transferModule] transferModule transferCall 0 0 := ⟨⟨[], [], rfl, rfl, rfl⟩, rfl⟩

/-- The value of the transfer. -/
theorem transfer_value : GoodValue b!"Compact<T::Balance>" (.dec 5 0) (.dec 5 0) [20] := by
  refine ⟨b!"Compact<Balance>", .compact (r := b!"T::Balance") (w := b!"Balance") (.inr ⟨2 ^ 128, true, by simp [substrate, _root_.Spec.compactTypes]⟩) ⟨b!"T::", [], .inr ⟨.inl rfl, by decide⟩, .inl rfl, rfl⟩, ?_⟩
  refine .leaf (sh := .compact (2 ^ 128) true) (.compact (w := b!"Balance") (by simp [substrate, _root_.Spec.compactTypes]) trivial) ⟨5, by decide, rfl, rfl, .inl ⟨by decide, by decide⟩⟩ ?_
  rintro n (h | h) <;> cases h
  decide

open _root_.Spec (WText WList EncOArg EncOCall EncOEvent EncOModule) in
theorem transfer_written : ∃ b, EncOld 9 [transferModule] 0 [] b ∧ b.length < 2 ^ 63 := by
  have zero : _root_.Spec.IsCompact 0 [0] := .inl ⟨by decide, by decide⟩
  have one : _root_.Spec.IsCompact 1 [4] := .inl ⟨by decide, by decide⟩
  have two : _root_.Spec.IsCompact 2 [8] := .inl ⟨by decide, by decide⟩
  have three : _root_.Spec.IsCompact 3 [12] := .inl ⟨by decide, by decide⟩
  have text : ∀ (s : Str) (c : UInt8), s.length < 64 → [c] = _root_.Spec.leBytes 1 (4 * s.length) → WText s ([c] ++ s) := fun s c h e =>
    ⟨[c], .inl ⟨h, e⟩, rfl⟩
  have nil : ∀ {α : Type} (P : α → Str → Prop), WList P [] [0] := fun P => ⟨[0], [], zero, rfl, rfl⟩
  have dest : EncOArg (b!"dest", destinationText) _ := ⟨_, _, text _ 16 (by decide) (by decide), text _ 140 (by decide) (by decide), rfl⟩
  have value : EncOArg (b!"value", b!"Compact<T::Balance>") _ := ⟨_, _, text _ 20 (by decide) (by decide), text _ 76 (by decide) (by decide), rfl⟩
  have call1 : EncOCall transferCall _ :=
    ⟨_, _, _, text _ 32 (by decide) (by decide), ⟨[8], _, two, ⟨_, _, dest, ⟨_, _, value, rfl, rfl⟩, rfl⟩, rfl⟩, nil _, rfl⟩
  have call2 : EncOCall ⟨b!"burn", [(b!"value", b!"Compact<T::Balance>")], []⟩ _ :=
    ⟨_, _, _, text _ 16 (by decide) (by decide), ⟨[4], _, one, ⟨_, _, value, rfl, rfl⟩, rfl⟩, nil _, rfl⟩
  have account := text b!"AccountId" 36 (by decide) (by decide)
  have balance := text b!"Balance" 28 (by decide) (by decide)
  have event : EncOEvent transferEvent _ :=
    ⟨_, _, _, text _ 32 (by decide) (by decide), ⟨[12], _, three, ⟨_, _, account, ⟨_, _, account, ⟨_, _, balance, rfl, rfl⟩, rfl⟩, rfl⟩, rfl⟩, nil _, rfl⟩
  have mod : EncOModule 9 transferModule _ :=
    ⟨_, [0], _, _, [0], [0], text _ 32 (by decide) (by decide), rfl, ⟨_, ⟨[8], _, two, ⟨_, _, call1, ⟨_, _, call2, rfl, rfl⟩, rfl⟩, rfl⟩, rfl⟩,
      ⟨_, ⟨[4], _, one, ⟨_, _, event, rfl, rfl⟩, rfl⟩, rfl⟩, nil _, nil _, rfl⟩
  exact ⟨_, ⟨_, [0], ⟨[4], _, one, ⟨_, [], mod, rfl, rfl⟩, rfl⟩, nil _, rfl⟩, by decide +kernel⟩

/-- The full claim is false: a transfer cannot be written. -/
theorem C94_claim_false : ¬ C94Claim := by
  intro h
  have hr := loaded_readsOld dummyExt 0 none
  obtain ⟨b, hb, hl⟩ := transfer_written
  obtain ⟨out, h1, h2⟩ := h 9 ⟨loadedEnv dummyExt, fun _ => none⟩ 0 none _ 0 [] b (by decide) (by decide) hr (loaded_oldReady _) transfer_fits
    (fun h => absurd h (by decide)) hb hl
  obtain ⟨out2, read, rest, rfl, -, h3, h4, h5⟩ := C82_exact 9 ⟨loadedEnv dummyExt, fun _ => none⟩ ⟨[], 0, none⟩ _ 0 [] b hr transfer_fits
    (fun h => absurd h (by decide)) hb
  obtain rfl := gives_unique h1 (h3.gives hl)
  have hR : OldReady out.reg.env := by rw [h5]; exact loaded_oldReady _
  let md : MD := ⟨9, out.callIndex, out.eventIndex, none⟩
  have hm : UsesOld 9 md out := ⟨rfl, rfl, rfl⟩
  obtain ⟨N, hN⟩ := (h2 md hm).encode _ _ 0 0 [(.str (_root_.Spec.hexText (List.replicate 32 1)), .str (_root_.Spec.hexText (List.replicate 32 1)), 255 :: List.replicate 32 1),
    (.dec 5 0, .dec 5 0, [20])] transfer_call (.cons (.inr ⟨rfl, _, by simp, rfl, rfl, rfl⟩) (.cons (.inl (C94_values transfer_value)) .nil)) 0 b!"0000" _ [] trivial
    (.inl (by decide)) (.inl ⟨rfl, rfl⟩)
  obtain ⟨M, hM⟩ := C94_transfer 9 _ _ _ out md _ _ _ _ 0 0 h4 hR hm transfer_call rfl 0 b!"0000" _ _ _ (.inl (by decide)) (.inl ⟨rfl, rfl⟩)
  have e1 := hN (N + M) (by omega)
  have e2 := hM (N + M) (by omega)
  rw [e2] at e1
  cases e1

/-! ## An example -/

theorem account_value (x : UInt8) : GoodValue b!"AccountId" (.str (b!"0x" ++ _root_.Spec.hexText (List.replicate 32 x)))
    (.str (b!"0x" ++ _root_.Spec.hexText (List.replicate 32 x))) (List.replicate 32 x) :=
  ⟨b!"AccountId", .name (sh := .account) (by simp [substrate, runtimeTypes]) ⟨[], [], .inl rfl, .inl rfl, rfl⟩,
    .leaf (sh := .account) (.name (by simp [substrate, runtimeTypes])) ⟨by simp, rfl, rfl⟩ trivial⟩

theorem balance_value : GoodValue b!"Balance" (.dec 5 0) (.dec 5 0) (_root_.Spec.leBytes 16 5) := by
  refine ⟨b!"Balance", .name (sh := .balance) (by simp [substrate, runtimeTypes]) ⟨[], [], .inl rfl, .inl rfl, rfl⟩,
    .leaf (sh := .balance) (.name (by simp [substrate, runtimeTypes])) ⟨5, by decide, ?_, rfl, rfl⟩ (by intro h; cases h)⟩
  exact rfl

/-- With the metadata above a call that burns 5 is written to three bytes which are read back, a transfer of 5 to the account
`0101…` is read, and so is the record of its event. -/
example : ∃ b out, Gives (fun n => processOld 9 n ⟨loadedEnv dummyExt, fun _ => none⟩ ⟨[], 0, none⟩) b out ∧ ∀ md, UsesOld 9 md out →
    Encodes out.reg.env ⟨0, some md⟩ b!"Call" (.boxCall b!"0001" [.dec 5 0] []) [0, 1, 20] ∧
    Decodes out.reg.env ⟨[], 0, some md⟩ b!"Call" [0, 1, 20] (callVal 0 1 ⟨b!"burn", b!"Balances", [(b!"value", b!"Compact<Balance>")]⟩ [.dec 5 0]) [b!"000114"] ∧
    (∃ call, Decodes out.reg.env ⟨[], 0, some md⟩ b!"Call" ([0, 0, 255] ++ (List.replicate 32 1 ++ [20]))
      (callVal 0 0 ⟨b!"transfer", b!"Balances", [(b!"dest", b!"Address"), (b!"value", b!"Compact<Balance>")]⟩
        [.str (_root_.Spec.hexText (List.replicate 32 1)), .dec 5 0]) [call]) ∧
    ∃ N ev, ∀ fuel, N ≤ fuel → ∃ st, decodeEvents out.reg.env fuel 0 md []
      ([4, 0, 7, 0, 0, 0, 0, 0] ++ (List.replicate 32 1 ++ (List.replicate 32 2 ++ (_root_.Spec.leBytes 16 5 ++ [0])))) = .ok ([ev], st) ∧
        ev.moduleId = b!"Balances" ∧ ev.eventId = b!"Transfer" ∧ ev.extrinsicIdx = 7 ∧ ev.params = [(b!"AccountId", [], .str (b!"0x" ++ _root_.Spec.hexText (List.replicate 32 1))),
          (b!"AccountId", [], .str (b!"0x" ++ _root_.Spec.hexText (List.replicate 32 2))), (b!"Balance", [], .dec 5 0)] := by
  obtain ⟨b, hb, hl⟩ := transfer_written
  obtain ⟨out, h1, h2⟩ := C94_partial 9 ⟨loadedEnv dummyExt, fun _ => none⟩ 0 none _ 0 [] b (by decide) (loaded_readsOld dummyExt 0 none)
    (loaded_oldReady _) transfer_fits (fun h => absurd h (by decide)) hb hl
  have ok : ∀ n ∈ ownModules, ¬ SameName (keptText transferModule.name) n := by decide +kernel
  have hburn : IsOldCall 9 [transferModule] transferModule ⟨b!"burn", [(b!"value", b!"Compact<T::Balance>")], []⟩ 0 1 := ⟨⟨[], [], rfl, rfl, rfl⟩, rfl⟩
  have hev : IsOldEvent 9 [transferModule] transferModule transferEvent 0 0 := ⟨⟨[], [], rfl, rfl, rfl⟩, rfl⟩
  refine ⟨b, out, h1, fun md hm => ⟨?_, ?_, ?_, ?_⟩⟩
  · exact (h2 md hm).encode _ _ 0 1 [(.dec 5 0, .dec 5 0, [20])] hburn (.cons transfer_value .nil) 0 _ _ [] trivial (.inl (by decide)) (.inl ⟨rfl, rfl⟩)
  · have := (h2 md hm).decode _ _ 0 1 [(.dec 5 0, .dec 5 0, [20])] hburn ok (.cons (.inl transfer_value) .nil) [] 0 trivial
    rw [show oldCallEntry transferModule ⟨b!"burn", [(b!"value", b!"Compact<T::Balance>")], []⟩ =
      ⟨b!"burn", b!"Balances", [(b!"value", b!"Compact<Balance>")]⟩ by kernel_rfl] at this
    exact this
  · have := (h2 md hm).decode _ _ 0 0 [(.str (_root_.Spec.hexText (List.replicate 32 1)), .str (_root_.Spec.hexText (List.replicate 32 1)),
      255 :: List.replicate 32 1), (.dec 5 0, .dec 5 0, [20])] transfer_call ok
      (.cons (.inr ⟨rfl, _, by simp, rfl, rfl, rfl⟩) (.cons (.inl transfer_value) .nil)) [] 0 trivial
    rw [show oldCallEntry transferModule transferCall =
      ⟨b!"transfer", b!"Balances", [(b!"dest", b!"Address"), (b!"value", b!"Compact<Balance>")]⟩ by kernel_rfl] at this
    exact ⟨_, this⟩
  · let ev : Event := ⟨0, 0, 7, b!"0000", b!"Balances", b!"Transfer", [(b!"AccountId", [], .str (b!"0x" ++ _root_.Spec.hexText (List.replicate 32 1))),
      (b!"AccountId", [], .str (b!"0x" ++ _root_.Spec.hexText (List.replicate 32 2))), (b!"Balance", [], .dec 5 0)], [],
      _root_.Spec.hexText (List.replicate 32 1 ++ (List.replicate 32 2 ++ _root_.Spec.leBytes 16 5))⟩
    obtain ⟨N, h⟩ := (h2 md hm).events [([0, 7, 0, 0, 0, 0, 0] ++ (List.replicate 32 1 ++ (List.replicate 32 2 ++ (_root_.Spec.leBytes 16 5 ++ [0]))), ev)] (by
        intro r hr
        obtain rfl := List.mem_singleton.1 hr
        refine ⟨_, _, 0, 0, [(_, _, List.replicate 32 1), (_, _, List.replicate 32 2), (_, _, _root_.Spec.leBytes 16 5)], [0, 7, 0, 0, 0], [0], [], hev, ok,
          .cons (account_value 1) (.cons (account_value 2) (.cons balance_value .nil)), .inl ⟨7, by decide, by decide, rfl, rfl⟩, by simp, by simp,
          .inl ⟨by decide, by decide +kernel⟩, by decide +kernel, by decide, by decide +kernel, by decide +kernel, ?_, rfl, by decide +kernel⟩
        rfl) rfl 0 [] [4] [] trivial (.inl ⟨by decide, by decide⟩) (by decide) (by simp)
    exact ⟨N, ev, fun fuel hf => ⟨_, h fuel hf, rfl, rfl, rfl, rfl⟩⟩

end ScaleGo
