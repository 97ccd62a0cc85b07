import Verif.Lemmas.NeatText
import Verif.Props.C59

/-! # C92: type texts of metadata of versions 9 to 13 mean what they say

English claim: with the built-in types loaded, every type text composed of the names of Substrate's basic types by `Vec<…>`,
`Option<…>`, `Compact<…>`, `[…; n]` and tuples is encoded and decoded according to the SCALE specification of the type it denotes. -/

namespace ScaleGo
open _root_.Spec (Shape Payload Part Scale Leaf Names substrate TypeOver MeansOver RustType Means runtimeTypes compactTypes commaText)
open ScaleGo.Spec

/-- Modules that have types of their own by the names of basic types (`Balance`, `AuthorityId`, `Timepoint`). -/
def ownModules : List Str := [b!"Assets", b!"Beefy", b!"BridgeMultisig"]

/-- The full claim. -/
def C92Claim : Prop :=
  ∀ (ext : Ext) (ctx : Ctx) (ectx : ECtx) (ty : Str) (v r : Val) (b : Str), (∀ n ∈ ownModules, ¬ SameName ctx.module n) →
    Scale (Means (fun _ => True) (fun _ => True)) (fun _ _ _ _ => True) ty v r b →
    Encodes (loadedEnv ext) ectx ty v b ∧ Decodes (loadedEnv ext) ctx ty b r []

/-- The built-in types with tuple texts for names. -/
def tupleNames : List Str :=
  [b!"(AccountId, Balance)", b!"(BalanceOf<T, I>, BidKind<AccountId, BalanceOf<T, I>>)",
   b!"(BoundedVec<ProxyDefinition<AccountId,ProxyType,BlockNumber>,MaxProxies>,BalanceOf)"]

/-- The tuples that are split correctly (see C35) and are no built-in names. -/
structure FlatTuple (ms : List Str) : Prop where
  members : ∀ m ∈ ms, Innermost m
  unnamed : ∀ n ∈ tupleNames, ¬ SameName (b!"(" ++ commaText ms ++ b!")") n

/-- The lengths of arrays that can be written. -/
def ArrayLength (n : Nat) : Prop := 0 < n ∧ n < 2 ^ 63

/-- What the library makes of type texts. -/
abbrev ReadOver (N : Names) := MeansOver N FlatTuple ArrayLength

/-- What it makes of those over the names of Substrate. -/
abbrev Read := ReadOver substrate

/-! ## Lookups -/

/-- What a variant carries. -/
def payloadText : Payload Str → Str
  | .one t => t
  | _ => []

def isOne : Payload Str → Bool
  | .one _ => true
  | _ => false

/-- The class of a name. -/
def shapeClass : Shape Str → Option Cls
  | .uint 1 => some .u8
  | .uint 2 => some .u16
  | .uint 4 => some .u32
  | .uint 8 => some .u64
  | .u128 => some .u128
  | .int 2 => some (.intFixed 2)
  | .int 4 => some (.intFixed 4)
  | .int 8 => some (.intFixed 8)
  | .bool => some .bool
  | .bytes .bytes => some .bytes
  | .bytes .string => some .string
  | .hash n => some (.hash n)
  | .account => some .accountId
  | .balance => some .balance
  | .struct fs => some (.struct (some fs))
  | .names cs => some (.enum (cs.map Prod.fst) none)
  | .enum vs => some (.enum [] (some (vs.map fun v => (v.2.1, payloadText v.2.2))))
  | _ => none

/-- Names are numbered from 0 on and told apart; variants too, and each carries one type with a name. -/
def proper : Shape Str → Bool
  | .names cs => cs == (cs.map Prod.fst).zipIdx && decide (cs.map Prod.fst).Nodup && !(cs.map Prod.fst).contains [] && decide (cs.length ≤ 256)
  | .enum vs => !vs.isEmpty && decide (vs.map (fun v => (v.2.1, v.1)) = (vs.map (·.2.1)).zipIdx) && decide (vs.map (·.2.1)).Nodup && decide (vs.length ≤ 256) &&
      vs.all fun v => isOne v.2.2 && match payloadText v.2.2 with
        | [] => false
        | c :: _ => decide (65 ≤ c.toNat ∧ c ≠ 91)
  | _ => true

theorem isOne_eq {p : Payload Str} (h : isOne p = true) : p = .one (payloadText p) := by
  cases p <;> first | rfl | cases h

theorem not_number {c : UInt8} {t : Str} (h : 65 ≤ c.toNat) : ¬ IsNumberText (c :: t) := fun hn => by
  have := hn.2 c (by simp)
  omega

theorem shapeClass_is {env : Env} {sh : Shape Str} {c : Cls} (h : shapeClass sh = some c) (hp : proper sh = true) : ClassIs env c [] [] sh := by
  unfold shapeClass at h
  split at h <;> first | (cases h; done) | (cases h; simp [ClassIs, uintClass]; done) | skip
  · rename_i cs
    cases h
    simp only [proper, Bool.and_eq_true, beq_iff_eq, decide_eq_true_eq, Bool.not_eq_true', List.contains_eq_mem, decide_eq_false_iff_not] at hp
    exact .inr ⟨_, rfl, hp.1.1.1, hp.1.1.2, hp.1.2, by simpa using hp.2⟩
  · rename_i vs
    cases h
    simp only [proper, Bool.and_eq_true, decide_eq_true_eq, List.all_eq_true] at hp
    obtain ⟨⟨⟨⟨h1, h2⟩, h3⟩, h4⟩, h5⟩ := hp
    have one : ∀ v ∈ vs, ∃ c t, payloadText v.2.2 = c :: t ∧ v.2.2 = .one (c :: t) ∧ 65 ≤ c.toNat ∧ c ≠ 91 := by
      intro v hv
      obtain ⟨a, b⟩ := h5 v hv
      have e := isOne_eq a
      generalize payloadText v.2.2 = t at b e
      cases t with
      | nil => cases b
      | cons c t => exact ⟨c, t, rfl, e, of_decide_eq_true b⟩
    refine ⟨[], _, rfl, ?_, ?_⟩
    · intro hc
      cases vs with
      | nil => simp at h1
      | cons v vs =>
        obtain ⟨c, t, e, -, hc', -⟩ := one v (by simp)
        have := hc (v.2.1, payloadText v.2.2) (by simp)
        rw [e] at this
        exact not_number hc' this
    · intro v hv
      obtain ⟨k, hk⟩ := List.getElem?_of_mem hv
      have hkl := (List.getElem?_eq_some_iff.1 hk).1
      have hix : v.1 = k := by
        have := congrArg (fun l => l[k]?) h2
        simp only [List.getElem?_map, hk, Option.map_some, List.getElem?_zipIdx] at this
        simpa using this
      obtain ⟨c, t, e, e', hc, hn⟩ := one v hv
      refine ⟨by omega, payloadText v.2.2, by simp [hix, hk], ?_, ?_⟩
      · intro j w hj
        rw [List.getElem?_map] at hj
        obtain ⟨x, hx, ex⟩ := Option.map_eq_some_iff.1 hj
        have a1 : (vs.map (·.2.1))[j]? = some v.2.1 := by rw [List.getElem?_map, hx]; simp [(Prod.mk.inj ex).1]
        have a2 : (vs.map (·.2.1))[k]? = some v.2.1 := by rw [List.getElem?_map, hk]; rfl
        rw [hix]
        obtain ⟨b1, c1⟩ := List.getElem?_eq_some_iff.1 a1
        obtain ⟨b2, c2⟩ := List.getElem?_eq_some_iff.1 a2
        exact (List.Nodup.getElem_inj_iff h3).1 (c1.trans c2.symm)
      · rw [e, e']
        exact ⟨rfl, by simp, by rintro ⟨r, hr⟩; exact hn (List.cons.inj hr).1⟩

/-- The ways a type is spelled. -/
def Cased (a t : Str) : Prop := t = a ∨ t = toLower a

theorem Cased.refl (a : Str) : Cased a a := .inl rfl

theorem Cased.lower {a t : Str} (h : Cased a t) : toLower t = toLower a := by
  rcases h with rfl | rfl
  · rfl
  · exact toLower_idem a

theorem shapeClass_like {sh : Shape Str} {c : Cls} (h : shapeClass sh = some c) (hp : proper sh = true) : Like Cased sh sh := by
  unfold shapeClass at h
  split at h <;> first | (cases h; done) | skip
  all_goals first | rfl | skip
  · exact ⟨_, rfl, List.forall₂_same.2 fun x _ => ⟨rfl, .refl _⟩⟩
  · exact ⟨_, rfl, fun _ h => h⟩
  · refine ⟨_, rfl, List.forall₂_same.2 fun v hv => ⟨rfl, rfl, ?_⟩⟩
    simp only [proper, Bool.and_eq_true, List.all_eq_true] at hp
    rw [isOne_eq (hp.2 v hv).1]
    exact ⟨_, rfl, .refl _⟩

theorem names_entered : ∀ p ∈ runtimeTypes, proper p.2 = true ∧ (shapeClass p.2).isSome = true ∧ fastReg (toLower p.1) = shapeClass p.2 := by decide +kernel

theorem compacts_entered : ∀ p ∈ compactTypes, fastReg (toLower (generic b!"Compact" p.1)) = none ∧
    ∃ k ∈ compactKinds, fastReg (toLower p.1) = some k.1 ∧ k.2 = p.2 := by decide +kernel

theorem convert_neat {a t : Str} (ha : Neat a) (h : Cased a t) (hv : toLower a ≠ b!"vec<u8>") : Verbatim t := by
  have : ¬ SameName a b!"Vec<u8>" := fun e => hv ((toLower_eq_iff _ _).2 e)
  rcases h with rfl | rfl
  · exact ha.verbatim this
  · exact ha.verbatim_lower this

theorem no_vec {a : Str} (h : (60 : UInt8) ∉ a) : toLower a ≠ b!"vec<u8>" := fun e => h (mem_lower (by rw [e]; decide) (by decide))

/-- The text has its built-in entry, or none as among the built-in types. -/
def Held (env : Env) (t : Str) : Prop := env.reg (toLower t) = loadedReg (toLower t) ∧ env.special (toLower t) = []

/-- Registries in which the texts of the grammar have their built-in entries; other types may have been registered. -/
structure BuiltIn (env : Env) : Prop where
  types : ∀ t, RustType t → Held env t
  words : ∀ w ∈ [b!"Vec", b!"Option", b!"Compact", b!"Struct", b!"empty", b!"Null"], Held env w

/-- The built-in types alone. -/
theorem builtIn_loaded (ext : Ext) : BuiltIn (loadedEnv ext) := ⟨fun _ _ => ⟨rfl, rfl⟩, fun _ _ => ⟨rfl, rfl⟩⟩

/-- The same for the versions of `S`. -/
def HeldAt (env : Env) (S : Int → Prop) (t : Str) : Prop :=
  env.reg (toLower t) = loadedReg (toLower t) ∧ ∀ spec, S spec → findSpecial spec (env.special (toLower t)) = none

/-- The class of a text in every module that does not override it and for the versions of `S`. -/
def LooksAt (env : Env) (S : Int → Prop) (t : Str) (c : Cls) (s : Str) : Prop :=
  ∀ m spec, S spec → NotOverridden m (convertType t) → Resolves env m spec t c s

/-- Shapes whose types are all given by texts. -/
def Solid (sh : Shape Str) : Prop := Like Cased sh sh ∧ sh ≠ .null ∧ ∀ n d, sh ≠ .compact n d

/-- Registries in which the names stand, for the versions of `S`, for what they are said to be; everything else may have been registered. -/
structure Speaks (env : Env) (S : Int → Prop) (N : Names) : Prop where
  types : ∀ {w sh}, N.type w sh → Solid sh ∧ ∃ c, (∀ spec, S spec → Entered env spec w c) ∧ ClassIs env c [] [] sh
  compact : ∀ {w n d}, N.compact w n d → loadedReg (toLower (generic b!"Compact" w)) = none ∧ ∃ c, (c, n, d) ∈ compactKinds ∧ Entered env 0 w c
  free : ∀ {t}, TypeOver N t → N.free t → HeldAt env S t
  words : ∀ w ∈ [b!"Vec", b!"Option", b!"Compact", b!"Struct", b!"empty", b!"Null", b!"Bytes", b!"Compact<u32>"], Held env w

section
variable {env : Env} {S : Int → Prop}

theorem Held.cased {a t : Str} (h : Held env a) (ht : Cased a t) : Held env t := by
  unfold Held
  rw [ht.lower]
  exact h

theorem HeldAt.cased {a t : Str} (h : HeldAt env S a) (ht : Cased a t) : HeldAt env S t := by
  unfold HeldAt
  rw [ht.lower]
  exact h

theorem Held.at {t : Str} (h : Held env t) : HeldAt env S t := ⟨h.1, fun spec _ => by rw [h.2]; rfl⟩

theorem old_unregistered {t : Str} {spec : Int} (hk : HeldAt env S t) (hs : S spec) (h : loadedReg (toLower t) = none) : Unregistered env spec t :=
  ⟨hk.2 spec hs, by rw [hk.1]; exact h⟩

theorem entered_at {t : Str} {spec : Int} {c : Cls} (hk : HeldAt env S t) (hs : S spec) (h : loadedReg (toLower t) = some c) : Entered env spec t c := by
  unfold Entered
  rw [hk.2 spec hs, hk.1]
  exact h

theorem old_entered {t : Str} {spec : Int} {c : Cls} (hk : Held env t) (h : loadedReg (toLower t) = some c) : Entered env spec t c :=
  entered_at (S := fun _ => True) hk.at trivial h

theorem instant_entered {m s : Str} {spec : Int} {c : Cls} (h : PlainName s) (hm : NotOverridden m s)
    (he : Entered env spec s c) : getCodecInstant env m s spec = .ok (some c) := by
  rw [getCodecInstant_plain env spec h (moduleType_notOverridden hm)]
  unfold Entered at he
  rw [he]

theorem verbatim_ne_nil {t : Str} (hv : Verbatim t) : t ≠ [] := by
  rintro rfl
  obtain ⟨⟨c, r, h, _⟩, _⟩ := hv.trimmed
  cases h

theorem entered_looks {t : Str} {c : Cls} (he : ∀ spec, S spec → Entered env spec t c) (hv : Verbatim t) : LooksAt env S t c [] := by
  intro m spec hs hm
  have e := convertType_verbatim hv
  rw [e] at hm
  exact resolves_converted e (verbatim_ne_nil hv) hm (he spec hs)

theorem old_entry {t : Str} {c : Cls} (hk : HeldAt env S t) (hv : Verbatim t) (hc : loadedReg (toLower t) = some c) : LooksAt env S t c [] :=
  entered_looks (fun _ hs => entered_at hk hs hc) hv

theorem old_wrapper {w a : Str} {c : Cls} (hg : HeldAt env S (generic w a)) (hk : Held env w) (hw : PlainName w) (hn : NeverOverridden w) (ha : a ≠ []) (hv : Verbatim (generic w a))
    (hu : loadedReg (toLower (generic w a)) = none) (hc : loadedReg (toLower w) = some c) :
    LooksAt env S (generic w a) c a := by
  intro m spec hs hm
  rw [convertType_verbatim hv] at hm
  exact C36_wrapper_partial _ m spec w a c hw ha hv (hn.apply m) hm (old_unregistered hg hs hu) (old_entered hk hc)

theorem old_bytes {t : Str} (hk : Held env b!"Bytes") (h : Cased b!"Vec<u8>" t) : LooksAt env S t .bytes [] := by
  intro m spec _ hm
  have hv : convertType t = b!"Bytes" := by rcases h with rfl | rfl <;> kernel_rfl
  rw [hv] at hm
  exact resolves_converted hv (by simp) hm (old_entered hk (by rw [loadedReg_fast]; kernel_rfl))

theorem cased_generic {w a t : Str} (h : Cased (generic w a) t) : ∃ w' a', t = generic w' a' ∧ Cased w w' ∧ Cased a a' := by
  rcases h with rfl | rfl
  · exact ⟨w, a, rfl, .refl _, .refl _⟩
  · exact ⟨_, _, lower_generic w a, .inr rfl, .inr rfl⟩

theorem cased_array {a t : Str} {n : Nat} (h : Cased (arrayText a 1 n) t) : ∃ a', t = arrayText a' 1 n ∧ Cased a a' := by
  rcases h with rfl | rfl
  · exact ⟨a, rfl, .refl _⟩
  · exact ⟨_, lower_arrayText a 1 n, .inr rfl⟩

theorem cased_ne_nil {a t : Str} (h : Cased a t) (ha : a ≠ []) : t ≠ [] := by
  rcases h with rfl | rfl
  · exact ha
  · intro e
    exact ha (by simpa [toLower] using e)

/-- A generic text of the grammar. -/
theorem old_generic {w a t : Str} {c : Cls} (hg : HeldAt env S (generic w a)) (hk : Held env w) (hw : w ∈ wrapWords) (ha : Neat a) (h : Cased (generic w a) t)
    (hv : toLower (generic w a) ≠ b!"vec<u8>") (hu : loadedReg (toLower (generic w a)) = none) (hc : loadedReg (toLower w) = some c) :
    ∃ s, Cased a s ∧ s ≠ [] ∧ LooksAt env S t c s := by
  have hver := convert_neat (ha.generic hw) h hv
  have hlow := h.lower
  have hg' := hg.cased h
  obtain ⟨w', a', rfl, hw', ha'⟩ := cased_generic h
  have hp : PlainName w' ∧ NeverOverridden w' := by
    rcases hw' with rfl | rfl
    · exact (by decide +kernel : ∀ w ∈ wrapWords, PlainName w ∧ NeverOverridden w) _ hw
    · exact (by decide +kernel : ∀ w ∈ wrapWords, PlainName (toLower w) ∧ NeverOverridden (toLower w)) _ hw
  have hne := cased_ne_nil ha' ha.ne_nil
  exact ⟨a', ha', hne, old_wrapper hg' (hk.cased hw') hp.1 hp.2 hne hver (by rw [hlow]; exact hu) (by rw [hw'.lower]; exact hc)⟩

/-- An array text of the grammar. -/
theorem old_array {a t : Str} {n : Nat} (hk : HeldAt env S (arrayText a 1 n)) (ha : Neat a) (hn : n < 2 ^ 63) (h : Cased (arrayText a 1 n) t) :
    ∃ c, LooksAt env S t c [] ∧ (c = .fixedArray n (toLower a) ∨ toLower a = b!"u8" ∧ c = .fixedU8 n) := by
  have hver : Verbatim t := convert_neat (ha.array n) h (fun e => absurd (List.cons.inj e).1 (by decide))
  have hlow := h.lower
  have hk' := hk.cased h
  cases e : loadedReg (toLower t) with
  | some c =>
    refine ⟨c, old_entry hk' hver e, ?_⟩
    rw [hlow, lower_arrayText] at e
    exact loaded_stock.array _ _ _ e
  | none =>
    obtain ⟨a', rfl, ha'⟩ := cased_array h
    refine ⟨.fixedArray n (toLower a), ?_, .inl rfl⟩
    intro m spec hs hm
    rw [convertType_verbatim hver] at hm
    have ht : Trimmed a' := by
      rcases ha' with rfl | rfl
      · exact ha.trimmed
      · exact trimmed_lower ha.trimmed
    have := C64_resolves env m spec a' 1 n ht hn ⟨hver, hm, old_unregistered hk' hs e⟩
    rw [← toLower_eq_spec, ha'.lower] at this
    exact this

/-! ## Tuples -/

/-- The members with a blank before all but the first. -/
def blanks (k : Nat) : List Str → List (Nat × Str × Nat)
  | [] => []
  | m :: ms => (k, m, 0) :: blanks 1 ms

theorem tupleBody_blanks (ms : List Str) (k : Nat) (hne : ms ≠ []) : tupleBody (blanks k ms) = List.replicate k 32 ++ commaText ms := by
  induction ms generalizing k with
  | nil => exact absurd rfl hne
  | cons m ms ih =>
    cases ms with
    | nil => simp [blanks, tupleBody, commaText]
    | cons n ms =>
      have := ih 1 (by simp)
      simp only [blanks, tupleBody] at this ⊢
      rw [this]
      simp [commaText]

theorem blanks_members (ms : List Str) (k : Nat) : (blanks k ms).map (·.2.1) = ms := by
  induction ms generalizing k with
  | nil => rfl
  | cons m ms ih => simp [blanks, ih]

theorem blanks_mem {ms : List Str} {k : Nat} {x : Nat × Str × Nat} (h : x ∈ blanks k ms) : x.2.1 ∈ ms := by
  rw [← blanks_members ms k]
  exact List.mem_map.2 ⟨x, h, rfl⟩

theorem lower_commaText (ms : List Str) : toLower (commaText ms) = commaText (ms.map toLower) := by
  induction ms with
  | nil => rfl
  | cons m ms ih =>
    cases ms with
    | nil => rfl
    | cons n ms =>
      have e : toLower (m ++ b!", " ++ commaText (n :: ms)) = toLower m ++ b!", " ++ toLower (commaText (n :: ms)) := by
        simp [toLower, show lowerByte 44 = 44 from rfl, show lowerByte 32 = 32 from rfl]
      simp only [commaText, List.map_cons] at e ih ⊢
      rw [e, ih]

theorem lower_bracket {c : UInt8} : isBracket (lowerByte c) = isBracket c ∧ (lowerByte c = 44 → c = 44) ∧ (lowerByte c = 35 → c = 35) ∧
    (lowerByte c = 10 → c = 10) ∧ (isBracket c = true → lowerByte c = c) :=
  forall_byte (P := fun c => isBracket (lowerByte c) = isBracket c ∧ (lowerByte c = 44 → c = 44) ∧ (lowerByte c = 35 → c = 35) ∧
    (lowerByte c = 10 → c = 10) ∧ (isBracket c = true → lowerByte c = c)) (by decide +kernel) c

theorem innermost_lower {m : Str} (h : Innermost m) : Innermost (toLower m) := by
  have pair : ∀ {o c : UInt8}, (o, c) = (60, 62) ∨ (o, c) = (40, 41) → lowerByte o = o ∧ lowerByte c = c := by
    intro o c h
    obtain ⟨h1, h2⟩ := pair_brackets h
    exact ⟨lower_bracket.2.2.2.2 (open_bracket h1), lower_bracket.2.2.2.2 (close_bracket h2)⟩
  have step : ∀ {o c : UInt8} {i r : Str}, (o, c) = (60, 62) ∨ (o, c) = (40, 41) →
      toLower (o :: (i ++ c :: r)) = o :: (toLower i ++ c :: toLower r) := by
    intro o c i r h
    simp [toLower, (pair h).1, (pair h).2]
  induction h with
  | nil => exact .nil
  | plain c r hc h44 h35 h10 _ ih =>
    exact .plain _ _ (by rw [lower_bracket.1]; exact hc) (fun e => h44 (lower_bracket.2.1 e)) (fun e => h35 (lower_bracket.2.2.1 e))
      (fun e => h10 (lower_bracket.2.2.2.1 e)) ih
  | group o c i r ho hi _ ih =>
    rw [step ho]
    refine .group o c _ _ ho ?_ ih
    intro x hx
    obtain ⟨y, hy, rfl⟩ := List.mem_map.1 hx
    obtain ⟨h1, h2, h3⟩ := hi y hy
    exact ⟨by rw [lower_bracket.1]; exact h1, fun e => h2 (lower_bracket.2.2.1 e), fun e => h3 (lower_bracket.2.2.2.1 e)⟩
  | nest o c i r ho _ _ ihi ih =>
    rw [step ho]
    exact .nest o c _ _ ho ihi ih

theorem tuple_keys : ∀ p ∈ (Builtin.classes ++ baseReg), p.1.head? = some 40 → p.1 ∈ tupleNames.map toLower := by
  have : ((Builtin.classes ++ baseReg).all fun p => p.1.head? != some 40 || (tupleNames.map toLower).contains p.1) = true := by decide +kernel
  intro p hp h
  have := List.all_eq_true.1 this p hp
  rw [h] at this
  simpa using this

theorem columns_like (k : Nat) {ms ms' : List Str} (h : List.Forall₂ Cased ms ms') : LikeFields Cased (columns k ms) (columns k ms') := by
  induction h generalizing k with
  | nil => exact .nil
  | cons h _ ih => exact .cons ⟨rfl, h⟩ (ih (k + 1))

theorem old_struct : loadedReg (toLower b!"Struct") = some (.struct none) := by rw [loadedReg_fast]; kernel_rfl

/-- A tuple of the grammar. -/
theorem old_tuple {N : Names} (hN : Wordy N) {ms : List Str} {t : Str} (hk : HeldAt env S (b!"(" ++ commaText ms ++ b!")")) (hs : Held env b!"Struct") (hf : FlatTuple ms) (hne : ms ≠ []) (hr : ∀ m ∈ ms, TypeOver N m)
    (h : Cased (b!"(" ++ commaText ms ++ b!")") t) :
    ∃ ms', List.Forall₂ Cased ms ms' ∧ LooksAt env S t (.struct (some (columns 0 ms'))) [] := by
  have hneat : Neat (b!"(" ++ commaText ms ++ b!")") := .tuple hne fun m hm => over_neat hN (hr m hm)
  have e0 : ∀ ms : List Str, b!"(" ++ commaText ms ++ b!")" = 40 :: (commaText ms ++ [41]) := fun ms => by simp
  have hver : Verbatim t := convert_neat hneat h (by rw [e0]; exact fun e => absurd (List.cons.inj e).1 (by decide))
  have hlow := h.lower
  have hk' := hk.cased h
  have hreg : loadedReg (toLower t) = none := by
    cases e : loadedReg (toLower t) with
    | none => rfl
    | some c =>
      exfalso
      have := tuple_keys _ (mem_of_tableGet e) (by rw [hlow, e0]; rfl)
      obtain ⟨n, hn, e2⟩ := List.mem_map.1 this
      refine hf.unnamed n hn ((toLower_eq_iff _ _).1 ?_)
      rw [← hlow]; exact e2.symm
  obtain ⟨ms', rfl, hc, hin, hne'⟩ : ∃ ms', t = 40 :: (commaText ms' ++ [41]) ∧ List.Forall₂ Cased ms ms' ∧ (∀ m ∈ ms', Innermost m ∧ Trimmed m) ∧ ms' ≠ [] := by
    rcases h with rfl | rfl
    · exact ⟨ms, e0 ms, List.forall₂_same.2 fun x _ => .refl x, fun m hm => ⟨hf.members m hm, (over_neat hN (hr m hm)).trimmed⟩, hne⟩
    · refine ⟨ms.map toLower, ?_, ?_, ?_, by simpa using hne⟩
      · rw [e0, ← lower_commaText]
        simp [toLower, show lowerByte 40 = 40 from rfl, show lowerByte 41 = 41 from rfl]
      · rw [List.forall₂_map_right_iff]
        exact List.forall₂_same.2 fun x _ => .inr rfl
      · intro m hm
        obtain ⟨x, hx, rfl⟩ := List.mem_map.1 hm
        exact ⟨innermost_lower (hf.members x hx), trimmed_lower (over_neat hN (hr x hx)).trimmed⟩
  refine ⟨ms', hc, fun m spec hS hm => ?_⟩
  have eb := tupleBody_blanks ms' 0 hne'
  rw [List.replicate_zero, List.nil_append] at eb
  rw [convertType_verbatim hver] at hm
  rw [← eb] at hver hreg hm hk' ⊢
  have hb : blanks 0 ms' ≠ [] := by
    cases ms' with
    | nil => exact absurd rfl hne'
    | cons a l => simp [blanks]
  have hend : endsWith (40 :: (tupleBody (blanks 0 ms') ++ [41])) 62 = false := by
    unfold endsWith; rw [← List.cons_append, List.getLast?_concat]; decide
  have hi : getCodecInstant env m (40 :: (tupleBody (blanks 0 ms') ++ [41])) spec = .ok none := by
    unfold getCodecInstant
    have e : toLower (40 :: (tupleBody (blanks 0 ms') ++ [41])) = 40 :: toLower (tupleBody (blanks 0 ms') ++ [41]) := rfl
    have hs : findSpecial spec (env.special (toLower (40 :: (tupleBody (blanks 0 ms') ++ [41])))) = none := hk'.2 spec hS
    have hg : env.reg (toLower (40 :: (tupleBody (blanks 0 ms') ++ [41]))) = none := by rw [hk'.1]; exact hreg
    simp only [moduleType_notOverridden hm, toLower_idem, hs, hg]
    rw [e, if_neg (by intro he; exact absurd (List.cons.inj he).1 (by decide))]
    simp only
    rw [if_neg (fun h => absurd h.1 (by decide))]
  have := C35_lookup_partial env m spec (blanks 0 ms') (fun x hx => hin _ (blanks_mem hx)) hb (convertType_verbatim hver)
    (by simp [lookupParts, partsOf, hend, hi])
    ⟨_, instant_entered (by decide +kernel) ((by decide +kernel : NeverOverridden b!"Struct").apply m) (old_entered hs old_struct)⟩
  rw [blanks_members] at this
  exact this

/-! ## All texts -/

section
variable {N : Names} (hN : Wordy N)
include hN

theorem over_u8 {t : Str} (h : TypeOver N t) (e : toLower t = b!"u8") : t = b!"u8" := by
  cases h with
  | name h => exact (hN.word h).u8 e
  | _ => simp [toLower] at e <;> exact absurd e.1 (by decide)

theorem over_bool {t : Str} (h : TypeOver N t) (e : toLower t = b!"bool") : t = b!"bool" := by
  cases h with
  | name h => exact (hN.word h).bool e
  | _ => simp [toLower] at e <;> exact absurd e.1 (by decide)

theorem over_not_null {t : Str} (h : TypeOver N t) : toLower t ≠ b!"null" := by
  cases h with
  | name h => exact (hN.word h).null
  | _ => intro e; simp [toLower] at e <;> exact absurd e.1 (by decide)

theorem means_over {T : List Str → Prop} {L : Nat → Prop} {a : Str} {sh : Shape Str} (h : MeansOver N T L a sh) (hn : sh ≠ .null) : TypeOver N a := by
  cases h with
  | null => exact absurd rfl hn
  | name h => exact .name h
  | compact32 => exact .compact32
  | compact h _ => exact .compact h
  | bytes => exact .vec (.name hN.u8)
  | vec h _ _ => exact .vec h
  | optionBool _ => exact .option (.name hN.bool)
  | option h _ _ => exact .option h
  | byteArray n _ _ => exact .array n (.name hN.u8)
  | array n _ h _ _ => exact .array n h
  | tuple ms _ h1 h2 _ => exact .tuple ms h1 h2

end

theorem loaded_none {p s : Str} (h : loadedReg (p ++ s) = none) {w a : Str} (e : toLower (generic w a) = p ++ s) :
    loadedReg (toLower (generic w a)) = none := by rw [e]; exact h

theorem vec_none (a : Str) : loadedReg (toLower (generic b!"Vec" a)) = none := loaded_none (loaded_stock.vec (toLower a ++ b!">")) (by rw [lower_generic]; rfl)
theorem option_none (a : Str) : loadedReg (toLower (generic b!"Option" a)) = none :=
  loaded_none (loaded_stock.option (toLower a ++ b!">")) (by rw [lower_generic]; rfl)

theorem old_vec : loadedReg (toLower b!"Vec") = some (.vec []) := by rw [loadedReg_fast]; kernel_rfl
theorem old_option : loadedReg (toLower b!"Option") = some (.option []) := by rw [loadedReg_fast]; kernel_rfl
theorem old_compact : loadedReg (toLower b!"Compact") = some (.compact []) := by rw [loadedReg_fast]; kernel_rfl
theorem old_compact32 : loadedReg (toLower b!"Compact<u32>") = some .compactU32 := by rw [loadedReg_fast]; kernel_rfl
theorem old_empty : loadedReg (toLower b!"empty") = some .empty := by rw [loadedReg_fast]; kernel_rfl

theorem effSub_nil (s : Str) : effSub [] s = s := by simp [effSub]

theorem word_no_vec {w : Str} (h : Word w) : toLower w ≠ b!"vec<u8>" :=
  no_vec fun hm => nameByte_notRust (List.all_eq_true.1 h.plain.2 _ hm) (by decide)

/-- Every type of the grammar is looked up as what it means. -/
theorem old_shape {N : Names} (hN : Wordy N) (hB : Speaks env S N) {a t : Str} {sh : Shape Str} (h : ReadOver N a sh) (hsh : sh ≠ .null) (ht : Cased a t) :
    ∃ c s sh', LooksAt env S t c s ∧ ClassIs env c s s sh' ∧ Like Cased sh sh' := by
  have entered : ∀ {w t : Str} {spec : Int} {c : Cls}, Cased w t → Entered env spec w c → Entered env spec t c := fun h he => by
    unfold Entered; rw [h.lower]; exact he
  cases h with
  | null => exact absurd rfl hsh
  | name h =>
    obtain ⟨h0, c, h1, h2⟩ := hB.types h
    have hv := convert_neat (hN.word h).neat ht (word_no_vec (hN.word h))
    exact ⟨c, [], sh, entered_looks (fun spec hs => entered ht (h1 spec hs)) hv, h2, h0.1⟩
  | compact32 =>
    have hv := convert_neat (over_neat hN .compact32) ht (by decide)
    have hk : Held env b!"Compact<u32>" := hB.words _ (by simp)
    exact ⟨.compactU32, [], .compact32, old_entry (hk.cased ht).at hv (by rw [ht.lower]; exact old_compact32), rfl, rfl⟩
  | @compact w n d h hf =>
    have hk := hB.free (.compact h) hf
    rw [compact_text] at ht hk
    obtain ⟨h1, icls, hi0, hi⟩ := hB.compact h
    have hw := compacts_word hN h
    obtain ⟨s, hs, hne, hl⟩ := old_generic hk (hB.words _ (by simp)) (by decide) hw.neat ht (by rw [lower_generic]; exact fun e => absurd (List.cons.inj e).1 (by decide)) h1 old_compact
    have hv := convert_neat hw.neat hs (word_no_vec hw)
    refine ⟨.compact [], s, .compact n d, hl, ⟨[], icls, [], rfl, by rw [effSub_nil]; exact hne, hi0, ?_⟩, rfl⟩
    rw [effSub_nil]
    exact entered_looks (S := (· = 0)) (fun spec hs' => hs' ▸ entered hs hi) hv _ _ rfl (notOverridden_nil _)
  | bytes => exact ⟨.bytes, [], .bytes .bytes, old_bytes (hB.words _ (by simp)) ht, ⟨by simp, rfl⟩, rfl⟩
  | @vec el h hu hf =>
    have hk := hB.free (.vec h) hf
    rw [vec_text] at ht hk
    have hv : toLower (generic b!"Vec" el) ≠ b!"vec<u8>" := by
      rw [lower_generic]
      intro e
      have e2 : toLower el ++ [62] = b!"u8" ++ [62] := List.append_cancel_left (as := b!"vec<") e
      exact hu (over_u8 hN h (List.append_cancel_right e2))
    obtain ⟨s, hs, hne, hl⟩ := old_generic hk (hB.words _ (by simp)) (by decide) (over_neat hN h) ht hv (vec_none el) old_vec
    exact ⟨.vec [], s, .seq s, hl, ⟨by simp [vecElem], by simp [vecElem]⟩, s, rfl, hs⟩
  | optionBool hf =>
    obtain ⟨s, hs, hne, hl⟩ := old_generic (w := b!"Option") (a := b!"bool") (hB.free (.option (.name hN.bool)) hf) (hB.words _ (by simp)) (by decide) (hN.word hN.bool).neat ht
      (by decide) (option_none _) old_option
    have : s = b!"bool" := by rcases hs with rfl | rfl <;> rfl
    subst this
    exact ⟨.option [], _, .optionBool, hl, ⟨[], rfl, effSub_nil _, effSub_nil _⟩, rfl⟩
  | @option el h hu hf =>
    have hk := hB.free (.option h) hf
    rw [option_text] at ht hk
    obtain ⟨s, hs, hne, hl⟩ := old_generic hk (hB.words _ (by simp)) (by decide) (over_neat hN h) ht
      (by rw [lower_generic]; exact fun e => absurd (List.cons.inj e).1 (by decide)) (option_none el) old_option
    refine ⟨.option [], s, .option s, hl, ⟨hne, ?_, [], rfl, effSub_nil _, effSub_nil _⟩, s, rfl, hs⟩
    rintro rfl
    exact hu (over_bool hN h (by rw [← hs.lower]; rfl))
  | byteArray n hn hf =>
    have hk : HeldAt env S (b!"[u8; " ++ natToDec n ++ b!"]") := hB.free (.array n (.name hN.u8)) hf
    have e : b!"[u8; " ++ natToDec n ++ b!"]" = arrayText b!"u8" 1 n := by simp [arrayText]
    rw [e] at ht hk
    obtain ⟨c, h1, h2⟩ := old_array hk (hN.word hN.u8).neat hn.2 ht
    refine ⟨c, [], .byteArray n, h1, ?_, rfl⟩
    rcases h2 with rfl | ⟨_, rfl⟩
    · exact .inr ⟨hn.1, _, rfl, rfl⟩
    · exact .inl rfl
  | @array el n hn h hu hf =>
    have hk := hB.free (.array n h) hf
    rw [array_text] at ht hk
    obtain ⟨c, h1, h2⟩ := old_array hk (over_neat hN h) hn.2 ht
    refine ⟨c, [], .array n (toLower el), h1, ?_, _, rfl, .inr rfl⟩
    have h8 : toLower el ≠ b!"u8" := fun e => hu (over_u8 hN h e)
    rcases h2 with rfl | ⟨e, _⟩
    · exact ⟨rfl, by rw [← toLower_eq_spec, toLower_idem]; exact h8⟩
    · exact absurd e h8
  | tuple ms hf hne hr hk =>
    obtain ⟨ms', h1, h2⟩ := old_tuple hN (hB.free (.tuple ms hne hr) hk) (hB.words _ (by simp)) hf hne hr ht
    exact ⟨_, _, .struct (columns 0 ms'), h2, .inl rfl, _, rfl, columns_like 0 h1⟩

/-- Registries with the built-in entries speak of the names of Substrate, whatever the version. -/
theorem BuiltIn.speaks (hB : BuiltIn env) : Speaks env S substrate where
  types {w sh} h := by
    obtain ⟨h0, h1, h2⟩ := names_entered _ h
    obtain ⟨c, hc⟩ := Option.isSome_iff_exists.1 h1
    refine ⟨⟨shapeClass_like hc h0, ?_, ?_⟩, c, fun _ _ => old_entered (hB.types w (.name h)) ?_, shapeClass_is hc h0⟩
    · rintro rfl; cases hc
    · rintro n d rfl; cases hc
    · rw [loadedReg_fast, ← hc]; exact h2
  compact {w n d} h := by
    obtain ⟨h1, ⟨icls, n', d'⟩, hi0, hi, e⟩ := compacts_entered _ h
    cases e
    rw [← loadedReg_fast] at h1 hi
    obtain ⟨sh, hw⟩ := substrate_wordy.compact h
    exact ⟨h1, icls, hi0, old_entered (hB.types w (.name hw)) hi⟩
  free {t} h _ := (hB.types t h).at
  words w hw := by
    simp only [List.mem_cons, List.not_mem_nil, or_false] at hw
    rcases hw with rfl | rfl | rfl | rfl | rfl | rfl | rfl | rfl
    · exact hB.words _ (by simp)
    · exact hB.words _ (by simp)
    · exact hB.words _ (by simp)
    · exact hB.words _ (by simp)
    · exact hB.words _ (by simp)
    · exact hB.words _ (by simp)
    · exact hB.types _ (.name (sh := .bytes .bytes) (by simp [substrate, runtimeTypes]))
    · exact hB.types _ .compact32

end

theorem never_tuple {t : Str} (h : t.head? = some 40) : NeverOverridden t := by
  intro row hr p hp e
  rw [← toLower_eq_iff] at e
  have key : ∀ row ∈ typesModules, ∀ p ∈ row.2, (toLower p.1).head? ≠ some 40 := by decide +kernel
  refine key row hr p hp ?_
  rw [e]
  cases t with
  | nil => cases h
  | cons x t => cases h; rfl

theorem notOverridden_lower {m t : Str} (h : NotOverridden m t) : NotOverridden m (toLower t) := by
  intro row hr h1 p hp h2
  refine h row hr h1 p hp ?_
  rw [← toLower_eq_iff] at h2 ⊢
  rwa [toLower_idem] at h2

theorem names_kept : ∀ w ∈ runtimeTypes.map Prod.fst, ∀ row ∈ typesModules, ∀ p ∈ row.2, toLower p.1 = toLower w →
    toLower row.1 ∈ ownModules.map toLower := by decide +kernel

/-- The module has no types of its own by these names. -/
def Foreign (N : Names) (m : Str) : Prop := ∀ w sh, N.type w sh → NotOverridden m w

theorem foreign_substrate {m : Str} (hm : ∀ n ∈ ownModules, ¬ SameName m n) : Foreign substrate m := by
  intro w sh h row hr h1 p hp h2
  rw [← toLower_eq_iff] at h2
  have := names_kept _ (List.mem_map.2 ⟨_, h, rfl⟩) row hr p hp h2
  obtain ⟨n, hn, e⟩ := List.mem_map.1 this
  refine hm n hn ((toLower_eq_iff _ _).1 ?_)
  rw [e, (toLower_eq_iff _ _).2 h1]

/-- In modules without types of their own every type of the grammar is the same. -/
theorem old_kept {N : Names} (hN : Wordy N) {m a t : Str} (hm : Foreign N m) (h : TypeOver N a) (ht : Cased a t) : NotOverridden m (convertType t) := by
  by_cases hv : toLower a = b!"vec<u8>"
  · have e : convertType t = b!"Bytes" := by
      rcases ht with rfl | rfl
      · exact (over_neat hN h).convert_bytes ((toLower_eq_iff _ _).1 hv)
      · rw [hv]; kernel_rfl
    rw [e]
    exact (by decide +kernel : NeverOverridden b!"Bytes").apply m
  rw [convertType_verbatim (convert_neat (over_neat hN h) ht hv)]
  have key : NotOverridden m a := by
    cases h with
    | name h => exact hm _ _ h
    | compact32 => exact (by decide +kernel : NeverOverridden b!"Compact<u32>").apply m
    | compact _ => exact (never_symbol (c := 60) (by simp) (by simp)).apply m
    | vec _ => exact (never_symbol (c := 60) (by simp) (by simp)).apply m
    | option _ => exact (never_symbol (c := 60) (by simp) (by simp)).apply m
    | array n _ => exact (never_symbol (c := 91) (by simp) (by simp)).apply m
    | tuple ms _ _ => exact (never_tuple (by rfl)).apply m
  rcases ht with rfl | rfl
  · exact key
  · exact notOverridden_lower key

section
variable {env : Env} {S : Int → Prop} {N : Names} (hN : Wordy N) (hB : Speaks env S N)
include hB

theorem speaks_ready (ctx : Ctx) : LenOK env ctx ∧ LenEncOK env := by
  have := old_entry (S := fun _ => True) (hB.words b!"Compact<u32>" (by simp)).at (convert_neat (rust_neat .compact32) (.refl _) (by decide)) old_compact32
  exact ⟨⟨[], this _ _ trivial ((by decide +kernel : NeverOverridden (convertType b!"Compact<u32>")).apply _)⟩, [], this _ _ trivial (notOverridden_nil _), by decide⟩

theorem old_unit {ctx : Ctx} {ectx : ECtx} : HasShape env ctx ectx b!"empty" .unit := by
  have h : LooksUp env b!"empty" .empty [] := fun m spec hm =>
    resolves_converted (u := b!"empty") (by kernel_rfl) (by simp) ((by decide +kernel : NeverOverridden b!"empty").apply m) (old_entered (hB.words _ (by simp)) old_empty)
  exact .inl ⟨.empty, [], [], h _ _ ((by decide +kernel : NeverOverridden (convertType b!"empty")).apply _), ⟨h _ _ (notOverridden_nil _), by decide⟩, rfl⟩

theorem old_null {ctx : Ctx} {ectx : ECtx} {a t : Str} (h : ReadOver N a .null) (ht : Cased a t) : HasShape env ctx ectx t .null := by
  obtain rfl : a = b!"Null" := by
    cases h with
    | null => rfl
    | name h => exact absurd rfl (hB.types h).1.2.1
  have hl : LooksUp env t .null [] := fun m spec hm => by
    rcases ht with rfl | rfl
    · exact resolves_converted (u := b!"Null") (by kernel_rfl) (by simp) ((by decide +kernel : NeverOverridden b!"Null").apply m)
        (old_entered (hB.words _ (by simp)) (by rw [loadedReg_fast]; kernel_rfl))
    · exact resolves_converted (u := b!"null") (by kernel_rfl) (by simp) ((by decide +kernel : NeverOverridden b!"null").apply m)
        (old_entered (hB.words b!"Null" (by simp)) (by rw [loadedReg_fast]; kernel_rfl))
  refine .inr ⟨rfl, ⟨[], hl _ _ ?_⟩, ?_⟩
  · rcases ht with rfl | rfl
    · exact (by decide +kernel : NeverOverridden (convertType b!"Null")).apply _
    · exact (by decide +kernel : NeverOverridden (convertType (toLower b!"Null"))).apply _
  · rcases ht with rfl | rfl <;> decide

include hN

theorem old_described {ctx : Ctx} {ectx : ECtx} (hs : S ctx.spec) (he : S ectx.spec) (hm : Foreign N ctx.module) {a t : Str} {sh : Shape Str} (h : ReadOver N a sh)
    (ht : Cased a t) : ∃ sh', HasShape env ctx ectx t sh' ∧ Like Cased sh sh' := by
  by_cases hn : sh = .null
  · subst hn
    exact ⟨.null, old_null hB h ht, rfl⟩
  obtain ⟨c, s, sh', h1, h2, h3⟩ := old_shape hN hB h hn ht
  refine ⟨sh', .inl ⟨c, s, s, h1 _ _ hs (old_kept hN hm (means_over hN h hn) ht), ⟨h1 _ _ he (notOverridden_nil _), ?_⟩, h2⟩, h3⟩
  rw [← toLower_eq_spec, ht.lower]
  exact over_not_null hN (means_over hN h hn)

/-- Encoding and decoding by a type text over any names follow what the text means. -/
theorem over_partial (ctx : Ctx) (ectx : ECtx) (ty t : Str) (v r : Val) (b : Str) (hs : S ctx.spec) (he : S ectx.spec) (hm : Foreign N ctx.module)
    (h : Scale (ReadOver N) Supported ty v r b) (ht : Cased ty t) : Encodes env ectx t v b ∧ Decodes env ctx t b r [] :=
  C28_partial _ _ _ (HasShape env ctx ectx) (speaks_ready hB ctx).1 (speaks_ready hB ctx).2 (fun _ _ h => h) _ _ _ _
    (scale_like (fun hc h => old_described hN hB hs he hm hc h) (old_unit hB) h t ht)

end

theorem old_ready {env : Env} (hB : BuiltIn env) (ctx : Ctx) : LenOK env ctx ∧ LenEncOK env := speaks_ready (S := fun _ => True) hB.speaks ctx

theorem rust_not_null {t : Str} (h : RustType t) : toLower t ≠ b!"null" := over_not_null substrate_wordy h

/-- Encoding and decoding by a type text follow what the text means, whatever the capitals of the text, for tuples that are
split correctly and for supported layers, also when types of other names have been registered. -/
theorem C92_registry_partial (env : Env) (ctx : Ctx) (ectx : ECtx) (ty t : Str) (v r : Val) (b : Str) (hB : BuiltIn env)
    (hm : ∀ n ∈ ownModules, ¬ SameName ctx.module n) (h : Scale Read Supported ty v r b) (ht : Cased ty t) :
    Encodes env ectx t v b ∧ Decodes env ctx t b r [] :=
  over_partial (S := fun _ => True) substrate_wordy hB.speaks ctx ectx ty t v r b trivial trivial (foreign_substrate hm) h ht

/-- The same for the library as loaded. -/
theorem C92_partial (ext : Ext) (ctx : Ctx) (ectx : ECtx) (ty t : Str) (v r : Val) (b : Str) (hm : ∀ n ∈ ownModules, ¬ SameName ctx.module n)
    (h : Scale Read Supported ty v r b) (ht : Cased ty t) : Encodes (loadedEnv ext) ectx t v b ∧ Decodes (loadedEnv ext) ctx t b r [] :=
  C92_registry_partial _ ctx ectx ty t v r b (builtIn_loaded ext) hm h ht

theorem means_more {N : Names} {T T' : List Str → Prop} {L L' : Nat → Prop} (hT : ∀ ms, T ms → T' ms) (hL : ∀ n, L n → L' n) {ty : Str} {sh : Shape Str}
    (h : MeansOver N T L ty sh) : MeansOver N T' L' ty sh := by
  cases h with
  | null => exact .null
  | name h => exact .name h
  | compact32 => exact .compact32
  | compact h h' => exact .compact h h'
  | bytes => exact .bytes
  | vec h1 h2 h3 => exact .vec h1 h2 h3
  | optionBool h => exact .optionBool h
  | option h1 h2 h3 => exact .option h1 h2 h3
  | byteArray n h h' => exact .byteArray n (hL _ h) h'
  | array n h h1 h2 h3 => exact .array n (hL _ h) h1 h2 h3
  | tuple ms h h1 h2 h3 => exact .tuple ms (hT _ h) h1 h2 h3

/-- What is read is what the texts mean. -/
theorem C92_means {ty : Str} {sh : Shape Str} (h : Read ty sh) : Means (fun _ => True) (fun _ => True) ty sh :=
  means_more (fun _ _ => trivial) (fun _ _ => trivial) h

/-! ## What the restrictions leave out -/

theorem rust_word {w : Str} {sh : Shape Str} (h : (w, sh) ∈ runtimeTypes) : RustType w := .name h

theorem rust_u8' : RustType b!"u8" := .name (sh := .uint 1) (by simp [substrate, runtimeTypes])
theorem rust_u16 : RustType b!"u16" := .name (sh := .uint 2) (by simp [substrate, runtimeTypes])
theorem rust_u32 : RustType b!"u32" := .name (sh := .uint 4) (by simp [substrate, runtimeTypes])
theorem rust_bool' : RustType b!"bool" := .name (sh := .bool) (by simp [substrate, runtimeTypes])

theorem forall_pair {α : Type} {P : α → Prop} {a b : α} (ha : P a) (hb : P b) : ∀ x ∈ [a, b], P x := by simp [ha, hb]

/-- A tuple whose first member is a tuple, as the second member of a tuple, is split within its parentheses: the type is taken
for a struct of the types `u32`, `((u16, u8)` and `u8)`. -/
theorem C92_nested_tuple (ext : Ext) (spec : Int) : Resolves (loadedEnv ext) [] spec b!"(u32, ((u16, u8), u8))"
    (.struct (some [(b!"col1", b!"u32"), (b!"col2", b!"((u16, u8)"), (b!"col3", b!"u8)")])) [] := by
  unfold Resolves loadedEnv; rw [loadedReg_fast]; kernel_rfl

/-- One pair is a built-in type with names for its members. -/
theorem C92_named_tuple (ext : Ext) (spec : Int) : Resolves (loadedEnv ext) [] spec b!"(AccountId, Balance)"
    (.struct (some [(b!"account", b!"AccountId"), (b!"balance", b!"Balance")])) [] := by
  unfold Resolves loadedEnv; rw [loadedReg_fast]; kernel_rfl

/-- In Substrate the type `Forcing` of staking has four values, of which the library knows three: eras that are forced always (number 3)
cannot be decoded. The type is therefore not in the table of known names. -/
theorem C92_forcing (ext : Ext) (ctx : Ctx) : DecodeRefuses (loadedEnv ext) ctx b!"Forcing" [3] := by
  have hk : ∀ t, Held (loadedEnv ext) t := fun _ => ⟨rfl, rfl⟩
  have he : loadedReg (toLower b!"Forcing") = some (.enum [b!"NotForcing", b!"ForceNew", b!"ForceNone"] none) := by rw [loadedReg_fast]; kernel_rfl
  exact (C23_decode_names _ ctx _ [] _ 3 (resolves_converted (u := b!"Forcing") (by kernel_rfl) (by simp)
    ((by decide +kernel : NeverOverridden b!"Forcing").apply _) (old_entered (hk _) he))).2 (by decide)

/-- The values for which it is claimed. -/
theorem nested_value : Scale (Means (fun _ => True) (fun _ => True)) Supported b!"(u32, ((u16, u8), u8))"
    (.map [(b!"col1", .int 1), (b!"col2", .map [(b!"col1", .map [(b!"col1", .int 2), (b!"col2", .int 3)]), (b!"col2", .int 4)])])
    (.map [(b!"col1", .uint 4 1), (b!"col2", .map [(b!"col1", .map [(b!"col1", .uint 2 2), (b!"col2", .int 3)]), (b!"col2", .int 4)])])
    [1, 0, 0, 0, 2, 0, 3, 4] := by
  have u8 : ∀ n : Nat, n < 256 → Scale (Means (fun _ => True) (fun _ => True)) Supported b!"u8" (.int n) (.int n) (_root_.Spec.leBytes 1 n) := fun n hn =>
    .leaf (sh := .uint 1) (.name (by simp [substrate, runtimeTypes])) ⟨n, by simpa using hn, rfl, rfl, rfl, rfl⟩ trivial
  have u16 : ∀ n : Nat, n < 65536 → Scale (Means (fun _ => True) (fun _ => True)) Supported b!"u16" (.int n) (.uint 2 n) (_root_.Spec.leBytes 2 n) := fun n hn =>
    .leaf (sh := .uint 2) (.name (by simp [substrate, runtimeTypes])) ⟨n, by simpa using hn, rfl, rfl, rfl, rfl⟩ trivial
  have u32 : ∀ n : Nat, n < 2 ^ 32 → Scale (Means (fun _ => True) (fun _ => True)) Supported b!"u32" (.int n) (.uint 4 n) (_root_.Spec.leBytes 4 n) := fun n hn =>
    .leaf (sh := .uint 4) (.name (by simp [substrate, runtimeTypes])) ⟨n, by simpa using hn, rfl, rfl, rfl, rfl⟩ trivial
  have t1 : RustType b!"(u16, u8)" := .tuple [b!"u16", b!"u8"] (by simp) (forall_pair rust_u16 rust_u8')
  have t2 : RustType b!"((u16, u8), u8)" := .tuple [b!"(u16, u8)", b!"u8"] (by simp) (forall_pair t1 rust_u8')
  have h1 : Scale (Means (fun _ => True) (fun _ => True)) Supported b!"(u16, u8)" (.map [(b!"col1", .int 2), (b!"col2", .int 3)])
      (.map [(b!"col1", .uint 2 2), (b!"col2", .int 3)]) [2, 0, 3] :=
    .struct [⟨b!"col1", b!"u16", .int 2, .uint 2 2, [2, 0]⟩, ⟨b!"col2", b!"u8", .int 3, .int 3, [3]⟩]
      (.tuple [b!"u16", b!"u8"] trivial (by simp) (forall_pair rust_u16 rust_u8') trivial) (by decide) (by decide +kernel) (by simp)
      (forall_pair (u16 2 (by decide)) (u8 3 (by decide)))
  have h2 : Scale (Means (fun _ => True) (fun _ => True)) Supported b!"((u16, u8), u8)"
      (.map [(b!"col1", .map [(b!"col1", .int 2), (b!"col2", .int 3)]), (b!"col2", .int 4)])
      (.map [(b!"col1", .map [(b!"col1", .uint 2 2), (b!"col2", .int 3)]), (b!"col2", .int 4)]) [2, 0, 3, 4] :=
    .struct [⟨b!"col1", b!"(u16, u8)", _, _, [2, 0, 3]⟩, ⟨b!"col2", b!"u8", .int 4, .int 4, [4]⟩]
      (.tuple [b!"(u16, u8)", b!"u8"] trivial (by simp) (forall_pair t1 rust_u8') trivial) (by decide) (by decide +kernel) (by simp)
      (forall_pair h1 (u8 4 (by decide)))
  exact .struct [⟨b!"col1", b!"u32", .int 1, .uint 4 1, [1, 0, 0, 0]⟩, ⟨b!"col2", b!"((u16, u8), u8)", _, _, [2, 0, 3, 4]⟩]
      (.tuple [b!"u32", b!"((u16, u8), u8)"] trivial (by simp) (forall_pair rust_u32 t2) trivial) (by decide) (by decide +kernel) (by simp)
      (forall_pair (u32 1 (by decide)) h2)

theorem scale_free {α : Type} {shape : α → Shape α → Prop} {ok : Shape α → Val → Val → Str → Prop} {ty : α} {v r : Val} {b : Str}
    (h : Scale shape ok ty v r b) : Scale shape (fun _ _ _ _ => True) ty v r b := by
  induction h with
  | leaf h1 h2 _ => exact .leaf h1 h2 trivial
  | same h1 _ ih => exact .same h1 ih
  | seq ps h1 h2 h3 _ _ ih => exact .seq ps h1 h2 h3 ih trivial
  | none h => exact .none h
  | some h _ _ ih => exact .some h ih trivial
  | struct ps h1 h2 h3 h4 _ ih => exact .struct ps h1 h2 h3 h4 ih
  | unitVariant i n h1 h2 => exact .unitVariant i n h1 h2
  | variant i n h1 h2 _ ih => exact .variant i n h1 h2 ih
  | fields i n ps h1 h2 h3 h4 h5 _ ih => exact .fields i n ps h1 h2 h3 h4 h5 ih
  | array ps h1 h2 _ _ ih => exact .array ps h1 h2 ih trivial
  | resultOk h _ _ ih => exact .resultOk h ih trivial
  | resultErr h _ _ ih => exact .resultErr h ih trivial

/-- The full claim is false: a tuple whose second member begins with a tuple cannot be decoded. -/
theorem C92_claim_false : ¬ C92Claim := by
  intro hc
  obtain ⟨N, h⟩ := (hc dummyExt ⟨[], 0, none⟩ ECtx.none _ _ _ _ (by decide) (scale_free nested_value)).2
  have h1 := h (N + 10) (by omega) [] [] [] (by decide)
  have h2 : pau (loadedEnv dummyExt) 10 ⟨[], 0, none⟩ b!"(u32, ((u16, u8), u8))" ⟨⟨[1, 0, 0, 0, 2, 0, 3, 4], 0⟩, []⟩ = .panic := by
    unfold loadedEnv; rw [loadedReg_fast]; kernel_rfl
  cases h1.symm.trans ((pau_mono _ (by omega : 10 ≤ N + 10) _ _ _).panic h2)

/-! ## An example -/

theorem inner_word {s : Str} (h : ∀ c ∈ s, isBracket c = false ∧ c ≠ 44 ∧ c ≠ 35 ∧ c ≠ 10) : Innermost s := by
  have := Innermost.name h .nil
  rwa [List.append_nil] at this

theorem flat_pair : FlatTuple [b!"bool", b!"Text"] := ⟨forall_pair (inner_word (by decide)) (inner_word (by decide)), by decide +kernel⟩

theorem flat_outer : FlatTuple [b!"Compact<u64>", b!"Vec<(bool, Text)>"] :=
  ⟨forall_pair (.name (s := b!"Compact") (by decide) (.group 60 62 b!"u64" [] (.inl rfl) (by decide) .nil))
    (.name (s := b!"Vec") (by decide) (.nest 60 62 b!"(bool, Text)" [] (.inl rfl) (.group 40 41 b!"bool, Text" [] (.inr rfl) (by decide) .nil) .nil)),
    by decide +kernel⟩

theorem pairs_value : Scale Read Supported b!"Vec<(Compact<u64>, Vec<(bool, Text)>)>"
    (.slice [.map [(b!"col1", .uint 8 5), (b!"col2", .slice [.map [(b!"col1", .bool true), (b!"col2", .str b!"hi")]])]])
    (.slice [.map [(b!"col1", .uint 8 5), (b!"col2", .slice [.map [(b!"col1", .bool true), (b!"col2", .str b!"hi")]])]])
    [4, 20, 4, 1, 8, 104, 105] := by
  have rt : RustType b!"Text" := .name (sh := .bytes .string) (by simp [substrate, runtimeTypes])
  have r1 : RustType b!"(bool, Text)" := .tuple [b!"bool", b!"Text"] (by simp) (forall_pair rust_bool' rt)
  have rc : RustType b!"Compact<u64>" := .compact (w := b!"u64") (n := 2 ^ 64) (d := false) (by simp [substrate, compactTypes])
  have r2 : RustType b!"Vec<(bool, Text)>" := .vec r1
  have r3 : RustType b!"(Compact<u64>, Vec<(bool, Text)>)" := .tuple [b!"Compact<u64>", b!"Vec<(bool, Text)>"] (by simp) (forall_pair rc r2)
  have h1 : Scale Read Supported b!"bool" (.bool true) (.bool true) [1] :=
    .leaf (sh := .bool) (.name (by simp [substrate, runtimeTypes])) ⟨true, rfl, rfl, rfl⟩ trivial
  have h2 : Scale Read Supported b!"Text" (.str b!"hi") (.str b!"hi") [8, 104, 105] := by
    refine .leaf (sh := .bytes .string) (.name (by simp [substrate, runtimeTypes])) ⟨[8], b!"hi", by decide, .inl ⟨by decide, by decide⟩, by rfl, rfl, rfl⟩ ?_
    intro c p e hc
    cases c with
    | nil =>
      cases (e : [8, 104, 105] = p)
      rcases hc with ⟨_, h⟩ | ⟨h, _⟩ | ⟨h, _⟩ | ⟨h, _⟩
      · cases h
      all_goals exact absurd h (by decide)
    | cons x c =>
      have e2 : [104, 105] = c ++ p := (List.cons.inj e).2
      have hp : ∀ x ∈ p, x ∈ b!"hi" := fun x hx => by rw [show b!"hi" = c ++ p from e2]; simp [hx]
      have hl : p.length ≤ 2 := by have := congrArg List.length e2; simp at this; omega
      refine ⟨by omega, fun h => absurd h.1 (by decide), fun h => h.2 fun x hx => ?_⟩
      exact (by decide : ∀ x ∈ b!"hi", x.toNat ≤ 127 ∧ (32 ≤ x.toNat ∨ x.toNat = 9 ∨ x.toNat = 10 ∨ x.toNat = 13)) x (hp x hx)
  have h3 : Scale Read Supported b!"(bool, Text)" (.map [(b!"col1", .bool true), (b!"col2", .str b!"hi")])
      (.map [(b!"col1", .bool true), (b!"col2", .str b!"hi")]) [1, 8, 104, 105] :=
    .struct [⟨b!"col1", b!"bool", _, _, [1]⟩, ⟨b!"col2", b!"Text", _, _, [8, 104, 105]⟩]
      (.tuple [b!"bool", b!"Text"] flat_pair (by simp) (forall_pair rust_bool' rt) trivial) (by decide) (by decide +kernel) (by simp) (forall_pair h1 h2)
  have h4 : Scale Read Supported b!"Vec<(bool, Text)>" (.slice [.map [(b!"col1", .bool true), (b!"col2", .str b!"hi")]])
      (.slice [.map [(b!"col1", .bool true), (b!"col2", .str b!"hi")]]) [4, 1, 8, 104, 105] :=
    .seq (c := [4]) [⟨[], b!"", _, _, [1, 8, 104, 105]⟩] (.vec r1 (by decide) trivial) (by decide) (.inl ⟨by decide, by decide⟩)
      (by intro p hp; cases List.mem_singleton.1 hp; exact h3) (by intro l hl; cases hl; decide)
  have h5 : Scale Read Supported b!"Compact<u64>" (.uint 8 5) (.uint 8 5) [20] := by
    refine .leaf (sh := .compact (2 ^ 64) false) (.compact (w := b!"u64") (by simp [substrate, compactTypes]) trivial) ⟨5, by decide, ?_, rfl, .inl ⟨by decide, by decide⟩⟩ ?_
    · exact ⟨rfl, rfl⟩
    · rintro n (h | h) <;> cases h
      decide
  have h6 : Scale Read Supported b!"(Compact<u64>, Vec<(bool, Text)>)"
      (.map [(b!"col1", .uint 8 5), (b!"col2", .slice [.map [(b!"col1", .bool true), (b!"col2", .str b!"hi")]])])
      (.map [(b!"col1", .uint 8 5), (b!"col2", .slice [.map [(b!"col1", .bool true), (b!"col2", .str b!"hi")]])]) [20, 4, 1, 8, 104, 105] :=
    .struct [⟨b!"col1", b!"Compact<u64>", _, _, [20]⟩, ⟨b!"col2", b!"Vec<(bool, Text)>", _, _, [4, 1, 8, 104, 105]⟩]
      (.tuple [b!"Compact<u64>", b!"Vec<(bool, Text)>"] flat_outer (by simp) (forall_pair rc r2) trivial) (by decide) (by decide +kernel) (by simp)
      (forall_pair h5 h4)
  exact .seq (c := [4]) [⟨[], b!"", _, _, [20, 4, 1, 8, 104, 105]⟩] (.vec r3 (by decide) trivial) (by decide) (.inl ⟨by decide, by decide⟩)
      (by intro p hp; cases List.mem_singleton.1 hp; exact h6) (by intro l hl; cases hl; decide)

/-- A list of numbers with labels, written with and without capitals, in the module `Staking`. -/
example : Encodes (loadedEnv dummyExt) ECtx.none b!"Vec<(Compact<u64>, Vec<(bool, Text)>)>"
      (.slice [.map [(b!"col1", .uint 8 5), (b!"col2", .slice [.map [(b!"col1", .bool true), (b!"col2", .str b!"hi")]])]]) [4, 20, 4, 1, 8, 104, 105] ∧
    Decodes (loadedEnv dummyExt) ⟨b!"Staking", 0, none⟩ b!"vec<(compact<u64>, vec<(bool, text)>)>" [4, 20, 4, 1, 8, 104, 105]
      (.slice [.map [(b!"col1", .uint 8 5), (b!"col2", .slice [.map [(b!"col1", .bool true), (b!"col2", .str b!"hi")]])]]) [] :=
  ⟨(C92_partial dummyExt ⟨b!"Staking", 0, none⟩ _ _ _ _ _ _ (by decide +kernel) pairs_value (.inl rfl)).1,
   (C92_partial dummyExt _ ECtx.none _ _ _ _ _ (by decide +kernel) pairs_value (.inr rfl)).2⟩

/-- Enums of the runtime: a conviction with a destination of rewards that carries nothing, and one that carries an account. -/
example (a : Str) (ha : a.length = 32) :
    (Encodes (loadedEnv dummyExt) ECtx.none b!"(Conviction, RewardDestination)"
        (.map [(b!"col1", .str b!"Locked2x"), (b!"col2", .map [(b!"Staked", .nil)])]) [2, 0] ∧
      Decodes (loadedEnv dummyExt) ⟨b!"Staking", 0, none⟩ b!"(Conviction, RewardDestination)" [2, 0]
        (.map [(b!"col1", .str b!"Locked2x"), (b!"col2", .map [(b!"Staked", .nil)])]) []) ∧
    (Encodes (loadedEnv dummyExt) ECtx.none b!"RewardDestination" (.map [(b!"Account", .str (b!"0x" ++ _root_.Spec.hexText a))]) (3 :: a) ∧
      Decodes (loadedEnv dummyExt) ⟨b!"Staking", 0, none⟩ b!"RewardDestination" (3 :: a) (.map [(b!"Account", .str (b!"0x" ++ _root_.Spec.hexText a))]) []) := by
  have hc : Read b!"Conviction" (.names [(b!"None", 0), (b!"Locked1x", 1), (b!"Locked2x", 2), (b!"Locked3x", 3), (b!"Locked4x", 4), (b!"Locked5x", 5),
      (b!"Locked6x", 6)]) := .name (by simp [substrate, runtimeTypes])
  have hr : Read b!"RewardDestination" (.enum [(0, b!"Staked", .one b!"Null"), (1, b!"Stash", .one b!"Null"), (2, b!"Controller", .one b!"Null"),
      (3, b!"Account", .one b!"AccountId"), (4, b!"None", .one b!"Null")]) := .name (by simp [substrate, runtimeTypes])
  have v1 : Scale Read Supported b!"Conviction" (.str b!"Locked2x") (.str b!"Locked2x") [2] :=
    .leaf hc ⟨b!"Locked2x", 2, by simp, rfl, rfl, rfl⟩ trivial
  have v2 : Scale Read Supported b!"RewardDestination" (.map [(b!"Staked", .nil)]) (.map [(b!"Staked", .nil)]) [0] :=
    .variant (t := b!"Null") 0 b!"Staked" hr (by simp) (.leaf .null ⟨rfl, rfl⟩ trivial)
  have v3 : Scale Read Supported b!"RewardDestination" (.map [(b!"Account", .str (b!"0x" ++ _root_.Spec.hexText a))])
      (.map [(b!"Account", .str (b!"0x" ++ _root_.Spec.hexText a))]) (3 :: a) :=
    .variant (t := b!"AccountId") 3 b!"Account" hr (by simp) (.leaf (sh := .account) (.name (by simp [substrate, runtimeTypes])) ⟨ha, rfl, rfl⟩ trivial)
  have v4 : Scale Read Supported b!"(Conviction, RewardDestination)" (.map [(b!"col1", .str b!"Locked2x"), (b!"col2", .map [(b!"Staked", .nil)])])
      (.map [(b!"col1", .str b!"Locked2x"), (b!"col2", .map [(b!"Staked", .nil)])]) [2, 0] :=
    .struct [⟨b!"col1", b!"Conviction", _, _, [2]⟩, ⟨b!"col2", b!"RewardDestination", _, _, [0]⟩]
      (.tuple [b!"Conviction", b!"RewardDestination"] ⟨forall_pair (inner_word (by decide)) (inner_word (by decide)), by decide +kernel⟩ (by simp)
        (forall_pair (means_over substrate_wordy hc (by simp)) (means_over substrate_wordy hr (by simp))) trivial) (by decide) (by decide +kernel) (by simp) (forall_pair v1 v2)
  exact ⟨C92_partial dummyExt ⟨b!"Staking", 0, none⟩ _ _ _ _ _ _ (by decide +kernel) v4 (.inl rfl),
    C92_partial dummyExt ⟨b!"Staking", 0, none⟩ _ _ _ _ _ _ (by decide +kernel) v3 (.inl rfl)⟩

end ScaleGo
