import Verif.Props.C30
import Verif.Props.C35

/-! # C36: generic and namespaced type texts -/

namespace ScaleGo

namespace Spec

/-- The abbreviations of Rust type texts that the library rewrites wherever they occur. -/
def abbreviations : List Str :=
  [b!"T::", b!"VecDeque<", b!"<T>", b!"<T as Trait>::", b!"<T, I>", b!"\n", b!"&'static[u8]"]

/-- The texts that stand for another type as a whole. -/
def spellings : List Str :=
  [b!"()", b!"<InherentOfflineReport as InherentOfflineReport>::Inherent", b!"<Lookup as StaticLookup>::Source",
   b!"<Balance as HasCompact>::Type", b!"<BlockNumber as HasCompact>::Type", b!"<Moment as HasCompact>::Type",
   b!"<T as Trait<I>>::Proposal", b!"wasm::PrefabWasmModule"]

/-- A type text that means itself: no blanks around it, no abbreviation inside, none of the special spellings. -/
structure Verbatim (t : Str) : Prop where
  trimmed : Trimmed t
  whole : ∀ x ∈ abbreviations, ¬ x <:+: t
  other : t ∉ spellings
  bounded : ¬ b!"BoundedBTreeSet" <+: t
  bytes : ¬ SameName t b!"Vec<u8>"

/-- `wrapper<argument>` -/
def generic (w a : Str) : Str := w ++ 60 :: (a ++ [62])

/-- Neither a version range nor the registry has an entry for this text. -/
def Unregistered (env : Env) (spec : Int) (t : Str) : Prop :=
  findSpecial spec (env.special (toLower t)) = none ∧ env.reg (toLower t) = none

/-- The entry for this text: the version ranges first, then the registry. -/
def Entered (env : Env) (spec : Int) (t : Str) (c : Cls) : Prop :=
  (findSpecial spec (env.special (toLower t))).or (env.reg (toLower t)) = some c

/-- `a::b::...::l` -/
def path : List Str → Str → Str
  | [], l => l
  | p :: ps, l => p ++ 58 :: 58 :: path ps l

end Spec

open ScaleGo.Spec

/-- C36 in full. First part: `W<A>` resolves to the entry of `W` with argument `A`.  Second part: a path that is not
registered itself resolves as its last segment, which may be generic. -/
def C36Claim : Prop :=
  (∀ (env : Env) (m : Str) (spec : Int) (w a : Str) (c : Cls), PlainName w → Balanced a → a ≠ [] → Verbatim (generic w a) →
    NotOverridden m w → NotOverridden m (generic w a) → Unregistered env spec (generic w a) → Entered env spec w c →
    getCodecClass env m spec (generic w a) = .ok (some (c, a))) ∧
  (∀ (env : Env) (m : Str) (spec : Int) (ps : List Str) (w : Str), ps ≠ [] → (∀ p ∈ ps, PlainName p) → PlainName w →
    NotOverridden m (path ps w) → Unregistered env spec (path ps w) →
    getCodecClass env m spec (path ps w) = getCodecClass env m spec w) ∧
  (∀ (env : Env) (m : Str) (spec : Int) (ps : List Str) (w a : Str), ps ≠ [] → (∀ p ∈ ps, PlainName p) → PlainName w →
    Balanced a → a ≠ [] → Verbatim (path ps (generic w a)) →
    NotOverridden m (path ps (generic w a)) → Unregistered env spec (path ps (generic w a)) →
    NotOverridden m (path ps w) → Unregistered env spec (path ps w) →
    getCodecClass env m spec (path ps (generic w a)) = getCodecClass env m spec (generic w a))

/-! ## `ConvertType` leaves such texts alone -/

theorem replaceAll_not_infix {s old new : Str} (h : ¬ old <:+: s) : replaceAll s old new = s := by
  unfold replaceAll
  induction s with
  | nil => rfl
  | cons x s ih =>
    rw [replaceAllAux.eq_3, if_neg, ih (fun hi => h (hi.trans (List.suffix_cons x s).isInfix))]
    intro hp
    rw [List.isPrefixOf_iff_prefix] at hp
    exact h hp.isInfix

theorem trimSpace_trimmed {t : Str} (h : Trimmed t) : trimSpace t = t := by
  obtain ⟨⟨c, r, h1, h2⟩, ⟨d, q, h3, h4⟩⟩ := h
  have e1 : t.dropWhile isSpace = t := by rw [h1, List.dropWhile_cons_of_neg (by simp [h2])]
  unfold trimSpace
  rw [e1]
  have e2 : t.reverse.dropWhile isSpace = t.reverse := by rw [h3, List.reverse_append]; simp [h4]
  rw [e2, List.reverse_reverse]

theorem convertType_verbatim {t : Str} (h : Verbatim t) : convertType t = t := by
  have hr : ∀ x new, x ∈ abbreviations → replaceAll t x new = t := fun x new hx => replaceAll_not_infix (h.whole x hx)
  have hb : hasPrefix t b!"BoundedBTreeSet" = false := by
    unfold hasPrefix
    rw [Bool.eq_false_iff]
    intro hp
    exact h.bounded (List.isPrefixOf_iff_prefix.1 hp)
  have hv : equalFold t b!"Vec<u8>" = false := by
    unfold equalFold
    rw [beq_eq_false_iff_ne]
    intro he
    exact h.bytes ((toLower_eq_iff _ _).1 he)
  have hs : ∀ x ∈ spellings, t ≠ x := fun x hx he => h.other (he ▸ hx)
  unfold convertType
  simp only [trimSpace_trimmed h.trimmed, hr b!"T::" [] (by decide +kernel), hr b!"VecDeque<" b!"Vec<" (by decide +kernel),
    hr b!"<T>" [] (by decide +kernel), hr b!"<T as Trait>::" [] (by decide +kernel), hr b!"<T, I>" [] (by decide +kernel),
    hr b!"\n" b!" " (by decide +kernel), hr b!"&'static[u8]" b!"Bytes" (by decide +kernel), hb, hv, Bool.false_eq_true, if_false]
  rw [if_neg, if_neg (hs _ (by decide +kernel)), if_neg (hs _ (by decide +kernel)), if_neg (hs _ (by decide +kernel)),
    if_neg (hs _ (by decide +kernel)), if_neg (hs _ (by decide +kernel)), if_neg (hs _ (by decide +kernel))]
  rintro (he | he)
  · exact hs _ (by decide +kernel) he
  · exact hs _ (by decide +kernel) he

/-! ## Lookups -/

theorem lowerByte_name {c : UInt8} (h : isNameByte c = true) : lowerByte c ≠ 91 := by
  have := forall_byte (P := fun b => isNameByte b = true → lowerByte b ≠ 91) (by decide +kernel)
  exact this c h

/-- A text beginning with a letter, digit or underscore that is not registered is not found. -/
theorem getCodecInstant_unregistered (env : Env) {m t : Str} {spec : Int} (hm : NotOverridden m t) (hu : Unregistered env spec t)
    {c : UInt8} {r : Str} (ht : t = c :: r) (hc : isNameByte c = true) : getCodecInstant env m t spec = .ok none := by
  unfold getCodecInstant
  simp only [moduleType_notOverridden hm, toLower_idem, hu.1, hu.2]
  have e : toLower t = lowerByte c :: toLower r := by rw [ht]; rfl
  rw [e]
  rw [if_neg (by intro he; exact lowerByte_name hc (List.cons.inj he).1)]
  simp only
  rw [if_neg (fun h => lowerByte_name hc h.1)]

theorem Spec.PlainName.head {w : Str} (h : PlainName w) : ∃ c r, w = c :: r ∧ isNameByte c = true := by
  cases w with
  | nil => exact absurd rfl h.1
  | cons c r => exact ⟨c, r, rfl, List.all_eq_true.1 h.2 c (by simp)⟩

theorem generic_parts {h a : Str} (hh : 60 ∉ h) (ha : a ≠ []) (hn : 10 ∉ a) : genericParts (generic h a) = some (h, a) := by
  have e1 : (generic h a).takeWhile (fun x => decide (x ≠ 60)) = h := by
    unfold generic
    rw [List.takeWhile_append_of_pos]
    · simp
    · intro x hx; simp; rintro rfl; exact hh hx
  unfold genericParts
  simp only [e1]
  have e2 : (generic h a).drop h.length = 60 :: (a ++ [62]) := by unfold generic; simp
  rw [e2]
  have e3 : endsWith (a ++ [62]) 62 = true := by unfold endsWith; rw [List.getLast?_concat]; decide
  have e4 : (a ++ [62]).dropLast = a := by simp
  simp only [e3, e4]
  cases a with
  | nil => exact absurd rfl ha
  | cons x a => simp at hn ⊢; exact hn

theorem generic_ends (h a : Str) : endsWith (generic h a) 62 = true := by
  unfold generic endsWith
  rw [← List.cons_append, ← List.append_assoc, List.getLast?_concat]
  decide

theorem Spec.Verbatim.newline {t : Str} (h : Verbatim t) : 10 ∉ t := by
  intro hm
  obtain ⟨a, b, he⟩ := List.append_of_mem hm
  exact h.whole b!"\n" (by decide +kernel) ⟨a, b, by rw [he]; simp⟩

/-- **C36**, wrapper and argument: whatever the argument is. -/
theorem C36_wrapper_partial (env : Env) (m : Str) (spec : Int) (w a : Str) (c : Cls) (hw : PlainName w) (ha : a ≠ [])
    (hv : Verbatim (generic w a)) (ho : NotOverridden m w) (ho2 : NotOverridden m (generic w a))
    (hu : Unregistered env spec (generic w a)) (hc : Entered env spec w c) :
    getCodecClass env m spec (generic w a) = .ok (some (c, a)) := by
  obtain ⟨x, r, hx, hxn⟩ := hw.head
  have hn : 10 ∉ a := fun h => hv.newline (by simp [generic, h])
  have h60 : 60 ∉ w := hw.absent.2.2.2.2.2.2.2.2.2.1
  unfold getCodecClass getCodecClassAux
  dsimp only
  rw [convertType_verbatim hv, if_neg (by simp [generic])]
  simp only [lookupWhole, lookupParts, partsOf, generic_ends, if_true, generic_parts h60 ha hn,
    getCodecInstant_unregistered env ho2 hu (c := x) (r := r ++ 60 :: (a ++ [62])) (by rw [generic, hx]; rfl) hxn,
    getCodecInstant_plain env spec hw (moduleType_notOverridden ho)]
  unfold Entered at hc
  rw [hc]
  rfl

theorem splitSepAux_colons {a r : Str} (h : 58 ∉ a) : ∀ cur,
    splitSepAux b!"::" 0 cur (a ++ 58 :: 58 :: r) = (cur.reverse ++ a) :: splitSep r b!"::" := by
  have e : (b!"::" : Str) = [58, 58] := rfl
  induction a with
  | nil =>
    intro cur
    rw [List.nil_append, splitSepAux, if_pos (by simp [List.isPrefixOf]), List.append_nil]
    rfl
  | cons c a ih =>
    intro cur
    have hc : (58 : UInt8) ≠ c := by intro hc; exact h (by simp [hc])
    rw [List.cons_append, splitSepAux, if_neg (by rw [e]; simp [List.isPrefixOf, hc]), ih (fun hm => h (by simp [hm]))]
    simp

theorem splitSep_path {ps : List Str} {l : Str} (hp : ∀ p ∈ ps, 58 ∉ p) (hl : 58 ∉ l) : splitSep (path ps l) b!"::" = ps ++ [l] := by
  induction ps with
  | nil => exact splitSep_absent 58 (by decide) hl
  | cons p ps ih =>
    have := splitSepAux_colons (r := path ps l) (hp p (by simp)) []
    unfold path
    unfold splitSep at ih ⊢
    rw [this]
    simp only [List.reverse_nil, List.nil_append, List.cons_append, List.cons.injEq, true_and]
    exact ih (fun q hq => hp q (by simp [hq]))

theorem contains_path {ps : List Str} (l : Str) (h : ps ≠ []) : contains (path ps l) b!"::" = true := by
  cases ps with
  | nil => exact absurd rfl h
  | cons p ps =>
    unfold path
    induction p with
    | nil =>
      rw [List.nil_append, contains]
      have : (b!"::" : Str).isPrefixOf (58 :: 58 :: path ps l) = true := by
        have e : (b!"::" : Str) = [58, 58] := rfl
        rw [e]; simp [List.isPrefixOf]
      rw [this]; rfl
    | cons c p ih => rw [List.cons_append, contains, ih (by simp)]; simp

/-- A path that means itself and is found neither as a whole nor by its wrapper resolves as its last segment. -/
theorem getCodecClass_path (env : Env) (m : Str) (spec : Int) (ps : List Str) (l : Str) (hne : ps ≠ []) (hp : ∀ p ∈ ps, 58 ∉ p)
    {x : UInt8} {r : Str} (hx : path ps l = x :: r) (hxn : isNameByte x = true) (hl : 58 ∉ l) (hconv : convertType (path ps l) = path ps l)
    (h1 : lookupWhole env m spec (path ps l) = .ok none) (h2 : lookupParts env m spec (path ps l) = .ok none) :
    getCodecClass env m spec (path ps l) = getCodecClass env m spec l := by
  obtain ⟨p, ps', rfl⟩ : ∃ p ps', ps = p :: ps' := by cases ps with | nil => exact absurd rfl hne | cons p ps' => exact ⟨p, ps', rfl⟩
  have hhead : (path (p :: ps') l).head? = some x := by rw [hx]; rfl
  have hx40 : x ≠ 40 := (nameByte_ne hxn).2.2.2.1
  have hx58 : x ≠ 58 := (nameByte_ne hxn).2.2.2.2.2.2.2.1
  have hne2 : path (p :: ps') l ≠ b!"::" := by
    intro he
    rw [he] at hhead
    simp at hhead
    exact hx58 hhead.symm
  have hlen : (path (p :: ps') l).length = l.length + 1 + ((path (p :: ps') l).length - (l.length + 1)) := by
    have : ∀ qs : List Str, l.length ≤ (path qs l).length := by
      intro qs
      induction qs with
      | nil => exact Nat.le_refl _
      | cons q qs ih => simp [path]; omega
    have := this ps'
    simp only [path, List.length_append, List.length_cons]
    omega
  conv_lhs => unfold getCodecClass getCodecClassAux
  dsimp only
  rw [hconv, if_neg (by intro he; rw [he] at hhead; simp at hhead), h1]
  simp only [Res.ok_bind, h2]
  rw [if_neg (by rw [hhead]; rintro ⟨_, h, _⟩; exact hx40 (Option.some.inj h)),
    if_pos ⟨contains_path l (by simp), hne2⟩, splitSep_path hp hl]
  have : lastPiece ((p :: ps') ++ [l]) = l := by rw [lastPiece, List.getLastD_eq_getLast?, List.getLast?_concat]; rfl
  rw [this, hlen]
  exact getCodecClassAux_fuel env m spec (l.length + 1) _ l (getCodecClass_ne_diverge env m spec l)

theorem path_head {ps : List Str} {l : Str} (hne : ps ≠ []) (hp : ∀ p ∈ ps, PlainName p) : ∃ x r, path ps l = x :: r ∧ isNameByte x = true := by
  obtain ⟨p, ps', rfl⟩ : ∃ p ps', ps = p :: ps' := by cases ps with | nil => exact absurd rfl hne | cons p ps' => exact ⟨p, ps', rfl⟩
  obtain ⟨x, r, hx, hxn⟩ := (hp p (by simp)).head
  exact ⟨x, r ++ 58 :: 58 :: path ps' l, by rw [path, hx]; rfl, hxn⟩

theorem path_absent {ps : List Str} {l : Str} {c : UInt8} (hp : ∀ p ∈ ps, c ∉ p) (hl : c ∉ l) (hc : c ≠ 58) : c ∉ path ps l := by
  induction ps with
  | nil => exact hl
  | cons p ps ih =>
    have := ih (fun q hq => hp q (by simp [hq]))
    have h2 := hp p (by simp)
    simp [path, this, h2, hc]

/-- **C36**, namespaces before a plain name: any number of segments, when no segment ends in a capital `T`
(`Verbatim` says that `T::` does not occur). -/
theorem C36_namespace_partial (env : Env) (m : Str) (spec : Int) (ps : List Str) (w : Str) (hne : ps ≠ [])
    (hp : ∀ p ∈ ps, PlainName p) (hw : PlainName w) (hv : Verbatim (path ps w))
    (ho : NotOverridden m (path ps w)) (hu : Unregistered env spec (path ps w)) :
    getCodecClass env m spec (path ps w) = getCodecClass env m spec w := by
  obtain ⟨x, r, hx, hxn⟩ := path_head (l := w) hne hp
  have h62 : endsWith (path ps w) 62 = false := endsWith_absent
    (path_absent (fun p hq => (hp p hq).absent.2.2.2.2.2.2.2.2.2.2.1) hw.absent.2.2.2.2.2.2.2.2.2.2.1 (by decide))
  have hi := getCodecInstant_unregistered env ho hu hx hxn
  refine getCodecClass_path env m spec ps w hne (fun q hq => (hp q hq).absent.2.2.2.2.2.2.2.1) hx hxn hw.absent.2.2.2.2.2.2.2.1 (convertType_verbatim hv) ?_ ?_
  · simp [lookupWhole, h62]
  · simp [lookupParts, partsOf, h62, hi]

theorem path_generic (ps : List Str) (w a : Str) : path ps (generic w a) = generic (path ps w) a := by
  induction ps with
  | nil => rfl
  | cons p ps ih => simp only [path, ih]; simp [generic]

/-- **C36**, namespaces before a generic text whose argument contains no colon. -/
theorem C36_namespace_generic_partial (env : Env) (m : Str) (spec : Int) (ps : List Str) (w a : Str) (hne : ps ≠ [])
    (hp : ∀ p ∈ ps, PlainName p) (hw : PlainName w) (ha : a ≠ []) (hcolon : 58 ∉ a) (hv : Verbatim (path ps (generic w a)))
    (ho : NotOverridden m (path ps (generic w a))) (hu : Unregistered env spec (path ps (generic w a)))
    (ho2 : NotOverridden m (path ps w)) (hu2 : Unregistered env spec (path ps w)) :
    getCodecClass env m spec (path ps (generic w a)) = getCodecClass env m spec (generic w a) := by
  obtain ⟨x, r, hx, hxn⟩ := path_head (l := w) hne hp
  obtain ⟨x', r', hx', hxn'⟩ := path_head (l := generic w a) hne hp
  have hi := getCodecInstant_unregistered env ho hu hx' hxn'
  have hi2 := getCodecInstant_unregistered env ho2 hu2 hx hxn
  have h60 : 60 ∉ path ps w := path_absent (fun p hq => (hp p hq).absent.2.2.2.2.2.2.2.2.2.1) hw.absent.2.2.2.2.2.2.2.2.2.1 (by decide)
  have hn : 10 ∉ a := fun h => hv.newline (by rw [path_generic]; simp [generic, h])
  refine getCodecClass_path env m spec ps _ hne (fun q hq => (hp q hq).absent.2.2.2.2.2.2.2.1) hx' hxn' ?_ (convertType_verbatim hv) ?_ ?_
  · have := hw.absent.2.2.2.2.2.2.2.1
    simp [generic, this, hcolon]
  · rw [lookupWhole, path_generic, generic_ends, if_pos rfl, ← path_generic, hi]
  · rw [lookupParts, partsOf, path_generic, generic_ends, if_pos rfl, generic_parts h60 ha hn]
    simp [hi2]

/-- What happens instead when the argument of a namespaced generic text is namespaced as well: the text is cut inside the
argument, and `name>` is looked up. -/
theorem C36_namespace_in_argument (env : Env) (m : Str) (spec : Int) (p w q n : Str) (hp : PlainName p) (hw : PlainName w)
    (hq : PlainName q) (hn : PlainName n) (hv : Verbatim (path [p] (generic w (path [q] n))))
    (ho : NotOverridden m (path [p] (generic w (path [q] n)))) (hu : Unregistered env spec (path [p] (generic w (path [q] n))))
    (ho2 : NotOverridden m (path [p] w)) (hu2 : Unregistered env spec (path [p] w)) :
    getCodecClass env m spec (path [p] (generic w (path [q] n))) = getCodecClass env m spec (n ++ [62]) := by
  have hne : ([p] : List Str) ≠ [] := by simp
  have hp1 : ∀ x ∈ [p], PlainName x := by simpa using hp
  obtain ⟨x, r, hx, hxn⟩ := path_head (l := w) hne hp1
  obtain ⟨x', r', hx', hxn'⟩ := path_head (l := generic w (path [q] n)) hne hp1
  have hi := getCodecInstant_unregistered env ho hu hx' hxn'
  have hi2 := getCodecInstant_unregistered env ho2 hu2 hx hxn
  have h60 : 60 ∉ path [p] w := path_absent (fun p hq => (hp1 p hq).absent.2.2.2.2.2.2.2.2.2.1) hw.absent.2.2.2.2.2.2.2.2.2.1 (by decide)
  have hnn : 10 ∉ path [q] n := fun h => hv.newline (by rw [path_generic]; simp [generic, h])
  have hT : path [p] (generic w (path [q] n)) = path [p, w ++ 60 :: q] (n ++ [62]) := by simp [path, generic]
  have hwhole : lookupWhole env m spec (path [p] (generic w (path [q] n))) = .ok none := by
    rw [lookupWhole, path_generic, generic_ends, if_pos rfl, ← path_generic, hi]
  have hparts : lookupParts env m spec (path [p] (generic w (path [q] n))) = .ok none := by
    rw [lookupParts, partsOf, path_generic, generic_ends, if_pos rfl, generic_parts h60 (by simp [path]) hnn]
    simp [hi2]
  have hconv := convertType_verbatim hv
  rw [hT] at hwhole hparts hconv hx' ⊢
  refine getCodecClass_path env m spec _ _ (by simp) ?_ hx' hxn' ?_ hconv hwhole hparts
  · intro y hy
    simp only [List.mem_cons, List.not_mem_nil, or_false] at hy
    rcases hy with rfl | rfl
    · exact hp.absent.2.2.2.2.2.2.2.1
    · have h1 := hw.absent.2.2.2.2.2.2.2.1
      have h2 := hq.absent.2.2.2.2.2.2.2.1
      simp [h1, h2]
  · have h1 := hn.absent.2.2.2.2.2.2.2.1
    simp [h1]

/-- `ConvertType` drops a `T::` also at the end of a longer segment. -/
theorem C36_capital_T : convertType b!"NFT::H256" = b!"NFH256" := by kernel_rfl

/-- A registry with the single name `H256`. -/
def oneNameEnv : Env := ⟨fun k => if k = b!"h256" then some (.hash 32) else none, fun _ => [], dummyExt⟩

/-- C36 does not hold: in `NFT::H256` the end of the first segment is taken for the abbreviation `T::`, and the remaining
`NFH256` is not found. -/
theorem C36_claim_false : ¬ C36Claim := by
  rintro ⟨-, h, -⟩
  have := h oneNameEnv [] 0 [b!"NFT"] b!"H256" (by simp) (by decide +kernel) (by decide +kernel) (by decide +kernel)
    ⟨rfl, by decide +kernel⟩
  have e1 : getCodecClass oneNameEnv [] 0 (path [b!"NFT"] b!"H256") = .ok none := by kernel_rfl
  have e2 : getCodecClass oneNameEnv [] 0 b!"H256" = .ok (some (.hash 32, [])) := by kernel_rfl
  rw [e1, e2] at this
  simp at this

/-- A registry with the names `H256` and `Vec`. -/
def twoNameEnv : Env :=
  ⟨fun k => if k = b!"h256" then some (.hash 32) else if k = b!"vec" then some (.vec []) else none, fun _ => [], dummyExt⟩

/-- The hypotheses are met by `Vec<Option<(H256,sp::U8)>>`. -/
example : getCodecClass twoNameEnv [] 0 b!"Vec<Option<(H256,sp::U8)>>" = .ok (some (.vec [], b!"Option<(H256,sp::U8)>")) :=
  C36_wrapper_partial twoNameEnv [] 0 b!"Vec" b!"Option<(H256,sp::U8)>" (.vec []) (by decide +kernel) (by decide)
    ⟨⟨⟨86, b!"ec<Option<(H256,sp::U8)>>", rfl, by decide⟩, ⟨62, b!"Vec<Option<(H256,sp::U8)>", rfl, by decide⟩⟩,
      by decide +kernel, by decide +kernel, by decide +kernel, by decide +kernel⟩
    (by decide +kernel) (by decide +kernel) ⟨rfl, by decide +kernel⟩ (by unfold Entered; kernel_rfl)

/-- The hypotheses are met by `sp_core::hash::H256`. -/
example : getCodecClass twoNameEnv [] 0 b!"sp_core::hash::H256" = getCodecClass twoNameEnv [] 0 b!"H256" :=
  C36_namespace_partial twoNameEnv [] 0 [b!"sp_core", b!"hash"] b!"H256" (by simp) (by decide +kernel) (by decide +kernel)
    ⟨⟨⟨115, b!"p_core::hash::H256", rfl, by decide⟩, ⟨54, b!"sp_core::hash::H25", rfl, by decide⟩⟩,
      by decide +kernel, by decide +kernel, by decide +kernel, by decide +kernel⟩
    (by decide +kernel) ⟨rfl, by decide +kernel⟩

/-- The hypotheses are met by `alloc::vec::Vec<(H256,U8)>`. -/
example : getCodecClass twoNameEnv [] 0 b!"alloc::vec::Vec<(H256,U8)>" = getCodecClass twoNameEnv [] 0 b!"Vec<(H256,U8)>" :=
  C36_namespace_generic_partial twoNameEnv [] 0 [b!"alloc", b!"vec"] b!"Vec" b!"(H256,U8)" (by simp) (by decide +kernel)
    (by decide +kernel) (by decide) (by decide)
    ⟨⟨⟨97, b!"lloc::vec::Vec<(H256,U8)>", rfl, by decide⟩, ⟨62, b!"alloc::vec::Vec<(H256,U8)", rfl, by decide⟩⟩,
      by decide +kernel, by decide +kernel, by decide +kernel, by decide +kernel⟩
    (by decide +kernel) ⟨rfl, by decide +kernel⟩ (by decide +kernel) ⟨rfl, by decide +kernel⟩

/-- The hypotheses of `C36_namespace_in_argument` are met by `alloc::Vec<sp::H256>`, which is refused. -/
example : getCodecClass twoNameEnv [] 0 b!"alloc::Vec<sp::H256>" = .ok none := by
  have h := C36_namespace_in_argument twoNameEnv [] 0 b!"alloc" b!"Vec" b!"sp" b!"H256" (by decide +kernel) (by decide +kernel)
    (by decide +kernel) (by decide +kernel)
    ⟨⟨⟨97, b!"lloc::Vec<sp::H256>", rfl, by decide⟩, ⟨62, b!"alloc::Vec<sp::H256", rfl, by decide⟩⟩,
      by decide +kernel, by decide +kernel, by decide +kernel, by decide +kernel⟩
    (by decide +kernel) ⟨rfl, by decide +kernel⟩ (by decide +kernel) ⟨rfl, by decide +kernel⟩
  have e : getCodecClass twoNameEnv [] 0 (b!"H256" ++ [62]) = .ok none := by kernel_rfl
  rw [e] at h
  exact h

end ScaleGo
