import Verif.Spec.ChainTypes
import Verif.Props.C33
import Verif.Props.C98

/-! # Registries after the types of a chain

What `RegCustomTypes` leaves behind when it is given a list of definitions (see `Verif/Spec/ChainTypes.lean`): for C102. -/

namespace ScaleGo
open _root_.Spec (Shape Payload Part Scale Leaf Names substrate TypeOver MeansOver RustType Means runtimeTypes compactTypes commaText
  Decl ChainType Limits Declares InForce extend vocabulary coreNames Proper ProperAll)
open ScaleGo.Spec

/-- What the library can read. -/
def limits : Limits where
  tuple := FlatTuple
  length := ArrayLength
  other t := (∀ el n, t = b!"[" ++ el ++ b!"; " ++ natToDec n ++ b!"]" → 59 ∉ el) ∧ ¬ SameName t b!"[u128; 3]"
  payload t := ¬ LooksLikeRows t ∧ ¬ IsNumberText t
  word := Word

/-- No restrictions but that names are names. -/
def unlimited : Limits where
  tuple _ := True
  length _ := True
  other _ := True
  payload _ := True
  word := PlainName

/-- The entries as given to the library. -/
def GivenAs (e : ChainType) (r : Str × TypeDef) : Prop := KeyText ⟨e.name, e.range, .null⟩ r.1 ∧ r.2 = e.decl.row

/-- Lists of types registered one after the other. -/
def registerLists (fuel : Nat) : RegState → List (List (Str × TypeDef)) → Res RegState
  | st, [] => .ok st
  | st, l :: ls => do
    let st ← regCustomTypes fuel st l
    registerLists fuel st ls

/-! ## What is stored -/

theorem limits_wordy : Wordy limits.names where
  word h := h
  compact h := ⟨.null, h⟩
  u8 := substrate_wordy.word substrate_wordy.u8
  u32 := substrate_wordy.word substrate_wordy.u32
  bool := substrate_wordy.word substrate_wordy.bool

theorem rows_inj {a b : List (Str × Str)} (h : a.map (fun p => [p.1, p.2]) = b.map fun p => [p.1, p.2]) : a = b :=
  List.map_injective_iff.2 (fun p q e => by
    simp only [List.cons.injEq, and_true] at e
    exact Prod.ext e.1 e.2) h

theorem defines_unique {d : TypeDef} {c c' : Cls} (h : Defines d c) (h' : Defines d c') : c = c' := by
  cases h <;> cases h' <;> simp_all
  all_goals exact (rows_inj ‹_›).symm

theorem Spec.Says.unique {env : Env} {R : Str → Prop} {d : TypeDef} {c c' : Cls} (h : Says env R d c) (h' : Says env R d c') : c = c' := by
  cases h with
  | own h =>
    cases h' with
    | own h' => exact defines_unique h h'
    | known hk _ _ => exact absurd hk h.kind_ne
    | composed hk _ _ _ _ => exact absurd hk h.kind_ne
  | known hk h1 h2 =>
    cases h' with
    | own h' => exact absurd hk h'.kind_ne
    | known _ h3 _ => exact Option.some.inj (h1.symm.trans h3)
    | composed _ h3 _ _ _ => rw [h1] at h3; cases h3
  | composed hk h1 h2 _ h4 =>
    cases h' with
    | own h' => exact absurd hk h'.kind_ne
    | known _ h3 _ => rw [h1] at h3; cases h3
    | composed _ _ _ _ h5 =>
      have := (aliasClass_composes h4).symm.trans (aliasClass_composes h5)
      simpa using this

theorem Spec.Says.mono {env : Env} {R R' : Str → Prop} {d : TypeDef} {c : Cls} (hR : ∀ k, R' k → R k) (h : Says env R d c) : Says env R' d c := by
  cases h with
  | own h => exact .own _ _ h
  | known h1 h2 h3 => exact .known _ _ h1 h2 fun h => h3 (hR _ h)
  | composed h1 h2 h3 h4 h5 => exact .composed _ _ h1 h2 (fun h => h3 (hR _ h)) h4 h5

theorem solid_struct (fs : List (Str × Str)) : Solid (.struct fs) :=
  ⟨⟨_, rfl, List.forall₂_same.2 fun x _ => ⟨rfl, .refl _⟩⟩, by simp, by simp⟩

theorem solid_names (cs : List (Str × Nat)) : Solid (.names cs) := ⟨⟨_, rfl, fun _ h => h⟩, by simp, by simp⟩

theorem enum_class {env : Env} {vs : List (Str × Str)} (hne : vs ≠ []) (hn : (vs.map Prod.fst).Nodup) (hl : vs.length ≤ 256)
    (hp : ∀ p ∈ vs, p.2 ≠ [] ∧ ¬ LooksLikeRows p.2 ∧ ¬ IsNumberText p.2) :
    ClassIs env (.enum [] (some vs)) [] [] (.enum (vs.zipIdx.map fun p => (p.2, p.1.1, .one p.1.2))) := by
  refine ⟨[], vs, rfl, ?_, ?_⟩
  · intro hc
    cases vs with
    | nil => exact hne rfl
    | cons p vs => exact (hp p (by simp)).2.2 (hc p (by simp))
  · intro v hv
    obtain ⟨⟨p, i⟩, hi, rfl⟩ := List.mem_map.1 hv
    have hk : vs[i]? = some p := by
      have := List.mem_zipIdx_iff_getElem?.1 hi
      simpa using this
    have hlt := (List.getElem?_eq_some_iff.1 hk).1
    refine ⟨by simp only; omega, p.2, by simpa using hk, ?_, rfl, (hp p (List.mem_of_getElem? hk)).1, (hp p (List.mem_of_getElem? hk)).2.1⟩
    intro j w hj
    have a1 : (vs.map Prod.fst)[j]? = some p.1 := by rw [List.getElem?_map, hj]; rfl
    have a2 : (vs.map Prod.fst)[i]? = some p.1 := by rw [List.getElem?_map, hk]; rfl
    obtain ⟨b1, c1⟩ := List.getElem?_eq_some_iff.1 a1
    obtain ⟨b2, c2⟩ := List.getElem?_eq_some_iff.1 a2
    exact (List.Nodup.getElem_inj_iff hn).1 (c1.trans c2.symm)

theorem solid_enum (vs : List (Str × Str)) : Solid (.enum (vs.zipIdx.map fun p => (p.2, p.1.1, .one p.1.2))) := by
  refine ⟨⟨_, rfl, List.forall₂_same.2 fun v hv => ⟨rfl, rfl, ?_⟩⟩, by simp, by simp⟩
  obtain ⟨p, _, rfl⟩ := List.mem_map.1 hv
  exact ⟨_, rfl, .refl _⟩

theorem numbers_class {env : Env} {vs : List (Str × Nat)} (hn : (vs.map Prod.fst).Nodup) (hm : (vs.map Prod.snd).Nodup) (hp : ∀ p ∈ vs, p.2 < 256) :
    ClassIs env (.enum [] (some (vs.map fun p => (p.1, natToDec p.2)))) [] [] (.names vs) := by
  refine .inl ⟨[], _, rfl, ?_, ?_, hn, hm, hp⟩
  · intro p h
    obtain ⟨q, _, rfl⟩ := List.mem_map.1 h
    exact ⟨(natToDec_isNumeral q.2).1, (natToDec_isNumeral q.2).2.1⟩
  · rw [List.map_map]
    conv_lhs => rw [← List.map_id vs]
    refine List.map_congr_left fun p _ => ?_
    exact Prod.ext rfl (natToDec_isNumeral p.2).2.2.2.symm

/-- Texts with brackets. -/
def Bracketed (t : Str) : Prop := 40 ∈ t ∨ 60 ∈ t ∨ 91 ∈ t

theorem word_flat {w : Str} (h : Word w) : ¬ Bracketed w := by
  have := h.plain.absent
  rintro (h | h | h) <;> tauto

theorem mem_lower_sign {t : Str} {c : UInt8} (h : c ∈ toLower t) (hc : c = 40 ∨ c = 59) : c ∈ t := by
  obtain ⟨x, hx, e⟩ := List.mem_map.1 h
  have h1 := forall_byte (P := fun b => (lowerByte b = 40 → b = 40) ∧ (lowerByte b = 59 → b = 59)) (by decide +kernel) x
  rcases hc with rfl | rfl
  · rwa [← h1.1 e]
  · rwa [← h1.2 e]

theorem bracketed_lower {t : Str} (h : Bracketed (toLower t)) : Bracketed t := by
  rcases h with h | h | h
  · exact .inl (mem_lower_sign h (.inl rfl))
  · exact .inr (.inl (mem_lower h (by decide)))
  · exact .inr (.inr (mem_lower h (by decide)))

theorem lower_bracketed {t : Str} (h : Bracketed t) : Bracketed (toLower t) := by
  have : ∀ c : UInt8, c ∈ t → lowerByte c = c → c ∈ toLower t := fun c hc e => List.mem_map.2 ⟨c, hc, e⟩
  rcases h with h | h | h
  · exact .inl (this _ h (by decide))
  · exact .inr (.inl (this _ h (by decide)))
  · exact .inr (.inr (this _ h (by decide)))

theorem word_apart {w t : Str} (h : Word w) (ht : Bracketed t) : ¬ SameName w t := by
  intro e
  rw [← toLower_eq_iff] at e
  exact word_flat h (bracketed_lower (e ▸ lower_bracketed ht))

/-- A registry and what its names stand for in version `v`, after the definitions of `past`. -/
structure Knows (env : Env) (v : Int) (N : Names) (past : List ChainType) : Prop where
  speaks : Speaks env (· = v) N
  wordy : Wordy N
  free : ∀ t, N.free t → HeldAt env (· = v) t
  brackets : ∀ t, Bracketed t → N.free t
  plain : ∀ w, (∀ f ∈ past, SameName f.name w → f.range = none) → env.special (toLower w) = []

/-- What a batch may define. -/
def Harmless (R : Str → Prop) : Prop := ∀ k, R k → ∃ w, Word w ∧ toLower w = k ∧ ∀ u ∈ coreNames, ¬ SameName w u

theorem Harmless.bracketed {R : Str → Prop} (h : Harmless R) {t : Str} (ht : Bracketed t) : ¬ R (toLower t) := by
  intro hr
  obtain ⟨w, hw, e, _⟩ := h _ hr
  exact word_apart hw ht ((toLower_eq_iff _ _).1 e)

theorem Harmless.core {R : Str → Prop} (h : Harmless R) {u : Str} (hu : u ∈ coreNames) : ¬ R (toLower u) := by
  intro hr
  obtain ⟨w, hw, e, hc⟩ := h _ hr
  exact hc u hu ((toLower_eq_iff _ _).1 e)

theorem over_bytes {t : Str} (h : Neat t) : 35 ∉ t ∧ 10 ∉ t := by
  refine ⟨fun hm => ?_, fun hm => ?_⟩ <;> exact absurd (h.body.bytes _ hm) (by decide)

theorem array_keys : ∀ p ∈ (Builtin.classes ++ baseReg), p.1.head? = some 91 → b!"[u8; " <+: p.1 ∨ p.1 = b!"[u128; 3]" := by
  have : ((Builtin.classes ++ baseReg).all fun p => p.1.head? != some 91 || b!"[u8; ".isPrefixOf p.1 || p.1 == b!"[u128; 3]") = true := by decide +kernel
  intro p hp h
  have := List.all_eq_true.1 this p hp
  rw [h] at this
  simpa using this

section
variable {env : Env} {v : Int} {N : Names} {past : List ChainType} {R : Str → Prop}

theorem text_says (hK : Knows env v N past) (hR : Harmless R) {t : Str} {sh : Shape Str} (h : MeansOver limits.names limits.tuple limits.length t sh)
    (hw : ¬ Word t) (hn : sh ≠ .null) (hc : ∀ n d, sh ≠ .compact n d) (ho : limits.other t) :
    ∃ c, Says env R (Decl.same t).row c ∧ Solid sh ∧ ClassIs env c [] [] sh := by
  have held : ∀ t, Bracketed t → env.reg (toLower t) = loadedReg (toLower t) := fun t ht => (hK.free t (hK.brackets t ht)).1
  have conv : ∀ {t : Str}, Neat t → toLower t ≠ b!"vec<u8>" → convertType t = t := fun h hv => convertType_verbatim (convert_neat h (.refl _) hv)
  have known : ∀ {t u : Str} {c : Cls}, convertType t = u → env.reg (toLower u) = some c → ¬ R (toLower u) → Says env R (Decl.same t).row c := by
    intro t u c e h hr
    subst e
    exact .known _ _ rfl h hr
  have composed : ∀ {t : Str} {c : Cls}, Neat t → toLower t ≠ b!"vec<u8>" → Bracketed t → loadedReg (toLower t) = none → Composes t c →
      Says env R (Decl.same t).row c := by
    intro t c ht hv hb hl hcm
    have e : convertType (Decl.same t).row.typeString = t := conv ht hv
    refine .composed _ _ rfl ?_ ?_ ?_ ?_
    · rw [e, held t hb]; exact hl
    · rw [e]; exact hR.bracketed hb
    · rw [e]; exact (over_bytes ht).1
    · rw [e]; exact hcm
  have hwords := hK.speaks.words
  cases h with
  | null => exact absurd rfl hn
  | name h => exact absurd h hw
  | compact32 =>
    have hb : Bracketed b!"Compact<u32>" := .inr (.inl (by simp))
    refine ⟨.compactU32, known (conv (over_neat limits_wordy .compact32) (by decide)) ?_ (hR.bracketed hb), ⟨rfl, by simp, by simp⟩, rfl⟩
    rw [held _ hb]; exact old_compact32
  | compact _ _ => exact absurd rfl (hc _ _)
  | bytes =>
    refine ⟨.bytes, known (u := b!"Bytes") (by kernel_rfl) ?_ (hR.core (by simp [coreNames])), ⟨rfl, by simp, by simp⟩, by simp, rfl⟩
    rw [(hwords b!"Bytes" (by simp)).1, loadedReg_fast]; kernel_rfl
  | @vec el h hu _ =>
    have hv : toLower (generic b!"Vec" el) ≠ b!"vec<u8>" := by
      rw [lower_generic]
      intro e
      have e2 : toLower el ++ [62] = b!"u8" ++ [62] := List.append_cancel_left (as := b!"vec<") e
      exact hu (over_u8 limits_wordy h (List.append_cancel_right e2))
    have hne := (over_neat limits_wordy h).ne_nil
    rw [vec_text]
    refine ⟨.vec el, composed ?_ hv (.inr (.inl (by simp [generic]))) (vec_none el) (.vec el hne (over_bytes (over_neat limits_wordy h)).2), ⟨⟨_, rfl, .refl _⟩, by simp, by simp⟩, ?_⟩
    · rw [← vec_text]; exact over_neat limits_wordy (.vec h)
    · simp [ClassIs, vecElem, hne]
  | optionBool _ =>
    refine ⟨.option b!"bool", composed (t := generic b!"Option" b!"bool") ?_ (by decide) (.inr (.inl (by simp [generic]))) (option_none _) (.option _ (by simp) (by decide)), ⟨rfl, by simp, by simp⟩, _, rfl, rfl, rfl⟩
    rw [← option_text]; exact over_neat limits_wordy (.option (.name (sh := .bool) limits_wordy.bool))
  | @option el h hu _ =>
    have hne := (over_neat limits_wordy h).ne_nil
    rw [option_text]
    refine ⟨.option el, composed ?_ ?_ (.inr (.inl (by simp [generic]))) (option_none el) (.option el hne (over_bytes (over_neat limits_wordy h)).2),
      ⟨⟨_, rfl, .refl _⟩, by simp, by simp⟩, hne, hu, _, rfl, rfl, rfl⟩
    · rw [← option_text]; exact over_neat limits_wordy (.option h)
    · rw [lower_generic]; exact fun e => absurd (List.cons.inj e).1 (by decide)
  | byteArray n hl _ =>
    have e : b!"[u8; " ++ natToDec n ++ b!"]" = arrayText b!"u8" 1 n := by simp [arrayText]
    rw [e]
    have hneat : Neat (arrayText b!"u8" 1 n) := (limits_wordy.word (sh := .null) limits_wordy.u8).neat.array n
    have hv : toLower (arrayText b!"u8" 1 n) ≠ b!"vec<u8>" := fun e => absurd (List.cons.inj e).1 (by decide)
    have hb : Bracketed (arrayText b!"u8" 1 n) := .inr (.inr (by simp [arrayText]))
    cases hr : loadedReg (toLower (arrayText b!"u8" 1 n)) with
    | some c =>
      refine ⟨c, known (conv hneat hv) (by rw [held _ hb]; exact hr) (hR.bracketed hb), ⟨rfl, by simp, by simp⟩, ?_⟩
      rw [lower_arrayText] at hr
      rcases loaded_stock.array _ _ _ hr with rfl | ⟨_, rfl⟩
      · exact .inr ⟨hl.1, _, rfl, rfl⟩
      · exact .inl rfl
    | none =>
      exact ⟨.fixedArray n b!"u8", composed hneat hv hb hr (.array _ 1 n (limits_wordy.word (sh := .null) limits_wordy.u8).neat.trimmed (by decide) hl.2),
        ⟨rfl, by simp, by simp⟩, .inr ⟨hl.1, _, rfl, rfl⟩⟩
  | @array el n hl h hu _ =>
    have h59 := ho.1 el n rfl
    have h3 := ho.2
    rw [array_text] at h3 ⊢
    have hneat : Neat (arrayText el 1 n) := (over_neat limits_wordy h).array n
    have hv : toLower (arrayText el 1 n) ≠ b!"vec<u8>" := fun e => absurd (List.cons.inj e).1 (by decide)
    have hb : Bracketed (arrayText el 1 n) := .inr (.inr (by simp [arrayText]))
    have h8 : toLower el ≠ b!"u8" := fun e => hu (over_u8 limits_wordy h e)
    have hr : loadedReg (toLower (arrayText el 1 n)) = none := by
      cases hr : loadedReg (toLower (arrayText el 1 n)) with
      | none => rfl
      | some c =>
        exfalso
        rcases array_keys _ (mem_of_tableGet hr) rfl with ⟨r, e⟩ | e
        · have h0 : 59 ∉ toLower el := fun hm => h59 (mem_lower_sign hm (.inr rfl))
          rw [lower_arrayText] at e
          have e' : b!"u8" ++ 59 :: (32 :: r) = toLower el ++ 59 :: (List.replicate 1 32 ++ natToDec n ++ [93]) := by
            have := (List.cons.inj (e : 91 :: (b!"u8" ++ 59 :: (32 :: r)) = 91 :: (toLower el ++ 59 :: (List.replicate 1 32 ++ natToDec n) ++ [93]))).2
            exact this.trans (by simp only [List.append_assoc, List.cons_append])
          have := congrArg (fun s => splitSep s [59]) e'
          rw [splitSep_one 59 _ _ (by decide), splitSep_one 59 _ _ h0] at this
          exact h8 (List.cons.inj this).1.symm
        · exact h3 ((toLower_eq_iff _ _).1 e)
    exact ⟨.fixedArray n el, composed hneat hv hb hr (.array _ 1 n (over_neat limits_wordy h).trimmed h59 hl.2), ⟨⟨_, rfl, .refl _⟩, by simp, by simp⟩,
      rfl, by rw [← toLower_eq_spec]; exact h8⟩
  | tuple ms hf hne hr _ =>
    have hneat : Neat (b!"(" ++ commaText ms ++ b!")") := .tuple hne fun m hm => over_neat limits_wordy (hr m hm)
    have e0 : b!"(" ++ commaText ms ++ b!")" = 40 :: (tupleBody (blanks 0 ms) ++ [41]) := by rw [tupleBody_blanks ms 0 hne]; simp
    have hv : toLower (b!"(" ++ commaText ms ++ b!")") ≠ b!"vec<u8>" := by rw [e0]; exact fun e => absurd (List.cons.inj e).1 (by decide)
    have hreg : loadedReg (toLower (b!"(" ++ commaText ms ++ b!")")) = none := by
      cases e : loadedReg (toLower (b!"(" ++ commaText ms ++ b!")")) with
      | none => rfl
      | some c =>
        exfalso
        have := tuple_keys _ (mem_of_tableGet e) (by rw [e0]; rfl)
        obtain ⟨n, hn, e2⟩ := List.mem_map.1 this
        exact hf.unnamed n hn ((toLower_eq_iff _ _).1 e2.symm)
    refine ⟨.struct (some (columns 0 ms)), composed hneat hv (.inl (by simp)) hreg ?_, solid_struct _, .inl rfl⟩
    have hb : blanks 0 ms ≠ [] := by
      cases ms with
      | nil => exact absurd rfl hne
      | cons a l => simp [blanks]
    have := Composes.tuple (blanks 0 ms) hb fun x hx => ⟨hf.members _ (blanks_mem hx), (over_neat limits_wordy (hr _ (blanks_mem hx))).trimmed⟩
    rw [blanks_members, ← e0] at this
    exact this

/-- Every definition is stored as what it says. -/
theorem declares_says (hK : Knows env v N past) (hR : Harmless R) {d : Decl} {sh : Shape Str} (h : Declares limits N d sh)
    (hs : ∀ t, d = .same t → ¬ R (toLower t) ∧ ∀ f ∈ past, SameName f.name t → f.range = none) :
    ∃ c, Says env R d.row c ∧ Solid sh ∧ ClassIs env c [] [] sh := by
  cases h with
  | struct fs =>
    by_cases hf : fs = []
    · subst hf
      exact ⟨.struct none, .own _ _ (.emptyStruct _ rfl rfl), solid_struct _, .inr ⟨rfl, rfl⟩⟩
    · exact ⟨.struct (some fs), .own _ _ (.struct _ fs rfl hf rfl), solid_struct _, .inl rfl⟩
  | enum vs h1 h2 h3 h4 =>
    refine ⟨.enum [] (some vs), .own _ _ (.enum _ vs rfl h1 rfl), solid_enum vs, enum_class h1 h2 h3 fun p hp => ?_⟩
    obtain ⟨h5, h6, h7⟩ := h4 p hp
    refine ⟨?_, h6, h7⟩
    rcases h5 with h5 | h5
    · exact (over_neat limits_wordy h5).ne_nil
    · rw [h5]; simp
  | values vs h1 h2 h3 => exact ⟨.enum vs none, .own _ _ (.plainEnum (Decl.values vs).row rfl rfl), solid_names _, .inr ⟨vs, rfl, rfl, h1, h2, h3⟩⟩
  | numbers vs h0 h1 h2 h3 =>
    refine ⟨.enum [] (some (vs.map fun p => (p.1, natToDec p.2))), .own _ _ (.enum _ _ rfl (by simpa using h0) ?_), solid_names _, numbers_class h1 h2 h3⟩
    simp [Decl.row]
  | @name w _ h =>
    obtain ⟨hs1, hs2⟩ := hs w rfl
    obtain ⟨h0, c, h1, h2⟩ := hK.speaks.types h
    have hv : convertType (Decl.same w).row.typeString = w := convertType_verbatim (convert_neat (hK.wordy.word h).neat (.refl _) (word_no_vec (hK.wordy.word h)))
    have h3 := h1 v rfl
    unfold Entered at h3
    rw [hK.plain w hs2] at h3
    exact ⟨c, .known _ _ rfl (by rw [hv]; exact h3) (by rw [hv]; exact hs1), h0, h2⟩
  | text h1 h2 h3 h4 h5 => exact text_says hK hR h1 h2 h3 h4 h5

end

/-! ## After the registration -/

theorem SameName.trans' {a b c : Str} (h : SameName a b) (h' : SameName b c) : SameName a c := by
  rw [← toLower_eq_iff] at *; exact h.trans h'

theorem storeAll_other {t : Str} (es : List Entry) (env : Env) (h : ∀ e ∈ es, ¬ SameName e.name t) :
    (es.foldl storeEntry env).reg (toLower t) = env.reg (toLower t) ∧ (es.foldl storeEntry env).special (toLower t) = env.special (toLower t) := by
  refine ⟨storeAll_noPlain (fun e he hn => absurd hn (h e he)) env, ?_⟩
  induction es generalizing env with
  | nil => rfl
  | cons e es ih =>
    rw [List.foldl_cons, ih _ fun e he => h e (by simp [he]), storeEntry_special]
    cases e.range with
    | none => simp
    | some r =>
      simp only
      rw [if_neg fun he => h e (by simp) ((toLower_eq_iff _ _).1 he), List.append_nil]

theorem storeAll_plain {t : Str} (es : List Entry) (env : Env) (h : ∀ e ∈ es, SameName e.name t → e.range = none) :
    (es.foldl storeEntry env).special (toLower t) = env.special (toLower t) := by
  induction es generalizing env with
  | nil => rfl
  | cons e es ih =>
    rw [List.foldl_cons, ih _ fun e he => h e (by simp [he]), storeEntry_special]
    cases hr : e.range with
    | none => simp
    | some r =>
      simp only
      rw [if_neg (fun he => by have := h e (by simp) ((toLower_eq_iff _ _).1 he); rw [hr] at this; cases this), List.append_nil]

theorem first_separate {es : List Entry} (hp : es.Pairwise Separate) {e : Entry} (he : e ∈ es) {r : Range} (hr : e.range = some r) {v : Int} (hv : r.Has v) :
    FirstRange e.name v es e.cls := by
  induction es with
  | nil => cases he
  | cons f es ih =>
    rcases List.mem_cons.1 he with rfl | he
    · exact .here _ r _ ((toLower_eq_iff _ _).1 rfl) hr hv
    · obtain ⟨hp1, hp2⟩ := List.pairwise_cons.1 hp
      refine .later _ _ _ ?_ (ih hp2 he)
      intro s hn hs hsv
      rcases hp1 e he hn with h | ⟨r1, r2, h1, h2, h3⟩
      · rw [hs, hr] at h; simp at h
      · rw [hs] at h1; rw [hr] at h2
        cases h1; cases h2
        exact h3 v ⟨hsv, hv⟩

theorem last_separate {es : List Entry} (hp : es.Pairwise Separate) {e : Entry} (he : e ∈ es) (hr : e.range = none) : LastPlain e.name es e.cls := by
  induction es with
  | nil => cases he
  | cons f es ih =>
    obtain ⟨hp1, hp2⟩ := List.pairwise_cons.1 hp
    rcases List.mem_cons.1 he with rfl | he
    · refine .here _ _ ((toLower_eq_iff _ _).1 rfl) hr fun f hf hn hfr => ?_
      rcases hp1 f hf (SameName.symm' hn) with h | ⟨r1, r2, h1, _⟩
      · exact (h.1 hr) hfr
      · rw [hr] at h1; cases h1
    · exact .later _ _ _ (ih hp2 he)

theorem compact_keys : ∀ p ∈ (Builtin.classes ++ baseReg), b!"compact<" <+: p.1 → p.1 = b!"compact<u32>" ∨ p.1 = b!"compact<moment>" := by
  have : ((Builtin.classes ++ baseReg).all fun p => !b!"compact<".isPrefixOf p.1 || p.1 == b!"compact<u32>" || p.1 == b!"compact<moment>") = true := by decide +kernel
  intro p hp h
  have := List.all_eq_true.1 this p hp
  rw [List.isPrefixOf_iff_prefix.2 h] at this
  simpa using this

theorem compact_open {w : Str} (h1 : ¬ SameName w b!"u32") (h2 : ¬ SameName w b!"Moment") : loadedReg (toLower (generic b!"Compact" w)) = none := by
  cases e : loadedReg (toLower (generic b!"Compact" w)) with
  | none => rfl
  | some c =>
    exfalso
    rw [lower_generic] at e
    have e0 : generic (toLower b!"Compact") (toLower w) = b!"compact<" ++ (toLower w ++ [62]) := rfl
    rw [e0] at e
    rcases compact_keys _ (mem_of_tableGet e) ⟨_, rfl⟩ with e | e
    · have e2 : toLower w ++ [62] = b!"u32" ++ [62] := List.append_cancel_left (as := b!"compact<") e
      exact h1 ((toLower_eq_iff _ _).1 (List.append_cancel_right e2))
    · have e2 : toLower w ++ [62] = b!"moment" ++ [62] := List.append_cancel_left (as := b!"compact<") e
      exact h2 ((toLower_eq_iff _ _).1 (List.append_cancel_right e2))

/-- One list of types. -/
theorem knows_extend {st : RegState} {v : Int} {N : Names} {past l : List ChainType} {rs : List (Str × TypeDef)} (fuel : Nat) (hv : v ≤ 99999999)
    (hK : Knows st.env v N past) (hP : Proper limits N past l) (hg : List.Forall₂ GivenAs l rs) :
    ∃ env', regCustomTypes fuel st rs = .ok { st with env := env' } ∧ Knows env' v (extend limits N l v) (past ++ l) ∧ env'.ext = st.env.ext ∧
      ∀ t, (∀ e ∈ l, ¬ SameName e.name t) → env'.reg (toLower t) = st.env.reg (toLower t) ∧ env'.special (toLower t) = st.env.special (toLower t) := by
  classical
  let R : Str → Prop := fun k => ∃ e ∈ l, toLower e.name = k
  have hR : Harmless R := by
    rintro k ⟨e, he, rfl⟩
    exact ⟨e.name, hP.names e he, rfl, hP.core e he⟩
  have saying : ∀ e ∈ l, ∀ sh, Declares limits N e.decl sh → ∃ c, Says st.env R e.decl.row c ∧ Solid sh ∧ ClassIs st.env c [] [] sh := by
    intro e he sh h
    refine declares_says hK hR h fun t ht => ?_
    obtain ⟨h1, h2⟩ := hP.settled e he t ht
    refine ⟨?_, h2⟩
    rintro ⟨f, hf, e⟩
    exact h1 f hf ((toLower_eq_iff _ _).1 e)
  let cls : ChainType → Cls := fun e => if h : ∃ c, Says st.env R e.decl.row c then h.choose else .null
  have hcls : ∀ e ∈ l, Says st.env R e.decl.row (cls e) := by
    intro e he
    obtain ⟨sh, h⟩ := hP.stands e he
    obtain ⟨c, hc, _⟩ := saying e he sh h
    have hx : ∃ c, Says st.env R e.decl.row c := ⟨c, hc⟩
    simp only [cls, dif_pos hx]
    exact hx.choose_spec
  let E : ChainType → Entry := fun e => ⟨e.name, e.range, cls e⟩
  let es := l.map E
  let env' := es.foldl storeEntry st.env
  have mem : ∀ e ∈ l, E e ∈ es := fun e he => List.mem_map.2 ⟨e, he, rfl⟩
  have hf : ∀ e ∈ es, e.Keyed := by
    intro e he
    obtain ⟨x, hx, rfl⟩ := List.mem_map.1 he
    exact ⟨(hP.names x hx).plain.absent.2.1, fun r hr => hP.fits x hx r hr⟩
  have hsep : es.Pairwise Separate := by
    refine List.pairwise_map.2 (hP.apart.imp ?_)
    intro a b h hn
    exact h hn
  have hrows : List.Forall₂ (fun e r => KeyText e r.1 ∧ r.2.v14 = false ∧
      Says st.env (fun k => ∃ e ∈ es, e.range = none ∧ toLower e.name = k) r.2 e.cls) es rs := by
    rw [List.forall₂_map_left_iff]
    have : List.Forall₂ (fun e r => e ∈ l ∧ GivenAs e r) l rs := by
      clear hsep hf mem saying hcls
      have gen : ∀ {a : List ChainType} {b : List (Str × TypeDef)}, List.Forall₂ GivenAs a b → (∀ e ∈ a, e ∈ l) → List.Forall₂ (fun e r => e ∈ l ∧ GivenAs e r) a b := by
        intro a b h
        induction h with
        | nil => intro _; exact .nil
        | cons h _ ih => exact fun hs => .cons ⟨hs _ (by simp), h⟩ (ih fun e he => hs e (by simp [he]))
      exact gen hg fun e he => he
    refine this.imp fun e r h => ?_
    obtain ⟨he, h1, h2⟩ := h
    refine ⟨h1, ?_, ?_⟩
    · rw [h2]; cases e.decl <;> rfl
    · rw [h2]
      refine (hcls e he).mono ?_
      rintro k ⟨f, hf, _, hk⟩
      obtain ⟨x, hx, rfl⟩ := List.mem_map.1 hf
      exact ⟨x, hx, hk⟩
  have hreg := regLoop_says fuel rs st.env es es rs st (fun _ _ => rfl) (forall₂_keys hrows) (fun _ h => h) hf hrows
  have other : ∀ t, (∀ e ∈ l, ¬ SameName e.name t) → env'.reg (toLower t) = st.env.reg (toLower t) ∧ env'.special (toLower t) = st.env.special (toLower t) := by
    intro t ht
    refine storeAll_other es st.env ?_
    intro e he
    obtain ⟨x, hx, rfl⟩ := List.mem_map.1 he
    exact ht x hx
  have hext : env'.ext = st.env.ext := storeAll_ext _ _
  have none_before : ∀ e ∈ l, st.env.special (toLower e.name) = [] := fun e he => hK.plain _ (hP.fresh e he)
  -- a plain definition without any range at this version
  have plainly : ∀ e ∈ l, ∀ u : Int, u ≤ 99999999 → e.range = none → (∀ f ∈ l, SameName f.name e.name → ∀ r, f.range = some r → ¬ r.Has u) →
      Entered env' u e.name (cls e) := by
    intro e he u hu hr hno
    have h1 : NoRange e.name u es := by
      intro f hf r hn hfr
      obtain ⟨x, hx, rfl⟩ := List.mem_map.1 hf
      exact hno x hx hn r hfr
    have h2 := storeAll_none hu h1 st.env
    have h3 := storeAll_last (last_separate hsep (mem e he) hr) st.env
    unfold Entered
    have h2' : findSpecial u (env'.special (toLower e.name)) = findSpecial u (st.env.special (toLower e.name)) := h2
    rw [h2', none_before e he]
    exact h3
  have inforce : ∀ e ∈ l, InForce l v e → Entered env' v e.name (cls e) := by
    intro e he h
    unfold InForce at h
    cases hr : e.range with
    | none => rw [hr] at h; exact plainly e he v hv hr h
    | some r =>
      rw [hr] at h
      have := storeAll_first hv (first_separate hsep (mem e he) (r := r) hr h) st.env (by rw [show (E e).name = e.name from rfl, none_before e he]; rfl)
      unfold Entered
      have this' : findSpecial v (env'.special (toLower e.name)) = some (cls e) := this
      rw [this']
      rfl
  have kept : ∀ w, (∀ e ∈ l, SameName e.name w → ¬ InForce l v e) → ∀ c, Entered st.env v w c → Entered env' v w c := by
    intro w hno c h
    have noRange : ∀ e ∈ l, SameName e.name w → ∀ r, e.range = some r → ¬ r.Has v := by
      intro e he hn r hr hh
      refine hno e he hn ?_
      unfold InForce
      rw [hr]
      exact hh
    have h1 : NoRange w v es := by
      intro f hf r hn hfr
      obtain ⟨x, hx, rfl⟩ := List.mem_map.1 hf
      exact noRange x hx hn r hfr
    have h2 : NoPlain w es := by
      intro f hf hn hfr
      obtain ⟨x, hx, rfl⟩ := List.mem_map.1 hf
      refine hno x hx hn ?_
      unfold InForce
      rw [show x.range = none from hfr]
      exact fun f hf hfn r hr => noRange f hf (SameName.trans' hfn hn) r hr
    unfold Entered at h ⊢
    have e1 : findSpecial v (env'.special (toLower w)) = findSpecial v (st.env.special (toLower w)) := storeAll_none hv h1 st.env
    have e2 : env'.reg (toLower w) = st.env.reg (toLower w) := storeAll_noPlain h2 st.env
    rw [e1, e2]
    exact h
  have hheld : ∀ t, Held st.env t → (∀ e ∈ l, ¬ SameName e.name t) → Held env' t := by
    intro t h ht
    obtain ⟨h1, h2⟩ := other t ht
    exact ⟨h1.trans h.1, h2.trans h.2⟩
  have word : ∀ {w sh}, (extend limits N l v).type w sh → Word w := by
    rintro w sh (⟨e, he, rfl, _⟩ | ⟨h, _⟩)
    · exact hP.names e he
    · exact hK.wordy.word h
  have free : ∀ t, (extend limits N l v).free t → HeldAt env' (· = v) t := by
    rintro t ⟨h1, h2⟩
    obtain ⟨h3, h4⟩ := other t h2
    have := hK.free t h1
    exact ⟨h3.trans this.1, fun spec hs => by rw [h4]; exact this.2 spec hs⟩
  have core : ∀ {w sh}, w ∈ coreNames → N.type w sh → (extend limits N l v).type w sh := fun hw h => .inr ⟨h, fun e he hn => absurd hn (hP.core e he _ hw)⟩
  refine ⟨env', hreg, ⟨⟨?_, ?_, fun _ h => free _ h, ?_⟩, ⟨word, ?_, core (by simp [coreNames]) hK.wordy.u8, core (by simp [coreNames]) hK.wordy.u32,
    core (by simp [coreNames]) hK.wordy.bool⟩, free, ?_, ?_⟩, hext, other⟩
  · rintro w sh (⟨e, he, rfl, h1, h2⟩ | ⟨h1, h2⟩)
    · obtain ⟨c, hc, h3, h4⟩ := saying e he sh h2
      have : c = cls e := hc.unique (hcls e he)
      subst this
      exact ⟨h3, _, fun spec hs => hs ▸ inforce e he h1, classIs_ext hext h3.2.2 h4⟩
    · obtain ⟨h3, c, h4, h5⟩ := hK.speaks.types h1
      exact ⟨h3, c, fun spec hs => hs ▸ kept w h2 c (h4 v rfl), classIs_ext hext h3.2.2 h5⟩
  · rintro w n d (⟨e, he, rfl, h1, u, h2, h3⟩ | ⟨h1, h2⟩)
    · obtain ⟨h4, c, h5, h6⟩ := hK.speaks.compact h3
      obtain ⟨hs1, hs2⟩ := hP.settled e he u h2
      have h7 : st.env.reg (toLower u) = some c := by
        unfold Entered at h6
        rw [hK.plain u hs2] at h6
        exact h6
      obtain ⟨sh, hsh⟩ := hK.wordy.compact h3
      have hvb : convertType e.decl.row.typeString = u := by
        rw [h2]
        exact convertType_verbatim (convert_neat (hK.wordy.word hsh).neat (.refl _) (word_no_vec (hK.wordy.word hsh)))
      have : Says st.env R e.decl.row c := by
        refine .known _ _ (by rw [h2]; rfl) (by rw [hvb]; exact h7) ?_
        rw [hvb]
        rintro ⟨f, hf, hk⟩
        exact hs1 f hf ((toLower_eq_iff _ _).1 hk)
      have hce : c = cls e := this.unique (hcls e he)
      subst hce
      refine ⟨?_, _, h5, plainly e he 0 (by decide) (h1 e he ((toLower_eq_iff _ _).1 rfl)) fun f hf hn r hr => by rw [h1 f hf hn] at hr; cases hr⟩
      exact compact_open (hP.core e he _ (by simp [coreNames])) (hP.core e he _ (by simp [coreNames]))
    · obtain ⟨h3, c, h4, h5⟩ := hK.speaks.compact h1
      refine ⟨h3, c, h4, ?_⟩
      obtain ⟨h6, h7⟩ := other w h2
      unfold Entered at h5 ⊢
      rw [h6, h7]
      exact h5
  · intro w hw
    refine hheld w (hK.speaks.words w hw) fun e he hn => ?_
    by_cases hb : w = b!"Compact<u32>"
    · subst hb
      exact word_apart (hP.names e he) (.inr (.inl (by simp))) hn
    · refine hP.core e he w ?_ hn
      simp only [List.mem_cons, List.not_mem_nil, or_false] at hw
      rcases hw with rfl | rfl | rfl | rfl | rfl | rfl | rfl | rfl <;> first | exact absurd rfl hb | simp [coreNames]
  · rintro w n d (⟨e, he, rfl, h1, u, h2, h3⟩ | ⟨h1, h2⟩)
    · obtain ⟨sh, hsh⟩ := hK.wordy.compact h3
      refine ⟨sh, .inl ⟨e, he, rfl, ?_, by rw [h2]; exact .name hsh⟩⟩
      unfold InForce
      rw [h1 e he ((toLower_eq_iff _ _).1 rfl)]
      exact fun f hf hn r hr => by rw [h1 f hf hn] at hr; cases hr
    · obtain ⟨sh, hsh⟩ := hK.wordy.compact h1
      exact ⟨sh, .inr ⟨hsh, fun e he hn => absurd hn (h2 e he)⟩⟩
  · exact fun t ht => ⟨hK.brackets t ht, fun e he => word_apart (hP.names e he) ht⟩
  · intro w hw
    have h1 : env'.special (toLower w) = st.env.special (toLower w) := by
      refine storeAll_plain es st.env fun f hf hn => ?_
      obtain ⟨x, hx, rfl⟩ := List.mem_map.1 hf
      exact hw x (by simp [hx]) hn
    rw [h1]
    exact hK.plain w fun f hf => hw f (by simp [hf])

end ScaleGo
