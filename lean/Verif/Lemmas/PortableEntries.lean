import Verif.Lemmas.PortableClass

/-! # Every portable type has its entry -/

namespace ScaleGo
open _root_.Spec (Shape Payload labelled numbered payload primitiveShapes crateShapes compactShapes byteNames Layer)
open ScaleGo.Spec

section
variable {cfg : SiCfg} {A : Nat → Prop} {base : Str → Option Cls}

/-- An alias of this text is entered. -/
def Avail (st : SiState) (t : Str) : Prop :=
  (st.reg.env.reg (toLower (convertType t))).isSome = true ∨ ∃ c, aliasClass (convertType t) = .ok (some c)

theorem direct_text {i : Nat} {t : Str} (h : Direct cfg A i t) : Text cfg A i t := by
  cases h with
  | override h1 h2 => exact .override h1 h2
  | account h1 h2 h3 => exact .account h1 h2 h3
  | wrapper h1 h2 h3 h4 h5 => exact .wrapper h1 h2 h3 h4 h5
  | arrayZero h1 h2 => exact .arrayZero h1 h2
  | array h1 h2 h3 h4 => exact .array h1 h2 h3 h4
  | sequence h1 h2 h3 => exact .sequence h1 h2 h3
  | compact h1 h2 h3 => exact .compact h1 h2 h3
  | tupleNil h1 h2 => exact .tupleNil h1 h2
  | bits h1 h2 => exact .bits h1 h2
  | option h1 h2 h3 h4 h5 h6 => exact .option h1 h2 h3 h4 h5 h6
  | result h1 h2 h3 h4 h5 h6 h7 h8 => exact .result h1 h2 h3 h4 h5 h6 h7 h8
  | call h1 h2 h3 => exact .call h1 h2 h3
  | nothing h1 h2 => exact .nothing h1 h2
  | dealtPrimitive h1 h2 => exact .dealtPrimitive h1 h2

theorem covered_override {i : Nat} {sh : Shape Nat} (h : Covered cfg A i sh) (hA : ¬ A i) : overriderTypesName (cfg.types i) = [] := by
  cases h with
  | newtype _ h _ _ _ _ => obtain ⟨f, _, _, _, h⟩ := h; exact h
  | own _ h _ => exact own_override h
  | primitive h => exact absurd h hA
  | crate h => exact absurd h hA
  | account h => exact absurd h hA
  | unit _ h =>
    unfold overriderTypesName
    rcases h with h | h | ⟨k, h⟩ <;> rw [h]
  | bytes _ h => unfold overriderTypesName; rw [h]
  | seq _ h => unfold overriderTypesName; rw [h]
  | byteArray _ h => unfold overriderTypesName; rw [h]
  | array _ h => unfold overriderTypesName; rw [h]
  | compact _ h => unfold overriderTypesName; rw [h]
  | wrapped _ h => unfold overriderTypesName; rw [h]
  | tuple _ h => unfold overriderTypesName; rw [h]
  | bits _ h => unfold overriderTypesName; rw [h]
  | option _ h => unfold overriderTypesName; rw [h]
  | result _ h => unfold overriderTypesName; rw [h]

theorem covered_not_call {i : Nat} {sh : Shape Nat} {vs : List SiVariant} (h : Covered cfg A i sh) (hA : ¬ A i)
    (ht : (cfg.types i).typ = .variant vs) : ¬ IsCallTag (cfg.types i) := by
  intro hc
  cases h with
  | newtype _ _ h _ _ _ => rw [ht] at h; cases h
  | own _ h _ =>
    rcases h with ⟨fs, h', _⟩ | ⟨vs, p, ps, h', _, _, _, h⟩
    · rw [ht] at h'; cases h'
    · exact h hc
  | primitive h => exact absurd h hA
  | crate h => exact absurd h hA
  | account h => exact absurd h hA
  | unit _ h => rcases h with h | h | ⟨k, h⟩ <;> rw [ht] at h <;> cases h
  | bytes _ h => rw [ht] at h; cases h
  | seq _ h => rw [ht] at h; cases h
  | byteArray _ h => rw [ht] at h; cases h
  | array _ h => rw [ht] at h; cases h
  | compact _ h => rw [ht] at h; cases h
  | wrapped _ h => rw [ht] at h; cases h
  | tuple _ h => rw [ht] at h; cases h
  | bits _ h => rw [ht] at h; cases h
  | option _ h _ _ h' => exact h' hc
  | result _ h _ _ h' => exact h' hc

theorem vec_ne {t : Str} {c : UInt8} (h : t.head? = some c) (hc : c ≠ 86) : t ≠ b!"Vec<U8>" ∧ t ≠ b!"Vec<u8>" := by
  constructor <;>
  · rintro rfl
    cases h
    exact hc rfl

theorem view_forms (hT : Tidy cfg A base) (hS : Stock base) {st : SiState} (hs : EnvSound cfg A base st) {t : Str} {sh : Shape Nat}
    (hv : View cfg A t sh) (hal : Aliased cfg A sh) : Avail st t ∨ (∃ j, nameSiType cfg (cfg.types j) (some j) = .ok t) ∨ ∃ u, t = b!"Tuple:" ++ u := by
  have conv := view_convert hT.names hv
  have al : ∀ {c}, t ≠ b!"Vec<U8>" ∧ t ≠ b!"Vec<u8>" → aliasClass t = .ok (some c) → Avail st t := by
    intro c h0 h
    rcases conv with ⟨e | e, _⟩ | e
    · exact absurd e h0.1
    · exact absurd e h0.2
    · exact .inr ⟨c, by rw [e]; exact h⟩
  cases hv with
  | stock h =>
    left; left
    rcases conv with ⟨e | e, _⟩ | e
    · rw [e, show toLower (convertType b!"Vec<U8>") = b!"bytes" by kernel_rfl, entry_kept hT hS hs (c := .bytes) (by simp [stockClasses])]
      rfl
    · rw [e, show toLower (convertType b!"Vec<u8>") = b!"bytes" by kernel_rfl, entry_kept hT hS hs (c := .bytes) (by simp [stockClasses])]
      rfl
    · obtain ⟨⟨k, c⟩, h1, h2⟩ := List.mem_map.1 ((by decide +kernel : ∀ t ∈ stockNames, toLower t ∈ stockClasses.map Prod.fst) t (stock_name h))
      rw [e, ← h2, entry_kept hT hS hs h1]
      rfl
  | own h1 h2 h3 h4 h5 => exact .inr (.inl ⟨_, h3⟩)
  | renamed h1 h2 h3 h4 h5 h6 h7 h8 => exact .inr (.inl ⟨_, h5⟩)
  | bytes h =>
    left; left
    simp only [byteNames, List.mem_cons, List.not_mem_nil, or_false] at h
    rcases h with rfl | rfl
    · rw [show toLower (convertType (generic b!"Vec" b!"U8")) = b!"bytes" by kernel_rfl, entry_kept hT hS hs (c := .bytes) (by simp [stockClasses])]
      rfl
    · rw [show toLower (convertType (generic b!"Vec" b!"u8")) = b!"bytes" by kernel_rfl, entry_kept hT hS hs (c := .bytes) (by simp [stockClasses])]
      rfl
  | @seq k s h h1 =>
    have key : ∀ u, toLower u = b!"u8" → generic b!"Vec" s ≠ generic b!"Vec" u := by
      intro u hu e
      have : s = u := by
        have e : b!"Vec<" ++ (s ++ [62]) = b!"Vec<" ++ (u ++ [62]) := e
        exact List.append_cancel_right (List.append_cancel_left e)
      subst this
      exact h1 hu
    exact .inl (al ⟨key b!"U8" (by decide), key b!"u8" (by decide)⟩ (alias_vec (text_clean hT.names h)))
  | byteArray h0 h1 h2 =>
    exact .inl (al (vec_ne (c := 91) rfl (by decide)) (alias_array (byte_clean h0) ((by decide : ∀ p ∈ byteNames, (59 : UInt8) ∉ p) _ h0) h2))
  | array h1 h2 h3 h4 h5 =>
    exact .inl (al (vec_ne (c := 91) rfl (by decide)) (alias_array (text_clean hT.names h4) (hal _ h4) h2))
  | compact h =>
    exact .inl (al (vec_ne (c := 99) rfl (by decide)) (alias_compact (compact_clean _ h)))
  | wrapped h =>
    exact .inl (al (vec_ne (c := 99) rfl (by decide)) (alias_compact (text_clean hT.names h)))
  | tuple => exact .inr (.inr ⟨_, rfl⟩)
  | option h h1 =>
    exact .inl (al (vec_ne (c := 111) rfl (by decide)) (alias_option (text_clean hT.names h)))
  | result => exact hal.elim

/-- The texts of types without definition are available. -/
theorem direct_avail (hT : Tidy cfg A base) (hS : Stock base) {st : SiState} (hs : EnvSound cfg A base st) {i : Nat} {t : Str} {sh : Shape Nat}
    (hd : Direct cfg A i t) (hc : Covered cfg A i sh) (hn : Aliased cfg A sh) : Avail st t := by
  have st' : ∀ {j c k}, nameSiType cfg (cfg.types j) (some j) = .ok t → (k, c) ∈ stockClasses → toLower t = k → t ≠ [] → False := by
    intro j c k h1 h2 h3 h4
    have := hT.fresh _ _ h1 h4
    rw [h3, hS.entry _ h2] at this
    cases this
  rcases view_forms hT hS hs (view hc hT.names (direct_text hd) hn.ne_null) hn with h | ⟨j, h⟩ | ⟨u, h⟩
  · exact h
  · exfalso
    have h60 : ∀ {a b : Str}, t = a ++ 60 :: b → False := by
      rintro a b rfl
      exact (name_plain hT.names h 60 (by simp)).1 rfl
    have h91 : ∀ {b : Str}, t = 91 :: b → False := by
      rintro b rfl
      exact (name_plain hT.names h 91 (by simp)).2.1 rfl
    cases hd with
    | override h1 h2 => exact h2 (covered_override hc h1)
    | account h1 h2 h3 => exact st' h (c := .accountId) (k := b!"accountid") (by simp [stockClasses]) (by decide) (by decide)
    | wrapper h1 h2 h3 h4 h5 => exact h60 (a := b!"WrapperOpaque") rfl
    | arrayZero h1 h2 => exact st' h (c := .null) (k := b!"null") (by simp [stockClasses]) (by decide) (by decide)
    | array h1 h2 h3 h4 => exact h91 rfl
    | sequence h1 h2 h3 => exact h60 (a := b!"Vec") rfl
    | compact h1 h2 h3 => exact h60 (a := b!"compact") rfl
    | tupleNil h1 h2 => exact st' h (c := .null) (k := b!"null") (by simp [stockClasses]) (by decide) (by decide)
    | bits h1 h2 => exact st' h (c := .bitVec) (k := b!"bitvec") (by simp [stockClasses]) (by decide) (by decide)
    | option h1 h2 h3 h4 h5 h6 => exact h60 (a := b!"option") rfl
    | result h1 h2 h3 h4 h5 h6 h7 h8 => exact h60 (a := b!"Result") rfl
    | call h1 h2 h3 => exact covered_not_call hc h1 h2 h3
    | nothing h1 h2 => exact st' h (c := .null) (k := b!"null") (by simp [stockClasses]) (by decide) (by decide)
    | dealtPrimitive h1 h2 => exact st' h (c := .null) (k := b!"null") (by simp [stockClasses]) (by decide) (by decide)
  · exfalso
    cases hd with
    | override h1 h2 => exact h2 (covered_override hc h1)
    | account h1 h2 h3 => exact absurd (List.cons.inj h).1 (by decide)
    | wrapper h1 h2 h3 h4 h5 => exact absurd (List.cons.inj h).1 (by decide)
    | arrayZero h1 h2 => exact absurd (List.cons.inj h).1 (by decide)
    | array h1 h2 h3 h4 => exact absurd (List.cons.inj h).1 (by decide)
    | sequence h1 h2 h3 => exact absurd (List.cons.inj h).1 (by decide)
    | compact h1 h2 h3 => exact absurd (List.cons.inj h).1 (by decide)
    | tupleNil h1 h2 => exact absurd (List.cons.inj h).1 (by decide)
    | bits h1 h2 => exact absurd (List.cons.inj h).1 (by decide)
    | option h1 h2 h3 h4 h5 h6 => exact absurd (List.cons.inj h).1 (by decide)
    | result h1 h2 h3 h4 h5 h6 h7 h8 => exact absurd (List.cons.inj h).1 (by decide)
    | call h1 h2 h3 => exact covered_not_call hc h1 h2 h3
    | nothing h1 h2 => exact absurd (List.cons.inj h).1 (by decide)
    | dealtPrimitive h1 h2 => exact absurd (List.cons.inj h).1 (by decide)

/-- An alias of an available text is entered, unless the key is already recorded. -/
theorem alias_enters {st st' : SiState} {key : Str} {d : TypeDef} (hr : st.register cfg key d = .ok st')
    (hs : d.v14 = true → d.specVec = 0) (hk : d.kind = b!"string") (hh : (35 : UInt8) ∉ key) (ha : Avail st d.typeString) :
    (d.v14 = true ∧ (st.reg.v14 key).isSome = true ∧ st'.reg = st.reg) ∨ (st'.reg.env.reg (toLower key)).isSome = true := by
  have hr := (register_eq hr).1
  have hh' : (35 : UInt8) ∉ toLower key := hash_lower hh
  have main : ∀ {st1 st2 : RegState}, regAlias cfg.eqFuel [(key, d)] st1 (toLower key) d = .ok st2 → st1.env = st.reg.env →
      (st2.env.reg (toLower key)).isSome = true := by
    intro st1 st2 h e
    have ht : st1.env.reg (toLower (convertType d.typeString)) = none →
        regAliasText st1 (toLower key) (convertType d.typeString) = .ok st2 → (st2.env.reg (toLower key)).isSome = true := by
      intro h0 h
      rcases ha with ha | ⟨c, ha⟩
      · rw [← e, h0] at ha; cases ha
      · unfold regAliasText at h
        rw [ha] at h
        cases h
        simp only [regCustomKey_set hh', Option.isSome_some]
    unfold regAlias at h
    simp only at h
    split at h
    · cases h
      simp only [regCustomKey_set hh', Option.isSome_some]
    · next hnone =>
      split at h
      · next e he =>
        have hed : e = d := by
          unfold tableGet at he
          split at he
          · cases he; rfl
          · cases he
        subst hed
        rw [if_pos hk] at h
        split at h
        · cases h
          simp only [regCustomKey_set hh', Option.isSome_some]
        · exact ht hnone h
      · exact ht hnone h
  rcases regOne_cases (fuel := cfg.eqFuel) (st := st.reg) (key := key) hs with ⟨h1, h2, e⟩ | ⟨_, _, e⟩ | ⟨_, e⟩
  · exact .inl ⟨h1, h2, (Res.ok.inj (e.symm.trans hr)).symm⟩
  · rw [e, if_pos hk] at hr; exact .inr (main hr rfl)
  · rw [e, if_pos hk] at hr; exact .inr (main hr rfl)

/-- A newtype that is treated as described, with its name. -/
structure Renamed (cfg : SiCfg) (A : Nat → Prop) (i : Nat) (f : SiField) (n : Str) : Prop where
  late : Late cfg A i
  newtype : IsNewtype (cfg.types i)
  field : (cfg.types i).typ = .composite [f]
  other : f.type ≠ i
  name : nameSiType cfg (cfg.types i) (some i) = .ok n
  named : n ≠ []
  covered : ∃ sh, Aliased cfg A sh ∧ Covered cfg A f.type sh

/-- What has been met is available. -/
structure Complete (cfg : SiCfg) (A : Nat → Prop) (st : SiState) : Prop where
  recorded : cfg.v14 = true → ∀ k, Recorded cfg A k st
  avail : ∀ i t sh, st.ids i = some t → Covered cfg A i sh → Aliased cfg A sh → Avail st t
  renamed : ∀ i f n, Renamed cfg A i f n → cfg.v14 = true ∧ (st.reg.v14 n).isSome = true ∨ (st.ids i).isSome = true →
    (st.reg.env.reg (toLower n)).isSome = true
  tuple : ∀ i ks, Late cfg A i → (cfg.types i).typ = .tuple ks → ks ≠ [] → (st.ids i).isSome = true →
    ∃ ts, Texts cfg A ks ts ∧ (st.reg.env.reg (toLower (b!"Tuple:" ++ ts.flatten))).isSome = true

theorem Avail.step (hu : Unversioned cfg) {a b : SiState} (h : Step cfg A a b) {t : Str} (ha : Avail a t) : Avail b t :=
  ha.imp (step_mono hu h) id

theorem name_hash (hT : Tidy cfg A base) {j : Nat} {n : Str} (h : nameSiType cfg (cfg.types j) (some j) = .ok n) : (35 : UInt8) ∉ n :=
  fun hm => (name_plain hT.names h 35 hm).2.2 rfl

theorem tuple_noAlias (hT : Tidy cfg A base) (u : Str) : NoAlias cfg A (b!"Tuple:" ++ u) := by
  intro s h
  generalize he : b!"Tuple:" ++ u = key at h
  have nm : ∀ {j n}, nameSiType cfg (cfg.types j) (some j) = .ok n → b!"Tuple:" ++ u = n → False := by
    rintro j n h rfl
    exact (hT.apart _ _ h (by simp)).tuple (by rw [lower_tuple]; exact List.prefix_append _ _)
  cases h with
  | newtype _ _ h _ => exact nm h he
  | primitive _ => exact absurd (List.cons.inj he).1 (by decide)
  | signature _ => exact absurd (List.cons.inj he).1 (by decide)
  | signer _ => exact absurd (List.cons.inj he).1 (by decide)
  | runtimeCall _ _ h => exact nm h he

theorem clean_hash {t : Str} (h : Clean t) : (35 : UInt8) ∉ t := fun hm => absurd (h.body.bytes 35 hm) (by decide)

theorem covered_newtype {i : Nat} {sh : Shape Nat} {f : SiField} (h : Covered cfg A i sh) (hA : ¬ A i) (hn : IsNewtype (cfg.types i))
    (ht : (cfg.types i).typ = .composite [f]) : Late cfg A i ∧ f.type ≠ i ∧ Covered cfg A f.type sh := by
  cases h with
  | newtype h1 _ h3 h4 _ h5 => rw [ht] at h3; cases h3; exact ⟨h1, h4, h5⟩
  | own _ h _ => exact absurd h (newtype_not_own hn)
  | primitive h => exact absurd h hA
  | crate h => exact absurd h hA
  | account h => exact absurd h hA
  | unit _ h => rcases h with h | h | ⟨k, h⟩ <;> rw [ht] at h <;> cases h
  | bytes _ h => rw [ht] at h; cases h
  | seq _ h => rw [ht] at h; cases h
  | byteArray _ h => rw [ht] at h; cases h
  | array _ h => rw [ht] at h; cases h
  | compact _ h => rw [ht] at h; cases h
  | wrapped _ h => rw [ht] at h; cases h
  | tuple _ h => rw [ht] at h; cases h
  | bits _ h => rw [ht] at h; cases h
  | option _ h => rw [ht] at h; cases h
  | result _ h => rw [ht] at h; cases h

theorem texts_tuple {i : Nat} {ks : List Nat} {ts : List Str} (hA : ¬ A i) (ht : (cfg.types i).typ = .tuple ks) (hne : ks ≠ [])
    (h : Texts cfg A ks ts) : Text cfg A i (b!"Tuple:" ++ ts.flatten) := by
  have : ∃ ps : List (Nat × Str), ps.map (·.1) = ks ∧ ps.map (·.2) = ts ∧ ∀ p ∈ ps, Text cfg A p.1 p.2 := by
    clear ht hne
    induction h with
    | nil => exact ⟨[], rfl, rfl, by simp⟩
    | @cons k t ks ts h _ ih =>
      obtain ⟨ps, rfl, rfl, hp⟩ := ih
      refine ⟨(k, t) :: ps, rfl, rfl, ?_⟩
      intro p hm
      rcases List.mem_cons.1 hm with rfl | hm
      · exact h
      · exact hp p hm
  obtain ⟨ps, rfl, rfl, hp⟩ := this
  exact .tuple ps hA ht (by rintro rfl; exact hne rfl) hp

theorem direct_not_newtype {i : Nat} {t : Str} (h : Direct cfg A i t) : ¬ IsNewtype (cfg.types i) := by
  rintro ⟨f, h0, h1, h2, h3⟩
  cases h with
  | override _ h => exact h h3
  | account _ _ h => exact h2 h
  | wrapper _ _ h => exact h1 h
  | _ => simp_all

/-- The text of a newtype's field is available when the newtype is met. -/
theorem field_avail (hT : Tidy cfg A base) (hS : Stock base) {st : SiState} (hs : EnvSound cfg A base st) (hc : Complete cfg A st)
    {k : Nat} {s : Str} {sh : Shape Nat} (ht : Text cfg A k s) (hi : st.ids k = some s ∨ (cfg.types k).typ = .range)
    (h : Covered cfg A k sh) (hn : Aliased cfg A sh) : Avail st s := by
  rcases hi with hi | hi
  · exact hc.avail _ _ _ hi h hn
  · cases h with
    | crate hA h1 h2 h3 =>
      by_cases hl : lastOf (cfg.types k).path = b!"AccountId32"
      · rw [hl] at h3
        simp [crateShapes] at h3
      · have e := text_crate ht hA h2 hl
        subst e
        rcases view_forms hT hS hs (view (Covered.crate hA h1 h2 h3) hT.names ht hn.ne_null) hn with h | ⟨j, h⟩ | ⟨u, h⟩
        · exact h
        · exfalso
          have := hT.fresh _ _ h (by rintro e; rw [e] at h3; simp [crateShapes] at h3)
          exact absurd this (stock_base hS (sh := sh) (by simp [stockShapes, h3]))
        · rw [h] at h3; simp [crateShapes] at h3
    | newtype _ _ h _ _ _ => rw [hi] at h; cases h
    | own _ h _ => rcases h with ⟨fs, h', _⟩ | ⟨vs, p, ps, h', _⟩ <;> rw [hi] at h' <;> cases h'
    | primitive _ h => rw [hi] at h; cases h
    | account _ h => rw [hi] at h; cases h
    | unit _ h => rcases h with h | h | ⟨k, h⟩ <;> rw [hi] at h <;> cases h
    | bytes _ h => rw [hi] at h; cases h
    | seq _ h => rw [hi] at h; cases h
    | byteArray _ h => rw [hi] at h; cases h
    | array _ h => rw [hi] at h; cases h
    | compact _ h => rw [hi] at h; cases h
    | wrapped _ h => rw [hi] at h; cases h
    | tuple _ h => rw [hi] at h; cases h
    | bits _ h => rw [hi] at h; cases h
    | option _ h => rw [hi] at h; cases h
    | result _ h => rw [hi] at h; cases h

theorem covered_primitive_avail (hT : Tidy cfg A base) (hS : Stock base) {st : SiState} (hs : EnvSound cfg A base st) {i : Nat} {p : Str}
    {sh : Shape Nat} (ht : Text cfg A i p) (h : Covered cfg A i sh) (hn : sh ≠ .null) (hc : (st.reg.env.reg (toLower p)).isSome = true) :
    Avail st p := by
  rcases view_convert hT.names (view h hT.names ht hn) with ⟨rfl | rfl, _⟩ | e
  · left
    rw [show toLower (convertType b!"Vec<U8>") = b!"bytes" by kernel_rfl, entry_kept hT hS hs (c := .bytes) (by simp [stockClasses])]
    rfl
  · left
    rw [show toLower (convertType b!"Vec<u8>") = b!"bytes" by kernel_rfl, entry_kept hT hS hs (c := .bytes) (by simp [stockClasses])]
    rfl
  · exact .inl (by rw [e]; exact hc)

theorem Complete.step (hT : Tidy cfg A base) (hS : Stock base) {a b : SiState} (h : Step cfg A a b) (hs : EnvSound cfg A base a)
    (hc : Complete cfg A a) : Complete cfg A b := by
  have hu := hT.unversioned
  have hsb := EnvSound.step hu h hs
  have hmono := fun {k} => step_mono hu h (k := k)
  refine ⟨fun hv k => Recorded.step hu h (hc.recorded hv k), ?_, ?_, ?_⟩
  · -- texts of covered types
    intro i t sh hi hcov hn
    have old : a.ids i = some t → Avail b t := fun hi => (hc.avail _ _ _ hi hcov hn).step hu h
    have plain : ∀ {n}, Text cfg A i n → (b.reg.env.reg (toLower n)).isSome = true → t = n → Avail b t := by
      rintro n h1 h2 rfl
      exact covered_primitive_avail hT hS hsb h1 hcov hn.ne_null h2
    have own : ∀ {st' : SiState} {m d}, a.register cfg m d = .ok st' → (d.v14 = true → cfg.v14 = true) → (d.v14 = true → d.specVec = 0) →
        (d.kind = b!"struct" ∨ d.kind = b!"enum") → IsOwn (cfg.types i) → ¬ A i → nameSiType cfg (cfg.types i) (some i) = .ok m →
        b.reg = st'.reg → t = m → Avail b t := by
      intro st' m d hr hcv hsp hk ho hA hm e et
      have htx : Text cfg A i m := by
        by_cases e : m = []
        · subst e; exact .emptyName hA ho hm
        · exact .name hA hm e
      have hne := (text_clean hT.names htx).ne_nil
      refine plain htx ?_ et
      have hna : NoAlias cfg A m := fun s hs => alias_key ho (hT.apart _ _ hm hne) hs rfl
      rcases register_enters hr hsp hk (name_hash hT hm) with ⟨hv, h2, e3⟩ | h2
      · rw [e, e3]; exact hc.recorded (hcv hv) m hna (name_hash hT hm) h2
      · rw [e]; exact h2
    cases h with
    | @set j t' hd =>
      simp only [SiState.setId] at hi
      split at hi
      · next e =>
        cases hi
        subst e
        exact direct_avail hT hS hsb hd hcov hn
      · exact old hi
    | @struct st' j fs n ts hA ht hl hw hm hts hr =>
      simp only [SiState.setId, (register_eq hr).2] at hi
      split at hi
      · next e =>
        cases hi
        subst e
        exact own hr id hu (.inl rfl) (.inl ⟨fs, ht, hl, hw⟩) hA hm rfl rfl
      · exact old hi
    | @enum st' j vs n rows hA ht hen hm hrows hr =>
      simp only [SiState.setId, (register_eq hr).2] at hi
      split at hi
      · next e =>
        cases hi
        subst e
        exact own hr id hu (.inr rfl) (.inr hen) hA hm rfl rfl
      · exact old hi
    | @newtype st' j f n s hA ht hnt hm hsub hr =>
      simp only [SiState.setId, (register_eq hr).2] at hi
      split at hi
      · next e =>
        cases hi
        subst e
        obtain ⟨_, h2, h3⟩ := covered_newtype hcov hA hnt ht
        rcases hsub with ⟨h4, h5⟩ | ⟨h4, _⟩
        · exact (field_avail hT hS hs hc h4 h5 h3 hn).imp hmono id
        · exact absurd h4 h2
      · exact old hi
    | @tuple st' j ks ts hA ht hne hts hr =>
      simp only [SiState.setId, (register_eq hr).2] at hi
      split at hi
      · next e =>
        cases hi
        subst e
        have htx := texts_tuple hA ht hne hts
        refine plain htx ?_ rfl
        have hh := clean_hash (text_clean hT.names htx)
        rcases register_enters hr hu (.inl rfl) hh with ⟨hv, h2, e3⟩ | h2
        · show (st'.reg.env.reg _).isSome = true
          rw [e3]; exact hc.recorded hv _ (tuple_noAlias hT _) hh h2
        · exact h2
      · exact old hi
    | @primitive st' j p c hp hreg hr =>
      simp only [SiState.setId, (register_eq hr).2] at hi
      split at hi
      · next e =>
        cases hi
        subst e
        refine plain ?_ (hmono (by rw [hreg]; rfl)) rfl
        rcases hp with hp | ⟨h1, rfl⟩
        · exact .primitive hp
        · exact .primitiveTypes h1
      · exact old hi
    | param hk ht hr => exact old (by rw [(register_eq hr).2] at hi; exact hi)
    | @runtimeCall st' j vs n hA ht hl hm hr =>
      simp only [SiState.setId, (register_eq hr).2] at hi
      split at hi
      · next e =>
        cases hi
        subst e
        exact absurd (.inr (.inr hl)) (covered_not_call hcov hA ht)
      · exact old hi
  · -- names of newtypes
    intro i f n hR hor
    have hA' := hT.apart _ _ hR.name hR.named
    have hh := name_hash hT hR.name
    have old : cfg.v14 = true ∧ (a.reg.v14 n).isSome = true ∨ (a.ids i).isSome = true → (b.reg.env.reg (toLower n)).isSome = true :=
      fun h => hmono (hc.renamed _ _ _ hR h)
    have plain : ∀ {st' : SiState} {m j t d}, a.register cfg m d = .ok st' → (d.v14 = true → d.specVec = 0) →
        (d.kind = b!"struct" ∨ d.kind = b!"enum") → ¬ j = i → b = st'.setId j t → (b.reg.env.reg (toLower n)).isSome = true := by
      rintro st' m j t d hr hsp hk hj rfl
      rcases hor with ⟨hv, h1⟩ | h1
      · rcases register_records hr hsp h1 with h2 | ⟨rfl, _⟩
        · exact old (.inl ⟨hv, h2⟩)
        · rcases register_enters hr hsp hk hh with ⟨_, h2, _⟩ | h2
          · exact old (.inl ⟨hv, h2⟩)
          · exact h2
      · simp only [SiState.setId, if_neg (Ne.symm hj), (register_eq hr).2] at h1
        exact old (.inr h1)
    have own_ne : ∀ {j}, IsOwn (cfg.types j) → ¬ j = i := by
      rintro j h rfl
      exact newtype_not_own hR.newtype h
    have var_ne : ∀ {j vs}, (cfg.types j).typ = .variant vs → ¬ j = i := by
      rintro j vs h rfl
      rw [hR.field] at h; cases h
    cases h with
    | @set j t' hd =>
      refine old ?_
      by_cases e : i = j
      · subst e
        exact absurd hR.newtype (direct_not_newtype hd)
      · simp only [SiState.setId, if_neg e] at hor
        exact hor
    | @struct st' j fs m ts hA ht hl hw hm hts hr => exact plain hr hu (.inl rfl) (own_ne (.inl ⟨fs, ht, hl, hw⟩)) rfl
    | @enum st' j vs m rows hA ht hen hm hrows hr => exact plain hr hu (.inr rfl) (own_ne (.inr hen)) rfl
    | @newtype st' j g m s hA ht hnt hm hsub hr =>
      by_cases e : i = j
      · subst e
        have := hm.symm.trans hR.name
        cases this
        have := ht.symm.trans hR.field
        cases this
        obtain ⟨sh, hsh, hcov⟩ := hR.covered
        have hav : Avail a s := by
          rcases hsub with ⟨h4, h5⟩ | ⟨h4, _⟩
          · exact field_avail hT hS hs hc h4 h5 hcov hsh
          · exact absurd h4 hR.other
        rcases alias_enters hr hu rfl hh hav with ⟨hv, h2, _⟩ | h2
        · exact old (.inl ⟨hv, h2⟩)
        · exact h2
      · refine old ?_
        rcases hor with ⟨hv, h1⟩ | h1
        · rcases register_records hr hu h1 with h2 | ⟨rfl, _⟩
          · exact .inl ⟨hv, h2⟩
          · exact absurd (hA'.names _ _ hm rfl).symm e
        · simp only [SiState.setId, (register_eq hr).2, if_neg e] at h1
          exact .inr h1
    | @tuple st' j ks ts hA ht hne hts hr =>
      refine plain hr hu (.inl rfl) ?_ rfl
      rintro rfl
      rw [hR.field] at ht; cases ht
    | @primitive st' j p c hp hreg hr =>
      refine old ?_
      rcases hor with ⟨hv, h1⟩ | h1
      · rcases register_records hr hu h1 with h2 | ⟨rfl, _⟩
        · exact .inl ⟨hv, h2⟩
        · exact absurd (by rw [toLower_append]; exact List.prefix_append _ _) hA'.primitive
      · by_cases e : i = j
        · subst e
          exfalso
          rcases hp with hp | ⟨hp, _⟩
          · rw [hR.field] at hp; cases hp
          · exact hR.late.2 hp
        · simp only [SiState.setId, (register_eq hr).2, if_neg e] at h1
          exact .inr h1
    | @param st' key j s hk ht hr =>
      refine old ?_
      rcases hor with ⟨hv, h1⟩ | h1
      · rcases register_records hr (fun h => by cases h) h1 with h2 | ⟨_, h⟩
        · exact .inl ⟨hv, h2⟩
        · cases h
      · rw [(register_eq hr).2] at h1; exact .inr h1
    | @runtimeCall st' j vs m hA ht hl hm hr =>
      refine old ?_
      rcases hor with ⟨hv, h1⟩ | h1
      · rcases register_records hr (fun h => by cases h) h1 with h2 | ⟨_, h⟩
        · exact .inl ⟨hv, h2⟩
        · cases h
      · simp only [SiState.setId, (register_eq hr).2, if_neg (Ne.symm (var_ne ht))] at h1
        exact .inr h1
  · -- tuples
    intro i ks hl ht hne hi
    have old : (a.ids i).isSome = true → ∃ ts, Texts cfg A ks ts ∧ (b.reg.env.reg (toLower (b!"Tuple:" ++ ts.flatten))).isSome = true :=
      fun hi => by
        obtain ⟨ts, h1, h2⟩ := hc.tuple i ks hl ht hne hi
        exact ⟨ts, h1, hmono h2⟩
    have set : ∀ {j t}, b.ids = (a.setId j t).ids → (¬ ∃ ks, ks ≠ [] ∧ (cfg.types j).typ = .tuple ks ∧
        (cfg.types j).path.head? ≠ some b!"primitive_types") → 
        ∃ ts, Texts cfg A ks ts ∧ (b.reg.env.reg (toLower (b!"Tuple:" ++ ts.flatten))).isSome = true := by
      intro j t e hj
      rw [e] at hi
      by_cases e : i = j
      · subst e; exact absurd ⟨_, hne, ht, hl.2⟩ hj
      · simp only [SiState.setId, if_neg e] at hi
        exact old hi
    have plain : ∀ {st' : SiState} {j m t d}, a.register cfg m d = .ok st' → b = st'.setId j t → b.ids = (a.setId j t).ids := by
      rintro st' j m t d hr rfl
      simp only [SiState.setId, (register_eq hr).2]
    cases h with
    | @set j t' hd =>
      refine set rfl ?_
      rintro ⟨ks, h1, h2, _⟩
      cases hd with
      | override _ h => exact h (by unfold overriderTypesName; rw [h2])
      | tupleNil _ h => rw [h2] at h; cases h; exact h1 rfl
      | account h _ _ => rw [h2] at h; cases h
      | _ => simp_all
    | @struct st' j fs n ts hA ht' hl' hw hm hts hr =>
      refine set (plain hr rfl) ?_
      rintro ⟨ks, h1, h2, _⟩
      rw [h2] at ht'; cases ht'
    | @enum st' j vs n rows hA ht' hen hm hrows hr =>
      refine set (plain hr rfl) ?_
      rintro ⟨ks, h1, h2, _⟩
      rw [h2] at ht'; cases ht'
    | @newtype st' j f n s hA ht' hnt hm hsub hr =>
      refine set (register_eq hr).2 ?_
      rintro ⟨ks, h1, h2, _⟩
      rw [h2] at ht'; cases ht'
    | @tuple st' j ls ts hA ht' hne' hts hr =>
      by_cases e : i = j
      · subst e
        have := ht.symm.trans ht'
        cases this
        refine ⟨ts, hts, ?_⟩
        have htx := texts_tuple hA ht hne hts
        have hh := clean_hash (text_clean hT.names htx)
        rcases register_enters hr hu (.inl rfl) hh with ⟨hv, h2, e3⟩ | h2
        · show (st'.reg.env.reg _).isSome = true
          rw [e3]; exact hc.recorded hv _ (tuple_noAlias hT _) hh h2
        · exact h2
      · simp only [SiState.setId, if_neg e, (register_eq hr).2] at hi
        exact old hi
    | @primitive st' j p c hp hreg hr =>
      refine set (register_eq hr).2 ?_
      rintro ⟨ks, h1, h2, h3⟩
      rcases hp with hp | ⟨hp, _⟩
      · rw [h2] at hp; cases hp
      · exact h3 hp
    | param hk ht hr => exact old (by rw [(register_eq hr).2] at hi; exact hi)
    | @runtimeCall st' j vs n hA ht' hl' hm hr =>
      refine set (register_eq hr).2 ?_
      rintro ⟨ks, h1, h2, _⟩
      rw [h2] at ht'; cases ht'

end

end ScaleGo
