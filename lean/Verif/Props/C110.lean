import Verif.Lemmas.ChainTypes
import Verif.Props.C109

/-! # C110: aliases mean what their texts mean

A chain may define `Foo` as another name of a type text. The code looks into the text when the alias is registered; it knows five
wrappers, tuples, arrays and names, and drops an alias of any other text without a word. -/

namespace ScaleGo

open ScaleGo.Spec

/-- The definition of an alias. -/
def aliasOf (t : Str) : TypeDef := { kind := b!"string", typeString := t }

/-- A new name for types: an identifier that has no meaning yet. -/
structure NewName (env : Env) (m key : Str) : Prop where
  plain : PlainName key
  prefixed : hasPrefix key b!"BoundedBTreeSet" = false
  notOverridden : NotOverridden m key
  special : env.special (toLower key) = []
  null : _root_.Spec.asciiLower key ≠ b!"null"

/-- A text with an argument that is looked up by its wrapper. -/
structure ByWrapper (env : Env) (m : Str) (spec : Int) (w a : Str) : Prop where
  wrapper : PlainName w
  argument : a ≠ []
  verbatim : Verbatim (generic w a)
  notOverridden : NotOverridden m w
  notOverridden' : NotOverridden m (generic w a)
  unregistered : Unregistered env spec (generic w a)

/-- The full property: when `key` becomes an alias of a text that means something, it means the same, with and without an argument. -/
def C110Claim : Prop :=
  ∀ (fuel : Nat) (st st' : RegState) (key t : Str) (ctx : Ctx) (ectx : ECtx) (cls ecls : Cls) (sub esub : Str), NewName st.env ctx.module key →
    Resolves st'.env ctx.module ctx.spec t cls sub → EncResolves st'.env ectx t ecls esub →
    regCustomTypes fuel st [(key, aliasOf t)] = .ok st' →
    SameCodec st'.env ctx ectx key t ∧
    ∀ a, ByWrapper st'.env ctx.module ctx.spec key a → ByWrapper st'.env [] ectx.spec key a → SameCodec st'.env ctx ectx (generic key a) t

/-! ## Registering -/

theorem register_says (fuel : Nat) (st : RegState) {key t : Str} {c : Cls} (hk : PlainName key)
    (h : Says st.env (fun k => toLower key = k) (aliasOf t) c) :
    regCustomTypes fuel st [(key, aliasOf t)] = .ok { st with env := setReg st.env (toLower key) c } := by
  have hx : ∀ e : Entry, e ∈ [(⟨key, none, c⟩ : Entry)] → e.Keyed := by
    intro e he
    rw [List.mem_singleton] at he
    subst he
    exact ⟨hk.absent.2.1, by simp⟩
  refine regLoop_says fuel [(key, aliasOf t)] st.env [⟨key, none, c⟩] [⟨key, none, c⟩] [(key, aliasOf t)] st (fun _ _ => rfl) ?_ (fun _ h => h) hx ?_
  · intro r hr
    rw [List.mem_singleton] at hr
    subst hr
    exact ⟨⟨key, none, c⟩, by simp, rfl⟩
  · refine .cons ⟨rfl, rfl, ?_⟩ .nil
    exact h.mono fun k ⟨e, he, _, h2⟩ => by
      rw [List.mem_singleton] at he
      subst he
      exact h2

/-- The name after its registration. -/
theorem newName_resolves {env : Env} {m key : Str} (h : NewName env m key) (c : Cls) (spec : Int) :
    Resolves (setReg env (toLower key) c) m spec key c [] := by
  unfold Resolves
  rw [getCodecClass_plain _ spec h.plain h.prefixed (moduleType_notOverridden h.notOverridden)]
  simp [setReg, h.special, findSpecial]

theorem newName_argument {env : Env} {m key : Str} (h : NewName env m key) (c : Cls) (spec : Int) {a : Str}
    (ha : ByWrapper (setReg env (toLower key) c) m spec key a) : Resolves (setReg env (toLower key) c) m spec (generic key a) c a :=
  C36_wrapper_partial _ _ _ _ _ _ ha.wrapper ha.argument ha.verbatim ha.notOverridden ha.notOverridden' ha.unregistered
    (by simp [Entered, setReg, h.special, findSpecial])

/-- A new name does not touch the texts with an argument of another wrapper. -/
theorem byWrapper_after {env : Env} {m key w a : Str} {spec : Int} (hk : PlainName key) (c : Cls) (h : ByWrapper env m spec w a) :
    ByWrapper (setReg env (toLower key) c) m spec w a := by
  refine ⟨h.wrapper, h.argument, h.verbatim, h.notOverridden, h.notOverridden', h.unregistered.1, ?_⟩
  have : toLower (generic w a) ≠ toLower key := by
    intro e
    have h60 : (60 : UInt8) ∈ toLower (generic w a) := by
      unfold toLower generic
      exact List.mem_map.2 ⟨60, by simp, by decide⟩
    rw [e] at h60
    unfold toLower at h60
    obtain ⟨x, hx, h2⟩ := List.mem_map.1 h60
    have : x = 60 := forall_byte (P := fun x => lowerByte x = 60 → x = 60) (by decide +kernel) x h2
    exact hk.absent.2.2.2.2.2.2.2.2.2.1 (this ▸ hx)
  simp only [setReg]
  rw [if_neg this]
  exact h.unregistered.2

theorem wrapper_after {env : Env} {m key w a : Str} {spec : Int} (hk : PlainName key) (c c' : Cls) (h : ByWrapper env m spec w a)
    (hne : ¬ SameName key w) (he : Entered env spec w c') : Resolves (setReg env (toLower key) c) m spec (generic w a) c' a := by
  have h2 := byWrapper_after hk c h
  refine C36_wrapper_partial _ _ _ _ _ _ h2.wrapper h2.argument h2.verbatim h2.notOverridden h2.notOverridden' h2.unregistered ?_
  unfold Entered setReg
  dsimp only
  rw [if_neg fun e => hne ((toLower_eq_iff _ _).1 e.symm)]
  exact he

/-! ## The wrappers that are understood -/

/-- The wrappers of which aliases are understood, with their classes. -/
def aliasWrappers : List (Str × (Str → Cls)) :=
  [(b!"Vec", .vec), (b!"Option", .option), (b!"Compact", .compact), (b!"BTreeMap", .btreeMap), (b!"BTreeSet", .vec)]

theorem aliasWrappers_composes {w a : Str} {f : Str → Cls} (hw : (w, f) ∈ aliasWrappers) (ha : a ≠ []) (hn : 10 ∉ a) :
    Composes (generic w a) (f a) := by
  simp only [aliasWrappers, List.mem_cons, Prod.mk.injEq, List.not_mem_nil, or_false] at hw
  rcases hw with ⟨rfl, rfl⟩ | ⟨rfl, rfl⟩ | ⟨rfl, rfl⟩ | ⟨rfl, rfl⟩ | ⟨rfl, rfl⟩
  · exact .vec a ha hn
  · exact .option a ha hn
  · exact .compact a ha hn
  · exact .map a ha hn
  · exact .set a ha hn

theorem aliasWrappers_process {w a : Str} {f : Str → Cls} (hw : (w, f) ∈ aliasWrappers) (ha : a ≠ []) (ext : Ext) (rec : Ctx → Str → St → Res (Val × St))
    (ctx : Ctx) : process ext rec ctx (f a) [] = process ext rec ctx (f []) a := by
  simp only [aliasWrappers, List.mem_cons, Prod.mk.injEq, List.not_mem_nil, or_false] at hw
  rcases hw with ⟨rfl, rfl⟩ | ⟨rfl, rfl⟩ | ⟨rfl, rfl⟩ | ⟨rfl, rfl⟩ | ⟨rfl, rfl⟩ <;> simp [process, effSub, ha]

theorem aliasWrappers_encode {w a : Str} {f : Str → Cls} (hw : (w, f) ∈ aliasWrappers) (ha : a ≠ []) (ext : Ext) (rec : ECtx → Str → Val → Res Str)
    (ctx : ECtx) (v : Val) : encodeCls ext rec ctx (f a) [] v = encodeCls ext rec ctx (f []) a v := by
  simp only [aliasWrappers, List.mem_cons, Prod.mk.injEq, List.not_mem_nil, or_false] at hw
  rcases hw with ⟨rfl, rfl⟩ | ⟨rfl, rfl⟩ | ⟨rfl, rfl⟩ | ⟨rfl, rfl⟩ | ⟨rfl, rfl⟩ <;> simp [encodeCls, effSub, ha]

/-- The name `key` becomes an alias of `w<a>`, where `w` is an understood wrapper. -/
structure AliasCase (st : RegState) (key w a : Str) (f : Str → Cls) (ctx : Ctx) (ectx : ECtx) : Prop where
  name : NewName st.env ctx.module key
  wrapper : (w, f) ∈ aliasWrappers
  other : ¬ SameName key w
  hash : 35 ∉ generic w a
  text : ByWrapper st.env ctx.module ctx.spec w a
  entered : Entered st.env ctx.spec w (f [])
  text' : ByWrapper st.env [] ectx.spec w a
  entered' : Entered st.env ectx.spec w (f [])

theorem aliasCase_registers (fuel : Nat) {st : RegState} {key w a : Str} {f : Str → Cls} {ctx : Ctx} {ectx : ECtx} (C : AliasCase st key w a f ctx ectx) :
    regCustomTypes fuel st [(key, aliasOf (generic w a))] = .ok { st with env := setReg st.env (toLower key) (f a) } := by
  obtain ⟨hk, hw, hne, h35, h, hc, h', hc'⟩ := C
  have hn : 10 ∉ a := fun hm => h.verbatim.newline (by simp [generic, hm])
  have hconv : convertType (generic w a) = generic w a := convertType_verbatim h.verbatim
  have hsays : Says st.env (fun k => toLower key = k) (aliasOf (generic w a)) (f a) := by
    refine .composed _ _ rfl ?_ ?_ ?_ ?_
    · show st.env.reg (toLower (convertType (generic w a))) = none
      rw [hconv]; exact h.unregistered.2
    · show ¬ toLower key = toLower (convertType (generic w a))
      rw [hconv]
      intro e
      have := (byWrapper_after hk.plain (f []) h).unregistered.2
      simp [setReg, e] at this
    · show 35 ∉ convertType (generic w a)
      rw [hconv]; exact h35
    · show Composes (convertType (generic w a)) (f a)
      rw [hconv]; exact aliasWrappers_composes hw h.argument hn
  exact register_says fuel st hk.plain hsays

theorem generic_not_null (w a : Str) : _root_.Spec.asciiLower (generic w a) ≠ b!"null" := by
  intro e
  have : (60 : UInt8) ∈ b!"null" := by
    rw [← e, ← toLower_eq_spec]
    unfold toLower generic
    exact List.mem_map.2 ⟨60, by simp, by decide⟩
  exact absurd this (by decide)

theorem NewName.anywhere {env : Env} {m key : Str} (h : NewName env m key) : NewName env [] key :=
  ⟨h.plain, h.prefixed, notOverridden_nil _, h.special, h.null⟩

/-- Aliases of lists, options, compact numbers, maps and sets. -/
theorem C110_partial (fuel : Nat) (st : RegState) (key w a : Str) (f : Str → Cls) (ctx : Ctx) (ectx : ECtx) (C : AliasCase st key w a f ctx ectx) :
    ∃ st', regCustomTypes fuel st [(key, aliasOf (generic w a))] = .ok st' ∧ SameCodec st'.env ctx ectx key (generic w a) := by
  refine ⟨_, aliasCase_registers fuel C, ?_⟩
  obtain ⟨hk, hw, hne, h35, h, hc, h', hc'⟩ := C
  exact sameCodec_of (newName_resolves hk _ _) (wrapper_after hk.plain _ _ h hne hc) (fun rec => aliasWrappers_process hw h.argument _ _ _)
    ⟨newName_resolves hk.anywhere _ _, hk.null⟩ ⟨wrapper_after hk.plain _ _ h' hne hc', generic_not_null _ _⟩
    (fun rec v => aliasWrappers_encode hw h.argument _ _ _ _)

/-- Aliases of names. -/
theorem C110_name_partial (fuel : Nat) (st : RegState) (key t : Str) (c : Cls) (ctx : Ctx) (ectx : ECtx) (hk : NewName st.env ctx.module key)
    (ht : NewName st.env ctx.module t) (hne : ¬ SameName key t) (hc : st.env.reg (toLower t) = some c) :
    ∃ st', regCustomTypes fuel st [(key, aliasOf t)] = .ok st' ∧ SameCodec st'.env ctx ectx key t := by
  have hconv : convertType t = t := convertType_plain ht.plain ht.prefixed
  have hsays : Says st.env (fun k => toLower key = k) (aliasOf t) c := by
    refine .known _ _ rfl ?_ ?_
    · show st.env.reg (toLower (convertType t)) = some c
      rw [hconv]; exact hc
    · show ¬ toLower key = toLower (convertType t)
      rw [hconv]
      exact fun e => hne ((toLower_eq_iff _ _).1 e)
  refine ⟨_, register_says fuel st hk.plain hsays, ?_⟩
  have ht2 : ∀ m spec, NotOverridden m t → Resolves (setReg st.env (toLower key) c) m spec t c [] := by
    intro m spec hm
    unfold Resolves
    rw [getCodecClass_plain _ spec ht.plain ht.prefixed (moduleType_notOverridden hm)]
    have : ¬ toLower t = toLower key := fun e => hne ((toLower_eq_iff _ _).1 e.symm)
    simp [setReg, ht.special, findSpecial, this, hc]
  exact sameCodec_of (newName_resolves hk _ _) (ht2 _ _ ht.notOverridden) (fun _ => rfl) ⟨newName_resolves hk.anywhere _ _, hk.null⟩
    ⟨ht2 _ _ (notOverridden_nil _), ht.null⟩ fun _ _ => rfl

/-- An argument behind the alias of a list or a set is without effect. -/
theorem C110_argument_partial (fuel : Nat) (st : RegState) (key w a b : Str) (f : Str → Cls) (ctx : Ctx) (ectx : ECtx)
    (C : AliasCase st key w a f ctx ectx) (hw : w = b!"Vec" ∨ w = b!"BTreeSet") (hb : ByWrapper st.env ctx.module ctx.spec key b)
    (hb' : ByWrapper st.env [] ectx.spec key b) :
    ∃ st', regCustomTypes fuel st [(key, aliasOf (generic w a))] = .ok st' ∧ SameCodec st'.env ctx ectx (generic key b) (generic w a) := by
  refine ⟨_, aliasCase_registers fuel C, ?_⟩
  obtain ⟨hk, hf, hne, h35, h, hc, h', hc'⟩ := C
  have e : f = .vec := by
    simp only [aliasWrappers, List.mem_cons, Prod.mk.injEq, List.not_mem_nil, or_false] at hf
    rcases hw with rfl | rfl <;> simpa using hf
  subst e
  refine sameCodec_of (newName_argument hk _ _ (byWrapper_after hk.plain _ hb)) (wrapper_after hk.plain _ _ h hne hc) (fun rec => ?_)
    ⟨newName_argument hk.anywhere _ _ (byWrapper_after hk.plain _ hb'), generic_not_null _ _⟩
    ⟨wrapper_after hk.plain _ _ h' hne hc', generic_not_null _ _⟩ (fun rec v => ?_)
  · simp [process, h.argument]
  · simp [encodeCls, h.argument]

/-- An argument behind the alias of an option, a compact number or a map takes the place of the one in the alias. -/
theorem C110_argument_wrong (fuel : Nat) (st : RegState) (key w a b : Str) (f : Str → Cls) (ctx : Ctx) (ectx : ECtx)
    (C : AliasCase st key w a f ctx ectx) (hw : w = b!"Option" ∨ w = b!"Compact" ∨ w = b!"BTreeMap")
    (hb : ByWrapper st.env ctx.module ctx.spec key b) (hb' : ByWrapper st.env [] ectx.spec key b)
    (hwb : ByWrapper st.env ctx.module ctx.spec w b) (hwb' : ByWrapper st.env [] ectx.spec w b) :
    ∃ st', regCustomTypes fuel st [(key, aliasOf (generic w a))] = .ok st' ∧ SameCodec st'.env ctx ectx (generic key b) (generic w b) := by
  refine ⟨_, aliasCase_registers fuel C, ?_⟩
  obtain ⟨hk, hf, hne, h35, h, hc, h', hc'⟩ := C
  refine sameCodec_of (newName_argument hk _ _ (byWrapper_after hk.plain _ hb)) (wrapper_after hk.plain _ _ hwb hne hc) (fun rec => ?_)
    ⟨newName_argument hk.anywhere _ _ (byWrapper_after hk.plain _ hb'), generic_not_null _ _⟩
    ⟨wrapper_after hk.plain _ _ hwb' hne hc', generic_not_null _ _⟩ (fun rec v => ?_)
  all_goals
    simp only [aliasWrappers, List.mem_cons, Prod.mk.injEq, List.not_mem_nil, or_false] at hf
    rcases hw with rfl | rfl | rfl <;> simp at hf <;> subst hf <;> simp [process, encodeCls, effSub, hb.argument]

/-- An alias of a text with any other wrapper is dropped. -/
theorem C110_dropped_wrong (fuel : Nat) (st : RegState) (key w a : Str) (ctx : Ctx) (hk : PlainName key)
    (hw : ∀ x ∈ aliasWrappers, ¬ SameName w x.1) (h : ByWrapper st.env ctx.module ctx.spec w a) :
    regCustomTypes fuel st [(key, aliasOf (generic w a))] = .ok st := by
  have hn : 10 ∉ a := fun hm => h.verbatim.newline (by simp [generic, hm])
  have hconv : convertType (generic w a) = generic w a := convertType_verbatim h.verbatim
  have h60 : 60 ∉ w := h.wrapper.absent.2.2.2.2.2.2.2.2.2.1
  have hkey : key ≠ generic w a := by
    rintro rfl
    exact hk.absent.2.2.2.2.2.2.2.2.2.1 (by simp [generic])
  have hfold : ∀ x ∈ [b!"vec", b!"option", b!"compact", b!"BTreeMap", b!"BTreeSet"], equalFold w x = false := by
    intro x hx
    unfold equalFold
    rw [beq_eq_false_iff_ne]
    intro e
    simp only [List.mem_cons, List.not_mem_nil, or_false] at hx
    rcases hx with rfl | rfl | rfl | rfl | rfl
    · exact hw (b!"Vec", .vec) (by simp [aliasWrappers]) ((toLower_eq_iff _ _).1 e)
    · exact hw (b!"Option", .option) (by simp [aliasWrappers]) ((toLower_eq_iff _ _).1 e)
    · exact hw (b!"Compact", .compact) (by simp [aliasWrappers]) ((toLower_eq_iff _ _).1 e)
    · exact hw (b!"BTreeMap", .btreeMap) (by simp [aliasWrappers]) ((toLower_eq_iff _ _).1 e)
    · exact hw (b!"BTreeSet", .vec) (by simp [aliasWrappers]) ((toLower_eq_iff _ _).1 e)
  obtain ⟨x, r, hx, hxn⟩ := h.wrapper.head
  have hc : aliasClass (generic w a) = .ok none := by
    unfold aliasClass
    rw [if_neg (by simp [generic])]
    simp only [partsOf, generic_ends, if_true, generic_parts h60 h.argument hn, hfold b!"vec" (by simp), hfold b!"option" (by simp),
      hfold b!"compact" (by simp), hfold b!"BTreeMap" (by simp), hfold b!"BTreeSet" (by simp), Bool.false_eq_true, if_false]
    have hh : (generic w a).head? = some x := by rw [generic, hx]; rfl
    rw [hh, if_neg, if_neg]
    · rintro ⟨_, e, _⟩
      exact (nameByte_ne hxn).2.2.2.2.2.2.2.2.2.2.2.1 (Option.some.inj e)
    · rintro ⟨_, e, _⟩
      exact (nameByte_ne hxn).2.2.2.1 (Option.some.inj e)
  show regLoop fuel [(key, aliasOf (generic w a))] st [(key, aliasOf (generic w a))] = .ok st
  unfold regLoop regEntry v14Key
  have hnone : st.env.reg (toLower (generic w a)) = none := h.unregistered.2
  simp only [aliasOf, if_true, Res.ok_bind, regAlias, hconv, hnone, tableGet, regAliasText, hc]
  rw [if_neg hkey]
  rfl

/-! ## Tuples and arrays -/

theorem register_text (fuel : Nat) (st : RegState) {key t : Str} {c : Cls} (hk : PlainName key) (hconv : convertType t = t)
    (hnone : st.env.reg (toLower t) = none) (hne : key ≠ t) (hc : aliasClass t = .ok (some c)) :
    regCustomTypes fuel st [(key, aliasOf t)] = .ok { st with env := setReg st.env (toLower key) c } := by
  have e : regCustomKey st.env (toLower key) c = setReg st.env (toLower key) c :=
    regCustomKey_entry st.env (e := ⟨key, none, c⟩) ⟨hk.absent.2.1, by simp⟩ rfl
  show regLoop fuel [(key, aliasOf t)] st [(key, aliasOf t)] = _
  unfold regLoop regEntry v14Key
  simp only [aliasOf, if_true, Res.ok_bind, regAlias, hconv, hnone, tableGet, regAliasText, hc]
  rw [if_neg hne, e]
  rfl

/-- Aliases of tuples, whatever is taken for the members of the tuple. -/
theorem C110_tuple_partial (fuel : Nat) (st : RegState) (key body : Str) (ctx : Ctx) (ectx : ECtx) (hk : NewName st.env ctx.module key)
    (hne : ¬ SameName key b!"Struct") (hb : body ≠ []) (hv : Verbatim (40 :: (body ++ [41]))) (hm : NotOverridden ctx.module (40 :: (body ++ [41])))
    (hu : Unregistered st.env ctx.spec (40 :: (body ++ [41]))) (hu' : Unregistered st.env ectx.spec (40 :: (body ++ [41])))
    (hms : NotOverridden ctx.module b!"Struct") (hs : ∃ fs, Entered st.env ctx.spec b!"Struct" (.struct fs))
    (hs' : ∃ fs, Entered st.env ectx.spec b!"Struct" (.struct fs)) :
    ∃ st', regCustomTypes fuel st [(key, aliasOf (40 :: (body ++ [41])))] = .ok st' ∧ SameCodec st'.env ctx ectx key (40 :: (body ++ [41])) := by
  have hlast : endsWith (40 :: (body ++ [41])) 41 = true := by
    rw [← List.cons_append]; unfold endsWith; rw [List.getLast?_concat]; decide
  have hlast' : endsWith (40 :: (body ++ [41])) 62 = false := by
    rw [← List.cons_append]; unfold endsWith; rw [List.getLast?_concat]; decide
  have hT2 : 40 :: (body ++ [41]) ≠ b!"()" := by
    intro he
    have h2 : body ++ [41] = [] ++ [41] := (List.cons.inj he).2
    exact hb (List.append_cancel_right h2)
  have hconv := convertType_verbatim hv
  have hlow : toLower (40 :: (body ++ [41])) ≠ toLower key := by
    intro e
    have h40 : (40 : UInt8) ∈ toLower key := by
      rw [← e]
      unfold toLower
      exact List.mem_map.2 ⟨40, by simp, by decide⟩
    unfold toLower at h40
    obtain ⟨x, hx, h2⟩ := List.mem_map.1 h40
    have : x = 40 := forall_byte (P := fun x => lowerByte x = 40 → x = 40) (by decide +kernel) x h2
    exact hk.plain.absent.2.2.2.1 (this ▸ hx)
  have hc : aliasClass (40 :: (body ++ [41])) = .ok (some (.struct (some (buildStruct (40 :: (body ++ [41])))))) := by
    unfold aliasClass
    rw [if_neg (by simp)]
    simp only [partsOf, hlast', Bool.false_eq_true, if_false]
    rw [if_pos ⟨hT2, rfl, hlast⟩]
  refine ⟨_, register_text fuel st hk.plain hconv hu.2 (fun e => hlow (by rw [e])) hc, ?_⟩
  have key2 : ∀ m spec, NotOverridden m (40 :: (body ++ [41])) → NotOverridden m b!"Struct" → Unregistered st.env spec (40 :: (body ++ [41])) →
      (∃ fs, Entered st.env spec b!"Struct" (.struct fs)) → Resolves (setReg st.env (toLower key) (.struct (some (buildStruct (40 :: (body ++ [41]))))))
        m spec (40 :: (body ++ [41])) (.struct (some (buildStruct (40 :: (body ++ [41]))))) [] := by
    intro m spec h1 h2 h3 h4
    obtain ⟨fs, h4⟩ := h4
    have hi : getCodecInstant (setReg st.env (toLower key) (.struct (some (buildStruct (40 :: (body ++ [41])))))) m (40 :: (body ++ [41])) spec = .ok none := by
      unfold getCodecInstant
      simp only [moduleType_notOverridden h1, toLower_idem, setReg, h3.1, h3.2, if_neg hlow]
      have e : toLower (40 :: (body ++ [41])) = 40 :: toLower (body ++ [41]) := rfl
      rw [e, if_neg (by intro he; exact absurd (List.cons.inj he).1 (by decide))]
      simp
    have hst : getCodecInstant (setReg st.env (toLower key) (.struct (some (buildStruct (40 :: (body ++ [41])))))) m b!"Struct" spec = .ok (some (.struct fs)) := by
      rw [getCodecInstant_plain _ spec (by decide +kernel) (moduleType_notOverridden h2)]
      unfold Entered at h4
      simp only [setReg]
      rw [if_neg fun e => hne ((toLower_eq_iff _ _).1 e.symm), h4]
    unfold Resolves getCodecClass getCodecClassAux
    dsimp only
    rw [hconv, if_neg (by simp)]
    simp only [lookupWhole, lookupParts, partsOf, hlast', Bool.false_eq_true, if_false, Res.ok_bind, hi]
    rw [if_pos ⟨hT2, rfl, hlast⟩]
    simp only [lookupTuple, hst, Res.ok_bind]
    rfl
  refine sameCodec_of (newName_resolves hk _ _) (key2 _ _ hm hms hu hs) (fun _ => rfl) ⟨newName_resolves hk.anywhere _ _, hk.null⟩
    ⟨key2 _ _ (notOverridden_nil _) (notOverridden_nil _) hu' hs', ?_⟩ fun _ _ => rfl
  intro e
  have : (40 : UInt8) ∈ b!"null" := by
    rw [← e, ← toLower_eq_spec]
    unfold toLower
    exact List.mem_map.2 ⟨40, by simp, by decide⟩
  exact absurd this (by decide)

/-- Aliases of arrays whose element type is written in lower case (with other texts C64 fails already). -/
theorem C110_array_partial (fuel : Nat) (st : RegState) (key t : Str) (k n : Nat) (ctx : Ctx) (ectx : ECtx) (hk : NewName st.env ctx.module key)
    (ht : Trimmed t) (hn : n < 2 ^ 63) (h59 : 59 ∉ t) (hl : _root_.Spec.asciiLower t = t) (h : OpenText st.env ctx.module ctx.spec (arrayText t k n))
    (h' : OpenText st.env [] ectx.spec (arrayText t k n)) :
    ∃ st', regCustomTypes fuel st [(key, aliasOf (arrayText t k n))] = .ok st' ∧ SameCodec st'.env ctx ectx key (arrayText t k n) := by
  have hlow : toLower (arrayText t k n) ≠ toLower key := by
    intro e
    have h91 : (91 : UInt8) ∈ toLower key := by
      rw [← e]
      unfold toLower
      exact List.mem_map.2 ⟨91, by simp [arrayText], by decide⟩
    unfold toLower at h91
    obtain ⟨x, hx, h2⟩ := List.mem_map.1 h91
    have : x = 91 := forall_byte (P := fun x => lowerByte x = 91 → x = 91) (by decide +kernel) x h2
    exact hk.plain.absent.2.2.2.2.2.2.2.2.2.2.2.1 (this ▸ hx)
  refine ⟨_, register_text fuel st hk.plain (convertType_verbatim h.verbatim) h.unregistered.2 (fun e => hlow (by rw [e]))
    (aliasClass_composes (.array t k n ht h59 hn)), ?_⟩
  have key2 : ∀ m spec, OpenText st.env m spec (arrayText t k n) →
      Resolves (setReg st.env (toLower key) (.fixedArray n t)) m spec (arrayText t k n) (.fixedArray n t) [] := by
    intro m spec ho
    have := C64_resolves (setReg st.env (toLower key) (.fixedArray n t)) m spec t k n ht hn
      ⟨ho.verbatim, ho.notOverridden, ho.unregistered.1, by simp only [setReg]; rw [if_neg hlow]; exact ho.unregistered.2⟩
    rwa [hl] at this
  refine sameCodec_of (newName_resolves hk _ _) (key2 _ _ h) (fun _ => rfl) ⟨newName_resolves hk.anywhere _ _, hk.null⟩ ⟨key2 _ _ h', ?_⟩ fun _ _ => rfl
  intro e
  have : (91 : UInt8) ∈ b!"null" := by
    rw [← e, ← toLower_eq_spec]
    unfold toLower
    exact List.mem_map.2 ⟨91, by simp [arrayText], by decide⟩
  exact absurd this (by decide)

/-! ## Cases -/

theorem trimmed_generic {w : Str} (hw : PlainName w) (a : Str) : Trimmed (generic w a) := by
  obtain ⟨x, r, hx, hxn⟩ := hw.head
  refine ⟨⟨x, r ++ 60 :: (a ++ [62]), by rw [generic, hx]; rfl, ?_⟩, ⟨62, w ++ 60 :: a, by simp [generic], by decide⟩⟩
  exact forall_byte (P := fun x => isNameByte x = true → isSpace x = false) (by decide +kernel) x hxn

/-- The part of `ByWrapper` for the built-in types that can be computed. -/
theorem byWrapper_base {ext : Ext} {w a : Str} (hw : PlainName w) (ha : a ≠ []) (h1 : ∀ x ∈ abbreviations, ¬ x <:+: generic w a)
    (h2 : generic w a ∉ spellings ∧ ¬ b!"BoundedBTreeSet" <+: generic w a ∧ ¬ SameName (generic w a) b!"Vec<u8>")
    (h3 : (baseEnv ext).reg (toLower (generic w a)) = none) (spec : Int) : ByWrapper (baseEnv ext) [] spec w a :=
  ⟨hw, ha, ⟨trimmed_generic hw a, h1, h2.1, h2.2.1, h2.2.2⟩, notOverridden_nil _, notOverridden_nil _, rfl, h3⟩

theorem newName_base {ext : Ext} {key : Str} (h : PlainName key) (h1 : hasPrefix key b!"BoundedBTreeSet" = false)
    (h2 : _root_.Spec.asciiLower key ≠ b!"null") : NewName (baseEnv ext) [] key := ⟨h, h1, notOverridden_nil _, rfl, h2⟩

/-- The built-in types. -/
def builtinState (ext : Ext) : RegState := ⟨baseEnv ext, fun _ => none⟩

/-- The full claim is false: an alias of a bounded list is dropped, and the name is unknown. -/
theorem C110_claim_false : ¬ C110Claim := by
  intro hc
  have hr : Resolves (baseEnv dummyExt) [] 0 (generic b!"BoundedVec" b!"u8, Limit") (.boundedVec []) b!"u8, Limit" := by unfold Resolves; kernel_rfl
  have h := (hc 0 (builtinState dummyExt) (builtinState dummyExt) b!"Bag" (generic b!"BoundedVec" b!"u8, Limit") ⟨[], 0, none⟩ ECtx.none _ (.boundedVec []) _ b!"u8, Limit"
    (newName_base (by decide +kernel) (by decide) (by decide)) hr ⟨by unfold Resolves; kernel_rfl, generic_not_null _ _⟩
    (C110_dropped_wrong 0 (builtinState dummyExt) b!"Bag" b!"BoundedVec" b!"u8, Limit" ⟨[], 0, none⟩ (by decide +kernel) ?_
      (byWrapper_base (by decide +kernel) (by decide) (by decide +kernel) (by decide +kernel) (by kernel_rfl) 0))).1
  · have hL : LenOK (baseEnv dummyExt) ⟨[], 0, none⟩ := ⟨[], by unfold Resolves; kernel_rfl⟩
    have h0 := C20_decode_empty (baseEnv dummyExt) ⟨[], 0, none⟩ _ _ _ _ rfl hr hL
    obtain ⟨N, h2⟩ := (h.1 _ _ _).mpr h0
    have h3 := h2 (N + 8) (by omega) [] [] [] (by decide)
    have h4 : pau (baseEnv dummyExt) (N + 8) ⟨[], 0, none⟩ b!"Bag" ⟨⟨[0], 0⟩, []⟩ = .panic := by kernel_rfl
    rw [List.nil_append, List.append_nil] at h3
    exact absurd (h4.symm.trans h3) (by simp)
  · intro x hx
    simp only [aliasWrappers, List.mem_cons, List.not_mem_nil, or_false] at hx
    rcases hx with rfl | rfl | rfl | rfl | rfl <;> decide +kernel

theorem case_base (ext : Ext) (md : Option MD) {key w a : Str} {f : Str → Cls} (hk : NewName (baseEnv ext) [] key) (hw : (w, f) ∈ aliasWrappers)
    (hne : ¬ SameName key w) (h35 : 35 ∉ generic w a) (h : ∀ spec, ByWrapper (baseEnv ext) [] spec w a) (hc : (baseEnv ext).reg (toLower w) = some (f [])) :
    AliasCase (builtinState ext) key w a f ⟨[], 0, md⟩ ECtx.none :=
  ⟨hk, hw, hne, h35, h _, hc, h _, hc⟩

/-- `OrderedSet` as a list of stakes. -/
theorem case_set (ext : Ext) (md : Option MD) : AliasCase (builtinState ext) b!"OrderedSet" b!"Vec" b!"Stake" .vec ⟨[], 0, md⟩ ECtx.none :=
  case_base ext md (newName_base (by decide +kernel) (by decide) (by decide)) (by simp [aliasWrappers]) (by decide +kernel) (by decide)
    (byWrapper_base (by decide +kernel) (by decide) (by decide +kernel) (by decide +kernel) (by kernel_rfl)) (by kernel_rfl)

/-- Its name with and without an argument is that list. -/
example (ext : Ext) (md : Option MD) : ∃ st', regCustomTypes 0 (builtinState ext) [(b!"OrderedSet", aliasOf (generic b!"Vec" b!"Stake"))] = .ok st' ∧
    SameCodec st'.env ⟨[], 0, md⟩ ECtx.none b!"OrderedSet" (generic b!"Vec" b!"Stake") :=
  C110_partial 0 (builtinState ext) _ _ _ _ _ _ (case_set ext md)

example (ext : Ext) (md : Option MD) : ∃ st', regCustomTypes 0 (builtinState ext) [(b!"OrderedSet", aliasOf (generic b!"Vec" b!"Stake"))] = .ok st' ∧
    SameCodec st'.env ⟨[], 0, md⟩ ECtx.none (generic b!"OrderedSet" b!"Stake, MaxDelegatorsPerCollator") (generic b!"Vec" b!"Stake") :=
  C110_argument_partial 0 (builtinState ext) _ _ _ b!"Stake, MaxDelegatorsPerCollator" _ _ _ (case_set ext md) (.inl rfl)
    (byWrapper_base (by decide +kernel) (by decide) (by decide +kernel) (by decide +kernel) (by kernel_rfl) _)
    (byWrapper_base (by decide +kernel) (by decide) (by decide +kernel) (by decide +kernel) (by kernel_rfl) _)

/-- `Owner` as an optional account: `Owner<T>` is an optional `T`. -/
example (ext : Ext) (md : Option MD) : ∃ st', regCustomTypes 0 (builtinState ext) [(b!"Owner", aliasOf (generic b!"Option" b!"AccountId"))] = .ok st' ∧
    SameCodec st'.env ⟨[], 0, md⟩ ECtx.none (generic b!"Owner" b!"Runtime") (generic b!"Option" b!"Runtime") :=
  C110_argument_wrong 0 (builtinState ext) b!"Owner" b!"Option" b!"AccountId" b!"Runtime" .option ⟨[], 0, md⟩ ECtx.none
    (case_base ext md (newName_base (by decide +kernel) (by decide) (by decide)) (by simp [aliasWrappers]) (by decide +kernel) (by decide)
      (byWrapper_base (by decide +kernel) (by decide) (by decide +kernel) (by decide +kernel) (by kernel_rfl)) (by kernel_rfl)) (.inl rfl)
    (byWrapper_base (by decide +kernel) (by decide) (by decide +kernel) (by decide +kernel) (by kernel_rfl) _)
    (byWrapper_base (by decide +kernel) (by decide) (by decide +kernel) (by decide +kernel) (by kernel_rfl) _)
    (byWrapper_base (by decide +kernel) (by decide) (by decide +kernel) (by decide +kernel) (by kernel_rfl) _)
    (byWrapper_base (by decide +kernel) (by decide) (by decide +kernel) (by decide +kernel) (by kernel_rfl) _)

/-- `Stake` as a name of `u64`. -/
example (ext : Ext) (md : Option MD) : ∃ st', regCustomTypes 0 (builtinState ext) [(b!"Stake", aliasOf b!"u64")] = .ok st' ∧
    SameCodec st'.env ⟨[], 0, md⟩ ECtx.none b!"Stake" b!"u64" :=
  C110_name_partial 0 (builtinState ext) b!"Stake" b!"u64" .u64 ⟨[], 0, md⟩ ECtx.none (newName_base (by decide +kernel) (by decide) (by decide))
    (newName_base (by decide +kernel) (by decide) (by decide)) (by decide +kernel) (by kernel_rfl)

/-- `Pair` as a tuple. -/
example (ext : Ext) (md : Option MD) : ∃ st', regCustomTypes 0 (builtinState ext) [(b!"Pair", aliasOf b!"(u8, Vec<H256>)")] = .ok st' ∧
    SameCodec st'.env ⟨[], 0, md⟩ ECtx.none b!"Pair" b!"(u8, Vec<H256>)" :=
  C110_tuple_partial 0 (builtinState ext) b!"Pair" b!"u8, Vec<H256>" ⟨[], 0, md⟩ ECtx.none (newName_base (by decide +kernel) (by decide) (by decide))
    (by decide +kernel) (by decide)
    ⟨⟨⟨40, b!"u8, Vec<H256>)", rfl, by decide⟩, ⟨41, b!"(u8, Vec<H256>", rfl, by decide⟩⟩, by decide +kernel, by decide +kernel, by decide +kernel, by decide +kernel⟩
    (notOverridden_nil _) ⟨rfl, by kernel_rfl⟩ ⟨rfl, by kernel_rfl⟩ (notOverridden_nil _) ⟨none, by unfold Entered; kernel_rfl⟩
    ⟨none, by unfold Entered; kernel_rfl⟩

/-- `Key` as an array. -/
example (ext : Ext) (md : Option MD) : ∃ st', regCustomTypes 0 (builtinState ext) [(b!"Key", aliasOf (arrayText b!"u16" 1 5))] = .ok st' ∧
    SameCodec st'.env ⟨[], 0, md⟩ ECtx.none b!"Key" (arrayText b!"u16" 1 5) := by
  have h : ∀ spec, OpenText (baseEnv ext) [] spec (arrayText b!"u16" 1 5) := fun spec =>
    ⟨⟨⟨⟨91, b!"u16; 5]", by kernel_rfl, by decide⟩, ⟨93, b!"[u16; 5", by kernel_rfl, by decide⟩⟩, by decide +kernel, by decide +kernel, by decide +kernel, by decide +kernel⟩,
      notOverridden_nil _, rfl, by kernel_rfl⟩
  exact C110_array_partial 0 (builtinState ext) b!"Key" b!"u16" 1 5 ⟨[], 0, md⟩ ECtx.none (newName_base (by decide +kernel) (by decide) (by decide))
    ⟨⟨117, b!"16", rfl, by decide⟩, ⟨54, b!"u1", rfl, by decide⟩⟩ (by decide) (by decide) (by decide) (h _) (h _)

end ScaleGo
