import Verif.Lemmas.PortableScale
import Verif.Lemmas.BuiltinIndex
import Verif.Lemmas.LoadOrder

/-! # C59: values of the types described by metadata

English claim: after the portable types of some metadata have been registered, encoding and decoding under the text
registered for a portable type follow the SCALE specification for the type as the metadata describes it, at every depth.

`Layer` says which shape each portable type has; it does not mention names or type texts. -/

namespace ScaleGo
open _root_.Spec (Shape Payload Part Scale Leaf allBytes inputs outputs fieldTypes fieldOutputs listValue Layer labelled numbered payload
  primitiveShapes crateShapes compactShapes)
open ScaleGo.Spec

/-- A library that is ready to read metadata: the stock types, nothing registered by earlier metadata. -/
structure Ready (reg : RegState) : Prop where
  stock : Stock reg.env.reg
  unseen : ∀ n, reg.v14 n = none
  special : reg.env.special = fun _ => []
  rows : ReadsRows reg.env.ext

/-- The full claim. -/
def C59Claim : Prop :=
  ∀ (cfg : SiCfg) (fuel : Nat) (reg : RegState) (st : SiState) (ctx : Ctx) (ectx : ECtx), Ready reg →
    processSiType cfg fuel reg = .ok st → ∀ (i : Nat) (t : Str) (v r : Val) (b : Str), st.ids i = some t →
    Scale (Layer cfg.types) (SupportedBy fun _ => True) i v r b →
    Encodes st.reg.env ectx t v b ∧ Decodes st.reg.env ctx t b r []

/-- Encoding and decoding follow the metadata for covered types with names that do not get in each other's way. -/
theorem C59_partial (cfg : SiCfg) (dup : Str → Nat) (A : Nat → Prop) (fuel : Nat) (reg : RegState) (st : SiState) (ctx : Ctx) (ectx : ECtx)
    (hd : countNames cfg 0 cfg.count (fun _ => 0) = .ok dup) (hr : Ready reg) (hE : EarlyOK { cfg with dup := dup } A)
    (hT : Tidy { cfg with dup := dup } A reg.env.reg) (hm : Untouched { cfg with dup := dup } ctx.module)
    (h : processSiType cfg fuel reg = .ok st) (i : Nat) (t : Str) (v r : Val) (b : Str) (hi : st.ids i = some t)
    (hs : Scale (Covered { cfg with dup := dup } A) (SupportedBy fun _ => True) i v r b) :
    Encodes st.reg.env ectx t v b ∧ Decodes st.reg.env ctx t b r [] := by
  unfold processSiType at h
  rw [hd] at h
  have hL := process_loaded hE h hT hr.stock fun _ => hr.unseen
  obtain ⟨h1, h2⟩ := len_ok hT hr.stock hL hr.special (ctx := ctx)
  exact C28_partial _ _ _ (HasShape st.reg.env ctx ectx) h1 h2 (fun _ _ h => h) _ _ _ _
    (scale_spelled hT hr.stock hL hr.special hr.rows hm hs t ⟨t, hL.ids i t hi, .inl rfl⟩)

/-- What is covered is what the metadata describes. -/
theorem C59_covered {cfg : SiCfg} {A : Nat → Prop} {i : Nat} {sh : Shape Nat} (h : Covered cfg A i sh) : Layer cfg.types i sh :=
  covered_layer (fun _ ⟨_, hp, hk⟩ hn => hn _ (.primitive hk) (byte_lower hp)) h

/-! ## The library as it starts -/

theorem split_last {x : UInt8} {d d' : Str} (h : x ∉ d) (h' : x ∉ d') : ∀ {a a' : Str}, a ++ x :: d = a' ++ x :: d' → a = a' ∧ d = d'
  | [], [], e => ⟨rfl, (List.cons.inj e).2⟩
  | [], y :: a', e => by
    have : d = a' ++ x :: d' := (List.cons.inj e).2
    exact absurd (by rw [this]; simp) h
  | y :: a, [], e => by
    have : a ++ x :: d = d' := (List.cons.inj e).2
    exact absurd (by rw [← this]; simp) h'
  | y :: a, z :: a', e => by
    have e' : a ++ x :: d = a' ++ x :: d' := (List.cons.inj e).2
    obtain ⟨e1, e2⟩ := split_last h h' e'
    exact ⟨by rw [(List.cons.inj e).1, e1], e2⟩

theorem arrayText_one (s : Str) (n : Nat) : arrayText s 1 n = 91 :: (((s ++ [59]) ++ 32 :: natToDec n) ++ [93]) := by
  simp [arrayText]

theorem arrayText_inj {s s' : Str} {n n' : Nat} (h : arrayText s 1 n = arrayText s' 1 n') : s = s' ∧ n = n' := by
  rw [arrayText_one, arrayText_one] at h
  have hd : ∀ n, (32 : UInt8) ∉ natToDec n := by
    intro n hm
    exact absurd (List.all_eq_true.1 (natToDec_digits n) _ hm) (by decide)
  obtain ⟨h1, h2⟩ := split_last (hd n) (hd n') (List.append_cancel_right (List.cons.inj h).2)
  exact ⟨List.append_cancel_right h1, natToDec_injective h2⟩

/-- The keys that begin with a bracket. -/
def bracketEntries : List (Str × Nat × Cls) :=
  [(b!"u8", 32, .fixedU8 32), (b!"u8", 64, .fixedU8 64), (b!"u8", 65, .fixedU8 65), (b!"u8", 16, .fixedU8 16), (b!"u8", 20, .fixedU8 20),
    (b!"u8", 8, .fixedU8 8), (b!"u8", 4, .fixedU8 4), (b!"u8", 2, .fixedU8 2), (b!"u8", 256, .fixedU8 256), (b!"u128", 3, .fixedArray 3 b!"u128")]

/-- A key that the texts of portable types do not use. -/
def offKey (k : Str) : Bool :=
  !(b!"vec<").isPrefixOf k && !(b!"option<").isPrefixOf k && !(b!"result<").isPrefixOf k && k != b!"compact<u64>" && k != b!"compact<u128>" &&
  (!(b!"compact<").isPrefixOf k || k == b!"compact<u32>" || k == b!"compact<moment>")

theorem off_prefix {l : List (Str × Cls)} {p : Str} (h : ∀ q ∈ l, p.isPrefixOf q.1 = false) (s : Str) : tableGet l (p ++ s) = none := by
  cases e : tableGet l (p ++ s) with
  | none => rfl
  | some c =>
    have := h _ (mem_of_tableGet e)
    rw [List.isPrefixOf_iff_prefix.2 (List.prefix_append _ _)] at this
    cases this

theorem stock_table {l : List (Str × Cls)} (h1 : ∀ p ∈ stockClasses, tableGet l p.1 = some p.2) (h2 : l.all (fun p => offKey p.1) = true)
    (h4 : tableGet l b!"moment" ≠ none) (h3 : (l.filter fun p => p.1.head? == some 91) = bracketEntries.map fun p => (arrayText p.1 1 p.2.1, p.2.2)) : Stock (tableGet l) := by
  have off : ∀ p ∈ l, (b!"vec<").isPrefixOf p.1 = false ∧ (b!"option<").isPrefixOf p.1 = false ∧ (b!"result<").isPrefixOf p.1 = false ∧
      p.1 ≠ b!"compact<u64>" ∧ p.1 ≠ b!"compact<u128>" ∧
      (((b!"compact<").isPrefixOf p.1 = false ∨ p.1 = b!"compact<u32>") ∨ p.1 = b!"compact<moment>") := by
    intro p hp
    have := List.all_eq_true.1 h2 p hp
    simpa [offKey, and_assoc] using this
  have none_of : ∀ k : Str, (∀ p ∈ l, p.1 ≠ k) → tableGet l k = none := by
    intro k hk
    cases e : tableGet l k with
    | none => rfl
    | some c => exact absurd rfl (hk _ (mem_of_tableGet e))
  refine ⟨h1, off_prefix fun p hp => (off p hp).1, off_prefix fun p hp => (off p hp).2.1,
    off_prefix fun p hp => (off p hp).2.2.1, ⟨none_of _ fun p hp => (off p hp).2.2.2.1, none_of _ fun p hp => (off p hp).2.2.2.2.1⟩, ?_, h4, ?_⟩
  · intro s c hc
    rcases (off _ (mem_of_tableGet hc)).2.2.2.2.2 with (h | h) | h
    · rw [show generic b!"compact" s = b!"compact<" ++ (s ++ [62]) by simp [generic], List.isPrefixOf_iff_prefix.2 (List.prefix_append _ _)] at h
      cases h
    · exact .inl (List.append_cancel_right (List.append_cancel_left (as := b!"compact<") (show b!"compact<" ++ (s ++ [62]) = b!"compact<" ++ (b!"u32" ++ [62]) from h)))
    · exact .inr (List.append_cancel_right (List.append_cancel_left (as := b!"compact<") (show b!"compact<" ++ (s ++ [62]) = b!"compact<" ++ (b!"moment" ++ [62]) from h)))
  intro s n c hc
  have hmem : (arrayText s 1 n, c) ∈ l.filter fun p => p.1.head? == some 91 :=
    List.mem_filter.2 ⟨mem_of_tableGet hc, by rw [arrayText_one]; rfl⟩
  rw [h3] at hmem
  obtain ⟨⟨s', n', c'⟩, hq, e⟩ := List.mem_map.1 hmem
  obtain ⟨e1, rfl⟩ := Prod.mk.inj e
  obtain ⟨rfl, rfl⟩ := arrayText_inj e1
  simp only [bracketEntries, List.mem_cons, List.not_mem_nil, or_false, Prod.mk.injEq] at hq
  rcases hq with h | h | h | h | h | h | h | h | h | h <;> obtain ⟨rfl, rfl, rfl⟩ := h <;> simp

theorem base_stock : Stock (tableGet baseReg) := stock_table (by decide +kernel) (by decide +kernel) (by decide +kernel) (by decide +kernel)

theorem stock_fast : (∀ p ∈ stockClasses, fastReg p.1 = some p.2) := by decide +kernel

theorem loaded_stock : Stock loadedReg := by
  refine stock_table ?_ (by decide +kernel) (by decide +kernel) (by decide +kernel)
  have := stock_fast
  rw [← loadedReg_fast] at this
  exact this

/-- The built-in types include no tuples. -/
theorem loaded_tuples (s : Str) : loadedReg (b!"tuple:" ++ s) = none :=
  off_prefix (fun p hp => by
    have := List.all_eq_true.1 (by decide +kernel : (Builtin.classes ++ baseReg).all (fun p => !(b!"tuple:").isPrefixOf p.1) = true) p hp
    simpa using this) s

/-- The library with all built-in types is ready to read metadata. -/
theorem loaded_ready (ext : Ext) (h : ReadsRows ext) : Ready ⟨loadedEnv ext, fun _ => none⟩ := ⟨loaded_stock, fun _ => rfl, rfl, h⟩

theorem rows_ready : Ready rowsReg := ⟨base_stock, fun _ => rfl, rfl, readsRows dummyExt⟩

/-! ## The full claim is false -/

/-- `struct a::S { x: a::P, y: a::P }` where `struct a::P(())`. -/
def unitCfg : SiCfg where
  types := fun i => match i with
    | 0 => { path := [b!"a", b!"S"], typ := .composite [⟨b!"x", 1, []⟩, ⟨b!"y", 1, []⟩] }
    | 1 => { path := [b!"a", b!"P"], typ := .composite [⟨[], 2, []⟩] }
    | _ => {}
  count := 3

theorem unit_refused : ∃ st, processSiType unitCfg 5 rowsReg = .ok st ∧ st.ids 0 = some b!"a:S" ∧
    EncodeRefuses st.reg.env ECtx.none b!"a:S" (.map [(b!"x", .nil), (b!"y", .nil)]) := by
  refine ⟨_, rfl, rfl, 4, fun n hn => ?_⟩
  obtain ⟨k, rfl⟩ := Nat.exists_eq_add_of_le' hn
  kernel_rfl

/-- The full claim is false: a field of a wrapped unit type cannot be encoded. -/
theorem C59_claim_false : ¬ C59Claim := by
  intro h
  obtain ⟨st, h1, h2, h3⟩ := unit_refused
  have hp : ∀ v, Scale (Layer unitCfg.types) (SupportedBy fun _ => True) 1 v .nil [] := fun v =>
    .leaf (sh := .null) (.newtype (f := ⟨[], 2, []⟩) rfl (by decide) (by decide) (.unit (.inr (.inl rfl)))) ⟨rfl, rfl⟩ trivial
  have hs : Scale (Layer unitCfg.types) (SupportedBy fun _ => True) 0 (.map [(b!"x", .nil), (b!"y", .nil)])
      (.map [(b!"x", .nil), (b!"y", .nil)]) [] := by
    refine Scale.struct (ty := 0) [⟨b!"x", 1, .nil, .nil, []⟩, ⟨b!"y", 1, .nil, .nil, []⟩] (.struct (fs := [⟨b!"x", 1, []⟩, ⟨b!"y", 1, []⟩]) rfl (by decide))
      (by decide) (by decide) (by simp) ?_
    intro p hm
    simp only [List.mem_cons, List.not_mem_nil, or_false] at hm
    rcases hm with rfl | rfl <;> exact hp _
  exact refuses_not_encodes h3 (h unitCfg 5 rowsReg st ⟨[], 0, none⟩ ECtx.none rows_ready h1 0 b!"a:S" _ _ _ h2 hs).1

/-! ## The hypotheses are met -/

/-- The variants of `a::E`. -/
def demoVariants : List SiVariant :=
  [⟨b!"A", [], 2⟩, ⟨b!"B", [⟨[], 0, []⟩], 0⟩, ⟨b!"C", [⟨b!"x", 3, []⟩, ⟨b!"y", 5, []⟩], 7⟩]

/-- Metadata with `struct a::S { n: a::P, kids: Vec<a::S> }`, `struct a::P(u16)` and
`enum a::E { A = 2, B(a::S) = 0, C { x: u16, y: Option<Vec<u8>> } = 7 }`. -/
def demoCfg : SiCfg where
  types := fun i => match i with
    | 0 => { path := [b!"a", b!"S"], typ := .composite [⟨b!"n", 1, []⟩, ⟨b!"kids", 2, []⟩] }
    | 1 => { path := [b!"a", b!"P"], typ := .composite [⟨[], 3, []⟩] }
    | 2 => { typ := .sequence 0 }
    | 3 => { typ := .primitive b!"U16" }
    | 4 => { path := [b!"a", b!"E"], typ := .variant demoVariants }
    | 5 => { path := [b!"Option"], params := [(b!"T", 6)], typ := .variant [⟨b!"None", [], 0⟩, ⟨b!"Some", [⟨[], 6, []⟩], 1⟩] }
    | 6 => { typ := .sequence 7 }
    | 7 => { typ := .primitive b!"U8" }
    | _ => {}
  count := 8

def demoDup : Str → Nat := fun k => if k = b!"a:E" then (if k = b!"a:P" then (if k = b!"a:S" then 0 + 1 else 0) + 1 else if k = b!"a:S" then 0 + 1 else 0) + 1
  else if k = b!"a:P" then (if k = b!"a:S" then 0 + 1 else 0) + 1 else if k = b!"a:S" then 0 + 1 else 0

theorem demo_counted : countNames demoCfg 0 demoCfg.count (fun _ => 0) = .ok demoDup := rfl

/-- The configuration with the counted names. -/
def demo : SiCfg := { demoCfg with dup := demoDup }

/-- The primitive types have their text from the start. -/
def demoEarly (i : Nat) : Prop := i = 3 ∨ i = 7

theorem demo_cases {P : Nat → Prop} (h0 : P 0) (h1 : P 1) (h2 : P 2) (h3 : P 3) (h4 : P 4) (h5 : P 5) (h6 : P 6) (h7 : P 7)
    (h : ∀ k, P (k + 8)) : ∀ i, P i
  | 0 => h0 | 1 => h1 | 2 => h2 | 3 => h3 | 4 => h4 | 5 => h5 | 6 => h6 | 7 => h7 | (k + 8) => h k

theorem demo_paths : ∀ i, (demo.types i).path ∈ [[], [b!"a", b!"S"], [b!"a", b!"P"], [b!"a", b!"E"], [b!"Option"]] := by
  refine demo_cases ?_ ?_ ?_ ?_ ?_ ?_ ?_ ?_ (fun k => ?_)
  rotate_right
  · exact List.mem_cons_self
  all_goals decide

theorem demo_names : ∀ i n, nameSiType demo (demo.types i) (some i) = .ok n → n = [] ∨ (i, n) ∈ [(0, b!"a:S"), (1, b!"a:P"), (4, b!"a:E")] := by
  refine demo_cases ?_ ?_ ?_ ?_ ?_ ?_ ?_ ?_ (fun k n h => ?_)
  rotate_right
  · cases h
    exact .inl rfl
  all_goals intro n h; cases h; decide

theorem demo_typ : ∀ i, (demo.types i).typ ∈ [.none, .composite [⟨b!"n", 1, []⟩, ⟨b!"kids", 2, []⟩], .composite [⟨[], 3, []⟩], .sequence 0,
    .primitive b!"U16", .variant demoVariants, .variant [⟨b!"None", [], 0⟩, ⟨b!"Some", [⟨[], 6, []⟩], 1⟩], .sequence 7, .primitive b!"U8"] := by
  refine demo_cases ?_ ?_ ?_ ?_ ?_ ?_ ?_ ?_ (fun k => ?_)
  rotate_right
  · exact List.mem_cons_self
  all_goals decide

theorem demo_early : EarlyOK demo demoEarly where
  inside := by rintro i (rfl | rfl) <;> decide
  kind := by
    rintro i (rfl | rfl)
    · exact .inl ⟨_, rfl, rfl⟩
    · exact .inl ⟨_, rfl, rfl⟩
  wrapper := by
    intro i n p ps h
    have := demo_paths i
    revert h
    unfold IsWrapper
    generalize (demo.types i).path = q at this
    revert q
    intro q hq h
    exfalso
    revert q
    decide
  extrinsic := by
    intro i name p h
    have := demo_paths i
    revert h
    unfold IsExtrinsic
    generalize (demo.types i).path = q at this
    intro h
    exfalso
    revert q
    decide
  core := by
    rintro i h (rfl | rfl) <;> cases h

theorem ident_of {s : Str} (h : (s ≠ [] ∧ s.all isNameByte = true) ∧ isDigit (s.headD 0) = false) : Ident s :=
  ⟨h.1, fun c r e => by rw [e] at h; exact h.2⟩

theorem demo_plain : PlainNames demo where
  segments := by
    intro i
    have := demo_paths i
    generalize (demo.types i).path = q at this
    intro s hs
    refine ident_of ?_
    revert q
    intro q hq
    revert s
    revert q
    decide
  pre := fun h => absurd rfl h
  named := by
    refine demo_cases ?_ ?_ ?_ ?_ ?_ ?_ ?_ ?_ (fun k => ?_)
    rotate_right
    · rintro (⟨_, h⟩ | ⟨_, h⟩) <;> cases h
    all_goals rintro (⟨_, h⟩ | ⟨_, h⟩) <;> first | (cases h; done) | (intro e; cases e)
  primitive := by
    intro i p h
    have := demo_typ i
    rw [h] at this
    simp only [List.mem_cons, reduceCtorEq, List.not_mem_nil, or_false, false_or, SiDef.primitive.injEq] at this
    rcases this with rfl | rfl <;> exact ⟨ident_of (by decide), by decide⟩
  crate := by
    intro i
    have := demo_paths i
    generalize (demo.types i).path = q at this
    revert q
    decide
  whole := by
    intro i
    unfold pathName
    have := demo_paths i
    generalize (demo.types i).path = q at this
    revert q
    decide
  range := by
    intro i h
    have := demo_typ i
    rw [h] at this
    simp at this

theorem demo_tidy : Tidy demo demoEarly rowsReg.env.reg where
  names := demo_plain
  unversioned := fun _ => rfl
  apart := by
    intro i n h hne
    have hi := (demo_names i n h).resolve_left hne
    have hnames : ∀ j m, nameSiType demo (demo.types j) (some j) = .ok m → toLower m = toLower n → j = i := by
      intro j m h' e
      rcases demo_names j m h' with rfl | hj
      · cases n with
        | nil => exact absurd rfl hne
        | cons => cases e
      · exact (by decide : ∀ p ∈ [(0, b!"a:S"), (1, b!"a:P"), (4, b!"a:E")], ∀ q ∈ [(0, b!"a:S"), (1, b!"a:P"), (4, b!"a:E")],
          toLower q.2 = toLower p.2 → q.1 = p.1) _ hi _ hj e
    have rest : ∀ p ∈ [(0, b!"a:S"), (1, b!"a:P"), (4, b!"a:E")], ¬ b!"tuple:" <+: toLower p.2 ∧ ¬ b!"primitive_types:" <+: toLower p.2 ∧
        toLower p.2 ≠ b!"extrinsicsignature" ∧ toLower p.2 ≠ b!"extrinsicsigner" := by decide
    obtain ⟨h1, h2, h3, h4⟩ := rest _ hi
    exact ⟨hnames, h1, h2, h3, h4⟩
  fresh := by
    intro i n h hne
    have hi := (demo_names i n h).resolve_left hne
    exact (by decide +kernel : ∀ p ∈ [(0, b!"a:S"), (1, b!"a:P"), (4, b!"a:E")], rowsReg.env.reg (toLower p.2) = none) _ hi
  tuples := by
    intro i j ks ls ts us h
    have := demo_typ i
    rw [h] at this
    simp at this
  freshTuples := by
    intro i ks ts h
    have := demo_typ i
    rw [h] at this
    simp at this
  closed := by
    intro i hi
    obtain ⟨k, rfl⟩ := Nat.exists_eq_add_of_le' hi
    rfl

theorem demo_late {i : Nat} (h : i ≠ 3 ∧ i ≠ 7) : Late demo demoEarly i := by
  refine ⟨fun e => e.elim h.1 h.2, ?_⟩
  have := demo_paths i
  generalize (demo.types i).path = q at this
  revert q
  decide

theorem demo_not_wrapper (i : Nat) : ¬ IsWrapper (demo.types i) := by
  have := demo_paths i
  unfold IsWrapper
  generalize (demo.types i).path = q at this
  revert q
  decide

theorem demo_not_call (i : Nat) : ¬ IsCallTag (demo.types i) := by
  have := demo_paths i
  unfold IsCallTag
  generalize (demo.types i).path = q at this
  revert q
  decide

theorem demo_own : IsOwn (demo.types 0) ∧ IsOwn (demo.types 4) :=
  ⟨.inl ⟨_, rfl, by decide, demo_not_wrapper 0⟩, .inr ⟨demoVariants, _, _, rfl, rfl, by decide, by decide, demo_not_call 4⟩⟩

/-- The only text of the struct. -/
theorem demo_text {t : Str} (h : Text demo demoEarly 0 t) : t = b!"a:S" := by
  have := text_ownName h (demo_late (by decide)) demo_own.1
  cases this
  rfl

theorem demo_u16 : Covered demo demoEarly 3 (.uint 2) :=
  .primitive (.inl rfl) rfl (by decide) (by simp [primitiveShapes])

theorem demo_struct : Covered demo demoEarly 0 (.struct [(b!"n", 1), (b!"kids", 2)]) :=
  .own (demo_late (by decide)) demo_own.1 (OwnShape.struct (fs := [⟨b!"n", 1, []⟩, ⟨b!"kids", 2, []⟩]) rfl)

theorem demo_newtype : Covered demo demoEarly 1 (.uint 2) :=
  .newtype (f := ⟨[], 3, []⟩) (demo_late (by decide)) ⟨_, rfl, demo_not_wrapper 1, by decide, by decide⟩ rfl (by decide) trivial demo_u16

theorem demo_seq : Covered demo demoEarly 2 (.seq 0) := by
  refine .seq (demo_late (by decide)) rfl fun s hs => ?_
  rw [demo_text hs]
  decide

theorem demo_variant : Covered demo demoEarly 4 (.enum [(0, b!"B", .one 0)]) := by
  refine .own (demo_late (by decide)) demo_own.2 (OwnShape.variant (vs := demoVariants) (v := ⟨b!"B", [⟨[], 0, []⟩], 0⟩) rfl (by decide) (by decide)
    (by decide) (by decide) (by decide) (by decide) ?_ (by decide))
  intro f hf t ht
  simp only [List.mem_cons, List.not_mem_nil, or_false] at hf
  subst hf
  rw [demo_text ht]
  rintro ⟨r, h⟩
  cases h

theorem demo_fields : Covered demo demoEarly 4 (.enum [(7, b!"C", .fields [(b!"x", 3), (b!"y", 5)])]) := by
  refine .own (demo_late (by decide)) demo_own.2 (OwnShape.variant (vs := demoVariants) (v := ⟨b!"C", [⟨b!"x", 3, []⟩, ⟨b!"y", 5, []⟩], 7⟩) rfl
    (by decide) (by decide) (by decide) (by decide) (by decide) (by decide) ?_ (by decide))
  intro f hf t ht
  simp only [List.mem_cons, List.not_mem_nil, or_false] at hf
  rcases hf with rfl | rfl
  · rw [text_primitive (p := b!"U16") ht (.inl rfl) rfl (by decide)]
    rintro ⟨r, h⟩
    cases h
  · obtain ⟨s, e⟩ : ∃ s, t = b!"option" ++ s := by
      cases ht with
      | option _ _ _ _ _ _ => exact ⟨b!"<" ++ (_ ++ b!">"), by simp only [List.append_assoc]; rfl⟩
      | name _ h hne => cases h; exact absurd rfl hne
      | emptyName _ h => exact absurd h (by
          rintro (⟨_, h, _⟩ | ⟨_, _, _, _, h, h', _⟩)
          · cases h
          · cases h; exact absurd h' (by decide))
      | override _ h => exact absurd rfl h
      | result _ _ h h' =>
        cases h
        exact absurd h' (by decide)
      | call _ _ h => exact absurd h (demo_not_call 5)
      | primitive h => cases h
      | primitiveTypes h => cases h
      | account h => cases h
      | wrapper _ h => cases h
      | newtype _ h => cases h
      | selfNewtype _ h => cases h
      | arrayZero _ h => cases h
      | array _ h => cases h
      | sequence _ h => cases h
      | compact _ h => cases h
      | tupleNil _ h => cases h
      | tuple _ _ h => cases h
      | bits _ h => cases h
      | range _ h => cases h
      | nothing _ h => cases h
      | dealtPrimitive _ h => cases h
    rintro ⟨r, h⟩
    rw [e] at h
    cases h

theorem demo_bytes : Covered demo demoEarly 6 (.bytes .bytes) :=
  .bytes (p := b!"U8") (demo_late (by decide)) rfl (.inr rfl) (by decide) rfl (by decide)

theorem demo_option : Covered demo demoEarly 5 (.option 6) := by
  refine .option (demo_late (by decide)) rfl rfl (by decide) (demo_not_call 5) rfl fun h => ?_
  cases h with
  | name _ h => cases h
  | primitive h => cases h
  | newtype _ h => cases h

/-- A struct of the metadata without children. -/
theorem demo_leaf (n : Nat) (hn : n < 2 ^ 16) :
    Scale (Covered demo demoEarly) (SupportedBy fun _ => True) 0 (.map [(b!"n", .uint 2 n), (b!"kids", .slice [])])
      (.map [(b!"n", .uint 2 n), (b!"kids", .nilSlice)]) (_root_.Spec.leBytes 2 n ++ [0]) := by
  have := Scale.struct (shape := Covered demo demoEarly) (ok := SupportedBy fun _ => True) (ty := 0) (m := [(b!"n", .uint 2 n), (b!"kids", .slice [])])
    [⟨b!"n", 1, .uint 2 n, .uint 2 n, _root_.Spec.leBytes 2 n⟩, ⟨b!"kids", 2, .slice [], .nilSlice, [0]⟩]
    demo_struct (by simp) (by simp) (by simp) (by
      intro p hp
      simp only [List.mem_cons, List.not_mem_nil, or_false] at hp
      rcases hp with rfl | rfl
      · exact .leaf demo_newtype ⟨n, hn, rfl, rfl, rfl, rfl⟩ trivial
      · exact Scale.seq (el := 0) (c := [0]) [] demo_seq (by decide) (.inl ⟨by decide, by decide⟩) (by simp)
          (fun l h => by cases h))
  simpa [fieldOutputs, allBytes] using this

/-- `S { n: 515, kids: [] }` -/
def demoKid : Val := .map [(b!"n", .uint 2 515), (b!"kids", .slice [])]
def demoKidOut : Val := .map [(b!"n", .uint 2 515), (b!"kids", .nilSlice)]

/-- `B(S { n: 1, kids: [S { n: 515, kids: [] }] })` -/
theorem demo_value_B : Scale (Covered demo demoEarly) (SupportedBy fun _ => True) 4
    (.map [(b!"B", .map [(b!"n", .uint 2 1), (b!"kids", .slice [demoKid])])]) (.map [(b!"B", .map [(b!"n", .uint 2 1), (b!"kids", .slice [demoKidOut])])])
    [0, 1, 0, 4, 3, 2, 0] := by
  refine .variant 0 b!"B" demo_variant List.mem_cons_self (Scale.struct [⟨b!"n", 1, .uint 2 1, .uint 2 1, [1, 0]⟩,
    ⟨b!"kids", 2, .slice [demoKid], .slice [demoKidOut], [4, 3, 2, 0]⟩] demo_struct (by decide) (by decide) (by simp) ?_)
  intro p hp
  simp only [List.mem_cons, List.not_mem_nil, or_false] at hp
  rcases hp with rfl | rfl
  · exact .leaf demo_newtype ⟨1, by decide, rfl, rfl, rfl, by decide⟩ trivial
  · exact Scale.seq (el := 0) (c := [4]) [⟨[], 0, demoKid, demoKidOut, [3, 2, 0]⟩] demo_seq (by decide) (.inl ⟨by decide, by decide⟩)
      (by simpa [demoKid, demoKidOut, show _root_.Spec.leBytes 2 515 = [3, 2] by decide] using demo_leaf 515 (by decide)) (fun l h => by cases h; decide)

/-- `C { x: 5, y: Some([255]) }` -/
def demoC : Val := .map [(b!"C", .map [(b!"x", .uint 2 5), (b!"y", .str b!"0xff")])]

theorem demo_value_C : Scale (Covered demo demoEarly) (SupportedBy fun _ => True) 4 demoC demoC [7, 5, 0, 1, 4, 255] := by
  refine Scale.fields 7 b!"C" [⟨b!"x", 3, .uint 2 5, .uint 2 5, [5, 0]⟩, ⟨b!"y", 5, .str b!"0xff", .str b!"0xff", [1, 4, 255]⟩] demo_fields
    List.mem_cons_self (by decide) (by decide) (by simp) ?_
  intro p hp
  simp only [List.mem_cons, List.not_mem_nil, or_false] at hp
  have ht : ¬ _root_.Spec.IsText [255] := by decide
  rcases hp with rfl | rfl
  · exact .leaf demo_u16 ⟨5, by decide, rfl, rfl, rfl, by decide⟩ trivial
  · refine .some demo_option (.leaf demo_bytes ⟨[4], [255], by decide, .inl ⟨by decide, by decide⟩, ?_, rfl, rfl⟩ ?_) ?_
    · rw [shown, if_neg (fun h => ht h.2)]
      rfl
    · intro c p e hc
      obtain ⟨_, rfl, rfl⟩ := isCompact_prefix (m := 1) (b := [4]) (.inl ⟨by decide, by decide⟩) hc (x := [255]) (y := p) e
      exact ⟨by decide, fun h => ht h.2.1, fun h => by cases h.1⟩
    · unfold SupportedBy CountsAsNone
      simp

/-- The two values are encoded and decoded as specified. -/
example : ∃ st, processSiType demoCfg 5 rowsReg = .ok st ∧ st.ids 4 = some b!"a:E" ∧
    Encodes st.reg.env ECtx.none b!"a:E" demoC [7, 5, 0, 1, 4, 255] ∧ Decodes st.reg.env enumCtx b!"a:E" [7, 5, 0, 1, 4, 255] demoC [] ∧
    Decodes st.reg.env enumCtx b!"a:E" [0, 1, 0, 4, 3, 2, 0] (.map [(b!"B", .map [(b!"n", .uint 2 1), (b!"kids", .slice [demoKidOut])])]) [] := by
  obtain ⟨st, h, hi⟩ : ∃ st, processSiType demoCfg 5 rowsReg = .ok st ∧ st.ids 4 = some b!"a:E" := ⟨_, rfl, rfl⟩
  have use := fun v r b => C59_partial demoCfg demoDup demoEarly 5 rowsReg st enumCtx ECtx.none demo_counted rows_ready demo_early demo_tidy
    (fun _ n _ _ => notOverridden_nil n) h 4 b!"a:E" v r b hi
  exact ⟨st, h, hi, (use _ _ _ demo_value_C).1, (use _ _ _ demo_value_C).2, (use _ _ _ demo_value_B).2⟩

/-! ## Arrays of composed types -/

/-- Metadata with `struct a::G { rows: [[u8; 2]; 2], pairs: [(u16, u16); 2] }`. -/
def gridCfg : SiCfg where
  types := fun i => match i with
    | 0 => { path := [b!"a", b!"G"], typ := .composite [⟨b!"rows", 1, []⟩, ⟨b!"pairs", 3, []⟩] }
    | 1 => { typ := .array 2 2 }
    | 2 => { typ := .array 2 4 }
    | 3 => { typ := .array 2 5 }
    | 4 => { typ := .primitive b!"U8" }
    | 5 => { typ := .tuple [6, 6] }
    | 6 => { typ := .primitive b!"U16" }
    | _ => {}
  count := 7

def gridDup : Str → Nat := fun k => if k = b!"a:G" then 0 + 1 else 0

theorem grid_counted : countNames gridCfg 0 gridCfg.count (fun _ => 0) = .ok gridDup := rfl

/-- The configuration with the counted names. -/
def grid : SiCfg := { gridCfg with dup := gridDup }

/-- The primitive types have their text from the start. -/
def gridEarly (i : Nat) : Prop := i = 4 ∨ i = 6

theorem grid_cases {P : Nat → Prop} (h0 : P 0) (h1 : P 1) (h2 : P 2) (h3 : P 3) (h4 : P 4) (h5 : P 5) (h6 : P 6)
    (h : ∀ k, P (k + 7)) : ∀ i, P i
  | 0 => h0 | 1 => h1 | 2 => h2 | 3 => h3 | 4 => h4 | 5 => h5 | 6 => h6 | (k + 7) => h k

theorem grid_paths : ∀ i, (grid.types i).path ∈ [[], [b!"a", b!"G"]] := by
  refine grid_cases ?_ ?_ ?_ ?_ ?_ ?_ ?_ (fun k => ?_)
  rotate_right
  · exact List.mem_cons_self
  all_goals decide

theorem grid_names : ∀ i n, nameSiType grid (grid.types i) (some i) = .ok n → n = [] ∨ i = 0 ∧ n = b!"a:G" := by
  refine grid_cases ?_ ?_ ?_ ?_ ?_ ?_ ?_ (fun k n h => ?_)
  rotate_right
  · cases h
    exact .inl rfl
  all_goals intro n h; cases h; decide

theorem grid_typ : ∀ i, (grid.types i).typ ∈ [.none, .composite [⟨b!"rows", 1, []⟩, ⟨b!"pairs", 3, []⟩], .array 2 2, .array 2 4, .array 2 5,
    .primitive b!"U8", .tuple [6, 6], .primitive b!"U16"] := by
  refine grid_cases ?_ ?_ ?_ ?_ ?_ ?_ ?_ (fun k => ?_)
  rotate_right
  · exact List.mem_cons_self
  all_goals decide

theorem grid_early : EarlyOK grid gridEarly where
  inside := by rintro i (rfl | rfl) <;> decide
  kind := by
    rintro i (rfl | rfl)
    · exact .inl ⟨_, rfl, rfl⟩
    · exact .inl ⟨_, rfl, rfl⟩
  wrapper := by
    intro i n p ps h
    have := grid_paths i
    revert h
    unfold IsWrapper
    generalize (grid.types i).path = q at this
    intro h
    exfalso
    revert q
    decide
  extrinsic := by
    intro i name p h
    have := grid_paths i
    revert h
    unfold IsExtrinsic
    generalize (grid.types i).path = q at this
    intro h
    exfalso
    revert q
    decide
  core := by
    rintro i h (rfl | rfl) <;> cases h

theorem grid_plain : PlainNames grid where
  segments := by
    intro i
    have := grid_paths i
    generalize (grid.types i).path = q at this
    intro s hs
    refine ident_of ?_
    revert q
    intro q hq
    revert s
    revert q
    decide
  pre := fun h => absurd rfl h
  named := by
    refine grid_cases ?_ ?_ ?_ ?_ ?_ ?_ ?_ (fun k => ?_)
    rotate_right
    · rintro (⟨_, h⟩ | ⟨_, h⟩) <;> cases h
    all_goals rintro (⟨_, h⟩ | ⟨_, h⟩) <;> first | (cases h; done) | (intro e; cases e)
  primitive := by
    intro i p h
    have := grid_typ i
    rw [h] at this
    simp only [List.mem_cons, reduceCtorEq, List.not_mem_nil, or_false, false_or, SiDef.primitive.injEq] at this
    rcases this with rfl | rfl <;> exact ⟨ident_of (by decide), by decide⟩
  crate := by
    intro i
    have := grid_paths i
    generalize (grid.types i).path = q at this
    revert q
    decide
  whole := by
    intro i
    unfold pathName
    have := grid_paths i
    generalize (grid.types i).path = q at this
    revert q
    decide
  range := by
    intro i h
    have := grid_typ i
    rw [h] at this
    simp at this

theorem grid_pair {ks : List Nat} {ts : List Str} {i : Nat} (h : (grid.types i).typ = .tuple ks) (ht : Texts grid gridEarly ks ts) :
    ks = [6, 6] ∧ ts = [b!"U16", b!"U16"] := by
  have := grid_typ i
  rw [h] at this
  simp only [List.mem_cons, reduceCtorEq, List.not_mem_nil, or_false, false_or, SiDef.tuple.injEq] at this
  subst this
  have u16 : ∀ {t}, Text grid gridEarly 6 t → t = b!"U16" := fun h => text_primitive h (.inr rfl) rfl (by decide)
  cases ht with
  | cons h1 h2 =>
    cases h2 with
    | cons h2 h3 =>
      cases h3
      rw [u16 h1, u16 h2]
      exact ⟨rfl, rfl⟩

theorem grid_tidy : Tidy grid gridEarly rowsReg.env.reg where
  names := grid_plain
  unversioned := fun _ => rfl
  apart := by
    intro i n h hne
    obtain ⟨rfl, rfl⟩ := (grid_names i n h).resolve_left hne
    refine ⟨fun j m h' e => ?_, by decide, by decide, by decide, by decide⟩
    rcases grid_names j m h' with rfl | ⟨rfl, rfl⟩
    · cases e
    · rfl
  fresh := by
    intro i n h hne
    obtain ⟨rfl, rfl⟩ := (grid_names i n h).resolve_left hne
    decide +kernel
  tuples := by
    intro i j ks ls ts us h1 h2 h3 h4 _
    rw [(grid_pair h1 h3).1, (grid_pair h2 h4).1]
  freshTuples := by
    intro i ks ts h1 _ h2
    rw [(grid_pair h1 h2).2]
    decide +kernel
  closed := by
    intro i hi
    obtain ⟨k, rfl⟩ := Nat.exists_eq_add_of_le' hi
    rfl

theorem grid_late {i : Nat} (h : i ≠ 4 ∧ i ≠ 6) : Late grid gridEarly i := by
  refine ⟨fun e => e.elim h.1 h.2, ?_⟩
  have := grid_paths i
  generalize (grid.types i).path = q at this
  revert q
  decide

/-- No type of this metadata has a text that must not be written in lower case. -/
theorem grid_low {i : Nat} (h : i ≠ 0) : Low grid gridEarly i := by
  have := grid_typ i
  simp only [List.mem_cons, List.not_mem_nil, or_false] at this
  have h0 : ∀ fs, (grid.types i).typ ≠ .composite fs := by
    intro fs e
    match i, h, e with
    | 1, _, e | 2, _, e | 3, _, e | 4, _, e | 5, _, e | 6, _, e | (k + 7), _, e => cases e
  refine ⟨?_, ?_, ?_, ?_, ?_, ?_⟩
  · intro k e; rw [e] at this; simp at this
  · intro f _ _ e; exact absurd e (h0 _)
  all_goals
    intros
    rename_i e _ _ _
    rw [e] at this
    simp at this

theorem grid_texts {n k : Nat} {i : Nat} {t : Str} (hi : Late grid gridEarly i) (h : (grid.types i).typ = .array n k) (hn : n ≠ 0)
    (ht : Text grid gridEarly i t) : toLower t ≠ b!"u8" := by
  have := text_other ht hi (by rw [h]; simp) (by rw [h]; simp)
  simp only [h, reduceCtorEq, false_and, exists_false, false_or, or_false, SiDef.array.injEq] at this
  rcases this with ⟨⟨_, h, _⟩, _⟩ | ⟨n, k, s, ⟨rfl, rfl⟩, _, hs, rfl⟩
  · exact absurd h hn
  · intro e
    exact absurd (List.cons.inj e).1 (by decide)

theorem grid_struct : Covered grid gridEarly 0 (.struct [(b!"rows", 1), (b!"pairs", 3)]) :=
  .own (grid_late (by decide)) (.inl ⟨_, rfl, by decide, by unfold IsWrapper; decide⟩)
    (OwnShape.struct (fs := [⟨b!"rows", 1, []⟩, ⟨b!"pairs", 3, []⟩]) rfl)

theorem grid_rows : Covered grid gridEarly 1 (.array 2 2) :=
  .array (grid_late (by decide)) rfl (by decide) (by decide) (grid_low (by decide))
    fun _ h => grid_texts (i := 2) (n := 2) (k := 4) (grid_late (by decide)) rfl (by decide) h

theorem grid_row : Covered grid gridEarly 2 (.byteArray 2) :=
  .byteArray (p := b!"U8") (grid_late (by decide)) rfl (by decide) (by decide) (.inl rfl) (by decide) rfl (by decide)

theorem grid_pairs : Covered grid gridEarly 3 (.array 2 5) := by
  refine .array (grid_late (by decide)) rfl (by decide) (by decide) (grid_low (by decide)) fun s h => ?_
  have := text_other h (grid_late (i := 5) (by decide)) (by simp [grid, gridCfg]) (by simp [grid, gridCfg])
  rw [show (grid.types 5).typ = .tuple [6, 6] from rfl] at this
  simp only [reduceCtorEq, false_and, exists_false, false_or, or_false, SiDef.tuple.injEq, List.cons_ne_nil] at this
  obtain ⟨ks, ts, rfl, _, hs, rfl⟩ := this
  intro e
  exact absurd (List.cons.inj e).1 (by decide)

theorem grid_tuple : Covered grid gridEarly 5 (.struct [(b!"col1", 6), (b!"col2", 6)]) := by
  refine Covered.tuple (ks := [6, 6]) (grid_late (by decide)) rfl (by decide) fun ts us h1 h2 => ?_
  rw [(grid_pair (i := 5) rfl h1).2, (grid_pair (i := 5) rfl h2).2]

theorem grid_u16 : Covered grid gridEarly 6 (.uint 2) := .primitive (.inr rfl) rfl (by decide) (by simp [primitiveShapes])

/-- `(n, n + 1)`. -/
def gridPair (n : Nat) : Val := .map [(b!"col1", .uint 2 n), (b!"col2", .uint 2 (n + 1))]

/-- `G { rows: [[1, 2], [3, 4]], pairs: [(1, 2), (3, 4)] }` -/
def gridValue : Val :=
  .map [(b!"rows", .slice [.str (shown .bytes [1, 2]), .str (shown .bytes [3, 4])]), (b!"pairs", .slice [gridPair 1, gridPair 3])]

theorem grid_value : Scale (Covered grid gridEarly) (SupportedBy fun _ => True) 0 gridValue gridValue [1, 2, 3, 4, 1, 0, 2, 0, 3, 0, 4, 0] := by
  have pair : ∀ n, n + 1 < 2 ^ 16 → Scale (Covered grid gridEarly) (SupportedBy fun _ => True) 5 (gridPair n) (gridPair n)
      (_root_.Spec.leBytes 2 n ++ _root_.Spec.leBytes 2 (n + 1)) := by
    intro n hn
    have := Scale.struct (shape := Covered grid gridEarly) (ok := SupportedBy fun _ => True) (ty := 5) (m := [(b!"col1", .uint 2 n), (b!"col2", .uint 2 (n + 1))])
      [⟨b!"col1", 6, .uint 2 n, .uint 2 n, _root_.Spec.leBytes 2 n⟩, ⟨b!"col2", 6, .uint 2 (n + 1), .uint 2 (n + 1), _root_.Spec.leBytes 2 (n + 1)⟩]
      grid_tuple (by simp) (by simp) (by simp) (by
        intro p hp
        simp only [List.mem_cons, List.not_mem_nil, or_false] at hp
        rcases hp with rfl | rfl
        · exact .leaf grid_u16 ⟨n, by omega, rfl, rfl, rfl, rfl⟩ trivial
        · exact .leaf grid_u16 ⟨n + 1, by omega, rfl, rfl, rfl, rfl⟩ trivial)
    simpa [fieldOutputs, allBytes, gridPair] using this
  have row : ∀ a b, a ≠ 48 → Scale (Covered grid gridEarly) (SupportedBy fun _ => True) 2 (.str (shown .bytes [a, b])) (.str (shown .bytes [a, b])) [a, b] :=
    fun a b ha => .leaf grid_row ⟨rfl, rfl, rfl⟩ fun h => ha (List.cons.inj h.2.choose_spec).1
  refine Scale.struct [⟨b!"rows", 1, .slice [.str (shown .bytes [1, 2]), .str (shown .bytes [3, 4])], .slice [.str (shown .bytes [1, 2]), .str (shown .bytes [3, 4])],
    [1, 2, 3, 4]⟩, ⟨b!"pairs", 3, .slice [gridPair 1, gridPair 3], .slice [gridPair 1, gridPair 3], [1, 0, 2, 0, 3, 0, 4, 0]⟩] grid_struct (by decide) (by decide) (by simp) ?_
  intro p hp
  simp only [List.mem_cons, List.not_mem_nil, or_false] at hp
  rcases hp with rfl | rfl
  · refine Scale.array (el := 2) [⟨[], 2, .str (shown .bytes [1, 2]), .str (shown .bytes [1, 2]), [1, 2]⟩,
      ⟨[], 2, .str (shown .bytes [3, 4]), .str (shown .bytes [3, 4]), [3, 4]⟩] grid_rows rfl ?_ ?_
    · intro p hp
      simp only [List.mem_cons, List.not_mem_nil, or_false] at hp
      rcases hp with rfl | rfl <;> exact row _ _ (by decide)
    · exact Nat.zero_lt_two
  · refine Scale.array (el := 5) [⟨[], 5, gridPair 1, gridPair 1, [1, 0, 2, 0]⟩, ⟨[], 5, gridPair 3, gridPair 3, [3, 0, 4, 0]⟩] grid_pairs rfl ?_ ?_
    · intro p hp
      simp only [List.mem_cons, List.not_mem_nil, or_false] at hp
      rcases hp with rfl | rfl
      · exact pair 1 (by decide)
      · exact pair 3 (by decide)
    · exact Nat.zero_lt_two

/-- The value is encoded and decoded as specified. -/
example : ∃ st, processSiType gridCfg 5 rowsReg = .ok st ∧ st.ids 0 = some b!"a:G" ∧ st.ids 3 = some b!"[Tuple:U16U16; 2]" ∧
    Encodes st.reg.env ECtx.none b!"a:G" gridValue [1, 2, 3, 4, 1, 0, 2, 0, 3, 0, 4, 0] ∧
    Decodes st.reg.env enumCtx b!"a:G" [1, 2, 3, 4, 1, 0, 2, 0, 3, 0, 4, 0] gridValue [] := by
  obtain ⟨st, h, hi, h3⟩ : ∃ st, processSiType gridCfg 5 rowsReg = .ok st ∧ st.ids 0 = some b!"a:G" ∧ st.ids 3 = some b!"[Tuple:U16U16; 2]" :=
    ⟨_, rfl, rfl, rfl⟩
  have use := C59_partial gridCfg gridDup gridEarly 5 rowsReg st enumCtx ECtx.none grid_counted rows_ready grid_early grid_tidy
    (fun _ n _ _ => notOverridden_nil n) h 0 b!"a:G" _ _ _ hi grid_value
  exact ⟨st, h, hi, h3, use.1, use.2⟩

/-! ## Options of truth values in arrays -/

/-- Metadata with `[Option<bool>; 2]`. -/
def flagsCfg : SiCfg where
  types := fun i => match i with
    | 0 => { typ := .array 2 1 }
    | 1 => { path := [b!"Option"], params := [(b!"T", 2)], typ := .variant [⟨b!"None", [], 0⟩, ⟨b!"Some", [⟨[], 2, []⟩], 1⟩] }
    | 2 => { typ := .primitive b!"Bool" }
    | _ => {}
  count := 3

theorem flags_short : ∃ st, processSiType flagsCfg 5 rowsReg = .ok st ∧ st.ids 0 = some b!"[option<Bool>; 2]" ∧ ∀ n,
    pau st.reg.env (n + 12) ⟨[], 0, none⟩ b!"[option<Bool>; 2]" ⟨⟨[1, 1, 1, 0], 0⟩, []⟩ =
      .ok (.slice [.bool true, .bool true], ⟨⟨[1, 1, 1, 0], 2⟩, []⟩) := by
  refine ⟨_, rfl, rfl, fun n => ?_⟩
  kernel_rfl

/-- Arrays of options of truth values are misread: their element type is the one byte of the library's `option<bool>`. -/
theorem C59_flags_wrong : ∃ st, processSiType flagsCfg 5 rowsReg = .ok st ∧ st.ids 0 = some b!"[option<Bool>; 2]" ∧
    Scale (Layer flagsCfg.types) (SupportedBy fun _ => True) 0 (.slice [.bool true, .bool false]) (.slice [.bool true, .bool false]) [1, 1, 1, 0] ∧
    ¬ Decodes st.reg.env ⟨[], 0, none⟩ b!"[option<Bool>; 2]" [1, 1, 1, 0] (.slice [.bool true, .bool false]) [] := by
  have opt : ∀ x : Bool, Scale (Layer flagsCfg.types) (SupportedBy fun _ => True) 1 (.bool x) (.bool x) [1, if x then 1 else 0] := by
    intro x
    refine Scale.some (el := 2) (b := [if x then 1 else 0]) (.option (p := b!"Option") (ps := []) (n := b!"T") (qs := []) rfl rfl (by decide) rfl) ?_ ?_
    · exact .leaf (sh := .bool) (.primitive rfl (by simp [primitiveShapes])) ⟨x, rfl, rfl, rfl⟩ trivial
    · exact show ¬ CountsAsNone (.bool x) by simp [CountsAsNone]
  obtain ⟨st, h1, h2, h3⟩ := flags_short
  refine ⟨st, h1, h2, ?_, ?_⟩
  · exact Scale.array (el := 1) [⟨[], 1, .bool true, .bool true, [1, 1]⟩, ⟨[], 1, .bool false, .bool false, [1, 0]⟩] (.array rfl (by decide) (by unfold Spec.IsByte; simp [flagsCfg])) rfl (by
      intro p hp
      simp only [List.mem_cons, List.not_mem_nil, or_false] at hp
      rcases hp with rfl | rfl <;> exact opt _) Nat.zero_lt_two
  · rintro ⟨N, h⟩
    have h1 := h (N + 12) (by omega) [] [] [] (by decide)
    rw [show ([] : Str) ++ ([1, 1, 1, 0] ++ []) = [1, 1, 1, 0] from rfl, show ([] : Str).length = 0 from rfl] at h1
    rw [h3] at h1
    cases h1

end ScaleGo
