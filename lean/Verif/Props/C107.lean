import Verif.Props.C26
import Verif.Lemmas.NetCheck
import Verif.Model.Networks

/-! # C107: definitions in a JSON file are taken as they are written

`LoadTypeRegistry` drops the errors of `json.Unmarshal`. An enum whose variants are numbered by JSON numbers keeps its variants and
loses the numbers, and then panics on every input; a set with its names under `type_mapping` loses them. Both occur in the files in
`network/`. -/

namespace ScaleGo

open LoadJson (readDef field)

/-- The class under which a definition that is not an alias is registered, under any name without a version range. -/
def RegistersAs (d : TypeDef) (c : Cls) : Prop :=
  ∀ (st : RegState) (key : Str), (35 : UInt8) ∉ key → ∃ s, regPlain st key d = .ok s ∧ s.env.reg key = some c

/-- The definition that the code reads, `d`, says the same as the file, `e`. -/
def Network.Entry.Means (e : Network.Entry) (d : TypeDef) : Prop :=
  match e with
  | .al t => d = { kind := b!"string", typeString := t }
  | .st rows => RegistersAs d (.struct (newStruct rows))
  | .en rows => RegistersAs d (.enum [] (newStruct rows))
  | .ev names => RegistersAs d (.enum names none)
  | .num rows => ∃ c, RegistersAs d c ∧ ∀ (env : Env) (ctx : Ctx) (ty sub : Str), Resolves env ctx.module ctx.spec ty c sub →
      ∀ (i : UInt8) (name : Str), (name, (i.toNat : Int)) ∈ rows → Decodes env ctx ty [i] (.str name) []
  | .set names bits => RegistersAs d (.set names bits)

/-- The full property, for the files that come with the code. -/
def C107Claim : Prop := ∀ f ∈ Network.shipped, ∀ p ∈ f.2, Network.Entry.Means p.2 (readDef p.2.json)

/-! ## What is read -/

theorem regCustomKey_reg {env : Env} {key : Str} {c : Cls} (h : (35 : UInt8) ∉ key) : (regCustomKey env key c).reg key = some c := by
  unfold regCustomKey
  rw [splitSep_none b!"#" key 35 ⟨[], rfl⟩ h]
  simp [setReg]

theorem rows_of_pairs (rows : List (Str × Str)) : mappingRows (rows.map fun r => [r.1, r.2]) = .ok rows := by
  induction rows with
  | nil => rfl
  | cons r rows ih =>
    rw [List.map_cons, mappingRows, ih]
    rfl

theorem rows_of_nums (rows : List (Str × Int)) :
    mappingRows (rows.map fun r => [r.1, []]) = .ok (rows.map fun r => (r.1, ([] : Str))) := by
  induction rows with
  | nil => rfl
  | cons r rows ih =>
    rw [List.map_cons, mappingRows, ih]
    rfl

theorem registersAs_struct {d : TypeDef} {rows : List (Str × Str)} (hk : d.kind = b!"struct") (hm : mappingRows d.mapping = .ok rows) :
    RegistersAs d (.struct (newStruct rows)) := by
  intro st key hkey
  refine ⟨{ st with env := regCustomKey st.env key (.struct (newStruct rows)) }, ?_, regCustomKey_reg hkey⟩
  rw [regPlain, if_pos hk, hm]
  rfl

theorem registersAs_enum {d : TypeDef} {rows : List (Str × Str)} (hk : d.kind = b!"enum") (hm : mappingRows d.mapping = .ok rows) :
    RegistersAs d (.enum d.values (newStruct rows)) := by
  intro st key hkey
  refine ⟨{ st with env := regCustomKey st.env key (.enum d.values (newStruct rows)) }, ?_, regCustomKey_reg hkey⟩
  rw [regPlain, if_neg (by rw [hk]; decide), if_pos hk, hm]
  rfl

theorem registersAs_set {d : TypeDef} (hk : d.kind = b!"set") : RegistersAs d (.set d.values d.bits) := by
  intro st key hkey
  refine ⟨{ st with env := regCustomKey st.env key (.set d.values d.bits) }, ?_, regCustomKey_reg hkey⟩
  rw [regPlain, if_neg (by rw [hk]; decide), if_neg (by rw [hk]; decide), if_pos hk]

theorem RegistersAs.unique {d : TypeDef} {c c' : Cls} (h : RegistersAs d c) (h' : RegistersAs d c') : c = c' := by
  obtain ⟨s, h1, h2⟩ := h ⟨⟨fun _ => none, fun _ => [], dummyExt⟩, fun _ => none⟩ [] (by simp)
  obtain ⟨s', h1', h2'⟩ := h' ⟨⟨fun _ => none, fun _ => [], dummyExt⟩, fun _ => none⟩ [] (by simp)
  rw [h1] at h1'
  cases h1'
  rw [h2] at h2'
  exact Option.some.inj h2'

/-- Texts, structs, enums with types and enums with names are read as written. -/
theorem C107_partial (e : Network.Entry) (h : ∀ rows, e ≠ .num rows) (h' : ∀ names bits, e ≠ .set names bits) :
    e.Means (readDef e.json) := by
  rw [Network.readDef_json]
  cases e with
  | al t => rfl
  | st rows => exact registersAs_struct rfl (rows_of_pairs rows)
  | en rows => exact registersAs_enum rfl (rows_of_pairs rows)
  | ev names => exact registersAs_enum (d := (Network.Entry.ev names).defn) (rows := []) rfl rfl
  | num rows => exact absurd rfl (h rows)
  | set names bits => exact absurd rfl (h' names bits)

/-! ## Any order of the members -/

/-- A definition with all members, in any order and with names in any case, is read as written: rows, names, length, version and text. -/
theorem C107_members (m : List (Str × Json)) (kind text : Str) (rows : List (List Str)) (names : List Str) (bits version : Int)
    (hp : (m.map fun p => (toLower p.1, p.2)).Perm [(b!"type", .text kind), (b!"type_string", .text text),
      (b!"type_mapping", .list (rows.map fun r => .list (r.map .text))), (b!"value_list", .list (names.map .text)),
      (b!"bit_length", .num bits), (b!"specvec", .num version)]) :
    readDef (.object m) = { kind := kind, typeString := text, mapping := rows, values := names, bits := bits, specVec := version } := by
  have hrows : LoadJson.rows (.list (rows.map fun r => .list (r.map .text))) = rows := by
    rw [LoadJson.rows, List.map_map]
    conv => rhs; rw [← List.map_id rows]
    refine List.map_congr_left fun r _ => ?_
    exact Network.strs_texts r
  have hf : ∀ k v, (k, v) ∈ [(b!"type", Json.text kind), (b!"type_string", .text text),
      (b!"type_mapping", .list (rows.map fun r => .list (r.map .text))), (b!"value_list", .list (names.map .text)),
      (b!"bit_length", .num bits), (b!"specvec", .num version)] → field m k = v := by
    intro k v hv
    have h1 : ∀ a ∈ m, toLower a.1 = k → a.2 = v := by
      intro a ha hk
      have ha := hp.mem_iff.mp (List.mem_map.mpr ⟨a, ha, rfl⟩)
      rw [hk] at ha
      simp only [List.mem_cons, List.not_mem_nil, or_false, Prod.mk.injEq] at ha hv
      rcases ha with ⟨rfl, e⟩ | ⟨rfl, e⟩ | ⟨rfl, e⟩ | ⟨rfl, e⟩ | ⟨rfl, e⟩ | ⟨rfl, e⟩ <;>
        rcases hv with ⟨h, rfl⟩ | ⟨h, rfl⟩ | ⟨h, rfl⟩ | ⟨h, rfl⟩ | ⟨h, rfl⟩ | ⟨h, rfl⟩ <;> first | exact e | exact absurd h (by decide)
    obtain ⟨a, ha, e⟩ := List.mem_map.mp (hp.mem_iff.mpr hv)
    unfold field
    cases h : m.find? fun p => toLower p.1 == k with
    | none =>
      have := List.find?_eq_none.mp h a ha
      rw [(Prod.mk.inj e).1] at this
      simp at this
    | some b => exact h1 b (List.mem_of_find?_eq_some h) (by simpa using List.find?_some h)
  dsimp only [readDef]
  rw [hf b!"type" (.text kind) (by simp), hf b!"type_string" (.text text) (by simp), hf b!"type_mapping" (.list _) (.tail _ (.tail _ (.head _))),
    hf b!"value_list" (.list _) (.tail _ (.tail _ (.tail _ (.head _)))), hf b!"bit_length" (.num bits) (by simp), hf b!"specvec" (.num version) (by simp), hrows,
    show LoadJson.strs (.list (names.map .text)) = names from Network.strs_texts names]
  rfl

/-- A set with its names under `value_list` is read as written. -/
theorem C107_sets (names : List Str) (bits : Int) :
    RegistersAs (readDef (.object [(b!"type", .text b!"set"), (b!"value_list", .list (names.map .text)), (b!"bit_length", .num bits)]))
      (.set names bits) := by
  have := registersAs_set (d := readDef (.object [(b!"type", .text b!"set"), (b!"value_list", .list (names.map .text)),
    (b!"bit_length", .num bits)])) rfl
  rw [show (readDef (.object [(b!"type", .text b!"set"), (b!"value_list", .list (names.map .text)), (b!"bit_length", .num bits)])).values
    = names from Network.strs_texts names] at this
  exact this

/-- The texts a definition may use in place of the numbers: with them the byte decodes to the name. -/
theorem C107_number_texts (env : Env) (ctx : Ctx) (ty sub : Str) (rows : List (Str × Str)) (hr : rows ≠ [])
    (hn : ∀ r ∈ rows, isNumber r.2 = true) (hu : ∀ r ∈ rows, ∀ r' ∈ rows, stringToInt r.2 = stringToInt r'.2 → r = r')
    (h : Resolves env ctx.module ctx.spec ty (.enum [] (newStruct rows)) sub) (i : UInt8) (name text : Str) (hm : (name, text) ∈ rows)
    (hi : stringToInt text = (i.toNat : Int)) : Decodes env ctx ty [i] (.str name) [] := by
  refine decodes_of_decAt h ⟨0, fun n _ => ?_⟩
  show DecAt (processEnum env.ext (pau env n) ctx [] (newStruct rows)) [i] _ _
  unfold processEnum newStruct
  rw [if_neg hr]
  refine DecAt.byte ?_
  intro pre suf cs _
  have hc : isCLike rows = true := List.all_eq_true.mpr hn
  have hname : cLikeName rows (i.toNat : Int) = name := by
    unfold cLikeName
    have : rows.reverse.find? (fun p => stringToInt p.2 == (i.toNat : Int)) = some (name, text) := by
      cases hf : rows.reverse.find? (fun p => stringToInt p.2 == (i.toNat : Int)) with
      | none =>
        rw [List.find?_eq_none] at hf
        have := hf (name, text) (List.mem_reverse.mpr hm)
        simp [hi] at this
      | some q =>
        have h1 := List.mem_reverse.mp (List.mem_of_find?_eq_some hf)
        have h2 := List.find?_some hf
        rw [hu q h1 (name, text) hm (by rw [hi]; exact beq_iff_eq.mp h2)]
    rw [this]
  simp only [hc, if_true, List.headD_cons, hname, List.nil_append, List.append_nil, List.length_nil, Nat.add_zero]

/-! ## What goes wrong -/

/-- An enum with its variants numbered by JSON numbers panics on every byte. -/
theorem C107_numbers_panic (rows : List (Str × Int)) (hr : rows ≠ []) :
    ∃ c, RegistersAs (readDef (Network.Entry.num rows).json) c ∧
      ∀ (env : Env) (ctx : Ctx) (ty sub : Str), Resolves env ctx.module ctx.spec ty c sub → ∀ i : UInt8, DecodeRefuses env ctx ty [i] := by
  rw [Network.readDef_json]
  refine ⟨_, registersAs_enum rfl (rows_of_nums rows), fun env ctx ty sub h i => ?_⟩
  refine decodeRefuses_of_panicAt h ⟨0, fun n _ => ?_⟩
  show PanicAt (processEnum env.ext (pau env n) ctx [] (newStruct _)) [i]
  have hne : (rows.map fun r => (r.1, ([] : Str))) ≠ [] := by simpa using hr
  intro pre suf cs hl
  unfold processEnum newStruct
  rw [if_neg hne, nextBytes_at pre [i] suf cs 1 rfl hl]
  simp only [Res.ok_bind, List.headD_cons]
  have hc : isCLike (rows.map fun r => (r.1, ([] : Str))) = false := by
    cases rows with
    | nil => exact absurd rfl hr
    | cons r rows => rfl
  rw [hc]
  simp only [Bool.false_eq_true, if_false, List.getElem?_map, List.getElem?_nil]
  cases rows[i.toNat]? <;> rfl

/-- A set with its names under `type_mapping` decodes to no names, whatever its bits. -/
theorem C107_sets_empty (names : List Str) (bits : Int) :
    RegistersAs (readDef (Network.Entry.set names bits).json) (.set [] bits) ∧
      ∀ (env : Env) (ctx : Ctx) (ty sub b : Str) (v : Val), Resolves env ctx.module ctx.spec ty (.set [] bits) sub →
        Decodes env ctx (b!"U" ++ intToDec bits) b v [] → Decodes env ctx ty b (.strs []) [] := by
  rw [Network.readDef_json]
  refine ⟨registersAs_set rfl, fun env ctx ty sub b v h hd => ?_⟩
  have := set_decodes h hd
  simpa [setNames] using this

/-- The definitions of a file in the two odd shapes. -/
def Network.odd (f : Str × List (Str × Network.Entry)) : List (Str × Str) :=
  f.2.filterMap fun p => match p.2 with
    | .num _ => some (f.1, p.1)
    | .set _ _ => some (f.1, p.1)
    | _ => none

/-- All definitions in `network/` that are not read as written. -/
theorem C107_shipped : Network.shipped.flatMap Network.odd =
    [(b!"karura", b!"Properties"), (b!"kilt", b!"CurrencyId"), (b!"kilt", b!"XcmError"), (b!"laminar-test", b!"Leverages"),
      (b!"litentry-test", b!"Properties"), (b!"spiritnet", b!"CurrencyId"), (b!"spiritnet", b!"XcmError")] := by
  kernel_rfl

/-- Every other definition in `network/` is. -/
theorem C107_rest_partial (f : Str × List (Str × Network.Entry)) (hf : f ∈ Network.shipped) (p : Str × Network.Entry) (hp : p ∈ f.2)
    (ho : (f.1, p.1) ∉ [(b!"karura", b!"Properties"), (b!"kilt", b!"CurrencyId"), (b!"kilt", b!"XcmError"),
      (b!"laminar-test", b!"Leverages"), (b!"litentry-test", b!"Properties"), (b!"spiritnet", b!"CurrencyId"),
      (b!"spiritnet", b!"XcmError")]) : p.2.Means (readDef p.2.json) := by
  rw [← C107_shipped, List.mem_flatMap] at ho
  refine C107_partial p.2 (fun rows e => ho ⟨f, hf, ?_⟩) (fun names bits e => ho ⟨f, hf, ?_⟩)
  all_goals
    refine List.mem_filterMap.mpr ⟨p, hp, ?_⟩
    rw [e]

theorem C107_claim_false : ¬ C107Claim := by
  intro h
  have hf : Network.shipped[22]? = some (b!"karura", Network.karura) := by kernel_rfl
  have hp : Network.karura[69]? = some (b!"Properties", .set [b!"Transferable", b!"Burnable"] 8) := by kernel_rfl
  have h1 := h _ (List.mem_of_getElem? hf) _ (List.mem_of_getElem? hp)
  cases RegistersAs.unique h1 (C107_sets_empty [b!"Transferable", b!"Burnable"] 8).1

/-- The enum `CurrencyId` of KILT, as the file writes it, panics on the byte 1 in place of decoding to `KSM`. -/
example : ∃ c, RegistersAs (readDef (Network.Entry.num [(b!"DOT", 0), (b!"KSM", 1), (b!"KILT", 2)]).json) c ∧
    ∀ (env : Env) (ctx : Ctx) (ty sub : Str), Resolves env ctx.module ctx.spec ty c sub → DecodeRefuses env ctx ty [1] :=
  let ⟨c, h1, h2⟩ := C107_numbers_panic [(b!"DOT", 0), (b!"KSM", 1), (b!"KILT", 2)] (by decide)
  ⟨c, h1, fun env ctx ty sub h => h2 env ctx ty sub h 1⟩

/-- Written with texts it decodes to `KSM`. -/
example (env : Env) (ctx : Ctx) (ty sub : Str)
    (h : Resolves env ctx.module ctx.spec ty (.enum [] (newStruct [(b!"DOT", b!"0"), (b!"KSM", b!"1"), (b!"KILT", b!"2")])) sub) :
    Decodes env ctx ty [1] (.str b!"KSM") [] :=
  C107_number_texts env ctx ty sub _ (by decide) (by decide) (by decide) h 1 b!"KSM" b!"1" (by decide) (by decide +kernel)

/-- Members in another order, with names in another case. -/
example : readDef (.object [(b!"SpecVec", .num 3), (b!"bit_length", .num 8), (b!"Value_List", .list [.text b!"A", .text b!"B"]),
    (b!"type_mapping", .list []), (b!"type_string", .text []), (b!"TYPE", .text b!"set")]) =
    { kind := b!"set", values := [b!"A", b!"B"], bits := 8, specVec := 3 } :=
  C107_members _ b!"set" [] [] [b!"A", b!"B"] 8 3 (List.reverse_perm [(b!"type", Json.text b!"set"), (b!"type_string", .text []),
    (b!"type_mapping", .list []), (b!"value_list", .list [.text b!"A", .text b!"B"]), (b!"bit_length", .num 8), (b!"specvec", .num 3)])

end ScaleGo
