import Verif.Model.TypeStruct

/-! # Registration of types: `types/customType.go`, `source/source.go` -/

namespace ScaleGo

/-- `source.TypeStruct` (source/source.go:7-15). -/
structure TypeDef where
  kind : Str
  typeString : Str := []
  mapping : List (List Str) := []
  values : List Str := []
  bits : Int := 0
  v14 : Bool := false
  specVec : Int := 0
  deriving DecidableEq

/-- The global tables: `TypeRegistry` and `specialRegistry` (in `env`) and `V14Types` (types/registry.go:26-33). -/
structure RegState where
  env : Env
  v14 : Str → Option TypeDef

/-- `TypeRegistry[key] = rt` (types/customType.go:174-176). -/
def setReg (env : Env) (key : Str) (c : Cls) : Env :=
  { env with reg := fun k => if k = key then some c else env.reg k }

/-- `specialRegistry[key] = append(specialRegistry[key], special)` (types/customType.go:162-172), reading and writing without
interruption (see `C34` for interrupted runs). -/
def addSpecial (env : Env) (key : Str) (s : Int × Int × Cls) : Env :=
  { env with special := fun k => if k = key then env.special key ++ [s] else env.special k }

/-- The version range written after `#` (types/customType.go:155-161). -/
def specialRange (text : Str) : Int × Int :=
  match splitSep text b!"-" with
  | [lo, hi] => (stringToInt lo, if hi = b!"?" then 99999999 else stringToInt hi)
  | _ => (0, 99999999)

/-- `regCustomKey` (types/customType.go:152-179). -/
def regCustomKey (env : Env) (key : Str) (c : Cls) : Env :=
  match splitSep key b!"#" with
  | [name, range] =>
    let r := specialRange range
    addSpecial env name (r.1, r.2, c)
  | _ => setReg env key c

/-- `v[0]`, `v[1]` of the type mapping rows (types/customType.go:126-129); indexing a short row panics. -/
def mappingRows : List (List Str) → Res (List (Str × Str))
  | [] => .ok []
  | (n :: t :: _) :: rest => do
    let l ← mappingRows rest
    .ok ((n, t) :: l)
  | _ :: _ => .panic

/-- `newStruct` (types/customType.go:13-21): nil without fields. -/
def newStruct (l : List (Str × Str)) : Option (List (Str × Str)) := if l = [] then none else some l

/-- The branches on the form of an alias text (types/customType.go:69-123): the class it stands for, `none` when no branch
applies.  Slicing an empty text panics. -/
def aliasClass (t : Str) : Res (Option Cls) :=
  if t = [] then .panic
  else
    let generic : Option Cls :=
      match partsOf t with
      | some (h, arg) =>
        if equalFold h b!"vec" then some (.vec arg)
        else if equalFold h b!"option" then some (.option arg)
        else if equalFold h b!"compact" then some (.compact arg)
        else if equalFold h b!"BTreeMap" then some (.btreeMap arg)
        else if equalFold h b!"BTreeSet" then some (.vec arg)
        else none
      | none => none
    match generic with
    | some c => .ok (some c)
    | none =>
      if t ≠ b!"()" ∧ t.head? = some 40 ∧ endsWith t 41 then .ok (some (.struct (some (buildStruct t))))
      else if t ≠ b!"[]" ∧ t.head? = some 91 ∧ endsWith t 93 then
        match splitSep (t.drop 1).dropLast b!";" with
        | [sub, n] => .ok (some (.fixedArray (stringToInt (trimSpace n)) (trimSpace sub)))
        | _ => .ok none
      else .ok none

/-- Concatenation of the second columns (types/base.go:230-233). -/
def columnText (rows : List (List Str)) : Res Str := do
  let l ← mappingRows rows
  .ok ((l.map (·.2)).flatten)

/-- `EqTypeStringWithTypeStruct` (types/base.go:222-247). -/
def eqTypeDef (env : Env) (fuel : Nat) (key : Str) (d : TypeDef) : Res Bool := do
  let name ← typeStructText env fuel key 0
  if name = [] then .ok true
  else if d.kind = b!"struct" then do
    let t ← columnText d.mapping
    .ok (decide (name = t))
  else if d.kind = b!"enum" then
    if d.values ≠ [] then .ok (decide (name = d.values.flatten))
    else do
      let t ← columnText d.mapping
      .ok (decide (name = t))
  else if d.kind = b!"string" then do
    let t ← typeStructText env fuel d.typeString 0
    .ok (decide (name = t))
  else .ok true

/-- The check of types/customType.go:26-41: the state with the key recorded and the key to register under, or `none` when
the loop is left (`return`). -/
def v14Key (fuel : Nat) (st : RegState) (key : Str) (d : TypeDef) : Res (Option (RegState × Str)) :=
  if d.v14 = false then .ok (some (st, key))
  else match st.v14 key with
    | none => .ok (some ({ st with v14 := fun k => if k = key then some d else st.v14 k }, key))
    | some _ =>
      if d.specVec = 0 then .ok none
      else do
        let same ← eqTypeDef st.env fuel key d
        if same then .ok none
        else .ok (some (st, key ++ b!"#" ++ intToDec d.specVec ++ b!"-" ++ intToDec d.specVec))

/-- The cases `struct`, `enum` and `set` of the switch (types/customType.go:124-147); other kinds register nothing. -/
def regPlain (st : RegState) (key : Str) (d : TypeDef) : Res RegState :=
  if d.kind = b!"struct" then do
    let l ← mappingRows d.mapping
    .ok { st with env := regCustomKey st.env key (.struct (newStruct l)) }
  else if d.kind = b!"enum" then do
    let l ← mappingRows d.mapping
    .ok { st with env := regCustomKey st.env key (.enum d.values (newStruct l)) }
  else if d.kind = b!"set" then .ok { st with env := regCustomKey st.env key (.set d.values d.bits) }
  else .ok st

/-- `RegCustomTypes(map[string]source.TypeStruct{key: d})` for a definition that is not an alias, as called in
types/customType.go:65. -/
def regSingle (fuel : Nat) (st : RegState) (key : Str) (d : TypeDef) : Res RegState := do
  let k ← v14Key fuel st key d
  match k with
  | none => .ok st
  | some (st, key) => regPlain st (toLower key) d

/-- `regCustomKey` of an alias text, if it has one of the known forms (types/customType.go:69-123). -/
def regAliasText (st : RegState) (key t : Str) : Res RegState := do
  let c ← aliasClass t
  match c with
  | some c => .ok { st with env := regCustomKey st.env key c }
  | none => .ok st

/-- The case `string` (types/customType.go:44-123); `all` is the registry argument. -/
def regAlias (fuel : Nat) (all : List (Str × TypeDef)) (st : RegState) (key : Str) (d : TypeDef) : Res RegState :=
  let t := convertType d.typeString
  match st.env.reg (toLower t) with
  | some c => .ok { st with env := regCustomKey st.env key c }
  | none =>
    match tableGet all t with
    | some e =>
      if e.kind = b!"string" then
        match st.env.reg (toLower e.typeString) with
        | some c => .ok { st with env := regCustomKey st.env key c }
        | none => regAliasText st key t
      else do
        let st ← regSingle fuel st key e
        regAliasText st key t
    | none => regAliasText st key t

/-- One turn of the loop (types/customType.go:24-148); `none` when the loop is left. -/
def regEntry (fuel : Nat) (all : List (Str × TypeDef)) (st : RegState) (key : Str) (d : TypeDef) :
    Res (Option RegState) := do
  let k ← v14Key fuel st key d
  match k with
  | none => .ok none
  | some (st, key) =>
    if d.kind = b!"string" then do
      let st ← regAlias fuel all st (toLower key) d
      .ok (some st)
    else do
      let st ← regPlain st (toLower key) d
      .ok (some st)

/-- The loop over the remaining entries.  See types/customType.go:24-149. -/
def regLoop (fuel : Nat) (all : List (Str × TypeDef)) : RegState → List (Str × TypeDef) → Res RegState
  | st, [] => .ok st
  | st, (key, d) :: rest => do
    let r ← regEntry fuel all st key d
    match r with
    | none => .ok st
    | some st => regLoop fuel all st rest

/-- `RegCustomTypes` (types/customType.go:23-150). The list holds the entries of the Go map in the order in which this run
iterates over it; `fuel` bounds the call depth of the structural comparison. -/
def regCustomTypes (fuel : Nat) (st : RegState) (l : List (Str × TypeDef)) : Res RegState := regLoop fuel l st l

/-- The "inherit" loop of `LoadTypeRegistry` (source/source.go:36-43): `todo` is the remaining iteration order, `cur` the map. -/
def inheritLoop : List Str → List (Str × TypeDef) → List (Str × TypeDef)
  | [], cur => cur
  | k :: todo, cur =>
    match tableGet cur k with
    | some d =>
      if d.kind = b!"string" then
        match tableGet cur d.typeString with
        | some e => inheritLoop todo (cur.map (fun p => if p.1 = k then (k, e) else p))
        | none => inheritLoop todo cur
      else inheritLoop todo cur
    | none => inheritLoop todo cur

end ScaleGo
