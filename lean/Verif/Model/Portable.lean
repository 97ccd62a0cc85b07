import Verif.Model.ScaleInfo

/-! # Reading the portable registry

`InitPortableRaw` of `types/scaleInfo.go` writes the decoded registry as JSON and reads it back into Go structs.  The two
steps together are modelled by functions on decoded values: JSON null leaves a Go value at zero, a value of another kind is an
error, which panics.  JSON strings come back as they were written, which holds for valid UTF-8 (the decoder only returns
printable ASCII here).  Numbers of the decoder are never negative here; keys are as in `source/scaleinfo/definitions.json`, so
that the case-insensitive matching of `encoding/json` is not needed. -/

namespace ScaleGo

/-- Into a Go `int`.  See types/scaleInfo.go:121-126. -/
def jsonInt : Val → Res Nat
  | .nil => .ok 0
  | .int i => .ok i.toNat
  | .uint _ n => .ok n
  | _ => .panic

/-- Into a Go `string`.  See types/scaleInfo.go:121-126. -/
def jsonText : Val → Res Str
  | .nil => .ok []
  | .str s => .ok s
  | _ => .panic

/-- Every element, in order.  See types/scaleInfo.go:121-126. -/
def jsonEach {α : Type} (f : Val → Res α) : List Val → Res (List α)
  | [] => .ok []
  | v :: vs => do
    let a ← f v
    let l ← jsonEach f vs
    .ok (a :: l)

/-- Into a Go slice; a nil slice is written as null, which is read as a nil slice.  See types/scaleInfo.go:121-126. -/
def jsonList {α : Type} (f : Val → Res α) : Val → Res (List α)
  | .nil | .nilSlice => .ok []
  | .slice l => jsonEach f l
  | _ => .panic

/-- The members of a JSON object; null leaves all fields of a struct at zero.  See types/scaleInfo.go:121-126. -/
def jsonObject : Val → Res (List (Str × Val))
  | .nil => .ok []
  | .map m => .ok m
  | _ => .panic

/-- A member, or null.  See types/scaleInfo.go:121-126. -/
def member (m : List (Str × Val)) (k : Str) : Val := (mapGet m k).getD .nil

/-- `SiTypeParameter` (types/scaleInfo.go:52-55). -/
def readParam (v : Val) : Res (Str × Nat) := do
  let m ← jsonObject v
  let name ← jsonText (member m b!"name")
  let type ← jsonInt (member m b!"type")
  .ok (name, type)

/-- `SiField` (types/scaleInfo.go:75-80). -/
def readField (v : Val) : Res SiField := do
  let m ← jsonObject v
  let name ← jsonText (member m b!"name")
  let type ← jsonInt (member m b!"type")
  let typeName ← jsonText (member m b!"typeName")
  let _ ← jsonList jsonText (member m b!"docs")
  .ok ⟨name, type, typeName⟩

/-- `SiVariant` (types/scaleInfo.go:92-97). -/
def readVariant (v : Val) : Res SiVariant := do
  let m ← jsonObject v
  let name ← jsonText (member m b!"name")
  let fields ← jsonList readField (member m b!"fields")
  let index ← jsonInt (member m b!"index")
  let _ ← jsonList jsonText (member m b!"docs")
  .ok ⟨name, fields, index⟩

/-- The member `key` of `SiTypeDef` (types/scaleInfo.go:57-70) with a value other than null; unknown members are ignored. -/
def readKind (key : Str) (v : Val) : Res SiDef :=
  if key = b!"Composite" then do
    let m ← jsonObject v
    let fields ← jsonList readField (member m b!"fields")
    .ok (.composite fields)
  else if key = b!"Variant" then do
    let m ← jsonObject v
    let variants ← jsonList readVariant (member m b!"variants")
    .ok (.variant variants)
  else if key = b!"Sequence" then do
    let m ← jsonObject v
    let type ← jsonInt (member m b!"type")
    .ok (.sequence type)
  else if key = b!"Array" then do
    let m ← jsonObject v
    let len ← jsonInt (member m b!"len")
    let type ← jsonInt (member m b!"type")
    .ok (.array len type)
  else if key = b!"Tuple" then do
    let types ← jsonList jsonInt v
    .ok (.tuple types)
  else if key = b!"Primitive" then do
    let name ← jsonText v
    .ok (.primitive name)
  else if key = b!"Compact" then do
    let m ← jsonObject v
    let type ← jsonInt (member m b!"type")
    .ok (.compact type)
  else if key = b!"BitSequence" then do
    let m ← jsonObject v
    let _ ← jsonInt (member m b!"bitStoreType")
    let _ ← jsonInt (member m b!"bitOrderType")
    .ok .bitSequence
  else if key = b!"Range" then do
    let m ← jsonObject v
    let _ ← jsonInt (member m b!"start")
    let _ ← jsonInt (member m b!"end")
    .ok .range
  else if key = b!"HistoricMetaCompat" then do
    let _ ← jsonText v
    .ok .none
  else .ok .none

/-- Values written as JSON null.  See types/scaleInfo.go:121-126. -/
def isJsonNull : Val → Bool
  | .nil | .nilSlice => true
  | _ => false

/-- `SiTypeDef` (types/scaleInfo.go:57-70): a decoded enum is an object with one member.  Pointers to null stay nil. -/
def readDef (v : Val) : Res SiDef := do
  let m ← jsonObject v
  match m with
  | (key, w) :: _ => if isJsonNull w then .ok .none else readKind key w
  | [] => .ok .none

/-- `SiType` (types/scaleInfo.go:19-24). -/
def readType (v : Val) : Res SiType := do
  let m ← jsonObject v
  let path ← jsonList jsonText (member m b!"path")
  let params ← jsonList readParam (member m b!"params")
  let def' ← readDef (member m b!"def")
  let _ ← jsonList jsonText (member m b!"docs")
  .ok ⟨path, params, def'⟩

/-- `PortableType` (types/scaleInfo.go:14-17). -/
def readPortable (v : Val) : Res (Nat × SiType) := do
  let m ← jsonObject v
  let id ← jsonInt (member m b!"id")
  let type ← readType (member m b!"type")
  .ok (id, type)

/-- `id2Portable[id]` (types/scaleInfo.go:128-131): the last entry with the id; the zero value for a missing id. -/
def portableType (l : List (Nat × SiType)) (id : Nat) : SiType :=
  match l.reverse.find? (fun p => p.1 == id) with
  | some p => p.2
  | none => {}

/-- `InitPortableRaw` (types/scaleInfo.go:121-133): the entries in order.  The map they are put into is `portableType`. -/
def initPortable (raw : Val) : Res (List (Nat × SiType)) := jsonList readPortable raw

/-- The registry handed to `ProcessSiType` (types/v14.go:35-39); the map has one entry for each id. -/
def portableCfg (l : List (Nat × SiType)) : SiCfg where
  types := portableType l
  count := (uniqueNats (l.map Prod.fst)).length
where
  /-- The distinct numbers of a list. -/
  uniqueNats : List Nat → List Nat
    | [] => []
    | n :: ns => let r := uniqueNats ns; if r.contains n then r else n :: r

end ScaleGo
