import Verif.Model.BaseTypes

/-! # Reading type definitions from JSON

`source.LoadTypeRegistry` (source/source.go:18-45). The input is taken as parsed JSON; the parser of `encoding/json` is trusted.
A JSON object is the list of its members in the order of the file. -/

namespace ScaleGo

/-- A JSON value as `encoding/json` holds it in an `interface{}` (source/source.go:19-20). Simplified: numbers are integers that
a Go `int` holds; a file with other numbers is outside the model. -/
inductive Json where
  | null
  | bool (b : Bool)
  | num (n : Int)
  | text (s : Str)
  | list (l : List Json)
  | object (m : List (Str × Json))

namespace LoadJson

/-- A `string` that `json.Unmarshal` fills (source/source.go:32): a value of another kind leaves it empty, and the error is
dropped. -/
def str : Json → Str
  | .text s => s
  | _ => []

/-- A `[]string` that `json.Unmarshal` fills (source/source.go:32). An element of another kind stays `""`. -/
def strs : Json → List Str
  | .list l => l.map str
  | _ => []

/-- A `[][]string` that `json.Unmarshal` fills (source/source.go:32). A row of another kind stays `nil`. -/
def rows : Json → List (List Str)
  | .list l => l.map strs
  | _ => []

/-- An `int` that `json.Unmarshal` fills (source/source.go:32). -/
def int : Json → Int
  | .num n => n
  | _ => 0

/-- The member that fills the field tagged `k` (source/source.go:7-15). `encoding/json` compares member names with field names
without regard to case. Simplified: of several such members the first counts. -/
def field (m : List (Str × Json)) (k : Str) : Json :=
  match m.find? (fun p => toLower p.1 == k) with
  | some p => p.2
  | none => .null

/-- The definition under one key (source/source.go:26-34). -/
def readDef : Json → TypeDef
  | .text s => { kind := b!"string", typeString := s }
  | .object m =>
    { kind := str (field m b!"type")
      typeString := str (field m b!"type_string")
      mapping := rows (field m b!"type_mapping")
      values := strs (field m b!"value_list")
      bits := int (field m b!"bit_length")
      specVec := int (field m b!"specvec") }
  | _ => { kind := [] }

/-- The map `ts` before the inherit loop (source/source.go:24-35). Simplified: the keys of the file are distinct. -/
def readAll (file : List (Str × Json)) : List (Str × TypeDef) := file.map fun p => (p.1, readDef p.2)

/-- `LoadTypeRegistry` (source/source.go:18-45); `order` is the iteration order of the inherit loop. -/
def load (order : List Str) (file : List (Str × Json)) : List (Str × TypeDef) := inheritLoop order (readAll file)

end LoadJson

/-! ## The shapes of definition that occur in the shipped files -/

namespace Network

/-- A definition as the files in `network/` write it: a text; rows of texts (struct, enum); names (enum); and the two odd shapes,
rows of a text and a number (network/kilt.json `CurrencyId`) and a set with the names under `type_mapping`
(network/karura.json `Properties`). -/
inductive Entry where
  | al (t : Str)
  | st (rows : List (Str × Str))
  | en (rows : List (Str × Str))
  | ev (names : List Str)
  | num (rows : List (Str × Int))
  | set (names : List Str) (bits : Int)
  deriving DecidableEq

/-- The JSON text of an entry. -/
def Entry.json : Entry → Json
  | .al t => .text t
  | .st rows => .object [(b!"type", .text b!"struct"), (b!"type_mapping", .list (rows.map fun r => .list [.text r.1, .text r.2]))]
  | .en rows => .object [(b!"type", .text b!"enum"), (b!"type_mapping", .list (rows.map fun r => .list [.text r.1, .text r.2]))]
  | .ev names => .object [(b!"type", .text b!"enum"), (b!"value_list", .list (names.map .text))]
  | .num rows => .object [(b!"type", .text b!"enum"), (b!"type_mapping", .list (rows.map fun r => .list [.text r.1, .num r.2]))]
  | .set names bits => .object [(b!"type", .text b!"set"), (b!"bit_length", .num bits), (b!"type_mapping", .list (names.map .text))]

/-- A file. -/
def file (l : List (Str × Entry)) : List (Str × Json) := l.map fun p => (p.1, p.2.json)

end Network

end ScaleGo
