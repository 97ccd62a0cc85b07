import Verif.Model.Register
import Verif.Model.Base

/-! # `Clean`

The three global tables are replaced one after the other; the locks are left out, and so are the intermediate states that other goroutines may see. -/

namespace ScaleGo

/-- `TypeRegistry = nil` (types/registry.go:44). -/
def dropTypes (st : RegState) : RegState := { st with env := { st.env with reg := fun _ => none } }

/-- `specialRegistry = make(map[string][]Special)` (types/registry.go:45). -/
def dropSpecial (st : RegState) : RegState := { st with env := { st.env with special := fun _ => [] } }

/-- `V14Types = make(map[string]source.TypeStruct)` (types/registry.go:46). -/
def dropV14 (st : RegState) : RegState := { st with v14 := fun _ => none }

/-- `TypeRegistry = registry` with the table of classes written in Go (types/registry.go:54-188). -/
def putBase (st : RegState) : RegState := { st with env := { st.env with reg := tableGet baseReg } }

/-- `Clean` (types/registry.go:43-48) with the definitions of `source.BaseType` in the order `l` in which `RegCustomTypes` takes them from the map
(types/registry.go:190). -/
def clean (fuel : Nat) (l : List (Str × TypeDef)) (st : RegState) : Res RegState :=
  regCustomTypes fuel (putBase (dropV14 (dropSpecial (dropTypes st)))) l

end ScaleGo
