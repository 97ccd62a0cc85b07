import Verif.Model.Register

/-! # Interleaved runs of `regCustomKey`

`types/customType.go:162-172` takes the read lock to read the list, releases it, appends, and takes the write lock to store the
new list.  Every goroutine therefore makes two atomic steps.  Slices are values here; the sharing of backing arrays by `append`
is left out (it can only lose more). -/

namespace ScaleGo

/-- A version range with its definition, as stored in `specialRegistry`.  See types/registry.go:21-24. -/
abbrev SpecialItem := Int × Int × Cls

/-- Where a goroutine is in `regCustomKey`: before the read, between read and write with the list it has read, finished.  See
types/customType.go:162-172. -/
inductive Phase where
  | start
  | pending (l : List SpecialItem)
  | done

/-- One goroutine registering `item` under the name `key`.  See types/customType.go:152-179. -/
structure Job where
  key : Str
  item : SpecialItem
  phase : Phase

/-- `specialRegistry` and the goroutines.  See types/registry.go:29; types/customType.go:152-179. -/
structure Conc where
  special : Str → List SpecialItem
  jobs : List Job

/-- The next atomic step of goroutine `i` (types/customType.go:162-164 and 165-172). -/
def Conc.step (s : Conc) (i : Nat) : Conc :=
  match s.jobs[i]? with
  | none => s
  | some j =>
    match j.phase with
    | .start => { s with jobs := s.jobs.set i { j with phase := .pending (s.special j.key) } }
    | .pending l =>
      { special := fun k => if k = j.key then l ++ [j.item] else s.special k,
        jobs := s.jobs.set i { j with phase := .done } }
    | .done => s

/-- A run under a schedule: which goroutine moves next.  See types/customType.go:162-172. -/
def Conc.run (s : Conc) (schedule : List Nat) : Conc := schedule.foldl Conc.step s

end ScaleGo
