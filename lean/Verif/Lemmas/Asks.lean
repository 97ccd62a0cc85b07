import Verif.Model.Decode

/-! # Which type texts a decoder asks for -/

namespace ScaleGo

/-- Drops blanks. -/
def skipBlank : Str → Str
  | [] => []
  | c :: r => if c = 32 then skipBlank r else c :: r

/-- Text up to the closing quote (no escapes), and the rest. -/
def plainQuoted : Str → Option (Str × Str)
  | [] => none
  | c :: r => if c = 34 then some ([], r) else if c = 92 then none else (plainQuoted r).map fun p => (c :: p.1, p.2)

/-- The second texts of the rows of `[["name", "type"], …]`, written with blanks anywhere between the marks. -/
def rowsText : Nat → Str → Option (List (List Str))
  | 0, _ => none
  | n + 1, s =>
    match skipBlank s with
    | 91 :: r => match skipBlank r with
      | 34 :: r => match plainQuoted r with
        | some (a, r) => match skipBlank r with
          | 44 :: r => match skipBlank r with
            | 34 :: r => match plainQuoted r with
              | some (b, r) => match skipBlank r with
                | 93 :: r => match skipBlank r with
                  | 44 :: r => (rowsText n r).map ([a, b] :: ·)
                  | 93 :: r => if skipBlank r = [] then some [[a, b]] else none
                  | _ => none
                | _ => none
              | none => none
            | _ => none
          | _ => none
        | none => none
      | _ => none
    | _ => none

/-- Rows of pairs. -/
def pairRows (s : Str) : Option (List (List Str)) :=
  match skipBlank s with
  | 91 :: r => rowsText (r.length + 1) r
  | _ => none

/-- The types of the rows that have two entries. -/
def rowTypes : List (List Str) → List Str
  | [] => []
  | (_ :: t :: _) :: rest => t :: rowTypes rest
  | _ :: rest => rowTypes rest

/-- The types one enum variant leads to. -/
def variantAsks (rows : Str → Option (List (List Str))) (sub : Str) : List Str :=
  if sub = [] then []
  else match (if sub.length > 4 ∧ hasPrefix sub b!"[[" then
      match rows sub with
      | some (r :: rs) => if r.length = 2 then some (r :: rs) else none
      | _ => none
    else none : Option (List (List Str))) with
  | some l => rowTypes l
  | none => [sub]

/-- The type texts that the decoder of a class may ask for, given its generic argument.  Call arguments are not included. -/
def asks (rows : Str → Option (List (List Str))) (cls : Cls) (opt : Str) : List Str :=
  match cls with
  | .option t => if effSub t opt = [] ∨ effSub t opt = b!"bool" then [] else [effSub t opt]
  | .struct tm => (tm.getD []).map (·.2)
  | .enum _ tm => match tm with
    | none => []
    | some tm => if isCLike tm then [] else tm.flatMap fun p => variantAsks rows p.2
  | .bytes | .hexBytes | .string | .bitVec => [b!"Compact<u32>"]
  | .vec t => [b!"Compact<u32>", if t = [] then opt else t]
  | .boundedVec t => [b!"Compact<u32>", boundedSub t opt]
  | .set _ bits => [b!"U" ++ intToDec bits]
  | .compact t => if effSub t opt = [] then [] else [effSub t opt]
  | .logDigest => logDigestValues
  | .authoritiesChange => [b!"Compact<u32>", b!"AccountId"]
  | .data => dataTM.map (·.2)
  | .opaqueCall => [b!"Compact<u32>", b!"Call"]
  | .lookupSource => [b!"U32"]
  | .btreeMap t => b!"Compact<u32>" :: (splitSep (effSub t opt) b!",").take 2
  | .box t => [effSub t opt]
  | .result t => (splitSep (effSub t opt) b!",").take 2
  | .wrapperOpaque t => [b!"Compact<u32>", effSub t opt]
  | .range t => [(rangeTypes (effSub t opt)).1, (rangeTypes (effSub t opt)).2]
  | .fixedI128 => [b!"i128"]
  | .fixedArray n t => if n > 0 ∧ equalFold t b!"u8" = false then [t] else []
  | _ => []

end ScaleGo
