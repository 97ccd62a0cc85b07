/-!
# Go values used by the model

Go strings and byte slices are lists of bytes.  A panic and an unfinished (cut off) computation are separate results.
-/

namespace ScaleGo

/-- A Go `string` or `[]byte`: a finite sequence of bytes.  No code in /repo: the Go type itself. -/
abbrev Str := List UInt8

/-- `b!"abc"` is the list of UTF-8 bytes of the literal. -/
macro:max "b!" s:str : term => do
  let xs : Array (Lean.TSyntax `term) :=
    s.getString.toUTF8.toList.toArray.map (fun b => ⟨Lean.Syntax.mkNumLit (toString b.toNat)⟩)
  `(([$xs,*] : List UInt8))

/-- Result of running Go code: a value, a panic, or (only through the recursion budget) not finished.  A panic is any `panic`
of /repo, such as types/base.go:102, or of the Go runtime. -/
inductive Res (α : Type) where
  | ok (a : α)
  | panic
  | diverge
  deriving DecidableEq, Repr

namespace Res

/-- One Go statement after another: a panic (such as types/base.go:102) skips the rest. -/
def bind {α β : Type} (x : Res α) (f : α → Res β) : Res β :=
  match x with
  | .ok a => f a
  | .panic => .panic
  | .diverge => .diverge

instance : Monad Res where
  pure := Res.ok
  bind := Res.bind

@[simp] theorem ok_bind {α β : Type} (a : α) (f : α → Res β) : (Res.ok a >>= f) = f a := rfl
@[simp] theorem panic_bind {α β : Type} (f : α → Res β) : ((Res.panic : Res α) >>= f) = .panic := rfl
@[simp] theorem diverge_bind {α β : Type} (f : α → Res β) : ((Res.diverge : Res α) >>= f) = .diverge := rfl
@[simp] theorem pure_eq {α : Type} (a : α) : (pure a : Res α) = .ok a := rfl

theorem bind_eq_ok {α β : Type} {x : Res α} {f : α → Res β} {b : β} :
    (x >>= f) = .ok b ↔ ∃ a, x = .ok a ∧ f a = .ok b := by
  cases x <;> simp

theorem bind_assoc' {α β γ : Type} (x : Res α) (f : α → Res β) (g : β → Res γ) :
    ((x >>= f) >>= g) = (x >>= fun a => f a >>= g) := by
  cases x <;> rfl

end Res

/-- Go `int`/`int64` wrap-around: the representative of `i` modulo 2^64 in [-2^63, 2^63).  For example the conversion in
types/Set.go:29. -/
def wrap64 (i : Int) : Int := i.bmod (2 ^ 64)

/-- Conversion of a Go integer to an unsigned type of `bits` bits.  For example the conversions in types/Uint.go:62-82. -/
def toUint (bits : Nat) (i : Int) : Nat := (i % (2 ^ bits : Int)).toNat

/-! ## `strings` helpers (byte-wise, ASCII case folding) -/

/-- ASCII lower case of one byte.  Go library, see `toLower`. -/
def lowerByte (b : UInt8) : UInt8 := if 65 ≤ b.toNat ∧ b.toNat ≤ 90 then UInt8.ofNat (b.toNat + 32) else b

/-- `strings.ToLower` (ASCII only; non-ASCII letters are left alone, a simplification).  Used in types/registry.go:194,
types/customType.go:42, types/base.go:217. -/
def toLower (s : Str) : Str := s.map lowerByte

/-- `strings.EqualFold` (ASCII only, same simplification).  Used in types/convert/convert.go:17, types/customType.go:74-94,
types/base.go:195. -/
def equalFold (s t : Str) : Bool := toLower s == toLower t

/-- `strings.HasPrefix`.  Used in types/convert/convert.go:14, utiles/tools.go:32. -/
def hasPrefix (s p : Str) : Bool := p.isPrefixOf s

/-- `strings.TrimPrefix`.  Used in utiles/tools.go:39-46, 96. -/
def trimPrefix (s p : Str) : Str := if hasPrefix s p then s.drop p.length else s

/-- White space removed by `strings.TrimSpace` (ASCII part).  Go library, see `trimSpace`. -/
def isSpace (b : UInt8) : Bool := b == 32 || b == 9 || b == 10 || b == 11 || b == 12 || b == 13

/-- `strings.TrimSpace` (ASCII white space).  Used in types/convert/convert.go:6, types/base.go:146. -/
def trimSpace (s : Str) : Str := ((s.dropWhile isSpace).reverse.dropWhile isSpace).reverse

/-- Worker of `replaceAll`: `skip` bytes of an already replaced occurrence are still to be dropped.  Go library, see
`replaceAll`. -/
def replaceAllAux (old new : Str) : Nat → Str → Str
  | _, [] => []
  | k + 1, _ :: cs => replaceAllAux old new k cs
  | 0, c :: cs =>
    if old.isPrefixOf (c :: cs) then new ++ replaceAllAux old new (old.length - 1) cs
    else c :: replaceAllAux old new 0 cs

/-- `strings.ReplaceAll(s, old, new)` for non-empty `old`: leftmost, non-overlapping.  Used in types/convert/convert.go:7-15,
types/base.go:142. -/
def replaceAll (s old new : Str) : Str := replaceAllAux old new 0 s

/-- `strings.Replace(s, old, new, 1)` for non-empty `old`.  Used in types/Vectors.go:70. -/
def replaceOne (old new : Str) : Str → Str
  | [] => []
  | c :: cs =>
    if old.isPrefixOf (c :: cs) then new ++ (c :: cs).drop old.length
    else c :: replaceOne old new cs

/-- `strings.Contains` for non-empty needle.  Used in types/registry.go:262. -/
def contains (s p : Str) : Bool :=
  match s with
  | [] => p.isEmpty
  | c :: cs => p.isPrefixOf (c :: cs) || contains cs p

/-- Worker of `splitSep`. `cur` is the current piece, reversed.  Go library, see `splitSep`. -/
def splitSepAux (sep : Str) : Nat → Str → Str → List Str
  | _, cur, [] => [cur.reverse]
  | k + 1, cur, _ :: cs => splitSepAux sep k cur cs
  | 0, cur, c :: cs =>
    if sep.isPrefixOf (c :: cs) then cur.reverse :: splitSepAux sep (sep.length - 1) [] cs
    else splitSepAux sep 0 (c :: cur) cs

/-- `strings.Split(s, sep)` for non-empty `sep`; always at least one piece.  Used in types/customType.go:115, 153, 156,
types/base.go:145. -/
def splitSep (s sep : Str) : List Str := splitSepAux sep 0 [] s

/-- `strings.Join`.  Used in types/scaleInfo.go:183, types/base.go:233. -/
def joinSep (sep : Str) : List Str → Str
  | [] => []
  | [a] => a
  | a :: b :: rest => a ++ sep ++ joinSep sep (b :: rest)

/-- Last piece of a `strings.Split`.  Used for types/registry.go:263-264. -/
def lastPiece (l : List Str) : Str := l.getLastD []

/-- `t[len(t)-1:] == c` on a non-empty string.  Used for types/base.go:135, types/customType.go:105, 114. -/
def endsWith (s : Str) (c : UInt8) : Bool := s.getLast? == some c

/-! ## Decimal numerals -/

/-- ASCII digit of `d < 10`.  Go library, see `natToDec`. -/
def digitByte (d : Nat) : UInt8 := UInt8.ofNat (48 + d)

/-- Worker of `natToDec`: at most `fuel` digits, most significant first.  Go library, see `natToDec`. -/
def decAux : Nat → Nat → Str → Str
  | 0, _, acc => acc
  | fuel + 1, n, acc =>
    if n < 10 then digitByte n :: acc else decAux fuel (n / 10) (digitByte (n % 10) :: acc)

/-- Base-10 numeral of a natural number (`strconv.Itoa`, `big.Int.String`).  Used in types/scaleInfo.go:188, 303,
types/types.go:446. -/
def natToDec (n : Nat) : Str := decAux (n + 1) n []

/-- Base-10 numeral of an integer.  Used in types/customType.go:39. -/
def intToDec (i : Int) : Str := if i < 0 then 45 :: natToDec i.natAbs else natToDec i.natAbs

/-- ASCII digit test.  Used for utiles/tools.go:16, types/Enum.go:41. -/
def isDigit (b : UInt8) : Bool := 48 ≤ b.toNat && b.toNat ≤ 57

/-- Value of a string of ASCII digits (`none` if empty or another byte occurs).  Used for utiles/tools.go:16. -/
def decToNat? (s : Str) : Option Nat :=
  if s.isEmpty || !(s.all isDigit) then none
  else some (s.foldl (fun acc b => acc * 10 + (b.toNat - 48)) 0)

/-- Optional sign followed by digits, as accepted by `strconv.Atoi` and `big.Int.SetString(_, 10)`.  Used for
utiles/tools.go:16, utiles/tools.go:41. -/
def decToInt? : Str → Option Int
  | [] => none
  | 43 :: rest => (decToNat? rest).map Int.ofNat
  | 45 :: rest => (decToNat? rest).map (fun n => - Int.ofNat n)
  | s => (decToNat? s).map Int.ofNat

/-- `utiles.StringToInt` (utiles/tools.go:15-21): `strconv.Atoi`, 0 on any error including overflow. -/
def stringToInt (s : Str) : Int :=
  match decToInt? s with
  | some i => if -(2 ^ 63 : Int) ≤ i ∧ i < 2 ^ 63 then i else 0
  | none => 0

end ScaleGo
