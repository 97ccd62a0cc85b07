import Verif.Spec.Codec

/-! # Doubles that are whole numbers, texts that JSON leaves alone -/

namespace Spec

/-- The bits of the IEEE 754 double (sign, 11 bits of exponent with bias 1023, 52 bits of fraction) whose value is the integer `i`. -/
def IsDouble (bits : Nat) (i : Int) : Prop :=
  if i = 0 then bits = 0
  else bits < 2 ^ 64 ∧ (2 ^ 63 ≤ bits ↔ i < 0) ∧ 0 < bits / 2 ^ 52 % 2048 ∧ bits / 2 ^ 52 % 2048 < 2047 ∧
    (2 ^ 52 + bits % 2 ^ 52) * 2 ^ (bits / 2 ^ 52 % 2048) = i.natAbs * 2 ^ 1075

end Spec

namespace ScaleGo

/-- Go's conversions of doubles: a double whose value is an integer below 2^53 in size converts to that integer. -/
structure ExactFloats (ext : Ext) : Prop where
  toInt : ∀ {b : Nat} {i : Int}, Spec.IsDouble b i → i.natAbs < 2 ^ 53 → ext.floatToInt b = i
  toUint : ∀ {b n w : Nat}, Spec.IsDouble b (n : Int) → n < 2 ^ 53 → n < 2 ^ w → ext.floatToUint w b = n
  toDec : ∀ {b : Nat} {i : Int}, Spec.IsDouble b i → i.natAbs < 2 ^ 53 → ∃ c e, ext.decOfFloat b = some (c, e) ∧ decTrunc c e = i

mutual

/-- All texts and keys in the value are valid UTF-8. -/
def cleanVal : Val → Bool
  | .str s => utf8Valid s
  | .strs l => l.all utf8Valid
  | .slice l => cleanList l
  | .map m => cleanMap m
  | _ => true

/-- See `cleanVal`. -/
def cleanList : List Val → Bool
  | [] => true
  | v :: vs => cleanVal v && cleanList vs

/-- See `cleanVal`. -/
def cleanMap : List (Str × Val) → Bool
  | [] => true
  | (k, v) :: ms => utf8Valid k && cleanVal v && cleanMap ms

end

/-- The Go types in which the decoder hands out the values of a class, with numbers below 2^53.  Missing: 64-bit fixed point numbers,
U256, calls, and signed integers below 128 bits (which cannot be encoded in the form in which they are decoded). -/
def handedOut : Cls → Val → Bool
  | .u8, .int i => decide (0 ≤ i ∧ i < 2 ^ 8)
  | .u16, .uint 2 n => decide (n < 2 ^ 16)
  | .u32, .uint 4 n => decide (n < 2 ^ 32)
  | .u64, .uint 8 n => decide (n < 2 ^ 53)
  | .moment, .uint 8 n => decide (n < 2 ^ 53)
  | .u128, .str _ => true
  | .balance, .dec _ e => decide (0 ≤ e)
  | .intFixed n, .big i => decide (16 ≤ n ∧ i.natAbs < 2 ^ 53)
  | .compact _, .uint 8 n => decide (n < 2 ^ 53)
  | .compact _, .dec _ e => decide (0 ≤ e)
  | .compact _, .int i => decide (i.natAbs < 2 ^ 53)
  | .compactU32, .int i => decide (0 ≤ i ∧ i < 2 ^ 53)
  | .compactMoment, .int i => decide (0 ≤ i ∧ i < 2 ^ 53)
  | .enum _ _, .str _ => true
  | .enum _ (some tm), .map m => !isCLike tm && (findEntry tm m).isSome
  | .logDigest, .str _ => true
  | .u8, _ => false
  | .u16, _ => false
  | .u32, _ => false
  | .u64, _ => false
  | .moment, _ => false
  | .fixedU64, _ => false
  | .u128, _ => false
  | .balance, _ => false
  | .u256, _ => false
  | .intFixed _, _ => false
  | .compact _, _ => false
  | .compactU32, _ => false
  | .compactMoment, _ => false
  | .enum _ _, _ => false
  | .logDigest, _ => false
  | .call, _ => false
  | _, _ => true

/-- `EncodeWithOpt` (types/base.go:193-220) that gives up on values which, for the class of their type, are not `handedOut`. -/
def encOut (env : Env) : Nat → ERec
  | 0, _, _, _ => .diverge
  | fuel + 1, ctx, ty, v =>
    if equalFold ty b!"Null" then .ok []
    else do
      let r ← getCodecClass env [] ctx.spec ty
      match r with
      | none => .panic
      | some (cls, sub) =>
        if handedOut cls (argOf v) then do
          let out ← encodeCls env.ext (encOut env fuel) ctx cls sub (argOf v)
          .ok (trimHex (toLower out))
        else .diverge

/-- The value is encoded as `b`, and all its parts have the Go types in which the decoder hands them out. -/
def EncodesOut (env : Env) (ctx : ECtx) (ty : Str) (v : Val) (b : Str) : Prop :=
  ∃ N, ∀ n, N ≤ n → encOut env n ctx ty v = .ok (Spec.hexText b)

end ScaleGo
