import Verif.Model.EthMath

/-! # Number helpers of `utiles` working on texts -/

namespace ScaleGo

open EthMath

/-- `utiles.U256` (utiles/tools.go:38-43) on any text: `big.Int.SetString(_, 16)` after one leading `0x`; `none` for `nil`. -/
def u256OfText (v : Str) : Option Int := hexToInt? (trimHex v)

/-- `utiles.U256DecoderToBigInt` (utiles/tools.go:215-218). -/
def u256DecoderToBigInt (s : Str) : Option Int := u256OfText (bytesToHex (reverseBytes (hexToBytes s)))

/-- `utiles.BytesToBnHex` (utiles/tools.go:99-105). -/
def bytesToBnHex (value : Str) : Str := value.foldl (fun h b => h ++ natToDec b.toNat) []

end ScaleGo
