import Verif.Go.Num

/-!
# github.com/mr-tron/base58 v1.1.2 (Bitcoin alphabet)

The dependency is not in `/repo`; this is its input/output behaviour (`Encode`, `Decode`): leading zero bytes
correspond one to one to leading '1' characters, the rest is a change of base of the big-endian number.
`Decode` rejects the empty string and any character outside the alphabet.
-/

namespace Btc

/-- The Bitcoin alphabet. -/
def b58Alphabet : GoString := asc "123456789ABCDEFGHJKLMNPQRSTUVWXYZabcdefghijkmnopqrstuvwxyz"

/-- Character of a base-58 digit. -/
def b58Char (d : Nat) : UInt8 := b58Alphabet.getD d 0

/-- Digit of a character, if it is in the alphabet. -/
def b58Digit (c : UInt8) : Option Nat :=
  let i := b58Alphabet.idxOf c
  if i < 58 then some i else none

/-- Number of leading zeros. -/
def leadingZeros (ds : List Nat) : Nat := (ds.takeWhile (· == 0)).length

/-- `base58.Encode`. -/
def base58Encode (bs : Bytes) : GoString :=
  (List.replicate (leadingZeros (bs.map UInt8.toNat)) 0 ++ toBE 58 (bytesToNat bs)).map b58Char

/-- `base58.Decode`. -/
def base58Decode (s : GoString) : Res Bytes :=
  if s = [] then .err .base58Empty
  else
    match s.mapM b58Digit with
    | none => .err .base58Digit
    | some ds => .ok ((List.replicate (leadingZeros ds) 0 ++ toBE 256 (ofBE 58 ds)).map UInt8.ofNat)

end Btc
