import Mathlib.Data.Nat.Digits.Lemmas
import Verif.Go.Basic

/-!
# Positional numerals, `math/big` text conversion, `encoding/hex`

Models of the standard-library routines the repository calls (Go 1.12, the version of `go.mod`/`.travis.yml`).
-/

namespace Btc

/-- Value of a most-significant-first digit list. -/
def ofBE (b : Nat) (ds : List Nat) : Nat := ds.foldl (fun a d => a * b + d) 0

/-- Minimal most-significant-first digits; `0` has no digits. -/
def toBE (b n : Nat) : List Nat := (Nat.digits b n).reverse

/-- `big.Int.SetBytes`: bytes as an unsigned big-endian number. -/
def bytesToNat (bs : Bytes) : Nat := ofBE 256 (bs.map UInt8.toNat)

/-- `big.Int.Bytes`: minimal big-endian bytes (no leading zero byte; empty for 0). -/
def natToBytes (n : Nat) : Bytes := (toBE 256 n).map UInt8.ofNat

/-- Value of a digit/letter as in `math/big`'s scanner (`natconv.go`): `0-9`, `a-z`, `A-Z`. -/
def digitVal (c : UInt8) : Option Nat :=
  if 48 ≤ c.toNat ∧ c.toNat ≤ 57 then some (c.toNat - 48)
  else if 97 ≤ c.toNat ∧ c.toNat ≤ 122 then some (c.toNat - 97 + 10)
  else if 65 ≤ c.toNat ∧ c.toNat ≤ 90 then some (c.toNat - 65 + 10)
  else none

/-- A digit of the given base. -/
def digitOf (base : Nat) (c : UInt8) : Option Nat :=
  match digitVal c with
  | some d => if d < base then some d else none
  | none => none

/-- The unsigned part of `big.Int.SetString(s, base)`: at least one digit, only digits. -/
def parseNat (base : Nat) (s : GoString) : Option Nat :=
  if s = [] then none else (s.mapM (digitOf base)).map (ofBE base)

/-- `new(big.Int).SetString(s, base)` for `base ∈ {2, 16}`: optional sign, then digits, and the whole
string must be consumed; `none` is the `(nil, false)` result. (No `0x` prefixes or `_` for an explicit base.) -/
def bigSetString (s : GoString) (base : Nat) : Option Int :=
  match s with
  | [] => none
  | c :: cs =>
    if c = 43 then (parseNat base cs).map Int.ofNat          -- '+'
    else if c = 45 then (parseNat base cs).map fun n => -(Int.ofNat n)  -- '-'
    else (parseNat base (c :: cs)).map Int.ofNat

/-- Lower-case digit character. -/
def digitChar (d : Nat) : UInt8 := if d < 10 then UInt8.ofNat (48 + d) else UInt8.ofNat (87 + d)

/-- `fmt.Sprintf("%x"/"%b", n)` for a non-negative number: minimal lower-case digits, `0` prints "0". -/
def fmtNat (base n : Nat) : GoString :=
  if n = 0 then [48] else (toBE base n).map digitChar

/-- `fmt.Sprintf("%x"/"%b", x)` for `x *big.Int` (method `(*Int).Format`): nil prints "<nil>",
negative numbers a leading '-'. -/
def fmtBig (base : Nat) (x : Option Int) : GoString :=
  match x with
  | none => asc "<nil>"
  | some x => if x < 0 then 45 :: fmtNat base x.natAbs else fmtNat base x.natAbs

/-- `for len(s) < n { s = "0" + s }`. -/
def padZeros (n : Nat) (s : GoString) : GoString := List.replicate (n - s.length) 48 ++ s

/-- `big.Int.Bit(i)` of a non-negative number. -/
def natBit (n i : Nat) : Nat := n / 2 ^ i % 2

/-! ## encoding/hex -/

/-- `hex.EncodeToString`. -/
def hexEncode (bs : Bytes) : GoString :=
  bs.flatMap fun b => [digitChar (b.toNat / 16), digitChar (b.toNat % 16)]

/-- `fromHexChar`: `0-9`, `a-f`, `A-F`. -/
def fromHexChar (c : UInt8) : Option Nat :=
  if 48 ≤ c.toNat ∧ c.toNat ≤ 57 then some (c.toNat - 48)
  else if 97 ≤ c.toNat ∧ c.toNat ≤ 102 then some (c.toNat - 97 + 10)
  else if 65 ≤ c.toNat ∧ c.toNat ≤ 70 then some (c.toNat - 65 + 10)
  else none

/-- `hex.DecodeString`: pairs of hex digits; the first bad byte is reported, and an odd length only if the
last byte is itself a hex digit. -/
def hexDecode : GoString → Res Bytes
  | [] => .ok []
  | [a] =>
    match fromHexChar a with
    | none => .err (.hexInvalidByte a)
    | some _ => .err .hexLength
  | a :: b :: rest =>
    match fromHexChar a with
    | none => .err (.hexInvalidByte a)
    | some x =>
      match fromHexChar b with
      | none => .err (.hexInvalidByte b)
      | some y =>
        match hexDecode rest with
        | .ok bs => .ok (UInt8.ofNat (x * 16 + y) :: bs)
        | .err e => .err e
        | .panic p => .panic p

end Btc
