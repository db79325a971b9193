import Mathlib.Data.Nat.Digits.Lemmas
import Verif.Go.Basic

/-!
# Specification of the encodings

Independent of the model's own encoders: relations between byte strings and texts.
-/

namespace Btc.Spec

/-- Value of a hexadecimal digit, upper or lower case. -/
def hexVal (c : UInt8) : Option Nat :=
  if c ∈ asc "0123456789abcdef" then some ((asc "0123456789abcdef").idxOf c)
  else if c ∈ asc "0123456789ABCDEF" then some ((asc "0123456789ABCDEF").idxOf c)
  else none

/-- `c` is a hexadecimal digit. -/
def IsHexDigit (c : UInt8) : Prop := (hexVal c).isSome

/-- The text `s` spells the bytes `bs`, two hexadecimal digits (of any case) per byte. -/
inductive Spells : GoString → Bytes → Prop
  | nil : Spells [] []
  | cons {hi lo : UInt8} {x y : Nat} {b : UInt8} {s : GoString} {bs : Bytes} :
      hexVal hi = some x → hexVal lo = some y → b.toNat = 16 * x + y → Spells s bs →
      Spells (hi :: lo :: s) (b :: bs)

/-- The number written by a hexadecimal text, most significant digit first. -/
def hexNumber (s : GoString) : Nat := Nat.ofDigits 16 (s.reverse.map fun c => (hexVal c).getD 0)

/-- The unsigned big-endian number with these bytes. -/
def bigEndian (bs : Bytes) : Nat := Nat.ofDigits 256 (bs.reverse.map UInt8.toNat)

/-- The Base58 alphabet of Bitcoin. -/
def alphabet58 : GoString := asc "123456789ABCDEFGHJKLMNPQRSTUVWXYZabcdefghijkmnopqrstuvwxyz"

/-- Value of a text as a base-58 numeral. -/
def value58 (s : GoString) : Nat := Nat.ofDigits 58 (s.reverse.map alphabet58.idxOf)

/-- `s` is the Base58 text of `bs`: same number, and as many leading '1' characters as leading zero bytes.
(`Verif/Proofs/Base58.lean` shows that this determines `s` from `bs` and `bs` from `s`.) -/
def IsBase58 (bs : Bytes) (s : GoString) : Prop :=
  (∀ c ∈ s, c ∈ alphabet58) ∧ value58 s = bigEndian bs ∧
    (s.takeWhile (· == 49)).length = (bs.takeWhile (· == 0)).length

/-- First four bytes of the double SHA-256. -/
def checksum (sha : Bytes → Bytes) (payload : Bytes) : Bytes := (sha (sha payload)).take 4

/-- `s` is the Base58Check text of `payload`. -/
def IsBase58Check (sha : Bytes → Bytes) (payload : Bytes) (s : GoString) : Prop :=
  IsBase58 (payload ++ checksum sha payload) s

/-- ASCII lower case of a hexadecimal text, specified digit by digit: same digit values, no upper-case letter. -/
def IsLowerHexOf (s t : GoString) : Prop :=
  t.length = s.length ∧ t.map hexVal = s.map hexVal ∧ ∀ c ∈ t, c ∈ asc "0123456789abcdef"

/-- `s` is the shortest lower-case hexadecimal text of `m`: no leading zero unless it is "0". -/
def IsMinimalHex (m : Nat) (s : GoString) : Prop :=
  hexNumber s = m ∧ s ≠ [] ∧ (∀ c ∈ s, c ∈ asc "0123456789abcdef") ∧ (s.head? = some 48 → s = [48])

/-- `s` is the `w`-digit lower-case hexadecimal text of `m`, padded with zeros. -/
def IsHexFixed (w m : Nat) (s : GoString) : Prop :=
  s.length = w ∧ hexNumber s = m ∧ ∀ c ∈ s, c ∈ asc "0123456789abcdef"

/-- `ser` is the SEC 1 serialization of the point with coordinates `x`, `y`. -/
def IsSerialized (compressed : Bool) (x y : Nat) (ser : Bytes) : Prop :=
  ∃ xb yb : Bytes, xb.length = 32 ∧ yb.length = 32 ∧ bigEndian xb = x ∧ bigEndian yb = y ∧
    ser = if compressed then (if y % 2 = 0 then 0x02 else 0x03) :: xb else 0x04 :: xb ++ yb

/-- RIPEMD-160 of SHA-256. -/
def hash160 (sha rip : Bytes → Bytes) (bs : Bytes) : Bytes := rip (sha bs)

end Btc.Spec
