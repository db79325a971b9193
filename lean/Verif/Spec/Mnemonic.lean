import Mathlib.Data.Nat.Digits.Lemmas
import Verif.Go.Basic

/-!
# Specification of BIP-39 phrases

Stated with lists of bits; independent of the model of `mnemonic.go`.
-/

namespace Btc.Spec

/-- The number written by a list of bits, most significant first. -/
def bitsNumber (bs : List Bool) : Nat := Nat.ofDigits 2 (bs.reverse.map Bool.toNat)

/-- The eight bits of a byte, most significant first. -/
def byteBits (b : UInt8) : List Bool := [7, 6, 5, 4, 3, 2, 1, 0].map b.toNat.testBit

/-- The bits of a byte string. -/
def bytesBits (bs : Bytes) : List Bool := bs.flatMap byteBits

/-- The words `ws` of the list `wl` spell the bits, eleven per word: each group of eleven is the position of
its word in the list. -/
inductive SpellsBits (wl : List GoString) : List GoString → List Bool → Prop
  | nil : SpellsBits wl [] []
  | cons {w : GoString} {ws : List GoString} {group bits : List Bool} :
      group.length = 11 → wl[bitsNumber group]? = some w → SpellsBits wl ws bits →
      SpellsBits wl (w :: ws) (group ++ bits)

/-- The text of a phrase: the words separated by single spaces. -/
def phraseText (ws : List GoString) : GoString := [32].intercalate ws

/-- BIP-39: `ws` encodes the entropy `ent`. The entropy has 128, 160, 192, 224 or 256 bits; one checksum bit per
32 bits of entropy, taken from the front of SHA-256 of the entropy, is appended. -/
def IsBip39 (sha : Bytes → Bytes) (wl : List GoString) (ent : Bytes) (ws : List GoString) : Prop :=
  ent.length ∈ [16, 20, 24, 28, 32] ∧
    SpellsBits wl ws (bytesBits ent ++ (bytesBits (sha ent)).take (ent.length / 4))

/-- A word list BIP-39 can use with phrases separated by spaces: 2048 different words without spaces. -/
structure IsWordlist (wl : List GoString) : Prop where
  size : wl.length = 2048
  nodup : wl.Nodup
  noSpace : ∀ w ∈ wl, (32 : UInt8) ∉ w

end Btc.Spec
