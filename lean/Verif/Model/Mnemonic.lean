import Verif.Model.Types

/-!
# mnemonic.go
-/

namespace Btc

variable (H : Hashes)

/-- Lines written by `log.Println` (message text; the time stamp is not modelled). -/
abbrev Log := List GoString

/-- mnemonic.go:19-25: index of the first list entry equal to `word`. -/
def lookupWord : List GoString → GoString → Option Nat
  | [], _ => none
  | w :: ws, word => if word = w then some 0 else (lookupWord ws word).map (· + 1)

/-- mnemonic.go:18-36: the loop over the words; `binary` accumulates the zero-padded indices. -/
def seedBits (wordlist : List GoString) : List GoString → GoString → Res GoString
  | [], binary => .ok binary
  | word :: words, binary =>
    match lookupWord wordlist word with
    | none => .err .invalidMnemonic                       -- "invalid mnemonic"
    | some i => seedBits wordlist words (binary ++ padZeros 11 (fmtNat 2 i))

/-- mnemonic.go:39-48: the loop over the nibbles of `binary[i:]`; `hash` accumulates hex digits. Indexing past
the end (fewer than four characters left) panics. Every nibble is logged before it is converted. -/
def nibbleLoop : GoString → GoString → Res GoString × Log
  | [], hash => (.ok hash, [])
  | a :: b :: c :: d :: rest, hash =>
    let n := [a, b, c, d]
    let r := nibbleLoop rest (hash ++ bigIntToHex (bigSetString n 2))
    (r.1, n :: r.2)
  | _, _ => (.panic .indexRange, [])

/-- mnemonic.go:15-74 `NewSeedFromMnemonic`; result and log. A nil word list behaves as an empty one. -/
def newSeedFromMnemonic (mnemonic _passphrase : GoString) (wordlist : Option (List GoString)) :
    Res (Option Bytes) × Log :=
  match seedBits (wordlist.getD []) (splitSpace mnemonic) [] with
  | .err e => (.err e, [])
  | .panic p => (.panic p, [])
  | .ok binary =>
    match nibbleLoop binary [] with
    | (.err e, log) => (.err e, log)
    | (.panic p, log) => (.panic p, log)
    | (.ok hash, log) =>
      match slice hash ((hash.length : Int) - 2) hash.length, slice hash 0 ((hash.length : Int) - 2) with
      | .ok checksum, .ok body =>
        match hexDecode body with
        | .err e => (.err e, log)
        | .panic p => (.panic p, log)
        | .ok decoded =>
          let shaHash := H.sha256 decoded
          let shaHashHex := padZeros 64 (bigIntToHex (some (bytesToNat shaHash : Int)))
          match slice shaHashHex 0 2 with
          | .ok head =>
            if head ≠ checksum then (.err .invalidChecksum, log)     -- "invalid checksum"
            else
              (.ok none,                                             -- return nil, nil
                log ++ [shaHashHex ++ 32 :: fmtNat 10 shaHashHex.length, hash ++ 32 :: checksum])
          | .err e => (.err e, log)
          | .panic p => (.panic p, log)
      | .panic p, _ => (.panic p, log)
      | .err e, _ => (.err e, log)
      | .ok _, .panic p => (.panic p, log)
      | .ok _, .err e => (.err e, log)

/-- mnemonic.go:83-102: entropy bits for a word count. -/
def entropyLengthOf (words : Int) : Option Nat :=
  if words = 12 then some 128
  else if words = 15 then some 160
  else if words = 18 then some 192
  else if words = 21 then some 224
  else if words = 24 then some 256
  else none

/-- mnemonic.go:134-141: the eleven characters for bits `i .. i+10` (least significant first). -/
def bitString (binary i : Nat) : GoString :=
  (List.range 11).map fun j => if natBit binary (i + j) = 0 then 48 else 49

/-- mnemonic.go:133-144: `n` rounds of the loop starting at bit `i`. -/
def phraseLoop (wordlist : List GoString) (binary : Nat) : Nat → Nat → Res (List GoString)
  | 0, _ => .ok []
  | n + 1, i => do
    let k ← deref (bigSetString (bitString binary i) 2)
    let w ← index wordlist k
    let ws ← phraseLoop wordlist binary n (i + 11)
    .ok (w :: ws)

/-- mnemonic.go:112-146: the phrase for a given entropy. The loop `for i := 0; i < len(b); i += 11` runs
`⌈len(b)/11⌉` times. -/
def phraseOf (entropyLength entropy : Nat) (wordlist : List GoString) : Res GoString := do
  let hash := H.sha256 (natToBytes entropy)
  let checksumLength := entropyLength / 32
  let hashBinary := fmtNat 2 (bytesToNat hash)
  let checksumBinary ← slice hashBinary 0 checksumLength
  let b := padZeros entropyLength (fmtNat 2 entropy) ++ checksumBinary
  let binary ← deref (bigSetString b 2)
  let phrase ← phraseLoop wordlist binary.toNat ((b.length + 10) / 11) 0
  .ok (joinSpace phrase)

/-- mnemonic.go:77-147 `NewMnemonic`; also returns the unread part of the random source. -/
def newMnemonic (rd : Reader) (words : Int) (wordlist : Option (List GoString)) :
    Res (GoString × Reader) :=
  match wordlist with
  | none => .err .invalidWordlist                         -- "invalid wordlist"
  | some wl =>
    match entropyLengthOf words with
    | none => .err .unsupportedMnemonicLength             -- "unsupported mnemonic length"
    | some entropyLength => do
      let (entropy, rd') ← randInt rd (2 ^ entropyLength)
      let phrase ← phraseOf H entropyLength entropy wl
      .ok (phrase, rd')

end Btc
