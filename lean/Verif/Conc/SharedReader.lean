import Verif.Proofs.Rand
import Verif.Model.Mnemonic

/-!
# Goroutines drawing from the one `crypto/rand.Reader`

`rand.Int` asks the reader for one block of bytes at a time (`io.ReadFull`), and each such request is answered as a
whole: `rand.Reader` is documented as safe for concurrent use. Between two requests a call touches nothing shared, so
the interleavings that matter are the orders in which blocks are handed out. A schedule is the list of goroutines in
that order. A request the source cannot answer leaves the call waiting.
-/

namespace Btc

variable (H : Hashes)

/-- A call that draws random bytes: private_key.go:117 `GeneratePrivateKey(network)` or
mnemonic.go:77 `NewMnemonic(words, wordlist)`. -/
inductive Job where
  | key (network : Option Network)
  | phrase (words : Int) (wordlist : Option (List GoString))

/-- What such a call returns. -/
inductive Drawn where
  | key (k : PrivateKey)
  | phrase (s : GoString)
deriving DecidableEq

/-- The same call made alone, on a source of its own. -/
def Job.alone (rd : Reader) : Job → Res (Drawn × Reader)
  | .key network => (generatePrivateKey H rd network).bind fun r => .ok (.key r.1, r.2)
  | .phrase words wordlist => (newMnemonic H rd words wordlist).bind fun r => .ok (.phrase r.1, r.2)

/-- private_key.go:117-133 with util.go:9-17, one block: `rand.Int` rejects the block, or the number drawn is
refused and the function calls itself again (`none`, the call goes on), or the call ends. -/
def keyBlock (network : Option Network) (block : Bytes) : Option (Res Drawn) :=
  match generateRandomBigInt block with
  | .ok (v, _) =>
    match attempt H network v with
    | .ok none => none
    | .ok (some k) => some (.ok (.key k))
    | .err e => some (.err e)
    | .panic p => some (.panic p)
  | _ => none

/-- The whole system: bytes left in the source, who got which block, and which calls have ended how. -/
structure Shared where
  source : Bytes
  log : List (Nat × Bytes)
  status : Nat → Option (Res Drawn)

/-- The source hands `k` bytes to goroutine `i`; `f` says what becomes of the call. -/
def Shared.draw (s : Shared) (i k : Nat) (f : Bytes → Option (Res Drawn)) : Shared :=
  if k ≤ s.source.length then
    { source := s.source.drop k
      log := s.log ++ [(i, s.source.take k)]
      status := fun j => if j = i then f (s.source.take k) else s.status j }
  else s

/-- Goroutine `i` runs up to and including its next request: private_key.go:117-133 (one block of 32 bytes),
mnemonic.go:77-147 (the checks, then one block of `entropyLength / 8` bytes). -/
def Shared.step (jobs : Nat → Job) (s : Shared) (i : Nat) : Shared :=
  match s.status i with
  | some _ => s
  | none =>
    match jobs i with
    | .key network => s.draw i 32 (keyBlock H network)
    | .phrase _ none => { s with status := fun j => if j = i then some (.err .invalidWordlist) else s.status j }
    | .phrase words (some wl) =>
      match entropyLengthOf words with
      | none => { s with status := fun j => if j = i then some (.err .unsupportedMnemonicLength) else s.status j }
      | some l => s.draw i (l / 8) fun block =>
          some ((phraseOf H l (bytesToNat block) wl).bind fun ph => .ok (.phrase ph))

/-- All calls begin, on a fresh source. -/
def Shared.start (source : Bytes) : Shared := ⟨source, [], fun _ => none⟩

/-- The goroutines run in the order of the schedule. -/
def Shared.run (jobs : Nat → Job) (source : Bytes) (schedule : List Nat) : Shared :=
  schedule.foldl (Shared.step H jobs) (Shared.start source)

/-- The bytes goroutine `i` was handed, in order. -/
def Shared.own (s : Shared) (i : Nat) : Bytes :=
  ((s.log.filter fun e => e.1 = i).map Prod.snd).flatten

end Btc
