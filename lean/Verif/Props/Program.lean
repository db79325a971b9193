import Verif.Imp.Calls
import Verif.Curve.Ref
import Verif.Props.Samples

/-!
# C102, C103: the functions as programs of statements

C102: the program that follows the Go text statement by statement (`Verif/Imp/Code.lean`) ends as the model says, for all
arguments, nil pointers included. The world after the call is part of the statement: only `GeneratePrivateKey` and
`NewMnemonic` read random bytes, only `NewSeedFromMnemonic` writes to the log.

C103: every call ends, with an explicit bound on the rounds of each loop.

In `call body n m w s`, `n` bounds the rounds of each loop and `m` the number of times the body is run (a function that
ends with `return f(…)` of itself runs it again).
-/

namespace Btc

open Btc.Imp

/-- C102: `CheckWIF`. -/
theorem C102_checkWIF (H : Hashes) (n m : Nat) (w : World) (wif : GoString) :
    call (checkWIFBody H) n (m + 1) w { wif := wif } = (Done.plain (checkWIF H wif)).map fun d => (d, w) :=
  call_fin (checkWIF_eval H n w wif)

example (w : World) : call (checkWIFBody realHashes) 0 1 w { wif := Samples.wifA } = some (.ret true, w) := by
  rw [C102_checkWIF, Samples.checkA]; rfl

/-- C102: `PrivateFromWIF`. -/
theorem C102_privateFromWIF (H : Hashes) (n m : Nat) (w : World) (wif : GoString) (network : Option Network) :
    call (privateFromWIFBody H) n (m + 1) w { wif := wif, network := network } =
      (Done.ptr (privateFromWIF H wif network)).map fun d => (d, w) :=
  call_fin (privateFromWIF_eval H n w wif network)

example (w : World) : call (privateFromWIFBody realHashes) 0 1 w { wif := Samples.wifB, network := some MainNetwork } =
    some (.ret (some Samples.keyB, none), w) := by
  rw [C102_privateFromWIF, Samples.fromWifB]; rfl

/-- C102: `PrivateFromHex`. -/
theorem C102_privateFromHex (H : Hashes) (n m : Nat) (w : World) (hexa : GoString) (network : Option Network) :
    call (privateFromHexBody H) n (m + 1) w { hexa := hexa, network := network } =
      (Done.ptr (privateFromHex H hexa network)).map fun d => (d, w) :=
  call_fin (privateFromHex_eval H n w hexa network)

example (w : World) : call (privateFromHexBody realHashes) 0 1 w { hexa := Samples.hexA, network := some MainNetwork } =
    some (.ret (some Samples.keyA, none), w) := by
  rw [C102_privateFromHex, Samples.fromHexA]; rfl

/-- C102: `generateRandomBigInt`. On a crash the bytes are those before the failing read. -/
theorem C102_generateRandomBigInt (n m : Nat) (w : World) :
    call generateRandomBigIntBody n (m + 1) w {} =
      match generateRandomBigInt w.rd with
      | .ok (v, rd') => some (.ret (some (v : Int)), { w with rd := rd' })
      | .err _ => none
      | .panic p => some (.panic p, w) := by
  have h := generateRandomBigInt_eval n w
  generalize generateRandomBigInt w.rd = g at h ⊢
  rcases g with ⟨_, _⟩ | _ | _ <;> simp only at h ⊢ <;> simp only [call, h]

example (w : World) : call generateRandomBigIntBody 0 1 { w with rd := List.replicate 33 7 } {} =
    some (.ret (some (bytesToNat (List.replicate 32 7) : Int)), { w with rd := [7] }) := by
  have h : generateRandomBigInt (List.replicate 33 7) = .ok (bytesToNat (List.replicate 32 7), [7]) := by decide +kernel
  rw [C102_generateRandomBigInt, h]

/-- C102: `GeneratePrivateKey`. -/
theorem C102_generatePrivateKey (H : Hashes) (network : Option Network) (n m : Nat) (w : World) (hm : w.rd.length < m) :
    (∀ k rd', generatePrivateKey H w.rd network = .ok (k, rd') →
      call (generatePrivateKeyBody H) n m w { network := network } = some (.ret (some k), { w with rd := rd' })) ∧
    (∀ p, generatePrivateKey H w.rd network = .panic p → ∃ rd',
      call (generatePrivateKeyBody H) n m w { network := network } = some (.panic p, { w with rd := rd' })) ∧
    ∀ e, generatePrivateKey H w.rd network ≠ .err e :=
  generate_call H network n m w hm

/-- The first block starts with a zero byte, so its number has 62 hexadecimal digits; the second one is used. -/
example (w : World) : ∃ k rd', call (generatePrivateKeyBody realHashes) 0 66
    { w with rd := 0 :: List.replicate 31 7 ++ List.replicate 33 119 } { network := some MainNetwork } =
      some (.ret (some k), { w with rd := rd' }) ∧ rd' = [119] := by
  have h : ∃ k, generatePrivateKey realHashes (0 :: List.replicate 31 7 ++ List.replicate 33 119) (some MainNetwork) =
      .ok (k, [119]) := by
    have h' : (match generatePrivateKey realHashes (0 :: List.replicate 31 7 ++ List.replicate 33 119) (some MainNetwork) with
        | .ok (_, rd) => decide (rd = [119])
        | _ => false) = true := by decide +kernel
    generalize generatePrivateKey realHashes (0 :: List.replicate 31 7 ++ List.replicate 33 119) (some MainNetwork) = g at h'
    rcases g with ⟨k, rd⟩ | _ | _ <;> simp at h'
    exact ⟨k, by rw [h']⟩
  obtain ⟨k, h⟩ := h
  exact ⟨k, _, (C102_generatePrivateKey realHashes (some MainNetwork) 0 66 _ (by simp)).1 k _ h, rfl⟩

/-- C102: `AddPrivateKeys`; a nil key is a nil dereference. -/
theorem C102_addPrivateKeys (H : Hashes) (n m : Nat) (w : World) (p1 p2 : Option PrivateKey) :
    call (combineBody H (· + ·)) n (m + 1) w { p1 := p1, p2 := p2 } =
      (Done.ptr (do let a ← deref p1; let b ← deref p2; addPrivateKeys H a b)).map fun d => (d, w) :=
  call_fin (combine_eval H (· + ·) n w p1 p2)

example (w : World) : call (combineBody realHashes (· + ·)) 0 1 w { p1 := some Samples.keyA, p2 := none } =
    some (.panic .nilDeref, w) := by
  rw [C102_addPrivateKeys]; rfl

example (w : World) : call (combineBody realHashes (· + ·)) 0 1 w { p1 := some Samples.keyA, p2 := some Samples.keyT } =
    some (.ret (none, some .differentNetwork), w) := by
  have h : addPrivateKeys realHashes Samples.keyA Samples.keyT = .err .differentNetwork := by decide +kernel
  rw [C102_addPrivateKeys, deref_some, Res.bind_ok, deref_some, Res.bind_ok, h]; rfl

/-- C102: `MultiplyPrivateKeys`. -/
theorem C102_multiplyPrivateKeys (H : Hashes) (n m : Nat) (w : World) (p1 p2 : Option PrivateKey) :
    call (combineBody H (· * ·)) n (m + 1) w { p1 := p1, p2 := p2 } =
      (Done.ptr (do let a ← deref p1; let b ← deref p2; multiplyPrivateKeys H a b)).map fun d => (d, w) :=
  call_fin (combine_eval H (· * ·) n w p1 p2)

example (w : World) : call (combineBody realHashes (· * ·)) 0 1 w { p1 := some Samples.keyA, p2 := some Samples.keyA } =
    some (.ret (none, some .identicalKeys), w) := by
  have h : multiplyPrivateKeys realHashes Samples.keyA Samples.keyA = .err .identicalKeys := by decide +kernel
  rw [C102_multiplyPrivateKeys, deref_some, Res.bind_ok, Res.bind_ok, h]; rfl

/-- The reference curve package has no `error` results, as in Go. -/
theorem ref_noErr : NoErr EC.ref where
  getY c x e := by
    unfold EC.ref
    cases x with
    | none => simp
    | some x => simp only; split <;> simp
  multMod c x k e := by
    unfold EC.ref
    cases x <;> simp
  scalarMult c k p e := by
    unfold EC.ref EC.outcome
    simp only
    split
    · split <;> simp
    · simp
  addPoints c p q e := by
    unfold EC.ref EC.outcome
    simp only
    split
    · split <;> simp
    · simp

/-- C102: `PublicFromHex`. -/
theorem C102_publicFromHex {E : Ecdsa} (hE : NoErr E) (n m : Nat) (w : World) (hexa : GoString) (network : Option Network) :
    call (publicFromHexBody E) n (m + 1) w { hexa := hexa, network := network } =
      (Done.ptr (publicFromHex E hexa network)).map fun d => (d, w) :=
  call_fin (publicFromHex_eval hE n w hexa network)

example (w : World) : call (publicFromHexBody EC.ref) 0 1 w { hexa := asc "0", network := none } = some (.panic .sliceBounds, w) := by
  have h : publicFromHex EC.ref (asc "0") none = .panic .sliceBounds := by decide +kernel
  rw [C102_publicFromHex ref_noErr, h]; rfl

/-- C102: `GetPublicKey`. -/
theorem C102_getPublicKey {E : Ecdsa} (hE : NoErr E) (n m : Nat) (w : World) (p : Option PrivateKey) :
    call (getPublicKeyBody E) n (m + 1) w { p := p } =
      (Done.flag (do let k ← deref p; getPublicKey E k)).map fun d => (d, w) :=
  call_fin (getPublicKey_eval hE n w p)

example (w : World) : call (getPublicKeyBody EC.ref) 0 1 w { p := some { Samples.keyA with Key := none } } =
    some (.panic .nilDeref, w) := by
  rw [C102_getPublicKey ref_noErr]; rfl

/-- C102: `Format`. -/
theorem C102_format (n m : Nat) (hn : 65 ≤ n) (w : World) (p : Option PublicKey) (compressed : Bool) :
    call formatBody n (m + 1) w { p := p, compressed := compressed } =
      (Done.plain (do let k ← deref p; format k compressed)).map fun d => (d, w) :=
  call_fin (format_eval n hn w p compressed)

example (w : World) : call formatBody 65 1 w { p := some ⟨some 1, some 3, none⟩, compressed := true } =
    some (.ret (asc "030000000000000000000000000000000000000000000000000000000000000001"), w) := by
  have h : format ⟨some 1, some 3, none⟩ true = .ok (asc "030000000000000000000000000000000000000000000000000000000000000001") := by
    decide +kernel
  rw [C102_format 65 0 (Nat.le_refl _), deref_some, Res.bind_ok, h]; rfl

/-- C102: `Address`. -/
theorem C102_address (H : Hashes) (n m : Nat) (w : World) (p : Option PublicKey) (compressed : Bool) :
    call (addressBody H) n (m + 1) w { p := p, compressed := compressed } =
      (Done.text (do let k ← deref p; address H k compressed)).map fun d => (d, w) :=
  call_fin (address_eval H n w p compressed)

example (w : World) : call (addressBody realHashes) 0 1 w { p := some ⟨some 1, some (-3), none⟩, compressed := false } =
    some (.ret ([], some (.hexInvalidByte 45)), w) := by
  have h : address realHashes ⟨some 1, some (-3), none⟩ false = .err (.hexInvalidByte 45) := by decide +kernel
  rw [C102_address, deref_some, Res.bind_ok, h]; rfl

/-- C102: `AddPublicKeys`. -/
theorem C102_addPublicKeys {E : Ecdsa} (hE : NoErr E) (n m : Nat) (w : World) (p1 p2 : Option PublicKey) (compressed : Bool) :
    call (addPublicKeysBody E) n (m + 1) w { p1 := p1, p2 := p2, compressed := compressed } =
      (Done.ptr (do let a ← deref p1; let b ← deref p2; addPublicKeys E a b compressed)).map fun d => (d, w) :=
  call_fin (addPublicKeys_eval hE n w p1 p2 compressed)

example (w : World) : call (addPublicKeysBody EC.ref) 0 1 w
    { p1 := some ⟨some 1, some 2, none⟩, p2 := some ⟨some 1, some 2, some MainNetwork⟩, compressed := true } =
      some (.ret (none, some .differentNetwork), w) := by
  rw [C102_addPublicKeys ref_noErr]; rfl

/-- C102: `NewSeedFromMnemonic`; the lines logged by the call are appended to the log. -/
theorem C102_newSeedFromMnemonic (H : Hashes) (n m : Nat) (w : World) (mnemonic passphrase : GoString) (wl : List GoString)
    (hn : 65 + ((splitSpace mnemonic).length + 1) * (wl.length + 11) ≤ n) :
    call (newSeedFromMnemonicBody H) n (m + 1) w { mnemonic := mnemonic, passphrase := passphrase, wordlist := wl } =
      some (Done.seed (newSeedFromMnemonic H mnemonic passphrase (some wl)).1,
        { w with log := w.log ++ (newSeedFromMnemonic H mnemonic passphrase (some wl)).2 }) :=
  call_fin (newSeed_eval H n w mnemonic passphrase wl hn)

example (w : World) : call (newSeedFromMnemonicBody realHashes) 1000 1 w
    { mnemonic := asc "b a", passphrase := [], wordlist := [asc "a", asc "b"] } =
      some (.panic .indexRange, { w with log := w.log ++ [asc "0000", asc "0000", asc "0010", asc "0000", asc "0000"] }) := by
  have h : newSeedFromMnemonic realHashes (asc "b a") [] (some [asc "a", asc "b"]) =
      (.panic .indexRange, [asc "0000", asc "0000", asc "0010", asc "0000", asc "0000"]) := by decide +kernel
  rw [C102_newSeedFromMnemonic _ 1000 0 w _ _ _ (by decide +kernel), h]; rfl

/-- C102: `NewMnemonic`. -/
theorem C102_newMnemonic (H : Hashes) (n m : Nat) (hn : 300 ≤ n) (w : World) (words : Int) (wl : Option (List GoString)) :
    (∀ p rd', newMnemonic H w.rd words wl = .ok (p, rd') →
      call (newMnemonicBody H) n (m + 1) w { words := words, wordlist := wl } = some (.ret (p, none), { w with rd := rd' })) ∧
    (∀ e, newMnemonic H w.rd words wl = .err e →
      call (newMnemonicBody H) n (m + 1) w { words := words, wordlist := wl } = some (.ret ([], some e), w)) ∧
    ∀ p, newMnemonic H w.rd words wl = .panic p → ∃ rd',
      call (newMnemonicBody H) n (m + 1) w { words := words, wordlist := wl } = some (.panic p, { w with rd := rd' }) := by
  have h := newMnemonic_call H n hn m w words wl
  generalize newMnemonic H w.rd words wl = g at h ⊢
  refine ⟨?_, ?_, ?_⟩
  · rintro p rd' rfl; exact h
  · rintro e rfl; exact h
  · rintro p rfl; exact h

example (w : World) : call (newMnemonicBody realHashes) 300 1 w { words := 13, wordlist := some [] } =
    some (.ret ([], some .unsupportedMnemonicLength), w) :=
  (C102_newMnemonic realHashes 300 0 (Nat.le_refl _) w 13 (some [])).2.1 _ rfl

/-- Too short a word list crashes, after the random bytes were read. -/
example (w : World) : ∃ rd', call (newMnemonicBody realHashes) 300 1 { w with rd := List.replicate 16 255 } { words := 12, wordlist := some [] } =
    some (.panic .indexRange, { w with rd := rd' }) :=
  (C102_newMnemonic realHashes 300 0 (Nat.le_refl _) { w with rd := List.replicate 16 255 } 12 (some [])).2.2 _ (by
    show newMnemonic realHashes (List.replicate 16 255) 12 (some []) = _
    decide +kernel)

/-- A call ends: it returns or crashes. -/
def Ends {σ ρ : Type} (body : Stmt σ ρ) (n m : Nat) (w : World) (s : σ) : Prop := (call body n m w s).isSome

theorem ends_plain {σ α : Type} {body : Stmt σ α} {n m : Nat} {w : World} {s : σ} {r : Res α}
    (h : call body n m w s = (Done.plain r).map fun d => (d, w)) (hr : ∀ e, r ≠ .err e) : Ends body n m w s := by
  unfold Ends
  rw [h]
  cases r with
  | ok a => rfl
  | err e => exact absurd rfl (hr e)
  | panic p => rfl

theorem ends_ptr {σ α : Type} {body : Stmt σ (Option α × Option GoError)} {n m : Nat} {w : World} {s : σ} {r : Res α}
    (h : call body n m w s = (Done.ptr r).map fun d => (d, w)) : Ends body n m w s := by
  unfold Ends
  rw [h]
  cases r <;> rfl

/-- C103: the calls of private_key.go end. None of these functions has a loop; `GeneratePrivateKey` calls itself at most once per byte
the source delivers. -/
theorem C103_private (H : Hashes) (n m : Nat) (w : World) :
    (∀ wif, Ends (checkWIFBody H) n (m + 1) w { wif := wif }) ∧
    (∀ wif network, Ends (privateFromWIFBody H) n (m + 1) w { wif := wif, network := network }) ∧
    (∀ hexa network, Ends (privateFromHexBody H) n (m + 1) w { hexa := hexa, network := network }) ∧
    (∀ network, w.rd.length < m → Ends (generatePrivateKeyBody H) n m w { network := network }) ∧
    (∀ p1 p2, Ends (combineBody H (· + ·)) n (m + 1) w { p1 := p1, p2 := p2 }) ∧
    ∀ p1 p2, Ends (combineBody H (· * ·)) n (m + 1) w { p1 := p1, p2 := p2 } := by
  refine ⟨fun wif => ends_plain (C102_checkWIF H n m w wif) (checkWIF_ne_err H wif),
    fun wif network => ends_ptr (C102_privateFromWIF H n m w wif network),
    fun hexa network => ends_ptr (C102_privateFromHex H n m w hexa network), fun network hm => ?_,
    fun p1 p2 => ends_ptr (C102_addPrivateKeys H n m w p1 p2), fun p1 p2 => ends_ptr (C102_multiplyPrivateKeys H n m w p1 p2)⟩
  obtain ⟨h1, h2, h3⟩ := C102_generatePrivateKey H network n m w hm
  unfold Ends
  generalize generatePrivateKey H w.rd network = g at h1 h2 h3
  rcases g with ⟨k, rd'⟩ | e | p
  · rw [h1 k rd' rfl]; rfl
  · exact absurd rfl (h3 e)
  · obtain ⟨rd', h⟩ := h2 p rfl
    rw [h]; rfl

example (w : World) : Ends (checkWIFBody realHashes) 0 1 w { wif := asc "1" } := (C103_private realHashes 0 0 w).1 _

/-- C103: the calls of public_key.go end if those of the curve package do. The two loops of `Format` take at most 65 tests each. -/
theorem C103_public (H : Hashes) {E : Ecdsa} (hE : NoErr E) (n m : Nat) (w : World) :
    (∀ hexa network, Ends (publicFromHexBody E) n (m + 1) w { hexa := hexa, network := network }) ∧
    (∀ p, Ends (getPublicKeyBody E) n (m + 1) w { p := p }) ∧
    (∀ p compressed, 65 ≤ n → Ends formatBody n (m + 1) w { p := p, compressed := compressed }) ∧
    (∀ p compressed, Ends (addressBody H) n (m + 1) w { p := p, compressed := compressed }) ∧
    ∀ p1 p2 compressed, Ends (addPublicKeysBody E) n (m + 1) w { p1 := p1, p2 := p2, compressed := compressed } := by
  refine ⟨fun hexa network => ends_ptr (C102_publicFromHex hE n m w hexa network), fun p => ?_, fun p c hn =>
    ends_plain (C102_format n m hn w p c) ?_, fun p c => ?_, fun p1 p2 c => ends_ptr (C102_addPublicKeys hE n m w p1 p2 c)⟩
  · unfold Ends
    rw [C102_getPublicKey hE n m w p]
    cases p with
    | none => rfl
    | some k =>
      simp only [deref_some, Res.bind_ok, getPublicKey]
      cases hm : E.scalarMult secp256k1 k.Key secp256k1.G with
      | err e => exact absurd hm (hE.scalarMult _ _ _ _)
      | panic q => rfl
      | ok q => obtain ⟨R, b⟩ := q; cases b <;> rfl
  · intro e
    cases p with
    | none => simp
    | some k => exact format_ne_err k c e
  · unfold Ends
    rw [C102_address H n m w p c]
    cases (do let k ← deref p; address H k c : Res GoString) <;> rfl

example (w : World) : Ends formatBody 65 1 w { p := some ⟨none, none, none⟩, compressed := true } :=
  (C103_public realHashes ref_noErr 65 0 w).2.2.1 _ _ (Nat.le_refl _)

/-- C103: the calls of mnemonic.go end; the loops of `NewMnemonic` take fewer than 300 rounds, those of `NewSeedFromMnemonic` fewer than
65 + (words + 1) · (length of the list + 11). -/
theorem C103_mnemonic (H : Hashes) (n m : Nat) (w : World) :
    (∀ words wl, 300 ≤ n → Ends (newMnemonicBody H) n (m + 1) w { words := words, wordlist := wl }) ∧
    ∀ mnemonic passphrase wl, 65 + ((splitSpace mnemonic).length + 1) * (wl.length + 11) ≤ n →
      Ends (newSeedFromMnemonicBody H) n (m + 1) w { mnemonic := mnemonic, passphrase := passphrase, wordlist := wl } := by
  refine ⟨fun words wl hn => ?_, fun mnemonic passphrase wl hn => ?_⟩
  · obtain ⟨h1, h2, h3⟩ := C102_newMnemonic H n m hn w words wl
    unfold Ends
    generalize newMnemonic H w.rd words wl = g at h1 h2 h3
    rcases g with ⟨p, rd'⟩ | e | p
    · rw [h1 p rd' rfl]; rfl
    · rw [h2 e rfl]; rfl
    · obtain ⟨rd', h⟩ := h3 p rfl
      rw [h]; rfl
  · unfold Ends
    rw [C102_newSeedFromMnemonic H n m w mnemonic passphrase wl hn]; rfl

example (w : World) : Ends (newMnemonicBody realHashes) 300 1 w { words := 24, wordlist := some [] } :=
  (C103_mnemonic realHashes 300 0 w).1 _ _ (Nat.le_refl _)

end Btc
