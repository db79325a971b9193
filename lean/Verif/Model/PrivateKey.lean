import Verif.Model.Types

/-!
# private_key.go
-/

namespace Btc

variable (H : Hashes)

/-- private_key.go:15-41 `CheckWIF`. (`hex.DecodeString` on line 25 re-reads the text written by
`hex.EncodeToString`; its error branch returns `false`.) -/
def checkWIF (wif : GoString) : Res Bool :=
  match base58Decode wif with
  | .err _ => .ok false
  | .panic p => .panic p
  | .ok bytes => do
    let hexa := hexEncode bytes
    let checksum ← slice hexa ((hexa.length : Int) - 8) hexa.length
    let hexa ← slice hexa 0 ((hexa.length : Int) - 8)
    match hexDecode hexa with
    | .err _ => .ok false
    | .panic p => .panic p
    | .ok hexBytes => do
      let hash := H.sha256 hexBytes
      let hash2 := H.sha256 hash
      let hash2Hex := hexEncode hash2
      let head ← slice hash2Hex 0 8
      .ok (decide (head = checksum))

/-- private_key.go:44-68 `PrivateFromWIF`. -/
def privateFromWIF (wif : GoString) (network : Option Network) : Res PrivateKey := do
  let valid ← checkWIF H wif
  if !valid then .err .wifInvalid                        -- "wif invalid"
  else
    let bytes ← base58Decode wif
    let hexa := hexEncode bytes
    let hexa ← slice hexa 2 hexa.length
    let hexa ← slice hexa 0 ((hexa.length : Int) - 8)
    .ok { WIF := wif, Hex := hexa, Key := bigSetString hexa 16, Network := network }

/-- private_key.go:71-114 `PrivateFromHex`. -/
def privateFromHex (hexa : GoString) (network : Option Network) : Res PrivateKey := do
  let key := bigSetString hexa 16
  let net ← deref network
  let hexaP := net.PrivKeyPrefix ++ hexa
  let hexaB ← hexDecode hexaP
  let hash := H.sha256 hexaB
  let doubleHashHex := H.sha256 hash
  let checksum ← slice (hexEncode doubleHashHex) 0 8
  let hexaPC := hexaP ++ checksum
  let hexaB2 ← hexDecode hexaPC
  let wif := base58Encode hexaB2
  .ok { Key := key, Hex := hexa, WIF := wif, Network := network }

/-- private_key.go:117-133 `GeneratePrivateKey`, recursion made explicit with fuel; every attempt consumes
random bytes. `draw` is `generateRandomBigInt` (a parameter only so that Lean can unfold the loop). -/
def generateLoop (draw : Reader → Res (Nat × Reader)) (network : Option Network) :
    Nat → Reader → Res (PrivateKey × Reader)
  | 0, _ => .panic .outOfFuel
  | fuel + 1, rd =>
    match draw rd with
    | .err e => .err e
    | .panic p => .panic p
    | .ok (key, rd') =>
      let hexa := bigIntToHex (some (key : Int))
      if hexa.length ≠ 64 then generateLoop draw network fuel rd'
      else
        match privateFromHex H hexa network with
        | .err _ => generateLoop draw network fuel rd'
        | .panic p => .panic p
        | .ok privateKey => .ok ({ privateKey with Key := some (key : Int) }, rd')

/-- private_key.go:117-133 `GeneratePrivateKey`; also returns the unread part of the random source. -/
def generatePrivateKey (rd : Reader) (network : Option Network) : Res (PrivateKey × Reader) :=
  generateLoop H generateRandomBigInt network (rd.length + 1) rd

/-- private_key.go:136-154 `AddPrivateKeys`. `reflect.DeepEqual` on the two network pointers compares the
structs pointed to (nil only equals nil). -/
def addPrivateKeys (p1 p2 : PrivateKey) : Res PrivateKey :=
  if p1.Network ≠ p2.Network then .err .differentNetwork       -- "different network"
  else if H.toLower p1.WIF = H.toLower p2.WIF then .err .identicalKeys  -- "private keys are identical"
  else do
    let k1 ← deref p1.Key
    let k2 ← deref p2.Key
    let n ← deref secp256k1.N
    let pKey := (k1 + k2) % n
    let hexa := bigIntToHex (some pKey)
    privateFromHex H hexa p1.Network

/-- private_key.go:157-175 `MultiplyPrivateKeys`. -/
def multiplyPrivateKeys (p1 p2 : PrivateKey) : Res PrivateKey :=
  if p1.Network ≠ p2.Network then .err .differentNetwork       -- "different network"
  else if H.toLower p1.WIF = H.toLower p2.WIF then .err .identicalKeys  -- "private keys are identical"
  else do
    let k1 ← deref p1.Key
    let k2 ← deref p2.Key
    let n ← deref secp256k1.N
    let pKey := (k1 * k2) % n
    let hexa := bigIntToHex (some pKey)
    privateFromHex H hexa p1.Network

end Btc
