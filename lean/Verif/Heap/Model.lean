import Verif.Heap.Basic

/-!
# The functions of the repository, with pointers
-/

namespace Btc.Mem

variable (H : Hashes)

/-- The methods of `ecdsa.Curve` (external package) on the heap; the receiver is the package variable. -/
structure EcdsaM where
  getY : Ptr → HM (Ptr × Bool)
  multMod : Ptr → Ptr → HM Ptr
  scalarMult : Ptr → Ptr × Ptr → HM ((Ptr × Ptr) × Bool)
  addPoints : Ptr × Ptr → Ptr × Ptr → HM ((Ptr × Ptr) × Bool)

variable (E : EcdsaM)

/-- private_key.go:44-68 `PrivateFromWIF`. -/
def privateFromWIFM (wif : GoString) (network : Ptr) : HM Ptr := do
  let valid ← lift (checkWIF H wif)
  if !valid then lift (.err .wifInvalid)
  else
    let bytes ← lift (base58Decode wif)
    let hexa := hexEncode bytes
    let hexa ← lift (slice hexa 2 hexa.length)
    let hexa ← lift (slice hexa 0 ((hexa.length : Int) - 8))
    let p ← newPriv
    updPriv p fun o => { o with WIF := wif }
    updPriv p fun o => { o with Hex := hexa }
    let key ← newSetString hexa 16
    updPriv p fun o => { o with Key := key }
    updPriv p fun o => { o with Network := network }
    pure (some p)

/-- private_key.go:71-114 `PrivateFromHex`. -/
def privateFromHexM (hexa : GoString) (network : Ptr) : HM Ptr := do
  let p ← newPriv
  let key ← newSetString hexa 16
  updPriv p fun o => { o with Key := key }
  updPriv p fun o => { o with Hex := hexa }
  let net ← readNet network
  let hexaP := net.PrivKeyPrefix ++ hexa
  let hexaB ← lift (hexDecode hexaP)
  let hash := H.sha256 hexaB
  let doubleHashHex := H.sha256 hash
  let checksum ← lift (slice (hexEncode doubleHashHex) 0 8)
  let hexaPC := hexaP ++ checksum
  let hexaB2 ← lift (hexDecode hexaPC)
  let wif := base58Encode hexaB2
  updPriv p fun o => { o with WIF := wif }
  updPriv p fun o => { o with Network := network }
  pure (some p)

/-- util.go:9-17 `generateRandomBigInt`: the bound and the drawn number are allocated. -/
def generateRandomBigIntM (draw : Reader → Res (Nat × Reader)) (rd : Reader) : HM (Ptr × Reader) := do
  let _max ← newSetString (asc "FFFFFFFFFFFFFFFFFFFFFFFFFFFFFFFEBAAEDCE6AF48A03BBFD25E8CD0364140") 16
  let r ← lift (draw rd)
  let z ← newInt r.1
  pure (z, r.2)

/-- private_key.go:117-133 `GeneratePrivateKey`, with fuel as in the pure model. An error of `PrivateFromHex` leads
to a retry. -/
def generateLoopM (draw : Reader → Res (Nat × Reader)) (network : Ptr) : Nat → Reader → HM (Ptr × Reader)
  | 0, _ => lift (.panic .outOfFuel)
  | fuel + 1, rd => do
    let (key, rd') ← generateRandomBigIntM draw rd
    let hexa ← bigIntToHexM key
    if hexa.length ≠ 64 then generateLoopM draw network fuel rd'
    else
      onErr (privateFromHexM H hexa network) (generateLoopM draw network fuel rd') fun q =>
        match q with
        | none => lift (.panic .nilDeref)
        | some p => do
          updPriv p fun o => { o with Key := key }
          pure (some p, rd')

/-- private_key.go:117-133 `GeneratePrivateKey`. -/
def generatePrivateKeyM (rd : Reader) (network : Ptr) : HM (Ptr × Reader) :=
  generateLoopM H generateRandomBigInt network (rd.length + 1) rd

/-- private_key.go:136-154 `AddPrivateKeys`. -/
def addPrivateKeysM (p1 p2 : Ptr) : HM Ptr := do
  let o1 ← readPriv p1
  let o2 ← readPriv p2
  let n1 ← deepNet o1.Network
  let n2 ← deepNet o2.Network
  if n1 ≠ n2 then lift (.err .differentNetwork)
  else if H.toLower o1.WIF = H.toLower o2.WIF then lift (.err .identicalKeys)
  else
    let pKey ← newInt 0
    let pKey ← bigAdd pKey o1.Key o2.Key
    let curve ← readCurve
    let pKey ← bigMod pKey pKey curve.N
    let hexa ← bigIntToHexM pKey
    privateFromHexM H hexa o1.Network

/-- private_key.go:157-175 `MultiplyPrivateKeys`. -/
def multiplyPrivateKeysM (p1 p2 : Ptr) : HM Ptr := do
  let o1 ← readPriv p1
  let o2 ← readPriv p2
  let n1 ← deepNet o1.Network
  let n2 ← deepNet o2.Network
  if n1 ≠ n2 then lift (.err .differentNetwork)
  else if H.toLower o1.WIF = H.toLower o2.WIF then lift (.err .identicalKeys)
  else
    let pKey ← newInt 0
    let pKey ← bigMul pKey o1.Key o2.Key
    let curve ← readCurve
    let pKey ← bigMod pKey pKey curve.N
    let hexa ← bigIntToHexM pKey
    privateFromHexM H hexa o1.Network

/-- public_key.go:17-57 `PublicFromHex`. -/
def publicFromHexM (hexa : GoString) (network : Ptr) : HM Ptr := do
  let p ← newPub
  updPub p fun o => { o with Network := network }
  let pre ← lift (slice hexa 0 2)
  if pre = asc "04" then
    let x ← lift (slice hexa 2 66)
    let y ← lift (slice hexa 66 130)
    let X ← newSetString x 16
    updPub p fun o => { o with X := X }
    let Y ← newSetString y 16
    updPub p fun o => { o with Y := Y }
    pure (some p)
  else if pre = asc "03" ∨ pre = asc "02" then
    let x ← lift (slice hexa 2 66)
    let X ← newSetString x 16
    updPub p fun o => { o with X := X }
    let (y, onCurve) ← E.getY X
    if !onCurve then lift (.err .notOnSecp256k1)
    else
      let parity ← newInt 0
      writeInt parity (if pre = asc "02" then 0 else 1)
      let yMod ← newInt 0
      let yMod ← bigSet yMod y
      let two ← newInt 2
      let yMod ← bigMod yMod y two
      let m ← readInt yMod
      let par ← readInt parity
      if m ≠ par then
        let minusOne ← newInt (-1)
        let y' ← E.multMod y minusOne
        updPub p fun o => { o with Y := y' }
        pure (some p)
      else
        updPub p fun o => { o with Y := y }
        pure (some p)
  else lift (.err .unsupportedFormat)

/-- public_key.go:60-73 `GetPublicKey`; the Go result `(nil, false)` is the nil pointer. -/
def getPublicKeyM (p : Ptr) : HM Ptr := do
  let k ← newPub
  let o ← readPriv p
  let c ← readCurve
  let ((x, y), valid) ← E.scalarMult o.Key (c.GX, c.GY)
  if !valid then pure none
  else
    updPub k fun q => { q with X := x }
    updPub k fun q => { q with Y := y }
    updPub k fun q => { q with Network := o.Network }
    pure (some k)

/-- public_key.go:168-194 `AddPublicKeys`. -/
def addPublicKeysM (p1 p2 : Ptr) (_compressed : Bool) : HM Ptr := do
  let o1 ← readPub p1
  let o2 ← readPub p2
  let n1 ← deepNet o1.Network
  let n2 ← deepNet o2.Network
  if n1 ≠ n2 then lift (.err .differentNetwork)
  else
    let ((x, y), onCurve) ← E.addPoints (o1.X, o1.Y) (o2.X, o2.Y)
    if !onCurve then lift (.err .notOnCurve)
    else
      let k ← newPub
      updPub k fun q => { q with X := x, Y := y, Network := o1.Network }
      pure (some k)

/-- The value of a private key object: every pointer replaced by what it points to. -/
def privValue (h : Heap) (o : PrivObj) : PrivateKey :=
  { Key := loadInt h o.Key, Hex := o.Hex, WIF := o.WIF, Network := loadNet h o.Network }

/-- The value of a public key object. -/
def pubValue (h : Heap) (o : PubObj) : PublicKey :=
  { X := loadInt h o.X, Y := loadInt h o.Y, Network := loadNet h o.Network }

/-- public_key.go:76-105 `Format`. -/
def formatM (p : Ptr) (compressed : Bool) : HM GoString := do
  let o ← readPub p
  let pXHex ← bigIntToHexM o.X
  let pYHex ← bigIntToHexM o.Y
  let pXHex := padZeros 64 pXHex
  let pYHex := padZeros 64 pYHex
  if !compressed then lift (.ok (asc "04" ++ pXHex ++ pYHex))
  else
    let y ← readInt o.Y
    if y % 2 = 0 then lift (.ok (asc "02" ++ pXHex)) else lift (.ok (asc "03" ++ pXHex))

/-- public_key.go:108-165 `Address`. -/
def addressM (p : Ptr) (compressed : Bool) : HM GoString := do
  let hexa ← formatM p compressed
  let bytes ← lift (hexDecode hexa)
  let hash := H.sha256 bytes
  let ripemdHash := H.ripemd160 hash
  let hexa := hexEncode ripemdHash
  let o ← readPub p
  let net ← readNet o.Network
  let extendedRipemd := net.PubKeyHashPrefix ++ hexa
  let bytes ← lift (hexDecode extendedRipemd)
  let hash := H.sha256 bytes
  let hash := H.sha256 hash
  let hexa := hexEncode hash
  let checksum ← lift (slice hexa 0 8)
  let extendedRipemd := extendedRipemd ++ checksum
  let bytes ← lift (hexDecode extendedRipemd)
  lift (.ok (base58Encode bytes))

/-- The value of the package variable. -/
def curveValue (h : Heap) : Curve where
  A := loadInt h h.curve.A
  B := loadInt h h.curve.B
  G := ⟨loadInt h h.curve.GX, loadInt h h.curve.GY⟩
  P := loadInt h h.curve.P
  N := loadInt h h.curve.N
  H := loadInt h h.curve.H

end Btc.Mem
