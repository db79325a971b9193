import Verif.Model.PrivateKey

/-!
# public_key.go
-/

namespace Btc

variable (H : Hashes) (E : Ecdsa)

/-- public_key.go:17-57 `PublicFromHex`. -/
def publicFromHex (hexa : GoString) (network : Option Network) : Res PublicKey := do
  let pre ← slice hexa 0 2
  if pre = asc "04" then
    let x ← slice hexa 2 66
    let y ← slice hexa 66 130
    .ok { X := bigSetString x 16, Y := bigSetString y 16, Network := network }
  else if pre = asc "03" ∨ pre = asc "02" then
    let x ← slice hexa 2 66
    let X := bigSetString x 16
    let (y, onCurve) ← E.getY secp256k1 X
    if !onCurve then .err .notOnSecp256k1               -- "point is not on secp256k1 curve"
    else
      let parity : Int := if pre = asc "02" then 0 else 1
      let yv ← deref y
      let yMod := yv % 2
      if yMod ≠ parity then
        let y' ← E.multMod secp256k1 y (-1)
        .ok { X := X, Y := y', Network := network }
      else
        .ok { X := X, Y := y, Network := network }
  else .err .unsupportedFormat                          -- "unsupported public key format"

/-- public_key.go:60-73 `GetPublicKey`; the Go result `(nil, false)` is `none`. -/
def getPublicKey (p : PrivateKey) : Res (Option PublicKey) := do
  let (R, valid) ← E.scalarMult secp256k1 p.Key secp256k1.G
  if !valid then .ok none
  else .ok (some { X := R.X, Y := R.Y, Network := p.Network })

/-- public_key.go:76-105 `Format`. The only crash is `p.Y.Bit(0)` on a nil `Y`. -/
def format (p : PublicKey) (compressed : Bool) : Res GoString :=
  let pXHex := padZeros 64 (bigIntToHex p.X)
  let pYHex := padZeros 64 (bigIntToHex p.Y)
  if !compressed then .ok (asc "04" ++ pXHex ++ pYHex)
  else do
    let y ← deref p.Y
    if y % 2 = 0 then .ok (asc "02" ++ pXHex) else .ok (asc "03" ++ pXHex)

/-- public_key.go:108-165 `Address`. -/
def address (p : PublicKey) (compressed : Bool) : Res GoString := do
  let hexa ← format p compressed
  let bytes ← hexDecode hexa
  let hash := H.sha256 bytes
  let ripemdHash := H.ripemd160 hash
  let hexa := hexEncode ripemdHash
  let net ← deref p.Network
  let extendedRipemd := net.PubKeyHashPrefix ++ hexa
  let bytes ← hexDecode extendedRipemd
  let hash := H.sha256 bytes
  let hash := H.sha256 hash
  let hexa := hexEncode hash
  let checksum ← slice hexa 0 8
  let extendedRipemd := extendedRipemd ++ checksum
  let bytes ← hexDecode extendedRipemd
  .ok (base58Encode bytes)

/-- public_key.go:168-194 `AddPublicKeys` (the argument `compressed` is not used by the code). -/
def addPublicKeys (p1 p2 : PublicKey) (_compressed : Bool) : Res PublicKey :=
  if p1.Network ≠ p2.Network then .err .differentNetwork    -- "different network"
  else do
    let (r, onCurve) ← E.addPoints secp256k1 ⟨p1.X, p1.Y⟩ ⟨p2.X, p2.Y⟩
    if !onCurve then .err .notOnCurve                    -- "point is not on curve"
    else .ok { X := r.X, Y := r.Y, Network := p1.Network }

end Btc
