import Verif.Go.Num
import Verif.Go.Base58
import Verif.Go.Strings
import Verif.Go.Rand
import Verif.Crypto.Hashes

/-!
# struct.go, btc.go, util.go
-/

namespace Btc

/-- struct.go:8-11 `Network`. -/
structure Network where
  PrivKeyPrefix : GoString
  PubKeyHashPrefix : GoString
  deriving DecidableEq, Repr

/-- struct.go:14-20 `PrivateKey`. `Key` and `Network` are pointers in Go: `none` is nil.
Simplification: pointers are replaced by the values they point to (aliasing is treated in `Verif/Heap`). -/
structure PrivateKey where
  Key : Option Int
  Hex : GoString
  WIF : GoString
  Network : Option Network
  deriving DecidableEq, Repr

/-- struct.go:23-28 `PublicKey`. -/
structure PublicKey where
  X : Option Int
  Y : Option Int
  Network : Option Network
  deriving DecidableEq, Repr

/-- `ecdsa.Point` (dependency). -/
structure Point where
  X : Option Int
  Y : Option Int
  deriving DecidableEq, Repr

/-- `ecdsa.Curve` (dependency): the fields set by btc.go:18-26. -/
structure Curve where
  A : Option Int
  B : Option Int
  G : Point
  P : Option Int
  N : Option Int
  H : Option Int
  deriving DecidableEq, Repr

/-- The methods of `ecdsa.Curve` that the code calls. The package `github.com/aureleoules/ecdsa` is not in
`/repo`; what is assumed of it is `EcdsaContract` (`Verif/Spec/Curve.lean`), never more. -/
structure Ecdsa where
  /-- `GetY(x) (*big.Int, bool)` -/
  getY : Curve → Option Int → Res (Option Int × Bool)
  /-- `MultMod(a, b) *big.Int` -/
  multMod : Curve → Option Int → Int → Res (Option Int)
  /-- `ScalarMult(k, P) (Point, bool)` -/
  scalarMult : Curve → Option Int → Point → Res (Point × Bool)
  /-- `AddPoints(P, Q) (Point, bool)` -/
  addPoints : Curve → Point → Point → Res (Point × Bool)

/-- btc.go:9,17-26: the package variable `secp256k1` after `init`. -/
def secp256k1 : Curve where
  A := bigSetString (asc "0000000000000000000000000000000000000000000000000000000000000000") 16
  B := bigSetString (asc "0000000000000000000000000000000000000000000000000000000000000007") 16
  G :=
    { X := bigSetString (asc "79BE667EF9DCBBAC55A06295CE870B07029BFCDB2DCE28D959F2815B16F81798") 16
      Y := bigSetString (asc "483ADA7726A3C4655DA4FBFC0E1108A8FD17B448A68554199C47D08FFB10D4B8") 16 }
  P := bigSetString (asc "FFFFFFFFFFFFFFFFFFFFFFFFFFFFFFFFFFFFFFFFFFFFFFFFFFFFFFFEFFFFFC2F") 16
  N := bigSetString (asc "FFFFFFFFFFFFFFFFFFFFFFFFFFFFFFFEBAAEDCE6AF48A03BBFD25E8CD0364141") 16
  H := bigSetString (asc "0000000000000000000000000000000000000000000000000000000000000001") 16

/-- btc.go:28-31 `MainNetwork`. -/
def MainNetwork : Network where
  PrivKeyPrefix := asc "80"
  PubKeyHashPrefix := asc "00"

/-- btc.go:33-36 `TestNetwork`. -/
def TestNetwork : Network where
  PrivKeyPrefix := asc "EF"
  PubKeyHashPrefix := asc "6F"

/-- util.go:9-17 `generateRandomBigInt`: `rand.Int` below the literal bound; a read error panics. -/
def generateRandomBigInt (rd : Reader) : Res (Nat × Reader) := do
  let max ← deref (bigSetString (asc "FFFFFFFFFFFFFFFFFFFFFFFFFFFFFFFEBAAEDCE6AF48A03BBFD25E8CD0364140") 16)
  match randInt rd max.toNat with
  | .ok r => .ok r
  | .err e => .panic (.explicit e)
  | .panic p => .panic p

/-- util.go:19-21 `bigIntToHex`. -/
def bigIntToHex (n : Option Int) : GoString := fmtBig 16 n

end Btc
