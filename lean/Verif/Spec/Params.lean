/-!
# secp256k1 parameters, as published in SEC 2 version 2.0, section 2.4.1
-/

namespace Btc.Spec

/-- Field prime: 2^256 - 2^32 - 977. -/
def p : Nat := 2 ^ 256 - 2 ^ 32 - 977

/-- Order of the base point. -/
def n : Nat := 0xFFFFFFFFFFFFFFFFFFFFFFFFFFFFFFFEBAAEDCE6AF48A03BBFD25E8CD0364141

/-- x-coordinate of the base point. -/
def gx : Nat := 0x79BE667EF9DCBBAC55A06295CE870B07029BFCDB2DCE28D959F2815B16F81798

/-- y-coordinate of the base point. -/
def gy : Nat := 0x483ADA7726A3C4655DA4FBFC0E1108A8FD17B448A68554199C47D08FFB10D4B8

end Btc.Spec
