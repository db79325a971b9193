import Verif.Crypto.Ripemd160
import Verif.Go.Strings

/-!
# The library functions the model has as parameters: hash functions, and lower case outside ASCII
-/

namespace Btc

/-- `crypto/sha256` (`sha256.New(); Write; Sum(nil)`) and `x/crypto/ripemd160`: any functions with 32- and
20-byte output. `lower` is what `strings.ToLower` does to texts with a byte outside ASCII; it depends on the Unicode
tables of the Go version, and nothing is assumed of it. -/
structure Hashes where
  sha256 : Bytes → Bytes
  ripemd160 : Bytes → Bytes
  lower : GoString → GoString
  sha_len : ∀ m, (sha256 m).length = 32
  rip_len : ∀ m, (ripemd160 m).length = 20

/-- `strings.ToLower` (private_key.go:142, 163): byte by byte for ASCII texts, as Go does. -/
def Hashes.toLower (H : Hashes) (s : GoString) : GoString :=
  if s.all (· < 128) then asciiLower s else H.lower s

/-- The real hash functions. Outside ASCII, lower case is only a stand-in (the text itself). -/
def realHashes : Hashes where
  sha256 := Sha256.sha256
  ripemd160 := Ripemd160.ripemd160
  lower := id
  sha_len := Sha256.length_sha256
  rip_len := Ripemd160.length_ripemd160

end Btc
