import Verif.Model.PrivateKey

/-!
# Concrete data used beside the theorems (taken from the tests in `/repo`)

All evaluated by the kernel with the executable SHA-256.
-/

namespace Btc.Samples

/-- private_key_test.go:50, hexadecimal text. -/
def hexA : GoString := asc "8613DFD6C099751DCC4020EF6F9BCD3C00F4565A15B26979B4B93C045D0A5CEB"

/-- private_key_test.go:50, WIF. -/
def wifA : GoString := asc "5JqLR1PX9UWPkiPus9ontEPXo4KitgoiYCkHaFoDh5hJdDJJmcK"

/-- The corresponding key. -/
def keyA : PrivateKey where
  Key := some 0x8613DFD6C099751DCC4020EF6F9BCD3C00F4565A15B26979B4B93C045D0A5CEB
  Hex := hexA
  WIF := wifA
  Network := some MainNetwork

/-- private_key_test.go:51. -/
def hexB : GoString := asc "aef29c9770a9f6b9da86e37fc12a334eeffb02f967a55ba125deb77736ee3fc1"

/-- private_key_test.go:51. -/
def wifB : GoString := asc "5K9LPKv2VsbmAMhcEiNQnU2bTiNavtap1Ex6EMN1MFkTRZHi26E"

/-- The corresponding key. -/
def keyB : PrivateKey where
  Key := some 0xaef29c9770a9f6b9da86e37fc12a334eeffb02f967a55ba125deb77736ee3fc1
  Hex := hexB
  WIF := wifB
  Network := some MainNetwork

/-- private_key_test.go:58 (test network). -/
def hexT : GoString := asc "bc18f76841a483825323c48a26830734f0b496f89de498f7d4b47b15231eb482"

/-- private_key_test.go:58 (test network). -/
def wifT : GoString := asc "931krx7yFnVSoHb1JxeN1W2rrhWARbNfiK3BA3xVZZrfgALvkMy"

/-- The corresponding key. -/
def keyT : PrivateKey where
  Key := some 0xbc18f76841a483825323c48a26830734f0b496f89de498f7d4b47b15231eb482
  Hex := hexT
  WIF := wifT
  Network := some TestNetwork

theorem fromHexA : privateFromHex realHashes hexA (some MainNetwork) = .ok keyA := by decide +kernel
theorem fromHexB : privateFromHex realHashes hexB (some MainNetwork) = .ok keyB := by decide +kernel
theorem fromHexT : privateFromHex realHashes hexT (some TestNetwork) = .ok keyT := by decide +kernel
theorem fromWifB : privateFromWIF realHashes wifB (some MainNetwork) = .ok keyB := by decide +kernel
theorem checkA : checkWIF realHashes wifA = .ok true := by decide +kernel
theorem checkB : checkWIF realHashes wifB = .ok true := by decide +kernel

/-- private_key_test.go:118: a WIF with its last character missing. -/
theorem checkBad : checkWIF realHashes (asc "5JE6ctXTzE8JK5Qaw1FUtR9kNiYsyBicuwdR2jn982sfn9BL2K") = .ok false := by
  decide +kernel

end Btc.Samples
