import Verif.Source.Exec

/-!
# The program and its functions
-/

namespace Btc.Source

/-- All declarations of struct.go, btc.go, util.go, private_key.go, public_key.go and mnemonic.go. -/
def program : List Decl := structDecls ++ btcDecls ++ utilDecls ++ privateKeyDecls ++ publicKeyDecls ++ mnemonicDecls

/-- btc.go:15-37 `init`, as parsed. -/
def fInit : Func := value_of% (findFunc 0 (id! "init") program).getD default

theorem find_init : findFunc 0 (id! "init") program = some fInit := by decide +kernel

/-- util.go:9-17 `generateRandomBigInt`, as parsed. -/
def fGenerateRandomBigInt : Func := value_of% (findFunc 0 (id! "generateRandomBigInt") program).getD default

theorem find_generateRandomBigInt : findFunc 0 (id! "generateRandomBigInt") program = some fGenerateRandomBigInt := by decide +kernel

/-- util.go:19-21 `bigIntToHex`, as parsed. -/
def fBigIntToHex : Func := value_of% (findFunc 0 (id! "bigIntToHex") program).getD default

theorem find_bigIntToHex : findFunc 0 (id! "bigIntToHex") program = some fBigIntToHex := by decide +kernel

/-- private_key.go:15-41 `CheckWIF`, as parsed. -/
def fCheckWIF : Func := value_of% (findFunc 0 (id! "CheckWIF") program).getD default

theorem find_CheckWIF : findFunc 0 (id! "CheckWIF") program = some fCheckWIF := by decide +kernel

/-- private_key.go:44-68 `PrivateFromWIF`, as parsed. -/
def fPrivateFromWIF : Func := value_of% (findFunc 0 (id! "PrivateFromWIF") program).getD default

theorem find_PrivateFromWIF : findFunc 0 (id! "PrivateFromWIF") program = some fPrivateFromWIF := by decide +kernel

/-- private_key.go:71-114 `PrivateFromHex`, as parsed. -/
def fPrivateFromHex : Func := value_of% (findFunc 0 (id! "PrivateFromHex") program).getD default

theorem find_PrivateFromHex : findFunc 0 (id! "PrivateFromHex") program = some fPrivateFromHex := by decide +kernel

/-- private_key.go:117-133 `GeneratePrivateKey`, as parsed. -/
def fGeneratePrivateKey : Func := value_of% (findFunc 0 (id! "GeneratePrivateKey") program).getD default

theorem find_GeneratePrivateKey : findFunc 0 (id! "GeneratePrivateKey") program = some fGeneratePrivateKey := by decide +kernel

/-- private_key.go:136-154 `AddPrivateKeys`, as parsed. -/
def fAddPrivateKeys : Func := value_of% (findFunc 0 (id! "AddPrivateKeys") program).getD default

theorem find_AddPrivateKeys : findFunc 0 (id! "AddPrivateKeys") program = some fAddPrivateKeys := by decide +kernel

/-- private_key.go:157-175 `MultiplyPrivateKeys`, as parsed. -/
def fMultiplyPrivateKeys : Func := value_of% (findFunc 0 (id! "MultiplyPrivateKeys") program).getD default

theorem find_MultiplyPrivateKeys : findFunc 0 (id! "MultiplyPrivateKeys") program = some fMultiplyPrivateKeys := by decide +kernel

/-- public_key.go:17-57 `PublicFromHex`, as parsed. -/
def fPublicFromHex : Func := value_of% (findFunc 0 (id! "PublicFromHex") program).getD default

theorem find_PublicFromHex : findFunc 0 (id! "PublicFromHex") program = some fPublicFromHex := by decide +kernel

/-- public_key.go:60-73 `GetPublicKey`, as parsed. -/
def fGetPublicKey : Func := value_of% (findFunc (id! "PrivateKey") (id! "GetPublicKey") program).getD default

theorem find_GetPublicKey : findFunc (id! "PrivateKey") (id! "GetPublicKey") program = some fGetPublicKey := by decide +kernel

/-- public_key.go:76-105 `Format`, as parsed. -/
def fFormat : Func := value_of% (findFunc (id! "PublicKey") (id! "Format") program).getD default

theorem find_Format : findFunc (id! "PublicKey") (id! "Format") program = some fFormat := by decide +kernel

/-- public_key.go:108-165 `Address`, as parsed. -/
def fAddress : Func := value_of% (findFunc (id! "PublicKey") (id! "Address") program).getD default

theorem find_Address : findFunc (id! "PublicKey") (id! "Address") program = some fAddress := by decide +kernel

/-- public_key.go:168-194 `AddPublicKeys`, as parsed. -/
def fAddPublicKeys : Func := value_of% (findFunc 0 (id! "AddPublicKeys") program).getD default

theorem find_AddPublicKeys : findFunc 0 (id! "AddPublicKeys") program = some fAddPublicKeys := by decide +kernel

/-- mnemonic.go:15-74 `NewSeedFromMnemonic`, as parsed. -/
def fNewSeedFromMnemonic : Func := value_of% (findFunc 0 (id! "NewSeedFromMnemonic") program).getD default

theorem find_NewSeedFromMnemonic : findFunc 0 (id! "NewSeedFromMnemonic") program = some fNewSeedFromMnemonic := by decide +kernel

/-- mnemonic.go:77-147 `NewMnemonic`, as parsed. -/
def fNewMnemonic : Func := value_of% (findFunc 0 (id! "NewMnemonic") program).getD default

theorem find_NewMnemonic : findFunc 0 (id! "NewMnemonic") program = some fNewMnemonic := by decide +kernel

end Btc.Source
