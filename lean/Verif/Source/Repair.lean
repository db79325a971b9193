import Verif.Source.Program

/-!
# A repaired text

Eleven functions of the repository with the lines changed that are at fault where a property is violated. The texts are
not in /repo: each is the text of the function there with the changes marked `// changed` (the line, or the block of
lines it begins, is new or was different). They are parsed and run as the files of /repo are.
-/

namespace Btc.Source

/-- util.go:9-17, private_key.go:15-175, with changes. -/
def repairKeysGo : String := r#"package btc

func generateRandomBigInt() *big.Int {
	max, _ := new(big.Int).SetString("FFFFFFFFFFFFFFFFFFFFFFFFFFFFFFFEBAAEDCE6AF48A03BBFD25E8CD0364141", 16) // changed

	nBig, err := rand.Int(rand.Reader, max)
	if err != nil {
		panic(err)
	}
	return nBig
}

// CheckWIF checks if the wif checksum is valid
func CheckWIF(wif string) bool {
	bytes, err := base58.Decode(wif)
	if err != nil {
		return false
	}

	hexa := hex.EncodeToString(bytes)
	if len(hexa) < 8 { // changed
		return false
	}
	checksum := hexa[len(hexa)-8 : len(hexa)]
	hexa = hexa[0 : len(hexa)-8]

	hexBytes, err := hex.DecodeString(hexa)
	if err != nil {
		return false
	}

	sha := sha256.New()
	sha.Write(hexBytes)
	hash := sha.Sum(nil)

	sha = sha256.New()
	sha.Write(hash)
	hash2 := sha.Sum(nil)

	hash2Hex := hex.EncodeToString(hash2)

	return hash2Hex[0:8] == checksum
}

// PrivateFromWIF imports a private key from its base58 address
func PrivateFromWIF(wif string, network *Network) (*PrivateKey, error) {
	if network == nil { // changed
		return nil, errors.New("different network")
	}

	valid := CheckWIF(wif)
	if !valid {
		return nil, errors.New("wif invalid")
	}

	bytes, err := base58.Decode(wif)
	if err != nil {
		return nil, err
	}

	hexa := hex.EncodeToString(bytes)

	prefixBytes, err := hex.DecodeString(network.PrivKeyPrefix) // changed
	if err != nil {
		return nil, err
	}
	prefix := hex.EncodeToString(prefixBytes)
	hexa = hexa[0 : len(hexa)-8]
	if len(hexa) == len(prefix)+66 { // changed: the mark of a compressed key
		if hexa[len(prefix)+64:len(hexa)] != "01" {
			return nil, errors.New("wif invalid")
		}
		hexa = hexa[0 : len(prefix)+64]
	}
	if len(hexa) != len(prefix)+64 { // changed
		return nil, errors.New("wif invalid")
	}
	if hexa[0:len(prefix)] != prefix { // changed
		return nil, errors.New("different network")
	}
	hexa = hexa[len(prefix):len(hexa)] // changed

	var privateKey PrivateKey
	privateKey.WIF = wif
	privateKey.Hex = hexa
	privateKey.Key, _ = new(big.Int).SetString(hexa, 16)
	privateKey.Network = network
	if privateKey.Key.Cmp(big.NewInt(1)) == -1 || privateKey.Key.Cmp(secp256k1.N) != -1 { // changed
		return nil, errors.New("wif invalid")
	}

	return &privateKey, nil
}

// PrivateFromHex imports a private key from its hex value
func PrivateFromHex(hexa string, network *Network) (*PrivateKey, error) {
	if network == nil { // changed
		return nil, errors.New("different network")
	}

	var p PrivateKey
	p.Key, _ = new(big.Int).SetString(hexa, 16)
	p.Hex = hexa
	if len(hexa) != 64 || p.Key == nil || p.Key.Cmp(big.NewInt(1)) == -1 || p.Key.Cmp(secp256k1.N) != -1 { // changed
		return nil, errors.New("wif invalid")
	}
	/* Add network byte to the hex value */
	hexa = network.PrivKeyPrefix + hexa
	/* Convert to []byte */
	hexaB, err := hex.DecodeString(hexa)
	if err != nil {
		/* Retry */
		return nil, err
	}
	/* Compute first hash */
	sha := sha256.New()

	sha.Write(hexaB)
	hash := sha.Sum(nil)

	/* Compute double hash */
	sha = sha256.New()
	sha.Write(hash)
	doubleHashHex := sha.Sum(nil)

	/* Convert to hex */
	checksum := hex.EncodeToString(doubleHashHex)
	/* Only take the first 4 bytes */
	checksum = checksum[0:8]

	/* Concat checksum to hexa */
	hexa += checksum

	hexaB, err = hex.DecodeString(hexa)
	if err != nil {
		/* Retry */
		return nil, err
	}

	wif := base58.Encode(hexaB)

	p.WIF = wif
	p.Network = network
	return &p, nil
}

// GeneratePrivateKey returns a PrivateKey
func GeneratePrivateKey(network *Network) *PrivateKey {
	if network == nil { // changed
		return nil
	}
	_, err := hex.DecodeString(network.PrivKeyPrefix) // changed: no key has such a prefix
	if err != nil {
		return nil
	}

	/* Generate a number between 1 and 2^256 */
	key := generateRandomBigInt()

	hexa := bigIntToHex(key)
	for len(hexa) < 64 { // changed
		hexa = "0" + hexa
	}
	privateKey, err := PrivateFromHex(hexa, network)
	if err != nil {
		return GeneratePrivateKey(network)
	}
	privateKey.Key = key

	return privateKey
}

// AddPrivateKeys merge two private keys together by addition
func AddPrivateKeys(p1 *PrivateKey, p2 *PrivateKey) (*PrivateKey, error) {

	if !reflect.DeepEqual(p1.Network, p2.Network) {
		return nil, errors.New("different network")
	}

	if p1.WIF == p2.WIF { // changed
		return nil, errors.New("private keys are identical")
	}

	pKey := new(big.Int)
	pKey = pKey.Add(p1.Key, p2.Key)
	pKey = pKey.Mod(pKey, secp256k1.N)

	hexa := bigIntToHex(pKey)
	for len(hexa) < 64 { // changed
		hexa = "0" + hexa
	}

	privateKey, err := PrivateFromHex(hexa, p1.Network)
	return privateKey, err
}

// MultiplyPrivateKeys merge two private keys together by multiplication
func MultiplyPrivateKeys(p1 *PrivateKey, p2 *PrivateKey) (*PrivateKey, error) {

	if !reflect.DeepEqual(p1.Network, p2.Network) {
		return nil, errors.New("different network")
	}

	if p1.WIF == p2.WIF { // changed
		return nil, errors.New("private keys are identical")
	}

	pKey := new(big.Int)
	pKey = pKey.Mul(p1.Key, p2.Key)
	pKey = pKey.Mod(pKey, secp256k1.N)

	hexa := bigIntToHex(pKey)
	for len(hexa) < 64 { // changed
		hexa = "0" + hexa
	}

	privateKey, err := PrivateFromHex(hexa, p1.Network)
	return privateKey, err
}
"#

/-- The characters of the repaired functions for private keys. -/
def repairKeysChars : List Char := chars_of% repairKeysGo

set_option maxRecDepth 40000 in
theorem repairKeysGo_toList : repairKeysGo.toList = repairKeysChars := by
  have h : repairKeysGo = String.ofList repairKeysChars := rfl
  rw [h, String.toList_ofList]

/-- The repaired functions for private keys, as parsed. -/
def repairKeysDecls : List Decl := value_of% (parse repairKeysChars).getD []

theorem repairKeysGo_parse : parse repairKeysGo.toList = some repairKeysDecls := by
  rw [repairKeysGo_toList]
  decide +kernel

/-- mnemonic.go:15-147, with changes. -/
def repairPhraseGo : String := r#"package btc

// NewSeedFromMnemonic returns the hash of the mnemonic
func NewSeedFromMnemonic(mnemonic string, passphrase string, wordlist Wordlist) ([]byte, error) {
	if len(wordlist) != 2048 { // changed
		return nil, errors.New("invalid wordlist")
	}
	words := strings.Split(mnemonic, " ")
	binary := ""
	for _, word := range words {
		index := -1
		for i := range wordlist {
			if word == wordlist[i] {
				index = i
				break
			}
		}
		if index < 0 {
			return nil, errors.New("invalid mnemonic")
		}

		indexBinary := fmt.Sprintf("%b", index)
		for len(indexBinary) < 11 {
			indexBinary = "0" + indexBinary
		}

		binary += indexBinary
	}

	supported := len(words) == 12 || len(words) == 15 || len(words) == 18 || len(words) == 21 || len(words) == 24 // changed
	if !supported { // changed
		return nil, errors.New("unsupported mnemonic length")
	}

	checksumLength := len(binary) / 33 // changed: one bit of checksum for 32 of entropy
	entropyLength := len(binary) - checksumLength
	entropy, _ := new(big.Int).SetString(binary[0:entropyLength], 2) // changed: nothing is logged
	hash := bigIntToHex(entropy)
	hashLength := entropyLength / 4
	for len(hash) < hashLength {
		hash = "0" + hash
	}

	checksum := binary[entropyLength:len(binary)] // changed

	sha := sha256.New()
	decoded, err := hex.DecodeString(hash) // changed
	if err != nil {
		return nil, err
	}
	sha.Write(decoded)
	shaHash := sha.Sum(nil)

	shaHashBig := new(big.Int).SetBytes(shaHash)
	shaHashBinary := fmt.Sprintf("%b", shaHashBig) // changed: bits in place of digits

	for len(shaHashBinary) < 256 {
		shaHashBinary = "0" + shaHashBinary
	}

	if shaHashBinary[0:checksumLength] != checksum {
		return nil, errors.New("invalid checksum")
	}

	return nil, nil
}

// NewMnemonic generates a new mnemonic phrase
func NewMnemonic(words int, wordlist Wordlist) (string, error) {

	if len(wordlist) != 2048 { // changed
		return "", errors.New("invalid wordlist")
	}

	var entropyLength int
	switch words {
	case 12:
		entropyLength = 128
		break
	case 15:
		entropyLength = 160
		break
	case 18:
		entropyLength = 192
		break
	case 21:
		entropyLength = 224
		break
	case 24:
		entropyLength = 256
		break
	default:
		return "", errors.New("unsupported mnemonic length")
	}

	/* Generate entropy */
	np256 := big.NewInt(2)
	np256.Exp(np256, big.NewInt(int64(entropyLength)), nil)
	entropy, err := rand.Int(rand.Reader, np256)
	if err != nil {
		return "", err
	}

	hexa := bigIntToHex(entropy) // changed: all bytes of the entropy, with those in front that are zero
	hexaLength := entropyLength / 4
	for len(hexa) < hexaLength {
		hexa = "0" + hexa
	}
	entropyBytes, err := hex.DecodeString(hexa)
	if err != nil {
		return "", err
	}
	sha := sha256.New()
	sha.Write(entropyBytes) // changed
	hash := sha.Sum(nil)

	checksumLength := entropyLength / 32

	hashInt := new(big.Int).SetBytes(hash)

	hashBinary := fmt.Sprintf("%b", hashInt)
	for len(hashBinary) < 256 { // changed
		hashBinary = "0" + hashBinary
	}
	checksumBinary := hashBinary[0:checksumLength]

	b := fmt.Sprintf("%b", entropy)

	for len(b) < entropyLength {
		b = "0" + b
	}

	b = b + checksumBinary

	var phrase []string
	for i := 0; i < len(b); i += 11 {
		n, _ := new(big.Int).SetString(b[i:i+11], 2) // changed
		phrase = append(phrase, wordlist[n.Int64()])
	}

	return strings.Join(phrase, " "), nil
}
"#

/-- The characters of the repaired functions for phrases. -/
def repairPhraseChars : List Char := chars_of% repairPhraseGo

set_option maxRecDepth 20000 in
theorem repairPhraseGo_toList : repairPhraseGo.toList = repairPhraseChars := by
  have h : repairPhraseGo = String.ofList repairPhraseChars := rfl
  rw [h, String.toList_ofList]

/-- The repaired functions for phrases, as parsed. -/
def repairPhraseDecls : List Decl := value_of% (parse repairPhraseChars).getD []

theorem repairPhraseGo_parse : parse repairPhraseGo.toList = some repairPhraseDecls := by
  rw [repairPhraseGo_toList]
  decide +kernel

/-- public_key.go:17-56 and 167-194, with changes. -/
def repairPubGo : String := r#"package btc

// PublicFromHex imports a public key from its hex value
func PublicFromHex(hexa string, network *Network) (*PublicKey, error) {
	if network == nil { // changed
		return nil, errors.New("different network")
	}
	_, err := hex.DecodeString(hexa) // changed
	if err != nil {
		return nil, err
	}
	if len(hexa) < 2 { // changed
		return nil, errors.New("unsupported public key format")
	}

	var publicKey PublicKey
	publicKey.Network = network

	prefix := hexa[0:2]

	if prefix == "04" {
		if len(hexa) != 130 { // changed
			return nil, errors.New("unsupported public key format")
		}

		/* Uncompressed */
		x := hexa[2:66]
		y := hexa[66:130]
		publicKey.X, _ = new(big.Int).SetString(x, 16)
		publicKey.Y, _ = new(big.Int).SetString(y, 16)

		left := new(big.Int).Mul(publicKey.Y, publicKey.Y) // changed: the equation of the curve
		left.Mod(left, secp256k1.P)
		right := new(big.Int).Mul(publicKey.X, publicKey.X)
		right.Mul(right, publicKey.X)
		right.Add(right, secp256k1.B)
		right.Mod(right, secp256k1.P)
		if publicKey.X.Cmp(secp256k1.P) != -1 || publicKey.Y.Cmp(secp256k1.P) != -1 || left.Cmp(right) != 0 {
			return nil, errors.New("point is not on secp256k1 curve")
		}

	} else if prefix == "03" || prefix == "02" {
		if len(hexa) != 66 { // changed
			return nil, errors.New("unsupported public key format")
		}

		x := hexa[2:66]
		publicKey.X, _ = new(big.Int).SetString(x, 16)
		if publicKey.X.Cmp(secp256k1.P) != -1 { // changed
			return nil, errors.New("point is not on secp256k1 curve")
		}

		y, onCurve := secp256k1.GetY(publicKey.X)
		if !onCurve {
			return nil, errors.New("point is not on secp256k1 curve")
		}

		parity := new(big.Int)
		if prefix == "02" {
			parity.SetInt64(0)
		} else {
			parity.SetInt64(1)
		}

		/* If parity is not wrong, use negative value mod secp256k1.N */
		yMod := new(big.Int).Set(y)
		if yMod.Mod(y, big.NewInt(2)).Cmp(parity) != 0 {
			y = secp256k1.MultMod(y, big.NewInt(-1))
		}

		publicKey.Y = y
	} else {
		return nil, errors.New("unsupported public key format")
	}
	return &publicKey, nil
}

// AddPublicKeys merge two public keys together by addition
func AddPublicKeys(p1 *PublicKey, p2 *PublicKey, compressed bool) (*PublicKey, error) {

	if !reflect.DeepEqual(p1.Network, p2.Network) {
		return nil, errors.New("different network")
	}

	if p1.X.Cmp(p2.X) == 0 { // changed
		return nil, errors.New("point is not on curve")
	}

	point1 := ecdsa.Point{
		X: p1.X,
		Y: p1.Y,
	}
	point2 := ecdsa.Point{
		X: p2.X,
		Y: p2.Y,
	}

	r, onCurve := secp256k1.AddPoints(point1, point2)
	if !onCurve {
		return nil, errors.New("point is not on curve")
	}
	publicKey := PublicKey{
		X:       r.X,
		Y:       r.Y,
		Network: p1.Network,
	}

	return &publicKey, nil
}
"#

/-- The characters of the repaired functions for public keys. -/
def repairPubChars : List Char := chars_of% repairPubGo

set_option maxRecDepth 20000 in
theorem repairPubGo_toList : repairPubGo.toList = repairPubChars := by
  have h : repairPubGo = String.ofList repairPubChars := rfl
  rw [h, String.toList_ofList]

/-- The repaired functions for public keys, as parsed. -/
def repairPubDecls : List Decl := value_of% (parse repairPubChars).getD []

theorem repairPubGo_parse : parse repairPubGo.toList = some repairPubDecls := by
  rw [repairPubGo_toList]
  decide +kernel

/-- The function of the same name and receiver in `ds`, or else `f` itself. -/
def newer (ds : List Decl) (d : Decl) : Decl :=
  match d with
  | .func f => .func ((findFunc f.recv f.name ds).getD f)
  | d => d

/-- The program with the repaired functions in place of those of the same name. -/
def repaired : List Decl := program.map (newer (repairKeysDecls ++ repairPhraseDecls ++ repairPubDecls))

/-- Nothing is added: each repaired function stands in the place of one of the repository, with the same parameters and
results. -/
theorem repaired_signatures : (repairKeysDecls ++ repairPhraseDecls ++ repairPubDecls).all (fun d =>
    match d with
    | .func f => (findFunc f.recv f.name program).any fun g => g.params = f.params ∧ g.results = f.results
    | _ => false) = true := by decide +kernel

/-- The repaired `generateRandomBigInt` (util.go:9-17, with changes). -/
def rGenerateRandomBigInt : Func := value_of% (findFunc 0 (id! "generateRandomBigInt") repairKeysDecls).getD default

theorem repaired_generateRandomBigInt : findFunc 0 (id! "generateRandomBigInt") repaired = some rGenerateRandomBigInt := by decide +kernel

/-- The repaired `CheckWIF` (private_key.go:15-41, with changes). -/
def rCheckWIF : Func := value_of% (findFunc 0 (id! "CheckWIF") repairKeysDecls).getD default

theorem repaired_CheckWIF : findFunc 0 (id! "CheckWIF") repaired = some rCheckWIF := by decide +kernel

/-- The repaired `PrivateFromWIF` (private_key.go:44-68, with changes). -/
def rPrivateFromWIF : Func := value_of% (findFunc 0 (id! "PrivateFromWIF") repairKeysDecls).getD default

theorem repaired_PrivateFromWIF : findFunc 0 (id! "PrivateFromWIF") repaired = some rPrivateFromWIF := by decide +kernel

/-- The repaired `PrivateFromHex` (private_key.go:71-114, with changes). -/
def rPrivateFromHex : Func := value_of% (findFunc 0 (id! "PrivateFromHex") repairKeysDecls).getD default

theorem repaired_PrivateFromHex : findFunc 0 (id! "PrivateFromHex") repaired = some rPrivateFromHex := by decide +kernel

/-- The repaired `GeneratePrivateKey` (private_key.go:117-133, with changes). -/
def rGeneratePrivateKey : Func := value_of% (findFunc 0 (id! "GeneratePrivateKey") repairKeysDecls).getD default

theorem repaired_GeneratePrivateKey : findFunc 0 (id! "GeneratePrivateKey") repaired = some rGeneratePrivateKey := by decide +kernel

/-- The repaired `AddPrivateKeys` (private_key.go:136-154, with changes). -/
def rAddPrivateKeys : Func := value_of% (findFunc 0 (id! "AddPrivateKeys") repairKeysDecls).getD default

theorem repaired_AddPrivateKeys : findFunc 0 (id! "AddPrivateKeys") repaired = some rAddPrivateKeys := by decide +kernel

/-- The repaired `MultiplyPrivateKeys` (private_key.go:157-175, with changes). -/
def rMultiplyPrivateKeys : Func := value_of% (findFunc 0 (id! "MultiplyPrivateKeys") repairKeysDecls).getD default

theorem repaired_MultiplyPrivateKeys : findFunc 0 (id! "MultiplyPrivateKeys") repaired = some rMultiplyPrivateKeys := by decide +kernel

/-- The repaired `NewSeedFromMnemonic` (mnemonic.go:15-74, with changes). -/
def rNewSeedFromMnemonic : Func := value_of% (findFunc 0 (id! "NewSeedFromMnemonic") repairPhraseDecls).getD default

theorem repaired_NewSeedFromMnemonic : findFunc 0 (id! "NewSeedFromMnemonic") repaired = some rNewSeedFromMnemonic := by decide +kernel

/-- The repaired `NewMnemonic` (mnemonic.go:77-147, with changes). -/
def rNewMnemonic : Func := value_of% (findFunc 0 (id! "NewMnemonic") repairPhraseDecls).getD default

theorem repaired_NewMnemonic : findFunc 0 (id! "NewMnemonic") repaired = some rNewMnemonic := by decide +kernel

/-- The repaired `PublicFromHex` (public_key.go:17-56, with changes). -/
def rPublicFromHex : Func := value_of% (findFunc 0 (id! "PublicFromHex") repairPubDecls).getD default

theorem repaired_PublicFromHex : findFunc 0 (id! "PublicFromHex") repaired = some rPublicFromHex := by decide +kernel

theorem repaired_GetPublicKey : findFunc (id! "PrivateKey") (id! "GetPublicKey") repaired = some fGetPublicKey := by decide +kernel

/-- The repaired `AddPublicKeys` (public_key.go:167-194, with changes). -/
def rAddPublicKeys : Func := value_of% (findFunc 0 (id! "AddPublicKeys") repairPubDecls).getD default

theorem repaired_AddPublicKeys : findFunc 0 (id! "AddPublicKeys") repaired = some rAddPublicKeys := by decide +kernel

theorem repaired_Format : findFunc (id! "PublicKey") (id! "Format") repaired = some fFormat := by decide +kernel

theorem repaired_Address : findFunc (id! "PublicKey") (id! "Address") repaired = some fAddress := by decide +kernel

theorem repaired_bigIntToHex : findFunc 0 (id! "bigIntToHex") repaired = some fBigIntToHex := by decide +kernel

theorem repaired_init : findFunc 0 (id! "init") repaired = some fInit := by decide +kernel

end Btc.Source
