import Verif.Source.Quote

/-!
# The text of the repository

Each string is the content of the file of that name in /repo, byte for byte.
-/

namespace Btc.Source

/-- /repo/struct.go, lines 1-28. -/
def structGo : String := r#"package btc

import (
	"math/big"
)

// Network struct
type Network struct {
	PrivKeyPrefix    string
	PubKeyHashPrefix string
}

// PrivateKey struct
type PrivateKey struct {
	Key *big.Int
	Hex string
	WIF string

	Network *Network
}

// PublicKey struct
type PublicKey struct {
	X *big.Int
	Y *big.Int

	Network *Network
}
"#

/-- /repo/btc.go, lines 1-37. -/
def btcGo : String := r#"package btc

import (
	"math/big"

	"github.com/aureleoules/ecdsa"
)

var secp256k1 ecdsa.Curve

// MainNetwork contains mainnet parameters
var MainNetwork *Network

// TestNetwork contains testnet parameters
var TestNetwork *Network

func init() {
	secp256k1.A, _ = new(big.Int).SetString("0000000000000000000000000000000000000000000000000000000000000000", 16)
	secp256k1.B, _ = new(big.Int).SetString("0000000000000000000000000000000000000000000000000000000000000007", 16)

	secp256k1.G.X, _ = new(big.Int).SetString("79BE667EF9DCBBAC55A06295CE870B07029BFCDB2DCE28D959F2815B16F81798", 16)
	secp256k1.G.Y, _ = new(big.Int).SetString("483ADA7726A3C4655DA4FBFC0E1108A8FD17B448A68554199C47D08FFB10D4B8", 16)

	secp256k1.P, _ = new(big.Int).SetString("FFFFFFFFFFFFFFFFFFFFFFFFFFFFFFFFFFFFFFFFFFFFFFFFFFFFFFFEFFFFFC2F", 16)
	secp256k1.N, _ = new(big.Int).SetString("FFFFFFFFFFFFFFFFFFFFFFFFFFFFFFFEBAAEDCE6AF48A03BBFD25E8CD0364141", 16)
	secp256k1.H, _ = new(big.Int).SetString("0000000000000000000000000000000000000000000000000000000000000001", 16)

	MainNetwork = &Network{
		PrivKeyPrefix:    "80",
		PubKeyHashPrefix: "00",
	}

	TestNetwork = &Network{
		PrivKeyPrefix:    "EF",
		PubKeyHashPrefix: "6F",
	}
}
"#

/-- /repo/util.go, lines 1-21. -/
def utilGo : String := r#"package btc

import (
	"crypto/rand"
	"fmt"
	"math/big"
)

func generateRandomBigInt() *big.Int {
	max, _ := new(big.Int).SetString("FFFFFFFFFFFFFFFFFFFFFFFFFFFFFFFEBAAEDCE6AF48A03BBFD25E8CD0364140", 16)

	nBig, err := rand.Int(rand.Reader, max)
	if err != nil {
		panic(err)
	}
	return nBig
}

func bigIntToHex(n *big.Int) string {
	return fmt.Sprintf("%x", n)
}
"#

/-- /repo/private_key.go, lines 1-175. -/
def privateKeyGo : String := r#"package btc

import (
	"crypto/sha256"
	"encoding/hex"
	"errors"
	"math/big"
	"reflect"
	"strings"

	"github.com/mr-tron/base58"
)

// CheckWIF checks if the wif checksum is valid
func CheckWIF(wif string) bool {
	bytes, err := base58.Decode(wif)
	if err != nil {
		return false
	}

	hexa := hex.EncodeToString(bytes)
	checksum := hexa[len(hexa)-8 : len(hexa)]
	hexa = hexa[0 : len(hexa)-8]

	hexBytes, err := hex.DecodeString(hexa)
	if err != nil {
		return false
	}

	sha := sha256.New()
	sha.Write(hexBytes)
	hash := sha.Sum(nil)

	sha = sha256.New()
	sha.Write(hash)
	hash2 := sha.Sum(nil)

	hash2Hex := hex.EncodeToString(hash2)

	return hash2Hex[0:8] == checksum
}

// PrivateFromWIF imports a private key from its base58 address
func PrivateFromWIF(wif string, network *Network) (*PrivateKey, error) {

	valid := CheckWIF(wif)
	if !valid {
		return nil, errors.New("wif invalid")
	}

	bytes, err := base58.Decode(wif)
	if err != nil {
		return nil, err
	}

	hexa := hex.EncodeToString(bytes)

	hexa = hexa[2:len(hexa)]
	hexa = hexa[0 : len(hexa)-8]

	var privateKey PrivateKey
	privateKey.WIF = wif
	privateKey.Hex = hexa
	privateKey.Key, _ = new(big.Int).SetString(hexa, 16)
	privateKey.Network = network

	return &privateKey, nil
}

// PrivateFromHex imports a private key from its hex value
func PrivateFromHex(hexa string, network *Network) (*PrivateKey, error) {

	var p PrivateKey
	p.Key, _ = new(big.Int).SetString(hexa, 16)
	p.Hex = hexa
	/* Add network byte to the hex value */
	hexa = network.PrivKeyPrefix + hexa
	/* Convert to []byte */
	hexaB, err := hex.DecodeString(hexa)
	if err != nil {
		/* Retry */
		return nil, err
	}
	/* Compute first hash */
	sha := sha256.New()

	sha.Write(hexaB)
	hash := sha.Sum(nil)

	/* Compute double hash */
	sha = sha256.New()
	sha.Write(hash)
	doubleHashHex := sha.Sum(nil)

	/* Convert to hex */
	checksum := hex.EncodeToString(doubleHashHex)
	/* Only take the first 4 bytes */
	checksum = checksum[0:8]

	/* Concat checksum to hexa */
	hexa += checksum

	hexaB, err = hex.DecodeString(hexa)
	if err != nil {
		/* Retry */
		return nil, err
	}

	wif := base58.Encode(hexaB)

	p.WIF = wif
	p.Network = network
	return &p, nil
}

// GeneratePrivateKey returns a PrivateKey
func GeneratePrivateKey(network *Network) *PrivateKey {

	/* Generate a number between 1 and 2^256 */
	key := generateRandomBigInt()

	hexa := bigIntToHex(key)
	if len(hexa) != 64 {
		return GeneratePrivateKey(network)
	}
	privateKey, err := PrivateFromHex(hexa, network)
	if err != nil {
		return GeneratePrivateKey(network)
	}
	privateKey.Key = key

	return privateKey
}

// AddPrivateKeys merge two private keys together by addition
func AddPrivateKeys(p1 *PrivateKey, p2 *PrivateKey) (*PrivateKey, error) {

	if !reflect.DeepEqual(p1.Network, p2.Network) {
		return nil, errors.New("different network")
	}

	if strings.ToLower(p1.WIF) == strings.ToLower(p2.WIF) {
		return nil, errors.New("private keys are identical")
	}

	pKey := new(big.Int)
	pKey = pKey.Add(p1.Key, p2.Key)
	pKey = pKey.Mod(pKey, secp256k1.N)

	hexa := bigIntToHex(pKey)

	privateKey, err := PrivateFromHex(hexa, p1.Network)
	return privateKey, err
}

// MultiplyPrivateKeys merge two private keys together by multiplication
func MultiplyPrivateKeys(p1 *PrivateKey, p2 *PrivateKey) (*PrivateKey, error) {

	if !reflect.DeepEqual(p1.Network, p2.Network) {
		return nil, errors.New("different network")
	}

	if strings.ToLower(p1.WIF) == strings.ToLower(p2.WIF) {
		return nil, errors.New("private keys are identical")
	}

	pKey := new(big.Int)
	pKey = pKey.Mul(p1.Key, p2.Key)
	pKey = pKey.Mod(pKey, secp256k1.N)

	hexa := bigIntToHex(pKey)

	privateKey, err := PrivateFromHex(hexa, p1.Network)
	return privateKey, err
}
"#

/-- /repo/public_key.go, lines 1-194. -/
def publicKeyGo : String := r#"package btc

import (
	"crypto/sha256"
	"encoding/hex"
	"errors"
	"math/big"
	"reflect"

	"github.com/aureleoules/ecdsa"
	"golang.org/x/crypto/ripemd160"

	"github.com/mr-tron/base58"
)

// PublicFromHex imports a public key from its hex value
func PublicFromHex(hexa string, network *Network) (*PublicKey, error) {
	var publicKey PublicKey
	publicKey.Network = network

	prefix := hexa[0:2]

	if prefix == "04" {
		/* Uncompressed */
		x := hexa[2:66]
		y := hexa[66:130]
		publicKey.X, _ = new(big.Int).SetString(x, 16)
		publicKey.Y, _ = new(big.Int).SetString(y, 16)

	} else if prefix == "03" || prefix == "02" {
		x := hexa[2:66]
		publicKey.X, _ = new(big.Int).SetString(x, 16)

		y, onCurve := secp256k1.GetY(publicKey.X)
		if !onCurve {
			return nil, errors.New("point is not on secp256k1 curve")
		}

		parity := new(big.Int)
		if prefix == "02" {
			parity.SetInt64(0)
		} else {
			parity.SetInt64(1)
		}

		/* If parity is not wrong, use negative value mod secp256k1.N */
		yMod := new(big.Int).Set(y)
		if yMod.Mod(y, big.NewInt(2)).Cmp(parity) != 0 {
			y = secp256k1.MultMod(y, big.NewInt(-1))
		}

		publicKey.Y = y
	} else {
		return nil, errors.New("unsupported public key format")
	}
	return &publicKey, nil
}

// GetPublicKey returns the public key of a private key
func (p *PrivateKey) GetPublicKey() (*PublicKey, bool) {
	var publicKey PublicKey

	R, valid := secp256k1.ScalarMult(p.Key, secp256k1.G)
	if !valid {
		return nil, false
	}
	publicKey.X = R.X
	publicKey.Y = R.Y

	publicKey.Network = p.Network

	return &publicKey, true
}

// Format returns the public key in hex
func (p *PublicKey) Format(compressed bool) string {
	key := ""

	/* If hex length is not even, make it even by placing a 0 before */
	pXHex := bigIntToHex(p.X)
	pYHex := bigIntToHex(p.Y)

	/* Add 0's until hex is 64 or 32 bytes long whether key is compressed or not */
	for len(pXHex) < 64 {
		pXHex = "0" + pXHex
	}
	for len(pYHex) < 64 {
		pYHex = "0" + pYHex
	}

	if !compressed {
		key += "04"

		key += pXHex
		key += pYHex
	} else {
		if p.Y.Bit(0) == 0 { /* Even */
			key += "02"
		} else {
			key += "03"
		}
		key += pXHex
	}
	return key
}

// Address computes the base58 public address
func (p *PublicKey) Address(compressed bool) (string, error) {
	hexa := p.Format(compressed)
	bytes, err := hex.DecodeString(hexa)
	if err != nil {
		return "", err
	}

	/* First sha256 hashing */
	sha := sha256.New()
	sha.Write(bytes)
	/* Store it in hash */
	hash := sha.Sum(nil)

	/* Ripemd hash of the sha256 hash */
	ripemd := ripemd160.New()
	ripemd.Write(hash)
	/* Store it in ripemdHash */
	ripemdHash := ripemd.Sum(nil)

	/* Convert ripemdHash to hex */
	hexa = hex.EncodeToString(ripemdHash)
	/* Add network byte */
	extendedRipemd := p.Network.PubKeyHashPrefix + hexa

	/* Perform sha256 hash on the ripemdHash with the network byte */
	bytes, err = hex.DecodeString(extendedRipemd)
	if err != nil {
		return "", err
	}
	sha = sha256.New()
	sha.Write(bytes)
	/* Store it in hash */
	hash = sha.Sum(nil)

	/* Perform another sha256 hash on the previous sha256 hash */
	sha = sha256.New()
	sha.Write(hash)
	/* Store it in hash */
	hash = sha.Sum(nil)

	/* Convert double hash to hex */
	hexa = hex.EncodeToString(hash)

	/* Get checksum (4 first bytes of double hash) */
	checksum := hexa[0:8]

	/* Add to end of extendedRipemd*/
	extendedRipemd += checksum

	/* Convert to []byte */
	extendedRipeMd, err := hex.DecodeString(extendedRipemd)
	if err != nil {
		return "", err
	}

	/* Encode to base 58 */
	return base58.Encode(extendedRipeMd), nil
}

// AddPublicKeys merge two public keys together by addition
func AddPublicKeys(p1 *PublicKey, p2 *PublicKey, compressed bool) (*PublicKey, error) {

	if !reflect.DeepEqual(p1.Network, p2.Network) {
		return nil, errors.New("different network")
	}

	point1 := ecdsa.Point{
		X: p1.X,
		Y: p1.Y,
	}
	point2 := ecdsa.Point{
		X: p2.X,
		Y: p2.Y,
	}

	r, onCurve := secp256k1.AddPoints(point1, point2)
	if !onCurve {
		return nil, errors.New("point is not on curve")
	}
	publicKey := PublicKey{
		X:       r.X,
		Y:       r.Y,
		Network: p1.Network,
	}

	return &publicKey, nil
}
"#

/-- /repo/mnemonic.go, lines 1-147. -/
def mnemonicGo : String := r#"package btc

import (
	"crypto/rand"
	"crypto/sha256"
	"encoding/hex"
	"errors"
	"fmt"
	"log"
	"math/big"
	"strings"
)

// NewSeedFromMnemonic returns the hash of the mnemonic
func NewSeedFromMnemonic(mnemonic string, passphrase string, wordlist Wordlist) ([]byte, error) {
	words := strings.Split(mnemonic, " ")
	binary := ""
	for _, word := range words {
		index := -1
		for i := range wordlist {
			if word == wordlist[i] {
				index = i
				break
			}
		}
		if index < 0 {
			return nil, errors.New("invalid mnemonic")
		}

		indexBinary := fmt.Sprintf("%b", index)
		for len(indexBinary) < 11 {
			indexBinary = "0" + indexBinary
		}

		binary += indexBinary
	}

	hash := ""
	for i := 0; i < len(binary); i += 4 {
		n := ""
		for j := i; j-i < 4; j++ {
			n += string(binary[j])
		}
		log.Println(n)
		nInt, _ := new(big.Int).SetString(n, 2)
		hexa := bigIntToHex(nInt)
		hash += hexa
	}

	checksum := hash[len(hash)-2 : len(hash)]

	sha := sha256.New()
	decoded, err := hex.DecodeString(hash[0 : len(hash)-2])
	if err != nil {
		return nil, err
	}
	sha.Write(decoded)
	shaHash := sha.Sum(nil)

	shaHashBig := new(big.Int).SetBytes(shaHash)
	shaHashHex := bigIntToHex(shaHashBig)

	for len(shaHashHex) < 64 {
		shaHashHex = "0" + shaHashHex
	}

	if shaHashHex[0:2] != checksum {
		return nil, errors.New("invalid checksum")
	}

	log.Println(shaHashHex, len(shaHashHex))
	log.Println(hash, checksum)
	return nil, nil
}

// NewMnemonic generates a new mnemonic phrase
func NewMnemonic(words int, wordlist Wordlist) (string, error) {

	if wordlist == nil {
		return "", errors.New("invalid wordlist")
	}

	var entropyLength int
	switch words {
	case 12:
		entropyLength = 128
		break
	case 15:
		entropyLength = 160
		break
	case 18:
		entropyLength = 192
		break
	case 21:
		entropyLength = 224
		break
	case 24:
		entropyLength = 256
		break
	default:
		return "", errors.New("unsupported mnemonic length")
	}

	/* Generate entropy */
	np256 := big.NewInt(2)
	np256.Exp(np256, big.NewInt(int64(entropyLength)), nil)
	entropy, err := rand.Int(rand.Reader, np256)
	if err != nil {
		return "", err
	}

	sha := sha256.New()
	sha.Write(entropy.Bytes())
	hash := sha.Sum(nil)

	checksumLength := entropyLength / 32

	hashInt := new(big.Int).SetBytes(hash)

	hashBinary := fmt.Sprintf("%b", hashInt)
	checksumBinary := hashBinary[0:checksumLength]

	b := fmt.Sprintf("%b", entropy)

	for len(b) < entropyLength {
		b = "0" + b
	}

	b = b + checksumBinary
	binary, _ := new(big.Int).SetString(b, 2)

	var phrase []string
	for i := 0; i < len(b); i += 11 {
		str := ""
		for j := i; j-i < 11; j++ {
			if binary.Bit(j) == 0 {
				str += "0"
			} else {
				str += "1"
			}
		}
		n, _ := new(big.Int).SetString(str, 2)
		phrase = append(phrase, wordlist[n.Int64()])
	}

	return strings.Join(phrase, " "), nil
}
"#

end Btc.Source
