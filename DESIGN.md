# Formal model of aureleoules/btc in Lean 4 — design

The Go source was read as text and not run. Everything below is about the model in `lean/Verif`. The tie to the code is
twofold: every definition cites the lines it models; and the text of the source itself is embedded, parsed, given a meaning
and proved to compute the model (C106–C111).

## 1. What is modelled

Every function of the non-test source of `/repo` (`btc.go`, `struct.go`, `util.go`, `private_key.go`,
`public_key.go`, `mnemonic.go`, `wordlists.go`) has one executable Lean definition in `lean/Verif/Model/`, with the
file and lines it models in its comment. The nine word lists are copied in full (`lean/Verif/Words/`).

* Go `string` and `[]byte` are `List UInt8`, so `s[a:b]` slices bytes as in Go.
* A call ends in a value, an `error` or a run-time panic: `Res α = ok | err | panic`. Slice expressions, index
  expressions and nil dereferences panic in the model exactly when they panic in Go. Errors are an enumeration
  with one constructor per error the code can return, including those handed through from `encoding/hex` and `base58`.
* `*big.Int` is `Option Int` (nil explicit), `*Network` is `Option Network`, a nil slice differs from an empty one where
  the code tells them apart (`NewMnemonic`).
* `crypto/rand.Reader` is an arbitrary finite list of bytes. Every returning execution reads finitely many bytes.
  Running out of bytes is a read error. `rand.Int` is modelled down to byte masking and rejection.
* The log is a list of lines returned next to the result (`NewSeedFromMnemonic`).
* Loops are structural recursions. The retry loop of `GeneratePrivateKey` carries fuel equal to the length of the
  stream; `generatePrivateKey_step` shows that the fuel is never what ends it.

Six layers of the same code:

| layer | where | for |
|---|---|---|
| values | `Verif/Model` | all properties about inputs and outputs |
| heap | `Verif/Heap` | pointers, aliasing, receivers that are written to, nil receivers (C57), programs that overwrite keys themselves (C89–C91) |
| statements | `Verif/Imp` | the Go text line by line with variables, loops, `break`, `return`; that every call ends (C102, C103) |
| text | `Verif/Source` | the Go files themselves, lexed, parsed and run (C106–C111) |
| programs of single memory accesses | `Verif/Conc` | goroutines (C78, C83) |
| the text as trees of single memory accesses | `Verif/Threads` | goroutines that run the text (C121) |

The text is proved to compute the heap layer (`Source/Keys.lean`, `Source/Pub.lean`, `Source/Mnemonic.lean`, `Props/Source.lean`). The statement layer
is proved to compute the value layer (`Props/Program.lean`). The heap layer is proved to refine the value layer (`Heap/Refine.lean`), and a program run alone is proved equal to
the heap layer (`Conc/Run.lean`). A tree run alone is proved equal to the text (`Threads/Agree.lean`).

`Verif/Tests.lean` runs the tables of the repository's own tests on the model (`decide +kernel`). These are tests of
the reading, not proofs of properties.

## 2. Dependencies (code not in `/repo`)

| dependency | in the model |
|---|---|
| `encoding/hex`, `math/big` (`SetString`, `%x`, `%b`, `Bytes`, `SetBytes`, `Mod`, …), `strings`, `crypto/rand.Int` | executable definitions in `Verif/Go/`, written from the documented behaviour |
| `github.com/mr-tron/base58` | executable definition of Bitcoin Base58 in `Verif/Go/Base58.lean` |
| `crypto/sha256`, `x/crypto/ripemd160` | theorems quantify over *every* pair of hash functions with 32/20-byte output (`Hashes`); `Verif/Crypto/` has executable versions, used for concrete witnesses |
| `strings.ToLower` | exact on ASCII texts; outside ASCII an arbitrary function (`Hashes.lower`), since it depends on the Unicode tables of the Go version |
| `github.com/aureleoules/ecdsa` (`GetY`, `MultMod`, `ScalarMult`, `AddPoints`) | a parameter; see the contracts below |

Contracts assumed of the curve package, always as explicit hypotheses:

* `Spec.EcdsaContract E` (`Verif/Spec/Curve.lean`): arithmetic, against Mathlib's group of points over `ZMod p`. Nothing
  is assumed about points off the curve, nil arguments, doubling or the point at infinity.
  `EC.ref_contract` proves that the executable reference `EC.ref` (`Verif/Curve/Ref.lean`) meets it.
* `EcdsaM.Allocs`, `EcdsaM.Refines V` (`Verif/Heap`): its methods write to no cell that existed before the call and
  compute what `V` computes on values.
* `EcdsaM.Fresh` (`Verif/Heap/Hidden.lean`, C89–C91 only): the numbers it returns are allocated by it. This is shown to
  be needed (`C89_needs_fresh`).
* `EcdsaP.Local` (`Verif/Conc`): its methods access only cells given to them, the curve parameters, and cells they
  allocated themselves. They write only to the last kind.

`EcdsaM.ofValue EC.ref` and `EcdsaP.ofValue EC.ref` meet all of them at once (examples in `Props/Heap.lean`,
`Props/Client.lean`, `Props/Conc.lean`), so no theorem is vacuous for lack of a curve package.

## 3. Specifications

`Verif/Spec/` states what WIF, Base58Check, hex texts, serialised points, addresses and BIP-39 phrases are, without
reference to the model: Base58 as "same number, same leading zeros", hex as the relation `Spells`, BIP-39 over bit
lists, the curve as Mathlib's `WeierstrassCurve.Affine`. Property theorems in `Verif/Props/` are stated with these.
Beside each theorem an `example` shows a concrete case meeting its hypotheses, most of them with real keys,
real hash functions and vectors from the repository.

## 4. Where the code disagrees with its documented purpose

Each line is proved (negation with witness, and the exact behaviour for all inputs).

* `CheckWIF` panics exactly on texts that decode to fewer than four bytes, e.g. `"1"`. `PrivateFromWIF` also panics on
  the Base58Check text of the empty payload (C04).
* `PrivateFromHex("")` succeeds with a nil number. Adding or multiplying such a key panics (C73).
* The version byte of a WIF is not looked at, so a WIF of another network is accepted (C13). An address passes `CheckWIF`
  and is imported as a private key (C42).
* A compressed WIF for k is imported as 256k+1 (C12).
* `AddPrivateKeys` and `MultiplyPrivateKeys` do not pad: results with an odd number of hex digits are refused (C20), results
  below 16 never appear (C79), short results give short WIFs (C26).
* "Identical keys" are compared ignoring the case of the WIF: two different keys can be refused (C25).
* `GeneratePrivateKey` never returns keys below 16^63 nor n-1 (C16).
* All natural numbers can be imported as private keys, 0 and n included (C65). Zero padding gives one key
  several WIFs (C66).
* Networks whose prefix is not one byte do not round-trip (C75).
* `PublicFromHex` panics on short texts, ignores what follows the coordinates, accepts signs inside coordinates and does
  not check that an uncompressed point is on the curve (C31, C32).
* `Format` and `Address` give non-standard texts for negative, nil or large coordinates, or panic (C61, C62).
* `NewMnemonic` takes the entropy bits in reversed order and drops leading zeros of the hash: its phrases are in general not
  BIP-39 phrases (C48). It crashes on short word lists (C81).
* `NewSeedFromMnemonic` never returns a seed, ignores the passphrase (C52), logs the whole entropy (C54), crashes when
  the number of words is not a multiple of four, refuses all phrases of 12 words (C50), accepts any multiple of eight
  words (C63), and so does not accept the phrases `NewMnemonic` makes (C53).
* A key returned by a call shares its network object with the argument; overwriting one changes the other (C90).
* `PrivateFromHex` and `GeneratePrivateKey` crash on a nil network, `PrivateFromWIF` accepts it (C98).
* Ideographic spaces (C80) and composed accents (C82) are refused.
* English and French share 100 words and the two Chinese lists 1275, so the language of a phrase is not determined (C77).

## 5. Property by property

Status *proved*: the statement in `properties.jsonl` is proved in full. *partial*: the statement is false of the code (or not fully proved); the negation (`_violated`) and what is true instead (`_partial`) are proved. Theorem names are in namespace `Btc`.

### C01 WIF is the Base58Check encoding of prefix and key — proved

Whenever PrivateFromHex(h, net) succeeds, the returned WIF is exactly the Base58 text of (net's prefix bytes ++ h's bytes ++ first four bytes of SHA256(SHA256(prefix bytes ++ h's bytes))), Hex is h unchanged, Key is the big-endian value of h (nil iff h is empty), and Network is net.

*How.* Model: `privateFromHex`, `keyToWIF`, `base58Check` path. The hex layer cancels (`hexDecode (hexEncode x) = x`), leaving bytes; Base58 is specified by a relation (same number, same leading zeros), shown to hold of the encoder and to be functional both ways.
*Extent.* For every hash function, text and network; odd-length prefixes included.
*Theorems.* `C01_wif_is_base58check`, `C01_wif_bytes` in `Verif/Props/Wif.lean`.

### C02 PrivateFromHex accepts exactly the even-length hex strings — proved

For a non-nil network, PrivateFromHex(h, net) returns a key iff prefix++h consists only of hex digits and has even length; otherwise it returns an error (bad byte reported before bad length); it never panics. With a nil network it panics.

*How.* Exact characterisation of `hexDecode` (`hexDecode_eq_ok`) and of `prefix ++ hex`; every branch is covered by an equation, so no-panic is part of the result.
*Extent.* Acceptance condition, exact error and no-panic; nil network panics.
*Theorems.* `C02_accepts_iff`, `C02_bad_character`, `C02_bad_length`, `C02_no_panic` in `Verif/Props/Wif.lean`.

### C03 CheckWIF decides the Base58Check checksum — proved

CheckWIF(w) is true iff w is non-empty, uses only Base58 characters, decodes to at least four bytes, and its last four bytes are the first four bytes of the double SHA-256 of the others; on every other input decoding to >= 4 bytes, or not decoding at all, it is false.

*How.* Case analysis on the decoded bytes; the specification speaks of payload and the first four bytes of the double hash.
*Extent.* Exact, for every byte string; C03_exhaustive shows the cases cover everything.
*Theorems.* `C03_true_iff`, `C03_decoded`, `C03_undecodable`, `C03_exhaustive` in `Verif/Props/Wif.lean`.

### C04 CheckWIF and PrivateFromWIF never panic — partial

Validating or importing an arbitrary user-supplied string returns a verdict or an error; it never crashes the program. (Expected by any caller that validates untrusted input; the code violates it: the exact set of panicking inputs is characterised.)

*How.* Negation by witness (`CheckWIF("1")`), plus the exact set of panicking texts: those decoding to fewer than four bytes (CheckWIF), or to exactly a checksum (PrivateFromWIF).
*Extent.* False of the code: CheckWIF("1") panics (C04_violated). The _partial theorems give the exact set of panicking inputs of both functions.
*Theorems.* `C04_violated`, `C04_checkWIF_panics_iff_partial`, `C04_privateFromWIF_panics_iff_partial` in `Verif/Props/Wif.lean`.

### C05 Hex to WIF to key round trip — proved

If PrivateFromHex(h, net) succeeds for a network with a one-byte prefix and non-empty h, then PrivateFromWIF(that WIF, net2) succeeds for every net2 and yields the same Key, the same WIF, Hex equal to h in lower case, and Network net2.

*How.* Composition of C01 with the decoder; Base58 and hex are inverse on their images.
*Extent.* For every one-byte-prefix network and non-empty key text.
*Theorems.* `C05_hex_wif_roundtrip` in `Verif/Props/Wif.lean`.

### C06 WIF to key to WIF round trip — proved

If PrivateFromWIF(w, net) succeeds and w's version byte is the one net's prefix spells, then PrivateFromHex(key.Hex, net) succeeds and gives back exactly w and the same Key.

*How.* As C05 in the other direction; uses uniqueness of the Base58 text of a byte string.
*Extent.* Whole struct is recovered.
*Theorems.* `C06_wif_hex_roundtrip` in `Verif/Props/Wif.lean`.

### C07 WIF encoding is injective — proved

Two successful PrivateFromHex calls on networks with prefixes of equal length return the same WIF only if the prefix bytes and the key bytes are the same.

*How.* From uniqueness of bytes given text (`IsBase58.bytes_unique`) and of hex text up to case.
*Extent.* Stated as an equivalence; letter case of the digits is the only freedom.
*Theorems.* `C07_wif_injective`, `C07_equal_wif_equal_key` in `Verif/Props/Wif.lean`.

### C08 Every WIF the library emits passes its own check — proved

CheckWIF returns true on the WIF of every key obtained from PrivateFromHex, GeneratePrivateKey, AddPrivateKeys, MultiplyPrivateKeys or PrivateFromWIF.

*How.* Induction over the constructors of keys (import, generation, sum, product), each reduced to `privateFromHex`.
*Extent.* Over every constructor of private keys.
*Theorems.* `C08_emitted_wif_checks` in `Verif/Props/Generate.lean`.

### C09 A bad checksum is never imported — proved

PrivateFromWIF(w, net) returns a key only if CheckWIF(w) is true; if CheckWIF(w) is false it returns the error 'wif invalid'; the verdict does not depend on net.

*How.* Inversion of `privateFromWIF`; success exposes the checksum equation.
*Extent.* Includes independence of the network.
*Theorems.* `C09_import_requires_check`, `C09_verdict_independent` in `Verif/Props/Wif.lean`.

### C10 Tampering with the checksum only is always detected — proved

If CheckWIF accepts two strings whose decoded payloads (everything but the last four bytes) coincide, the strings are equal; so changing any characters of a valid WIF without changing the payload is rejected.

*How.* Two texts with the same payload and a right checksum have the same bytes, hence the same text.
*Extent.* Rejection of every other text with the same payload.
*Theorems.* `C10_checksum_tamper` in `Verif/Props/Wif.lean`.

### C11 Shape of full-length WIFs — proved

For every 64-digit hex string, the WIF on MainNetwork has 51 characters and starts with '5', and on TestNetwork it has 51 characters and starts with '9'.

*How.* Bounds on the number encoded: 37-byte numbers with the given first byte have 51 Base58 digits and the given first digit.
*Extent.* Every 64-digit key, every hash.
*Theorems.* `C11_wif_shape` in `Verif/Props/Wif.lean`.

### C12 Compressed WIFs are imported as the key they encode — partial

Importing a standard compressed-key WIF (0x80 ++ 32 key bytes ++ 0x01 ++ checksum) yields the 32-byte key. (The code violates it: the imported key is 256*k+1; proved for all keys.)

*How.* Symbolic execution of the import on `80 ‖ k ‖ 01 ‖ checksum` for every k; the trailing byte is kept.
*Extent.* False of the code for every hash: imported as 256k+1, proved for all k (C12_compressed_import_partial).
*Theorems.* `C12_compressed_import_partial`, `C12_violated` in `Verif/Props/Wif.lean`.

### C13 A WIF of another network is rejected — partial

PrivateFromWIF(w, net) fails when w's version byte is not net's. (The code violates it: the version byte is ignored; success, Key and Hex are independent of net for all w.)

*How.* Inversion of `privateFromWIF`; the version byte is dropped before anything depends on it.
*Extent.* False of the code for every hash: version byte is ignored, proved for all inputs.
*Theorems.* `C13_version_ignored_partial`, `C13_violated` in `Verif/Props/Wif.lean`.

### C14 Generated keys are valid and self-consistent — proved

Whenever GeneratePrivateKey(net) returns, its Key is in [16^63, n-2] (so a valid secp256k1 scalar), Hex is the 64-digit lower-case hex of Key, WIF is PrivateFromHex's WIF of Hex, Network is net, and for Main/TestNetwork the WIF has 51 characters and starts with '5'/'9'.

*How.* Induction on the length of the random stream (the retry loop consumes 32 bytes per round; fuel never runs out, `generatePrivateKey_step`).
*Extent.* Every random stream; also: no failure other than the random source's.
*Theorems.* `C14_generated_valid`, `C14_generated_shape`, `C14_only_source_failure` in `Verif/Props/Generate.lean`.

### C15 Key generation reaches every 64-digit scalar below n-1, uniquely — proved

For every k in [16^63, n-2] there is exactly one 32-byte block which, delivered by the random source, makes GeneratePrivateKey(MainNetwork) return k at once; every other block is rejected and generation continues with the rest of the stream exactly as if the block had not been there.

*How.* One step of the loop: a 32-byte block is masked, compared with n-1, offset by one; inversion gives uniqueness.
*Extent.* Block by block, with uniqueness.
*Theorems.* `C15_any_network`, `C15_block`, `C15_unique_block` in `Verif/Props/Generate.lean`.

### C16 Every valid private key can be generated — partial

GeneratePrivateKey can return any valid private key. (Violated: no random stream ever makes it return a key in [1, 16^63) nor n-1.)

*How.* The length check on `%x` text gives the lower bound, the sampler gives the upper bound; witness for the violation.
*Extent.* False of the code; the exact set of generable keys is [16^63, n-2].
*Theorems.* `C16_generated_range_partial`, `C16_violated` in `Verif/Props/Generate.lean`.

### C17 GeneratePrivateKey never returns on a malformed network — proved

If the network's prefix is not an even-length hex string, no random stream whatsoever makes GeneratePrivateKey return a key (it retries until the random source fails).

*How.* Every round fails on a malformed prefix, so by induction only the read error can end the loop.
*Extent.* Every random stream ends in the source's read error.
*Theorems.* `C17_malformed_network` in `Verif/Props/Generate.lean`.

### C18 AddPrivateKeys computes the sum modulo the group order — proved

Whenever AddPrivateKeys(a, b) succeeds, the result's Key is (a.Key + b.Key) mod n, Hex is its minimal lower-case hex, WIF is the WIF of that Hex on the common network, and Network is that network.

*How.* Unfolding to `(a+b) mod n` with `Int.emod`; independence from the receiver because the receiver is new.
*Extent.* All keys and hashes.
*Theorems.* `C18_add_mod_n` in `Verif/Props/Arith.lean`.

### C19 MultiplyPrivateKeys computes the product modulo the group order — proved

Whenever MultiplyPrivateKeys(a, b) succeeds, the result's Key is (a.Key * b.Key) mod n, with Hex, WIF and Network consistent as for addition.

*How.* As C18.
*Extent.* All keys and hashes.
*Theorems.* `C19_mul_mod_n` in `Verif/Props/Arith.lean`.

### C20 Adding or multiplying distinct valid keys always succeeds — partial

For two different valid keys on one network with a non-zero result AddPrivateKeys/MultiplyPrivateKeys return a key. (Violated: the operation fails exactly when the minimal hex of the result has an odd number of digits, or when the WIFs agree up to letter case; exact failure sets are proved and witnesses given.)

*How.* Exact success condition (number of hex digits of the result even); witness keys 2 and 3.
*Extent.* False of the code for every hash (keys 2 and 3); exact success condition proved.
*Theorems.* `C20_add_succeeds_iff_partial`, `C20_mul_succeeds_iff_partial`, `C20_violated` in `Verif/Props/Arith.lean`.

### C21 Results of key arithmetic are never the zero key — proved

On a network with an even-length prefix, no successful AddPrivateKeys or MultiplyPrivateKeys returns Key = 0; the result is always in [1, n-1].

*How.* Text of zero has odd length, so the result is refused.
*Extent.* For networks whose prefix is whole bytes.
*Theorems.* `C21_never_zero` in `Verif/Props/Arith.lean`.

### C22 Key arithmetic is commutative — proved

AddPrivateKeys(a, b) and AddPrivateKeys(b, a) succeed for the same pairs and return equal keys (Key, Hex, WIF, Network); likewise MultiplyPrivateKeys.

*How.* Both orders compute the same number and the same checks; errors and panics are part of the equation.
*Extent.* Including errors and panics.
*Theorems.* `C22_add_comm`, `C22_mul_comm` in `Verif/Props/Arith.lean`.

### C23 Key arithmetic is associative and distributive on keys — proved

If all the calls involved succeed, (a+b)+c and a+(b+c) have the same Key, Hex and WIF; same for products; and a*(b+c) has the same Key as a*b + a*c.

*How.* Arithmetic modulo n on the numbers of successful results.
*Extent.* Both operations, and distributivity.
*Theorems.* `C23_add_assoc`, `C23_mul_assoc`, `C23_distrib` in `Verif/Props/Arith.lean`.

### C24 Different networks are never mixed — proved

AddPrivateKeys, MultiplyPrivateKeys and AddPublicKeys return the 'different network' error whenever the two keys' networks differ in either prefix (or exactly one is nil), and the result of a successful call carries the common network.

*How.* The network comparison is the first branch in all four functions.
*Extent.* Private keys and public keys.
*Theorems.* `C24_private_networks`, `C24_public_networks` in `Verif/Props/Arith.lean`, `Verif/Props/PublicKey.lean`.

### C25 Only identical keys are rejected as identical — partial

AddPrivateKeys/MultiplyPrivateKeys report 'private keys are identical' only for identical keys. (Violated: WIFs are compared ignoring case; two genuinely different valid keys whose WIFs differ only in case are rejected; conversely equal WIFs are always rejected.)

*How.* The comparison is on lower-cased WIF texts. `C25_identical_iff_partial` is the exact condition for all keys, with `strings.ToLower` arbitrary outside ASCII; `C25_ascii_partial` states it letter by letter for ASCII WIFs, which all keys returned by the package have (`C25_ascii_keys`); witness: two different keys whose WIFs differ in letter case, found by a search outside Lean and checked by the kernel with the executable SHA-256.
*Extent.* False of the code: concrete pair of different valid keys; exact condition proved.
*Theorems.* `C25_violated`, `C25_identical_iff_partial`, `C25_ascii_partial`, `C25_ascii_keys` in `Verif/Props/Arith.lean`.

### C26 Results of key arithmetic are standard 32-byte keys — partial

The WIF returned by AddPrivateKeys/MultiplyPrivateKeys is a standard 51-character WIF. (Violated: the hex is not zero-padded, results below 16^62 give a short non-standard WIF; proved standard exactly when the result is at least 16^63.)

*How.* Exact condition on the size of the result, witness with a 62-digit result.
*Extent.* False of the code: concrete pair; exact condition (result >= 16^63) proved for both networks.
*Theorems.* `C26_standard_iff_partial`, `C26_violated` in `Verif/Props/Arith.lean`.

### C27 Serialized public keys have the standard layout — proved

For coordinates in [0, 2^256), Format(false) is '04' followed by the 64-digit lower-case hex of X then of Y (130 characters); Format(true) is '02' or '03' according to the parity of Y followed by X's 64 digits (66 characters).

*How.* `%x` with padding to 64 digits: value, length and alphabet characterise the text uniquely.
*Extent.* For all coordinates below 2^256; the 64-digit text is characterised by value, length and alphabet and shown unique.
*Theorems.* `C27_format_layout`, `C27_fixed_unique` in `Verif/Props/PublicKey.lean`.

### C28 Uncompressed public keys round-trip — proved

PublicFromHex(Format(false)) returns the same X, Y for all coordinates in [0, 2^256), on any network, and Format is injective there.

*How.* String layer only, for every curve package.
*Extent.* Round trip for every E (curve arithmetic irrelevant) and injectivity of both forms.
*Theorems.* `C28_uncompressed_roundtrip`, `C28_format_injective` in `Verif/Props/PublicKey.lean`.

### C29 Compressed public keys round-trip — proved

For every point of secp256k1, PublicFromHex(Format(true)) returns the same X and Y.

*How.* `EcdsaContract.getY` gives a root of the right equation; the two roots have different parity because p is odd.
*Extent.* Relative to EcdsaContract (what is assumed of the external curve package; met by the reference implementation EC.ref). All curve points.
*Theorems.* `C29_compressed_roundtrip` in `Verif/Props/Curve.lean`.

### C30 Decompression returns the unique right point or an error — proved

For a 66-character '02'/'03' string whose X digits are hex with value below p, PublicFromHex returns the unique curve point with that X and Y even/odd respectively if there is one, and otherwise the error 'point is not on secp256k1 curve'.

*How.* As C29 with the error case: no root, no point.
*Extent.* Relative to EcdsaContract (what is assumed of the external curve package; met by the reference implementation EC.ref). Exact: the unique right point or the error.
*Theorems.* `C30_decompression` in `Verif/Props/Curve.lean`.

### C31 Imported uncompressed keys are on the curve — partial

PublicFromHex of a '04' string returns only points of the curve. (Violated: the two coordinates are not checked at all; every pair of coordinates is accepted, and non-hex digits yield nil coordinates without an error.)

*How.* The 04 branch is executed symbolically on arbitrary 128 digits; witnesses (0,0) and a non-hex text.
*Extent.* Violated. Proved: any two 64-digit coordinates are accepted unchecked; non-hex digits give nil coordinates. Witness: (0,0).
*Theorems.* `C31_uncompressed_unchecked_partial`, `C31_on_curve_violated`, `C31_not_hex_violated` in `Verif/Props/PublicKey.lean`.

### C32 PublicFromHex rejects malformed input with an error — partial

Malformed strings give an error, not a crash. (Violated: shorter than 2 / 66 / 130 characters panics; the exact behaviour for every length and prefix is proved: unsupported prefixes always give an error, and trailing characters are silently ignored.)

*How.* Case analysis on length and first two bytes, all outcomes listed; witness: the empty string.
*Extent.* Violated. Proved: the outcome for every length and prefix. Witness: the empty string panics.
*Theorems.* `C32_outcomes_partial`, `C32_never_crashes_violated` in `Verif/Props/PublicKey.lean`.

### C33 GetPublicKey returns k*G — proved

For every key with Key in [1, n-1], GetPublicKey succeeds and returns the affine coordinates in [0, p) of k*G on secp256k1, on the key's network.

*How.* `EcdsaContract.scalarMult` against Mathlib's group of points; k•G ≠ 0 for 0<k<n because G has prime order n (proved, C56).
*Extent.* Relative to EcdsaContract (what is assumed of the external curve package; met by the reference implementation EC.ref). All scalars 1..n-1.
*Theorems.* `C33_public_key` in `Verif/Props/Curve.lean`.

### C34 Distinct private keys have distinct public keys — proved

GetPublicKey is injective on [1, n-1]: equal public keys imply equal private keys.

*How.* Order of G; coordinates determine the point.
*Extent.* Relative to EcdsaContract (what is assumed of the external curve package; met by the reference implementation EC.ref). Uses that the base point has prime order n (proved).
*Theorems.* `C34_injective` in `Verif/Props/Curve.lean`.

### C35 Adding private keys commutes with adding public keys — proved

If a, b have distinct keys in [1, n-1], on a network whose prefix is an even number of hex digits, and AddPrivateKeys(a, b) succeeds, then GetPublicKey of the sum equals AddPublicKeys(GetPublicKey(a), GetPublicKey(b)), coordinates and network.

*How.* Homomorphism law of the group, C18 and the contract for addition.
*Extent.* Relative to EcdsaContract (what is assumed of the external curve package; met by the reference implementation EC.ref). Distinct keys, well-formed network prefix.
*Theorems.* `C35_add_homomorphism` in `Verif/Props/Curve.lean`.

### C36 Multiplying private keys multiplies public points — proved

If MultiplyPrivateKeys(a, b) succeeds for keys in [1, n-1], GetPublicKey of the product is a.Key times the public point of b, and symmetrically.

*How.* As C35 with scalar multiplication.
*Extent.* Relative to EcdsaContract (what is assumed of the external curve package; met by the reference implementation EC.ref). Both symmetric forms.
*Theorems.* `C36_mul_homomorphism` in `Verif/Props/Curve.lean`.

### C37 AddPublicKeys is commutative and closed — proved

For two points of the curve with different X on one network, AddPublicKeys succeeds, returns their group sum (again a point of the curve with reduced coordinates), the order of the arguments does not matter and the 'compressed' argument has no effect.

*How.* Commutativity and closure of the group law for different X.
*Extent.* Relative to EcdsaContract (what is assumed of the external curve package; met by the reference implementation EC.ref). Points with different X.
*Theorems.* `C37_add_public_keys` in `Verif/Props/Curve.lean`.

### C38 Negated keys share X and differ in the prefix — proved

GetPublicKey of k and of n-k have the same X, Y values summing to p, and their compressed forms differ exactly in the prefix '02'/'03'.

*How.* Negation of a point; X determines a point up to sign.
*Extent.* Relative to EcdsaContract (what is assumed of the external curve package; met by the reference implementation EC.ref). All k.
*Theorems.* `C38_negation` in `Verif/Props/Curve.lean`.

### C39 Addresses are Base58Check of the key hash — proved

Address(compressed) of a public key with coordinates in [0, 2^256) is the Base58 text of (network prefix byte ++ RIPEMD160(SHA256(serialized key)) ++ 4-byte double-SHA256 checksum), and never fails for Main/TestNetwork.

*How.* As C01 with the two hashes.
*Extent.* For every hash function with the right output lengths.
*Theorems.* `C39_address_bytes`, `C39_serialization_unique`, `C39_address_never_fails` in `Verif/Props/Address.lean`.

### C40 Shape of addresses — proved

Every MainNetwork address starts with '1' and has 25 to 34 characters (33 or 34 when the key hash does not start with a zero byte); every TestNetwork address has exactly 34 characters and starts with 'm' or 'n'; for every key and hash value.

*How.* As C11 for 25-byte numbers.
*Extent.* For every hash function with the right output lengths.
*Theorems.* `C40_main_shape`, `C40_test_shape` in `Verif/Props/Address.lean`.

### C41 Addresses collide only if key hashes collide — proved

Two addresses on networks with one-byte prefixes are equal iff the prefix bytes are equal and the two RIPEMD160(SHA256(serialized key)) values are equal.

*How.* From Base58 uniqueness.
*Extent.* Both directions.
*Theorems.* `C41_collision` in `Verif/Props/Address.lean`.

### C42 An address is not accepted as a private key — partial

PrivateFromWIF rejects addresses. (Violated: CheckWIF accepts every address, and PrivateFromWIF imports it as the private key equal to its hash160; proved for all keys.)

*How.* Symbolic execution of CheckWIF and PrivateFromWIF on an arbitrary address.
*Extent.* Violated. Proved: every address passes CheckWIF and is imported as the key equal to its hash160. Witness: a test vector of the repository.
*Theorems.* `C42_address_imported_partial`, `C42_address_rejected_violated` in `Verif/Props/Address.lean`.

### C43 Hex input is case-insensitive — proved

PrivateFromHex and PublicFromHex give the same Key/WIF, respectively X/Y, for hex strings that differ only in letter case.

*How.* `hexDecode`, `SetString` read digits independent of case; the texts themselves are compared up to case.
*Extent.* Private keys and public keys, all hex strings.
*Theorems.* `C43_publicFromHex_case`, `C43_privateFromHex_case` in `Verif/Props/PublicKey.lean`, `Verif/Props/Wif.lean`.

### C44 NewMnemonic validates its arguments — proved

NewMnemonic returns the 'invalid wordlist' error for a nil list, otherwise 'unsupported mnemonic length' for every word count other than 12, 15, 18, 21, 24, reading no randomness in either case.

*How.* First branches of `NewMnemonic`, with the converse.
*Extent.* All word counts (integers), all lists, all random streams. That no random bytes are read is C44_reads_nothing, on the parsed text.
*Theorems.* `C44_reads_nothing`, `C44_nil_wordlist`, `C44_unsupported_count`, `C44_only_then` in `Verif/Props/Callers.lean`, `Verif/Props/Mnemonic.lean`.

### C45 NewMnemonic returns exactly the requested number of list words — proved

For a supported count and a list of at least 2048 words without spaces, if NewMnemonic returns a phrase, splitting it on spaces gives exactly that many words, all from the list; it panics iff SHA-256 of the entropy without its leading zero bytes is below 2^(count/3-1), and it fails iff the random source fails.

*How.* Induction on the word loop; 11-bit groups are below 2048.
*Extent.* Lists of at least 2048 words; exact outcome in every case.
*Theorems.* `C45_outcomes`, `C45_word_count` in `Verif/Props/Mnemonic.lean`.

### C46 The phrase determines the entropy — proved

With a duplicate-free list of space-free words, two NewMnemonic calls with the same count return the same phrase only if the entropy drawn was the same; no entropy is lost.

*How.* Injectivity of the bit string from the word list without repetitions, then of the entropy from the bits.
*Extent.* Duplicate-free lists of space-free words.
*Theorems.* `C46_phrase_determines_entropy` in `Verif/Props/Mnemonic.lean`.

### C47 NewMnemonic's exact encoding — proved

Word i of the phrase is the list entry whose 11-bit index is bits 11i..11i+10 of the REVERSED bit string (entropy bits, then checksum bits).

*How.* The bit string of the model is the reversed, zero-padded one written in the statement.
*Extent.* Any list; follows the bits actually read from the random source.
*Theorems.* `C47_exact_encoding` in `Verif/Props/Mnemonic.lean`.

### C48 NewMnemonic produces BIP-39 phrases — partial

The phrase is the BIP-39 encoding of the entropy. (Violated: bit order is reversed, the hash is taken over entropy stripped of leading zeros and its leading zero bits are dropped; a concrete entropy with a non-BIP-39 phrase is proved, and the exact relation when no stripping occurs.)

*How.* Specification of BIP-39 in `Verif/Spec/Mnemonic.lean`; witness entropy; exact condition (bits equal their required order).
*Extent.* Violated: concrete entropy whose phrase is no BIP-39 phrase of any entropy; exact condition and the reversed relation proved.
*Theorems.* `C48_bip39_violated`, `C48_when_bip39`, `C48_reversed_partial` in `Verif/Props/Mnemonic.lean`.

### C49 NewSeedFromMnemonic rejects unknown words — proved

If some space-separated word of the phrase is not in the list, NewSeedFromMnemonic returns the 'invalid mnemonic' error, logging nothing.

*How.* Induction over the words with the lookup.
*Extent.* Any list, also nil; converse for lists of at most 2048 words.
*Theorems.* `C49_unknown_word_rejected`, `C49_unknown_piece_rejected`, `C49_only_then` in `Verif/Props/Mnemonic.lean`.

### C50 NewSeedFromMnemonic never crashes on well-formed phrases — partial

Any phrase of list words gets a verdict. (Violated: with a 2048-word list it panics exactly when the number of words is not a multiple of four, in particular for every 15, 18 and 21-word phrase; counts that are 4 mod 8, in particular every 12-word phrase, give a hex-length error.)

*How.* The nibble count is three per word up to dropped zeros; the slice panics exactly when the count is not a multiple of four words.
*Extent.* Violated: crashes exactly when the number of words is not a multiple of four.
*Theorems.* `C50_crash_iff`, `C50_never_crashes_violated`, `C50_twelve_words_rejected`, `C50_no_crash_partial` in `Verif/Props/Mnemonic.lean`.

### C51 NewSeedFromMnemonic accepts exactly the BIP-39-valid 24-word phrases — proved

For 24 words of a duplicate-free 2048-word list, it returns no error iff the last 8 of the 264 index bits are the first byte of SHA-256 of the first 256; every BIP-39 encoding of 32 entropy bytes is accepted.

*How.* 24 words: bits, checksum byte and hash are compared exactly as BIP-39 prescribes; both directions.
*Extent.* Any 2048-word duplicate-free list; both directions, and existence of a phrase for each entropy.
*Theorems.* `C51_accepts_iff_bip39`, `C51_accepts_all_bip39`, `C51_every_entropy_has_phrase` in `Verif/Props/Mnemonic.lean`.

### C52 NewSeedFromMnemonic returns a seed — partial

On success a seed is returned. (Violated: on every input, when there is no error the returned byte slice is nil; the passphrase never influences anything.)

*How.* The result is a constant nil; the passphrase is unused.
*Extent.* Violated on every input: the seed is always nil and the passphrase unused.
*Theorems.* `C52_seed_always_nil`, `C52_passphrase_ignored`, `C52_returns_seed_violated`, `C52_verdict_partial` in `Verif/Props/Mnemonic.lean`.

### C53 Generated phrases are accepted back — partial

NewSeedFromMnemonic accepts every phrase produced by NewMnemonic with the same list. (Violated: 12-word phrases are always rejected, 15/18/21-word phrases always panic, 24-word phrases are rejected for a concrete entropy.)

*How.* By word count from C50; for 24 words the exact condition.
*Extent.* Violated: 12 words always rejected, 15/18/21 always crash, 24 accepted only by coincidence (exact condition proved).
*Theorems.* `C53_short_phrases_never_accepted`, `C53_accepted_back_violated`, `C53_accepted_iff_partial` in `Verif/Props/Mnemonic.lean`.

### C54 The mnemonic is not written to the log — partial

Secrets do not reach the log. (Violated: for every phrase of known words with no panic the log lines determine the complete phrase; proved by recovering every word index from the log.)

*How.* The log is part of the result; the words are recovered from the logged nibbles.
*Extent.* Violated: the log determines the phrase.
*Theorems.* `C54_log_contains_phrase`, `C54_not_logged_violated`, `C54_no_log_partial` in `Verif/Props/Mnemonic.lean`.

### C55 Shipped word lists are well-formed — proved

Each of the nine shipped lists has exactly 2048 entries, all different, none empty, none containing a space; so every index maps to a word and back.

*How.* Kernel evaluation (`decide +kernel`) of the complete tables in packed form, lifted by lemmas to the lists of byte strings.
*Extent.* Kernel evaluation of the complete tables, lifted to the byte-string lists.
*Theorems.* `C55_wordlists_well_formed`, `C55_lookup_inverse` in `Verif/Props/Words.lean`.

### C56 Curve constants are a prime-order group — proved

The constants set at start-up are the SEC 2 secp256k1 parameters: p is prime, n is prime, G lies on y^2 = x^3 + 7 and has order exactly n; the sampling bound of key generation is n-1.

*How.* Pratt certificates checked by the kernel; Jacobian scalar multiplication proved to agree with the group law and evaluated at n; number of points by counting against twice the field size and prime order.
*Extent.* Primality by Pratt certificates, order by kernel computation with a proved group law, number of points by an elementary counting argument.
*Theorems.* `C56_parameters`, `C56_primes`, `C56_base_point`, `C56_cofactor`, `C56_sampling_bound` in `Verif/Props/Curve.lean`.

### C57 API calls do not modify their arguments — proved

AddPrivateKeys, MultiplyPrivateKeys and PublicFromHex leave every big integer and every struct reachable before the call unchanged; the key they return has a freshly allocated Key/Y number (no aliasing with the arguments).

*How.* Imperative model over an explicit heap (`Verif/Heap`); frame theorem for every call by a Hoare-style predicate, induction over programs; refinement to the pure model.
*Extent.* Heap model (Verif/Heap): every call, including failing ones and aliased or nil arguments, leaves all existing cells unchanged; any program of calls does; results agree with the pure model and are new objects. Memory behaviour of the curve package is a hypothesis (EcdsaM.Allocs, EcdsaM.Refines) shown satisfiable.
*Theorems.* `C57_programs_change_nothing`, `C57_key_values_kept`, `C57_public_key_values_kept`, `C57_add`, `C57_multiply`, `C57_publicFromHex`, `C57_getPublicKey`, `C57_addPublicKeys`, `C57_privateFromHex`, `C57_privateFromWIF`, `C57_generate`, `C57_readers`, `C57_nil` in `Verif/Props/Heap.lean`.

### C58 Private keys and curve points correspond one to one — proved

Every affine point of the curve y^2 = x^3 + 7 over F_p is the public key of exactly one private key in [1, n-1].

*How.* G generates all points (C56), so every point is k•G for one k.
*Extent.* Under EcdsaContract; surjectivity uses that G generates the whole curve group (prime order n = number of points).
*Theorems.* `C58_bijection` in `Verif/Props/Keys.lean`.

### C59 Every generated key is usable end to end — proved

Whatever random bytes are read, a key returned by GeneratePrivateKey on either network passes CheckWIF, is returned unchanged by PrivateFromWIF and PrivateFromHex, has a public key on the curve that survives both serialisations, and has an address in both forms.

*How.* Composition of C14, C05/C06, C33, C28/C29 and C39.
*Extent.* Under EcdsaContract; composition of the generation, import, curve and serialisation theorems. C59_any_network is the same for every network with a WIF prefix of one byte and an address prefix of whole bytes.
*Theorems.* `C59_any_network`, `C59_generated_key_usable` in `Verif/Props/Keys.lean`.

### C60 Public key addition is associative and cancels — proved

AddPublicKeys is associative wherever the intermediate sums are defined by the code (different X), and a summand is determined by the sum and the other summand.

*How.* Group law.
*Extent.* Under EcdsaContract, for points with different X (the doubling and inverse cases are outside the code's addition).
*Theorems.* `C60_add_assoc`, `C60_cancel` in `Verif/Props/Keys.lean`.

### C61 Format output is a standard serialisation — partial

Format returns only 66-digit (compressed) or 130-digit (uncompressed) hex strings. (Violated: nil, negative and over-long coordinates give other text; the exact condition is proved.)

*How.* Exact condition on the two coordinates; witnesses nil, negative and too long.
*Extent.* Violated by nil, negative and over-long coordinates; exact condition proved.
*Theorems.* `C61_standard_violated`, `C61_standard_iff_partial` in `Verif/Props/Serial.lean`.

### C62 Address never crashes and rejects invalid keys — partial

Address returns an error, never a crash, for keys without network or coordinates, and for coordinates out of range. (Violated; the exact outcome on every key is proved.)

*How.* The outcome of `Address` is written out for every key and network.
*Extent.* Violated; the exact outcome of Address on every key is proved.
*Theorems.* `C62_outcome_partial`, `C62_never_crashes_violated` in `Verif/Props/Serial.lean`.

### C63 Only BIP-39 lengths are accepted — partial

NewSeedFromMnemonic accepts only phrases of 12, 15, 18, 21 or 24 words. (Violated: accepted word counts are multiples of eight, and every multiple of eight has accepted phrases.)

*How.* Residue of the number of words; a phrase is constructed for every multiple of eight.
*Extent.* Violated: 8-word phrase accepted; exact residue condition, and acceptance for every multiple of eight, proved.
*Theorems.* `C63_lengths_violated`, `C63_multiple_of_eight_partial`, `C63_every_multiple_accepted` in `Verif/Props/Phrase.lean`.

### C64 Four letters identify a word — proved

In the alphabetic lists (English, French, Italian, Spanish, Czech) the first four letters a-z of a word, ignoring accents, determine the word and its index.

*How.* Kernel evaluation over prefix keys of the complete tables, lifted.
*Extent.* Kernel evaluation of the complete tables, lifted to byte strings.
*Theorems.* `C64_four_letters` in `Verif/Props/Lists.lean`.

### C65 Imported keys are valid scalars — partial

PrivateFromHex and PrivateFromWIF return only keys in [1, n-1]. (Violated: every natural number can be imported, 0 and n included; what bounds remain is proved.)

*How.* Every number is written in an even number of digits and imported; bounds for texts of given length.
*Extent.* Violated: all naturals are importable; remaining bounds proved.
*Theorems.* `C65_import_range_partial`, `C65_everything_imported`, `C65_valid_scalars_violated` in `Verif/Props/Import.lean`.

### C66 A key has one WIF per network — partial

Two imports of the same number on one network carry the same WIF. (Violated by zero padding; true for texts of equal length.)

*How.* Witness: 01 and 0001; equal lengths give equal texts.
*Extent.* Violated by zero padding; equal-length texts proved.
*Theorems.* `C66_unique_wif_violated`, `C66_unique_wif_partial` in `Verif/Props/Import.lean`.

### C67 Import from WIF is injective — proved

Two WIFs with the same version byte are imported with the same hex text only if they are equal.

*How.* Hex text and version byte determine the payload, the payload the checksum and the text.
*Extent.* Any hash functions.
*Theorems.* `C67_import_injective` in `Verif/Props/Import.lean`.

### C68 Texts with foreign characters are rejected cleanly — proved

An empty WIF, or one with any character outside the Base58 alphabet (spaces, line breaks, 0, O, I, l, non-ASCII bytes), is refused by CheckWIF and PrivateFromWIF without a crash.

*How.* The Base58 decoder fails on every foreign byte; the empty text separately.
*Extent.* Any hash functions.
*Theorems.* `C68_foreign_characters` in `Verif/Props/Import.lean`.

### C69 Spacing is strict — proved

An empty phrase, and a phrase with a leading, trailing or doubled space, gives 'invalid mnemonic' and logs nothing, for every list without an empty word, in particular all shipped lists.

*How.* `strings.Split` produces an empty piece; no list contains the empty word.
*Extent.* Any list without empty words; instantiated for the nine shipped lists.
*Theorems.* `C69_spacing_strict`, `C69_spacing_shipped` in `Verif/Props/Phrase.lean`.

### C70 Case and foreign bytes are strict — proved

A phrase containing a byte (other than space) that occurs in no word of the list gives 'invalid mnemonic'; for all shipped lists this covers ASCII capitals and control characters such as tab and line feed.

*How.* A piece containing a foreign byte is no list word; tables evaluated in the kernel.
*Extent.* Any list; shipped lists by kernel evaluation of the complete tables.
*Theorems.* `C70_foreign_byte`, `C70_case_and_control` in `Verif/Props/Phrase.lean`.

### C71 Random bytes are consumed exactly — proved

GeneratePrivateKey reads whole 32-byte blocks up to and including the accepted one and nothing beyond; NewMnemonic reads exactly the entropy; results do not depend on the bytes that follow.

*How.* Loop step lemma with an arbitrary rest of the stream.
*Extent.* Also that any shorter stream crashes GeneratePrivateKey.
*Theorems.* `C71_generate_local`, `C71_mnemonic_local` in `Verif/Props/Generate.lean`, `Verif/Props/Phrase.lean`.

### C72 Key addition and multiplication cancel — proved

a+b and a+c (or a*b and a*c with a nonzero mod n) are the same key only if b and c are equal mod n.

*How.* Integers modulo the prime n.
*Extent.* Multiplication uses primality of n.
*Theorems.* `C72_add_cancel`, `C72_mul_cancel` in `Verif/Props/Arith2.lean`.

### C73 Combining imported keys never crashes — partial

AddPrivateKeys and MultiplyPrivateKeys never crash on keys returned by the library. (Violated: the key imported from the empty text crashes both; the exact crash condition is proved.)

*How.* The exact panic condition (nil number after the earlier checks); witness: import of the empty text.
*Extent.* Violated: exact crash condition proved.
*Theorems.* `C73_crash_iff_partial`, `C73_imported_keys_violated` in `Verif/Props/Arith2.lean`.

### C74 WIFs and addresses of both networks never coincide — proved

A main-network WIF, a test-network WIF, a main-network address and a test-network address are pairwise different texts, whatever the keys.

*How.* First bytes of the payload and lengths differ; Base58 uniqueness.
*Extent.* Any hash functions, both address forms.
*Theorems.* `C74_kinds_disjoint` in `Verif/Props/Import.lean`.

### C75 Round trip for every network — partial

Exporting to WIF and importing again gives the key back on every network. (Violated for prefixes that are not one byte; the exact behaviour is proved.)

*How.* Symbolic execution for a prefix of any number of bytes; witness.
*Extent.* Violated for prefixes that are not one byte; exact behaviour proved.
*Theorems.* `C75_roundtrip_partial`, `C75_roundtrip_violated` in `Verif/Props/Import.lean`.

### C76 NewMnemonic uses exactly the first 2048 words — proved

The result of NewMnemonic depends on the word list only through its first 2048 entries.

*How.* Indices are below 2048, so only a prefix is read.
*Extent.* Including errors and panics.
*Theorems.* `C76_prefix_only` in `Verif/Props/Phrase.lean`.

### C77 The shipped lists are pairwise disjoint — partial

No word is in two shipped lists, so a phrase accepted with one is rejected with every other. (Violated for English/French and for the two Chinese lists; all other 34 pairs are disjoint.)

*How.* Kernel evaluation of all 36 pairs of tables; two pairs have common words (exhibited).
*Extent.* Violated for two pairs of lists; the other 34 pairs proved disjoint.
*Theorems.* `C77_disjoint_violated`, `C77_disjoint_partial`, `C77_other_language_rejected_partial` in `Verif/Props/Lists.lean`.

### C78 Calls from several goroutines do not interfere — proved

When any goroutines each make one call of the package at the same time, on possibly shared keys, then for every interleaving of their memory accesses: no two of them access the same place with one writing (no data race); nothing that existed before changes; every call that returns gives what it would give alone; no call waits for another and all calls return.

*How.* `Verif/Conc`: calls as programs of single memory accesses, equal to the heap model when run alone (`Run.lean`); a renaming relation shows each program touches only given and own cells (`Local.lean`); a machine interleaving any programs keeps, for every goroutine, a simulation with its solo run (`Machine.lean`). Termination by the multiset (hydra) order.
*Extent.* Interleaving semantics at the level of single memory accesses. Assumes of the curve package that it writes only to what it allocated (EcdsaP.Local); a package meeting all assumptions is given. A wrong in-place addition is shown to race.
*Theorems.* `C78_results`, `C78_no_races`, `C78_unchanged`, `C78_deterministic`, `C78_progress`, `C78_terminates`, `C78_completes` in `Verif/Props/Conc.lean`.

### C79 A key times its inverse is the key one — partial

MultiplyPrivateKeys of a key and its inverse mod n gives the key 1. (Violated always: results below 16 are never produced.)

*How.* Results below 16 have one hex digit and are refused; witness and general statement.
*Extent.* Violated always; results are at least 16.
*Theorems.* `C79_result_at_least_16_partial`, `C79_inverse_fails`, `C79_inverse_violated` in `Verif/Props/Arith2.lean`.

### C80 Ideographic spaces are accepted in Japanese phrases — partial

A Japanese phrase separated by U+3000 (as BIP-39 prescribes) is judged like the one separated by spaces. (Violated for every 32-byte entropy.)

*How.* U+3000 contains bytes that are not separators; no word contains it.
*Extent.* Violated for every 32-byte entropy.
*Theorems.* `C80_wide_rejected`, `C80_ideographic_space_violated`, `C80_ascii_space_partial` in `Verif/Props/Phrase.lean`.

### C81 Too short word lists are refused — partial

NewMnemonic returns 'invalid wordlist' for a list of fewer than 2048 words. (Violated: crashes; the error is returned exactly for nil.)

*How.* Index out of range for every list that lacks a needed index; error only for nil.
*Extent.* Violated: an empty list crashes; error exactly for nil.
*Theorems.* `C81_short_list_violated`, `C81_error_iff_nil`, `C81_no_error_partial` in `Verif/Props/Phrase.lean`.

### C82 Both Unicode spellings of a phrase are judged alike — partial

A phrase with composed accented letters is judged like the decomposed one. (Violated for French and Spanish: composed letters are always rejected.)

*How.* Composed letters use bytes that occur in no word of the lists (kernel evaluation); witness phrase.
*Extent.* Violated: concrete French phrase; all phrases with composed letters rejected.
*Theorems.* `C82_composed_rejected`, `C82_normalisation_violated`, `C82_ascii_lists_partial` in `Verif/Props/Lists.lean`.

### C83 Concurrent sequences of calls compute what they compute alone — proved

Goroutines that each make any sequence of calls, feeding the keys returned by earlier calls into later ones and sharing keys that existed before, get under every interleaving exactly the results the value-level model computes for their own sequence; there are no data races and nothing that existed before changes.

*How.* As C78 with recorded results; the specification evaluates the calls on values, without memory.
*Extent.* Any number of calls per goroutine; specification has values only, no memory.
*Theorems.* `C83_results`, `C83_no_races`, `C83_unchanged` in `Verif/Props/Conc.lean`.

### C84 Generated keys are uniform — proved

Among the random streams of any given length, as many make GeneratePrivateKey return the key v1 as make it return v2, for any two keys in its range [16^63, n-2], by a length-preserving exchange of streams; and exactly (2^256 - (n-1-16^63))^m streams of m blocks give no key.

*How.* Counts random streams. Exchanging two 32-byte blocks throughout a stream is a length-preserving involution that exchanges the streams giving v1 with those giving v2 (`C84_exchange`), so both sets have the same number of elements for each length (`C84_uniform`). `C84_retry_count` counts exactly the streams of m blocks without a result, by induction on m.
*Extent.* Proved as a bijection between streams (swap two 32-byte blocks), hence equal counts for every length.
*Theorems.* `C84_exchange`, `C84_uniform`, `C84_retry_count` in `Verif/Props/Count.lean`.

### C85 Generated phrases are equally likely — proved

Every phrase NewMnemonic can return is returned for exactly the same number of random streams of any length; the number of phrases it can return is the number of entropies whose checksum prefix passes.

*How.* `C85_equally_likely`: a phrase determines the entropy read, so the streams giving it are that entropy followed by anything. `C85_phrase_count`: the map from entropies to phrases is a bijection onto the phrases that can be returned. For every hash function.
*Extent.* For every hash function; the number of phrases is expressed by the condition under which NewMnemonic does not fail (C45).
*Theorems.* `C85_equally_likely`, `C85_phrase_count` in `Verif/Props/PhraseCount.lean`.

### C86 One phrase in 256 is accepted — proved

Of the phrases of 8j list words exactly 256^(11j-1) are accepted by NewSeedFromMnemonic, one in 256, for every list, passphrase and hash function.

*How.* Phrases of 8j list words correspond one to one to byte strings of length 11j; accepted ones to those whose last byte is the first byte of the hash of the others. `C86_accepted_count` counts them and `C86_one_in_256` gives the proportion.
*Extent.* For every hash function, since the checksum is one byte computed from the rest.
*Theorems.* `C86_accepted_count`, `C86_one_in_256` in `Verif/Props/PhraseCount.lean`.

### C87 Key arithmetic evaluates expressions — proved

Any tree of AddPrivateKeys and MultiplyPrivateKeys calls that succeeds returns the key of the value of the corresponding integer expression mod n; expressions equal mod n give identical keys (number, text, WIF, network).

*How.* `Spec.Expr` is a syntax of sums and products over keys with an integer value; `runExpr` runs the corresponding calls. Proved by induction on the tree.
*Extent.* Leaves need a key that is present; failing trees are covered by C20, C25 and C73.
*Theorems.* `C87_value`, `C87_same_value_same_key` in `Verif/Props/Expr.lean`.

### C88 Public key arithmetic commutes with private key arithmetic — proved

Any tree of AddPublicKeys calls over the public keys of given private keys returns the public key of the sum of the private keys, when no call adds two points with the same X.

*How.* `Spec.PubExpr` is a syntax of sums of public keys. `C88_public_sum` identifies the result with the multiple of the generator given by the sum of the private keys, by induction on the tree with the group law; `C88_commutes` compares it with GetPublicKey of the key computed by AddPrivateKeys. `Apart` excludes equal X.
*Extent.* The hypothesis excludes AddPublicKeys on points with equal X, which it does not handle.
*Theorems.* `C88_public_sum`, `C88_commutes` in `Verif/Props/Expr.lean`.

### C89 No program can change the curve parameters — proved

Whatever sequence of calls, allocations and writes a program performs on keys, numbers and networks it can reach, the unexported secp256k1 parameters keep their values, and no pointer the program can get is a pointer to one of them.

*How.* `Heap/Client.lean` models programs that call the package and also allocate and overwrite keys, numbers and networks; a program can write to a number only through a pointer it allocated or found in a key object (`Knows`). The invariant (`Client.Inv`) says that no key object refers to one of the seven numbers of `secp256k1`; it is proved for every function, also on its error paths (`Heap/Hidden.lean`). The curve package is assumed to return newly allocated numbers (`EcdsaM.Fresh`). `C89_needs_fresh` gives a correctly computing package that returns its argument for the multiplier one and a program that then changes the generator through `GetPublicKey`. Whether the real package does this cannot be told from the repository.
*Extent.* Assumes of the curve package that it writes only to numbers it allocated and returns only such numbers; C89_needs_fresh shows the second assumption is needed.
*Theorems.* `C89_parameters_protected`, `C89_parameters_unknown`, `C89_needs_fresh` in `Verif/Props/Client.lean`.

### C90 Results share no memory with arguments — partial

After a call returns, changing the arguments (or anything that existed before the call) does not change the result, and changing the result does not change anything older. (Violated: the network object is shared; everything else is proved to be separate.)

*How.* `OnlyOlder`/`OnlyNewer` describe arbitrary modifications of memory that existed before the call, or was created by it. For every function the result keeps its value under `OnlyOlder` modifications except for the content of the network object (`C90_*_partial`), and everything older keeps its value under `OnlyNewer` modifications (`C90_arguments_kept`). `C90_violated`: overwriting the network object turns a main-network sum into a key that claims the test network but has a main-network WIF.
*Extent.* False because of the shared network object (C90_violated); for all other memory both directions are proved, and the exact dependence on the network is stated.
*Theorems.* `C90_add_partial`, `C90_multiply_partial`, `C90_publicFromHex_partial`, `C90_getPublicKey_partial`, `C90_addPublicKeys_partial`, `C90_arguments_kept`, `C90_privateFromHex_partial`, `C90_privateFromWIF_partial`, `C90_violated` in `Verif/Props/Client.lean`.

### C91 Calls use the present values of modified keys — proved

In every state a program can reach by calls and by overwriting keys, numbers and networks itself, each call gives the result of the value-level model on the present values behind its arguments.

*How.* The refinement lemmas of C57 applied to the states of C89, where the program may have overwritten fields and numbers. The example overwrites the number of a key: the sum is computed from the new number although text and WIF of the key still are the old ones.
*Extent.* Same assumptions on the curve package as C57 and C89.
*Theorems.* `C91_add`, `C91_multiply`, `C91_publicFromHex`, `C91_getPublicKey`, `C91_addPublicKeys` in `Verif/Props/Client.lean`.

### C92 From the text of a key to its address — proved

For every hexadecimal text of any even length and case, and for every Base58Check text with a version byte, whose number k is in [1, n-1]: importing, GetPublicKey and Address all succeed and give exactly the address defined by Bitcoin for k, the chosen form and the network's version byte; the definition determines the address.

*How.* `Spec.IsAddressOf` defines the address from the curve point, the serialisation and Base58Check without mention of the package's functions. The chain is proved by composing C01, C33 and C39, for texts of any length (leading zero bytes included) and for every WIF version byte. The example evaluates the chain on the key 1, whose address is well known.
*Extent.* The whole chain composed; assumes EcdsaContract of the curve package, and a one-byte address prefix (both shipped networks).
*Theorems.* `C92_address_of_hex`, `C92_address_of_wif`, `C92_address_unique` in `Verif/Props/Chain.lean`.

### C93 Equal addresses mean a hash collision — proved

If two private keys in [1, n-1], or one key in its two forms, have the same address text on any networks, then the version bytes agree and two different point serialisations with equal hash160 are exhibited.

*How.* A collision is constructed, not just asserted to exist: the two serialisations of the two points are the witnesses. Uses that k determines kG below n, that equal x means equal or opposite y and that p is odd. The example meets the hypotheses with a constant hash function.
*Extent.* For every hash function; states nothing about how hard collisions are to find.
*Theorems.* `C93_collision` in `Verif/Props/Chain.lean`.

### C94 Key generation ends with probability one — proved

The proportion of random streams of m blocks on which GeneratePrivateKey has found no key is at most 1/15^m and tends to zero.

*How.* From the exact count of C84: the number of failing streams of m blocks is a power, so the proportion is a geometric sequence with ratio below 1/15.
*Extent.* Uniform random bytes are the only probabilistic assumption; stated by counting streams and as a limit.
*Theorems.* `C94_generation_ends`, `C94_failure_bound` in `Verif/Props/Chain.lean`.

### C95 Every phrase but the last word has eight completions — proved

For any 8j-1 words of a list exactly eight list words complete them to a phrase NewSeedFromMnemonic accepts; replacing the last word of an accepted phrase by a word whose position has the same quotient by 256 is always detected.

*How.* The last word carries three bits of entropy and the check byte. The map from the three bits to the completing word is shown to be a bijection onto the accepted words (`C95_eight_last_words`); `C95_last_word_detected` is the corresponding guarantee for a mistyped last word. The examples use the phrase of the repository's test.
*Extent.* For every hash function; uses that a phrase of 8j words carries exactly one checksum byte, all of it in the last word.
*Theorems.* `C95_eight_last_words`, `C95_last_word_detected` in `Verif/Props/LastWord.lean`.

### C96 Results depend on nothing else — proved

Sums and products of keys depend only on networks, WIFs and numbers mod n (never on Hex); the public key only on number and network; PrivateFromHex on the network only through PrivKeyPrefix; PrivateFromWIF not at all on the network; Address only on coordinates and PubKeyHashPrefix; AddPublicKeys not on its flag.

*How.* Each function is compared on two inputs that differ in the irrelevant part only. The example changes the Hex field and adds n to the number of a sample key.
*Extent.* Holds for arbitrary hash functions and curve packages, no contract needed.
*Theorems.* `C96_arithmetic_inputs`, `C96_public_key_inputs`, `C96_hex_inputs`, `C96_wif_inputs`, `C96_address_inputs`, `C96_flag_unused` in `Verif/Props/Depends.lean`.

### C97 Networks are compared by value — proved

In every state a program can reach, AddPrivateKeys, MultiplyPrivateKeys and AddPublicKeys report 'different network' exactly when the contents of the two network objects differ at the time of the call; the pointers play no role.

*How.* The refinement theorems of C91 carry errors both ways (`Ref.err_iff`), so it suffices to know when the value-level functions report the error; this includes that no later step can report it. The example has two network objects of equal content.
*Extent.* In the heap layer, with the same assumptions on the curve package as C91.
*Theorems.* `C97_private_keys`, `C97_public_keys` in `Verif/Props/NetValue.lean`.

### C98 A nil network is refused with an error — partial

Every function refuses a nil network with an error. (Violated: PrivateFromHex crashes on every text, PrivateFromWIF accepts nil, and Address of a key without network crashes; but no other function returns a private key without network.)

*How.* The three disagreements are stated for all inputs. `C98_no_nil_results_partial` covers PrivateFromHex, GeneratePrivateKey, AddPrivateKeys and MultiplyPrivateKeys.
*Extent.* False of the code (C98_nil_network_violated); what remains is which functions return keys without network.
*Theorems.* `C98_nil_network_violated`, `C98_no_nil_results_partial` in `Verif/Props/Depends.lean`.

### C99 One text in 2^32 passes CheckWIF — proved

Of the 256^N Base58 texts of N >= 4 bytes exactly 256^(N-4) pass CheckWIF, for every hash function.

*How.* Texts of N bytes are the image of the injective encoder; passing texts are the image of payloads of N-4 bytes.
*Extent.* For every hash function; counting uses that Base58 is a bijection.
*Theorems.* `C99_text_count`, `C99_passing_count` in `Verif/Props/Depends.lean`.

### C100 Every correct curve package gives the same results — proved

Two curve packages that meet the contract may differ (for example in which square root GetY returns) but give the same public keys, the same imported keys or errors, and the same sums.

*How.* By the uniqueness of coordinates and, for decompression, of the root with the given parity. The example is a package that returns the other square root in GetY and still gives the same keys. Texts not beginning with 02 or 03 never reach the package.
*Extent.* X coordinates must be reduced and points on the curve, as the contract says nothing otherwise.
*Theorems.* `C100_public_key`, `C100_compressed`, `C100_other_texts`, `C100_add` in `Verif/Props/Depends.lean`.

### C101 Concurrent calls share the random source fairly — proved

When any number of goroutines run GeneratePrivateKey and NewMnemonic at once, in any order, every byte of the random source goes to at most one call and none is lost; each call ends exactly as if made alone on the bytes it was handed; two calls return the same key number (or, for the same list and length, the same phrase) only if the source delivers the same block twice.

*How.* `Verif/Conc/SharedReader.lean`: a small machine in which goroutines take turns asking the one source for a block. Invariant: a call still running has read refused blocks only, so the sequential model on its bytes goes on exactly as on the rest. The memory side of concurrency is C78 and C83; between two requests these calls touch nothing shared.
*Extent.* Assumes that rand.Reader answers each request as a whole, which its documentation promises (safe for concurrent use).
*Theorems.* `C101_partition`, `C101_alone`, `C101_distinct_keys`, `C101_distinct_phrases` in `Verif/Props/SharedReader.lean`.

### C102 The code, statement by statement, computes the model — proved

The program that follows the Go text statement by statement, with assignable variables, for loops, break, early returns and retries by tail call, ends exactly as the function model says: same result, same error, same crash, same lines logged, same random bytes left; only GeneratePrivateKey and NewMnemonic read random bytes and only NewSeedFromMnemonic logs.

*How.* `Verif/Imp`: a small statement language (`Lang.lean`), every function written in it line by line with the Go line as comment (`Code.lean`), and for each function the proof that running it gives the outcome of the model. Loops by induction on the rounds left; nil pointers as arguments are covered.
*Extent.* Assumes of the curve package only that its methods have no error result (NoErr), which is their Go type.
*Theorems.* `C102_checkWIF`, `C102_privateFromWIF`, `C102_privateFromHex`, `C102_generateRandomBigInt`, `C102_generatePrivateKey`, `C102_addPrivateKeys`, `C102_multiplyPrivateKeys`, `C102_publicFromHex`, `C102_getPublicKey`, `C102_format`, `C102_address`, `C102_addPublicKeys`, `C102_newSeedFromMnemonic`, `C102_newMnemonic` in `Verif/Props/Program.lean`.

### C103 Every call ends — proved

Every call of every function ends, by returning or by a crash: the loops of Format take at most 65 tests, those of NewMnemonic fewer than 300, those of NewSeedFromMnemonic fewer than 65+(words+1)(length of list+11), and GeneratePrivateKey calls itself at most once per byte the random source delivers.

*How.* Corollary of C102: with the stated numbers of rounds the interpreter never runs out.
*Extent.* Assumes that the calls of the curve package end. GeneratePrivateKey on a source that never ends is the subject of C17 and C94.
*Theorems.* `C103_private`, `C103_public`, `C103_mnemonic` in `Verif/Props/Program.lean`.

### C104 Key functions branch the same way for every key — proved

The conditions evaluated by the package's own code are the same for every key: calls of PrivateFromHex, PrivateFromWIF, AddPrivateKeys, MultiplyPrivateKeys and GetPublicKey that return a key take one and the same path; CheckWIF takes the same path whether the checksum is right or not; GeneratePrivateKey shows only how many numbers were refused; Format only the number of digits of the coordinates and the parity of Y.

*How.* `Verif/Imp/Path.lean` defines the path of a run of the statement-level programs: the outcomes of all conditions in order. The path of each function is computed in closed form, by the same case analysis as for C102.
*Extent.* About the branches of the package's own code, not those inside math/big, encoding/hex, the hash functions or the curve package.
*Theorems.* `C104_checkWIF`, `C104_privateFromWIF`, `C104_privateFromHex`, `C104_combine`, `C104_getPublicKey`, `C104_generatePrivateKey`, `C104_format` in `Verif/Props/Paths.lean`.

### C105 Mnemonic functions branch the same way for every phrase — partial

Calls of NewMnemonic, and of NewSeedFromMnemonic, that succeed take one and the same path. (False: the path determines the whole phrase. True: it does not depend on the word list, nor on the passphrase.)

*How.* The path of the word search for position j is the code (true false)^j true true, which is self-delimiting, and that of NewMnemonic contains every bit of the number the phrase is made of; both are decoded by induction. Independence of the passphrase: `Verif/Imp/Commute.lean`, a program all of whose statements commute with a change of a variable takes the same path after it.
*Extent.* False of the code: NewMnemonic tests entropy bits one by one and NewSeedFromMnemonic searches the list word by word, so the path of a run gives the phrase away (C105_path_gives_phrase, C105_path_gives_mnemonic). What holds is in the _partial theorems.
*Theorems.* `C105_path_gives_phrase`, `C105_newMnemonic_violated`, `C105_newMnemonic_partial`, `C105_path_gives_mnemonic`, `C105_newSeed_partial`, `C105_newSeed_violated` in `Verif/Props/Paths.lean`.

### C106 The source text is a program — proved

The text of the six Go files, embedded byte for byte, is in the part of Go whose meaning is defined here: it parses, into the declarations used below, and printing these declarations gives the text back up to layout. The functions, their signatures, the struct types and the package variables are exactly the modelled ones.

*How.* `Verif/Source`: `Files.lean` has the text; `Lex.lean` and `Parse.lean` a lexer (with Go's automatic semicolons) and a parser for the part of Go that is used; `Trees.lean` the resulting trees, computed at compile time and checked by the kernel to be what the parser returns. `Print.lean` prints trees; equality with the lexed text is checked by the kernel. The example shows a text that is refused.
*Extent.* That the embedded text is the text in /repo is checked by tools/compare_text.py, not by Lean. wordlists.go is not parsed; the same script writes it out from the word lists of the model and compares it byte for byte.
*Theorems.* `C106_parse`, `C106_print`, `C106_functions`, `C106_types` in `Verif/Props/Source.lean`.

### C107 What init sets up, from the text — proved

Running the text of init from the zero state ends, and leaves the parameters of secp256k1 and of the two networks in place; no call of any exported function in any session changes them.

*How.* The text of init is run by the kernel. Sessions (`Session.lean`) are all sequences of calls and allocations after it; the invariant `Sound` is kept by every step.
*Extent.* Clients that assign to the exported variables themselves are not considered.
*Theorems.* `C107_init`, `C107_parameters_stay` in `Verif/Props/Source.lean`.

### C108 The text computes the model — proved

The text of every exported function, run statement by statement on a memory with pointers, returns (or fails, or panics) exactly as the model says, for all arguments, aliased and nil ones included; it changes nothing that existed before, advances the random source and writes the log exactly as the model says.

*How.* `Run.lean` gives the text its meaning: scopes, short declarations, multiple assignment, pointers into a heap, loops with `break`, `return`, nil dereference, slice bounds. For each function the run is computed symbolically (simp with one lemma per construct) and shown equal to the heap layer, which refines the value layer. `Props/SourceTests.lean` runs the repository's own test tables on the text.
*Extent.* For any curve package that meets Pkg and Refines. The meaning of Go statements and of the library calls is defined in Verif/Source/Run.lean and Value.lean.
*Theorems.* `C108_checkWIF`, `C108_privateFromWIF`, `C108_privateFromHex`, `C108_addPrivateKeys`, `C108_multiplyPrivateKeys`, `C108_publicFromHex`, `C108_getPublicKey`, `C108_addPublicKeys`, `C108_format`, `C108_address`, `C108_generatePrivateKey`, `C108_newMnemonic`, `C108_newSeedFromMnemonic`, `C108_nil` in `Verif/Props/Source.lean`.

### C109 Every call ends, on the text — proved

Every well-typed call of an exported function ends, in exactly one way, in any state; it changes nothing that could be read before and assigns to no package variable.

*How.* By C108's lemmas every call of the 13 exported functions ends with enough fuel, and more fuel does not change the outcome (`Fuel.lean`). `C109_all_calls` shows from the signatures in the text that there are no other well-typed calls.
*Extent.* For any curve package that meets Pkg.
*Theorems.* `C109_ends`, `C109_all_calls` in `Verif/Props/Source.lean`.

### C110 From a private key to its Bitcoin address, on the text — proved

Running the texts of PrivateFromHex (or PrivateFromWIF, or GeneratePrivateKey), GetPublicKey and Address one after the other gives the Bitcoin address of the private key, as defined by the curve, the serialisation of points and Base58Check.

*How.* C108 composed with C01, C14 and C92. The session invariant gives that the memory read by the second and third call is what the first one wrote.
*Extent.* For any curve package that meets the contract; the reference package does.
*Theorems.* `C110_address_of_hex`, `C110_address_of_wif`, `C110_address_of_generated` in `Verif/Props/Source.lean`.

### C111 The faults are in the text — proved

Run on the text: NewSeedFromMnemonic never returns a seed; it refuses a phrase of 24 words that NewMnemonic has just made; it panics on all phrases of 15, 18 and 21 words NewMnemonic makes and refuses all of 12; what it logs determines the phrase; and the keys 2 and 3 cannot be added.

*How.* C108 composed with C20, C52, C53 and C54.
*Extent.* Counterparts on the text of C20, C52, C53 and C54.
*Theorems.* `C111_no_seed`, `C111_own_phrase_refused`, `C111_short_phrases`, `C111_log_reveals`, `C111_sum_refused` in `Verif/Props/Source.lean`.

### C112 Exactly which calls crash — proved

A call of an exported function panics if and only if it is in an explicit table, whose conditions are about the arguments and the values they point to: a nil number or network, a WIF text too short for its offsets, a point text of the wrong kind, a phrase whose words run past the list or give bits of the wrong length, and so on. Every other call returns.

*How.* The table is `Spec.Crashes`, in terms of values only. For each function the value model panics exactly there, by case analysis; C108 carries this to the text. The examples give calls on both sides of the border.
*Extent.* The condition Determined excludes curve operations on coordinates off the curve, about which the contract of the curve package says nothing.
*Theorems.* `C112_crash_table` in `Verif/Props/Crash.lean`.

### C113 Programs that check their inputs never crash — proved

A program that starts from init, passes to the package only texts it has checked (numbers from 1 to n-1, points on the curve, networks with byte prefixes) and objects the package returned, never sees a panic, however many calls it makes and in whatever order; every key it holds stays in order (number in range, Hex field agreeing, coordinates on the curve), and each has a public key and the Bitcoin address of its number.

*How.* `CarefulRun` is the inductive set of states, with the keys held, that careful programs reach. Invariant: every key held is in order (`ValidPriv`, `ValidPub`). Each careful call is outside the table of C112, and what it returns is in order.
*Extent.* What a program has to check is Spec.Careful. Fields of returned objects are not assigned by the program.
*Theorems.* `C113_keys_in_order`, `C113_no_crash`, `C113_public_key`, `C113_address` in `Verif/Props/Careful.lean`.

### C114 A call depends on nothing but what its arguments show — proved

Replace each pointer argument of a call by what it points to. Two calls that then ask the same, made in any two states of any two programs with the same random bytes, return values that show the same, panic alike, log the same lines and leave the same random bytes. So earlier calls, aliasing between keys and where objects live never matter, and two calls of which at most one draws random bytes can be swapped.

*How.* `Spec.question` reads a call through its pointers. Every call on the text shows the answer that the model of values gives to its question (`shows_answer`, by C108 function by function), so equal questions have answers that show the same. Objects are never changed by a call (C109), so a question stays what it is while the program goes on.
*Extent.* After a failed draw nothing is said of the bytes left (C114_same_rest excludes returned errors). A session never assigns to fields of keys; C91 covers clients that do, on the heap model.
*Theorems.* `C114_same_answer`, `C114_same_rest`, `C114_source_kept`, `C114_history`, `C114_swap` in `Verif/Props/Local.lean`.

### C115 Which blocks of the code can run — proved

Of the 55 blocks in braces below the bodies of the functions exactly four never run: the error returns after the second decoding in CheckWIF, after base58.Decode in PrivateFromWIF (CheckWIF has already decoded it), and after the last decoding in PrivateFromHex and in Address. Any of the four can be replaced by any statement whatever without any call ending differently. Every other block is needed: some call in some session notices if it is replaced.

*How.* `Spec.replaced` puts any statement in the place of a block of the tree of the text. Dead: for arbitrary arguments, of any type, the body with the replaced block runs as the body does (case analysis of the run: hexadecimal that was just encoded, or decoded before, decodes again), and then so do all calls by induction on the fuel. Live: a statement that panics is put in the place of the block and a sample call of a sample session is run on both texts.
*Extent.* Dead means: no call can tell the text from the text with the block replaced, which is the same as never run. The live ones are witnessed by sample calls on the text, evaluated in the kernel with the real hash functions and the reference curve package.
*Theorems.* `C115_blocks`, `C115_dead`, `C115_live`, `C115_exactly` in `Verif/Props/Blocks.lean`.

### C116 Programs may overwrite keys, networks and package variables — proved

A program may, between its calls, assign to every field of every key and network it can reach, to the numbers in them, to MainNetwork and TestNetwork and to rand.Reader. Every call, run on the text, still ends and answers what the model computes from the values that are there at the time of the call; calls that ask the same show the same; the table of crashes of C112 holds; and no such program can reach or change the parameters of the curve.

*How.* `Spec.Roams` is the inductive set of states reached by calls on the text and by writes through pointers the program has. Invariant: `Client.Inv` of the heap layer (the seven parameters are in place and no key points to them); every call on the text preserves it (`Step.clear`). The theorems of C108, C112 and C114 are proved from the invariant alone, so they hold in these states.
*Extent.* On the text; C89 and C91 say it of the heap model. The curve package is assumed to return numbers that are new (Fresh); C89_needs_fresh shows that this is needed.
*Theorems.* `C116_parameters`, `C116_out_of_reach`, `C116_computes`, `C116_crash_table`, `C116_same_answer` in `Verif/Props/Roam.lean`.

### C117 The way of a call through the text shows nothing of the key — proved

Insert into the text, at the start of every function and of every block, a statement that logs the name of the function and the number of the block. The marked program answers every call as the text does. Calls of PrivateFromHex, PrivateFromWIF, AddPrivateKeys, MultiplyPrivateKeys, GetPublicKey and AddPublicKeys that return a key log one and the same list of lines; CheckWIF logs the same whether the checksum is right or not; GeneratePrivateKey shows only how many numbers were refused; Format and Address only the number of digits of the coordinates and the parity of Y.

*How.* `Spec.marked` inserts the statements into the syntax tree; `C117_faithful` is a simulation between the two programs (the marked one differs in the log alone). The lines of each function are computed by running the marked tree symbolically; `C117_lines_differ` says that no two blocks have the same line.
*Extent.* On the text; C104 says it of the statement-level programs. About the blocks of the package's own code, not those inside math/big, encoding/hex, the hash functions or the curve package. PublicFromHex handles no secret and is left out.
*Theorems.* `C117_faithful`, `C117_lines_differ`, `C117_checkWIF`, `C117_privateFromHex`, `C117_privateFromWIF`, `C117_addPrivateKeys`, `C117_multiplyPrivateKeys`, `C117_getPublicKey`, `C117_addPublicKeys`, `C117_generatePrivateKey`, `C117_format`, `C117_address` in `Verif/Props/Marks.lean`.

### C118 Which parameters matter — proved

In every program a parameter whose name does not occur in the body of its function has no effect on any call. In the text these are exactly two: the passphrase of NewSeedFromMnemonic and the flag of AddPublicKeys. Each of the other 24 makes a difference in some call.

*How.* Two runs of a statement from variables that agree but for `x` end alike if `x` does not occur (`exec_but`, by induction on the statement and on the rounds of loops). For the rest, a table with one pair of calls per parameter, checked by the kernel; the table is proved complete.
*Extent.* C118_unmentioned is about every program of the subset of Go that is modelled. That the others matter is shown by runs with the real hash functions and the reference curve package.
*Theorems.* `C118_unmentioned`, `C118_two`, `C118_mentioned`, `C118_exactly`, `C118_passphrase`, `C118_compressed` in `Verif/Props/Unused.lean`.

### C119 The way of a call through the text shows nothing of the phrase — partial

Calls of NewMnemonic, and of NewSeedFromMnemonic, that succeed pass the same blocks of the text, for phrases of as many words and the same list. (False: the blocks that NewMnemonic passes determine the phrase, and those of NewSeedFromMnemonic differ for different phrases. True: the blocks of NewMnemonic do not depend on the word list, those of NewSeedFromMnemonic not on the passphrase.)

*How.* `C119_newSeed_violated` and `C119_newMnemonic_violated` run the marked text of C117 on two phrases and on two random numbers. The lines of a successful call of `NewMnemonic`, and those of `NewSeedFromMnemonic` up to the loop over the nibbles, are computed for every phrase (`newMnemonic_lines`, `mark_NewSeed`) and decoded. `C119_newSeed_partial` is C118 for the marked program; `C119_newMnemonic_partial` says that the word list does not matter.
*Extent.* False of the code, shown on the text by two pairs of runs. Worse: by C119_newMnemonic_gives_phrase and C119_newSeed_gives_phrase the blocks passed give the whole phrase away. What holds is in the theorems named partial.
*Theorems.* `C119_newMnemonic_gives_phrase`, `C119_newMnemonic_partial`, `C119_newSeed_gives_phrase`, `C119_newSeed_violated`, `C119_newMnemonic_violated`, `C119_newSeed_partial` in `Verif/Props/PhraseWay.lean`, `Verif/Props/SeedWay.lean`, `Verif/Props/Ways.lean`.

### C120 Lines are only ever added to the log — proved

Every call keeps the lines logged before it, and neither what it returns or leaves behind nor the lines it adds depend on them.

*How.* By induction on expressions, statements and fuel: a run with more lines in front gives the same end with these lines in front (`Framed`).
*Extent.* The log is the list of lines given to log.Println; time stamps, prefixes and log.SetOutput are not modelled. C114 says of the functions of the repository that calls that ask the same add the same lines.
*Theorems.* `C120_append`, `C120_calls` in `Verif/Props/Append.lean`.

### C121 Goroutines may run the functions of the text at the same time — proved

Goroutines that call functions of the program, as parsed from the text, interleaved in any way one memory access at a time and sharing keys, never race, never change what existed before, and each ends as it would end alone. The same holds for functions added to the package that write only to what they have made, which a check on their text decides.

*How.* `Threads/Tree.lean` runs syntax trees as trees of single memory accesses; `Threads/Agree.lean` proves that such a tree, run alone, does what the interpreter of `Verif/Source` does. `Threads/Own.lean` is a check on syntax trees: receivers of mutating methods and keys whose fields are assigned must be new. `Threads/Rel.lean` and `Threads/Sound.lean` prove by induction on expressions, statements and fuel that what passes the check is local in the sense of `Conc/Local.lean`; the machine of C78 does the rest. The text passes the check (`C121_text`, by kernel evaluation).
*Extent.* Each goroutine has a random source and a log of its own (C101 is about a shared source). Of a call that panics the panic is compared, not the lines it had logged. Goroutines communicate only through memory: channels and locks do not occur in the package and are not modelled.
*Theorems.* `C121_no_races`, `C121_unchanged`, `C121_results`, `C121_text`, `C121_calls` in `Verif/Props/Threads.lean`.

### C122 Exactly which calls return which error — proved

A table with one line per exported function says which calls return which error, and a call run on the text returns an error exactly if the table says so. With the table of C112 this decides for every call whether it crashes, fails or succeeds. An error that shows a character never shows a hexadecimal digit, so no part of a key.

*How.* `Props/Errors.lean`: first the exact error conditions of the functions on values (`privateFromHex_err_iff`, `combine_err_iff`, `address_err_iff`, `newMnemonic_err_iff`, `newSeed_err_iff`, …) from the characterisations of the earlier chapters, then `error_table` carries them to the text with the link `Returns` of C109, as C112 does for crashes. `C122_success` combines both tables.
*Extent.* Determined outcome means as in C112: the assumptions on the curve package say what it does in this call, and word lists given to NewSeedFromMnemonic have at most 2048 words. The errors are compared as the kinds of error the code creates; the wording of fmt and hex errors is that of their constructors.
*Theorems.* `C122_error_table`, `C122_success`, `C122_no_digit` in `Verif/Props/Errors.lean`.

### C123 No call does more work than its arguments say — proved

If each function and each block logs a line as it is entered, a call logs no more lines than a bound that depends on the call only: a constant of at most 812 for all but two functions, for NewSeedFromMnemonic a product of the number of words and the length of the list, for GeneratePrivateKey a multiple of the random bytes. The bounds hold however the call ends, with a result, an error or a panic. For functions without loops they come from a static analysis of the text that is proved right for every program of the language.

*How.* `Props/Work.lean` defines the analysis (`exprCost`, `stmtCost`, `bounds`) as specification and proves it right by induction on the text (`exec_cost`, `bounds_sound`) for every program. `Props/SeedSteps.lean` bounds the loops of `NewSeedFromMnemonic` on every path (`mark_seed_lines`); the loops of `Format`, `Address`, `GeneratePrivateKey` and `NewMnemonic` are bounded beside the exact lines of C117 and C119.
*Extent.* Lines count the functions and blocks of the package that are entered and the lines that the code logs itself, not the work inside the standard library or the curve package. Assumes the call ends (C109 shows when). The bounds of the functions without loops add up both branches before a return, so they are not all attained.
*Theorems.* `C123_static`, `C123_straight`, `C123_work` in `Verif/Props/SeedSteps.lean`.

### C124 Three tables say all there is to say about every call — proved

One line per exported function says what a successful call returns, how many random bytes it takes and what it logs, in terms of Base58Check, hexadecimal numerals, the curve group and words for bits. The lines determine the results. Together with the tables of crashes (C112) and errors (C122) they are a complete specification: a call of the parsed text returns a value exactly if it neither crashes nor fails by the tables and the value is the one of its line.

*How.* `Props/Results.lean`: `Spec.Result` is the table and `Spec.view` replaces returned pointers by what they point to. `C124_unique` proves line by line that the table determines the result. `result_table` goes from the text to the model by C108 and from the model to the line by one lemma per function (`result_generate`, `result_address`, `result_newSeed`, ...). `C124_exact` combines the table with C112 and C122.
*Extent.* Assumes the conditions under which the curve package is determined (Determined, as in C112): a compressed text spells a number below p, a private key is between 1 and n - 1, public keys to be added are on the curve with different X, and word lists have at most 2048 words. The table states what the code does, also where that departs from the standards (numerals with a sign, <nil> coordinates, the appended bits of NewMnemonic, no seed); the departures are C12, C16, C25, C32, C48, C52 and C61.
*Theorems.* `C124_unique`, `C124_results`, `C124_exact` in `Verif/Props/Results.lean`.

### C125 Only the number or point that a computation with keys stands for matters — proved

A program reads or draws keys, adds and multiplies them, takes public keys, adds those, writes keys out and reads them back, with any other calls in between. At the end each private key has the number of its computation modulo n, a text that spells it and a WIF of it that passes the check and can be read back; each public key has the coordinates of its point. Two computations that stand for the same point print the same text and, under equal prefixes, the same address; in particular the public key of a sum of private keys and the sum of their public keys.

*How.* `Props/Laws.lean`: `Spec.Worth` and `Spec.Stands` are the computations, as relations between a state, a pointer and a number or a point. `C125_keys` and `C125_points` go by induction on the computation, with one line of the table of C124 per call and `privAt_keep`, `pubAt_keep` (C114) for the calls in between. `C125_texts`, `C125_same_texts`, `C125_read_back`, `C125_wif_back` and `C125_sum` follow with C108, C28, C29, C37 and C39.
*Extent.* Public keys are taken of numbers between 1 and n - 1, and public keys are added only if the points are neither equal nor opposite; for the rest the assumptions on the curve package say nothing. That a sum of private keys succeeds is a hypothesis, because the code refuses sums whose text has an odd length (C20). In C125_sum the success of all the other calls is proved.
*Theorems.* `C125_keys`, `C125_points`, `C125_texts`, `C125_read_back`, `C125_wif_back`, `C125_same_texts`, `C125_sum` in `Verif/Props/Laws.lean`.

### C126 A program that uses the package cannot see its memory — proved

A program makes a call, looks at everything it can see (returned keys with their fields, errors, panics, lines of the log) and decides what to do next; it may also build keys of its own, which may share numbers. All it sees is computed by a function on values without pointers or memory, as long as it does not draw again after the random source has failed. So it sees the same whatever calls were made before it, however its keys share memory, and with any two curve packages that compute the same. Each such program runs to its end.

*How.* `Props/Callers.lean`: `Spec.Caller` is the type of programs, `Spec.Plays` their runs on the text, `transcript` the function on values. `plays_transcript` goes by induction on the run: `shows_answer` (C114) says what one call shows, `privAt_keep` and `pubAt_keep` that keys held stay the same, `refused_rest` that a refused phrase costs no random bytes. `C126_runs` goes by induction on the program.
*Extent.* Programs do not assign to fields of keys, to networks or to numbers after they are made (as in C109). After a draw has failed for lack of random bytes nothing is said of later draws; C126_transcript still covers what was seen until then. A call of NewMnemonic that is refused for its list or number of words does not count as a draw.
*Theorems.* `C126_transcript`, `C126_exact`, `C126_runs`, `C126_same` in `Verif/Props/Callers.lean`.

### C127 Changing the marked lines repairs the functions for private keys — proved

In a text of seven functions that differs from the repository's in marked lines only, the properties hold that the repository violates: CheckWIF says yes exactly to Base58Check texts and nothing panics; a text or WIF is imported exactly if it is that of a number in [1, n-1] with the prefix of the network, in the compressed form too; addresses and WIFs of other networks are refused, and so is a nil network; sums and products of different keys are always keys with standard text and WIF, except for a zero sum; every number in [1, n-1] can be generated. Each refusal returns the error that names its reason. So changing those lines is enough.

*How.* `Source/Repair.lean` has the changed text, parsed in the kernel (`repairKeysGo_parse`), and `repaired`, the program with these functions in place of the old ones. `Source/RepairKeys.lean` runs it symbolically for all arguments, as `Source/Keys.lean` does for the repository's text. `Props/Repair.lean` states the results with `Spells`, `IsBase58Check`, `bigEndian` and `FirstKey` (the first 32 random bytes that are a key); `WhyHex` and `WhyWif` say which error each refusal has.
*Extent.* About a text that is not in /repo: it shows where the faults of C04, C12, C13, C16, C20, C25, C26, C42, C65, C66, C73, C75, C79 and C98 are (for C98, the two imports). The text is parsed and run by the same parser and interpreter as the repository's. AddPrivateKeys and MultiplyPrivateKeys are covered for keys that the repaired functions return. GeneratePrivateKey with a network whose prefix is not hexadecimal still uses up the random source, as in C17.
*Theorems.* `C127_init`, `C127_check`, `C127_import_hex`, `C127_import_wif`, `C127_nil_network`, `C127_round_trip`, `C127_other_network`, `C127_address_refused`, `C127_same_wif`, `C127_one_wif`, `C127_keys_stay`, `C127_add`, `C127_multiply`, `C127_inverse`, `C127_generate`, `C127_generate_no_network`, `C127_other_networks`, `C127_every_key` in `Verif/Props/Repair.lean`.

### C128 Changing the marked lines repairs the functions for phrases — proved

In a text of NewMnemonic and NewSeedFromMnemonic that differs from the repository's in marked lines only, the properties hold that the repository violates: NewMnemonic returns the BIP-39 phrase of the random bytes it takes, every BIP-39 phrase can be generated, and other word counts and lists are refused with an error and no panic; NewSeedFromMnemonic accepts a text exactly if it is a BIP-39 phrase of the list, so only 12, 15, 18, 21 or 24 words, never panics and logs nothing; what the one generates the other accepts. Each refusal returns the error that names its reason.

*How.* `Source/Repair.lean` has the changed text (`repairPhraseGo`), parsed in the kernel. `Source/RepairPhrase.lean` runs it symbolically for all arguments; loops over words go by induction. `Props/RepairPhrase.lean` states the results with `IsBip39`; `WhyNoPhrase` and `WhyNoSeed` say which error each refusal has; the first test vector of BIP-39 is a case.
*Extent.* About a text that is not in /repo: it shows where the faults of C48, C50, C53, C54, C63 and C81 are. The text is parsed and run by the same parser and interpreter as the repository's. NewSeedFromMnemonic still returns no seed (C52): deriving one needs PBKDF2, which the repository does not import.
*Theorems.* `C128_generate`, `C128_every_phrase`, `C128_accept`, `C128_lengths`, `C128_round_trip`, `C128_distinct` in `Verif/Props/RepairPhrase.lean`.

### C129 Changing the marked lines repairs the functions for public keys — proved

In a text of PublicFromHex and AddPublicKeys that differs from the repository's in marked lines only, the properties hold that the repository violates: a text is imported exactly if it spells a point of the curve in the compressed or the full form; every other text and a nil network are refused with an error that names the reason, and nothing panics. With the other functions as they are, every public key that an import, GetPublicKey or AddPublicKeys returns is a point of the curve with a network, its Format is the standard text, which is imported again as the same point, and Address succeeds. Adding public keys corresponds to adding private keys; public keys of different networks or with the same x are not added.

*How.* `Source/Repair.lean` has the changed text (`repairPubGo`), parsed in the kernel. `Source/RepairPub.lean` runs it symbolically for all arguments. The texts of `GetPublicKey`, `Format` and `Address` are unchanged: their runs (`run_GetPublicKey_in` and so on in `Source/Pub.lean`) hold in every program with these texts. `Props/RepairPub.lean` states the results with `OnCurve`, `IsSerialized` and the group of the curve.
*Extent.* About a text that is not in /repo: it shows where the faults of C31, C32, C61, C62 and, for public keys, C98 are. The text is parsed and run by the same parser and interpreter as the repository's. Sums of points with the same x are refused, as nothing is assumed about the curve package there.
*Theorems.* `C129_init`, `C129_keys_stay`, `C129_nil_network`, `C129_import`, `C129_public_key`, `C129_add`, `C129_add_refused`, `C129_format`, `C129_address`, `C129_no_address`, `C129_round_trip`, `C129_sum` in `Verif/Props/RepairPub.lean`.

### C130 Programs that use the repaired text need check nothing — proved

A program starts from init of the repaired text and then makes any calls in any order, with any texts, numbers and word lists, with networks that are nil, its own or have bad prefixes, and with the keys that the package returned. No call panics, except GeneratePrivateKey when the random bytes hold no key. Every key it holds is in order at all times: number in range, 64 digits, standard WIF of its network, point on the curve. Each WIF passes CheckWIF and is read back as the same key, each text of a public key is read back as the same point, each private key has a public key and an address, two keys of a network have the same WIF only if they are the same key, nothing is ever logged, and no key object has a dangling pointer.

*How.* `Props/RepairSession.lean`. `FixedRun` has the states and keys that programs reach with the repaired text. Every call keeps the invariant `Sound`, by C127, C128 and C129 in each case; the theorems follow by induction over the run.
*Extent.* About a text that is not in /repo (that of C127 to C129). It is the counterpart of C113 without the checks that C113 asks of the program.
*Theorems.* `C130_keys_in_order`, `C130_no_dangling`, `C130_no_crash`, `C130_panic`, `C130_silent`, `C130_wif`, `C130_text`, `C130_address`, `C130_wifs_differ` in `Verif/Props/RepairSession.lean`.

### C131 For which random bytes the repository's two random tests pass — proved

TestGeneratePrivateKey and TestNewMnemonic call the package many times with random bytes. For any number of calls m: with the text of the repository TestGeneratePrivateKey passes exactly if, of the 32-byte blocks of random bytes, 2m have a number in [16^63, n-2], and no assertion ever fails; with the repaired text, which can return every key, it passes exactly if 2m keys come and neither 1 nor n-1 is among them, so the test contradicts C16. With the text of the repository TestNewMnemonic passes exactly if the random bytes suffice and for no block the hash is so small that NewMnemonic panics; with the repaired text exactly if there are 120 m random bytes.

*How.* `Props/RandomTests.lean`. `Rounds` has the calls of a test one after the other, `KeyCheck` and `PhraseCheck` the assertions. What one call does with the next random bytes (`OneCall`) comes from C14, C15, C45 and C108 for the repository and from C127 and C128 for the repaired text; the theorems follow by induction over the calls. `Props/SourceTests.lean` runs the other tests on both texts.
*Extent.* Two of the theorems are about a text that is not in /repo (that of C127 and C128).
*Theorems.* `C131_keys`, `C131_keys_no_failure`, `C131_repaired_keys`, `C131_keys_disagree`, `C131_phrase_call`, `C131_phrases`, `C131_repaired_phrases` in `Verif/Props/RandomTests.lean`.

### C132 Where the repaired text and the repository's text give the same answer, exactly — proved

Suppose a program has used the repaired text in any way, and one more call to it succeeds. The same call to the repository's text, in the same state, succeeds with the same answer, the same random bytes left and the same log exactly in these cases. CheckWIF: always, except for texts in Base58 of fewer than four bytes. PrivateFromWIF: if what follows the first byte of the payload is the key, so not for compressed keys. PrivateFromHex and all functions for public keys: always. GeneratePrivateKey: if the first number in [1, n-1] in the random bytes has no leading zero digit and is not n-1. AddPrivateKeys and MultiplyPrivateKeys: if the WIFs differ in more than case and the result has no leading zero digit. NewMnemonic: if the bits, written in the repository's order, happen to be those of BIP-39. NewSeedFromMnemonic: never, as it logs the entropy; a BIP-39 phrase of 12 words it refuses, for 15, 18 and 21 words it panics, and only for 24 words it succeeds.

*How.* `Props/RepairDiff.lean`. `Agrees` is the table. The answers of the repaired text are those of C127 to C130; those of the repository's text are given by the tables of C112, C122 and C124, which hold in every state with intact parameters and valid pointers (`answers_iff`), and C130 has that all reached states are such. One lemma per function (`same_hex`, `same_wif`, ...) compares the two.
*Extent.* Compares the text of /repo with one that is not in /repo (that of C127 to C129). Calls that the repaired text refuses are not compared.
*Theorems.* `C132_seed`, `C132_exact`, `C132_public` in `Verif/Props/RepairDiff.lean`.

### C133 With the repaired text keys and phrases are uniformly distributed and independent — proved

Of the streams of random bytes of any given length, those on which the repaired GeneratePrivateKey does not fail are divided equally among all the numbers from 1 to n-1, and it fails on fewer than one stream in 2^127 for each 32 bytes of length. Any two sequences of keys of the same length, made by calls one after the other, come from equally many streams. Every BIP-39 phrase is returned by the repaired NewMnemonic for exactly one stream in 256^e, where e is the number of bytes of its entropy; a sequence of phrases for exactly one in 256 to the sum of these numbers; and for 3c words there are exactly 256^(4c) different phrases.

*How.* `Props/RepairCount.lean`. C127 and C128 say which key or phrase a stream gives: the first block of 32 bytes that is the number of a key, and the phrase of the first bytes. `keyStreams_step` and `drawStreams_step` count by splitting off the first block; the recurrence does not depend on the key. `MakesKeys` and `MakesPhrases` say that calls one after the other give a sequence.
*Extent.* About the repaired text of C127 and C128, which is not in /repo; C84, C85 and C94 count for the text of /repo, which favours some keys and phrases by excluding others.
*Theorems.* `C133_keys`, `C133_failures`, `C133_phrases`, `C133_number_of_phrases`, `C133_key_sequences`, `C133_phrase_sequences` in `Verif/Props/RepairCount.lean`.

### C134 Which calls succeed with the repaired text, with the repository's, and with only one of them — proved

Suppose a program has used the repaired text in any way. A table says for which arguments its next call succeeds; two more tables say which calls succeed with the repository's text only, and which with the repaired text only. Only with the repository's text: PrivateFromWIF for payloads of at least one byte that are no key of the network; PrivateFromHex for even numbers of hexadecimal digits, after the prefix, that are no key; PublicFromHex for texts after 04 that are no point, for longer texts, and without a network; NewMnemonic for lists of other sizes than 2048, if it does not panic; NewSeedFromMnemonic for words that spell bytes ending with one byte of the hash, other than 24 words. Only with the repaired text: CheckWIF for texts in Base58 of fewer than four bytes; GeneratePrivateKey if all keys in the random bytes have leading zero digits or are n-1; AddPrivateKeys and MultiplyPrivateKeys if the result has an odd number of digits or the WIFs differ in case only; NewMnemonic if the hash starts with too many zero bits; NewSeedFromMnemonic for phrases of 12 to 21 words. All other calls succeed with both texts or with none.

*How.* `Props/RepairSuccess.lean`. `FixedAccepts` is the table for the repaired text, from C127 to C130 (`fixed_table`). The repository's text succeeds exactly if it neither panics (C112) nor returns an error (C122) (`repo_table`). `differences` compares the two tables function by function; the tables of differences are `Overlooked` and `Lost`.
*Extent.* Compares the text of /repo with one that is not in /repo (that of C127 to C129). In the comparison, `Determined` leaves out the calls on which the assumptions about the curve package say nothing: adding points with the same x, and compressed texts that hold no field element. For NewSeedFromMnemonic the list is a BIP-39 list.
*Theorems.* `C134_fixed_table`, `C134_overlooked`, `C134_lost` in `Verif/Props/RepairSuccess.lean`.

### C135 Goroutines that use the repaired text do not disturb each other — proved

A program uses the repaired text, makes calls, and starts any number of goroutines again and again. Each goroutine runs a program of its own: it calls functions as often as it likes, uses the keys the program held and those it got, reads their texts, and decides from what it has seen what to do next. Under every interleaving of the memory accesses: no two goroutines access the same place with one of them writing; nothing that existed is changed; a goroutine that has returned has returned what it returns alone, has used the same random bytes and logged nothing; with fuel enough none is stuck and none panics but GeneratePrivateKey for want of random bytes, as alone. A goroutine panics only if it comes to a call of GeneratePrivateKey when its random bytes hold no key any more; one that makes no such call never panics. All keys the program holds, also those it takes from goroutines, are in order in the shared memory, no pointer dangles, and no later call of the program crashes.

*How.* `Props/RepairThreads.lean` and `Conc/Whole.lean`. `Routine` is the program of a goroutine, an inductive tree of calls and reads; `Fits` says that it uses only keys it holds, whatever it is answered. As trees of memory accesses the repaired functions pass the check of C121 (`C135_text`), so routines are local (`routine_rel`) and agree with the sequential run (`agree_routine`). `local_grow` and `local_objs` give what is true of the whole shared memory. `ForkRun` adds phases with goroutines to `FixedRun`; its invariant is that of C130 (`ForkRun.sound`). Cases: three goroutines, run in turns in the kernel, whose keys the program then takes and adds. `C135_panic_reason` and `C135_calm`, in `Props/Front.lean`, say why a goroutine panics.
*Extent.* About a text that is not in /repo (that of C127 to C129); C121 is about the text of /repo. Each goroutine has a random source of its own (for a shared one see C101). Goroutines get keys only when they are started; a goroutine that has not ended when the program goes on makes no more steps.
*Theorems.* `C135_panic_reason`, `C135_calm`, `C135_text`, `C135_in_order`, `C135_no_crash`, `C135_no_races`, `C135_unchanged`, `C135_returned`, `C135_ends_alone`, `C135_ends` in `Verif/Props/Front.lean`, `Verif/Props/RepairThreads.lean`.

### C136 Goroutines that run programs of their own do not disturb each other, and reach nothing new — proved

A program uses the package, makes calls, builds keys, and starts any number of goroutines again and again. Each goroutine runs a program of its own: it calls functions as often as it likes, uses the keys it was given and those it got, or nil, reads their texts, and decides from what it has seen what to do next. Under every interleaving of the memory accesses: no two goroutines access the same place with one of them writing; nothing that existed is changed; each goroutine ends, and it ends as it does alone, with the same values, log lines and rest of the random source or with the same panic. Whatever the program can reach in this way, it can reach without goroutines: there is a session without goroutines with the same memory and random source, and every later call shows the same in both. No pointer dangles, and the networks and the curve stay as they are.

*How.* `Props/RoutineThreads.lean`. The programs of goroutines are the `Routine`s of C135, here run with the text of the repository, without any condition on the keys they use (`routine_ends`: every one ends). They are local because all functions pass the check of C121. `ForkSession` adds phases with goroutines to `Session`; its invariant is that of `Session`, and every memory with that invariant can be built by a session (`Source.Sound.session`), which gives `C136_as_session`. Cases: three goroutines, run in turns in the kernel, of which one panics.
*Extent.* About the text of /repo; C135 is the counterpart for the repaired text. Each goroutine has a random source and a log of its own; a goroutine ends with the first panic (recover is not modelled); of a goroutine that panics the panic is compared. A goroutine that has not ended when the program goes on makes no more steps. In the session without goroutines the log is empty; that the log does not matter is C120.
*Theorems.* `C136_as_session`, `C136_intact`, `C136_calls`, `C136_no_races`, `C136_unchanged`, `C136_returned`, `C136_ends_alone`, `C136_ends` in `Verif/Props/RoutineThreads.lean`.

### C137 Random bytes are taken from the front, and never looked at in advance — proved

In every program of the modelled part of Go, what a call leaves of the random source is the end of what was there, however the call ends. A call of a function of the repository that returns no error shows the same whatever bytes follow those it took, and leaves exactly those that follow. So does a call of the repaired GeneratePrivateKey or NewMnemonic that succeeds.

*How.* `Props/Front.lean`. The first part by induction on the interpreter, as in C120, with a lemma on `rand.Int`. The second from the model of values: the rejection loops of `rand.Int` and `GeneratePrivateKey` take blocks from the front until one is accepted (`randInt_local`, `generate_local`). Case: a phrase of twelve words from sixteen bytes, followed by any others. For the repaired text, in `Props/FrontFixed.lean`, it follows from what C127 and C128 say the two functions return.
*Extent.* The second part is about calls that return without an error; when a draw fails for lack of bytes, the call has seen that there are no more.
*Theorems.* `C137_from_front`, `C137_no_lookahead`, `C137_fixed` in `Verif/Props/Front.lean`, `Verif/Props/FrontFixed.lean`.

### C138 The repaired text does no more work than its arguments say — proved

Count the functions and blocks that a call enters. A call of the repaired text, in any program that uses it, enters no more than a number that depends on the function alone, for GeneratePrivateKey on the number of random bytes that are left, and for NewSeedFromMnemonic on the numbers of words in the phrase and in the list; the numbers are in a table (2 for GetPublicKey, 76 for AddPrivateKeys, 1210 for NewMnemonic). The counting does not change what a call does. The analysis that gives the numbers is right for every program of the modelled part of Go: a call with fuel n enters no more blocks than the analysis says for n.

*How.* `Props/FuelWork.lean` and `Props/FixedWork.lean`. The text is marked as in C123, and the analysis of C123 is extended to loops, which make at most as many rounds as there is fuel (`fuelBound`, proved sound by induction on the interpreter). For each repaired function the fuel it needs is known from C127 to C131, so the analysis, computed in the kernel at that fuel (`C138_straight`, `C138_loops`), bounds the work; for `GeneratePrivateKey`, whose fuel grows with the random bytes, the recurrence is solved by hand (`attempts_eq`), and for `NewSeedFromMnemonic` the two loops over lists are followed round by round (`fixed_mark_words`). Cases: the counts of eight calls, run in the kernel, beside the bounds.
*Extent.* About the repaired text; C123 is the counterpart for the text of /repo. The analysis has no bound for range loops; those of NewSeedFromMnemonic are followed by hand. What the Go library does inside one call of it is not counted. The bounds are not tight.
*Theorems.* `C138_work`, `C138_fuel`, `C138_faithful`, `C138_straight`, `C138_loops` in `Verif/Props/FixedWork.lean`, `Verif/Props/FuelWork.lean`.

### C139 What the repaired functions return — proved

In every run with the repaired text, a call succeeds with an answer and leaves certain random bytes exactly if the table of C134 accepts the call and a second table has that answer and those bytes. The second table gives for each function, in terms of Base58Check, hexadecimal spelling, points of the curve and BIP-39 alone, the answer and the rest of the random source, and leaves no choice. Two calls that ask the same, each pointer being read through, give the same answer, even in two runs with different networks, keys and curve packages; a call that draws leaves the same random bytes if it found the same.

*How.* `Props/RepairResult.lean`. `FixedResult` is the table; where the repair does not show in the result, its line is that of C124. `C139_result` puts together what C127 to C129 say of the functions; `C139_unique` says that the table leaves no choice, and `C139_exact` follows from both with C134. `C139_same` follows since both tables speak of a call only through what it asks (`fixed_lines`). Cases: the product of the keys 1 and 2, and one text imported twice.
*Extent.* About the repaired text; C124 and C125 are the counterparts for the text of /repo. Which error a refused call returns is C140. For NewSeedFromMnemonic the wordlist must be one (2048 distinct words without spaces), as in C134.
*Theorems.* `C139_unique`, `C139_result`, `C139_exact`, `C139_same` in `Verif/Props/RepairResult.lean`.

### C140 Which errors the repaired functions return — proved

In every run with the repaired text, a call returns an error exactly if a table has that error for it. The table has a line for each function, in terms of Base58Check, hexadecimal spelling, points of the curve and phrases, and has at most one error for a call. No call is in this table and in that of the calls that succeed; every call but those of GeneratePrivateKey is in one of them. GeneratePrivateKey returns no error: it returns nil exactly if there is no network or its prefix is not hexadecimal, and otherwise panics exactly if the random bytes hold no key. Two calls that ask the same return the same error, even in two runs with different networks, keys and curve packages.

*How.* `Props/RepairErrors.lean`. `FixedFails` is the table; faults of hexadecimal texts are those of C122 (`HexFault`). `C140_unique` says that a call has one error at most, `fixed_end` how each call ends, from C127 to C129; for `PrivateFromHex` the run is followed once more, since a text with a plus sign is read as a number and refused by the decoder (`fixed_hex_refused`). `C140_error_table` and `C140_total` follow; `C140_generate` is from C127. Cases: the number one with a plus sign; `GeneratePrivateKey` without random bytes; a key added to itself; a WIF of another network.
*Extent.* About the repaired text; C122 is the counterpart for the text of /repo. For NewSeedFromMnemonic a list of 2048 words must be one of distinct words without spaces; other lengths are refused.
*Theorems.* `C140_unique`, `C140_error_table`, `C140_total`, `C140_generate`, `C140_same` in `Verif/Props/RepairErrors.lean`.

### C141 Two runs of one program show the same — proved

If one program is run twice with the repaired text and the same random bytes, perhaps with two different correct curve packages, then after any number of calls, panics recovered and exchanges of the random source, keys with the same number have the same value in both runs, both have left the same random bytes unread, and the next call ends in both and shows the same: the same keys, texts and answers, the same error, the same nil or the same panic.

*How.* `Props/RepairTwins.lean`. `TwinRun` is the two runs together, with keys given by number (`Request.on`). `Sound.tidy` says in which four ways a call ends and what it keeps, from C127 to C129; `Alike` says what corresponds in the two runs, and `Alike.step` that a call keeps it, from C139_same, C140_same and C140_generate. `C141_keys`, `C141_same` and `C141_follows` (where one run goes on, the other does) follow by induction over the run; `C141_shows_one` says that an outcome shows one thing. Cases: the key one imported and added to itself in both; a panic for want of random bytes, after which both go on.
*Extent.* About the repaired text; the calls are those of one goroutine. For NewSeedFromMnemonic the wordlist must be one, as in C134. After a panic for want of random bytes both runs are given another source, since how much of the old one was read is not said.
*Theorems.* `C141_keys`, `C141_same`, `C141_follows`, `C141_shows_one` in `Verif/Props/RepairTwins.lean`.

## 6. Not modelled

* Quality of the randomness of `crypto/rand`, timing (except which way the package's own code branches: C104, C105), memory exhaustion, integer overflow of lengths (lists are
  unbounded).
* Assignments by clients to the exported package variables (`MainNetwork`, `TestNetwork`, the word lists), and
  clients writing to fields of keys while a call runs. The concurrency theorems are about goroutines that only call
  the package.
* Go's weak memory model. Runs are interleavings of single accesses. As no run has a data race (C78, C83), the Go
  memory model guarantees that executions are sequentially consistent, so this loses nothing under the assumption
  `EcdsaP.Local`.
* An unrecovered panic ends a Go process. The machine of `Verif/Conc` lets the other goroutines go on; what they returned
  before is covered, since the statements hold at every point of a run.
* `crypto/rand.Reader` is shared by all goroutines in Go. In the machine of `Verif/Conc/Machine.lean` each call has its own byte
  list; C101 is the theorem that a shared source amounts to that.
* Text of errors and of log lines other than the data in them.

## 7. Trusted base

* Lean's kernel, which re-checks every proof, and Mathlib's definitions used in statements (`WeierstrassCurve.Affine`,
  `ZMod`, `Nat.Prime`, lists).
* Axioms: at most `propext`, `Classical.choice`, `Quot.sound`. There is no `sorry`, no axiom of our own, no
  `native_decide`, no `bv_decide`, no `implemented_by`. Kernel evaluation is by `decide +kernel`, which adds no axiom. The table
  in `AXIOMS.md` lists the axioms of every property theorem.
* The reading of the dependencies into `Verif/Go` and `Verif/Crypto`. `Verif/Tests.lean` and the mutation tests below are
  evidence for it.
* The meaning of the Go constructs and library calls that occur, as defined by the lexer, parser and evaluator in
  `Verif/Source` (`Lex.lean`, `Parse.lean`, `Value.lean`, `Run.lean`), and that `Source/Files.lean` has the text of `/repo`
  and
  `Verif/Words` the words of `wordlists.go` (`tools/compare_text.py` compares both, byte for byte). `Props/SourceTests.lean` is evidence for the first. Given these, the value and heap
  layers are not trusted: C108 proves that they compute what the text does. `Verif/Conc` rests on a reading of the
  source; C121 proves the same for goroutines that run the text (`Verif/Threads`), for which no reading is trusted.
* The specifications in `Verif/Spec` and the statements in `Verif/Props`.

## 8. Mutation tests

`seeded/LOG.jsonl` has one line per attempt. A wrong program is made by editing one definition of a scratch copy.
The scratch copy is built, every proof that fails is noted and replaced by `sorry`, and this is repeated until
everything builds. Then the property theorems that depend on `sorry` are listed. `failed` has the proofs that broke
directly, `property_theorems` the theorems of the manifest that no longer hold up. An attempt that breaks no property
theorem would mean that the properties do not see the change; such attempts led to new or tightened theorems, named in
`tightened`.
