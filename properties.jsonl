{"id": "C01", "title": "WIF is the Base58Check encoding of prefix and key", "statement": "Whenever PrivateFromHex(h, net) succeeds, the returned WIF is exactly the Base58 text of (net's prefix bytes ++ h's bytes ++ first four bytes of SHA256(SHA256(prefix bytes ++ h's bytes))), Hex is h unchanged, Key is the big-endian value of h (nil iff h is empty), and Network is net.", "quantifier": "every string h, every network (any prefix string), every hash function of the right output length", "why_tests_cant": "A test compares a few literal keys; an encoding slip (padding, leading zeros, checksum taken over the wrong bytes) can hide on all others.", "anchors": ["private_key.go:PrivateFromHex", "util.go:bigIntToHex"]}
{"id": "C02", "title": "PrivateFromHex accepts exactly the even-length hex strings", "statement": "For a non-nil network, PrivateFromHex(h, net) returns a key iff prefix++h consists only of hex digits and has even length; otherwise it returns an error (bad byte reported before bad length); it never panics. With a nil network it panics.", "quantifier": "every string h (arbitrary bytes), every network", "why_tests_cant": "Acceptance sets are infinite; tests try two bad inputs.", "anchors": ["private_key.go:PrivateFromHex"]}
{"id": "C03", "title": "CheckWIF decides the Base58Check checksum", "statement": "CheckWIF(w) is true iff w is non-empty, uses only Base58 characters, decodes to at least four bytes, and its last four bytes are the first four bytes of the double SHA-256 of the others; on every other input decoding to >= 4 bytes, or not decoding at all, it is false.", "quantifier": "every byte string w, every hash function with 32-byte output", "why_tests_cant": "Membership in an infinite set, with hash-dependent boundary.", "anchors": ["private_key.go:CheckWIF"]}
{"id": "C04", "title": "CheckWIF and PrivateFromWIF never panic", "statement": "Validating or importing an arbitrary user-supplied string returns a verdict or an error; it never crashes the program. (Expected by any caller that validates untrusted input; the code violates it: the exact set of panicking inputs is characterised.)", "quantifier": "every byte string w", "why_tests_cant": "Crash inputs are rare in random testing; the exact crash set needs a universal argument.", "anchors": ["private_key.go:CheckWIF", "private_key.go:PrivateFromWIF"]}
{"id": "C05", "title": "Hex to WIF to key round trip", "statement": "If PrivateFromHex(h, net) succeeds for a network with a one-byte prefix and non-empty h, then PrivateFromWIF(that WIF, net2) succeeds for every net2 and yields the same Key, the same WIF, Hex equal to h in lower case, and Network net2.", "quantifier": "every h, every one-byte-prefix network, every hash", "why_tests_cant": "Round trips over all inputs, including leading zero bytes which Base58 treats specially.", "anchors": ["private_key.go:PrivateFromHex", "private_key.go:PrivateFromWIF", "private_key.go:CheckWIF"]}
{"id": "C06", "title": "WIF to key to WIF round trip", "statement": "If PrivateFromWIF(w, net) succeeds and w's version byte is the one net's prefix spells, then PrivateFromHex(key.Hex, net) succeeds and gives back exactly w and the same Key.", "quantifier": "every string w, every network, every hash", "why_tests_cant": "The domain is unbounded / astronomically large; tests sample a handful of literals.", "anchors": ["private_key.go:PrivateFromWIF", "private_key.go:PrivateFromHex"]}
{"id": "C07", "title": "WIF encoding is injective", "statement": "Two successful PrivateFromHex calls on networks with prefixes of equal length return the same WIF only if the prefix bytes and the key bytes are the same.", "quantifier": "every pair of inputs", "why_tests_cant": "Injectivity quantifies over pairs.", "anchors": ["private_key.go:PrivateFromHex"]}
{"id": "C08", "title": "Every WIF the library emits passes its own check", "statement": "CheckWIF returns true on the WIF of every key obtained from PrivateFromHex, GeneratePrivateKey, AddPrivateKeys, MultiplyPrivateKeys or PrivateFromWIF.", "quantifier": "every successful call of any constructor, every input and random stream", "why_tests_cant": "The domain is unbounded / astronomically large; tests sample a handful of literals.", "anchors": ["private_key.go:CheckWIF", "private_key.go:PrivateFromHex", "private_key.go:GeneratePrivateKey", "private_key.go:AddPrivateKeys", "private_key.go:MultiplyPrivateKeys"]}
{"id": "C09", "title": "A bad checksum is never imported", "statement": "PrivateFromWIF(w, net) returns a key only if CheckWIF(w) is true; if CheckWIF(w) is false it returns the error 'wif invalid'; the verdict does not depend on net.", "quantifier": "every w, every network", "why_tests_cant": "The domain is unbounded / astronomically large; tests sample a handful of literals.", "anchors": ["private_key.go:PrivateFromWIF", "private_key.go:CheckWIF"]}
{"id": "C10", "title": "Tampering with the checksum only is always detected", "statement": "If CheckWIF accepts two strings whose decoded payloads (everything but the last four bytes) coincide, the strings are equal; so changing any characters of a valid WIF without changing the payload is rejected.", "quantifier": "every pair of strings", "why_tests_cant": "Quantifies over all modifications of all strings.", "anchors": ["private_key.go:CheckWIF"]}
{"id": "C11", "title": "Shape of full-length WIFs", "statement": "For every 64-digit hex string, the WIF on MainNetwork has 51 characters and starts with '5', and on TestNetwork it has 51 characters and starts with '9'.", "quantifier": "every 32-byte key, every hash", "why_tests_cant": "2^256 keys times 2^32 checksums; tests sample 10000.", "anchors": ["private_key.go:PrivateFromHex", "btc.go:MainNetwork", "btc.go:TestNetwork"]}
{"id": "C12", "title": "Compressed WIFs are imported as the key they encode", "statement": "Importing a standard compressed-key WIF (0x80 ++ 32 key bytes ++ 0x01 ++ checksum) yields the 32-byte key. (The code violates it: the imported key is 256*k+1; proved for all keys.)", "quantifier": "every 32-byte key k", "why_tests_cant": "A universal statement about all keys of a format absent from the tests.", "anchors": ["private_key.go:PrivateFromWIF"]}
{"id": "C13", "title": "A WIF of another network is rejected", "statement": "PrivateFromWIF(w, net) fails when w's version byte is not net's. (The code violates it: the version byte is ignored; success, Key and Hex are independent of net for all w.)", "quantifier": "every w, every pair of networks", "why_tests_cant": "Independence of an argument is a universal claim.", "anchors": ["private_key.go:PrivateFromWIF"]}
{"id": "C14", "title": "Generated keys are valid and self-consistent", "statement": "Whenever GeneratePrivateKey(net) returns, its Key is in [16^63, n-2] (so a valid secp256k1 scalar), Hex is the 64-digit lower-case hex of Key, WIF is PrivateFromHex's WIF of Hex, Network is net, and for Main/TestNetwork the WIF has 51 characters and starts with '5'/'9'.", "quantifier": "every byte stream the random source may deliver, every network", "why_tests_cant": "The random source has unboundedly many behaviours.", "anchors": ["private_key.go:GeneratePrivateKey", "util.go:generateRandomBigInt"]}
{"id": "C15", "title": "Key generation reaches every 64-digit scalar below n-1, uniquely", "statement": "For every k in [16^63, n-2] there is exactly one 32-byte block which, delivered by the random source, makes GeneratePrivateKey(MainNetwork) return k at once; every other block is rejected and generation continues with the rest of the stream exactly as if the block had not been there.", "quantifier": "every block, every continuation stream", "why_tests_cant": "Uniformity over the accepted range is a counting claim about 2^256 blocks.", "anchors": ["private_key.go:GeneratePrivateKey", "util.go:generateRandomBigInt"]}
{"id": "C16", "title": "Every valid private key can be generated", "statement": "GeneratePrivateKey can return any valid private key. (Violated: no random stream ever makes it return a key in [1, 16^63) nor n-1.)", "quantifier": "every random stream", "why_tests_cant": "Non-reachability over all streams.", "anchors": ["private_key.go:GeneratePrivateKey", "util.go:generateRandomBigInt"]}
{"id": "C17", "title": "GeneratePrivateKey never returns on a malformed network", "statement": "If the network's prefix is not an even-length hex string, no random stream whatsoever makes GeneratePrivateKey return a key (it retries until the random source fails).", "quantifier": "every random stream, every malformed prefix", "why_tests_cant": "Non-termination cannot be observed by a test.", "anchors": ["private_key.go:GeneratePrivateKey"]}
{"id": "C18", "title": "AddPrivateKeys computes the sum modulo the group order", "statement": "Whenever AddPrivateKeys(a, b) succeeds, the result's Key is (a.Key + b.Key) mod n, Hex is its minimal lower-case hex, WIF is the WIF of that Hex on the common network, and Network is that network.", "quantifier": "every pair of keys, any integers", "why_tests_cant": "All pairs of 256-bit (or larger) integers.", "anchors": ["private_key.go:AddPrivateKeys"]}
{"id": "C19", "title": "MultiplyPrivateKeys computes the product modulo the group order", "statement": "Whenever MultiplyPrivateKeys(a, b) succeeds, the result's Key is (a.Key * b.Key) mod n, with Hex, WIF and Network consistent as for addition.", "quantifier": "every pair of keys, any integers", "why_tests_cant": "All pairs of integers.", "anchors": ["private_key.go:MultiplyPrivateKeys"]}
{"id": "C20", "title": "Adding or multiplying distinct valid keys always succeeds", "statement": "For two different valid keys on one network with a non-zero result AddPrivateKeys/MultiplyPrivateKeys return a key. (Violated: the operation fails exactly when the minimal hex of the result has an odd number of digits, or when the WIFs agree up to letter case; exact failure sets are proved and witnesses given.)", "quantifier": "every pair of keys", "why_tests_cant": "Exact failure sets over all pairs.", "anchors": ["private_key.go:AddPrivateKeys", "private_key.go:MultiplyPrivateKeys", "util.go:bigIntToHex"]}
{"id": "C21", "title": "Results of key arithmetic are never the zero key", "statement": "On a network with an even-length prefix, no successful AddPrivateKeys or MultiplyPrivateKeys returns Key = 0; the result is always in [1, n-1].", "quantifier": "every pair of keys", "why_tests_cant": "All pairs.", "anchors": ["private_key.go:AddPrivateKeys", "private_key.go:MultiplyPrivateKeys"]}
{"id": "C22", "title": "Key arithmetic is commutative", "statement": "AddPrivateKeys(a, b) and AddPrivateKeys(b, a) succeed for the same pairs and return equal keys (Key, Hex, WIF, Network); likewise MultiplyPrivateKeys.", "quantifier": "every pair of keys, including failing calls", "why_tests_cant": "All pairs.", "anchors": ["private_key.go:AddPrivateKeys", "private_key.go:MultiplyPrivateKeys"]}
{"id": "C23", "title": "Key arithmetic is associative and distributive on keys", "statement": "If all the calls involved succeed, (a+b)+c and a+(b+c) have the same Key, Hex and WIF; same for products; and a*(b+c) has the same Key as a*b + a*c.", "quantifier": "every triple of keys", "why_tests_cant": "All triples.", "anchors": ["private_key.go:AddPrivateKeys", "private_key.go:MultiplyPrivateKeys"]}
{"id": "C24", "title": "Different networks are never mixed", "statement": "AddPrivateKeys, MultiplyPrivateKeys and AddPublicKeys return the 'different network' error whenever the two keys' networks differ in either prefix (or exactly one is nil), and the result of a successful call carries the common network.", "quantifier": "every pair of keys and networks", "why_tests_cant": "All pairs.", "anchors": ["private_key.go:AddPrivateKeys", "private_key.go:MultiplyPrivateKeys", "public_key.go:AddPublicKeys"]}
{"id": "C25", "title": "Only identical keys are rejected as identical", "statement": "AddPrivateKeys/MultiplyPrivateKeys report 'private keys are identical' only for identical keys. (Violated: WIFs are compared ignoring case; two genuinely different valid keys whose WIFs differ only in case are rejected; conversely equal WIFs are always rejected.)", "quantifier": "every pair of keys", "why_tests_cant": "Needs a 2^32-scale search to find and a proof to confirm.", "anchors": ["private_key.go:AddPrivateKeys", "private_key.go:MultiplyPrivateKeys"]}
{"id": "C26", "title": "Results of key arithmetic are standard 32-byte keys", "statement": "The WIF returned by AddPrivateKeys/MultiplyPrivateKeys is a standard 51-character WIF. (Violated: the hex is not zero-padded, results below 16^62 give a short non-standard WIF; proved standard exactly when the result is at least 16^63.)", "quantifier": "every pair of keys", "why_tests_cant": "Short results have probability 1/256 or less in random tests.", "anchors": ["private_key.go:AddPrivateKeys", "private_key.go:MultiplyPrivateKeys", "util.go:bigIntToHex"]}
{"id": "C27", "title": "Serialized public keys have the standard layout", "statement": "For coordinates in [0, 2^256), Format(false) is '04' followed by the 64-digit lower-case hex of X then of Y (130 characters); Format(true) is '02' or '03' according to the parity of Y followed by X's 64 digits (66 characters).", "quantifier": "every pair of coordinates", "why_tests_cant": "Padding of short coordinates occurs with probability 1/16 per digit; all must hold.", "anchors": ["public_key.go:Format", "util.go:bigIntToHex"]}
{"id": "C28", "title": "Uncompressed public keys round-trip", "statement": "PublicFromHex(Format(false)) returns the same X, Y for all coordinates in [0, 2^256), on any network, and Format is injective there.", "quantifier": "every pair of coordinates", "why_tests_cant": "All pairs of 256-bit values.", "anchors": ["public_key.go:PublicFromHex", "public_key.go:Format"]}
{"id": "C29", "title": "Compressed public keys round-trip", "statement": "For every point of secp256k1, PublicFromHex(Format(true)) returns the same X and Y.", "quantifier": "every affine point of the curve (about 2^256)", "why_tests_cant": "All points; relies on no point having Y = 0 and on the parity/negation logic.", "anchors": ["public_key.go:PublicFromHex", "public_key.go:Format"]}
{"id": "C30", "title": "Decompression returns the unique right point or an error", "statement": "For a 66-character '02'/'03' string whose X digits are hex with value below p, PublicFromHex returns the unique curve point with that X and Y even/odd respectively if there is one, and otherwise the error 'point is not on secp256k1 curve'.", "quantifier": "every X below p, both prefixes", "why_tests_cant": "Half of 2^256 inputs each way.", "anchors": ["public_key.go:PublicFromHex"]}
{"id": "C31", "title": "Imported uncompressed keys are on the curve", "statement": "PublicFromHex of a '04' string returns only points of the curve. (Violated: the two coordinates are not checked at all; every pair of coordinates is accepted, and non-hex digits yield nil coordinates without an error.)", "quantifier": "every '04' string", "why_tests_cant": "Acceptance of every pair is a universal claim.", "anchors": ["public_key.go:PublicFromHex"]}
{"id": "C32", "title": "PublicFromHex rejects malformed input with an error", "statement": "Malformed strings give an error, not a crash. (Violated: shorter than 2 / 66 / 130 characters panics; the exact behaviour for every length and prefix is proved: unsupported prefixes always give an error, and trailing characters are silently ignored.)", "quantifier": "every byte string", "why_tests_cant": "All strings.", "anchors": ["public_key.go:PublicFromHex"]}
{"id": "C33", "title": "GetPublicKey returns k*G", "statement": "For every key with Key in [1, n-1], GetPublicKey succeeds and returns the affine coordinates in [0, p) of k*G on secp256k1, on the key's network.", "quantifier": "every valid scalar", "why_tests_cant": "2^256 scalars.", "anchors": ["public_key.go:GetPublicKey", "btc.go:secp256k1"]}
{"id": "C34", "title": "Distinct private keys have distinct public keys", "statement": "GetPublicKey is injective on [1, n-1]: equal public keys imply equal private keys.", "quantifier": "every pair of valid scalars", "why_tests_cant": "All pairs; needs that G has prime order exactly n.", "anchors": ["public_key.go:GetPublicKey", "btc.go:secp256k1"]}
{"id": "C35", "title": "Adding private keys commutes with adding public keys", "statement": "If a, b have distinct keys in [1, n-1], on a network whose prefix is an even number of hex digits, and AddPrivateKeys(a, b) succeeds, then GetPublicKey of the sum equals AddPublicKeys(GetPublicKey(a), GetPublicKey(b)), coordinates and network.", "quantifier": "every pair of keys", "why_tests_cant": "All pairs.", "anchors": ["private_key.go:AddPrivateKeys", "public_key.go:AddPublicKeys", "public_key.go:GetPublicKey"]}
{"id": "C36", "title": "Multiplying private keys multiplies public points", "statement": "If MultiplyPrivateKeys(a, b) succeeds for keys in [1, n-1], GetPublicKey of the product is a.Key times the public point of b, and symmetrically.", "quantifier": "every pair of keys", "why_tests_cant": "All pairs.", "anchors": ["private_key.go:MultiplyPrivateKeys", "public_key.go:GetPublicKey"]}
{"id": "C37", "title": "AddPublicKeys is commutative and closed", "statement": "For two points of the curve with different X on one network, AddPublicKeys succeeds, returns their group sum (again a point of the curve with reduced coordinates), the order of the arguments does not matter and the 'compressed' argument has no effect.", "quantifier": "every pair of curve points", "why_tests_cant": "All pairs.", "anchors": ["public_key.go:AddPublicKeys"]}
{"id": "C38", "title": "Negated keys share X and differ in the prefix", "statement": "GetPublicKey of k and of n-k have the same X, Y values summing to p, and their compressed forms differ exactly in the prefix '02'/'03'.", "quantifier": "every k in [1, n-1]", "why_tests_cant": "All k.", "anchors": ["public_key.go:GetPublicKey", "public_key.go:Format"]}
{"id": "C39", "title": "Addresses are Base58Check of the key hash", "statement": "Address(compressed) of a public key with coordinates in [0, 2^256) is the Base58 text of (network prefix byte ++ RIPEMD160(SHA256(serialized key)) ++ 4-byte double-SHA256 checksum), and never fails for Main/TestNetwork.", "quantifier": "every public key, both forms, every hash function", "why_tests_cant": "All keys.", "anchors": ["public_key.go:Address", "public_key.go:Format"]}
{"id": "C40", "title": "Shape of addresses", "statement": "Every MainNetwork address starts with '1' and has 25 to 34 characters (33 or 34 when the key hash does not start with a zero byte); every TestNetwork address has exactly 34 characters and starts with 'm' or 'n'; for every key and hash value.", "quantifier": "every public key and every possible 20-byte hash", "why_tests_cant": "2^160 hash values.", "anchors": ["public_key.go:Address", "btc.go:MainNetwork", "btc.go:TestNetwork"]}
{"id": "C41", "title": "Addresses collide only if key hashes collide", "statement": "Two addresses on networks with one-byte prefixes are equal iff the prefix bytes are equal and the two RIPEMD160(SHA256(serialized key)) values are equal.", "quantifier": "every pair of public keys", "why_tests_cant": "All pairs.", "anchors": ["public_key.go:Address"]}
{"id": "C42", "title": "An address is not accepted as a private key", "statement": "PrivateFromWIF rejects addresses. (Violated: CheckWIF accepts every address, and PrivateFromWIF imports it as the private key equal to its hash160; proved for all keys.)", "quantifier": "every public key", "why_tests_cant": "All keys.", "anchors": ["private_key.go:PrivateFromWIF", "private_key.go:CheckWIF", "public_key.go:Address"]}
{"id": "C43", "title": "Hex input is case-insensitive", "statement": "PrivateFromHex and PublicFromHex give the same Key/WIF, respectively X/Y, for hex strings that differ only in letter case.", "quantifier": "every hex string", "why_tests_cant": "All case variants of all strings.", "anchors": ["private_key.go:PrivateFromHex", "public_key.go:PublicFromHex"]}
{"id": "C44", "title": "NewMnemonic validates its arguments", "statement": "NewMnemonic returns the 'invalid wordlist' error for a nil list, otherwise 'unsupported mnemonic length' for every word count other than 12, 15, 18, 21, 24, reading no randomness in either case.", "quantifier": "every integer word count, every list", "why_tests_cant": "All integers.", "anchors": ["mnemonic.go:NewMnemonic"]}
{"id": "C45", "title": "NewMnemonic returns exactly the requested number of list words", "statement": "For a supported count and a list of at least 2048 words without spaces, if NewMnemonic returns a phrase, splitting it on spaces gives exactly that many words, all from the list; it panics iff SHA-256 of the entropy without its leading zero bytes is below 2^(count/3-1), and it fails iff the random source fails.", "quantifier": "every random stream, every list", "why_tests_cant": "All entropies.", "anchors": ["mnemonic.go:NewMnemonic"]}
{"id": "C46", "title": "The phrase determines the entropy", "statement": "With a duplicate-free list of space-free words, two NewMnemonic calls with the same count return the same phrase only if the entropy drawn was the same; no entropy is lost.", "quantifier": "every pair of entropies", "why_tests_cant": "Injectivity over 2^256 values.", "anchors": ["mnemonic.go:NewMnemonic"]}
{"id": "C47", "title": "NewMnemonic's exact encoding", "statement": "Word i of the phrase is the list entry whose 11-bit index is bits 11i..11i+10 of the REVERSED bit string (entropy bits, then checksum bits).", "quantifier": "every entropy, every count", "why_tests_cant": "All entropies.", "anchors": ["mnemonic.go:NewMnemonic"]}
{"id": "C48", "title": "NewMnemonic produces BIP-39 phrases", "statement": "The phrase is the BIP-39 encoding of the entropy. (Violated: bit order is reversed, the hash is taken over entropy stripped of leading zeros and its leading zero bits are dropped; a concrete entropy with a non-BIP-39 phrase is proved, and the exact relation when no stripping occurs.)", "quantifier": "every entropy", "why_tests_cant": "All entropies.", "anchors": ["mnemonic.go:NewMnemonic"]}
{"id": "C49", "title": "NewSeedFromMnemonic rejects unknown words", "statement": "If some space-separated word of the phrase is not in the list, NewSeedFromMnemonic returns the 'invalid mnemonic' error, logging nothing.", "quantifier": "every phrase, every list", "why_tests_cant": "All strings.", "anchors": ["mnemonic.go:NewSeedFromMnemonic"]}
{"id": "C50", "title": "NewSeedFromMnemonic never crashes on well-formed phrases", "statement": "Any phrase of list words gets a verdict. (Violated: with a 2048-word list it panics exactly when the number of words is not a multiple of four, in particular for every 15, 18 and 21-word phrase; counts that are 4 mod 8, in particular every 12-word phrase, give a hex-length error.)", "quantifier": "every phrase of known words", "why_tests_cant": "All phrases of all lengths.", "anchors": ["mnemonic.go:NewSeedFromMnemonic"]}
{"id": "C51", "title": "NewSeedFromMnemonic accepts exactly the BIP-39-valid 24-word phrases", "statement": "For 24 words of a duplicate-free 2048-word list, it returns no error iff the last 8 of the 264 index bits are the first byte of SHA-256 of the first 256; every BIP-39 encoding of 32 entropy bytes is accepted.", "quantifier": "every 24-word phrase", "why_tests_cant": "2^264 phrases.", "anchors": ["mnemonic.go:NewSeedFromMnemonic"]}
{"id": "C52", "title": "NewSeedFromMnemonic returns a seed", "statement": "On success a seed is returned. (Violated: on every input, when there is no error the returned byte slice is nil; the passphrase never influences anything.)", "quantifier": "every phrase, passphrase, list", "why_tests_cant": "All inputs.", "anchors": ["mnemonic.go:NewSeedFromMnemonic"]}
{"id": "C53", "title": "Generated phrases are accepted back", "statement": "NewSeedFromMnemonic accepts every phrase produced by NewMnemonic with the same list. (Violated: 12-word phrases are always rejected, 15/18/21-word phrases always panic, 24-word phrases are rejected for a concrete entropy.)", "quantifier": "every entropy, every count", "why_tests_cant": "All entropies.", "anchors": ["mnemonic.go:NewMnemonic", "mnemonic.go:NewSeedFromMnemonic"]}
{"id": "C54", "title": "The mnemonic is not written to the log", "statement": "Secrets do not reach the log. (Violated: for every phrase of known words with no panic the log lines determine the complete phrase; proved by recovering every word index from the log.)", "quantifier": "every phrase", "why_tests_cant": "All phrases.", "anchors": ["mnemonic.go:NewSeedFromMnemonic"]}
{"id": "C55", "title": "Shipped word lists are well-formed", "statement": "Each of the nine shipped lists has exactly 2048 entries, all different, none empty, none containing a space; so every index maps to a word and back.", "quantifier": "all nine tables, all entries", "why_tests_cant": "(Finite: settled by kernel evaluation over the whole tables, lifted to the lookup lemma.)", "anchors": ["wordlists.go:EnglishWordlist", "wordlists.go:FrenchWordlist", "wordlists.go:JapaneseWordlist", "wordlists.go:ItalianWordlist", "wordlists.go:SpanishWordlist", "wordlists.go:KoreanWordlist", "wordlists.go:CzechWordlist", "wordlists.go:ChineseTraditionalWordlist", "wordlists.go:ChineseSimplifiedWordlist"]}
{"id": "C56", "title": "Curve constants are a prime-order group", "statement": "The constants set at start-up are the SEC 2 secp256k1 parameters: p is prime, n is prime, G lies on y^2 = x^3 + 7 and has order exactly n; the sampling bound of key generation is n-1.", "quantifier": "all multiples of G", "why_tests_cant": "Primality and group order are claims about all divisors / all multiples.", "anchors": ["btc.go:init", "util.go:generateRandomBigInt"]}
{"id": "C57", "title": "API calls do not modify their arguments", "statement": "AddPrivateKeys, MultiplyPrivateKeys and PublicFromHex leave every big integer and every struct reachable before the call unchanged; the key they return has a freshly allocated Key/Y number (no aliasing with the arguments).", "quantifier": "every heap, every pair of argument pointers, including aliased arguments", "why_tests_cant": "Aliasing bugs show up only for particular pointer graphs.", "anchors": ["private_key.go:AddPrivateKeys", "private_key.go:MultiplyPrivateKeys", "public_key.go:PublicFromHex", "private_key.go:GeneratePrivateKey"]}
{"id": "C58", "title": "Private keys and curve points correspond one to one", "statement": "Every affine point of the curve y^2 = x^3 + 7 over F_p is the public key of exactly one private key in [1, n-1].", "quantifier": "every curve point (about 2^256)", "why_tests_cant": "A bijection between sets of size 2^256 cannot be sampled.", "anchors": ["public_key.go:GetPublicKey"]}
{"id": "C59", "title": "Every generated key is usable end to end", "statement": "Whatever random bytes are read, a key returned by GeneratePrivateKey on either network passes CheckWIF, is returned unchanged by PrivateFromWIF and PrivateFromHex, has a public key on the curve that survives both serialisations, and has an address in both forms.", "quantifier": "every random byte stream, both networks", "why_tests_cant": "The chain is a statement about every random stream.", "anchors": ["private_key.go:GeneratePrivateKey", "private_key.go:PrivateFromWIF", "public_key.go:GetPublicKey", "public_key.go:PublicFromHex", "public_key.go:Address"]}
{"id": "C60", "title": "Public key addition is associative and cancels", "statement": "AddPublicKeys is associative wherever the intermediate sums are defined by the code (different X), and a summand is determined by the sum and the other summand.", "quantifier": "all triples of curve points", "why_tests_cant": "Quantifies over triples of points.", "anchors": ["public_key.go:AddPublicKeys"]}
{"id": "C61", "title": "Format output is a standard serialisation", "statement": "Format returns only 66-digit (compressed) or 130-digit (uncompressed) hex strings. (Violated: nil, negative and over-long coordinates give other text; the exact condition is proved.)", "quantifier": "all coordinate pairs incl. nil, negative, arbitrarily large", "why_tests_cant": "Unbounded integers and nil.", "anchors": ["public_key.go:Format"]}
{"id": "C62", "title": "Address never crashes and rejects invalid keys", "statement": "Address returns an error, never a crash, for keys without network or coordinates, and for coordinates out of range. (Violated; the exact outcome on every key is proved.)", "quantifier": "all keys, both forms, all networks", "why_tests_cant": "All nil/garbage combinations and all sizes of coordinates.", "anchors": ["public_key.go:Address", "public_key.go:Format"]}
{"id": "C63", "title": "Only BIP-39 lengths are accepted", "statement": "NewSeedFromMnemonic accepts only phrases of 12, 15, 18, 21 or 24 words. (Violated: accepted word counts are multiples of eight, and every multiple of eight has accepted phrases.)", "quantifier": "all phrases of all lengths", "why_tests_cant": "Lengths are unbounded.", "anchors": ["mnemonic.go:NewSeedFromMnemonic"]}
{"id": "C64", "title": "Four letters identify a word", "statement": "In the alphabetic lists (English, French, Italian, Spanish, Czech) the first four letters a-z of a word, ignoring accents, determine the word and its index.", "quantifier": "all pairs of entries of five tables", "why_tests_cant": "About ten million pairs; settled by kernel evaluation and lifted.", "anchors": ["wordlists.go:EnglishWordlist", "wordlists.go:FrenchWordlist", "wordlists.go:ItalianWordlist", "wordlists.go:SpanishWordlist", "wordlists.go:CzechWordlist"]}
{"id": "C65", "title": "Imported keys are valid scalars", "statement": "PrivateFromHex and PrivateFromWIF return only keys in [1, n-1]. (Violated: every natural number can be imported, 0 and n included; what bounds remain is proved.)", "quantifier": "all texts", "why_tests_cant": "All texts, all lengths.", "anchors": ["private_key.go:PrivateFromHex", "private_key.go:PrivateFromWIF"]}
{"id": "C66", "title": "A key has one WIF per network", "statement": "Two imports of the same number on one network carry the same WIF. (Violated by zero padding; true for texts of equal length.)", "quantifier": "all pairs of texts", "why_tests_cant": "All pairs of texts.", "anchors": ["private_key.go:PrivateFromHex"]}
{"id": "C67", "title": "Import from WIF is injective", "statement": "Two WIFs with the same version byte are imported with the same hex text only if they are equal.", "quantifier": "all pairs of texts", "why_tests_cant": "A collision among all texts.", "anchors": ["private_key.go:PrivateFromWIF"]}
{"id": "C68", "title": "Texts with foreign characters are rejected cleanly", "statement": "An empty WIF, or one with any character outside the Base58 alphabet (spaces, line breaks, 0, O, I, l, non-ASCII bytes), is refused by CheckWIF and PrivateFromWIF without a crash.", "quantifier": "all texts", "why_tests_cant": "All positions and all bytes.", "anchors": ["private_key.go:CheckWIF", "private_key.go:PrivateFromWIF"]}
{"id": "C69", "title": "Spacing is strict", "statement": "An empty phrase, and a phrase with a leading, trailing or doubled space, gives 'invalid mnemonic' and logs nothing, for every list without an empty word, in particular all shipped lists.", "quantifier": "all phrases, all lists", "why_tests_cant": "All texts.", "anchors": ["mnemonic.go:NewSeedFromMnemonic"]}
{"id": "C70", "title": "Case and foreign bytes are strict", "statement": "A phrase containing a byte (other than space) that occurs in no word of the list gives 'invalid mnemonic'; for all shipped lists this covers ASCII capitals and control characters such as tab and line feed.", "quantifier": "all phrases, all lists", "why_tests_cant": "All texts; all nine tables.", "anchors": ["mnemonic.go:NewSeedFromMnemonic", "wordlists.go:EnglishWordlist"]}
{"id": "C71", "title": "Random bytes are consumed exactly", "statement": "GeneratePrivateKey reads whole 32-byte blocks up to and including the accepted one and nothing beyond; NewMnemonic reads exactly the entropy; results do not depend on the bytes that follow.", "quantifier": "every random stream and every continuation", "why_tests_cant": "Quantifies over all continuations of the stream.", "anchors": ["private_key.go:GeneratePrivateKey", "util.go:generateRandomBigInt", "mnemonic.go:NewMnemonic"]}
{"id": "C72", "title": "Key addition and multiplication cancel", "statement": "a+b and a+c (or a*b and a*c with a nonzero mod n) are the same key only if b and c are equal mod n.", "quantifier": "all keys", "why_tests_cant": "All triples of integers; uses that n is prime.", "anchors": ["private_key.go:AddPrivateKeys", "private_key.go:MultiplyPrivateKeys"]}
{"id": "C73", "title": "Combining imported keys never crashes", "statement": "AddPrivateKeys and MultiplyPrivateKeys never crash on keys returned by the library. (Violated: the key imported from the empty text crashes both; the exact crash condition is proved.)", "quantifier": "all pairs of keys", "why_tests_cant": "All structs.", "anchors": ["private_key.go:AddPrivateKeys", "private_key.go:MultiplyPrivateKeys", "private_key.go:PrivateFromHex"]}
{"id": "C74", "title": "WIFs and addresses of both networks never coincide", "statement": "A main-network WIF, a test-network WIF, a main-network address and a test-network address are pairwise different texts, whatever the keys.", "quantifier": "all keys", "why_tests_cant": "All combinations of keys.", "anchors": ["private_key.go:PrivateFromHex", "public_key.go:Address", "btc.go:init"]}
{"id": "C75", "title": "Round trip for every network", "statement": "Exporting to WIF and importing again gives the key back on every network. (Violated for prefixes that are not one byte; the exact behaviour is proved.)", "quantifier": "all networks, all keys", "why_tests_cant": "Networks are arbitrary strings.", "anchors": ["private_key.go:PrivateFromWIF", "private_key.go:PrivateFromHex"]}
{"id": "C76", "title": "NewMnemonic uses exactly the first 2048 words", "statement": "The result of NewMnemonic depends on the word list only through its first 2048 entries.", "quantifier": "all lists, all streams, all counts", "why_tests_cant": "All lists of any length.", "anchors": ["mnemonic.go:NewMnemonic"]}
{"id": "C77", "title": "The shipped lists are pairwise disjoint", "statement": "No word is in two shipped lists, so a phrase accepted with one is rejected with every other. (Violated for English/French and for the two Chinese lists; all other 34 pairs are disjoint.)", "quantifier": "all pairs of tables, all phrases", "why_tests_cant": "All pairs of about 18000 words.", "anchors": ["wordlists.go:EnglishWordlist", "wordlists.go:FrenchWordlist", "mnemonic.go:NewSeedFromMnemonic"]}
{"id": "C78", "title": "Calls from several goroutines do not interfere", "statement": "When any goroutines each make one call of the package at the same time, on possibly shared keys, then for every interleaving of their memory accesses: no two of them access the same place with one writing (no data race); nothing that existed before changes; every call that returns gives what it would give alone; no call waits for another and all calls return.", "quantifier": "every reachable heap, every set of goroutines, every call and argument, every interleaving", "why_tests_cant": "The number of interleavings is astronomical, and race detectors see only the executed ones.", "anchors": ["private_key.go:AddPrivateKeys", "private_key.go:MultiplyPrivateKeys", "private_key.go:PrivateFromHex", "private_key.go:PrivateFromWIF", "private_key.go:GeneratePrivateKey", "public_key.go:GetPublicKey", "public_key.go:AddPublicKeys", "public_key.go:PublicFromHex", "public_key.go:Format", "public_key.go:Address"]}
{"id": "C79", "title": "A key times its inverse is the key one", "statement": "MultiplyPrivateKeys of a key and its inverse mod n gives the key 1. (Violated always: results below 16 are never produced.)", "quantifier": "all keys", "why_tests_cant": "All keys.", "anchors": ["private_key.go:MultiplyPrivateKeys", "private_key.go:AddPrivateKeys"]}
{"id": "C80", "title": "Ideographic spaces are accepted in Japanese phrases", "statement": "A Japanese phrase separated by U+3000 (as BIP-39 prescribes) is judged like the one separated by spaces. (Violated for every 32-byte entropy.)", "quantifier": "all phrases", "why_tests_cant": "All phrases.", "anchors": ["mnemonic.go:NewSeedFromMnemonic", "wordlists.go:JapaneseWordlist"]}
{"id": "C81", "title": "Too short word lists are refused", "statement": "NewMnemonic returns 'invalid wordlist' for a list of fewer than 2048 words. (Violated: crashes; the error is returned exactly for nil.)", "quantifier": "all lists, all streams", "why_tests_cant": "All lists.", "anchors": ["mnemonic.go:NewMnemonic"]}
{"id": "C82", "title": "Both Unicode spellings of a phrase are judged alike", "statement": "A phrase with composed accented letters is judged like the decomposed one. (Violated for French and Spanish: composed letters are always rejected.)", "quantifier": "all phrases", "why_tests_cant": "All phrases.", "anchors": ["mnemonic.go:NewSeedFromMnemonic", "wordlists.go:FrenchWordlist", "wordlists.go:SpanishWordlist"]}
{"id": "C83", "title": "Concurrent sequences of calls compute what they compute alone", "statement": "Goroutines that each make any sequence of calls, feeding the keys returned by earlier calls into later ones and sharing keys that existed before, get under every interleaving exactly the results the value-level model computes for their own sequence; there are no data races and nothing that existed before changes.", "quantifier": "every reachable heap, every family of call sequences, every interleaving", "why_tests_cant": "Sequences and interleavings are unbounded.", "anchors": ["private_key.go:AddPrivateKeys", "private_key.go:MultiplyPrivateKeys", "private_key.go:PrivateFromHex", "public_key.go:GetPublicKey", "public_key.go:AddPublicKeys", "public_key.go:Format", "public_key.go:Address"]}
{"id": "C84", "title": "Generated keys are uniform", "statement": "Among the random streams of any given length, as many make GeneratePrivateKey return the key v1 as make it return v2, for any two keys in its range [16^63, n-2], by a length-preserving exchange of streams; and exactly (2^256 - (n-1-16^63))^m streams of m blocks give no key.", "quantifier": "every pair of keys in the range, every stream length", "why_tests_cant": "Counting over 256^L streams.", "anchors": ["private_key.go:GeneratePrivateKey", "util.go:generateRandomBigInt"]}
{"id": "C85", "title": "Generated phrases are equally likely", "statement": "Every phrase NewMnemonic can return is returned for exactly the same number of random streams of any length; the number of phrases it can return is the number of entropies whose checksum prefix passes.", "quantifier": "every list without repeated words or spaces, every BIP-39 word count, every stream length", "why_tests_cant": "Counting over 256^L streams.", "anchors": ["mnemonic.go:NewMnemonic"]}
{"id": "C86", "title": "One phrase in 256 is accepted", "statement": "Of the phrases of 8j list words exactly 256^(11j-1) are accepted by NewSeedFromMnemonic, one in 256, for every list, passphrase and hash function.", "quantifier": "every word list of 2048 distinct words, every j, every passphrase, every hash", "why_tests_cant": "Sets of size 2048^(8j).", "anchors": ["mnemonic.go:NewSeedFromMnemonic"]}
{"id": "C87", "title": "Key arithmetic evaluates expressions", "statement": "Any tree of AddPrivateKeys and MultiplyPrivateKeys calls that succeeds returns the key of the value of the corresponding integer expression mod n; expressions equal mod n give identical keys (number, text, WIF, network).", "quantifier": "every expression tree over every set of keys", "why_tests_cant": "Trees are unbounded in size.", "anchors": ["private_key.go:AddPrivateKeys", "private_key.go:MultiplyPrivateKeys"]}
{"id": "C88", "title": "Public key arithmetic commutes with private key arithmetic", "statement": "Any tree of AddPublicKeys calls over the public keys of given private keys returns the public key of the sum of the private keys, when no call adds two points with the same X.", "quantifier": "every tree of additions, every set of keys", "why_tests_cant": "Trees are unbounded in size.", "anchors": ["public_key.go:AddPublicKeys", "public_key.go:GetPublicKey", "private_key.go:AddPrivateKeys"]}
{"id": "C89", "title": "No program can change the curve parameters", "statement": "Whatever sequence of calls, allocations and writes a program performs on keys, numbers and networks it can reach, the unexported secp256k1 parameters keep their values, and no pointer the program can get is a pointer to one of them.", "quantifier": "every program of calls and writes, all networks", "why_tests_cant": "Programs are unbounded; leaks show only in particular sequences.", "anchors": ["btc.go:init", "public_key.go:GetPublicKey", "private_key.go:AddPrivateKeys", "struct.go:PrivateKey"]}
{"id": "C90", "title": "Results share no memory with arguments", "statement": "After a call returns, changing the arguments (or anything that existed before the call) does not change the result, and changing the result does not change anything older. (Violated: the network object is shared; everything else is proved to be separate.)", "quantifier": "every reachable state, every call, every later modification", "why_tests_cant": "All later modifications of memory.", "anchors": ["private_key.go:AddPrivateKeys", "private_key.go:PrivateFromHex", "public_key.go:GetPublicKey", "public_key.go:AddPublicKeys", "public_key.go:PublicFromHex"]}
{"id": "C91", "title": "Calls use the present values of modified keys", "statement": "In every state a program can reach by calls and by overwriting keys, numbers and networks itself, each call gives the result of the value-level model on the present values behind its arguments.", "quantifier": "every program of calls and writes, every call", "why_tests_cant": "Programs are unbounded.", "anchors": ["private_key.go:AddPrivateKeys", "private_key.go:MultiplyPrivateKeys", "public_key.go:GetPublicKey", "public_key.go:AddPublicKeys", "public_key.go:PublicFromHex"]}
{"id": "C92", "title": "From the text of a key to its address", "statement": "For every hexadecimal text of any even length and case, and for every Base58Check text with a version byte, whose number k is in [1, n-1]: importing, GetPublicKey and Address all succeed and give exactly the address defined by Bitcoin for k, the chosen form and the network's version byte; the definition determines the address.", "quantifier": "all key texts, both forms, every network with a one-byte address prefix", "why_tests_cant": "All texts of any length.", "anchors": ["private_key.go:PrivateFromHex", "private_key.go:PrivateFromWIF", "public_key.go:GetPublicKey", "public_key.go:Address"]}
{"id": "C93", "title": "Equal addresses mean a hash collision", "statement": "If two private keys in [1, n-1], or one key in its two forms, have the same address text on any networks, then the version bytes agree and two different point serialisations with equal hash160 are exhibited.", "quantifier": "all pairs of keys, forms and version bytes", "why_tests_cant": "All pairs of keys.", "anchors": ["public_key.go:Address", "public_key.go:GetPublicKey", "public_key.go:Format"]}
{"id": "C94", "title": "Key generation ends with probability one", "statement": "The proportion of random streams of m blocks on which GeneratePrivateKey has found no key is at most 1/15^m and tends to zero.", "quantifier": "every m, every network with a well-formed prefix", "why_tests_cant": "A limit over all stream lengths.", "anchors": ["private_key.go:GeneratePrivateKey", "util.go:generateRandomBigInt"]}
{"id": "C95", "title": "Every phrase but the last word has eight completions", "statement": "For any 8j-1 words of a list exactly eight list words complete them to a phrase NewSeedFromMnemonic accepts; replacing the last word of an accepted phrase by a word whose position has the same quotient by 256 is always detected.", "quantifier": "every word list of 2048 distinct words, every j, every first words, every passphrase and hash", "why_tests_cant": "2048^(8j-1) beginnings.", "anchors": ["mnemonic.go:NewSeedFromMnemonic"]}
{"id": "C96", "title": "Results depend on nothing else", "statement": "Sums and products of keys depend only on networks, WIFs and numbers mod n (never on Hex); the public key only on number and network; PrivateFromHex on the network only through PrivKeyPrefix; PrivateFromWIF not at all on the network; Address only on coordinates and PubKeyHashPrefix; AddPublicKeys not on its flag.", "quantifier": "all keys, networks, curve packages", "why_tests_cant": "Non-dependence is a statement about all pairs of inputs.", "anchors": ["private_key.go:AddPrivateKeys", "private_key.go:MultiplyPrivateKeys", "private_key.go:PrivateFromHex", "private_key.go:PrivateFromWIF", "public_key.go:GetPublicKey", "public_key.go:Address", "public_key.go:AddPublicKeys"]}
{"id": "C97", "title": "Networks are compared by value", "statement": "In every state a program can reach, AddPrivateKeys, MultiplyPrivateKeys and AddPublicKeys report 'different network' exactly when the contents of the two network objects differ at the time of the call; the pointers play no role.", "quantifier": "every reachable state, all keys", "why_tests_cant": "All heaps and pointer graphs.", "anchors": ["private_key.go:AddPrivateKeys", "private_key.go:MultiplyPrivateKeys", "public_key.go:AddPublicKeys"]}
{"id": "C98", "title": "A nil network is refused with an error", "statement": "Every function refuses a nil network with an error. (Violated: PrivateFromHex crashes on every text, PrivateFromWIF accepts nil, and Address of a key without network crashes; but no other function returns a private key without network.)", "quantifier": "all texts, all keys", "why_tests_cant": "All inputs.", "anchors": ["private_key.go:PrivateFromHex", "private_key.go:PrivateFromWIF", "private_key.go:GeneratePrivateKey", "private_key.go:AddPrivateKeys", "public_key.go:Address"]}
{"id": "C99", "title": "One text in 2^32 passes CheckWIF", "statement": "Of the 256^N Base58 texts of N >= 4 bytes exactly 256^(N-4) pass CheckWIF, for every hash function.", "quantifier": "every N, every hash function", "why_tests_cant": "Sets of size 256^N.", "anchors": ["private_key.go:CheckWIF"]}
{"id": "C100", "title": "Every correct curve package gives the same results", "statement": "Two curve packages that meet the contract may differ (for example in which square root GetY returns) but give the same public keys, the same imported keys or errors, and the same sums.", "quantifier": "all pairs of packages meeting the contract, all keys and texts", "why_tests_cant": "All implementations of the dependency.", "anchors": ["public_key.go:GetPublicKey", "public_key.go:PublicFromHex", "public_key.go:AddPublicKeys"]}
{"id": "C101", "title": "Concurrent calls share the random source fairly", "statement": "When any number of goroutines run GeneratePrivateKey and NewMnemonic at once, in any order, every byte of the random source goes to at most one call and none is lost; each call ends exactly as if made alone on the bytes it was handed; two calls return the same key number (or, for the same list and length, the same phrase) only if the source delivers the same block twice.", "quantifier": "every set of calls, every source, every order in which requests are served", "why_tests_cant": "All interleavings of unboundedly many calls on all sources.", "anchors": ["private_key.go:GeneratePrivateKey", "util.go:generateRandomBigInt", "mnemonic.go:NewMnemonic"]}
{"id": "C102", "title": "The code, statement by statement, computes the model", "statement": "The program that follows the Go text statement by statement, with assignable variables, for loops, break, early returns and retries by tail call, ends exactly as the function model says: same result, same error, same crash, same lines logged, same random bytes left; only GeneratePrivateKey and NewMnemonic read random bytes and only NewSeedFromMnemonic logs.", "quantifier": "all arguments (nil pointers included), all hash functions, all random sources and logs", "why_tests_cant": "Equality of two programs on all inputs; the loops have no bound in advance.", "anchors": ["private_key.go:CheckWIF", "private_key.go:PrivateFromWIF", "private_key.go:PrivateFromHex", "private_key.go:GeneratePrivateKey", "private_key.go:AddPrivateKeys", "private_key.go:MultiplyPrivateKeys", "public_key.go:PublicFromHex", "public_key.go:GetPublicKey", "public_key.go:Format", "public_key.go:Address", "public_key.go:AddPublicKeys", "mnemonic.go:NewSeedFromMnemonic", "mnemonic.go:NewMnemonic", "util.go:generateRandomBigInt"]}
{"id": "C103", "title": "Every call ends", "statement": "Every call of every function ends, by returning or by a crash: the loops of Format take at most 65 tests, those of NewMnemonic fewer than 300, those of NewSeedFromMnemonic fewer than 65+(words+1)(length of list+11), and GeneratePrivateKey calls itself at most once per byte the random source delivers.", "quantifier": "all arguments, all random sources that end", "why_tests_cant": "Termination for all inputs; a test only sees that the runs it makes end.", "anchors": ["public_key.go:Format", "mnemonic.go:NewSeedFromMnemonic", "mnemonic.go:NewMnemonic", "private_key.go:GeneratePrivateKey"]}
{"id": "C104", "title": "Key functions branch the same way for every key", "statement": "The conditions evaluated by the package's own code are the same for every key: calls of PrivateFromHex, PrivateFromWIF, AddPrivateKeys, MultiplyPrivateKeys and GetPublicKey that return a key take one and the same path; CheckWIF takes the same path whether the checksum is right or not; GeneratePrivateKey shows only how many numbers were refused; Format only the number of digits of the coordinates and the parity of Y.", "quantifier": "every key, network, hash function, curve package and state", "why_tests_cant": "Says that no pair of the 2^256 keys can be told apart by the control flow of the package.", "anchors": ["private_key.go:CheckWIF", "private_key.go:PrivateFromWIF", "private_key.go:PrivateFromHex", "private_key.go:GeneratePrivateKey", "private_key.go:AddPrivateKeys", "private_key.go:MultiplyPrivateKeys", "public_key.go:GetPublicKey", "public_key.go:Format"]}
{"id": "C105", "title": "Mnemonic functions branch the same way for every phrase", "statement": "Calls of NewMnemonic, and of NewSeedFromMnemonic, that succeed take one and the same path. (False: the path determines the whole phrase. True: it does not depend on the word list, nor on the passphrase.)", "quantifier": "every phrase, word list, random source and hash function", "why_tests_cant": "Says that the path is an injective function of the phrase, for all phrases.", "anchors": ["mnemonic.go:NewMnemonic", "mnemonic.go:NewSeedFromMnemonic"]}
{"id": "C106", "title": "The source text is a program", "statement": "The text of the six Go files, embedded byte for byte, is in the part of Go whose meaning is defined here: it parses, into the declarations used below, and printing these declarations gives the text back up to layout. The functions, their signatures, the struct types and the package variables are exactly the modelled ones.", "quantifier": "the whole source text of the package except the word lists", "why_tests_cant": "Concerns the text, not its behaviour on inputs.", "anchors": ["btc.go:init", "struct.go:PrivateKey", "util.go:generateRandomBigInt", "util.go:bigIntToHex", "private_key.go:CheckWIF", "private_key.go:PrivateFromWIF", "private_key.go:PrivateFromHex", "private_key.go:GeneratePrivateKey", "private_key.go:AddPrivateKeys", "private_key.go:MultiplyPrivateKeys", "public_key.go:PublicFromHex", "public_key.go:GetPublicKey", "public_key.go:Format", "public_key.go:Address", "public_key.go:AddPublicKeys", "mnemonic.go:NewSeedFromMnemonic", "mnemonic.go:NewMnemonic"]}
{"id": "C107", "title": "What init sets up, from the text", "statement": "Running the text of init from the zero state ends, and leaves the parameters of secp256k1 and of the two networks in place; no call of any exported function in any session changes them.", "quantifier": "every hash function, curve package, random source, sequence of calls and allocations", "why_tests_cant": "A test can run a few call sequences; this is about all of them.", "anchors": ["btc.go:init", "btc.go:MainNetwork", "btc.go:TestNetwork"]}
{"id": "C108", "title": "The text computes the model", "statement": "The text of every exported function, run statement by statement on a memory with pointers, returns (or fails, or panics) exactly as the model says, for all arguments, aliased and nil ones included; it changes nothing that existed before, advances the random source and writes the log exactly as the model says.", "quantifier": "every function, argument, session, hash function, curve package and random source", "why_tests_cant": "Equality of two programs on all inputs and memories.", "anchors": ["btc.go:init", "struct.go:PrivateKey", "util.go:generateRandomBigInt", "util.go:bigIntToHex", "private_key.go:CheckWIF", "private_key.go:PrivateFromWIF", "private_key.go:PrivateFromHex", "private_key.go:GeneratePrivateKey", "private_key.go:AddPrivateKeys", "private_key.go:MultiplyPrivateKeys", "public_key.go:PublicFromHex", "public_key.go:GetPublicKey", "public_key.go:Format", "public_key.go:Address", "public_key.go:AddPublicKeys", "mnemonic.go:NewSeedFromMnemonic", "mnemonic.go:NewMnemonic"]}
{"id": "C109", "title": "Every call ends, on the text", "statement": "Every well-typed call of an exported function ends, in exactly one way, in any state; it changes nothing that could be read before and assigns to no package variable.", "quantifier": "every exported function, argument list of the right types, and state", "why_tests_cant": "Termination and determinism for all inputs.", "anchors": ["btc.go:init", "struct.go:PrivateKey", "util.go:generateRandomBigInt", "util.go:bigIntToHex", "private_key.go:CheckWIF", "private_key.go:PrivateFromWIF", "private_key.go:PrivateFromHex", "private_key.go:GeneratePrivateKey", "private_key.go:AddPrivateKeys", "private_key.go:MultiplyPrivateKeys", "public_key.go:PublicFromHex", "public_key.go:GetPublicKey", "public_key.go:Format", "public_key.go:Address", "public_key.go:AddPublicKeys", "mnemonic.go:NewSeedFromMnemonic", "mnemonic.go:NewMnemonic"]}
{"id": "C110", "title": "From a private key to its Bitcoin address, on the text", "statement": "Running the texts of PrivateFromHex (or PrivateFromWIF, or GeneratePrivateKey), GetPublicKey and Address one after the other gives the Bitcoin address of the private key, as defined by the curve, the serialisation of points and Base58Check.", "quantifier": "every valid private key, every network with a one-byte version, every session, both forms", "why_tests_cant": "2^256 keys; and the specification is independent of the code.", "anchors": ["private_key.go:PrivateFromHex", "private_key.go:PrivateFromWIF", "private_key.go:GeneratePrivateKey", "public_key.go:GetPublicKey", "public_key.go:Address"]}
{"id": "C111", "title": "The faults are in the text", "statement": "Run on the text: NewSeedFromMnemonic never returns a seed; it refuses a phrase of 24 words that NewMnemonic has just made; it panics on all phrases of 15, 18 and 21 words NewMnemonic makes and refuses all of 12; what it logs determines the phrase; and the keys 2 and 3 cannot be added.", "quantifier": "every phrase, word list, hash function and session", "why_tests_cant": "That a fault affects every input of a kind cannot be seen from examples; and these are statements about the source text itself, so they cannot come from an error in the reading of the functions.", "anchors": ["mnemonic.go:NewSeedFromMnemonic", "mnemonic.go:NewMnemonic", "private_key.go:AddPrivateKeys"]}
{"id": "C112", "title": "Exactly which calls crash", "statement": "A call of an exported function panics if and only if it is in an explicit table, whose conditions are about the arguments and the values they point to: a nil number or network, a WIF text too short for its offsets, a point text of the wrong kind, a phrase whose words run past the list or give bits of the wrong length, and so on. Every other call returns.", "quantifier": "every call of every exported function in every session, all hash functions, curve packages that meet the contract and random sources", "why_tests_cant": "Tests show some crashes and some returns; an exact border for all inputs and states cannot be tested.", "anchors": ["util.go:generateRandomBigInt", "util.go:bigIntToHex", "private_key.go:CheckWIF", "private_key.go:PrivateFromWIF", "private_key.go:PrivateFromHex", "private_key.go:GeneratePrivateKey", "private_key.go:AddPrivateKeys", "private_key.go:MultiplyPrivateKeys", "public_key.go:PublicFromHex", "public_key.go:GetPublicKey", "public_key.go:Format", "public_key.go:Address", "public_key.go:AddPublicKeys", "mnemonic.go:NewSeedFromMnemonic", "mnemonic.go:NewMnemonic"]}
{"id": "C113", "title": "Programs that check their inputs never crash", "statement": "A program that starts from init, passes to the package only texts it has checked (numbers from 1 to n-1, points on the curve, networks with byte prefixes) and objects the package returned, never sees a panic, however many calls it makes and in whatever order; every key it holds stays in order (number in range, Hex field agreeing, coordinates on the curve), and each has a public key and the Bitcoin address of its number.", "quantifier": "every sequence of checked calls, networks with byte prefixes, hash functions, curve packages that meet the contract and random sources", "why_tests_cant": "An invariant over all call sequences of any length.", "anchors": ["util.go:generateRandomBigInt", "util.go:bigIntToHex", "private_key.go:CheckWIF", "private_key.go:PrivateFromWIF", "private_key.go:PrivateFromHex", "private_key.go:GeneratePrivateKey", "private_key.go:AddPrivateKeys", "private_key.go:MultiplyPrivateKeys", "public_key.go:PublicFromHex", "public_key.go:GetPublicKey", "public_key.go:Format", "public_key.go:Address", "public_key.go:AddPublicKeys", "mnemonic.go:NewSeedFromMnemonic", "mnemonic.go:NewMnemonic"]}
{"id": "C114", "title": "A call depends on nothing but what its arguments show", "statement": "Replace each pointer argument of a call by what it points to. Two calls that then ask the same, made in any two states of any two programs with the same random bytes, return values that show the same, panic alike, log the same lines and leave the same random bytes. So earlier calls, aliasing between keys and where objects live never matter, and two calls of which at most one draws random bytes can be swapped.", "quantifier": "every two calls in every two sessions with any networks, hash functions and curve packages that compute the same", "why_tests_cant": "A statement about pairs of arbitrary program states; a hidden dependence (a cache, a shared number, a package variable) shows only for particular histories.", "anchors": ["util.go:generateRandomBigInt", "util.go:bigIntToHex", "private_key.go:CheckWIF", "private_key.go:PrivateFromWIF", "private_key.go:PrivateFromHex", "private_key.go:GeneratePrivateKey", "private_key.go:AddPrivateKeys", "private_key.go:MultiplyPrivateKeys", "public_key.go:PublicFromHex", "public_key.go:GetPublicKey", "public_key.go:Format", "public_key.go:Address", "public_key.go:AddPublicKeys", "mnemonic.go:NewSeedFromMnemonic", "mnemonic.go:NewMnemonic"]}
{"id": "C115", "title": "Which blocks of the code can run", "statement": "Of the 55 blocks in braces below the bodies of the functions exactly four never run: the error returns after the second decoding in CheckWIF, after base58.Decode in PrivateFromWIF (CheckWIF has already decoded it), and after the last decoding in PrivateFromHex and in Address. Any of the four can be replaced by any statement whatever without any call ending differently. Every other block is needed: some call in some session notices if it is replaced.", "quantifier": "every replacement, every call, every state, all hash functions and curve packages (dead blocks); every other block of the text (live ones)", "why_tests_cant": "No test can show that a branch is never taken; coverage can only fail to reach it.", "anchors": ["util.go:generateRandomBigInt", "util.go:bigIntToHex", "private_key.go:CheckWIF", "private_key.go:PrivateFromWIF", "private_key.go:PrivateFromHex", "private_key.go:GeneratePrivateKey", "private_key.go:AddPrivateKeys", "private_key.go:MultiplyPrivateKeys", "public_key.go:PublicFromHex", "public_key.go:GetPublicKey", "public_key.go:Format", "public_key.go:Address", "public_key.go:AddPublicKeys", "mnemonic.go:NewSeedFromMnemonic", "mnemonic.go:NewMnemonic"]}
{"id": "C116", "title": "Programs may overwrite keys, networks and package variables", "statement": "A program may, between its calls, assign to every field of every key and network it can reach, to the numbers in them, to MainNetwork and TestNetwork and to rand.Reader. Every call, run on the text, still ends and answers what the model computes from the values that are there at the time of the call; calls that ask the same show the same; the table of crashes of C112 holds; and no such program can reach or change the parameters of the curve.", "quantifier": "every program of calls and writes, every call, all hash functions and curve packages that return new numbers", "why_tests_cant": "An aliasing fault (a result that shares a number with the curve parameters or with another key) shows only for programs that write through it.", "anchors": ["util.go:generateRandomBigInt", "util.go:bigIntToHex", "private_key.go:CheckWIF", "private_key.go:PrivateFromWIF", "private_key.go:PrivateFromHex", "private_key.go:GeneratePrivateKey", "private_key.go:AddPrivateKeys", "private_key.go:MultiplyPrivateKeys", "public_key.go:PublicFromHex", "public_key.go:GetPublicKey", "public_key.go:Format", "public_key.go:Address", "public_key.go:AddPublicKeys", "mnemonic.go:NewSeedFromMnemonic", "mnemonic.go:NewMnemonic", "btc.go:init", "struct.go:PrivateKey", "struct.go:PublicKey", "struct.go:Network"]}
{"id": "C117", "title": "The way of a call through the text shows nothing of the key", "statement": "Insert into the text, at the start of every function and of every block, a statement that logs the name of the function and the number of the block. The marked program answers every call as the text does. Calls of PrivateFromHex, PrivateFromWIF, AddPrivateKeys, MultiplyPrivateKeys, GetPublicKey and AddPublicKeys that return a key log one and the same list of lines; CheckWIF logs the same whether the checksum is right or not; GeneratePrivateKey shows only how many numbers were refused; Format and Address only the number of digits of the coordinates and the parity of Y.", "quantifier": "every key, network, hash function, curve package and state; the marked program is computed from the parsed text", "why_tests_cant": "Says that no pair of the 2^256 keys can be told apart by the blocks that are run.", "anchors": ["util.go:generateRandomBigInt", "util.go:bigIntToHex", "private_key.go:CheckWIF", "private_key.go:PrivateFromWIF", "private_key.go:PrivateFromHex", "private_key.go:GeneratePrivateKey", "private_key.go:AddPrivateKeys", "private_key.go:MultiplyPrivateKeys", "public_key.go:PublicFromHex", "public_key.go:GetPublicKey", "public_key.go:Format", "public_key.go:Address", "public_key.go:AddPublicKeys", "mnemonic.go:NewSeedFromMnemonic", "mnemonic.go:NewMnemonic"]}
{"id": "C118", "title": "Which parameters matter", "statement": "In every program a parameter whose name does not occur in the body of its function has no effect on any call. In the text these are exactly two: the passphrase of NewSeedFromMnemonic and the flag of AddPublicKeys. Each of the other 24 makes a difference in some call.", "quantifier": "every program, function and parameter; all arguments, states, hash functions and curve packages", "why_tests_cant": "That a parameter never matters is a statement about all pairs of calls.", "anchors": ["util.go:generateRandomBigInt", "util.go:bigIntToHex", "private_key.go:CheckWIF", "private_key.go:PrivateFromWIF", "private_key.go:PrivateFromHex", "private_key.go:GeneratePrivateKey", "private_key.go:AddPrivateKeys", "private_key.go:MultiplyPrivateKeys", "public_key.go:PublicFromHex", "public_key.go:GetPublicKey", "public_key.go:Format", "public_key.go:Address", "public_key.go:AddPublicKeys", "mnemonic.go:NewSeedFromMnemonic", "mnemonic.go:NewMnemonic"]}
{"id": "C119", "title": "The way of a call through the text shows nothing of the phrase", "statement": "Calls of NewMnemonic, and of NewSeedFromMnemonic, that succeed pass the same blocks of the text, for phrases of as many words and the same list. (False: the blocks that NewMnemonic passes determine the phrase, and those of NewSeedFromMnemonic differ for different phrases. True: the blocks of NewMnemonic do not depend on the word list, those of NewSeedFromMnemonic not on the passphrase.)", "quantifier": "every phrase, word list, random source and hash function", "why_tests_cant": "A statement about pairs of executions of the text.", "anchors": ["mnemonic.go:NewMnemonic", "mnemonic.go:NewSeedFromMnemonic"]}
{"id": "C120", "title": "Lines are only ever added to the log", "statement": "Every call keeps the lines logged before it, and neither what it returns or leaves behind nor the lines it adds depend on them.", "quantifier": "every program of the modelled part of Go, and so every function of the repository; all arguments, states, hash functions and curve packages", "why_tests_cant": "Tests see some logs; this is about all of them, and about all programs.", "anchors": ["util.go:generateRandomBigInt", "util.go:bigIntToHex", "private_key.go:CheckWIF", "private_key.go:PrivateFromWIF", "private_key.go:PrivateFromHex", "private_key.go:GeneratePrivateKey", "private_key.go:AddPrivateKeys", "private_key.go:MultiplyPrivateKeys", "public_key.go:PublicFromHex", "public_key.go:GetPublicKey", "public_key.go:Format", "public_key.go:Address", "public_key.go:AddPublicKeys", "mnemonic.go:NewSeedFromMnemonic", "mnemonic.go:NewMnemonic"]}
{"id": "C121", "title": "Goroutines may run the functions of the text at the same time", "statement": "Goroutines that call functions of the program, as parsed from the text, interleaved in any way one memory access at a time and sharing keys, never race, never change what existed before, and each ends as it would end alone. The same holds for functions added to the package that write only to what they have made, which a check on their text decides.", "quantifier": "every interleaving of every number of goroutines; all functions of the repository and all added functions that pass the check; all arguments, memories, hash functions and curve packages that keep to their own memory", "why_tests_cant": "The race detector sees the schedules that happen; this is about all schedules, and about functions not yet written.", "anchors": ["util.go:generateRandomBigInt", "util.go:bigIntToHex", "private_key.go:CheckWIF", "private_key.go:PrivateFromWIF", "private_key.go:PrivateFromHex", "private_key.go:GeneratePrivateKey", "private_key.go:AddPrivateKeys", "private_key.go:MultiplyPrivateKeys", "public_key.go:PublicFromHex", "public_key.go:GetPublicKey", "public_key.go:Format", "public_key.go:Address", "public_key.go:AddPublicKeys", "mnemonic.go:NewSeedFromMnemonic", "mnemonic.go:NewMnemonic"]}
{"id": "C122", "title": "Exactly which calls return which error", "statement": "A table with one line per exported function says which calls return which error, and a call run on the text returns an error exactly if the table says so. With the table of C112 this decides for every call whether it crashes, fails or succeeds. An error that shows a character never shows a hexadecimal digit, so no part of a key.", "quantifier": "all sessions and states, all requests with determined outcome, all errors, all hash functions and all curve packages that keep the contract", "why_tests_cant": "The conditions are exact in both directions and quantify over all texts, keys, phrases and word lists; tests of error paths look at a few bad inputs and cannot show that nothing else fails.", "anchors": ["util.go:generateRandomBigInt", "util.go:bigIntToHex", "private_key.go:CheckWIF", "private_key.go:PrivateFromWIF", "private_key.go:PrivateFromHex", "private_key.go:GeneratePrivateKey", "private_key.go:AddPrivateKeys", "private_key.go:MultiplyPrivateKeys", "public_key.go:PublicFromHex", "public_key.go:GetPublicKey", "public_key.go:Format", "public_key.go:Address", "public_key.go:AddPublicKeys", "mnemonic.go:NewSeedFromMnemonic", "mnemonic.go:NewMnemonic"]}
{"id": "C123", "title": "No call does more work than its arguments say", "statement": "If each function and each block logs a line as it is entered, a call logs no more lines than a bound that depends on the call only: a constant of at most 812 for all but two functions, for NewSeedFromMnemonic a product of the number of words and the length of the list, for GeneratePrivateKey a multiple of the random bytes. The bounds hold however the call ends, with a result, an error or a panic. For functions without loops they come from a static analysis of the text that is proved right for every program of the language.", "quantifier": "all requests, states and outcomes, all hash functions and all curve packages; the analysis: all programs, functions, arguments and states", "why_tests_cant": "Tests time a few calls; they cannot show that no argument, no key object and no word list makes a call run longer.", "anchors": ["util.go:generateRandomBigInt", "util.go:bigIntToHex", "private_key.go:CheckWIF", "private_key.go:PrivateFromWIF", "private_key.go:PrivateFromHex", "private_key.go:GeneratePrivateKey", "private_key.go:AddPrivateKeys", "private_key.go:MultiplyPrivateKeys", "public_key.go:PublicFromHex", "public_key.go:GetPublicKey", "public_key.go:Format", "public_key.go:Address", "public_key.go:AddPublicKeys", "mnemonic.go:NewSeedFromMnemonic", "mnemonic.go:NewMnemonic"]}
{"id": "C124", "title": "Three tables say all there is to say about every call", "statement": "One line per exported function says what a successful call returns, how many random bytes it takes and what it logs, in terms of Base58Check, hexadecimal numerals, the curve group and words for bits. The lines determine the results. Together with the tables of crashes (C112) and errors (C122) they are a complete specification: a call of the parsed text returns a value exactly if it neither crashes nor fails by the tables and the value is the one of its line.", "quantifier": "all requests, sessions, returned values, rests of the random bytes and logged lines, all hash functions and all curve packages that keep the contract", "why_tests_cant": "Tests compare the outputs of a few calls with known values; they say nothing of other inputs and leave no statement of what the outputs are.", "anchors": ["util.go:generateRandomBigInt", "util.go:bigIntToHex", "private_key.go:CheckWIF", "private_key.go:PrivateFromWIF", "private_key.go:PrivateFromHex", "private_key.go:GeneratePrivateKey", "private_key.go:AddPrivateKeys", "private_key.go:MultiplyPrivateKeys", "public_key.go:PublicFromHex", "public_key.go:GetPublicKey", "public_key.go:Format", "public_key.go:Address", "public_key.go:AddPublicKeys", "mnemonic.go:NewSeedFromMnemonic", "mnemonic.go:NewMnemonic"]}
{"id": "C125", "title": "Only the number or point that a computation with keys stands for matters", "statement": "A program reads or draws keys, adds and multiplies them, takes public keys, adds those, writes keys out and reads them back, with any other calls in between. At the end each private key has the number of its computation modulo n, a text that spells it and a WIF of it that passes the check and can be read back; each public key has the coordinates of its point. Two computations that stand for the same point print the same text and, under equal prefixes, the same address; in particular the public key of a sum of private keys and the sum of their public keys.", "quantifier": "all programs, computations of any length and nesting, states, networks with a WIF prefix of one byte, hash functions and curve packages that keep the contract", "why_tests_cant": "Tests run a few fixed sums; they cannot cover every way in which keys are combined, printed, read back and combined again.", "anchors": ["util.go:generateRandomBigInt", "util.go:bigIntToHex", "private_key.go:CheckWIF", "private_key.go:PrivateFromWIF", "private_key.go:PrivateFromHex", "private_key.go:GeneratePrivateKey", "private_key.go:AddPrivateKeys", "private_key.go:MultiplyPrivateKeys", "public_key.go:PublicFromHex", "public_key.go:GetPublicKey", "public_key.go:Format", "public_key.go:Address", "public_key.go:AddPublicKeys", "mnemonic.go:NewSeedFromMnemonic", "mnemonic.go:NewMnemonic"]}
{"id": "C126", "title": "A program that uses the package cannot see its memory", "statement": "A program makes a call, looks at everything it can see (returned keys with their fields, errors, panics, lines of the log) and decides what to do next; it may also build keys of its own, which may share numbers. All it sees is computed by a function on values without pointers or memory, as long as it does not draw again after the random source has failed. So it sees the same whatever calls were made before it, however its keys share memory, and with any two curve packages that compute the same. Each such program runs to its end.", "quantifier": "all programs (branching on all they see), states they start in, networks, random sources, hash functions and curve packages", "why_tests_cant": "Tests run a few fixed sequences of calls from one state of the memory; interference between calls through shared memory shows in sequences that nobody wrote down.", "anchors": ["util.go:generateRandomBigInt", "util.go:bigIntToHex", "private_key.go:CheckWIF", "private_key.go:PrivateFromWIF", "private_key.go:PrivateFromHex", "private_key.go:GeneratePrivateKey", "private_key.go:AddPrivateKeys", "private_key.go:MultiplyPrivateKeys", "public_key.go:PublicFromHex", "public_key.go:GetPublicKey", "public_key.go:Format", "public_key.go:Address", "public_key.go:AddPublicKeys", "mnemonic.go:NewSeedFromMnemonic", "mnemonic.go:NewMnemonic"]}
{"id": "C127", "title": "Changing the marked lines repairs the functions for private keys", "statement": "In a text of seven functions that differs from the repository's in marked lines only, the properties hold that the repository violates: CheckWIF says yes exactly to Base58Check texts and nothing panics; a text or WIF is imported exactly if it is that of a number in [1, n-1] with the prefix of the network, in the compressed form too; addresses and WIFs of other networks are refused, and so is a nil network; sums and products of different keys are always keys with standard text and WIF, except for a zero sum; every number in [1, n-1] can be generated. Each refusal returns the error that names its reason. So changing those lines is enough.", "quantifier": "all texts, WIFs, networks, keys, random sources, states, hash functions and curve packages", "why_tests_cant": "A test of a changed program shows that some failing cases pass now; it does not show that no other line has a part in the fault, nor that the change breaks nothing else.", "anchors": ["util.go:generateRandomBigInt", "util.go:bigIntToHex", "private_key.go:CheckWIF", "private_key.go:PrivateFromWIF", "private_key.go:PrivateFromHex", "private_key.go:GeneratePrivateKey", "private_key.go:AddPrivateKeys", "private_key.go:MultiplyPrivateKeys"]}
{"id": "C128", "title": "Changing the marked lines repairs the functions for phrases", "statement": "In a text of NewMnemonic and NewSeedFromMnemonic that differs from the repository's in marked lines only, the properties hold that the repository violates: NewMnemonic returns the BIP-39 phrase of the random bytes it takes, every BIP-39 phrase can be generated, and other word counts and lists are refused with an error and no panic; NewSeedFromMnemonic accepts a text exactly if it is a BIP-39 phrase of the list, so only 12, 15, 18, 21 or 24 words, never panics and logs nothing; what the one generates the other accepts. Each refusal returns the error that names its reason.", "quantifier": "all texts, passphrases, word lists, word counts, random sources, states and hash functions", "why_tests_cant": "A test of a changed program shows that some phrases pass now; it does not show that all phrases do, nor that no wrong phrase does.", "anchors": ["mnemonic.go:NewSeedFromMnemonic", "mnemonic.go:NewMnemonic"]}
{"id": "C129", "title": "Changing the marked lines repairs the functions for public keys", "statement": "In a text of PublicFromHex and AddPublicKeys that differs from the repository's in marked lines only, the properties hold that the repository violates: a text is imported exactly if it spells a point of the curve in the compressed or the full form; every other text and a nil network are refused with an error that names the reason, and nothing panics. With the other functions as they are, every public key that an import, GetPublicKey or AddPublicKeys returns is a point of the curve with a network, its Format is the standard text, which is imported again as the same point, and Address succeeds. Adding public keys corresponds to adding private keys; public keys of different networks or with the same x are not added.", "quantifier": "all texts, networks, keys, states, hash functions and curve packages that meet the contract", "why_tests_cant": "A test of a changed program shows that some bad texts are refused now; it does not show that no bad text is left, nor that every good one still passes.", "anchors": ["public_key.go:PublicFromHex", "public_key.go:GetPublicKey", "public_key.go:Format", "public_key.go:Address", "public_key.go:AddPublicKeys"]}
{"id": "C130", "title": "Programs that use the repaired text need check nothing", "statement": "A program starts from init of the repaired text and then makes any calls in any order, with any texts, numbers and word lists, with networks that are nil, its own or have bad prefixes, and with the keys that the package returned. No call panics, except GeneratePrivateKey when the random bytes hold no key. Every key it holds is in order at all times: number in range, 64 digits, standard WIF of its network, point on the curve. Each WIF passes CheckWIF and is read back as the same key, each text of a public key is read back as the same point, each private key has a public key and an address, two keys of a network have the same WIF only if they are the same key, nothing is ever logged, and no key object has a dangling pointer.", "quantifier": "every sequence of calls, arguments, networks, hash functions, curve packages that meet the contract and random sources", "why_tests_cant": "An invariant over all call sequences of any length and all texts.", "anchors": ["util.go:generateRandomBigInt", "util.go:bigIntToHex", "private_key.go:CheckWIF", "private_key.go:PrivateFromWIF", "private_key.go:PrivateFromHex", "private_key.go:GeneratePrivateKey", "private_key.go:AddPrivateKeys", "private_key.go:MultiplyPrivateKeys", "public_key.go:PublicFromHex", "public_key.go:GetPublicKey", "public_key.go:Format", "public_key.go:Address", "public_key.go:AddPublicKeys", "mnemonic.go:NewSeedFromMnemonic", "mnemonic.go:NewMnemonic"]}
{"id": "C131", "title": "For which random bytes the repository's two random tests pass", "statement": "TestGeneratePrivateKey and TestNewMnemonic call the package many times with random bytes. For any number of calls m: with the text of the repository TestGeneratePrivateKey passes exactly if, of the 32-byte blocks of random bytes, 2m have a number in [16^63, n-2], and no assertion ever fails; with the repaired text, which can return every key, it passes exactly if 2m keys come and neither 1 nor n-1 is among them, so the test contradicts C16. With the text of the repository TestNewMnemonic passes exactly if the random bytes suffice and for no block the hash is so small that NewMnemonic panics; with the repaired text exactly if there are 120 m random bytes.", "quantifier": "every random source, number of calls, hash functions and curve packages that meet the contract", "why_tests_cant": "A run of a test draws its own random bytes; it says nothing about the others, and the bytes that make it fail are too rare to be met.", "anchors": ["private_key.go:GeneratePrivateKey", "util.go:generateRandomBigInt", "mnemonic.go:NewMnemonic", "private_key_test.go:TestGeneratePrivateKey", "mnemonic_test.go:TestNewMnemonic"]}
{"id": "C132", "title": "Where the repaired text and the repository's text give the same answer, exactly", "statement": "Suppose a program has used the repaired text in any way, and one more call to it succeeds. The same call to the repository's text, in the same state, succeeds with the same answer, the same random bytes left and the same log exactly in these cases. CheckWIF: always, except for texts in Base58 of fewer than four bytes. PrivateFromWIF: if what follows the first byte of the payload is the key, so not for compressed keys. PrivateFromHex and all functions for public keys: always. GeneratePrivateKey: if the first number in [1, n-1] in the random bytes has no leading zero digit and is not n-1. AddPrivateKeys and MultiplyPrivateKeys: if the WIFs differ in more than case and the result has no leading zero digit. NewMnemonic: if the bits, written in the repository's order, happen to be those of BIP-39. NewSeedFromMnemonic: never, as it logs the entropy; a BIP-39 phrase of 12 words it refuses, for 15, 18 and 21 words it panics, and only for 24 words it succeeds.", "quantifier": "every sequence of calls with the repaired text, every next call, hash functions, curve packages that meet the contract and random sources", "why_tests_cant": "Two programs are compared on all inputs in all reachable states; a test compares them on some.", "anchors": ["util.go:generateRandomBigInt", "util.go:bigIntToHex", "private_key.go:CheckWIF", "private_key.go:PrivateFromWIF", "private_key.go:PrivateFromHex", "private_key.go:GeneratePrivateKey", "private_key.go:AddPrivateKeys", "private_key.go:MultiplyPrivateKeys", "public_key.go:PublicFromHex", "public_key.go:GetPublicKey", "public_key.go:Format", "public_key.go:Address", "public_key.go:AddPublicKeys", "mnemonic.go:NewSeedFromMnemonic", "mnemonic.go:NewMnemonic"]}
{"id": "C133", "title": "With the repaired text keys and phrases are uniformly distributed and independent", "statement": "Of the streams of random bytes of any given length, those on which the repaired GeneratePrivateKey does not fail are divided equally among all the numbers from 1 to n-1, and it fails on fewer than one stream in 2^127 for each 32 bytes of length. Any two sequences of keys of the same length, made by calls one after the other, come from equally many streams. Every BIP-39 phrase is returned by the repaired NewMnemonic for exactly one stream in 256^e, where e is the number of bytes of its entropy; a sequence of phrases for exactly one in 256 to the sum of these numbers; and for 3c words there are exactly 256^(4c) different phrases.", "quantifier": "every length of stream, key, sequence of keys, phrase, sequence of phrases, wordlist, hash function, network with a hexadecimal prefix and state of the memory", "why_tests_cant": "A statement about the number of random streams, of which there are 256^L; a test can only sample.", "anchors": ["util.go:generateRandomBigInt", "private_key.go:GeneratePrivateKey", "private_key.go:PrivateFromHex", "mnemonic.go:NewMnemonic"]}
{"id": "C134", "title": "Which calls succeed with the repaired text, with the repository's, and with only one of them", "statement": "Suppose a program has used the repaired text in any way. A table says for which arguments its next call succeeds; two more tables say which calls succeed with the repository's text only, and which with the repaired text only. Only with the repository's text: PrivateFromWIF for payloads of at least one byte that are no key of the network; PrivateFromHex for even numbers of hexadecimal digits, after the prefix, that are no key; PublicFromHex for texts after 04 that are no point, for longer texts, and without a network; NewMnemonic for lists of other sizes than 2048, if it does not panic; NewSeedFromMnemonic for words that spell bytes ending with one byte of the hash, other than 24 words. Only with the repaired text: CheckWIF for texts in Base58 of fewer than four bytes; GeneratePrivateKey if all keys in the random bytes have leading zero digits or are n-1; AddPrivateKeys and MultiplyPrivateKeys if the result has an odd number of digits or the WIFs differ in case only; NewMnemonic if the hash starts with too many zero bits; NewSeedFromMnemonic for phrases of 12 to 21 words. All other calls succeed with both texts or with none.", "quantifier": "every sequence of calls with the repaired text, every next call, hash functions, curve packages that meet the contract and random sources", "why_tests_cant": "Two programs are compared on all inputs in all reachable states; a test compares them on some.", "anchors": ["private_key.go:CheckWIF", "private_key.go:PrivateFromWIF", "private_key.go:PrivateFromHex", "private_key.go:GeneratePrivateKey", "private_key.go:AddPrivateKeys", "private_key.go:MultiplyPrivateKeys", "public_key.go:PublicFromHex", "public_key.go:GetPublicKey", "public_key.go:Format", "public_key.go:Address", "public_key.go:AddPublicKeys", "mnemonic.go:NewSeedFromMnemonic", "mnemonic.go:NewMnemonic"]}
{"id": "C135", "title": "Goroutines that use the repaired text do not disturb each other", "statement": "A program uses the repaired text, makes calls, and starts any number of goroutines again and again. Each goroutine runs a program of its own: it calls functions as often as it likes, uses the keys the program held and those it got, reads their texts, and decides from what it has seen what to do next. Under every interleaving of the memory accesses: no two goroutines access the same place with one of them writing; nothing that existed is changed; a goroutine that has returned has returned what it returns alone, has used the same random bytes and logged nothing; with fuel enough none is stuck and none panics but GeneratePrivateKey for want of random bytes, as alone. A goroutine panics only if it comes to a call of GeneratePrivateKey when its random bytes hold no key any more; one that makes no such call never panics. All keys the program holds, also those it takes from goroutines, are in order in the shared memory, no pointer dangles, and no later call of the program crashes.", "quantifier": "every number of goroutines, every program of theirs that uses only keys it holds, every interleaving and random source, every sequence of such phases, hash functions and curve packages that meet the contract and are local", "why_tests_cant": "Interleavings of memory accesses cannot be chosen by a test, and their number is exponential; programs of goroutines are infinitely many.", "anchors": ["private_key.go:PrivateFromHex", "private_key.go:PrivateFromWIF", "private_key.go:GeneratePrivateKey", "private_key.go:AddPrivateKeys", "private_key.go:MultiplyPrivateKeys", "public_key.go:PublicFromHex", "public_key.go:GetPublicKey", "public_key.go:Format", "public_key.go:Address", "public_key.go:AddPublicKeys", "mnemonic.go:NewMnemonic", "mnemonic.go:NewSeedFromMnemonic"]}
{"id": "C136", "title": "Goroutines that run programs of their own do not disturb each other, and reach nothing new", "statement": "A program uses the package, makes calls, builds keys, and starts any number of goroutines again and again. Each goroutine runs a program of its own: it calls functions as often as it likes, uses the keys it was given and those it got, or nil, reads their texts, and decides from what it has seen what to do next. Under every interleaving of the memory accesses: no two goroutines access the same place with one of them writing; nothing that existed is changed; each goroutine ends, and it ends as it does alone, with the same values, log lines and rest of the random source or with the same panic. Whatever the program can reach in this way, it can reach without goroutines: there is a session without goroutines with the same memory and random source, and every later call shows the same in both. No pointer dangles, and the networks and the curve stay as they are.", "quantifier": "every number of goroutines, every program of theirs, every interleaving and random source, every sequence of such phases, networks, hash functions and curve packages that are local", "why_tests_cant": "Interleavings of memory accesses cannot be chosen by a test, and their number is exponential; programs of goroutines are infinitely many.", "anchors": ["private_key.go:PrivateFromHex", "private_key.go:PrivateFromWIF", "private_key.go:GeneratePrivateKey", "private_key.go:AddPrivateKeys", "private_key.go:MultiplyPrivateKeys", "public_key.go:PublicFromHex", "public_key.go:GetPublicKey", "public_key.go:Format", "public_key.go:Address", "public_key.go:AddPublicKeys", "mnemonic.go:NewMnemonic", "mnemonic.go:NewSeedFromMnemonic"]}
{"id": "C137", "title": "Random bytes are taken from the front, and never looked at in advance", "statement": "In every program of the modelled part of Go, what a call leaves of the random source is the end of what was there, however the call ends. A call of a function of the repository that returns no error shows the same whatever bytes follow those it took, and leaves exactly those that follow. So does a call of the repaired GeneratePrivateKey or NewMnemonic that succeeds.", "quantifier": "all programs, functions, arguments and states for the first part; all sessions, calls, random sources and following bytes for the second; all hash functions and curve packages", "why_tests_cant": "What follows in a random source is not under the control of a test, and the bytes that follow are infinitely many.", "anchors": ["private_key.go:GeneratePrivateKey", "util.go:generateRandomBigInt", "mnemonic.go:NewMnemonic"]}
{"id": "C138", "title": "The repaired text does no more work than its arguments say", "statement": "Count the functions and blocks that a call enters. A call of the repaired text, in any program that uses it, enters no more than a number that depends on the function alone, for GeneratePrivateKey on the number of random bytes that are left, and for NewSeedFromMnemonic on the numbers of words in the phrase and in the list; the numbers are in a table (2 for GetPublicKey, 76 for AddPrivateKeys, 1210 for NewMnemonic). The counting does not change what a call does. The analysis that gives the numbers is right for every program of the modelled part of Go: a call with fuel n enters no more blocks than the analysis says for n.", "quantifier": "all programs that use the repaired text, all calls, arguments, random sources, hash functions and curve packages; for the analysis all programs, functions, arguments and states", "why_tests_cant": "A bound on work over all arguments is a statement about infinitely many runs; the slowest one need not be among those tested.", "anchors": ["private_key.go:PrivateFromHex", "private_key.go:PrivateFromWIF", "private_key.go:GeneratePrivateKey", "private_key.go:AddPrivateKeys", "private_key.go:MultiplyPrivateKeys", "public_key.go:PublicFromHex", "public_key.go:GetPublicKey", "public_key.go:Format", "public_key.go:Address", "public_key.go:AddPublicKeys", "mnemonic.go:NewMnemonic"]}
{"id": "C139", "title": "What the repaired functions return", "statement": "In every run with the repaired text, a call succeeds with an answer and leaves certain random bytes exactly if the table of C134 accepts the call and a second table has that answer and those bytes. The second table gives for each function, in terms of Base58Check, hexadecimal spelling, points of the curve and BIP-39 alone, the answer and the rest of the random source, and leaves no choice. Two calls that ask the same, each pointer being read through, give the same answer, even in two runs with different networks, keys and curve packages; a call that draws leaves the same random bytes if it found the same.", "quantifier": "all runs with the repaired text, calls, arguments, hash functions, curve packages and random sources", "why_tests_cant": "A table of results is about infinitely many keys, texts, phrases and runs; a test compares single ones.", "anchors": ["private_key.go:PrivateFromHex", "private_key.go:PrivateFromWIF", "private_key.go:GeneratePrivateKey", "private_key.go:AddPrivateKeys", "private_key.go:MultiplyPrivateKeys", "public_key.go:PublicFromHex", "public_key.go:GetPublicKey", "public_key.go:Format", "public_key.go:Address", "public_key.go:AddPublicKeys", "mnemonic.go:NewMnemonic", "mnemonic.go:NewSeedFromMnemonic", "private_key.go:CheckWIF"]}
{"id": "C140", "title": "Which errors the repaired functions return", "statement": "In every run with the repaired text, a call returns an error exactly if a table has that error for it. The table has a line for each function, in terms of Base58Check, hexadecimal spelling, points of the curve and phrases, and has at most one error for a call. No call is in this table and in that of the calls that succeed; every call but those of GeneratePrivateKey is in one of them. GeneratePrivateKey returns no error: it returns nil exactly if there is no network or its prefix is not hexadecimal, and otherwise panics exactly if the random bytes hold no key. Two calls that ask the same return the same error, even in two runs with different networks, keys and curve packages.", "quantifier": "all runs with the repaired text, calls, arguments, errors, hash functions, curve packages and random sources", "why_tests_cant": "A test sees the errors of single texts; which of several faults of a text is reported, and that no other text is refused, is about all texts.", "anchors": ["private_key.go:PrivateFromHex", "private_key.go:PrivateFromWIF", "private_key.go:GeneratePrivateKey", "private_key.go:AddPrivateKeys", "private_key.go:MultiplyPrivateKeys", "public_key.go:PublicFromHex", "public_key.go:GetPublicKey", "public_key.go:Format", "public_key.go:Address", "public_key.go:AddPublicKeys", "mnemonic.go:NewMnemonic", "mnemonic.go:NewSeedFromMnemonic", "private_key.go:CheckWIF"]}
{"id": "C141", "title": "Two runs of one program show the same", "statement": "If one program is run twice with the repaired text and the same random bytes, perhaps with two different correct curve packages, then after any number of calls, panics recovered and exchanges of the random source, keys with the same number have the same value in both runs, both have left the same random bytes unread, and the next call ends in both and shows the same: the same keys, texts and answers, the same error, the same nil or the same panic.", "quantifier": "all programs (sequences of calls on the keys held, with recovered panics), lengths, arguments, hash functions, pairs of curve packages and random sources", "why_tests_cant": "A test compares two curve packages on single calls; that no sequence of calls, however long, tells them apart is about all runs.", "anchors": ["private_key.go:PrivateFromHex", "private_key.go:PrivateFromWIF", "private_key.go:GeneratePrivateKey", "private_key.go:AddPrivateKeys", "private_key.go:MultiplyPrivateKeys", "public_key.go:PublicFromHex", "public_key.go:GetPublicKey", "public_key.go:Format", "public_key.go:Address", "public_key.go:AddPublicKeys", "mnemonic.go:NewMnemonic", "mnemonic.go:NewSeedFromMnemonic", "private_key.go:CheckWIF"]}
