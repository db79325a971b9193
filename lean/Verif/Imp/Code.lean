import Verif.Imp.Lang

/-!
# The functions of the repository, statement by statement

One statement here is one statement of the Go text, in the same order. Calls of other functions of the repository use
the model of the function called, which is proved to be what its own program computes. Pointers to keys and networks
are `Option`s of the values (`none` is nil); sharing is treated in `Verif/Heap`.

`sha := sha256.New(); sha.Write(x); h := sha.Sum(nil)`: a hash state is the list of bytes written to it.
-/

namespace Btc.Imp

variable (H : Hashes) (E : Ecdsa)

/-! ## util.go -/

/-- util.go:9-17, variables. -/
structure RandomVars where
  max : Option Int := none
  nBig : Option Int := none
  err : Option GoError := none

/-- util.go:9-17 `generateRandomBigInt`. -/
def generateRandomBigIntBody : Stmt RandomVars (Option Int) :=
  -- max, _ := new(big.Int).SetString("FF…40", 16)
  set (fun s => { s with max := bigSetString (asc "FFFFFFFFFFFFFFFFFFFFFFFFFFFFFFFEBAAEDCE6AF48A03BBFD25E8CD0364140") 16 }) ;;
  -- nBig, err := rand.Int(rand.Reader, max)
  .act (fun w s => do
    let max ← deref s.max
    match randInt w.rd max.toNat with
    | .ok (v, rd') => .ok ({ w with rd := rd' }, { s with nBig := some (v : Int), err := none })
    | .err e => .ok (w, { s with nBig := none, err := some e })
    | .panic p => .panic p) ;;
  -- if err != nil { panic(err) }
  .cond (fun s => .ok s.err.isSome) (.act fun _ s => .panic (.explicit (s.err.getD .randRead))) .skip ;;
  -- return nBig
  ret fun s => s.nBig

/-! ## private_key.go -/

/-- private_key.go:15-41, variables. -/
structure CheckVars where
  wif : GoString
  bytes : Bytes := []
  err : Option GoError := none
  hexa : GoString := []
  checksum : GoString := []
  hexBytes : Bytes := []
  sha : Bytes := []
  hash : Bytes := []
  hash2 : Bytes := []
  hash2Hex : GoString := []

/-- private_key.go:15-41 `CheckWIF`. -/
def checkWIFBody : Stmt CheckVars Bool :=
  -- bytes, err := base58.Decode(wif)
  set2 (fun s => base58Decode s.wif) [] (fun s b e => { s with bytes := b, err := e }) ;;
  -- if err != nil { return false }
  when (fun s => s.err.isSome) (ret fun _ => false) ;;
  -- hexa := hex.EncodeToString(bytes)
  set (fun s => { s with hexa := hexEncode s.bytes }) ;;
  -- checksum := hexa[len(hexa)-8 : len(hexa)]
  assign (fun s => do let c ← slice s.hexa ((s.hexa.length : Int) - 8) s.hexa.length; .ok { s with checksum := c }) ;;
  -- hexa = hexa[0 : len(hexa)-8]
  assign (fun s => do let h ← slice s.hexa 0 ((s.hexa.length : Int) - 8); .ok { s with hexa := h }) ;;
  -- hexBytes, err := hex.DecodeString(hexa)
  set2 (fun s => hexDecode s.hexa) [] (fun s b e => { s with hexBytes := b, err := e }) ;;
  -- if err != nil { return false }
  when (fun s => s.err.isSome) (ret fun _ => false) ;;
  -- sha := sha256.New(); sha.Write(hexBytes); hash := sha.Sum(nil)
  set (fun s => { s with sha := [] }) ;;
  set (fun s => { s with sha := s.sha ++ s.hexBytes }) ;;
  set (fun s => { s with hash := H.sha256 s.sha }) ;;
  -- sha = sha256.New(); sha.Write(hash); hash2 := sha.Sum(nil)
  set (fun s => { s with sha := [] }) ;;
  set (fun s => { s with sha := s.sha ++ s.hash }) ;;
  set (fun s => { s with hash2 := H.sha256 s.sha }) ;;
  -- hash2Hex := hex.EncodeToString(hash2)
  set (fun s => { s with hash2Hex := hexEncode s.hash2 }) ;;
  -- return hash2Hex[0:8] == checksum
  .ret fun s => do let h ← slice s.hash2Hex 0 8; .ok (decide (h = s.checksum))

/-- private_key.go:44-68, variables. -/
structure WIFVars where
  wif : GoString
  network : Option Network
  valid : Bool := false
  bytes : Bytes := []
  err : Option GoError := none
  hexa : GoString := []
  privateKey : PrivateKey := ⟨none, [], [], none⟩

/-- private_key.go:44-68 `PrivateFromWIF`. -/
def privateFromWIFBody : Stmt WIFVars (Option PrivateKey × Option GoError) :=
  -- valid := CheckWIF(wif)
  assign (fun s => do let v ← checkWIF H s.wif; .ok { s with valid := v }) ;;
  -- if !valid { return nil, errors.New("wif invalid") }
  when (fun s => !s.valid) (ret fun _ => (none, some .wifInvalid)) ;;
  -- bytes, err := base58.Decode(wif)
  set2 (fun s => base58Decode s.wif) [] (fun s b e => { s with bytes := b, err := e }) ;;
  -- if err != nil { return nil, err }
  when (fun s => s.err.isSome) (ret fun s => (none, s.err)) ;;
  -- hexa := hex.EncodeToString(bytes)
  set (fun s => { s with hexa := hexEncode s.bytes }) ;;
  -- hexa = hexa[2:len(hexa)]
  assign (fun s => do let h ← slice s.hexa 2 s.hexa.length; .ok { s with hexa := h }) ;;
  -- hexa = hexa[0 : len(hexa)-8]
  assign (fun s => do let h ← slice s.hexa 0 ((s.hexa.length : Int) - 8); .ok { s with hexa := h }) ;;
  -- privateKey.WIF = wif
  set (fun s => { s with privateKey := { s.privateKey with WIF := s.wif } }) ;;
  -- privateKey.Hex = hexa
  set (fun s => { s with privateKey := { s.privateKey with Hex := s.hexa } }) ;;
  -- privateKey.Key, _ = new(big.Int).SetString(hexa, 16)
  set (fun s => { s with privateKey := { s.privateKey with Key := bigSetString s.hexa 16 } }) ;;
  -- privateKey.Network = network
  set (fun s => { s with privateKey := { s.privateKey with Network := s.network } }) ;;
  -- return &privateKey, nil
  ret fun s => (some s.privateKey, none)

/-- private_key.go:71-114, variables. -/
structure HexVars where
  hexa : GoString
  network : Option Network
  p : PrivateKey := ⟨none, [], [], none⟩
  hexaB : Bytes := []
  err : Option GoError := none
  sha : Bytes := []
  hash : Bytes := []
  doubleHashHex : Bytes := []
  checksum : GoString := []
  wif : GoString := []

/-- private_key.go:71-114 `PrivateFromHex`. -/
def privateFromHexBody : Stmt HexVars (Option PrivateKey × Option GoError) :=
  -- p.Key, _ = new(big.Int).SetString(hexa, 16)
  set (fun s => { s with p := { s.p with Key := bigSetString s.hexa 16 } }) ;;
  -- p.Hex = hexa
  set (fun s => { s with p := { s.p with Hex := s.hexa } }) ;;
  -- hexa = network.PrivKeyPrefix + hexa
  assign (fun s => do let n ← deref s.network; .ok { s with hexa := n.PrivKeyPrefix ++ s.hexa }) ;;
  -- hexaB, err := hex.DecodeString(hexa)
  set2 (fun s => hexDecode s.hexa) [] (fun s b e => { s with hexaB := b, err := e }) ;;
  -- if err != nil { return nil, err }
  when (fun s => s.err.isSome) (ret fun s => (none, s.err)) ;;
  -- sha := sha256.New(); sha.Write(hexaB); hash := sha.Sum(nil)
  set (fun s => { s with sha := [] }) ;;
  set (fun s => { s with sha := s.sha ++ s.hexaB }) ;;
  set (fun s => { s with hash := H.sha256 s.sha }) ;;
  -- sha = sha256.New(); sha.Write(hash); doubleHashHex := sha.Sum(nil)
  set (fun s => { s with sha := [] }) ;;
  set (fun s => { s with sha := s.sha ++ s.hash }) ;;
  set (fun s => { s with doubleHashHex := H.sha256 s.sha }) ;;
  -- checksum := hex.EncodeToString(doubleHashHex)
  set (fun s => { s with checksum := hexEncode s.doubleHashHex }) ;;
  -- checksum = checksum[0:8]
  assign (fun s => do let c ← slice s.checksum 0 8; .ok { s with checksum := c }) ;;
  -- hexa += checksum
  set (fun s => { s with hexa := s.hexa ++ s.checksum }) ;;
  -- hexaB, err = hex.DecodeString(hexa)
  set2 (fun s => hexDecode s.hexa) [] (fun s b e => { s with hexaB := b, err := e }) ;;
  -- if err != nil { return nil, err }
  when (fun s => s.err.isSome) (ret fun s => (none, s.err)) ;;
  -- wif := base58.Encode(hexaB)
  set (fun s => { s with wif := base58Encode s.hexaB }) ;;
  -- p.WIF = wif
  set (fun s => { s with p := { s.p with WIF := s.wif } }) ;;
  -- p.Network = network
  set (fun s => { s with p := { s.p with Network := s.network } }) ;;
  -- return &p, nil
  ret fun s => (some s.p, none)

/-- private_key.go:117-133, variables. -/
structure GenerateVars where
  network : Option Network
  key : Option Int := none
  hexa : GoString := []
  privateKey : Option PrivateKey := none
  err : Option GoError := none

/-- private_key.go:117-133 `GeneratePrivateKey`. -/
def generatePrivateKeyBody : Stmt GenerateVars (Option PrivateKey) :=
  -- key := generateRandomBigInt()
  .act (fun w s => do
    let (v, rd') ← generateRandomBigInt w.rd
    .ok ({ w with rd := rd' }, { s with key := some (v : Int) })) ;;
  -- hexa := bigIntToHex(key)
  set (fun s => { s with hexa := bigIntToHex s.key }) ;;
  -- if len(hexa) != 64 { return GeneratePrivateKey(network) }
  when (fun s => s.hexa.length != 64) (.again fun s => { network := s.network }) ;;
  -- privateKey, err := PrivateFromHex(hexa, network)
  set2 (fun s => (privateFromHex H s.hexa s.network).bind fun k => .ok (some k)) none
    (fun s k e => { s with privateKey := k, err := e }) ;;
  -- if err != nil { return GeneratePrivateKey(network) }
  when (fun s => s.err.isSome) (.again fun s => { network := s.network }) ;;
  -- privateKey.Key = key
  assign (fun s => do let k ← deref s.privateKey; .ok { s with privateKey := some { k with Key := s.key } }) ;;
  -- return privateKey
  ret fun s => s.privateKey

/-- private_key.go:136-175, variables. -/
structure CombineVars where
  p1 : Option PrivateKey
  p2 : Option PrivateKey
  pKey : Option Int := none
  hexa : GoString := []
  privateKey : Option PrivateKey := none
  err : Option GoError := none

/-- private_key.go:136-154 `AddPrivateKeys` and 157-175 `MultiplyPrivateKeys`, which differ in one word: `op` is
`Add` or `Mul`. -/
def combineBody (op : Int → Int → Int) : Stmt CombineVars (Option PrivateKey × Option GoError) :=
  -- if !reflect.DeepEqual(p1.Network, p2.Network) { return nil, errors.New("different network") }
  .cond (fun s => do let a ← deref s.p1; let b ← deref s.p2; .ok (!decide (a.Network = b.Network)))
    (ret fun _ => (none, some .differentNetwork)) .skip ;;
  -- if strings.ToLower(p1.WIF) == strings.ToLower(p2.WIF) { return nil, errors.New("private keys are identical") }
  .cond (fun s => do let a ← deref s.p1; let b ← deref s.p2; .ok (decide (H.toLower a.WIF = H.toLower b.WIF)))
    (ret fun _ => (none, some .identicalKeys)) .skip ;;
  -- pKey := new(big.Int)
  set (fun s => { s with pKey := some 0 }) ;;
  -- pKey = pKey.Add(p1.Key, p2.Key)
  assign (fun s => do
    let a ← deref s.p1
    let b ← deref s.p2
    let x ← deref a.Key
    let y ← deref b.Key
    .ok { s with pKey := some (op x y) }) ;;
  -- pKey = pKey.Mod(pKey, secp256k1.N)
  assign (fun s => do
    let k ← deref s.pKey
    let n ← deref secp256k1.N
    if n = 0 then .panic .divideByZero else .ok { s with pKey := some (k % n) }) ;;
  -- hexa := bigIntToHex(pKey)
  set (fun s => { s with hexa := bigIntToHex s.pKey }) ;;
  -- privateKey, err := PrivateFromHex(hexa, p1.Network)
  .act (fun w s => do
    let a ← deref s.p1
    match privateFromHex H s.hexa a.Network with
    | .ok k => .ok (w, { s with privateKey := some k, err := none })
    | .err e => .ok (w, { s with privateKey := none, err := some e })
    | .panic p => .panic p) ;;
  -- return privateKey, err
  ret fun s => (s.privateKey, s.err)

/-! ## public_key.go -/

/-- public_key.go:17-57, variables. -/
structure PubHexVars where
  hexa : GoString
  network : Option Network
  publicKey : PublicKey := ⟨none, none, none⟩
  pre : GoString := []
  x : GoString := []
  y : GoString := []
  yv : Option Int := none
  onCurve : Bool := false
  parity : Option Int := none
  yMod : Option Int := none

/-- public_key.go:17-57 `PublicFromHex` (`pre` is `prefix`, `yv` the number `y` of line 34, `y` the text of line 26). -/
def publicFromHexBody : Stmt PubHexVars (Option PublicKey × Option GoError) :=
  -- publicKey.Network = network
  set (fun s => { s with publicKey := { s.publicKey with Network := s.network } }) ;;
  -- prefix := hexa[0:2]
  assign (fun s => do let p ← slice s.hexa 0 2; .ok { s with pre := p }) ;;
  -- if prefix == "04" {
  ite (fun s => decide (s.pre = asc "04"))
    ( -- x := hexa[2:66]
      assign (fun s => do let x ← slice s.hexa 2 66; .ok { s with x := x }) ;;
      -- y := hexa[66:130]
      assign (fun s => do let y ← slice s.hexa 66 130; .ok { s with y := y }) ;;
      -- publicKey.X, _ = new(big.Int).SetString(x, 16)
      set (fun s => { s with publicKey := { s.publicKey with X := bigSetString s.x 16 } }) ;;
      -- publicKey.Y, _ = new(big.Int).SetString(y, 16)
      set (fun s => { s with publicKey := { s.publicKey with Y := bigSetString s.y 16 } }))
    -- } else if prefix == "03" || prefix == "02" {
    (ite (fun s => decide (s.pre = asc "03") || decide (s.pre = asc "02"))
      ( -- x := hexa[2:66]
        assign (fun s => do let x ← slice s.hexa 2 66; .ok { s with x := x }) ;;
        -- publicKey.X, _ = new(big.Int).SetString(x, 16)
        set (fun s => { s with publicKey := { s.publicKey with X := bigSetString s.x 16 } }) ;;
        -- y, onCurve := secp256k1.GetY(publicKey.X)
        .act (fun w s =>
          match E.getY secp256k1 s.publicKey.X with
          | .ok (y, b) => .ok (w, { s with yv := y, onCurve := b })
          | .err _ => .panic .outOfFuel
          | .panic p => .panic p) ;;
        -- if !onCurve { return nil, errors.New("point is not on secp256k1 curve") }
        when (fun s => !s.onCurve) (ret fun _ => (none, some .notOnSecp256k1)) ;;
        -- parity := new(big.Int)
        set (fun s => { s with parity := some 0 }) ;;
        -- if prefix == "02" { parity.SetInt64(0) } else { parity.SetInt64(1) }
        ite (fun s => decide (s.pre = asc "02")) (set fun s => { s with parity := some 0 })
          (set fun s => { s with parity := some 1 }) ;;
        -- yMod := new(big.Int).Set(y)
        assign (fun s => do let y ← deref s.yv; .ok { s with yMod := some y }) ;;
        -- if yMod.Mod(y, big.NewInt(2)).Cmp(parity) != 0 {
        assign (fun s => do let y ← deref s.yv; .ok { s with yMod := some (y % 2) }) ;;
        .cond (fun s => do let a ← deref s.yMod; let b ← deref s.parity; .ok (decide (a ≠ b)))
          ( -- y = secp256k1.MultMod(y, big.NewInt(-1))
            .act (fun w s =>
              match E.multMod secp256k1 s.yv (-1) with
              | .ok y => .ok (w, { s with yv := y })
              | .err _ => .panic .outOfFuel
              | .panic p => .panic p))
          .skip ;;
        -- publicKey.Y = y
        set (fun s => { s with publicKey := { s.publicKey with Y := s.yv } }))
      -- } else { return nil, errors.New("unsupported public key format") }
      (ret fun _ => (none, some .unsupportedFormat))) ;;
  -- return &publicKey, nil
  ret fun s => (some s.publicKey, none)

/-- public_key.go:60-73, variables. -/
structure GetPubVars where
  p : Option PrivateKey
  publicKey : PublicKey := ⟨none, none, none⟩
  R : Point := ⟨none, none⟩
  valid : Bool := false

/-- public_key.go:60-73 `GetPublicKey`. -/
def getPublicKeyBody : Stmt GetPubVars (Option PublicKey × Bool) :=
  -- R, valid := secp256k1.ScalarMult(p.Key, secp256k1.G)
  .act (fun w s => do
    let p ← deref s.p
    match E.scalarMult secp256k1 p.Key secp256k1.G with
    | .ok (R, b) => .ok (w, { s with R := R, valid := b })
    | .err _ => .panic .outOfFuel
    | .panic p => .panic p) ;;
  -- if !valid { return nil, false }
  when (fun s => !s.valid) (ret fun _ => (none, false)) ;;
  -- publicKey.X = R.X
  set (fun s => { s with publicKey := { s.publicKey with X := s.R.X } }) ;;
  -- publicKey.Y = R.Y
  set (fun s => { s with publicKey := { s.publicKey with Y := s.R.Y } }) ;;
  -- publicKey.Network = p.Network
  assign (fun s => do let p ← deref s.p; .ok { s with publicKey := { s.publicKey with Network := p.Network } }) ;;
  -- return &publicKey, true
  ret fun s => (some s.publicKey, true)

/-- public_key.go:76-105, variables. -/
structure FormatVars where
  p : Option PublicKey
  compressed : Bool
  key : GoString := []
  pXHex : GoString := []
  pYHex : GoString := []

/-- public_key.go:76-105 `Format`. -/
def formatBody : Stmt FormatVars GoString :=
  -- key := ""
  set (fun s => { s with key := [] }) ;;
  -- pXHex := bigIntToHex(p.X)
  assign (fun s => do let p ← deref s.p; .ok { s with pXHex := bigIntToHex p.X }) ;;
  -- pYHex := bigIntToHex(p.Y)
  assign (fun s => do let p ← deref s.p; .ok { s with pYHex := bigIntToHex p.Y }) ;;
  -- for len(pXHex) < 64 { pXHex = "0" + pXHex }
  loop (fun s => decide (s.pXHex.length < 64)) (set fun s => { s with pXHex := 48 :: s.pXHex }) ;;
  -- for len(pYHex) < 64 { pYHex = "0" + pYHex }
  loop (fun s => decide (s.pYHex.length < 64)) (set fun s => { s with pYHex := 48 :: s.pYHex }) ;;
  -- if !compressed {
  ite (fun s => !s.compressed)
    ( -- key += "04"
      set (fun s => { s with key := s.key ++ asc "04" }) ;;
      -- key += pXHex
      set (fun s => { s with key := s.key ++ s.pXHex }) ;;
      -- key += pYHex
      set (fun s => { s with key := s.key ++ s.pYHex }))
    ( -- if p.Y.Bit(0) == 0 { key += "02" } else { key += "03" }
      .cond (fun s => do let p ← deref s.p; let y ← deref p.Y; .ok (decide (y % 2 = 0)))
        (set fun s => { s with key := s.key ++ asc "02" }) (set fun s => { s with key := s.key ++ asc "03" }) ;;
      -- key += pXHex
      set (fun s => { s with key := s.key ++ s.pXHex })) ;;
  -- return key
  ret fun s => s.key

/-- public_key.go:108-165, variables. -/
structure AddressVars where
  p : Option PublicKey
  compressed : Bool
  hexa : GoString := []
  bytes : Bytes := []
  err : Option GoError := none
  sha : Bytes := []
  hash : Bytes := []
  ripemd : Bytes := []
  ripemdHash : Bytes := []
  extendedRipemd : GoString := []
  checksum : GoString := []
  extendedRipeMd : Bytes := []

/-- public_key.go:108-165 `Address`. -/
def addressBody : Stmt AddressVars (GoString × Option GoError) :=
  -- hexa := p.Format(compressed)
  assign (fun s => do let p ← deref s.p; let h ← format p s.compressed; .ok { s with hexa := h }) ;;
  -- bytes, err := hex.DecodeString(hexa)
  set2 (fun s => hexDecode s.hexa) [] (fun s b e => { s with bytes := b, err := e }) ;;
  -- if err != nil { return "", err }
  when (fun s => s.err.isSome) (ret fun s => ([], s.err)) ;;
  -- sha := sha256.New(); sha.Write(bytes); hash := sha.Sum(nil)
  set (fun s => { s with sha := [] }) ;;
  set (fun s => { s with sha := s.sha ++ s.bytes }) ;;
  set (fun s => { s with hash := H.sha256 s.sha }) ;;
  -- ripemd := ripemd160.New(); ripemd.Write(hash); ripemdHash := ripemd.Sum(nil)
  set (fun s => { s with ripemd := [] }) ;;
  set (fun s => { s with ripemd := s.ripemd ++ s.hash }) ;;
  set (fun s => { s with ripemdHash := H.ripemd160 s.ripemd }) ;;
  -- hexa = hex.EncodeToString(ripemdHash)
  set (fun s => { s with hexa := hexEncode s.ripemdHash }) ;;
  -- extendedRipemd := p.Network.PubKeyHashPrefix + hexa
  assign (fun s => do
    let p ← deref s.p
    let n ← deref p.Network
    .ok { s with extendedRipemd := n.PubKeyHashPrefix ++ s.hexa }) ;;
  -- bytes, err = hex.DecodeString(extendedRipemd)
  set2 (fun s => hexDecode s.extendedRipemd) [] (fun s b e => { s with bytes := b, err := e }) ;;
  -- if err != nil { return "", err }
  when (fun s => s.err.isSome) (ret fun s => ([], s.err)) ;;
  -- sha = sha256.New(); sha.Write(bytes); hash = sha.Sum(nil)
  set (fun s => { s with sha := [] }) ;;
  set (fun s => { s with sha := s.sha ++ s.bytes }) ;;
  set (fun s => { s with hash := H.sha256 s.sha }) ;;
  -- sha = sha256.New(); sha.Write(hash); hash = sha.Sum(nil)
  set (fun s => { s with sha := [] }) ;;
  set (fun s => { s with sha := s.sha ++ s.hash }) ;;
  set (fun s => { s with hash := H.sha256 s.sha }) ;;
  -- hexa = hex.EncodeToString(hash)
  set (fun s => { s with hexa := hexEncode s.hash }) ;;
  -- checksum := hexa[0:8]
  assign (fun s => do let c ← slice s.hexa 0 8; .ok { s with checksum := c }) ;;
  -- extendedRipemd += checksum
  set (fun s => { s with extendedRipemd := s.extendedRipemd ++ s.checksum }) ;;
  -- extendedRipeMd, err := hex.DecodeString(extendedRipemd)
  set2 (fun s => hexDecode s.extendedRipemd) [] (fun s b e => { s with extendedRipeMd := b, err := e }) ;;
  -- if err != nil { return "", err }
  when (fun s => s.err.isSome) (ret fun s => ([], s.err)) ;;
  -- return base58.Encode(extendedRipeMd), nil
  ret fun s => (base58Encode s.extendedRipeMd, none)

/-- public_key.go:168-194, variables. -/
structure AddPubVars where
  p1 : Option PublicKey
  p2 : Option PublicKey
  compressed : Bool
  point1 : Point := ⟨none, none⟩
  point2 : Point := ⟨none, none⟩
  r : Point := ⟨none, none⟩
  onCurve : Bool := false
  publicKey : PublicKey := ⟨none, none, none⟩

/-- public_key.go:168-194 `AddPublicKeys`. -/
def addPublicKeysBody : Stmt AddPubVars (Option PublicKey × Option GoError) :=
  -- if !reflect.DeepEqual(p1.Network, p2.Network) { return nil, errors.New("different network") }
  .cond (fun s => do let a ← deref s.p1; let b ← deref s.p2; .ok (!decide (a.Network = b.Network)))
    (ret fun _ => (none, some .differentNetwork)) .skip ;;
  -- point1 := ecdsa.Point{X: p1.X, Y: p1.Y}
  assign (fun s => do let a ← deref s.p1; .ok { s with point1 := ⟨a.X, a.Y⟩ }) ;;
  -- point2 := ecdsa.Point{X: p2.X, Y: p2.Y}
  assign (fun s => do let b ← deref s.p2; .ok { s with point2 := ⟨b.X, b.Y⟩ }) ;;
  -- r, onCurve := secp256k1.AddPoints(point1, point2)
  .act (fun w s =>
    match E.addPoints secp256k1 s.point1 s.point2 with
    | .ok (r, b) => .ok (w, { s with r := r, onCurve := b })
    | .err _ => .panic .outOfFuel
    | .panic p => .panic p) ;;
  -- if !onCurve { return nil, errors.New("point is not on curve") }
  when (fun s => !s.onCurve) (ret fun _ => (none, some .notOnCurve)) ;;
  -- publicKey := PublicKey{X: r.X, Y: r.Y, Network: p1.Network}
  assign (fun s => do let a ← deref s.p1; .ok { s with publicKey := ⟨s.r.X, s.r.Y, a.Network⟩ }) ;;
  -- return &publicKey, nil
  ret fun s => (some s.publicKey, none)

/-! ## mnemonic.go -/

/-- mnemonic.go:15-74, variables. `range` loops have a counter of their own (`wi`); a nil list is an empty one. -/
structure SeedVars where
  mnemonic : GoString
  passphrase : GoString
  wordlist : List GoString
  words : List GoString := []
  binary : GoString := []
  wi : Nat := 0
  word : GoString := []
  index : Int := 0
  i : Nat := 0
  indexBinary : GoString := []
  hash : GoString := []
  n : GoString := []
  j : Nat := 0
  nInt : Option Int := none
  hexa : GoString := []
  checksum : GoString := []
  sha : Bytes := []
  decoded : Bytes := []
  err : Option GoError := none
  shaHash : Bytes := []
  shaHashBig : Option Int := none
  shaHashHex : GoString := []

/-- mnemonic.go:20-25: `for i := range wordlist { if word == wordlist[i] { index = i; break } }` -/
def lookupStmt : Stmt SeedVars (Option Bytes × Option GoError) :=
  set (fun s => { s with i := 0 }) ;;
  loop (fun s => decide (s.i < s.wordlist.length))
    ( .cond (fun s => do let w ← index s.wordlist s.i; .ok (decide (s.word = w)))
        (set (fun s => { s with index := s.i }) ;; .brk) .skip ;;
      set (fun s => { s with i := s.i + 1 }))

/-- mnemonic.go:18-36: the body of `for _, word := range words`. -/
def wordStmt : Stmt SeedVars (Option Bytes × Option GoError) :=
  assign (fun s => do let w ← index s.words s.wi; .ok { s with word := w }) ;;
  -- index := -1
  set (fun s => { s with index := -1 }) ;;
  -- for i := range wordlist { … }
  lookupStmt ;;
  -- if index < 0 { return nil, errors.New("invalid mnemonic") }
  when (fun s => decide (s.index < 0)) (ret fun _ => (none, some .invalidMnemonic)) ;;
  -- indexBinary := fmt.Sprintf("%b", index)
  set (fun s => { s with indexBinary := fmtBig 2 (some s.index) }) ;;
  -- for len(indexBinary) < 11 { indexBinary = "0" + indexBinary }
  loop (fun s => decide (s.indexBinary.length < 11)) (set fun s => { s with indexBinary := 48 :: s.indexBinary }) ;;
  -- binary += indexBinary
  set (fun s => { s with binary := s.binary ++ s.indexBinary }) ;;
  set (fun s => { s with wi := s.wi + 1 })

/-- mnemonic.go:39-48: the body of `for i := 0; i < len(binary); i += 4`. -/
def nibbleStmt : Stmt SeedVars (Option Bytes × Option GoError) :=
  -- n := ""
  set (fun s => { s with n := [] }) ;;
  -- for j := i; j-i < 4; j++ { n += string(binary[j]) }
  set (fun s => { s with j := s.i }) ;;
  loop (fun s => decide ((s.j : Int) - s.i < 4))
    ( assign (fun s => do let c ← index s.binary s.j; .ok { s with n := s.n ++ [c] }) ;;
      set (fun s => { s with j := s.j + 1 })) ;;
  -- log.Println(n)
  logln (fun s => s.n) ;;
  -- nInt, _ := new(big.Int).SetString(n, 2)
  set (fun s => { s with nInt := bigSetString s.n 2 }) ;;
  -- hexa := bigIntToHex(nInt)
  set (fun s => { s with hexa := bigIntToHex s.nInt }) ;;
  -- hash += hexa
  set (fun s => { s with hash := s.hash ++ s.hexa }) ;;
  set (fun s => { s with i := s.i + 4 })

/-- mnemonic.go:15-74 `NewSeedFromMnemonic`. -/
def newSeedFromMnemonicBody : Stmt SeedVars (Option Bytes × Option GoError) :=
  -- words := strings.Split(mnemonic, " ")
  set (fun s => { s with words := splitSpace s.mnemonic }) ;;
  -- binary := ""
  set (fun s => { s with binary := [] }) ;;
  -- for _, word := range words { … }
  set (fun s => { s with wi := 0 }) ;;
  loop (fun s => decide (s.wi < s.words.length)) wordStmt ;;
  -- hash := ""
  set (fun s => { s with hash := [] }) ;;
  -- for i := 0; i < len(binary); i += 4 { … }
  set (fun s => { s with i := 0 }) ;;
  loop (fun s => decide (s.i < s.binary.length)) nibbleStmt ;;
  -- checksum := hash[len(hash)-2 : len(hash)]
  assign (fun s => do let c ← slice s.hash ((s.hash.length : Int) - 2) s.hash.length; .ok { s with checksum := c }) ;;
  -- sha := sha256.New()
  set (fun s => { s with sha := [] }) ;;
  -- decoded, err := hex.DecodeString(hash[0 : len(hash)-2])
  .act (fun w s => do
    let body ← slice s.hash 0 ((s.hash.length : Int) - 2)
    match hexDecode body with
    | .ok b => .ok (w, { s with decoded := b, err := none })
    | .err e => .ok (w, { s with decoded := [], err := some e })
    | .panic p => .panic p) ;;
  -- if err != nil { return nil, err }
  when (fun s => s.err.isSome) (ret fun s => (none, s.err)) ;;
  -- sha.Write(decoded)
  set (fun s => { s with sha := s.sha ++ s.decoded }) ;;
  -- shaHash := sha.Sum(nil)
  set (fun s => { s with shaHash := H.sha256 s.sha }) ;;
  -- shaHashBig := new(big.Int).SetBytes(shaHash)
  set (fun s => { s with shaHashBig := some (bytesToNat s.shaHash : Int) }) ;;
  -- shaHashHex := bigIntToHex(shaHashBig)
  set (fun s => { s with shaHashHex := bigIntToHex s.shaHashBig }) ;;
  -- for len(shaHashHex) < 64 { shaHashHex = "0" + shaHashHex }
  loop (fun s => decide (s.shaHashHex.length < 64)) (set fun s => { s with shaHashHex := 48 :: s.shaHashHex }) ;;
  -- if shaHashHex[0:2] != checksum { return nil, errors.New("invalid checksum") }
  .cond (fun s => do let h ← slice s.shaHashHex 0 2; .ok (decide (h ≠ s.checksum)))
    (ret fun _ => (none, some .invalidChecksum)) .skip ;;
  -- log.Println(shaHashHex, len(shaHashHex))
  logln (fun s => s.shaHashHex ++ 32 :: fmtNat 10 s.shaHashHex.length) ;;
  -- log.Println(hash, checksum)
  logln (fun s => s.hash ++ 32 :: s.checksum) ;;
  -- return nil, nil
  ret fun _ => (none, none)

/-- mnemonic.go:77-147, variables. -/
structure MnemonicVars where
  words : Int
  wordlist : Option (List GoString)
  entropyLength : Nat := 0
  np256 : Int := 0
  entropy : Nat := 0
  err : Option GoError := none
  sha : Bytes := []
  hash : Bytes := []
  checksumLength : Nat := 0
  hashInt : Nat := 0
  hashBinary : GoString := []
  checksumBinary : GoString := []
  b : GoString := []
  binary : Option Int := none
  phrase : List GoString := []
  i : Nat := 0
  j : Nat := 0
  str : GoString := []
  n : Option Int := none

/-- mnemonic.go:133-144: the body of `for i := 0; i < len(b); i += 11`. (`binary` is never negative, so `Bit` is the
binary digit; `n` is below 2048, so `n.Int64()` is `n`.) -/
def pickStmt : Stmt MnemonicVars (GoString × Option GoError) :=
  -- str := ""
  set (fun s => { s with str := [] }) ;;
  -- for j := i; j-i < 11; j++ { if binary.Bit(j) == 0 { str += "0" } else { str += "1" } }
  set (fun s => { s with j := s.i }) ;;
  loop (fun s => decide ((s.j : Int) - s.i < 11))
    ( .cond (fun s => do let x ← deref s.binary; .ok (decide (natBit x.toNat s.j = 0)))
        (set fun s => { s with str := s.str ++ [48] }) (set fun s => { s with str := s.str ++ [49] }) ;;
      set (fun s => { s with j := s.j + 1 })) ;;
  -- n, _ := new(big.Int).SetString(str, 2)
  set (fun s => { s with n := bigSetString s.str 2 }) ;;
  -- phrase = append(phrase, wordlist[n.Int64()])
  assign (fun s => do
    let k ← deref s.n
    let w ← index (s.wordlist.getD []) k
    .ok { s with phrase := s.phrase ++ [w] }) ;;
  set (fun s => { s with i := s.i + 11 })

/-- mnemonic.go:77-147 `NewMnemonic`. -/
def newMnemonicBody : Stmt MnemonicVars (GoString × Option GoError) :=
  -- if wordlist == nil { return "", errors.New("invalid wordlist") }
  when (fun s => s.wordlist.isNone) (ret fun _ => ([], some .invalidWordlist)) ;;
  -- switch words { case 12: entropyLength = 128 … default: return "", errors.New("unsupported mnemonic length") }
  ite (fun s => decide (s.words = 12)) (set fun s => { s with entropyLength := 128 })
    (ite (fun s => decide (s.words = 15)) (set fun s => { s with entropyLength := 160 })
      (ite (fun s => decide (s.words = 18)) (set fun s => { s with entropyLength := 192 })
        (ite (fun s => decide (s.words = 21)) (set fun s => { s with entropyLength := 224 })
          (ite (fun s => decide (s.words = 24)) (set fun s => { s with entropyLength := 256 })
            (ret fun _ => ([], some .unsupportedMnemonicLength)))))) ;;
  -- np256 := big.NewInt(2)
  set (fun s => { s with np256 := 2 }) ;;
  -- np256.Exp(np256, big.NewInt(int64(entropyLength)), nil)
  set (fun s => { s with np256 := s.np256 ^ s.entropyLength }) ;;
  -- entropy, err := rand.Int(rand.Reader, np256)
  .act (fun w s =>
    match randInt w.rd s.np256.toNat with
    | .ok (v, rd') => .ok ({ w with rd := rd' }, { s with entropy := v, err := none })
    | .err e => .ok (w, { s with err := some e })
    | .panic p => .panic p) ;;
  -- if err != nil { return "", err }
  when (fun s => s.err.isSome) (ret fun s => ([], s.err)) ;;
  -- sha := sha256.New(); sha.Write(entropy.Bytes()); hash := sha.Sum(nil)
  set (fun s => { s with sha := [] }) ;;
  set (fun s => { s with sha := s.sha ++ natToBytes s.entropy }) ;;
  set (fun s => { s with hash := H.sha256 s.sha }) ;;
  -- checksumLength := entropyLength / 32
  set (fun s => { s with checksumLength := s.entropyLength / 32 }) ;;
  -- hashInt := new(big.Int).SetBytes(hash)
  set (fun s => { s with hashInt := bytesToNat s.hash }) ;;
  -- hashBinary := fmt.Sprintf("%b", hashInt)
  set (fun s => { s with hashBinary := fmtNat 2 s.hashInt }) ;;
  -- checksumBinary := hashBinary[0:checksumLength]
  assign (fun s => do let c ← slice s.hashBinary 0 s.checksumLength; .ok { s with checksumBinary := c }) ;;
  -- b := fmt.Sprintf("%b", entropy)
  set (fun s => { s with b := fmtNat 2 s.entropy }) ;;
  -- for len(b) < entropyLength { b = "0" + b }
  loop (fun s => decide (s.b.length < s.entropyLength)) (set fun s => { s with b := 48 :: s.b }) ;;
  -- b = b + checksumBinary
  set (fun s => { s with b := s.b ++ s.checksumBinary }) ;;
  -- binary, _ := new(big.Int).SetString(b, 2)
  set (fun s => { s with binary := bigSetString s.b 2 }) ;;
  -- var phrase []string
  set (fun s => { s with phrase := [] }) ;;
  -- for i := 0; i < len(b); i += 11 { … }
  set (fun s => { s with i := 0 }) ;;
  loop (fun s => decide (s.i < s.b.length)) pickStmt ;;
  -- return strings.Join(phrase, " "), nil
  ret fun s => (joinSpace s.phrase, none)

end Btc.Imp
