import Verif.Heap.Safe

/-!
# Programs in single memory accesses

`HM` runs a function in one go. To let several goroutines run at the same time, a function is here a tree of single
accesses to memory: every access is one step, and between two steps of one goroutine others may run.
-/

namespace Btc.Mem

/-- A program: finished, or one access to memory and the rest, which depends on the value read or the address
obtained. -/
inductive Prog (α : Type) where
  | ret (r : Res α)
  | newInt (v : Int) (k : Nat → Prog α)
  | getInt (a : Nat) (k : Option Int → Prog α)
  | setInt (a : Nat) (v : Int) (k : Prog α)
  | getNet (a : Nat) (k : Option Network → Prog α)
  | getCurve (k : CurveObj → Prog α)
  | newPriv (k : Nat → Prog α)
  | getPriv (a : Nat) (k : Option PrivObj → Prog α)
  | updPriv (a : Nat) (f : PrivObj → PrivObj) (k : Prog α)
  | newPub (k : Nat → Prog α)
  | getPub (a : Nat) (k : Option PubObj → Prog α)
  | updPub (a : Nat) (f : PubObj → PubObj) (k : Prog α)

/-- A place in memory. -/
inductive Loc where
  | int (a : Nat)
  | net (a : Nat)
  | curve
  | priv (a : Nat)
  | pub (a : Nat)
  deriving DecidableEq, Repr

/-- An access to memory; allocating a cell (which sets it) is a write. -/
structure Access where
  loc : Loc
  write : Bool
  deriving DecidableEq, Repr

/-- The private key object made by `var p PrivateKey`. -/
def zeroPriv : PrivObj := ⟨none, [], [], none⟩

/-- The public key object made by `var p PublicKey`. -/
def zeroPub : PubObj := ⟨none, none, none⟩

namespace Prog

variable {α β γ : Type}

/-- One step: the access, the rest of the program and the new memory. A finished program has no step. Writing to a
number that does not exist is a nil dereference, as in `Mem.writeInt`. -/
def step (h : Heap) : Prog α → Option (Access × Prog α × Heap)
  | ret _ => none
  | newInt v k => some (⟨.int h.ints.length, true⟩, k h.ints.length, { h with ints := h.ints ++ [v] })
  | getInt a k => some (⟨.int a, false⟩, k h.ints[a]?, h)
  | setInt a v k =>
    some (⟨.int a, true⟩,
      if a < h.ints.length then (k, { h with ints := h.ints.set a v }) else (ret (.panic .nilDeref), h))
  | getNet a k => some (⟨.net a, false⟩, k h.nets[a]?, h)
  | getCurve k => some (⟨.curve, false⟩, k h.curve, h)
  | newPriv k => some (⟨.priv h.privs.length, true⟩, k h.privs.length, { h with privs := h.privs ++ [zeroPriv] })
  | getPriv a k => some (⟨.priv a, false⟩, k h.privs[a]?, h)
  | updPriv a f k => some (⟨.priv a, true⟩, k, { h with privs := h.privs.modify a f })
  | newPub k => some (⟨.pub h.pubs.length, true⟩, k h.pubs.length, { h with pubs := h.pubs ++ [zeroPub] })
  | getPub a k => some (⟨.pub a, false⟩, k h.pubs[a]?, h)
  | updPub a f k => some (⟨.pub a, true⟩, k, { h with pubs := h.pubs.modify a f })

/-- A program run alone to its end. -/
def run : Prog α → HM α
  | ret r => fun h => (r, h)
  | newInt v k => fun h => (k h.ints.length).run { h with ints := h.ints ++ [v] }
  | getInt a k => fun h => (k h.ints[a]?).run h
  | setInt a v k => fun h =>
    if a < h.ints.length then k.run { h with ints := h.ints.set a v } else (.panic .nilDeref, h)
  | getNet a k => fun h => (k h.nets[a]?).run h
  | getCurve k => fun h => (k h.curve).run h
  | newPriv k => fun h => (k h.privs.length).run { h with privs := h.privs ++ [zeroPriv] }
  | getPriv a k => fun h => (k h.privs[a]?).run h
  | updPriv a f k => fun h => k.run { h with privs := h.privs.modify a f }
  | newPub k => fun h => (k h.pubs.length).run { h with pubs := h.pubs ++ [zeroPub] }
  | getPub a k => fun h => (k h.pubs[a]?).run h
  | updPub a f k => fun h => k.run { h with pubs := h.pubs.modify a f }

/-- `run` is what the steps lead to. -/
theorem run_step {p q : Prog α} {h h' : Heap} {acc : Access} (hs : p.step h = some (acc, q, h')) :
    p.run h = q.run h' := by
  cases p <;> simp only [step, Option.some.injEq, Prod.mk.injEq, reduceCtorEq] at hs
  case setInt a v k =>
    obtain ⟨_, hs⟩ := hs
    simp only [run]
    split at hs <;> rename_i hc <;> cases hs
    · rw [if_pos hc]
    · rw [if_neg hc, run]
  all_goals
    obtain ⟨_, rfl, rfl⟩ := hs
    rfl

/-- Only finished programs have no step. -/
theorem step_none {p : Prog α} {h : Heap} : p.step h = none ↔ ∃ r, p = ret r := by
  cases p <;> simp [step]

/-- `p` continued with `ok` on success, with `er` on an error; panics end the program. -/
def next (ok : α → Prog β) (er : GoError → Prog β) : Prog α → Prog β
  | ret (.ok a) => ok a
  | ret (.err e) => er e
  | ret (.panic p) => ret (.panic p)
  | newInt v k => newInt v fun a => (k a).next ok er
  | getInt a k => getInt a fun v => (k v).next ok er
  | setInt a v k => setInt a v (k.next ok er)
  | getNet a k => getNet a fun v => (k v).next ok er
  | getCurve k => getCurve fun c => (k c).next ok er
  | newPriv k => newPriv fun a => (k a).next ok er
  | getPriv a k => getPriv a fun o => (k o).next ok er
  | updPriv a f k => updPriv a f (k.next ok er)
  | newPub k => newPub fun a => (k a).next ok er
  | getPub a k => getPub a fun o => (k o).next ok er
  | updPub a f k => updPub a f (k.next ok er)

instance : Monad Prog where
  pure a := ret (.ok a)
  bind p f := p.next f fun e => ret (.err e)

theorem run_next (ok : α → Prog β) (er : GoError → Prog β) (p : Prog α) (h : Heap) : (p.next ok er).run h =
    match p.run h with
    | (.ok a, h') => (ok a).run h'
    | (.err e, h') => (er e).run h'
    | (.panic p, h') => (.panic p, h') := by
  induction p generalizing h with
  | ret r => cases r <;> rfl
  | setInt a v k ih =>
    simp only [next, run]
    split
    · exact ih _
    · rfl
  | newInt v k ih => exact ih _ _
  | getInt a k ih => exact ih _ _
  | getNet a k ih => exact ih _ _
  | getCurve k ih => exact ih _ _
  | newPriv k ih => exact ih _ _
  | getPriv a k ih => exact ih _ _
  | updPriv a f k ih => exact ih _
  | newPub k ih => exact ih _ _
  | getPub a k ih => exact ih _ _
  | updPub a f k ih => exact ih _

theorem run_bind (p : Prog α) (f : α → Prog β) : (p >>= f).run = p.run >>= fun a => (f a).run := by
  funext h
  refine (run_next f (fun e => ret (.err e)) p h).trans ?_
  rw [bind_run]
  rcases p.run h with ⟨r, h'⟩
  cases r <;> rfl

theorem run_pure (a : α) : (pure a : Prog α).run = pure a := rfl

end Prog

/-- A computation without memory accesses. -/
def liftP {α : Type} (r : Res α) : Prog α := .ret r

/-- `v, err := x; if err != nil { return retry }; f(v)`. -/
def onErrP {α β : Type} (x : Prog α) (retry : Prog β) (f : α → Prog β) : Prog β := x.next f fun _ => retry

/-- `new(big.Int)` / `big.NewInt(v)`. -/
def newIntP (v : Int) : Prog Ptr := .newInt v fun a => .ret (.ok (some a))

/-- The number behind a pointer, for functions that accept nil. -/
def loadIntP : Ptr → Prog (Option Int)
  | none => .ret (.ok none)
  | some a => .getInt a fun v => .ret (.ok v)

/-- The network behind a pointer, for functions that accept nil. -/
def loadNetP : Ptr → Prog (Option Network)
  | none => .ret (.ok none)
  | some a => .getNet a fun v => .ret (.ok v)

/-- Read through a pointer; nil panics. -/
def readIntP (p : Ptr) : Prog Int := do
  let v ← loadIntP p
  liftP (deref v)

/-- Read through a network pointer. -/
def readNetP (p : Ptr) : Prog Network := do
  let v ← loadNetP p
  liftP (deref v)

/-- Read one field of a private key. -/
def privFieldP {α : Type} (p : Ptr) (f : PrivObj → α) : Prog α :=
  match p with
  | none => .ret (.panic .nilDeref)
  | some a => .getPriv a fun o => .ret (deref (o.map f))

/-- Read one field of a public key. -/
def pubFieldP {α : Type} (p : Ptr) (f : PubObj → α) : Prog α :=
  match p with
  | none => .ret (.panic .nilDeref)
  | some a => .getPub a fun o => .ret (deref (o.map f))

/-- Read the package variable (its pointers). -/
def readCurveP : Prog CurveObj := .getCurve fun c => .ret (.ok c)

/-- Overwrite a big integer in place. -/
def writeIntP : Ptr → Int → Prog Unit
  | none, _ => .ret (.panic .nilDeref)
  | some a, v => .setInt a v (.ret (.ok ()))

/-- `var p PrivateKey` of a variable whose address is taken. -/
def newPrivP : Prog Nat := .newPriv fun a => .ret (.ok a)

/-- Assignment to a field of a private key. -/
def updPrivP (a : Nat) (f : PrivObj → PrivObj) : Prog Unit := .updPriv a f (.ret (.ok ()))

/-- `var p PublicKey` of a variable whose address is taken. -/
def newPubP : Prog Nat := .newPub fun a => .ret (.ok a)

/-- Assignment to a field of a public key. -/
def updPubP (a : Nat) (f : PubObj → PubObj) : Prog Unit := .updPub a f (.ret (.ok ()))

/-- `z.Add(x, y)`. -/
def bigAddP (z x y : Ptr) : Prog Ptr := do
  let a ← readIntP x
  let b ← readIntP y
  writeIntP z (a + b)
  pure z

/-- `z.Mul(x, y)`. -/
def bigMulP (z x y : Ptr) : Prog Ptr := do
  let a ← readIntP x
  let b ← readIntP y
  writeIntP z (a * b)
  pure z

/-- `z.Mod(x, y)`. -/
def bigModP (z x y : Ptr) : Prog Ptr := do
  let a ← readIntP x
  let b ← readIntP y
  if b = 0 then liftP (.panic .divideByZero)
  else
    writeIntP z (a % b)
    pure z

/-- `z.Set(x)`. -/
def bigSetP (z x : Ptr) : Prog Ptr := do
  let a ← readIntP x
  writeIntP z a
  pure z

/-- `new(big.Int).SetString(s, base)`. -/
def newSetStringP (s : GoString) (base : Nat) : Prog Ptr := do
  let z ← newIntP 0
  match bigSetString s base with
  | some v => do
    writeIntP z v
    pure z
  | none => pure none

/-- util.go:19-21 `bigIntToHex`. -/
def bigIntToHexP (p : Ptr) : Prog GoString := do
  let v ← loadIntP p
  pure (bigIntToHex v)

/-! ## The functions of the repository -/

variable (H : Hashes)

/-- The methods of `ecdsa.Curve` (external package) as programs; the receiver is the package variable. -/
structure EcdsaP where
  getY : Ptr → Prog (Ptr × Bool)
  multMod : Ptr → Ptr → Prog Ptr
  scalarMult : Ptr → Ptr × Ptr → Prog ((Ptr × Ptr) × Bool)
  addPoints : Ptr × Ptr → Ptr × Ptr → Prog ((Ptr × Ptr) × Bool)

/-- The curve package when nothing else runs. -/
def EcdsaP.toM (E : EcdsaP) : EcdsaM where
  getY x := (E.getY x).run
  multMod x y := (E.multMod x y).run
  scalarMult k p := (E.scalarMult k p).run
  addPoints p q := (E.addPoints p q).run

variable (E : EcdsaP)

/-- private_key.go:44-68 `PrivateFromWIF`. -/
def privateFromWIFP (wif : GoString) (network : Ptr) : Prog Ptr := do
  let valid ← liftP (checkWIF H wif)
  if !valid then liftP (.err .wifInvalid)
  else
    let bytes ← liftP (base58Decode wif)
    let hexa := hexEncode bytes
    let hexa ← liftP (slice hexa 2 hexa.length)
    let hexa ← liftP (slice hexa 0 ((hexa.length : Int) - 8))
    let p ← newPrivP
    updPrivP p fun o => { o with WIF := wif }
    updPrivP p fun o => { o with Hex := hexa }
    let key ← newSetStringP hexa 16
    updPrivP p fun o => { o with Key := key }
    updPrivP p fun o => { o with Network := network }
    pure (some p)

/-- private_key.go:71-114 `PrivateFromHex`. -/
def privateFromHexP (hexa : GoString) (network : Ptr) : Prog Ptr := do
  let p ← newPrivP
  let key ← newSetStringP hexa 16
  updPrivP p fun o => { o with Key := key }
  updPrivP p fun o => { o with Hex := hexa }
  let net ← readNetP network
  let hexaP := net.PrivKeyPrefix ++ hexa
  let hexaB ← liftP (hexDecode hexaP)
  let hash := H.sha256 hexaB
  let doubleHashHex := H.sha256 hash
  let checksum ← liftP (slice (hexEncode doubleHashHex) 0 8)
  let hexaPC := hexaP ++ checksum
  let hexaB2 ← liftP (hexDecode hexaPC)
  let wif := base58Encode hexaB2
  updPrivP p fun o => { o with WIF := wif }
  updPrivP p fun o => { o with Network := network }
  pure (some p)

/-- util.go:9-17 `generateRandomBigInt`. -/
def generateRandomBigIntP (draw : Reader → Res (Nat × Reader)) (rd : Reader) : Prog (Ptr × Reader) := do
  let _max ← newSetStringP (asc "FFFFFFFFFFFFFFFFFFFFFFFFFFFFFFFEBAAEDCE6AF48A03BBFD25E8CD0364140") 16
  let r ← liftP (draw rd)
  let z ← newIntP r.1
  pure (z, r.2)

/-- private_key.go:117-133 `GeneratePrivateKey`, with fuel as in the pure model. -/
def generateLoopP (draw : Reader → Res (Nat × Reader)) (network : Ptr) : Nat → Reader → Prog (Ptr × Reader)
  | 0, _ => liftP (.panic .outOfFuel)
  | fuel + 1, rd => do
    let (key, rd') ← generateRandomBigIntP draw rd
    let hexa ← bigIntToHexP key
    if hexa.length ≠ 64 then generateLoopP draw network fuel rd'
    else
      onErrP (privateFromHexP H hexa network) (generateLoopP draw network fuel rd') fun q =>
        match q with
        | none => liftP (.panic .nilDeref)
        | some p => do
          updPrivP p fun o => { o with Key := key }
          pure (some p, rd')

/-- private_key.go:117-133 `GeneratePrivateKey`. The random bytes this call gets are `rd`; which bytes of the shared
source those are depends on the order of the calls. -/
def generatePrivateKeyP (rd : Reader) (network : Ptr) : Prog (Ptr × Reader) :=
  generateLoopP H generateRandomBigInt network (rd.length + 1) rd

/-- private_key.go:136-154 `AddPrivateKeys`: every field is read where the Go code reads it. -/
def addPrivateKeysP (p1 p2 : Ptr) : Prog Ptr := do
  let m1 ← privFieldP p1 (·.Network)
  let m2 ← privFieldP p2 (·.Network)
  let n1 ← loadNetP m1
  let n2 ← loadNetP m2
  if n1 ≠ n2 then liftP (.err .differentNetwork)
  else
    let w1 ← privFieldP p1 (·.WIF)
    let w2 ← privFieldP p2 (·.WIF)
    if H.toLower w1 = H.toLower w2 then liftP (.err .identicalKeys)
    else
      let pKey ← newIntP 0
      let k1 ← privFieldP p1 (·.Key)
      let k2 ← privFieldP p2 (·.Key)
      let pKey ← bigAddP pKey k1 k2
      let curve ← readCurveP
      let pKey ← bigModP pKey pKey curve.N
      let hexa ← bigIntToHexP pKey
      let m ← privFieldP p1 (·.Network)
      privateFromHexP H hexa m

/-- private_key.go:157-175 `MultiplyPrivateKeys`. -/
def multiplyPrivateKeysP (p1 p2 : Ptr) : Prog Ptr := do
  let m1 ← privFieldP p1 (·.Network)
  let m2 ← privFieldP p2 (·.Network)
  let n1 ← loadNetP m1
  let n2 ← loadNetP m2
  if n1 ≠ n2 then liftP (.err .differentNetwork)
  else
    let w1 ← privFieldP p1 (·.WIF)
    let w2 ← privFieldP p2 (·.WIF)
    if H.toLower w1 = H.toLower w2 then liftP (.err .identicalKeys)
    else
      let pKey ← newIntP 0
      let k1 ← privFieldP p1 (·.Key)
      let k2 ← privFieldP p2 (·.Key)
      let pKey ← bigMulP pKey k1 k2
      let curve ← readCurveP
      let pKey ← bigModP pKey pKey curve.N
      let hexa ← bigIntToHexP pKey
      let m ← privFieldP p1 (·.Network)
      privateFromHexP H hexa m

/-- public_key.go:17-57 `PublicFromHex`. -/
def publicFromHexP (hexa : GoString) (network : Ptr) : Prog Ptr := do
  let p ← newPubP
  updPubP p fun o => { o with Network := network }
  let pre ← liftP (slice hexa 0 2)
  if pre = asc "04" then
    let x ← liftP (slice hexa 2 66)
    let y ← liftP (slice hexa 66 130)
    let X ← newSetStringP x 16
    updPubP p fun o => { o with X := X }
    let Y ← newSetStringP y 16
    updPubP p fun o => { o with Y := Y }
    pure (some p)
  else if pre = asc "03" ∨ pre = asc "02" then
    let x ← liftP (slice hexa 2 66)
    let X ← newSetStringP x 16
    updPubP p fun o => { o with X := X }
    let (y, onCurve) ← E.getY X
    if !onCurve then liftP (.err .notOnSecp256k1)
    else
      let parity ← newIntP 0
      writeIntP parity (if pre = asc "02" then 0 else 1)
      let yMod ← newIntP 0
      let yMod ← bigSetP yMod y
      let two ← newIntP 2
      let yMod ← bigModP yMod y two
      let m ← readIntP yMod
      let par ← readIntP parity
      if m ≠ par then
        let minusOne ← newIntP (-1)
        let y' ← E.multMod y minusOne
        updPubP p fun o => { o with Y := y' }
        pure (some p)
      else
        updPubP p fun o => { o with Y := y }
        pure (some p)
  else liftP (.err .unsupportedFormat)

/-- public_key.go:60-73 `GetPublicKey`; the Go result `(nil, false)` is the nil pointer. -/
def getPublicKeyP (p : Ptr) : Prog Ptr := do
  let k ← newPubP
  let key ← privFieldP p (·.Key)
  let c ← readCurveP
  let ((x, y), valid) ← E.scalarMult key (c.GX, c.GY)
  if !valid then pure none
  else
    updPubP k fun q => { q with X := x }
    updPubP k fun q => { q with Y := y }
    let m ← privFieldP p (·.Network)
    updPubP k fun q => { q with Network := m }
    pure (some k)

/-- public_key.go:168-194 `AddPublicKeys`. -/
def addPublicKeysP (p1 p2 : Ptr) (_compressed : Bool) : Prog Ptr := do
  let m1 ← pubFieldP p1 (·.Network)
  let m2 ← pubFieldP p2 (·.Network)
  let n1 ← loadNetP m1
  let n2 ← loadNetP m2
  if n1 ≠ n2 then liftP (.err .differentNetwork)
  else
    let x1 ← pubFieldP p1 (·.X)
    let y1 ← pubFieldP p1 (·.Y)
    let x2 ← pubFieldP p2 (·.X)
    let y2 ← pubFieldP p2 (·.Y)
    let ((x, y), onCurve) ← E.addPoints (x1, y1) (x2, y2)
    if !onCurve then liftP (.err .notOnCurve)
    else
      let k ← newPubP
      let m ← pubFieldP p1 (·.Network)
      updPubP k fun q => { q with X := x, Y := y, Network := m }
      pure (some k)

/-- public_key.go:76-105 `Format`. -/
def formatP (p : Ptr) (compressed : Bool) : Prog GoString := do
  let x ← pubFieldP p (·.X)
  let pXHex ← bigIntToHexP x
  let y ← pubFieldP p (·.Y)
  let pYHex ← bigIntToHexP y
  let pXHex := padZeros 64 pXHex
  let pYHex := padZeros 64 pYHex
  if !compressed then liftP (.ok (asc "04" ++ pXHex ++ pYHex))
  else
    let y ← pubFieldP p (·.Y)
    let y ← readIntP y
    if y % 2 = 0 then liftP (.ok (asc "02" ++ pXHex)) else liftP (.ok (asc "03" ++ pXHex))

/-- public_key.go:108-165 `Address`. -/
def addressP (p : Ptr) (compressed : Bool) : Prog GoString := do
  let hexa ← formatP p compressed
  let bytes ← liftP (hexDecode hexa)
  let hash := H.sha256 bytes
  let ripemdHash := H.ripemd160 hash
  let hexa := hexEncode ripemdHash
  let m ← pubFieldP p (·.Network)
  let net ← readNetP m
  let extendedRipemd := net.PubKeyHashPrefix ++ hexa
  let bytes ← liftP (hexDecode extendedRipemd)
  let hash := H.sha256 bytes
  let hash := H.sha256 hash
  let hexa := hexEncode hash
  let checksum ← liftP (slice hexa 0 8)
  let extendedRipemd := extendedRipemd ++ checksum
  let bytes ← liftP (hexDecode extendedRipemd)
  liftP (.ok (base58Encode bytes))

end Btc.Mem
