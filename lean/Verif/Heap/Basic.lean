import Verif.Model.PublicKey

/-!
# A heap for the pointers of the Go code

The model in `Verif/Model` replaces pointers by the values they point to. Here the pointers are kept: big integers,
networks and keys live in a heap, `new(big.Int)` allocates, and the methods of `math/big` write to their receiver.
-/

namespace Btc.Mem

/-- A pointer: nil or an address. -/
abbrev Ptr := Option Nat

/-- struct.go:14-20 `PrivateKey` as laid out in memory. -/
structure PrivObj where
  Key : Ptr
  Hex : GoString
  WIF : GoString
  Network : Ptr
  deriving DecidableEq, Repr

/-- struct.go:23-28 `PublicKey` as laid out in memory. -/
structure PubObj where
  X : Ptr
  Y : Ptr
  Network : Ptr
  deriving DecidableEq, Repr

/-- The package variable `secp256k1` (btc.go:9): the pointers inside it. -/
structure CurveObj where
  A : Ptr
  B : Ptr
  GX : Ptr
  GY : Ptr
  P : Ptr
  N : Ptr
  H : Ptr
  deriving DecidableEq, Repr

/-- Memory: one region per type (Go pointers are typed), addresses are positions. -/
structure Heap where
  ints : List Int
  nets : List Network
  privs : List PrivObj
  pubs : List PubObj
  curve : CurveObj

/-- A computation on the heap. The heap is also known after an error or a panic. -/
def HM (α : Type) := Heap → Res α × Heap

instance : Monad HM where
  pure a := fun h => (.ok a, h)
  bind x f := fun h =>
    match x h with
    | (.ok a, h') => f a h'
    | (.err e, h') => (.err e, h')
    | (.panic p, h') => (.panic p, h')

/-- A computation that does not touch the heap. -/
def lift {α : Type} (r : Res α) : HM α := fun h => (r, h)

/-- `v, err := x; if err != nil { return retry }; f(v)`. -/
def onErr {α β : Type} (x : HM α) (retry : HM β) (f : α → HM β) : HM β := fun h =>
  match x h with
  | (.ok a, h') => f a h'
  | (.err _, h') => retry h'
  | (.panic p, h') => (.panic p, h')

/-- Value behind a big-integer pointer; nil has none. -/
def loadInt (h : Heap) (p : Ptr) : Option Int := p.bind (h.ints[·]?)

/-- Value behind a network pointer. -/
def loadNet (h : Heap) (p : Ptr) : Option Network := p.bind (h.nets[·]?)

/-- Object behind a private-key pointer. -/
def loadPriv (h : Heap) (p : Ptr) : Option PrivObj := p.bind (h.privs[·]?)

/-- Object behind a public-key pointer. -/
def loadPub (h : Heap) (p : Ptr) : Option PubObj := p.bind (h.pubs[·]?)

/-- `new(big.Int)` / `big.NewInt(v)`. -/
def newInt (v : Int) : HM Ptr := fun h =>
  (.ok (some h.ints.length), { h with ints := h.ints ++ [v] })

/-- Read through a pointer; nil panics. -/
def readInt (p : Ptr) : HM Int := fun h => (deref (loadInt h p), h)

/-- Read through a network pointer. -/
def readNet (p : Ptr) : HM Network := fun h => (deref (loadNet h p), h)

/-- Read a private key. -/
def readPriv (p : Ptr) : HM PrivObj := fun h => (deref (loadPriv h p), h)

/-- Read a public key. -/
def readPub (p : Ptr) : HM PubObj := fun h => (deref (loadPub h p), h)

/-- What `reflect.DeepEqual` compares for network pointers: the structs, nil being equal to nil only. -/
def deepNet (p : Ptr) : HM (Option Network) := fun h => (.ok (loadNet h p), h)

/-- The package variable. -/
def readCurve : HM CurveObj := fun h => (.ok h.curve, h)

/-- Overwrite a big integer in place. -/
def writeInt (p : Ptr) (v : Int) : HM Unit := fun h =>
  match p with
  | some a => if a < h.ints.length then (.ok (), { h with ints := h.ints.set a v }) else (.panic .nilDeref, h)
  | none => (.panic .nilDeref, h)

/-- `var p PrivateKey` of a variable whose address is taken. -/
def newPriv : HM Nat := fun h =>
  (.ok h.privs.length, { h with privs := h.privs ++ [⟨none, [], [], none⟩] })

/-- Assignment to fields of a private key. -/
def updPriv (a : Nat) (f : PrivObj → PrivObj) : HM Unit := fun h =>
  (.ok (), { h with privs := h.privs.modify a f })

/-- `var p PublicKey` of a variable whose address is taken. -/
def newPub : HM Nat := fun h =>
  (.ok h.pubs.length, { h with pubs := h.pubs ++ [⟨none, none, none⟩] })

/-- Assignment to fields of a public key. -/
def updPub (a : Nat) (f : PubObj → PubObj) : HM Unit := fun h =>
  (.ok (), { h with pubs := h.pubs.modify a f })

/-! ## Methods of `math/big` with receiver `z` -/

/-- `z.Add(x, y)`. -/
def bigAdd (z x y : Ptr) : HM Ptr := do
  let a ← readInt x
  let b ← readInt y
  writeInt z (a + b)
  pure z

/-- `z.Mul(x, y)`. -/
def bigMul (z x y : Ptr) : HM Ptr := do
  let a ← readInt x
  let b ← readInt y
  writeInt z (a * b)
  pure z

/-- `z.Mod(x, y)`: Euclidean remainder; division by zero panics. -/
def bigMod (z x y : Ptr) : HM Ptr := do
  let a ← readInt x
  let b ← readInt y
  if b = 0 then lift (.panic .divideByZero)
  else
    writeInt z (a % b)
    pure z

/-- `z.Set(x)`. -/
def bigSet (z x : Ptr) : HM Ptr := do
  let a ← readInt x
  writeInt z a
  pure z

/-- `new(big.Int).SetString(s, base)`: the number is allocated first; nil is returned if `s` is not a numeral (the
allocated number is then unreachable). -/
def newSetString (s : GoString) (base : Nat) : HM Ptr := do
  let z ← newInt 0
  match bigSetString s base with
  | some v => do
    writeInt z v
    pure z
  | none => pure none

/-- util.go:19-21 `bigIntToHex`. -/
def bigIntToHexM (p : Ptr) : HM GoString := fun h => (.ok (bigIntToHex (loadInt h p)), h)

end Btc.Mem
