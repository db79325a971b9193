import Verif.Heap.Model
import Verif.Model.Mnemonic
import Verif.Source.Syntax

/-!
# Values, states, and what the packages outside the repository do

The interpreter of `Verif/Source/Run.lean` works on untyped values. Big integers, networks, keys and the curve live in
the heap of `Verif/Heap/Basic.lean`, so that two variables can share a number. A text for which the interpreter has no
rule ends in `stuck`; `stuck` is also what running out of rounds gives. The theorems show that neither happens.
-/

namespace Btc.Source

open Mem

/-- Values of Go expressions. -/
inductive Value where
  /-- the untyped constant `nil` -/
  | nil
  | bool (b : Bool)
  /-- `int`, `int64`, `uint`; simplification: unbounded (the code counts characters and bits with them) -/
  | int (i : Int)
  | byte (b : UInt8)
  | str (s : GoString)
  /-- `[]byte`; no two of them share memory in the code -/
  | bytes (b : Bytes)
  /-- `[]string`, nil or not -/
  | strs (l : Option (List GoString))
  | err (e : Option GoError)
  /-- `*big.Int` -/
  | big (p : Ptr)
  /-- `*Network` -/
  | net (p : Ptr)
  /-- `*PrivateKey` -/
  | priv (p : Ptr)
  /-- `*PublicKey` -/
  | pub (p : Ptr)
  /-- a variable of type `Network`: where it lives -/
  | netVar (a : Nat)
  /-- a variable of type `PrivateKey`: where it lives -/
  | privVar (a : Nat)
  /-- a variable of type `PublicKey`: where it lives -/
  | pubVar (a : Nat)
  /-- `ecdsa.Point` -/
  | point (x y : Ptr)
  /-- the variable `secp256k1` -/
  | curve
  /-- the variable `secp256k1.G` -/
  | base (x y : Ptr)
  /-- `hash.Hash` -/
  | hash (a : Nat)
  /-- `rand.Reader` -/
  | reader
  /-- the name of an imported package -/
  | pkg (x : Nat)
  /-- a result that is not specified when there is an error; every use of it is stuck -/
  | unknown

/-- A hash under way: whether it is RIPEMD-160 (else SHA-256), and the bytes written so far. -/
structure HashObj where
  ripemd : Bool
  data : Bytes

/-- Everything outside the variables of a function. -/
structure State where
  heap : Heap
  hashes : List HashObj
  /-- the bytes `crypto/rand.Reader` will still deliver -/
  rd : Reader
  /-- the lines written by `log.Println` -/
  log : Log
  /-- package variables other than `secp256k1` -/
  vars : List (Nat × Value)

/-- How a computation ends. -/
inductive Out (α : Type) where
  | ok (a : α) (st : State)
  | panic (p : GoPanic) (st : State)
  | stuck

/-- Computations. -/
def M (α : Type) := State → Out α

/-- Go on with the result of a computation. -/
def Out.andThen {α β : Type} (o : Out α) (f : α → M β) : Out β :=
  match o with
  | .ok a st => f a st
  | .panic p st => .panic p st
  | .stuck => .stuck

instance : Monad M where
  pure a := fun st => .ok a st
  bind x f := fun st => (x st).andThen f

/-- No rule applies. -/
def stuck {α : Type} : M α := fun _ => .stuck

/-- A run-time panic. -/
def panic {α : Type} (p : GoPanic) : M α := fun st => .panic p st

/-- Something that can only panic (indexing, slicing). -/
def ofRes {α : Type} (r : Res α) : M α := fun st =>
  match r with
  | .ok a => .ok a st
  | .err _ => .stuck
  | .panic p => .panic p st

/-- Something that works on the heap and does not return an `error`. -/
def onHeap {α : Type} (m : HM α) : M α := fun st =>
  match m st.heap with
  | (.ok a, h) => .ok a { st with heap := h }
  | (.err _, _) => .stuck
  | (.panic p, h) => .panic p { st with heap := h }

/-- A call `v, err := f(…)` of a function outside the repository: `v` is not specified if there is an error. -/
def withError {α : Type} (r : Res α) (f : α → Value) : M (List Value) := fun st =>
  match r with
  | .ok a => .ok [f a, .err none] st
  | .err e => .ok [.unknown, .err (some e)] st
  | .panic p => .panic p st

/-- A single value. -/
def one : List Value → M Value
  | [v] => pure v
  | _ => stuck

/-! ## Text -/

/-- The UTF-8 bytes of a character. -/
def utf8Char (c : Nat) : GoString :=
  if c < 128 then [UInt8.ofNat c]
  else if c < 2048 then [UInt8.ofNat (192 + c / 64), UInt8.ofNat (128 + c % 64)]
  else if c < 65536 then [UInt8.ofNat (224 + c / 4096), UInt8.ofNat (128 + c / 64 % 64), UInt8.ofNat (128 + c % 64)]
  else [UInt8.ofNat (240 + c / 262144), UInt8.ofNat (128 + c / 4096 % 64), UInt8.ofNat (128 + c / 64 % 64),
    UInt8.ofNat (128 + c % 64)]

/-- The UTF-8 bytes of a string literal. -/
def utf8 (s : List Nat) : GoString := s.flatMap utf8Char

/-- The `error` values made with `errors.New`, by their text. -/
def errorTexts : List (GoString × GoError) :=
  [(asc "wif invalid", .wifInvalid), (asc "different network", .differentNetwork),
    (asc "private keys are identical", .identicalKeys), (asc "point is not on secp256k1 curve", .notOnSecp256k1),
    (asc "unsupported public key format", .unsupportedFormat), (asc "point is not on curve", .notOnCurve),
    (asc "invalid mnemonic", .invalidMnemonic), (asc "invalid checksum", .invalidChecksum),
    (asc "invalid wordlist", .invalidWordlist), (asc "unsupported mnemonic length", .unsupportedMnemonicLength)]

/-! ## Operators -/

/-- Is this value nil? -/
def isNil : Value → Option Bool
  | .err e => some e.isNone
  | .strs l => some l.isNone
  | .big p => some p.isNone
  | .net p => some p.isNone
  | .priv p => some p.isNone
  | .pub p => some p.isNone
  | _ => none

/-- `a == b` for the types that are compared in the code. -/
def equal (a b : Value) : Option Bool :=
  match a, b with
  | .str s, .str t => some (decide (s = t))
  | .int i, .int j => some (decide (i = j))
  | v, .nil => isNil v
  | _, _ => none

/-- Binary operators (both operands evaluated). -/
def binary (op : Nat) (a b : Value) : Option Value :=
  if op = id! "==" then (equal a b).map .bool
  else if op = id! "!=" then (equal a b).map fun t => .bool !t
  else
    match a, b with
    | .int i, .int j =>
      if op = id! "+" then some (.int (i + j))
      else if op = id! "-" then some (.int (i - j))
      else if op = id! "/" then if j = 0 then none else some (.int (i.tdiv j))
      else if op = id! "<" then some (.bool (decide (i < j)))
      else none
    | .str s, .str t => if op = id! "+" then some (.str (s ++ t)) else none
    | _, _ => none

/-- A value that there may be no rule for. -/
def known {α : Type} : Option α → M α
  | some a => pure a
  | none => stuck

/-- Unary operators. -/
def unary (op : Nat) (v : Value) : Option Value :=
  match v with
  | .bool b => if op = id! "!" then some (.bool !b) else none
  | .int i => if op = id! "-" then some (.int (-i)) else none
  | .netVar a => if op = id! "&" then some (.net (some a)) else none
  | .privVar a => if op = id! "&" then some (.priv (some a)) else none
  | .pubVar a => if op = id! "&" then some (.pub (some a)) else none
  | _ => none

/-- `v[i]` -/
def indexValue (v i : Value) : M Value :=
  match v, i with
  | .str s, .int i => do let b ← ofRes (index s i); pure (.byte b)
  | .strs l, .int i => do let w ← ofRes (index (l.getD []) i); pure (.str w)
  | _, _ => stuck

/-- `v[lo:hi]` -/
def sliceValue (v lo hi : Value) : M Value :=
  match v, lo, hi with
  | .str s, .int lo, .int hi => do let t ← ofRes (slice s lo hi); pure (.str t)
  | _, _, _ => stuck

/-! ## Fields -/

/-- The fields of struct.go:14-20. -/
def privField (o : PrivObj) (f : Nat) : Option Value :=
  if f = id! "Key" then some (.big o.Key)
  else if f = id! "Hex" then some (.str o.Hex)
  else if f = id! "WIF" then some (.str o.WIF)
  else if f = id! "Network" then some (.net o.Network)
  else none

/-- The fields of struct.go:23-28. -/
def pubField (o : PubObj) (f : Nat) : Option Value :=
  if f = id! "X" then some (.big o.X)
  else if f = id! "Y" then some (.big o.Y)
  else if f = id! "Network" then some (.net o.Network)
  else none

/-- The fields of struct.go:8-11. -/
def netField (n : Network) (f : Nat) : Option Value :=
  if f = id! "PrivKeyPrefix" then some (.str n.PrivKeyPrefix)
  else if f = id! "PubKeyHashPrefix" then some (.str n.PubKeyHashPrefix)
  else none

/-- The fields of `ecdsa.Curve`. -/
def curveField (c : CurveObj) (f : Nat) : Option Value :=
  if f = id! "A" then some (.big c.A)
  else if f = id! "B" then some (.big c.B)
  else if f = id! "P" then some (.big c.P)
  else if f = id! "N" then some (.big c.N)
  else if f = id! "H" then some (.big c.H)
  else if f = id! "G" then some (.base c.GX c.GY)
  else none

/-- The fields of `ecdsa.Point`. -/
def pointField (x y : Ptr) (f : Nat) : Option Value :=
  if f = id! "X" then some (.big x) else if f = id! "Y" then some (.big y) else none

/-- `v.f`; a nil pointer panics. -/
def field (v : Value) (f : Nat) : M Value :=
  match v with
  | .priv p => do let o ← onHeap (readPriv p); known (privField o f)
  | .privVar a => do let o ← onHeap (readPriv (some a)); known (privField o f)
  | .pub p => do let o ← onHeap (readPub p); known (pubField o f)
  | .pubVar a => do let o ← onHeap (readPub (some a)); known (pubField o f)
  | .net p => do let n ← onHeap (readNet p); known (netField n f)
  | .netVar a => do let n ← onHeap (readNet (some a)); known (netField n f)
  | .curve => do let c ← onHeap readCurve; known (curveField c f)
  | .point x y => known (pointField x y f)
  | .base x y => known (pointField x y f)
  | .pkg x => if x = id! "rand" ∧ f = id! "Reader" then pure .reader else stuck
  | _ => stuck

/-- Assignment to a field of a private key. -/
def setPriv (a : Nat) (f : Nat) (v : Value) : M Unit :=
  match v with
  | .big p => if f = id! "Key" then onHeap (updPriv a fun o => { o with Key := p }) else stuck
  | .str s =>
    if f = id! "Hex" then onHeap (updPriv a fun o => { o with Hex := s })
    else if f = id! "WIF" then onHeap (updPriv a fun o => { o with WIF := s })
    else stuck
  | .net p => if f = id! "Network" then onHeap (updPriv a fun o => { o with Network := p }) else stuck
  | _ => stuck

/-- Assignment to a field of a public key. -/
def setPub (a : Nat) (f : Nat) (v : Value) : M Unit :=
  match v with
  | .big p =>
    if f = id! "X" then onHeap (updPub a fun o => { o with X := p })
    else if f = id! "Y" then onHeap (updPub a fun o => { o with Y := p })
    else stuck
  | .net p => if f = id! "Network" then onHeap (updPub a fun o => { o with Network := p }) else stuck
  | _ => stuck

/-- Change the pointers in the package variable `secp256k1`. -/
def updCurve (f : CurveObj → CurveObj) : M Unit := onHeap fun h => (.ok (), { h with curve := f h.curve })

/-- Assignment to a field of `secp256k1`. -/
def setCurve (f : Nat) (v : Value) : M Unit :=
  match v with
  | .big p =>
    if f = id! "A" then updCurve fun c => { c with A := p }
    else if f = id! "B" then updCurve fun c => { c with B := p }
    else if f = id! "P" then updCurve fun c => { c with P := p }
    else if f = id! "N" then updCurve fun c => { c with N := p }
    else if f = id! "H" then updCurve fun c => { c with H := p }
    else stuck
  | _ => stuck

/-- Assignment to a field of `secp256k1.G`. -/
def setBase (f : Nat) (v : Value) : M Unit :=
  match v with
  | .big p =>
    if f = id! "X" then updCurve fun c => { c with GX := p }
    else if f = id! "Y" then updCurve fun c => { c with GY := p }
    else stuck
  | _ => stuck

/-- `u.f = v`; a nil pointer panics. -/
def setField (u : Value) (f : Nat) (v : Value) : M Unit :=
  match u with
  | .privVar a => setPriv a f v
  | .priv (some a) => setPriv a f v
  | .priv none => panic .nilDeref
  | .pubVar a => setPub a f v
  | .pub (some a) => setPub a f v
  | .pub none => panic .nilDeref
  | .curve => setCurve f v
  | .base _ _ => setBase f v
  | _ => stuck

/-! ## Types -/

/-- The zero value of a type; `var x T`. -/
def zero (t : Expr) : M Value :=
  match t with
  | .name x =>
    if x = id! "int" then pure (.int 0)
    else if x = id! "string" then pure (.str [])
    else if x = id! "PrivateKey" then do let a ← onHeap newPriv; pure (.privVar a)
    else if x = id! "PublicKey" then do let a ← onHeap newPub; pure (.pubVar a)
    else stuck
  | .sliceOf (.name x) => if x = id! "string" then pure (.strs none) else stuck
  | _ => stuck

/-- The constant `nil` gets its type from where it is used: a result of type `t`. -/
def typed (t : Expr) (v : Value) : Value :=
  match v with
  | .nil =>
    match t with
    | .un _ (.name x) =>
      if x = id! "PrivateKey" then .priv none
      else if x = id! "PublicKey" then .pub none
      else if x = id! "Network" then .net none
      else .nil
    | .un _ (.sel (.name _) _) => .big none
    | .name x => if x = id! "error" then .err none else .nil
    | _ => .nil
  | v => v

/-- The results of a function, with the types of its declaration. -/
def typedAll : List Expr → List Value → Option (List Value)
  | [], [] => some []
  | t :: ts, v :: vs => (typedAll ts vs).map (typed t v :: ·)
  | _, _ => none

/-- The keys of a composite literal. -/
def keys : Expr → List Nat
  | .cons (.kv f _) es => f :: keys es
  | _ => []

/-- The value given for a key. -/
def given (f : Nat) : List Nat → List Value → Option Value
  | k :: ks, v :: vs => if k = f then some v else given f ks vs
  | _, _ => none

/-- A composite literal: `Network{…}`, `PublicKey{…}`, `ecdsa.Point{…}`, each with all its fields. -/
def composite (t : Expr) (ks : List Nat) (vs : List Value) : M Value :=
  match t with
  | .name x =>
    if x = id! "Network" then
      match given (id! "PrivKeyPrefix") ks vs, given (id! "PubKeyHashPrefix") ks vs with
      | some (.str a), some (.str b) => fun st =>
        .ok (.netVar st.heap.nets.length) { st with heap := { st.heap with nets := st.heap.nets ++ [⟨a, b⟩] } }
      | _, _ => stuck
    else if x = id! "PublicKey" then
      match given (id! "X") ks vs, given (id! "Y") ks vs, given (id! "Network") ks vs with
      | some (.big a), some (.big b), some (.net n) => do
        let k ← onHeap newPub
        onHeap (updPub k fun q => { q with X := a, Y := b, Network := n })
        pure (.pubVar k)
      | _, _, _ => stuck
    else stuck
  | .sel (.name p) x =>
    if p = id! "ecdsa" ∧ x = id! "Point" then
      match given (id! "X") ks vs, given (id! "Y") ks vs with
      | some (.big a), some (.big b) => pure (.point a b)
      | _, _ => stuck
    else stuck
  | _ => stuck

/-! ## Packages -/

/-- The imported packages. -/
def packages : List Nat :=
  [id! "sha256", id! "ripemd160", id! "hex", id! "base58", id! "errors", id! "big", id! "reflect", id! "strings", id! "rand",
    id! "fmt", id! "log", id! "ecdsa"]

/-- `int64(x)` of a `big.Int`: the low 64 bits as a signed number. -/
def toInt64 (i : Int) : Int := (i + 2 ^ 63) % 2 ^ 64 - 2 ^ 63

/-- `x.Bit(i)`, in two's complement. -/
def intBit (x : Int) (i : Nat) : Int := x / 2 ^ i % 2

/-- `x.Cmp(y)` -/
def intCmp (x y : Int) : Int := if x < y then -1 else if x = y then 0 else 1

/-- `z.SetString(s, base)` -/
def setString (z : Ptr) (s : GoString) (base : Nat) : HM Ptr :=
  match bigSetString s base with
  | some v => do
    writeInt z v
    pure z
  | none => pure none

/-- The methods of `*big.Int` (package `math/big`). -/
def bigMethod (z : Ptr) (m : Nat) (args : List Value) : M (List Value) :=
  match args with
  | [] =>
    if m = id! "Bytes" then do let a ← onHeap (readInt z); pure [.bytes (natToBytes a.natAbs)]
    else if m = id! "Int64" then do let a ← onHeap (readInt z); pure [.int (toInt64 a)]
    else stuck
  | [.big x] =>
    if m = id! "Set" then do let r ← onHeap (bigSet z x); pure [.big r]
    else if m = id! "Cmp" then do let a ← onHeap (readInt z); let b ← onHeap (readInt x); pure [.int (intCmp a b)]
    else stuck
  | [.int i] =>
    if m = id! "SetInt64" then do onHeap (writeInt z i); pure [.big z]
    else if m = id! "Bit" then
      if i < 0 then stuck else do let a ← onHeap (readInt z); pure [.int (intBit a i.toNat)]
    else stuck
  | [.bytes b] => if m = id! "SetBytes" then do onHeap (writeInt z (bytesToNat b : Int)); pure [.big z] else stuck
  | [.big x, .big y] =>
    if m = id! "Add" then do let r ← onHeap (bigAdd z x y); pure [.big r]
    else if m = id! "Mul" then do let r ← onHeap (bigMul z x y); pure [.big r]
    else if m = id! "Mod" then do let r ← onHeap (bigMod z x y); pure [.big r]
    else stuck
  | [.str s, .int b] =>
    if m = id! "SetString" then
      if b = 16 ∨ b = 2 then do
        let r ← onHeap (setString z s b.toNat)
        pure [.big r, .bool r.isSome]
      else stuck
    else stuck
  | [.big x, .big y, .nil] =>
    if m = id! "Exp" then do
      let a ← onHeap (readInt x)
      let b ← onHeap (readInt y)
      onHeap (writeInt z (if b ≤ 0 then 1 else a ^ b.toNat))
      pure [.big z]
    else stuck
  | _ => stuck

/-- A hash under way. -/
def readHash (a : Nat) : M HashObj := fun st =>
  match st.hashes[a]? with
  | some o => .ok o st
  | none => .stuck

/-- `sha256.New()`, `ripemd160.New()` -/
def newHash (ripemd : Bool) : M Value := fun st =>
  .ok (.hash st.hashes.length) { st with hashes := st.hashes ++ [⟨ripemd, []⟩] }

/-- `h.Write(b)` -/
def writeHash (a : Nat) (b : Bytes) : M Unit := fun st =>
  .ok () { st with hashes := st.hashes.modify a fun o => { o with data := o.data ++ b } }

/-- The digest of the bytes written. -/
def digest (H : Hashes) (o : HashObj) : Bytes := if o.ripemd then H.ripemd160 o.data else H.sha256 o.data

/-- The methods of `hash.Hash`. -/
def hashMethod (H : Hashes) (a : Nat) (m : Nat) (args : List Value) : M (List Value) :=
  match args with
  | [.bytes b] => if m = id! "Write" then do writeHash a b; pure [.int b.length, .err none] else stuck
  | [.nil] => if m = id! "Sum" then do let o ← readHash a; pure [.bytes (digest H o)] else stuck
  | _ => stuck

/-- The methods of `ecdsa.Curve`. -/
def curveMethod (E : EcdsaM) (m : Nat) (args : List Value) : M (List Value) :=
  match args with
  | [.big x] => if m = id! "GetY" then do let r ← onHeap (E.getY x); pure [.big r.1, .bool r.2] else stuck
  | [.big x, .big y] => if m = id! "MultMod" then do let r ← onHeap (E.multMod x y); pure [.big r] else stuck
  | [.big k, .base x y] =>
    if m = id! "ScalarMult" then do let r ← onHeap (E.scalarMult k (x, y)); pure [.point r.1.1 r.1.2, .bool r.2] else stuck
  | [.point x y, .point u v] =>
    if m = id! "AddPoints" then do let r ← onHeap (E.addPoints (x, y) (u, v)); pure [.point r.1.1 r.1.2, .bool r.2] else stuck
  | _ => stuck

/-- `%x` and `%b`. -/
def verb (f : GoString) : Option Nat :=
  if f = asc "%x" then some 16 else if f = asc "%b" then some 2 else none

/-- How `log.Println` writes its operands, with spaces between them. -/
def logLine : List Value → Option GoString
  | [.str s] => some s
  | [.int i] => some (fmtBig 10 (some i))
  | .str s :: v :: vs => (logLine (v :: vs)).map fun r => s ++ 32 :: r
  | .int i :: v :: vs => (logLine (v :: vs)).map fun r => fmtBig 10 (some i) ++ 32 :: r
  | _ => none

/-- Draw a number below `m` and allocate it; nil if the source fails. -/
def drawBig (m : Nat) : M (List Value) := fun st =>
  match randInt st.rd m with
  | .ok (v, rd') => (onHeap (newInt (v : Int)) { st with rd := rd' }).andThen fun z => pure [.big z, .err none]
  | .err e => .ok [.big none, .err (some e)] st
  | .panic p => .panic p st

/-- `rand.Int(rand.Reader, max)`; `max ≤ 0` does not occur. -/
def randBig (max : Ptr) : M (List Value) := do
  let m ← onHeap (readInt max)
  if m ≤ 0 then stuck else drawBig m.toNat

/-- `errors.New(text)` -/
def newError (s : GoString) : M (List Value) :=
  match errorTexts.find? fun q => q.1 == s with
  | some q => pure [.err (some q.2)]
  | none => stuck

/-- `fmt.Sprintf(f, v)` -/
def sprintf (f : GoString) (v : Value) : M (List Value) :=
  match verb f with
  | none => stuck
  | some b =>
    match v with
    | .big p => fun st => .ok [.str (fmtBig b (loadInt st.heap p))] st
    | .int i => pure [.str (fmtBig b (some i))]
    | _ => stuck

/-- `log.Println(vs...)` -/
def println (vs : List Value) : M (List Value) :=
  match logLine vs with
  | some l => fun st => .ok [] { st with log := st.log ++ [l] }
  | none => stuck

/-- `reflect.DeepEqual` of two `*Network`. -/
def deepEqual (p q : Ptr) : M (List Value) := do
  let a ← onHeap (deepNet p)
  let b ← onHeap (deepNet q)
  pure [.bool (decide (a = b))]

/-- The functions of the imported packages. -/
def external (H : Hashes) (p f : Nat) (args : List Value) : M (List Value) :=
  if p = id! "hex" then
    match args with
    | [.str s] => if f = id! "DecodeString" then withError (hexDecode s) .bytes else stuck
    | [.bytes b] => if f = id! "EncodeToString" then pure [.str (hexEncode b)] else stuck
    | _ => stuck
  else if p = id! "base58" then
    match args with
    | [.str s] => if f = id! "Decode" then withError (base58Decode s) .bytes else stuck
    | [.bytes b] => if f = id! "Encode" then pure [.str (base58Encode b)] else stuck
    | _ => stuck
  else if p = id! "sha256" then
    match args with
    | [] => if f = id! "New" then do let h ← newHash false; pure [h] else stuck
    | _ => stuck
  else if p = id! "ripemd160" then
    match args with
    | [] => if f = id! "New" then do let h ← newHash true; pure [h] else stuck
    | _ => stuck
  else if p = id! "errors" then
    match args with
    | [.str s] => if f = id! "New" then newError s else stuck
    | _ => stuck
  else if p = id! "big" then
    match args with
    | [.int i] => if f = id! "NewInt" then do let z ← onHeap (newInt i); pure [.big z] else stuck
    | _ => stuck
  else if p = id! "reflect" then
    match args with
    | [.net a, .net b] => if f = id! "DeepEqual" then deepEqual a b else stuck
    | _ => stuck
  else if p = id! "strings" then
    match args with
    | [.str s] => if f = id! "ToLower" then pure [.str (H.toLower s)] else stuck
    | [.str s, .str t] => if f = id! "Split" ∧ t = [32] then pure [.strs (some (splitSpace s))] else stuck
    | [.strs l, .str t] => if f = id! "Join" ∧ t = [32] then pure [.str (joinSpace (l.getD []))] else stuck
    | _ => stuck
  else if p = id! "rand" then
    match args with
    | [.reader, .big m] => if f = id! "Int" then randBig m else stuck
    | _ => stuck
  else if p = id! "fmt" then
    match args with
    | [.str s, v] => if f = id! "Sprintf" then sprintf s v else stuck
    | _ => stuck
  else if p = id! "log" then
    if f = id! "Println" then println args else stuck
  else stuck

/-- Built-in functions and conversions. -/
def builtin (f : Nat) (args : List Value) : Option (M (List Value)) :=
  if f = id! "len" then
    some (match args with
      | [.str s] => pure [.int s.length]
      | [.strs l] => pure [.int (l.getD []).length]
      | _ => stuck)
  else if f = id! "append" then
    some (match args with
      | [.strs l, .str s] => pure [.strs (some (l.getD [] ++ [s]))]
      | _ => stuck)
  else if f = id! "string" then
    some (match args with
      | [.byte b] => pure [.str (utf8Char b.toNat)]
      | _ => stuck)
  else if f = id! "int64" then
    some (match args with
      | [.int i] => pure [.int i]
      | _ => stuck)
  else if f = id! "panic" then
    some (match args with
      | [.err (some e)] => panic (.explicit e)
      | _ => stuck)
  else none

end Btc.Source
