import Verif.Conc.Machine
import Verif.Source.Run

/-!
# The text in single memory accesses

`Verif/Source/Run.lean` runs a function of the text in one go. Here the same syntax trees become trees of single memory
accesses (`Prog`, `Verif/Conc/Prog.lean`), so that goroutines running the text can be interleaved. Each definition is
that of the same name (without `T`) in `Verif/Source/Value.lean` and `Verif/Source/Run.lean`, with the heap accessed
step by step; `Verif/Threads/Agree.lean` shows that, run alone, they do the same.

A goroutine has hashes, a supply of random bytes and log lines of its own. Package variables are only read. What would
change something that has no place in these trees (a package variable, the pointers in `secp256k1`, a new network) is
`illegal`; the theorems show that it does not occur after `init`.
-/

namespace Btc.Threads

open Mem Source

/-- What a goroutine has besides the shared memory: the fields of `Source.State` other than the heap. -/
structure Rest where
  hashes : List HashObj
  rd : Reader
  log : Log
  vars : List (Nat × Value)

/-- A state without its heap. -/
def privateOf (st : State) : Rest := ⟨st.hashes, st.rd, st.log, st.vars⟩

/-- A state from its parts. -/
def Rest.with (s : Rest) (h : Heap) : State := ⟨h, s.hashes, s.rd, s.log, s.vars⟩

/-- How a computation of a goroutine ends, if it does not panic. -/
inductive Ended (α : Type) where
  | done (a : α) (s : Rest)
  | stuck
  | illegal

/-- Computations of a goroutine. -/
def TM (α : Type) := Rest → Prog (Ended α)

/-- Go on with the result of a computation. -/
def Ended.andThen {α β : Type} (f : α → TM β) : Ended α → Prog (Ended β)
  | .done a s => f a s
  | .stuck => .ret (.ok .stuck)
  | .illegal => .ret (.ok .illegal)

instance : Monad TM where
  pure a := fun s => .ret (.ok (.done a s))
  bind x f := fun s => (x s).next (Ended.andThen f) fun e => .ret (.err e)

/-- No rule applies. -/
def stuckT {α : Type} : TM α := fun _ => .ret (.ok .stuck)

/-- Something that these trees do not do. -/
def illegalT {α : Type} : TM α := fun _ => .ret (.ok .illegal)

/-- A run-time panic. Simplification: hashes, random bytes and log lines of the goroutine are not recorded. -/
def panicT {α : Type} (p : GoPanic) : TM α := fun _ => .ret (.panic p)

/-- Something that can only panic (indexing, slicing). -/
def ofResT {α : Type} (r : Res α) : TM α := fun s =>
  match r with
  | .ok a => .ret (.ok (.done a s))
  | .err _ => .ret (.ok .stuck)
  | .panic p => .ret (.panic p)

/-- Something that works on the heap and does not return an `error`. -/
def onHeapT {α : Type} (m : Prog α) : TM α := fun s =>
  m.next (fun a => .ret (.ok (.done a s))) fun _ => .ret (.ok .stuck)

/-- A call `v, err := f(…)` of a function outside the repository: `v` is not specified if there is an error. -/
def withErrorT {α : Type} (r : Res α) (f : α → Value) : TM (List Value) :=
  match r with
  | .ok a => pure [f a, .err none]
  | .err e => pure [.unknown, .err (some e)]
  | .panic p => panicT p

/-- A single value. -/
def oneT : List Value → TM Value
  | [v] => pure v
  | _ => stuckT

/-- A value that there may be no rule for. -/
def knownT {α : Type} : Option α → TM α
  | some a => pure a
  | none => stuckT

/-- Read a private key. -/
def readPrivP (p : Ptr) : Prog PrivObj := privFieldP p fun o => o

/-- Read a public key. -/
def readPubP (p : Ptr) : Prog PubObj := pubFieldP p fun o => o

/-- `z.SetString(s, base)` -/
def setStringP (z : Ptr) (s : GoString) (base : Nat) : Prog Ptr :=
  match bigSetString s base with
  | some v => do
    writeIntP z v
    pure z
  | none => pure none

/-- `v[i]` -/
def indexValueT (v i : Value) : TM Value :=
  match v, i with
  | .str s, .int i => do let b ← ofResT (index s i); pure (.byte b)
  | .strs l, .int i => do let w ← ofResT (index (l.getD []) i); pure (.str w)
  | _, _ => stuckT

/-- `v[lo:hi]` -/
def sliceValueT (v lo hi : Value) : TM Value :=
  match v, lo, hi with
  | .str s, .int lo, .int hi => do let t ← ofResT (slice s lo hi); pure (.str t)
  | _, _, _ => stuckT

/-- `v.f`; a nil pointer panics. -/
def fieldT (v : Value) (f : Nat) : TM Value :=
  match v with
  | .priv p => do let o ← onHeapT (readPrivP p); knownT (privField o f)
  | .privVar a => do let o ← onHeapT (readPrivP (some a)); knownT (privField o f)
  | .pub p => do let o ← onHeapT (readPubP p); knownT (pubField o f)
  | .pubVar a => do let o ← onHeapT (readPubP (some a)); knownT (pubField o f)
  | .net p => do let n ← onHeapT (readNetP p); knownT (netField n f)
  | .netVar a => do let n ← onHeapT (readNetP (some a)); knownT (netField n f)
  | .curve => do let c ← onHeapT readCurveP; knownT (curveField c f)
  | .point x y => knownT (pointField x y f)
  | .base x y => knownT (pointField x y f)
  | .pkg x => if x = id! "rand" ∧ f = id! "Reader" then pure .reader else stuckT
  | _ => stuckT

/-- Assignment to a field of a private key. -/
def setPrivT (a : Nat) (f : Nat) (v : Value) : TM Unit :=
  match v with
  | .big p => if f = id! "Key" then onHeapT (updPrivP a fun o => { o with Key := p }) else stuckT
  | .str s =>
    if f = id! "Hex" then onHeapT (updPrivP a fun o => { o with Hex := s })
    else if f = id! "WIF" then onHeapT (updPrivP a fun o => { o with WIF := s })
    else stuckT
  | .net p => if f = id! "Network" then onHeapT (updPrivP a fun o => { o with Network := p }) else stuckT
  | _ => stuckT

/-- Assignment to a field of a public key. -/
def setPubT (a : Nat) (f : Nat) (v : Value) : TM Unit :=
  match v with
  | .big p =>
    if f = id! "X" then onHeapT (updPubP a fun o => { o with X := p })
    else if f = id! "Y" then onHeapT (updPubP a fun o => { o with Y := p })
    else stuckT
  | .net p => if f = id! "Network" then onHeapT (updPubP a fun o => { o with Network := p }) else stuckT
  | _ => stuckT

/-- `u.f = v`; a nil pointer panics. -/
def setFieldT (u : Value) (f : Nat) (v : Value) : TM Unit :=
  match u with
  | .privVar a => setPrivT a f v
  | .priv (some a) => setPrivT a f v
  | .priv none => panicT .nilDeref
  | .pubVar a => setPubT a f v
  | .pub (some a) => setPubT a f v
  | .pub none => panicT .nilDeref
  | .curve => illegalT
  | .base _ _ => illegalT
  | _ => stuckT

/-- The zero value of a type; `var x T`. -/
def zeroT (t : Expr) : TM Value :=
  match t with
  | .name x =>
    if x = id! "int" then pure (.int 0)
    else if x = id! "string" then pure (.str [])
    else if x = id! "PrivateKey" then do let a ← onHeapT newPrivP; pure (.privVar a)
    else if x = id! "PublicKey" then do let a ← onHeapT newPubP; pure (.pubVar a)
    else stuckT
  | .sliceOf (.name x) => if x = id! "string" then pure (.strs none) else stuckT
  | _ => stuckT

/-- A composite literal: `Network{…}`, `PublicKey{…}`, `ecdsa.Point{…}`, each with all its fields. -/
def compositeT (t : Expr) (ks : List Nat) (vs : List Value) : TM Value :=
  match t with
  | .name x =>
    if x = id! "Network" then
      match given (id! "PrivKeyPrefix") ks vs, given (id! "PubKeyHashPrefix") ks vs with
      | some (.str _), some (.str _) => illegalT
      | _, _ => stuckT
    else if x = id! "PublicKey" then
      match given (id! "X") ks vs, given (id! "Y") ks vs, given (id! "Network") ks vs with
      | some (.big a), some (.big b), some (.net n) => do
        let k ← onHeapT newPubP
        onHeapT (updPubP k fun q => { q with X := a, Y := b, Network := n })
        pure (.pubVar k)
      | _, _, _ => stuckT
    else stuckT
  | .sel (.name p) x =>
    if p = id! "ecdsa" ∧ x = id! "Point" then
      match given (id! "X") ks vs, given (id! "Y") ks vs with
      | some (.big a), some (.big b) => pure (.point a b)
      | _, _ => stuckT
    else stuckT
  | _ => stuckT

/-- The methods of `*big.Int` (package `math/big`). -/
def bigMethodT (z : Ptr) (m : Nat) (args : List Value) : TM (List Value) :=
  match args with
  | [] =>
    if m = id! "Bytes" then do let a ← onHeapT (readIntP z); pure [.bytes (natToBytes a.natAbs)]
    else if m = id! "Int64" then do let a ← onHeapT (readIntP z); pure [.int (toInt64 a)]
    else stuckT
  | [.big x] =>
    if m = id! "Set" then do let r ← onHeapT (bigSetP z x); pure [.big r]
    else if m = id! "Cmp" then do let a ← onHeapT (readIntP z); let b ← onHeapT (readIntP x); pure [.int (intCmp a b)]
    else stuckT
  | [.int i] =>
    if m = id! "SetInt64" then do onHeapT (writeIntP z i); pure [.big z]
    else if m = id! "Bit" then
      if i < 0 then stuckT else do let a ← onHeapT (readIntP z); pure [.int (intBit a i.toNat)]
    else stuckT
  | [.bytes b] => if m = id! "SetBytes" then do onHeapT (writeIntP z (bytesToNat b : Int)); pure [.big z] else stuckT
  | [.big x, .big y] =>
    if m = id! "Add" then do let r ← onHeapT (bigAddP z x y); pure [.big r]
    else if m = id! "Mul" then do let r ← onHeapT (bigMulP z x y); pure [.big r]
    else if m = id! "Mod" then do let r ← onHeapT (bigModP z x y); pure [.big r]
    else stuckT
  | [.str s, .int b] =>
    if m = id! "SetString" then
      if b = 16 ∨ b = 2 then do
        let r ← onHeapT (setStringP z s b.toNat)
        pure [.big r, .bool r.isSome]
      else stuckT
    else stuckT
  | [.big x, .big y, .nil] =>
    if m = id! "Exp" then do
      let a ← onHeapT (readIntP x)
      let b ← onHeapT (readIntP y)
      onHeapT (writeIntP z (if b ≤ 0 then 1 else a ^ b.toNat))
      pure [.big z]
    else stuckT
  | _ => stuckT

/-- A hash under way. -/
def readHashT (a : Nat) : TM HashObj := fun s =>
  match s.hashes[a]? with
  | some o => .ret (.ok (.done o s))
  | none => .ret (.ok .stuck)

/-- `sha256.New()`, `ripemd160.New()` -/
def newHashT (ripemd : Bool) : TM Value := fun s =>
  .ret (.ok (.done (.hash s.hashes.length) { s with hashes := s.hashes ++ [⟨ripemd, []⟩] }))

/-- `h.Write(b)` -/
def writeHashT (a : Nat) (b : Bytes) : TM Unit := fun s =>
  .ret (.ok (.done () { s with hashes := s.hashes.modify a fun o => { o with data := o.data ++ b } }))

/-- The methods of `hash.Hash`. -/
def hashMethodT (H : Hashes) (a : Nat) (m : Nat) (args : List Value) : TM (List Value) :=
  match args with
  | [.bytes b] => if m = id! "Write" then do writeHashT a b; pure [.int b.length, .err none] else stuckT
  | [.nil] => if m = id! "Sum" then do let o ← readHashT a; pure [.bytes (digest H o)] else stuckT
  | _ => stuckT

/-- The methods of `ecdsa.Curve`. -/
def curveMethodT (E : EcdsaP) (m : Nat) (args : List Value) : TM (List Value) :=
  match args with
  | [.big x] => if m = id! "GetY" then do let r ← onHeapT (E.getY x); pure [.big r.1, .bool r.2] else stuckT
  | [.big x, .big y] => if m = id! "MultMod" then do let r ← onHeapT (E.multMod x y); pure [.big r] else stuckT
  | [.big k, .base x y] =>
    if m = id! "ScalarMult" then do let r ← onHeapT (E.scalarMult k (x, y)); pure [.point r.1.1 r.1.2, .bool r.2] else stuckT
  | [.point x y, .point u v] =>
    if m = id! "AddPoints" then do let r ← onHeapT (E.addPoints (x, y) (u, v)); pure [.point r.1.1 r.1.2, .bool r.2] else stuckT
  | _ => stuckT

/-- `errors.New(text)` -/
def newErrorT (s : GoString) : TM (List Value) :=
  match errorTexts.find? fun q => q.1 == s with
  | some q => pure [.err (some q.2)]
  | none => stuckT

/-- `reflect.DeepEqual` of two `*Network`. -/
def deepEqualT (p q : Ptr) : TM (List Value) := do
  let a ← onHeapT (loadNetP p)
  let b ← onHeapT (loadNetP q)
  pure [.bool (decide (a = b))]

/-- Draw a number below `m` and allocate it; nil if the source fails. -/
def drawBigT (m : Nat) : TM (List Value) := fun s =>
  match randInt s.rd m with
  | .ok (v, rd') => (newIntP (v : Int)).next (fun z => .ret (.ok (.done [.big z, .err none] { s with rd := rd' })))
      fun _ => .ret (.ok .stuck)
  | .err e => .ret (.ok (.done [.big none, .err (some e)] s))
  | .panic p => .ret (.panic p)

/-- `rand.Int(rand.Reader, max)`; `max ≤ 0` does not occur. -/
def randBigT (max : Ptr) : TM (List Value) := do
  let m ← onHeapT (readIntP max)
  if m ≤ 0 then stuckT else drawBigT m.toNat

/-- `fmt.Sprintf(f, v)` -/
def sprintfT (f : GoString) (v : Value) : TM (List Value) :=
  match verb f with
  | none => stuckT
  | some b =>
    match v with
    | .big p => do let i ← onHeapT (loadIntP p); pure [.str (fmtBig b i)]
    | .int i => pure [.str (fmtBig b (some i))]
    | _ => stuckT

/-- `log.Println(vs...)` -/
def printlnT (vs : List Value) : TM (List Value) :=
  match logLine vs with
  | some l => fun s => .ret (.ok (.done [] { s with log := s.log ++ [l] }))
  | none => stuckT

/-- The functions of the imported packages. -/
def externalT (H : Hashes) (p f : Nat) (args : List Value) : TM (List Value) :=
  if p = id! "hex" then
    match args with
    | [.str s] => if f = id! "DecodeString" then withErrorT (hexDecode s) .bytes else stuckT
    | [.bytes b] => if f = id! "EncodeToString" then pure [.str (hexEncode b)] else stuckT
    | _ => stuckT
  else if p = id! "base58" then
    match args with
    | [.str s] => if f = id! "Decode" then withErrorT (base58Decode s) .bytes else stuckT
    | [.bytes b] => if f = id! "Encode" then pure [.str (base58Encode b)] else stuckT
    | _ => stuckT
  else if p = id! "sha256" then
    match args with
    | [] => if f = id! "New" then do let h ← newHashT false; pure [h] else stuckT
    | _ => stuckT
  else if p = id! "ripemd160" then
    match args with
    | [] => if f = id! "New" then do let h ← newHashT true; pure [h] else stuckT
    | _ => stuckT
  else if p = id! "errors" then
    match args with
    | [.str s] => if f = id! "New" then newErrorT s else stuckT
    | _ => stuckT
  else if p = id! "big" then
    match args with
    | [.int i] => if f = id! "NewInt" then do let z ← onHeapT (newIntP i); pure [.big z] else stuckT
    | _ => stuckT
  else if p = id! "reflect" then
    match args with
    | [.net a, .net b] => if f = id! "DeepEqual" then deepEqualT a b else stuckT
    | _ => stuckT
  else if p = id! "strings" then
    match args with
    | [.str s] => if f = id! "ToLower" then pure [.str (H.toLower s)] else stuckT
    | [.str s, .str t] => if f = id! "Split" ∧ t = [32] then pure [.strs (some (splitSpace s))] else stuckT
    | [.strs l, .str t] => if f = id! "Join" ∧ t = [32] then pure [.str (joinSpace (l.getD []))] else stuckT
    | _ => stuckT
  else if p = id! "rand" then
    match args with
    | [.reader, .big m] => if f = id! "Int" then randBigT m else stuckT
    | _ => stuckT
  else if p = id! "fmt" then
    match args with
    | [.str s, v] => if f = id! "Sprintf" then sprintfT s v else stuckT
    | _ => stuckT
  else if p = id! "log" then
    if f = id! "Println" then printlnT args else stuckT
  else stuckT

/-- Built-in functions and conversions. -/
def builtinT (f : Nat) (args : List Value) : Option (TM (List Value)) :=
  if f = id! "len" then
    some (match args with
      | [.str s] => pure [.int s.length]
      | [.strs l] => pure [.int (l.getD []).length]
      | _ => stuckT)
  else if f = id! "append" then
    some (match args with
      | [.strs l, .str s] => pure [.strs (some (l.getD [] ++ [s]))]
      | _ => stuckT)
  else if f = id! "string" then
    some (match args with
      | [.byte b] => pure [.str (utf8Char b.toNat)]
      | _ => stuckT)
  else if f = id! "int64" then
    some (match args with
      | [.int i] => pure [.int i]
      | _ => stuckT)
  else if f = id! "panic" then
    some (match args with
      | [.err (some e)] => panicT (.explicit e)
      | _ => stuckT)
  else none

/-- What the interpreter needs to know: the packages outside the repository and the functions of the repository. -/
structure TCtx where
  H : Hashes
  E : EcdsaP
  /-- receiver type (0 for a plain function), name, receiver and arguments -/
  call : Nat → Nat → List Value → TM (List Value)

/-- What a name means where no variable of a function has it. -/
def globalT (x : Nat) : TM Value :=
  if x = id! "nil" then pure .nil
  else if x = id! "true" then pure (.bool true)
  else if x = id! "false" then pure (.bool false)
  else if x = id! "secp256k1" then pure .curve
  else if packages.contains x then pure (.pkg x)
  else fun s =>
    match scopeGet x s.vars with
    | some v => .ret (.ok (.done v s))
    | none => .ret (.ok .stuck)

/-- Assignment to a package variable. -/
def setGlobalT (x : Nat) (v : Value) : TM Unit := fun s =>
  match scopeSet x v s.vars with
  | some _ => .ret (.ok .illegal)
  | none => .ret (.ok .stuck)

/-- A name. -/
def namedT (x : Nat) (env : Env) : TM Value :=
  match env.get x with
  | some v => pure v
  | none => globalT x

/-- `new(T)`: only `new(big.Int)` occurs. -/
def newOfT (args : Expr) : TM (List Value) :=
  match args with
  | .cons (.sel (.name p) t) .nil =>
    if p = id! "big" ∧ t = id! "Int" then do let z ← onHeapT (newIntP 0); pure [.big z] else stuckT
  | _ => stuckT

variable (C : TCtx)

/-- A call of a built-in function or of a function of the repository. -/
def callNameT (f : Nat) (args : List Value) : TM (List Value) :=
  match builtinT f args with
  | some m => m
  | none => C.call 0 f args

/-- A call of `v.m`. -/
def callMethodT (v : Value) (m : Nat) (args : List Value) : TM (List Value) :=
  match v with
  | .pkg p => externalT C.H p m args
  | .big z => bigMethodT z m args
  | .hash a => hashMethodT C.H a m args
  | .curve => curveMethodT C.E m args
  | .priv p => C.call (id! "PrivateKey") m (.priv p :: args)
  | .pub p => C.call (id! "PublicKey") m (.pub p :: args)
  | _ => stuckT

/-- `a || b` -/
def shortOrT (a : Value) (b : TM Value) : TM Value :=
  match a with
  | .bool true => pure (.bool true)
  | .bool false => b
  | _ => stuckT

/-- `a || b`; other operators evaluate both sides. -/
def combineT (op : Nat) (a : Value) (b : TM Value) : TM Value :=
  if op = id! "||" then shortOrT a b else do let y ← b; knownT (binary op a y)

/-- The values of an expression. -/
def evalT : Expr → Env → TM (List Value)
  | .name x, env => do let v ← namedT x env; pure [v]
  | .num n, _ => pure [.int n]
  | .str s, _ => pure [.str (utf8 s)]
  | .sel e f, env => do
    let vs ← evalT e env
    let v ← oneT vs
    let r ← fieldT v f
    pure [r]
  | .call f args, env =>
    match f with
    | .name g =>
      if g = id! "new" then newOfT args
      else do
        let vs ← evalT args env
        callNameT C g vs
    | .sel e m => do
      let us ← evalT e env
      let u ← oneT us
      let vs ← evalT args env
      callMethodT C u m vs
    | _ => stuckT
  | .index e i, env => do
    let vs ← evalT e env
    let v ← oneT vs
    let is ← evalT i env
    let j ← oneT is
    let r ← indexValueT v j
    pure [r]
  | .slice e lo hi, env => do
    let vs ← evalT e env
    let v ← oneT vs
    let ls ← evalT lo env
    let l ← oneT ls
    let hs ← evalT hi env
    let h ← oneT hs
    let r ← sliceValueT v l h
    pure [r]
  | .un op e, env => do
    let vs ← evalT e env
    let v ← oneT vs
    let r ← knownT (unary op v)
    pure [r]
  | .bin op a b, env => do
    let vs ← evalT a env
    let v ← oneT vs
    let r ← combineT op v (do let us ← evalT b env; oneT us)
    pure [r]
  | .lit t fields, env => do
    let vs ← evalT fields env
    let r ← compositeT t (keys fields) vs
    pure [r]
  | .kv _ e, env => evalT e env
  | .sliceOf _, _ => stuckT
  | .nil, _ => pure []
  | .cons e es, env => do
    let vs ← evalT e env
    let us ← evalT es env
    pure (vs ++ us)

/-- The places on the left of `=`; operands on the left are evaluated before the right-hand side. -/
def placesT : Expr → Env → TM (List Place)
  | .cons (.name x) l, env => do
    let ps ← placesT l env
    pure ((if x = id! "_" then .blank else .var x) :: ps)
  | .cons (.sel e f) l, env => do
    let vs ← evalT C e env
    let v ← oneT vs
    let ps ← placesT l env
    pure (.field v f :: ps)
  | .nil, _ => pure []
  | _, _ => stuckT

/-- Assignment to one place. -/
def storeOneT (p : Place) (v : Value) (env : Env) : TM Env :=
  match p with
  | .blank => pure env
  | .var x =>
    match env.set x v with
    | some env' => pure env'
    | none => do setGlobalT x v; pure env
  | .field u f => do setFieldT u f v; pure env

/-- Assignment from left to right. -/
def storeAllT : List Place → List Value → Env → TM Env
  | [], [], env => pure env
  | p :: ps, v :: vs, env => do
    let env' ← storeOneT p v env
    storeAllT ps vs env'
  | _, _, _ => stuckT

/-- `l = r` -/
def assignmentT (l r : Expr) (env : Env) : TM Ctl := do
  let ps ← placesT C l env
  let vs ← evalT C r env
  let env' ← storeAllT ps vs env
  pure (.next env')

/-- Continue after a statement that ended normally. -/
def followT (c : Ctl) (k : Env → TM Ctl) : TM Ctl :=
  match c with
  | .next env => k env
  | .brk env => pure (.brk env)
  | .ret vs => pure (.ret vs)

/-- After one round of a loop. -/
def againT (c : Ctl) (k : Env → TM Ctl) : TM Ctl :=
  match c with
  | .next env => k env
  | .brk env => pure (.next env)
  | .ret vs => pure (.ret vs)

/-- The condition of `if` or `for`. -/
def chooseT (vs : List Value) (t e : TM Ctl) : TM Ctl :=
  match vs with
  | [.bool true] => t
  | [.bool false] => e
  | _ => stuckT

/-- The rounds of a `for` loop, at most `n` evaluations of the condition. -/
def roundsT (c : Env → TM (List Value)) (body post : Env → TM Ctl) : Nat → Env → TM Ctl
  | 0, _ => stuckT
  | n + 1, env => do
    let b ← c env
    chooseT b
      (do
        let r ← body env
        againT r fun env => do
          let q ← post env
          followT q fun env => roundsT c body post n env)
      (pure (.next env))

/-- The rounds of a `range` loop over the strings `ws`, the first of which has index `i`. -/
def rangingT (body : Env → TM Ctl) (k v : Nat) (env : Env) : Nat → List GoString → TM Ctl
  | _, [] => pure (.next env)
  | i, w :: ws => do
    let r ← body (Env.define k (.int i) (Env.define v (.str w) ([] :: env)))
    againT (leave r) fun env => rangingT body k v env (i + 1) ws

/-- What a statement does; `n` bounds the rounds of each loop. -/
def execT (n : Nat) : Stmt → Env → TM Ctl
  | .skip, env => pure (.next env)
  | .seq a b, env => do
    let r ← execT n a env
    followT r fun env => execT n b env
  | .block s, env => do
    let r ← execT n s ([] :: env)
    pure (leave r)
  | .define l r, env => do
    let vs ← evalT C r env
    let env' ← knownT (defineAll l vs env)
    pure (.next env')
  | .assign l r, env => assignmentT C l r env
  | .addAssign l r, env => assignmentT C (.cons l .nil) (.bin (id! "+") l r) env
  | .inc l, env => assignmentT C (.cons l .nil) (.bin (id! "+") l (.num 1)) env
  | .expr e, env => do
    let _ ← evalT C e env
    pure (.next env)
  | .var x t, env => do
    let v ← zeroT t
    pure (.next (env.define x v))
  | .ret es, env => do
    let vs ← evalT C es env
    pure (.ret vs)
  | .brk, env => pure (.brk env)
  | .ite c t e, env => do
    let b ← evalT C c env
    chooseT b (execT n t env) (execT n e env)
  | .loop init c post body, env => do
    let r ← execT n init ([] :: env)
    let q ← followT r fun env => roundsT (evalT C c) (execT n body) (execT n post) n env
    pure (leave q)
  | .range k v e body, env => do
    let vs ← evalT C e env
    match vs with
    | [.strs l] => rangingT (execT n body) k v env 0 (l.getD [])
    | _ => stuckT
  | .switch s, env => do
    let r ← execT n s env
    againT r fun env => pure (.next env)

/-- The results of a call. -/
def finishT (f : Func) (c : Ctl) : TM (List Value) :=
  match c with
  | .ret vs => knownT (typedAll f.results vs)
  | .next _ => if f.results = [] then pure [] else stuckT
  | .brk _ => stuckT

/-- A call of a function of the program `ds`, at most `n` calls deep and with at most `n` rounds per loop. -/
def runFuncT (H : Hashes) (E : EcdsaP) (ds : List Decl) : Nat → Nat → Nat → List Value → TM (List Value)
  | 0, _, _, _ => stuckT
  | n + 1, recv, name, args =>
    match findFunc recv name ds with
    | none => stuckT
    | some f =>
      match f.start args with
      | none => stuckT
      | some env => do
        let c ← execT ⟨H, E, runFuncT H E ds n⟩ n f.body env
        finishT f c

end Btc.Threads
