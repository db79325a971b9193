/-!
# Go run-time behaviour used by the model

Go calls return a value, return an `error`, or panic. Strings and byte slices are lists of bytes.
-/

namespace Btc

/-- Go `[]byte`. -/
abbrev Bytes := List UInt8

/-- Go `string`: an immutable sequence of bytes (not of characters). -/
abbrev GoString := List UInt8

/-- The bytes of an ASCII string literal of the Go source. -/
def asc (s : String) : GoString := s.toList.map fun c => UInt8.ofNat c.toNat

/-- The errors the modelled functions can return. Text of `errors.New` cited at the use sites. -/
inductive GoError where
  /-- `hex.InvalidByteError` -/
  | hexInvalidByte (b : UInt8)
  /-- `hex.ErrLength` -/
  | hexLength
  /-- `base58.Decode` on the empty string -/
  | base58Empty
  /-- `base58.Decode` on a character outside the alphabet -/
  | base58Digit
  /-- "wif invalid" -/
  | wifInvalid
  /-- "different network" -/
  | differentNetwork
  /-- "private keys are identical" -/
  | identicalKeys
  /-- "point is not on secp256k1 curve" -/
  | notOnSecp256k1
  /-- "unsupported public key format" -/
  | unsupportedFormat
  /-- "point is not on curve" -/
  | notOnCurve
  /-- "invalid mnemonic" -/
  | invalidMnemonic
  /-- "invalid checksum" -/
  | invalidChecksum
  /-- "invalid wordlist" -/
  | invalidWordlist
  /-- "unsupported mnemonic length" -/
  | unsupportedMnemonicLength
  /-- the random source failed to deliver (`io.ReadFull` error) -/
  | randRead
  deriving DecidableEq, Repr

/-- The ways a modelled call can crash. -/
inductive GoPanic where
  /-- slice bounds out of range -/
  | sliceBounds
  /-- index out of range -/
  | indexRange
  /-- nil pointer dereference -/
  | nilDeref
  /-- `math/big` division by zero -/
  | divideByZero
  /-- explicit `panic(err)` -/
  | explicit (e : GoError)
  /-- model artefact: recursion fuel exhausted (proved unreachable) -/
  | outOfFuel
  deriving DecidableEq, Repr

/-- Outcome of a Go call with result type `(α, error)`. -/
inductive Res (α : Type) where
  | ok (a : α)
  | err (e : GoError)
  | panic (p : GoPanic)
  deriving DecidableEq, Repr

namespace Res

/-- Sequencing: errors are returned at once (`if err != nil { return …, err }`), panics propagate. -/
def bind {α β : Type} (x : Res α) (f : α → Res β) : Res β :=
  match x with
  | ok a => f a
  | err e => err e
  | panic p => panic p

instance : Monad Res where
  pure := ok
  bind := bind

@[simp] theorem bind_ok {α β : Type} (a : α) (f : α → Res β) : (ok a >>= f) = f a := rfl
@[simp] theorem bind_err {α β : Type} (e : GoError) (f : α → Res β) :
    ((err e : Res α) >>= f) = err e := rfl
@[simp] theorem bind_panic {α β : Type} (p : GoPanic) (f : α → Res β) :
    ((panic p : Res α) >>= f) = panic p := rfl
@[simp] theorem pure_eq {α : Type} (a : α) : (pure a : Res α) = ok a := rfl

/-- A computation succeeds iff each stage does. -/
theorem bind_eq_ok {α β : Type} {x : Res α} {f : α → Res β} {b : β} :
    (x >>= f) = ok b ↔ ∃ a, x = ok a ∧ f a = ok b := by
  cases x <;> simp

end Res

/-- Go slice expression `s[lo:hi]`; panics unless `0 ≤ lo ≤ hi ≤ len(s)`. -/
def slice {α : Type} (s : List α) (lo hi : Int) : Res (List α) :=
  if 0 ≤ lo ∧ lo ≤ hi ∧ hi ≤ s.length then .ok ((s.drop lo.toNat).take (hi - lo).toNat)
  else .panic .sliceBounds

/-- Go index expression `s[i]`; panics unless `0 ≤ i < len(s)`. -/
def index {α : Type} (s : List α) (i : Int) : Res α :=
  if 0 ≤ i then
    match s[i.toNat]? with
    | some a => .ok a
    | none => .panic .indexRange
  else .panic .indexRange

/-- Pointer dereference; nil panics. -/
def deref {α : Type} (p : Option α) : Res α :=
  match p with
  | some a => .ok a
  | none => .panic .nilDeref

@[simp] theorem deref_some {α : Type} (a : α) : deref (some a) = .ok a := rfl
@[simp] theorem deref_none {α : Type} : deref (none : Option α) = .panic .nilDeref := rfl

end Btc
