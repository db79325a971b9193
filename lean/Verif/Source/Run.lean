import Verif.Source.Value

/-!
# What the syntax trees do

An interpreter: expressions give lists of values (a call can have several results), statements change the variables.
Calls of the repository's own functions are a parameter of the interpreter (`Ctx.call`); `runFunc` closes the loop.
-/

namespace Btc.Source

open Mem

/-! ## Variables -/

/-- Variables, innermost block first. -/
abbrev Env := List (List (Nat × Value))

/-- The value of a variable of one block. -/
def scopeGet (x : Nat) : List (Nat × Value) → Option Value
  | [] => none
  | (y, v) :: s => if y = x then some v else scopeGet x s

/-- Change a variable of one block. -/
def scopeSet (x : Nat) (v : Value) : List (Nat × Value) → Option (List (Nat × Value))
  | [] => none
  | (y, u) :: s => if y = x then some ((y, v) :: s) else (scopeSet x v s).map ((y, u) :: ·)

/-- The value of a variable. -/
def Env.get (x : Nat) : Env → Option Value
  | [] => none
  | s :: env =>
    match scopeGet x s with
    | some v => some v
    | none => Env.get x env

/-- Change a variable. -/
def Env.set (x : Nat) (v : Value) : Env → Option Env
  | [] => none
  | s :: env =>
    match scopeSet x v s with
    | some s' => some (s' :: env)
    | none => (Env.set x v env).map (s :: ·)

/-- `x := v`: a new variable, unless the innermost block has one of this name already. -/
def Env.define (x : Nat) (v : Value) : Env → Env
  | [] => [[(x, v)]]
  | s :: env =>
    if x = id! "_" then s :: env
    else
      match scopeSet x v s with
      | some s' => s' :: env
      | none => ((x, v) :: s) :: env

/-- `x, y := v, w` -/
def defineAll : Expr → List Value → Env → Option Env
  | .nil, [], env => some env
  | .cons (.name x) l, v :: vs, env => defineAll l vs (env.define x v)
  | _, _, _ => none

/-! ## Expressions -/

/-- What the interpreter needs to know: the packages outside the repository and the functions of the repository. -/
structure Ctx where
  H : Hashes
  E : EcdsaM
  /-- receiver type (0 for a plain function), name, receiver and arguments -/
  call : Nat → Nat → List Value → M (List Value)

variable (C : Ctx)

/-- What a name means where no variable of a function has it. -/
def global (x : Nat) : M Value :=
  if x = id! "nil" then pure .nil
  else if x = id! "true" then pure (.bool true)
  else if x = id! "false" then pure (.bool false)
  else if x = id! "secp256k1" then pure .curve
  else if packages.contains x then pure (.pkg x)
  else fun st =>
    match scopeGet x st.vars with
    | some v => .ok v st
    | none => .stuck

/-- A name. -/
def named (x : Nat) (env : Env) : M Value :=
  match env.get x with
  | some v => pure v
  | none => global x

/-- `new(T)`: only `new(big.Int)` occurs. -/
def newOf (args : Expr) : M (List Value) :=
  match args with
  | .cons (.sel (.name p) t) .nil =>
    if p = id! "big" ∧ t = id! "Int" then do let z ← onHeap (newInt 0); pure [.big z] else stuck
  | _ => stuck

/-- A call of a built-in function or of a function of the repository. -/
def callName (f : Nat) (args : List Value) : M (List Value) :=
  match builtin f args with
  | some m => m
  | none => C.call 0 f args

/-- A call of `v.m`. -/
def callMethod (v : Value) (m : Nat) (args : List Value) : M (List Value) :=
  match v with
  | .pkg p => external C.H p m args
  | .big z => bigMethod z m args
  | .hash a => hashMethod C.H a m args
  | .curve => curveMethod C.E m args
  | .priv p => C.call (id! "PrivateKey") m (.priv p :: args)
  | .pub p => C.call (id! "PublicKey") m (.pub p :: args)
  | _ => stuck

/-- `a || b` -/
def shortOr (a : Value) (b : M Value) : M Value :=
  match a with
  | .bool true => pure (.bool true)
  | .bool false => b
  | _ => stuck

/-- `a || b`; other operators evaluate both sides. -/
def combine (op : Nat) (a : Value) (b : M Value) : M Value :=
  if op = id! "||" then shortOr a b else do let y ← b; known (binary op a y)

/-- The values of an expression. -/
def eval : Expr → Env → M (List Value)
  | .name x, env => do let v ← named x env; pure [v]
  | .num n, _ => pure [.int n]
  | .str s, _ => pure [.str (utf8 s)]
  | .sel e f, env => do
    let vs ← eval e env
    let v ← one vs
    let r ← field v f
    pure [r]
  | .call f args, env =>
    match f with
    | .name g =>
      if g = id! "new" then newOf args
      else do
        let vs ← eval args env
        callName C g vs
    | .sel e m => do
      let us ← eval e env
      let u ← one us
      let vs ← eval args env
      callMethod C u m vs
    | _ => stuck
  | .index e i, env => do
    let vs ← eval e env
    let v ← one vs
    let is ← eval i env
    let j ← one is
    let r ← indexValue v j
    pure [r]
  | .slice e lo hi, env => do
    let vs ← eval e env
    let v ← one vs
    let ls ← eval lo env
    let l ← one ls
    let hs ← eval hi env
    let h ← one hs
    let r ← sliceValue v l h
    pure [r]
  | .un op e, env => do
    let vs ← eval e env
    let v ← one vs
    let r ← known (unary op v)
    pure [r]
  | .bin op a b, env => do
    let vs ← eval a env
    let v ← one vs
    let r ← combine op v (do let us ← eval b env; one us)
    pure [r]
  | .lit t fields, env => do
    let vs ← eval fields env
    let r ← composite t (keys fields) vs
    pure [r]
  | .kv _ e, env => eval e env
  | .sliceOf _, _ => stuck
  | .nil, _ => pure []
  | .cons e es, env => do
    let vs ← eval e env
    let us ← eval es env
    pure (vs ++ us)

/-! ## Statements -/

/-- How a statement ends. -/
inductive Ctl where
  | next (env : Env)
  | brk (env : Env)
  | ret (vs : List Value)

/-- What stands on the left of `=`. -/
inductive Place where
  | blank
  | var (x : Nat)
  | field (v : Value) (f : Nat)

/-- The places on the left of `=`; operands on the left are evaluated before the right-hand side. -/
def places : Expr → Env → M (List Place)
  | .cons (.name x) l, env => do
    let ps ← places l env
    pure ((if x = id! "_" then .blank else .var x) :: ps)
  | .cons (.sel e f) l, env => do
    let vs ← eval C e env
    let v ← one vs
    let ps ← places l env
    pure (.field v f :: ps)
  | .nil, _ => pure []
  | _, _ => stuck

/-- Assignment to a package variable. -/
def setGlobal (x : Nat) (v : Value) : M Unit := fun st =>
  match scopeSet x v st.vars with
  | some vars => .ok () { st with vars := vars }
  | none => .stuck

/-- Assignment to one place. -/
def storeOne (p : Place) (v : Value) (env : Env) : M Env :=
  match p with
  | .blank => pure env
  | .var x =>
    match env.set x v with
    | some env' => pure env'
    | none => do setGlobal x v; pure env
  | .field u f => do setField u f v; pure env

/-- Assignment from left to right. -/
def storeAll : List Place → List Value → Env → M Env
  | [], [], env => pure env
  | p :: ps, v :: vs, env => do
    let env' ← storeOne p v env
    storeAll ps vs env'
  | _, _, _ => stuck

/-- `l = r` -/
def assignment (l r : Expr) (env : Env) : M Ctl := do
  let ps ← places C l env
  let vs ← eval C r env
  let env' ← storeAll ps vs env
  pure (.next env')

/-- Continue after a statement that ended normally. -/
def follow (c : Ctl) (k : Env → M Ctl) : M Ctl :=
  match c with
  | .next env => k env
  | .brk env => pure (.brk env)
  | .ret vs => pure (.ret vs)

/-- The end of a block: its variables are gone. -/
def leave : Ctl → Ctl
  | .next env => .next env.tail
  | .brk env => .brk env.tail
  | .ret vs => .ret vs

/-- After one round of a loop. -/
def again (c : Ctl) (k : Env → M Ctl) : M Ctl :=
  match c with
  | .next env => k env
  | .brk env => pure (.next env)
  | .ret vs => pure (.ret vs)

/-- The condition of `if` or `for`. -/
def choose (vs : List Value) (t e : M Ctl) : M Ctl :=
  match vs with
  | [.bool true] => t
  | [.bool false] => e
  | _ => stuck

/-- The rounds of a `for` loop, at most `n` evaluations of the condition. -/
def rounds (c : Env → M (List Value)) (body post : Env → M Ctl) : Nat → Env → M Ctl
  | 0, _ => stuck
  | n + 1, env => do
    let b ← c env
    choose b
      (do
        let r ← body env
        again r fun env => do
          let q ← post env
          follow q fun env => rounds c body post n env)
      (pure (.next env))

/-- The rounds of a `range` loop over the strings `ws`, the first of which has index `i`. -/
def ranging (body : Env → M Ctl) (k v : Nat) (env : Env) : Nat → List GoString → M Ctl
  | _, [] => pure (.next env)
  | i, w :: ws => do
    let r ← body (Env.define k (.int i) (Env.define v (.str w) ([] :: env)))
    again (leave r) fun env => ranging body k v env (i + 1) ws

/-- What a statement does; `n` bounds the rounds of each loop. -/
def exec (n : Nat) : Stmt → Env → M Ctl
  | .skip, env => pure (.next env)
  | .seq a b, env => do
    let r ← exec n a env
    follow r fun env => exec n b env
  | .block s, env => do
    let r ← exec n s ([] :: env)
    pure (leave r)
  | .define l r, env => do
    let vs ← eval C r env
    let env' ← known (defineAll l vs env)
    pure (.next env')
  | .assign l r, env => assignment C l r env
  | .addAssign l r, env => assignment C (.cons l .nil) (.bin (id! "+") l r) env
  | .inc l, env => assignment C (.cons l .nil) (.bin (id! "+") l (.num 1)) env
  | .expr e, env => do
    let _ ← eval C e env
    pure (.next env)
  | .var x t, env => do
    let v ← zero t
    pure (.next (env.define x v))
  | .ret es, env => do
    let vs ← eval C es env
    pure (.ret vs)
  | .brk, env => pure (.brk env)
  | .ite c t e, env => do
    let b ← eval C c env
    choose b (exec n t env) (exec n e env)
  | .loop init c post body, env => do
    let r ← exec n init ([] :: env)
    let q ← follow r fun env => rounds (eval C c) (exec n body) (exec n post) n env
    pure (leave q)
  | .range k v e body, env => do
    let vs ← eval C e env
    match vs with
    | [.strs l] => ranging (exec n body) k v env 0 (l.getD [])
    | _ => stuck
  | .switch s, env => do
    let r ← exec n s env
    again r fun env => pure (.next env)

/-! ## Functions -/

/-- The parameters of a function and the arguments of a call. -/
def bindParams : List (Nat × Expr) → List Value → Option (List (Nat × Value))
  | [], [] => some []
  | (x, _) :: ps, v :: vs => (bindParams ps vs).map ((x, v) :: ·)
  | _, _ => none

/-- The variables at the start of a call. -/
def Func.start (f : Func) (args : List Value) : Option Env :=
  if f.recv = 0 then (bindParams f.params args).map fun s => [s]
  else
    match args with
    | r :: args => (bindParams f.params args).map fun s => [(f.recvName, r) :: s]
    | [] => none

/-- The results of a call. -/
def Func.finish (f : Func) (c : Ctl) : M (List Value) :=
  match c with
  | .ret vs => known (typedAll f.results vs)
  | .next _ => if f.results = [] then pure [] else stuck
  | .brk _ => stuck

/-- The function of this name in a list of declarations. -/
def findFunc (recv name : Nat) : List Decl → Option Func
  | [] => none
  | .func f :: ds => if f.recv = recv ∧ f.name = name then some f else findFunc recv name ds
  | _ :: ds => findFunc recv name ds

/-- A call of a function of the program `ds`, at most `n` calls deep and with at most `n` rounds per loop. -/
def runFunc (H : Hashes) (E : EcdsaM) (ds : List Decl) : Nat → Nat → Nat → List Value → M (List Value)
  | 0, _, _, _ => stuck
  | n + 1, recv, name, args =>
    match findFunc recv name ds with
    | none => stuck
    | some f =>
      match f.start args with
      | none => stuck
      | some env => do
        let c ← exec ⟨H, E, runFunc H E ds n⟩ n f.body env
        f.finish c

end Btc.Source
