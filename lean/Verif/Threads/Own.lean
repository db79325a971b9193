import Verif.Threads.Tree

/-!
# Functions that write only to what they have made

A check on syntax trees. The methods of `math/big` that write to their receiver are used only on new numbers, fields are
assigned only in new keys, package variables are not assigned and no networks are made. *New* is what comes from
`new(big.Int)`, `big.NewInt(…)`, a method of `math/big` that returns its receiver, `var x T`, `&x`, or a function that
returns nothing else, and what is held by a variable that holds nothing else. `Verif/Threads/Rel.lean` shows that what
passes the check may run beside other goroutines.
-/

namespace Btc.Threads

open Mem Source

/-- The methods of `*big.Int` that write to their receiver. -/
def mutators : List Nat :=
  [id! "Set", id! "SetInt64", id! "SetBytes", id! "Add", id! "Mul", id! "Mod", id! "SetString", id! "Exp"]

/-- Functions of packages, which return only what is new. -/
def makers : List Nat := [id! "NewInt", id! "New", id! "DecodeString", id! "Decode"]

/-- Names that no function of the program has, so that the call of such a method is a call of a package. -/
def reserved : List Nat := makers ++ mutators

/-- Expressions whose values are new; `N` are functions that return only what is new, `O` are variables that hold only
what is new. -/
def owned (N O : List Nat) : Expr → Bool
  | .name x => O.contains x
  | .call f _ =>
    match f with
    | .name g => g == id! "new" || N.contains g
    | .sel e m => makers.contains m || mutators.contains m && owned N O e
    | _ => false
  | .un _ _ => true
  | .nil => true
  | .cons e es => owned N O e && owned N O es
  | _ => false

/-- Expressions that write only to new numbers, make no networks and do not call `init`. -/
def okExpr (N O : List Nat) : Expr → Bool
  | .name _ => true
  | .num _ => true
  | .str _ => true
  | .sel e _ => okExpr N O e
  | .call f args =>
    (match f with
      | .name g => g != id! "init"
      | .sel e m => m != id! "init" && okExpr N O e && (!mutators.contains m || owned N O e)
      | _ => true) && okExpr N O args
  | .index e i => okExpr N O e && okExpr N O i
  | .slice e lo hi => okExpr N O e && okExpr N O lo && okExpr N O hi
  | .un _ e => okExpr N O e
  | .bin _ a b => okExpr N O a && okExpr N O b
  | .lit t fields => t != .name (id! "Network") && okExpr N O fields
  | .kv _ e => okExpr N O e
  | .sliceOf _ => true
  | .nil => true
  | .cons e es => okExpr N O e && okExpr N O es

/-- May this variable be given a value that is new if `o`? -/
def okVar (O : List Nat) (o : Bool) (x : Nat) : Bool := !O.contains x || o

/-- The left side of `:=`. -/
def okNames (O : List Nat) (o : Bool) : Expr → Bool
  | .cons (.name x) l => okVar O o x && okNames O o l
  | _ => true

/-- The left side of `=`; `G` are the package variables. -/
def okPlaces (O G : List Nat) (o : Bool) : Expr → Bool
  | .cons (.name x) l => (x == id! "_" || okVar O o x && !G.contains x) && okPlaces O G o l
  | .cons (.sel e _) l =>
    (match e with
      | .name y => O.contains y
      | _ => false) && okPlaces O G o l
  | _ => true

/-- Statements all of whose parts keep to the rules; if `m`, what they return is new. -/
def okStmt (N O G : List Nat) (m : Bool) : Stmt → Bool
  | .skip => true
  | .seq a b => okStmt N O G m a && okStmt N O G m b
  | .block s => okStmt N O G m s
  | .define l r => okExpr N O r && okNames O (owned N O r) l
  | .assign l r => okExpr N O r && okPlaces O G (owned N O r) l
  | .addAssign l r => okExpr N O l && okExpr N O r && okPlaces O G false (.cons l .nil)
  | .inc l => okExpr N O l && okPlaces O G false (.cons l .nil)
  | .expr e => okExpr N O e
  | .var _ _ => true
  | .ret es => okExpr N O es && (!m || owned N O es)
  | .brk => true
  | .ite c t e => okExpr N O c && okStmt N O G m t && okStmt N O G m e
  | .loop init c post body => okStmt N O G m init && okExpr N O c && okStmt N O G m post && okStmt N O G m body
  | .range _ _ e body => okExpr N O e && okStmt N O G m body
  | .switch s => okStmt N O G m s

/-- Does a function of this type and name return only what is new? -/
def isMaker (N : List Nat) (recv name : Nat) : Bool := recv == 0 && N.contains name

/-- A function that keeps to the rules; its parameters may hold anything. -/
def okFunc (N O G : List Nat) (f : Func) : Bool :=
  okVar O false f.recvName && f.params.all (fun p => okVar O false p.1) && okVar O false (id! "secp256k1") &&
    okStmt N O G (isMaker N f.recv f.name) f.body && !reserved.contains f.name

/-- The functions other than `init` keep to the rules, each with some choice of variables. -/
def Disciplined (G : List Nat) (ds : List Decl) : Prop :=
  ∃ N, ∀ f, Decl.func f ∈ ds → f.name ≠ id! "init" → ∃ O, okFunc N O G f = true

/-! ## Which variables hold only what is new -/

/-- The variables of a statement. -/
def names : Stmt → List Nat
  | .seq a b => names a ++ names b
  | .block s => names s
  | .define l _ => lefts l
  | .var x _ => [x]
  | .ite _ t e => names t ++ names e
  | .loop init _ post body => names init ++ names post ++ names body
  | .range _ _ _ body => names body
  | .switch s => names s
  | _ => []
where
  /-- The variables on the left. -/
  lefts : Expr → List Nat
    | .cons (.name x) l => x :: lefts l
    | _ => []

/-- The variables that are given something else than new values. -/
def spoilt (N O : List Nat) : Stmt → List Nat
  | .seq a b => spoilt N O a ++ spoilt N O b
  | .block s => spoilt N O s
  | .define l r => if owned N O r then [] else names.lefts l
  | .assign l r => if owned N O r then [] else names.lefts l
  | .addAssign l _ => names.lefts (.cons l .nil)
  | .inc l => names.lefts (.cons l .nil)
  | .ite _ t e => spoilt N O t ++ spoilt N O e
  | .loop init _ post body => spoilt N O init ++ spoilt N O post ++ spoilt N O body
  | .range _ _ _ body => spoilt N O body
  | .switch s => spoilt N O s
  | _ => []

/-- Leave out the variables that are given something else than new values. -/
def choice (N : List Nat) (f : Func) : Nat → List Nat
  | 0 => id! "nil" :: (names f.body).filter fun x => x != f.recvName && !(f.params.map (·.1)).contains x
  | n + 1 => (choice N f n).filter fun x => !(spoilt N (choice N f n) f.body).contains x

/-- The check, with the variables found by leaving out four times those that are given something else. -/
def disciplinedBool (N G : List Nat) (ds : List Decl) : Bool :=
  ds.all fun
    | .func f => f.name == id! "init" || okFunc N (choice N f 4) G f
    | _ => true

theorem disciplined_of {G : List Nat} {ds : List Decl} (N : List Nat) (h : disciplinedBool N G ds = true) :
    Disciplined G ds := by
  refine ⟨N, fun f hf hn => ?_⟩
  have := List.all_eq_true.mp h _ hf
  simp only [Bool.or_eq_true, beq_iff_eq] at this
  exact ⟨_, this.resolve_left hn⟩

/-- The package variables of the program. -/
def packageNames : List Nat := [id! "MainNetwork", id! "TestNetwork"]

end Btc.Threads
