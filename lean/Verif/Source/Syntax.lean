import Lean.Elab.Term

/-!
# Syntax trees for the part of Go the repository uses

`Verif/Source/Files.lean` holds the text of the repository's files, byte for byte. `Verif/Source/Lex.lean` and
`Verif/Source/Parse.lean` turn such a text into the trees defined here. `Verif/Source/Run.lean` says what a tree does.

Identifiers and operators are numbers: the characters read as digits to base 256. `id! "len"` writes such a number.
-/

namespace Btc.Source

open Lean Elab Term in
/-- `id! "len"` is the number for the identifier or operator `len`. -/
elab "id! " s:str : term => return mkNatLit (s.getString.toList.foldl (fun a c => 256 * a + c.toNat) 0)

/-- Expressions and types. `nil` and `cons` are lists of expressions. -/
inductive Expr where
  /-- an identifier -/
  | name (x : Nat)
  /-- a decimal literal -/
  | num (n : Nat)
  /-- a string literal: its characters -/
  | str (s : List Nat)
  /-- `e.f` -/
  | sel (e : Expr) (f : Nat)
  /-- `f(args)` -/
  | call (f args : Expr)
  /-- `e[i]` -/
  | index (e i : Expr)
  /-- `e[lo:hi]` -/
  | slice (e lo hi : Expr)
  /-- a unary operator, also `*T` -/
  | un (op : Nat) (e : Expr)
  /-- a binary operator -/
  | bin (op : Nat) (a b : Expr)
  /-- `T{fields}` -/
  | lit (t fields : Expr)
  /-- `f: e` in a composite literal -/
  | kv (f : Nat) (e : Expr)
  /-- the type `[]T` -/
  | sliceOf (t : Expr)
  | nil
  | cons (e es : Expr)
deriving DecidableEq, Repr, Inhabited

/-- Statements. -/
inductive Stmt where
  | skip
  | seq (a b : Stmt)
  /-- `{ s }` -/
  | block (s : Stmt)
  /-- `l := r` -/
  | define (l r : Expr)
  /-- `l = r` -/
  | assign (l r : Expr)
  /-- `l += r` -/
  | addAssign (l r : Expr)
  /-- `l++` -/
  | inc (l : Expr)
  /-- a call for its effect -/
  | expr (e : Expr)
  /-- `var x T` -/
  | var (x : Nat) (t : Expr)
  /-- `return es` -/
  | ret (es : Expr)
  /-- `break` -/
  | brk
  /-- `if c t else e` -/
  | ite (c : Expr) (t e : Stmt)
  /-- `for init; c; post body` -/
  | loop (init : Stmt) (c : Expr) (post body : Stmt)
  /-- `for k, v := range e body`; `_` for a variable left out -/
  | range (k v : Nat) (e : Expr) (body : Stmt)
  /-- `switch`: the cases as one chain of `if`s, in which `break` ends the switch -/
  | switch (s : Stmt)
deriving DecidableEq, Repr, Inhabited

/-- `func (recvName recv) name(params) results body`; `recv` is the type behind the pointer, 0 for a plain function. -/
structure Func where
  recv : Nat
  recvName : Nat
  name : Nat
  params : List (Nat × Expr)
  results : List Expr
  body : Stmt
deriving DecidableEq, Repr, Inhabited

/-- What a file declares. -/
inductive Decl where
  | imports (paths : List (List Nat))
  | func (f : Func)
  /-- `var x T` -/
  | var (x : Nat) (t : Expr)
  /-- `var x = e` -/
  | varInit (x : Nat) (e : Expr)
  /-- `type x struct { fields }` -/
  | struct (x : Nat) (fields : List (Nat × Expr))
  /-- `type x T` -/
  | type (x : Nat) (t : Expr)
deriving DecidableEq, Repr, Inhabited

end Btc.Source
