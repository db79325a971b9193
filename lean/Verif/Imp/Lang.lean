import Verif.Model.Mnemonic
import Verif.Model.PublicKey

/-!
# Statements

`Verif/Model` writes loops as recursions and early returns as a monad. Here the functions of the repository are
written once more, statement by statement, with assignable variables, `for` loops with a condition, `break` and
`return`. `Verif/Imp/Code.lean` follows the Go text line by line; `Verif/Props/Program.lean` proves that these programs
end and compute the model.

The variables of one function are a structure `σ`; expressions are Lean functions of it. What a function returns has
type `ρ`. The interpreter gets a bound on the number of rounds of each loop; running out of it is `none`.
-/

namespace Btc.Imp

/-- What lives outside the variables of a function: the bytes `crypto/rand.Reader` will still deliver and the lines
written by `log.Println`. -/
structure World where
  rd : Reader
  log : Log
deriving DecidableEq

/-- How a statement ends: normally, with `break`, with `return`, with `return f(…)` of the function itself (the
variables are then those at the start of the new call), or with a panic. -/
inductive Out (σ ρ : Type) where
  | next (s : σ)
  | brk (s : σ)
  | ret (r : ρ)
  | again (s : σ)
  | panic (p : GoPanic)

/-- Statements. Evaluating an expression may panic; `Res.err` is not used in expressions (Go errors are values). -/
inductive Stmt (σ ρ : Type) where
  /-- an assignment or a call for its effect -/
  | act (f : World → σ → Res (World × σ))
  | seq (a b : Stmt σ ρ)
  /-- `if c { t } else { e }` -/
  | cond (c : σ → Res Bool) (t e : Stmt σ ρ)
  /-- `for c { body }` -/
  | loop (c : σ → Res Bool) (body : Stmt σ ρ)
  | brk
  | ret (f : σ → Res ρ)
  /-- `return f(…)` inside `f` -/
  | again (f : σ → σ)
  | skip

/-- `a; b` -/
infixr:60 " ;; " => Stmt.seq

variable {σ ρ α : Type}

/-- Go on with the value of an expression, or panic. -/
def value (w : World) (r : Res α) (k : α → Option (Out σ ρ × World)) : Option (Out σ ρ × World) :=
  match r with
  | .ok a => k a
  | .err _ => none
  | .panic p => some (.panic p, w)

/-- Go on after a statement that ended normally; anything else ends the sequence. -/
def after (o : Option (Out σ ρ × World)) (k : World → σ → Option (Out σ ρ × World)) : Option (Out σ ρ × World) :=
  match o with
  | some (.next s, w) => k w s
  | r => r

/-- Go on after one round of a loop; `break` ends the loop. -/
def round (o : Option (Out σ ρ × World)) (k : World → σ → Option (Out σ ρ × World)) : Option (Out σ ρ × World) :=
  match o with
  | some (.next s, w) => k w s
  | some (.brk s, w) => some (.next s, w)
  | r => r

/-- The rounds of `for c { body }`, at most `n` evaluations of the condition. -/
def rounds (c : σ → Res Bool) (b : World → σ → Option (Out σ ρ × World)) : Nat → World → σ → Option (Out σ ρ × World)
  | 0, _, _ => none
  | n + 1, w, s => value w (c s) fun t => if t then round (b w s) (rounds c b n) else some (.next s, w)

/-- The interpreter. -/
def Stmt.eval (n : Nat) : Stmt σ ρ → World → σ → Option (Out σ ρ × World)
  | .act f, w, s => value w (f w s) fun q => some (.next q.2, q.1)
  | .seq a b, w, s => after (a.eval n w s) (b.eval n)
  | .cond c t e, w, s => value w (c s) fun x => if x then t.eval n w s else e.eval n w s
  | .loop c body, w, s => rounds c (body.eval n) n w s
  | .brk, w, s => some (.brk s, w)
  | .ret f, w, s => value w (f s) fun r => some (.ret r, w)
  | .again f, w, s => some (.again (f s), w)
  | .skip, w, s => some (.next s, w)

/-- How a call ends. -/
inductive Done (ρ : Type) where
  | ret (r : ρ)
  | panic (p : GoPanic)
deriving DecidableEq

/-- A call: the body, and again as long as it ends by calling itself (at most `m` bodies, `n` rounds per loop).
Falling off the end of the body or a stray `break` is `none`; the Go compiler rejects both here. -/
def call (body : Stmt σ ρ) (n : Nat) : Nat → World → σ → Option (Done ρ × World)
  | 0, _, _ => none
  | m + 1, w, s =>
    match body.eval n w s with
    | some (.ret r, w') => some (.ret r, w')
    | some (.panic p, w') => some (.panic p, w')
    | some (.again s', w') => call body n m w' s'
    | _ => none

/-! Abbreviations for the commonest statements. -/

/-- `x = e` where evaluating `e` cannot panic. -/
def set (f : σ → σ) : Stmt σ ρ := .act fun w s => .ok (w, f s)

/-- `x = e` where evaluating `e` may panic. -/
def assign (f : σ → Res σ) : Stmt σ ρ := .act fun w s => do let s' ← f s; .ok (w, s')

/-- `x, err = f(…)` for a Go function with results `(α, error)`, given as a `Res`; `zero` is the first result when there
is an error. -/
def set2 (f : σ → Res α) (zero : α) (k : σ → α → Option GoError → σ) : Stmt σ ρ :=
  .act fun w s =>
    match f s with
    | .ok a => .ok (w, k s a none)
    | .err e => .ok (w, k s zero (some e))
    | .panic p => .panic p

/-- `log.Println(…)` -/
def logln (f : σ → GoString) : Stmt σ ρ := .act fun w s => .ok ({ w with log := w.log ++ [f s] }, s)

/-- `if c { t }` where evaluating `c` cannot panic. -/
def when (c : σ → Bool) (t : Stmt σ ρ) : Stmt σ ρ := .cond (fun s => .ok (c s)) t .skip

/-- `if c { t } else { e }` where evaluating `c` cannot panic. -/
def ite (c : σ → Bool) (t e : Stmt σ ρ) : Stmt σ ρ := .cond (fun s => .ok (c s)) t e

/-- `for c { body }` where evaluating `c` cannot panic. -/
def loop (c : σ → Bool) (body : Stmt σ ρ) : Stmt σ ρ := .loop (fun s => .ok (c s)) body

/-- `return e` where evaluating `e` cannot panic. -/
def ret (f : σ → ρ) : Stmt σ ρ := .ret fun s => .ok (f s)

end Btc.Imp
