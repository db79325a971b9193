import Verif.Source.Parse
import Lean.Elab.SyntheticMVars
import Lean.Elab.Tactic.Basic

/-!
# Writing down what a closed term computes to

These elaborators save writing long terms by hand. None has to be trusted: what they produce is used in theorems
such as `parse privateKeyChars = some privateKeyDecls`, which the kernel checks by computing the left-hand side.
-/

namespace Btc.Source

open Lean Meta Elab Term

/-- `chars_of% s`, where `s` is a constant whose value is a string literal: the list of its characters. -/
elab "chars_of% " s:ident : term => do
  let n ← realizeGlobalConstNoOverload s
  let some (.lit (.strVal t)) := (← getConstInfo n).value? | throwError "not a string literal"
  return toExpr t.toList

/-- Reduce a closed term of a data type to constructors and numerals, with the kernel's evaluator. -/
def normalise : Nat → Lean.Expr → MetaM Lean.Expr
  | 0, _ => throwError "too deep"
  | n + 1, e => do
    let v ← ofExceptKernelException (Kernel.whnf (← getEnv) (← getLCtx) e)
    match v with
    | .lit (.natVal k) => return mkNatLit k
    | _ =>
      let f := v.getAppFn
      let args := v.getAppArgs
      let .const c _ := f | throwError "not data: {v}"
      match ← getConstInfo c with
      | .ctorInfo i =>
        if c == ``Nat.zero then return mkNatLit 0
        let mut out := f
        for j in [0:args.size] do
          if j < i.numParams then out := .app out args[j]! else out := .app out (← normalise n args[j]!)
        return out
      | _ => throwError "not data: {v}"

/-- `value_of% e`: the value of the closed term `e`. -/
elab "value_of% " t:term : term <= type => do
  let e ← elabTermEnsuringType t type
  synthesizeSyntheticMVarsNoPostponing
  normalise 100000 (← instantiateMVars e)

/-- `kernel_rfl` proves `a = b` by `Eq.refl a`, leaving the computation to the kernel. -/
elab "kernel_rfl" : tactic => do
  let g ← Tactic.getMainGoal
  let some (_, l, _) := (← instantiateMVars (← g.getType)).eq? | throwError "not an equation"
  g.assign (← mkEqRefl l)
  Tactic.replaceMainGoal []

end Btc.Source
