import Verif.Imp.Loops
import Verif.Source.Exec

/-!
# Loops of the program
-/

namespace Btc.Source

open Mem

variable (C : Ctx)

/-- `for len(x) < k { x = "0" + x }` -/
def padLoop (x : Nat) (k : Expr) : Stmt :=
  .loop .skip (.bin (id! "<") (.call (.name (id! "len")) (.cons (.name x) .nil)) k) .skip
    (.block (.seq (.assign (.cons (.name x) .nil) (.cons (.bin (id! "+") (.str [48]) (.name x)) .nil)) .skip))

theorem pad_rounds {x : Nat} {k : Expr} {len : Nat} {f : GoString → Env} (hx : (x = id! "_") = False)
    (hget : ∀ t, Env.get x (f t) = some (.str t)) (hset : ∀ t u, Env.set x (.str u) (f t) = some (f u))
    (hk : ∀ t st, eval C k ([] :: f t) st = .ok [.int len] st) (m : Nat) (st : State) : ∀ (n : Nat) (t : GoString),
    len - t.length < n →
    rounds (eval C (.bin (id! "<") (.call (.name (id! "len")) (.cons (.name x) .nil)) k))
      (exec C m (.block (.seq (.assign (.cons (.name x) .nil) (.cons (.bin (id! "+") (.str [48]) (.name x)) .nil)) .skip)))
      (exec C m .skip) n ([] :: f t) st = .ok (.next ([] :: f (padZeros len t))) st
  | 0, t, h => by omega
  | n + 1, t, h => by
    unfold rounds
    by_cases hl : t.length < len
    · have hl' : (t.length : Int) < len := by omega
      go_run [hget, hset, hk, hl', hx]
      rw [pad_rounds hx hget hset hk m st n (48 :: t) (by simp only [List.length_cons]; omega), Imp.padZeros_cons hl]
    · have hl' : ¬ (t.length : Int) < len := by omega
      go_run [hget, hset, hk, hl', hx]
      rw [Imp.padZeros_self (by omega)]

theorem exec_pad {x : Nat} {k : Expr} {len : Nat} (f : GoString → Env) (hx : (x = id! "_") = False)
    (hget : ∀ t, Env.get x (f t) = some (.str t)) (hset : ∀ t u, Env.set x (.str u) (f t) = some (f u))
    (hk : ∀ t st, eval C k ([] :: f t) st = .ok [.int len] st) (n : Nat) (hn : len < n) (t : GoString) (st : State) :
    exec C n (padLoop x k) (f t) st = .ok (.next (f (padZeros len t))) st := by
  unfold padLoop
  rw [exec_loop]
  go_run
  rw [pad_rounds C hx hget hset hk n st n t (by omega)]
  go_run

end Btc.Source
