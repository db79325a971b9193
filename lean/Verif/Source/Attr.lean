import Lean.Meta.Tactic.Simp.RegisterCommand

/-!
# The simp set that runs programs
-/

/-- Equations of the interpreter of `Verif/Source/Run.lean`. -/
register_simp_attr go_exec
