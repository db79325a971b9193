import Verif.Source.Run

/-!
# The bound on rounds and calls does not matter

If a call ends (in results or in a panic) when at most `n` rounds and calls are allowed, it ends in the same way when
more are allowed. So "the call ends in `o`" (`Ends`) is a statement about the program alone.
-/

namespace Btc.Source

open Mem

/-- `y` does what `x` does, unless `x` gets stuck. -/
def Le {α : Type} (x y : M α) : Prop := ∀ st, x st = .stuck ∨ x st = y st

section
variable {α β : Type}

theorem Le.refl (x : M α) : Le x x := fun _ => .inr rfl

theorem Le.stuck (y : M α) : Le stuck y := fun _ => .inl rfl

theorem Le.bind {x y : M α} {f g : α → M β} (h : Le x y) (hf : ∀ a, Le (f a) (g a)) : Le (x >>= f) (y >>= g) := by
  intro st
  show (x st).andThen f = .stuck ∨ (x st).andThen f = (y st).andThen g
  rcases h st with e | e
  · rw [e]; exact .inl rfl
  · rw [← e]
    cases x st with
    | ok a st => exact hf a st
    | panic p st => exact .inr rfl
    | stuck => exact .inl rfl

theorem Le.then {x y : M α} (f : α → M β) (h : Le x y) : Le (x >>= f) (y >>= f) := h.bind fun _ => .refl _

theorem Le.trans {x y z : M α} (h : Le x y) (k : Le y z) : Le x z := by
  intro st
  rcases h st with e | e
  · exact .inl e
  · rw [e]; exact k st
end

/-- The functions of the repository end more often. -/
def CallsLe (f g : Nat → Nat → List Value → M (List Value)) : Prop := ∀ r x args, Le (f r x args) (g r x args)

section
variable {H : Hashes} {E : EcdsaM} {f g : Nat → Nat → List Value → M (List Value)} (h : CallsLe f g)
include h

theorem callName_le (x : Nat) (args : List Value) : Le (callName ⟨H, E, f⟩ x args) (callName ⟨H, E, g⟩ x args) := by
  unfold callName
  split
  · exact .refl _
  · exact h _ _ _

theorem callMethod_le (v : Value) (m : Nat) (args : List Value) :
    Le (callMethod ⟨H, E, f⟩ v m args) (callMethod ⟨H, E, g⟩ v m args) := by
  cases v <;> first | exact .refl _ | exact h _ _ _

omit h in
theorem combine_le {op : Nat} {a : Value} {x y : M Value} (hx : Le x y) : Le (combine op a x) (combine op a y) := by
  unfold combine
  split
  · unfold shortOr
    split
    · exact .refl _
    · exact hx
    · exact .refl _
  · exact hx.then _

/-- `eval` on `e` and on the operand of `e`. -/
theorem eval_le' (e : Expr) : (∀ env, Le (eval ⟨H, E, f⟩ e env) (eval ⟨H, E, g⟩ e env)) ∧
    ∀ d m, e = .sel d m → ∀ env, Le (eval ⟨H, E, f⟩ d env) (eval ⟨H, E, g⟩ d env) := by
  induction e with
  | sel e f ih =>
    refine ⟨fun env => (ih.1 env).then _, fun d m e env => ?_⟩
    injection e with e1 _
    subst e1
    exact ih.1 env
  | call k args ihk ih =>
    refine ⟨fun env => ?_, fun d m e => by cases e⟩
    cases k with
    | name x =>
      simp only [eval]
      split
      · exact .refl _
      · exact (ih.1 env).bind fun _ => callName_le h _ _
    | sel d m =>
      simp only [eval]
      exact (ihk.2 d m rfl env).bind fun _ => (Le.refl _).bind fun _ => (ih.1 env).bind fun _ => callMethod_le h _ _ _
    | _ => exact .refl _
  | index e i ih ihi =>
    exact ⟨fun env => (ih.1 env).bind fun _ => (Le.refl _).bind fun _ => (ihi.1 env).then _, fun d m e => by cases e⟩
  | slice e lo hi ih ihl ihh =>
    exact ⟨fun env => (ih.1 env).bind fun _ => (Le.refl _).bind fun _ => (ihl.1 env).bind fun _ => (Le.refl _).bind fun _ =>
      (ihh.1 env).then _, fun d m e => by cases e⟩
  | un op e ih => exact ⟨fun env => (ih.1 env).then _, fun d m e => by cases e⟩
  | bin op a b iha ihb =>
    exact ⟨fun env => (iha.1 env).bind fun _ => (Le.refl _).bind fun _ => (combine_le ((ihb.1 env).then _)).then _,
      fun d m e => by cases e⟩
  | lit t fs iht ih => exact ⟨fun env => (ih.1 env).then _, fun d m e => by cases e⟩
  | kv k e ih => exact ⟨ih.1, fun d m e => by cases e⟩
  | cons e es ih ihs => exact ⟨fun env => (ih.1 env).bind fun _ => (ihs.1 env).then _, fun d m e => by cases e⟩
  | _ => exact ⟨fun env => .refl _, fun d m e => by cases e⟩

theorem eval_le (e : Expr) (env : Env) : Le (eval ⟨H, E, f⟩ e env) (eval ⟨H, E, g⟩ e env) := (eval_le' h e).1 env

theorem places_le (l : Expr) (env : Env) : Le (places ⟨H, E, f⟩ l env) (places ⟨H, E, g⟩ l env) := by
  induction l with
  | cons e l _ ih =>
    cases e with
    | name x => exact ih.then _
    | sel e m => exact (eval_le h e env).bind fun _ => (Le.refl _).bind fun _ => ih.then _
    | _ => exact .refl _
  | _ => exact .refl _

theorem assignment_le (l r : Expr) (env : Env) : Le (assignment ⟨H, E, f⟩ l r env) (assignment ⟨H, E, g⟩ l r env) :=
  (places_le h l env).bind fun _ => (eval_le h r env).then _

omit h in
theorem follow_le {c : Ctl} {x y : Env → M Ctl} (hx : ∀ env, Le (x env) (y env)) : Le (follow c x) (follow c y) := by
  cases c <;> first | exact hx _ | exact .refl _

omit h in
theorem again_le {c : Ctl} {x y : Env → M Ctl} (hx : ∀ env, Le (x env) (y env)) : Le (again c x) (again c y) := by
  cases c <;> first | exact hx _ | exact .refl _

omit h in
theorem choose_le {vs : List Value} {x y x' y' : M Ctl} (hx : Le x x') (hy : Le y y') :
    Le (choose vs x y) (choose vs x' y') := by
  unfold choose
  split
  · exact hx
  · exact hy
  · exact .refl _

omit h in
theorem rounds_le {c c' : Env → M (List Value)} {b b' p p' : Env → M Ctl} (hc : ∀ env, Le (c env) (c' env))
    (hb : ∀ env, Le (b env) (b' env)) (hp : ∀ env, Le (p env) (p' env)) {n m : Nat} (hn : n ≤ m) (env : Env) :
    Le (rounds c b p n env) (rounds c' b' p' m env) := by
  induction n generalizing m env with
  | zero => exact .stuck _
  | succ n ih =>
    obtain ⟨m, rfl⟩ : ∃ k, m = k + 1 := ⟨m - 1, by omega⟩
    exact (hc env).bind fun _ => choose_le ((hb env).bind fun _ => again_le fun env => (hp env).bind fun _ =>
      follow_le fun env => ih (by omega) env) (.refl _)

omit h in
theorem ranging_le {b b' : Env → M Ctl} (hb : ∀ env, Le (b env) (b' env)) (k v : Nat) (env : Env) (i : Nat)
    (ws : List GoString) : Le (ranging b k v env i ws) (ranging b' k v env i ws) := by
  induction ws generalizing i env with
  | nil => exact .refl _
  | cons w ws ih => exact (hb _).bind fun _ => again_le fun env => ih env (i + 1)

theorem exec_le {n m : Nat} (hn : n ≤ m) (s : Stmt) (env : Env) :
    Le (exec ⟨H, E, f⟩ n s env) (exec ⟨H, E, g⟩ m s env) := by
  induction s generalizing env with
  | seq a b iha ihb => exact (iha env).bind fun _ => follow_le fun env => ihb env
  | block s ih => exact (ih _).then _
  | define l r => exact (eval_le h r env).then _
  | assign l r => exact assignment_le h l r env
  | addAssign l r => exact assignment_le h _ _ env
  | inc l => exact assignment_le h _ _ env
  | expr e => exact (eval_le h e env).then _
  | ret e => exact (eval_le h e env).then _
  | ite c t e iht ihe => exact (eval_le h c env).bind fun _ => choose_le (iht env) (ihe env)
  | loop i c p b ihi ihp ihb =>
    exact (ihi _).bind fun _ => (follow_le fun env => rounds_le (eval_le h c) ihb ihp hn env).then _
  | range k v e b ih =>
    refine (eval_le h e env).bind fun vs => ?_
    split
    · exact ranging_le ih k v env 0 _
    · exact .refl _
  | switch s ih => exact (ih env).then _
  | _ => exact .refl _

end

/-- More rounds and calls only turn `stuck` into a result. -/
theorem runFunc_le (H : Hashes) (E : EcdsaM) (ds : List Decl) {n m : Nat} (hn : n ≤ m) :
    CallsLe (runFunc H E ds n) (runFunc H E ds m) := by
  induction n generalizing m with
  | zero => exact fun _ _ _ => .stuck _
  | succ n ih =>
    obtain ⟨m, rfl⟩ : ∃ k, m = k + 1 := ⟨m - 1, by omega⟩
    intro r x args
    unfold runFunc
    split
    · exact .refl _
    · split
      · exact .refl _
      · exact (exec_le (ih (by omega)) (by omega) _ _).then _

/-- The call of `name` (of the type `recv`, 0 for a plain function) ends in `o` with results or a panic. -/
def Ends (H : Hashes) (E : EcdsaM) (ds : List Decl) (recv name : Nat) (args : List Value) (st : State)
    (o : Out (List Value)) : Prop :=
  o ≠ .stuck ∧ ∃ n, ∀ m, n ≤ m → runFunc H E ds m recv name args st = o

theorem Ends.of {H : Hashes} {E : EcdsaM} {ds : List Decl} {recv name : Nat} {args : List Value} {st : State}
    {o : Out (List Value)} {n : Nat} (h : runFunc H E ds n recv name args st = o) (ho : o ≠ .stuck) :
    Ends H E ds recv name args st o := by
  refine ⟨ho, n, fun m hm => ?_⟩
  rcases runFunc_le H E ds hm recv name args st with e | e
  · exact (ho (h.symm.trans e)).elim
  · exact e.symm.trans h

/-- A call ends in only one way. -/
theorem Ends.unique {H : Hashes} {E : EcdsaM} {ds : List Decl} {recv name : Nat} {args : List Value} {st : State}
    {o o' : Out (List Value)} (h : Ends H E ds recv name args st o) (h' : Ends H E ds recv name args st o') : o = o' := by
  obtain ⟨_, n, hn⟩ := h
  obtain ⟨_, m, hm⟩ := h'
  exact (hn (max n m) (by omega)).symm.trans (hm (max n m) (by omega))

end Btc.Source
