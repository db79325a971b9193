import Verif.Props.SeedWay

/-!
# C123: how many blocks a call passes

A static analysis of the text bounds how often functions are entered and lines logged; it is proved right for every
program of the language. It bounds the calls of all functions without loops; the loops are bounded one by one.
-/

namespace Btc

open Mem Source

namespace Spec

/-- Specification: at most so many lines; `none` if there is no bound. -/
abbrev Cost := Option Nat

/-- Specification: one after the other. -/
def Cost.plus : Cost → Cost → Cost
  | some a, some b => some (a + b)
  | _, _ => none

/-- Specification: one or the other. -/
def Cost.or : Cost → Cost → Cost
  | some a, some b => some (max a b)
  | _, _ => none

/-- Specification: the lines of an expression, where `B` bounds the lines of the functions that are called. -/
def exprCost (B : Nat → Cost) : Expr → Cost
  | .name _ | .num _ | .str _ | .nil | .sliceOf _ => some 0
  | .sel e _ | .un _ e | .kv _ e => exprCost B e
  | .lit _ e => exprCost B e
  | .call (.name x) args => (exprCost B args).plus (B x)
  | .call (.sel d m) args => (exprCost B d).plus ((exprCost B args).plus ((B m).plus (some (if m = id! "Println" then 1 else 0))))
  | .call _ _ => some 0
  | .index e i => (exprCost B e).plus (exprCost B i)
  | .slice e lo hi => (exprCost B e).plus ((exprCost B lo).plus (exprCost B hi))
  | .bin _ a b => (exprCost B a).plus (exprCost B b)
  | .cons e es => (exprCost B e).plus (exprCost B es)

/-- Specification: the lines of a statement; loops have no bound. -/
def stmtCost (B : Nat → Cost) : Stmt → Cost
  | .skip | .brk | .var _ _ => some 0
  | .seq a b => (stmtCost B a).plus (stmtCost B b)
  | .block s | .switch s => stmtCost B s
  | .define _ r => exprCost B r
  | .assign l r => (exprCost B l).plus (exprCost B r)
  | .addAssign l r => (exprCost B l).plus ((exprCost B l).plus (exprCost B r))
  | .inc l => (exprCost B l).plus (exprCost B l)
  | .expr e | .ret e => exprCost B e
  | .ite c t e => (exprCost B c).plus ((stmtCost B t).or (stmtCost B e))
  | .loop _ _ _ _ | .range _ _ _ _ => none

/-- Specification: the lines of the functions of name `x`, where `B` bounds the lines of the functions that they call. -/
def nameCost (B : Nat → Cost) (x : Nat) : List Decl → Cost
  | [] => some 0
  | .func f :: ds => if f.name = x then (stmtCost B f.body).or (nameCost B x ds) else nameCost B x ds
  | _ :: ds => nameCost B x ds

/-- Specification: the bounds found in `k` steps, from the bounds `B`. -/
def bounds (ds : List Decl) (B : Nat → Cost) : Nat → Nat → Cost
  | 0, x => B x
  | k + 1, x => if (B x).isSome then B x else nameCost (bounds ds B k) x ds

end Spec

open Spec

/-- The log grows by at most `k` lines. -/
def Grows {α : Type} (st : State) (k : Nat) : Out α → Prop
  | .ok _ st' => st'.log.length ≤ st.log.length + k
  | .panic _ st' => st'.log.length ≤ st.log.length + k
  | .stuck => True

/-- `x` logs at most so many lines. -/
def AtMost {α : Type} (c : Cost) (x : M α) : Prop := ∀ k, c = some k → ∀ st, Grows st k (x st)

section
variable {α β : Type}

theorem Grows.mono {st : State} {k l : Nat} {o : Out α} (h : Grows st k o) (hl : k ≤ l) : Grows st l o := by
  cases o with
  | ok _ _ => exact Nat.le_trans h (by omega)
  | panic _ _ => exact Nat.le_trans h (by omega)
  | stuck => trivial

/-- Nothing is logged. -/
theorem AtMost.of {x : M α} (h : ∀ st, Grows st 0 (x st)) (c : Cost) : AtMost c x := fun _ _ st => (h st).mono (Nat.zero_le _)

theorem AtMost.stuck (c : Cost) : AtMost c (Source.stuck : M α) := fun _ _ _ => trivial

theorem AtMost.pure (a : α) (c : Cost) : AtMost c (pure a) := .of (fun _ => Nat.le_refl _) c

theorem AtMost.panic (p : GoPanic) (c : Cost) : AtMost c (panic p : M α) := .of (fun _ => Nat.le_refl _) c

theorem AtMost.onHeap (m : HM α) (c : Cost) : AtMost c (onHeap m) := by
  refine .of (fun st => ?_) c
  unfold Source.onHeap
  rcases m st.heap with ⟨a | e | p, q⟩ <;> first | exact Nat.le_refl _ | trivial

theorem AtMost.bind {x : M α} {f : α → M β} {c d : Cost} (h : AtMost c x) (hf : ∀ a, AtMost d (f a)) : AtMost (c.plus d) (x >>= f) := by
  intro k hk st
  obtain ⟨a, b, rfl, rfl, rfl⟩ : ∃ a b, c = some a ∧ d = some b ∧ k = a + b := by
    cases c <;> cases d <;> simp only [Cost.plus, reduceCtorEq, Option.some.injEq] at hk
    exact ⟨_, _, rfl, rfl, hk.symm⟩
  show Grows st (a + b) ((x st).andThen f)
  have h := h a rfl st
  cases hx : x st with
  | ok v s =>
    rw [hx] at h
    have h2 := hf v b rfl s
    show Grows st (a + b) (f v s)
    revert h2
    cases f v s with
    | stuck => exact fun _ => trivial
    | _ => exact fun h2 => by simp only [Grows] at h h2 ⊢; omega
  | panic p s =>
    rw [hx] at h
    exact Grows.mono h (by omega)
  | stuck => trivial

/-- Followed by something that logs nothing. -/
theorem AtMost.then {x : M α} {f : α → M β} {c : Cost} (h : AtMost c x) (hf : ∀ a, AtMost (some 0) (f a)) : AtMost c (x >>= f) := by
  have e : c.plus (some 0) = c := by cases c <;> rfl
  rw [← e]
  exact h.bind hf

/-- After something that logs nothing. -/
theorem AtMost.after {x : M α} {f : α → M β} {c : Cost} (h : AtMost (some 0) x) (hf : ∀ a, AtMost c (f a)) : AtMost c (x >>= f) := by
  have e : Cost.plus (some 0) c = c := by
    cases c with
    | none => rfl
    | some a => simp [Cost.plus]
  rw [← e]
  exact h.bind hf

theorem AtMost.left {x : M α} {c d : Cost} (h : AtMost c x) : AtMost (c.or d) x := by
  intro k hk st
  cases c <;> cases d <;> simp only [Cost.or, reduceCtorEq, Option.some.injEq] at hk
  exact (h _ rfl st).mono (by omega)

theorem AtMost.right {x : M α} {c d : Cost} (h : AtMost d x) : AtMost (c.or d) x := by
  intro k hk st
  cases c <;> cases d <;> simp only [Cost.or, reduceCtorEq, Option.some.injEq] at hk
  exact (h _ rfl st).mono (by omega)

theorem AtMost.fst {x : M α} {c d : Cost} (h : AtMost c x) : AtMost (c.plus d) x := by
  intro k hk st
  cases c <;> cases d <;> simp only [Cost.plus, reduceCtorEq, Option.some.injEq] at hk
  exact (h _ rfl st).mono (by omega)

theorem AtMost.snd {x : M α} {c d : Cost} (h : AtMost d x) : AtMost (c.plus d) x := by
  intro k hk st
  cases c <;> cases d <;> simp only [Cost.plus, reduceCtorEq, Option.some.injEq] at hk
  exact (h _ rfl st).mono (by omega)

theorem AtMost.ite {c : Prop} [Decidable c] {x y : M α} {k : Cost} (hx : AtMost k x) (hy : AtMost k y) :
    AtMost k (if c then x else y) := by
  split
  · exact hx
  · exact hy

end

/-- Proves `AtMost (some 0) x` for the functions of Verif/Source/Value.lean. -/
macro "silent" : tactic => `(tactic| repeat' first
  | exact AtMost.stuck _
  | exact AtMost.pure _ _
  | exact AtMost.panic _ _
  | exact AtMost.onHeap _ _
  | assumption
  | with_reducible refine AtMost.after ?_ fun _ => ?_
  | split)

theorem ofRes_silent {α : Type} (r : Res α) : AtMost (some 0) (ofRes r) := by
  refine .of (fun st => ?_) _
  cases r <;> first | exact Nat.le_refl _ | trivial

theorem withError_silent {α : Type} (r : Res α) (f : α → Value) : AtMost (some 0) (withError r f) := by
  refine .of (fun st => ?_) _
  cases r <;> exact Nat.le_refl _

theorem one_silent (vs : List Value) : AtMost (some 0) (one vs) := by unfold one; silent

theorem known_silent {α : Type} (o : Option α) : AtMost (some 0) (known o) := by unfold known; silent

theorem indexValue_silent (v i : Value) : AtMost (some 0) (indexValue v i) := by
  unfold indexValue
  split
  · exact (ofRes_silent _).after fun _ => .pure _ _
  · exact (ofRes_silent _).after fun _ => .pure _ _
  · exact .stuck _

theorem sliceValue_silent (v lo hi : Value) : AtMost (some 0) (sliceValue v lo hi) := by
  unfold sliceValue
  split
  · exact (ofRes_silent _).after fun _ => .pure _ _
  · exact .stuck _

theorem field_silent (v : Value) (f : Nat) : AtMost (some 0) (field v f) := by
  unfold field
  split <;> first
    | exact known_silent _
    | exact .stuck _
    | exact (AtMost.onHeap _ _).after fun _ => known_silent _
    | (split <;> first | exact .pure _ _ | exact .stuck _)

theorem setField_silent (u : Value) (f : Nat) (v : Value) : AtMost (some 0) (setField u f v) := by
  unfold setField setPriv setPub setCurve setBase updCurve; silent

theorem zero_silent (t : Expr) : AtMost (some 0) (zero t) := by unfold zero; silent

theorem composite_silent (t : Expr) (ks : List Nat) (vs : List Value) : AtMost (some 0) (composite t ks vs) := by
  unfold composite
  split
  · split
    · rcases given (id! "PrivKeyPrefix") ks vs with _ | a
      · exact .stuck _
      cases a <;> try exact .stuck _
      rcases given (id! "PubKeyHashPrefix") ks vs with _ | b
      · exact .stuck _
      cases b <;> try exact .stuck _
      exact .of (fun _ => Nat.le_refl _) _
    · silent
  · silent
  · exact .stuck _

theorem bigMethod_silent (z : Ptr) (m : Nat) (args : List Value) : AtMost (some 0) (bigMethod z m args) := by
  unfold bigMethod; silent

theorem hashMethod_silent (H : Hashes) (a m : Nat) (args : List Value) : AtMost (some 0) (hashMethod H a m args) := by
  have hw : ∀ b, AtMost (some 0) (writeHash a b) := fun _ => .of (fun _ => Nat.le_refl _) _
  have hr : AtMost (some 0) (readHash a) := by
    refine .of (fun st => ?_) _
    unfold readHash
    split <;> first | exact Nat.le_refl _ | trivial
  unfold hashMethod
  silent
  all_goals exact hw _

theorem curveMethod_silent (E : EcdsaM) (m : Nat) (args : List Value) : AtMost (some 0) (curveMethod E m args) := by
  unfold curveMethod; silent

theorem drawBig_silent (m : Nat) : AtMost (some 0) (drawBig m) := by
  refine .of (fun st => ?_) _
  unfold drawBig
  split <;> exact Nat.le_refl _

theorem sprintf_silent (f : GoString) (v : Value) : AtMost (some 0) (sprintf f v) := by
  unfold sprintf
  split
  · exact .stuck _
  · cases v <;> first | exact .stuck _ | exact .pure _ _ | exact .of (fun _ => Nat.le_refl _) _

theorem println_one (vs : List Value) : AtMost (some 1) (println vs) := by
  unfold println
  split
  · intro k hk st
    injection hk with hk
    subst hk
    simp [Grows]
  · exact .stuck _

theorem newHash_silent (b : Bool) : AtMost (some 0) (newHash b) := .of (fun _ => Nat.le_refl _) _

theorem external_one (H : Hashes) (p f : Nat) (args : List Value) : AtMost (some 1) (external H p f args) := by
  have hs : ∀ {x : M (List Value)}, AtMost (some 0) x → AtMost (some 1) x := fun h => h.snd (c := some 1)
  have hs' : ∀ {x : M Value}, AtMost (some 0) x → AtMost (some 1) x := fun h => h.snd (c := some 1)
  unfold external randBig newError deepEqual
  repeat' first
    | exact AtMost.stuck _
    | exact AtMost.pure _ _
    | exact AtMost.onHeap _ _
    | exact println_one _
    | exact newHash_silent _
    | exact hs (withError_silent _ _)
    | exact hs (sprintf_silent _ _)
    | exact hs (drawBig_silent _)
    | with_reducible refine AtMost.after ?_ fun _ => ?_
    | with_reducible refine AtMost.ite ?_ ?_
    | split

theorem external_silent (H : Hashes) (p f : Nat) (args : List Value) (hf : f ≠ id! "Println") :
    AtMost (some 0) (external H p f args) := by
  unfold external randBig newError deepEqual
  rw [if_neg hf]
  repeat' first
    | exact AtMost.stuck _
    | exact AtMost.pure _ _
    | exact AtMost.onHeap _ _
    | exact withError_silent _ _
    | exact sprintf_silent _ _
    | exact drawBig_silent _
    | exact newHash_silent _
    | with_reducible refine AtMost.after ?_ fun _ => ?_
    | with_reducible refine AtMost.ite ?_ ?_
    | split

theorem external_cost (H : Hashes) (p f : Nat) (args : List Value) :
    AtMost (some (if f = id! "Println" then 1 else 0)) (external H p f args) := by
  split
  · exact external_one H p f args
  · next hf => exact external_silent H p f args hf

theorem builtin_silent {f : Nat} {args : List Value} {m : M (List Value)} (h : builtin f args = some m) : AtMost (some 0) m := by
  unfold builtin at h
  repeat' split at h
  all_goals first
    | (cases h; done)
    | (obtain rfl := Option.some.inj h; silent)

theorem global_silent (x : Nat) : AtMost (some 0) (global x) := by
  unfold global
  refine .ite (.pure _ _) (.ite (.pure _ _) (.ite (.pure _ _) (.ite (.pure _ _) (.ite (.pure _ _) (.of (fun st => ?_) _)))))
  split <;> first | exact Nat.le_refl _ | trivial

theorem named_silent (x : Nat) (env : Env) : AtMost (some 0) (named x env) := by
  unfold named
  split
  · exact .pure _ _
  · exact global_silent x

theorem newOf_silent (e : Expr) : AtMost (some 0) (newOf e) := by unfold newOf; silent

theorem setGlobal_silent (x : Nat) (v : Value) : AtMost (some 0) (setGlobal x v) := by
  refine .of (fun st => ?_) _
  unfold setGlobal
  split <;> first | exact Nat.le_refl _ | trivial

theorem storeOne_silent (p : Source.Place) (v : Value) (env : Env) : AtMost (some 0) (storeOne p v env) := by
  unfold storeOne
  split
  · exact .pure _ _
  · split
    · exact .pure _ _
    · exact (setGlobal_silent _ _).after fun _ => .pure _ _
  · exact (setField_silent _ _ _).after fun _ => .pure _ _

theorem storeAll_silent : ∀ (ps : List Source.Place) (vs : List Value) (env : Env), AtMost (some 0) (storeAll ps vs env)
  | [], [], _ => .pure _ _
  | p :: ps, v :: vs, env => (storeOne_silent p v env).after fun env' => storeAll_silent ps vs env'
  | [], _ :: _, _ => .stuck _
  | _ :: _, [], _ => .stuck _

/-- `B` bounds the lines of the functions of the repository. -/
def CallsCost (B : Nat → Cost) (f : Nat → Nat → List Value → M (List Value)) : Prop := ∀ r x args, AtMost (B x) (f r x args)

section
variable {H : Hashes} {E : EcdsaM} {B : Nat → Cost} {f : Nat → Nat → List Value → M (List Value)} (h : CallsCost B f)
include h

theorem callName_cost (x : Nat) (args : List Value) : AtMost (B x) (callName ⟨H, E, f⟩ x args) := by
  unfold callName
  cases hb : builtin x args with
  | some m =>
    intro k hk st
    exact ((builtin_silent hb) 0 rfl st).mono (Nat.zero_le _)
  | none => exact h _ _ _

theorem callMethod_cost (v : Value) (m : Nat) (args : List Value) :
    AtMost ((B m).plus (some (if m = id! "Println" then 1 else 0))) (callMethod ⟨H, E, f⟩ v m args) := by
  have hs : ∀ {x : M (List Value)}, AtMost (some 0) x → AtMost ((B m).plus (some (if m = id! "Println" then 1 else 0))) x :=
    fun h k _ st => (h 0 rfl st).mono (Nat.zero_le _)
  cases v <;> first
    | exact .stuck _
    | exact (h _ _ _).fst
    | exact (external_cost _ _ _ _).snd
    | exact hs (bigMethod_silent _ _ _)
    | exact hs (hashMethod_silent _ _ _ _)
    | exact hs (curveMethod_silent _ _ _)

omit h in
theorem combine_cost {op : Nat} {a : Value} {x : M Value} {c : Cost} (hx : AtMost c x) : AtMost c (Source.combine op a x) := by
  unfold Source.combine
  by_cases ho : op = id! "||"
  · rw [if_pos ho]
    cases a <;> try exact .stuck _
    rename_i b
    cases b
    · exact hx
    · exact .pure _ _
  · rw [if_neg ho]
    exact hx.then fun _ => known_silent _

/-- `eval` on `e` and on the operand of `e`. -/
theorem eval_cost' (e : Expr) : (∀ env, AtMost (exprCost B e) (eval ⟨H, E, f⟩ e env)) ∧
    ∀ d m, e = .sel d m → ∀ env, AtMost (exprCost B d) (eval ⟨H, E, f⟩ d env) := by
  induction e with
  | name x => exact ⟨fun env => (named_silent x env).then fun _ => .pure _ _, fun d m e => by cases e⟩
  | num n => exact ⟨fun env => .pure _ _, fun d m e => by cases e⟩
  | str s => exact ⟨fun env => .pure _ _, fun d m e => by cases e⟩
  | nil => exact ⟨fun env => .pure _ _, fun d m e => by cases e⟩
  | sliceOf t => exact ⟨fun env => .stuck _, fun d m e => by cases e⟩
  | sel e f ih =>
    refine ⟨fun env => (ih.1 env).then fun _ => (one_silent _).then fun _ => (field_silent _ _).then fun _ => .pure _ _, fun d m e env => ?_⟩
    injection e with e1 _
    subst e1
    exact ih.1 env
  | call k args ihk ih =>
    refine ⟨fun env => ?_, fun d m e => by cases e⟩
    cases k with
    | name x =>
      simp only [eval]
      by_cases hx : x = id! "new"
      · rw [if_pos hx]
        exact fun k _ st => (newOf_silent args 0 rfl st).mono (Nat.zero_le _)
      · rw [if_neg hx]
        exact (ih.1 env).bind fun _ => callName_cost h _ _
    | sel d m =>
      simp only [eval]
      exact (ihk.2 d m rfl env).bind fun _ => (one_silent _).after fun _ => (ih.1 env).bind fun _ => callMethod_cost h _ _ _
    | _ => exact .stuck _
  | index e i ih ihi =>
    exact ⟨fun env => (ih.1 env).bind fun _ => (one_silent _).after fun _ => (ihi.1 env).then fun _ => (one_silent _).then fun _ =>
      (indexValue_silent _ _).then fun _ => .pure _ _, fun d m e => by cases e⟩
  | slice e lo hi ih ihl ihh =>
    exact ⟨fun env => (ih.1 env).bind fun _ => (one_silent _).after fun _ => (ihl.1 env).bind fun _ => (one_silent _).after fun _ =>
      (ihh.1 env).then fun _ => (one_silent _).then fun _ => (sliceValue_silent _ _ _).then fun _ => .pure _ _, fun d m e => by cases e⟩
  | un op e ih =>
    exact ⟨fun env => (ih.1 env).then fun _ => (one_silent _).then fun _ => (known_silent _).then fun _ => .pure _ _,
      fun d m e => by cases e⟩
  | bin op a b iha ihb =>
    exact ⟨fun env => (iha.1 env).bind fun _ => (one_silent _).after fun _ =>
      (combine_cost ((ihb.1 env).then fun _ => one_silent _)).then fun _ => .pure _ _, fun d m e => by cases e⟩
  | lit t fs iht ih =>
    exact ⟨fun env => (ih.1 env).then fun _ => (composite_silent _ _ _).then fun _ => .pure _ _, fun d m e => by cases e⟩
  | kv k e ih => exact ⟨ih.1, fun d m e => by cases e⟩
  | cons e es ih ihs =>
    exact ⟨fun env => (ih.1 env).bind fun _ => (ihs.1 env).then fun _ => .pure _ _, fun d m e => by cases e⟩

theorem eval_cost (e : Expr) (env : Env) : AtMost (exprCost B e) (eval ⟨H, E, f⟩ e env) := (eval_cost' h e).1 env

theorem places_cost (l : Expr) (env : Env) : AtMost (exprCost B l) (Source.places ⟨H, E, f⟩ l env) := by
  induction l with
  | cons e l _ ih =>
    cases e with
    | name x => exact (ih.then fun _ => .pure _ _).snd
    | sel e m => exact (eval_cost h e env).bind fun _ => (one_silent _).after fun _ => ih.then fun _ => .pure _ _
    | _ => exact .stuck _
  | nil => exact .pure _ _
  | _ => exact .stuck _

theorem assignment_cost (l r : Expr) (env : Env) : AtMost ((exprCost B l).plus (exprCost B r)) (assignment ⟨H, E, f⟩ l r env) :=
  (places_cost h l env).bind fun _ => (eval_cost h r env).then fun _ => (storeAll_silent _ _ _).then fun _ => .pure _ _

omit h in
theorem follow_cost {c : Ctl} {x : Env → M Ctl} {k : Cost} (hx : ∀ env, AtMost k (x env)) : AtMost k (follow c x) := by
  cases c <;> first | exact hx _ | exact .pure _ _

omit h in
theorem again_cost {c : Ctl} {x : Env → M Ctl} {k : Cost} (hx : ∀ env, AtMost k (x env)) : AtMost k (again c x) := by
  cases c <;> first | exact hx _ | exact .pure _ _

omit h in
theorem choose_cost {vs : List Value} {x y : M Ctl} {k l : Cost} (hx : AtMost k x) (hy : AtMost l y) : AtMost (k.or l) (choose vs x y) := by
  unfold choose
  split
  · exact hx.left
  · exact hy.right
  · exact .stuck _

theorem exec_cost (n : Nat) (s : Stmt) : ∀ env, AtMost (stmtCost B s) (exec ⟨H, E, f⟩ n s env) := by
  have hz : ∀ {e : Expr}, (exprCost B e).plus (some 0) = exprCost B e := fun {e} => by cases exprCost B e <;> rfl
  induction s with
  | skip => exact fun env => .pure _ _
  | brk => exact fun env => .pure _ _
  | var x t => exact fun env => (zero_silent t).then fun _ => .pure _ _
  | seq a b iha ihb => exact fun env => (iha env).bind fun _ => follow_cost fun env => ihb env
  | block s ih => exact fun env => (ih _).then fun _ => .pure _ _
  | define l r => exact fun env => (eval_cost h r env).then fun _ => (known_silent _).then fun _ => .pure _ _
  | assign l r => exact assignment_cost h l r
  | addAssign l r =>
    intro env
    have := assignment_cost (H := H) (E := E) h (.cons l .nil) (.bin (id! "+") l r) env
    simp only [exprCost, hz] at this
    exact this
  | inc l =>
    intro env
    have := assignment_cost (H := H) (E := E) h (.cons l .nil) (.bin (id! "+") l (.num 1)) env
    simp only [exprCost, hz] at this
    exact this
  | expr e => exact fun env => (eval_cost h e env).then fun _ => .pure _ _
  | ret e => exact fun env => (eval_cost h e env).then fun _ => .pure _ _
  | ite c t e iht ihe => exact fun env => (eval_cost h c env).bind fun _ => choose_cost (iht env) (ihe env)
  | loop i c p b ihi ihp ihb => exact fun env k hk => by cases hk
  | range k v e b ih => exact fun env k hk => by cases hk
  | switch s ih => exact fun env => (ih env).then fun _ => again_cost fun _ => .pure _ _

end

theorem nameCost_find {B : Nat → Cost} {recv x : Nat} {f : Func} : ∀ {ds : List Decl}, findFunc recv x ds = some f →
    ∀ {k : Nat}, nameCost B x ds = some k → ∃ j, stmtCost B f.body = some j ∧ j ≤ k
  | [], h, _, _ => by cases h
  | .func g :: ds, h, k, hk => by
    rw [findFunc] at h
    rw [nameCost] at hk
    by_cases hx : g.name = x
    · rw [if_pos hx] at hk
      obtain ⟨a, b, ha, hb, rfl⟩ : ∃ a b, stmtCost B g.body = some a ∧ nameCost B x ds = some b ∧ k = max a b := by
        revert hk
        cases stmtCost B g.body <;> cases nameCost B x ds <;> intro hk <;> simp only [Cost.or, reduceCtorEq, Option.some.injEq] at hk
        exact ⟨_, _, rfl, rfl, hk.symm⟩
      by_cases hr : g.recv = recv ∧ g.name = x
      · rw [if_pos hr] at h
        cases h
        exact ⟨a, ha, by omega⟩
      · rw [if_neg hr] at h
        obtain ⟨j, h1, h2⟩ := nameCost_find h hb
        exact ⟨j, h1, by omega⟩
    · rw [if_neg hx] at hk
      rw [if_neg fun hr => hx hr.2] at h
      exact nameCost_find h hk
  | .imports _ :: ds, h, _, hk => nameCost_find (ds := ds) h hk
  | .var _ _ :: ds, h, _, hk => nameCost_find (ds := ds) h hk
  | .varInit _ _ :: ds, h, _, hk => nameCost_find (ds := ds) h hk
  | .struct _ _ :: ds, h, _, hk => nameCost_find (ds := ds) h hk
  | .type _ _ :: ds, h, _, hk => nameCost_find (ds := ds) h hk

/-- The bounds are right if those given are. -/
theorem bounds_sound (H : Hashes) (E : EcdsaM) (ds : List Decl) (B : Nat → Cost) (hB : ∀ n, CallsCost B (runFunc H E ds n)) :
    ∀ k n, CallsCost (bounds ds B k) (runFunc H E ds n)
  | 0, n => hB n
  | k + 1, n => by
    intro recv x args
    unfold bounds
    split
    · exact hB n recv x args
    cases n with
    | zero => exact .stuck _
    | succ n =>
      unfold runFunc
      split
      · exact .stuck _
      next f hf =>
        split
        · exact .stuck _
        next env _ =>
          have h := exec_cost (H := H) (E := E) (bounds_sound H E ds B hB k n) n f.body env
          have h2 : AtMost (stmtCost (bounds ds B k) f.body) (exec ⟨H, E, runFunc H E ds n⟩ n f.body env >>= f.finish) := by
            refine h.then fun c => ?_
            unfold Func.finish
            cases c with
            | ret vs => exact known_silent _
            | next env => exact .ite (.pure _ _) (.stuck _)
            | brk env => exact .stuck _
          intro j hj st
          obtain ⟨i, h3, h4⟩ := nameCost_find hf hj
          exact (h2 i h3 st).mono h4

end Btc
