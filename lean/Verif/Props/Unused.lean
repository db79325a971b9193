import Verif.Props.Local
import Verif.Props.Marks

/-!
# C118: which parameters matter

A parameter whose name does not occur in the body of a function cannot matter, whatever the program. In the text there are
exactly two such parameters; each of the others makes a difference in some call.
-/

namespace Btc

open Mem Source

namespace Spec

/-- Specification: the name occurs in an expression. -/
def inExpr (x : Nat) : Expr → Bool
  | .name y => y == x
  | .num _ => false
  | .str _ => false
  | .sel e _ => inExpr x e
  | .call f a => inExpr x f || inExpr x a
  | .index e i => inExpr x e || inExpr x i
  | .slice e lo hi => inExpr x e || inExpr x lo || inExpr x hi
  | .un _ e => inExpr x e
  | .bin _ a b => inExpr x a || inExpr x b
  | .lit t e => inExpr x t || inExpr x e
  | .kv _ e => inExpr x e
  | .sliceOf t => inExpr x t
  | .nil => false
  | .cons e es => inExpr x e || inExpr x es

/-- Specification: the name occurs in a statement. -/
def inStmt (x : Nat) : Stmt → Bool
  | .skip => false
  | .seq a b => inStmt x a || inStmt x b
  | .block s => inStmt x s
  | .define l r => inExpr x l || inExpr x r
  | .assign l r => inExpr x l || inExpr x r
  | .addAssign l r => inExpr x l || inExpr x r
  | .inc l => inExpr x l
  | .expr e => inExpr x e
  | .var y t => y == x || inExpr x t
  | .ret es => inExpr x es
  | .brk => false
  | .ite c t e => inExpr x c || inStmt x t || inStmt x e
  | .loop i c p b => inStmt x i || inExpr x c || inStmt x p || inStmt x b
  | .range k v e b => k == x || v == x || inExpr x e || inStmt x b
  | .switch s => inStmt x s

end Spec

open Spec

/-! ## Variables that are not mentioned -/

/-- The same variables, with the same values but for `x`. -/
def ScopeBut (x : Nat) (s s' : List (Nat × Value)) : Prop := List.Forall₂ (fun a b => a.1 = b.1 ∧ (a.1 ≠ x → a.2 = b.2)) s s'

/-- The same variables in each block, with the same values but for `x`. -/
def EnvBut (x : Nat) (env env' : Env) : Prop := List.Forall₂ (ScopeBut x) env env'

theorem ScopeBut.refl (x : Nat) (s : List (Nat × Value)) : ScopeBut x s s := by
  induction s with
  | nil => exact .nil
  | cons a s ih => exact .cons ⟨rfl, fun _ => rfl⟩ ih

theorem ScopeBut.get {x y : Nat} {s s' : List (Nat × Value)} (h : ScopeBut x s s') (hy : y ≠ x) : scopeGet y s = scopeGet y s' := by
  induction h with
  | nil => rfl
  | @cons a b s s' hab _ ih =>
    obtain ⟨a, u⟩ := a
    obtain ⟨b, v⟩ := b
    obtain ⟨rfl, h2⟩ := hab
    simp only [scopeGet]
    split
    · next e => exact congrArg some (h2 (by simpa [e] using hy))
    · exact ih

/-- Both there and related, or both not there. -/
def OptRel {α : Type} (R : α → α → Prop) : Option α → Option α → Prop
  | some a, some b => R a b
  | none, none => True
  | _, _ => False

theorem ScopeBut.set {x y : Nat} {v : Value} {s s' : List (Nat × Value)} (h : ScopeBut x s s') :
    OptRel (ScopeBut x) (scopeSet y v s) (scopeSet y v s') := by
  induction h with
  | nil => trivial
  | @cons a b s s' hab ht ih =>
    obtain ⟨a, u⟩ := a
    obtain ⟨b, w⟩ := b
    obtain ⟨rfl, h2⟩ := hab
    simp only [scopeSet]
    split
    · exact .cons ⟨rfl, fun _ => rfl⟩ ht
    · revert ih
      cases scopeSet y v s <;> cases scopeSet y v s' <;> intro ih
      · trivial
      · exact ih.elim
      · exact ih.elim
      · exact .cons ⟨rfl, h2⟩ ih

theorem EnvBut.get {x y : Nat} {env env' : Env} (h : EnvBut x env env') (hy : y ≠ x) : env.get y = env'.get y := by
  induction h with
  | nil => rfl
  | cons hs _ ih => simp only [Env.get, hs.get hy, ih]

theorem EnvBut.set {x y : Nat} {v : Value} {env env' : Env} (h : EnvBut x env env') :
    OptRel (EnvBut x) (env.set y v) (env'.set y v) := by
  induction h with
  | nil => trivial
  | @cons s s' env env' hs ht ih =>
    simp only [Env.set]
    have := hs.set (y := y) (v := v)
    revert this
    cases scopeSet y v s <;> cases scopeSet y v s' <;> intro hh
    · simp only
      revert ih
      cases Env.set y v env <;> cases Env.set y v env' <;> intro ih
      · trivial
      · exact ih.elim
      · exact ih.elim
      · exact .cons hs ih
    · exact hh.elim
    · exact hh.elim
    · exact .cons hh ht

theorem EnvBut.define {x y : Nat} {v : Value} {env env' : Env} (h : EnvBut x env env') : EnvBut x (env.define y v) (env'.define y v) := by
  cases h with
  | nil => exact .cons (.cons ⟨rfl, fun _ => rfl⟩ .nil) .nil
  | @cons s s' env env' hs ht =>
    simp only [Env.define]
    split
    · exact .cons hs ht
    · have := hs.set (y := y) (v := v)
      revert this
      cases scopeSet y v s <;> cases scopeSet y v s' <;> intro hh
      · exact .cons (.cons ⟨rfl, fun _ => rfl⟩ hs) ht
      · exact hh.elim
      · exact hh.elim
      · exact .cons hh ht

theorem EnvBut.defineAll {x : Nat} : ∀ (l : Expr) (vs : List Value) {env env' : Env}, EnvBut x env env' →
    OptRel (EnvBut x) (defineAll l vs env) (defineAll l vs env') := by
  intro l
  induction l with
  | nil =>
    intro vs env env' h
    cases vs
    · exact h
    · trivial
  | cons e l _ ih =>
    intro vs env env' h
    cases vs with
    | nil => cases e <;> trivial
    | cons v vs =>
      cases e with
      | name y => exact ih vs h.define
      | _ => trivial
  | _ => intros; trivial

theorem EnvBut.tail {x : Nat} {env env' : Env} (h : EnvBut x env env') : EnvBut x env.tail env'.tail := by
  cases h with
  | nil => exact .nil
  | cons _ ht => exact ht

theorem EnvBut.push {x : Nat} {env env' : Env} (h : EnvBut x env env') : EnvBut x ([] :: env) ([] :: env') := .cons .nil h

/-! ## Computations with related results -/

/-- The same end, with related results. -/
def RelM {α : Type} (R : α → α → Prop) (m m' : M α) : Prop :=
  ∀ st, (∃ a b st', m st = .ok a st' ∧ m' st = .ok b st' ∧ R a b) ∨ (m st = m' st ∧ ∀ a st', m st ≠ .ok a st')

section
variable {α β : Type} {R : α → α → Prop} {S : β → β → Prop}

theorem RelM.pure {a b : α} (h : R a b) : RelM R (pure a) (pure b) := fun st => .inl ⟨a, b, st, rfl, rfl, h⟩

theorem RelM.stuck : RelM R stuck stuck := fun _ => .inr ⟨rfl, by intro a st' e; cases e⟩

theorem RelM.bind {m m' : M α} {f f' : α → M β} (h : RelM R m m') (hf : ∀ a b, R a b → RelM S (f a) (f' b)) :
    RelM S (m >>= f) (m' >>= f') := by
  intro st
  show (∃ a b st', (m st).andThen f = .ok a st' ∧ (m' st).andThen f' = .ok b st' ∧ S a b) ∨
    ((m st).andThen f = (m' st).andThen f' ∧ ∀ a st', (m st).andThen f ≠ .ok a st')
  rcases h st with ⟨a, b, st', e1, e2, hR⟩ | ⟨e, hne⟩
  · rw [e1, e2]
    exact hf a b hR st'
  · rw [← e]
    cases hm : m st with
    | ok a st' => exact (hne a st' hm).elim
    | panic p st' => exact .inr ⟨rfl, by intro a st'' e; cases e⟩
    | stuck => exact .inr ⟨rfl, by intro a st'' e; cases e⟩

theorem RelM.refl (hR : ∀ a, R a a) (m : M α) : RelM R m m := by
  intro st
  cases hm : m st with
  | ok a st' => exact .inl ⟨a, a, st', rfl, rfl, hR a⟩
  | panic p st' => exact .inr ⟨rfl, by intro a st'' e; cases e⟩
  | stuck => exact .inr ⟨rfl, by intro a st'' e; cases e⟩

/-- The same first step, and what follows may use that it happened. -/
theorem RelM.same {m : M α} {f f' : α → M β} (hf : ∀ st a st', m st = .ok a st' → RelM S (f a) (f' a)) :
    RelM S (m >>= f) (m >>= f') := by
  intro st
  show (∃ a b st', (m st).andThen f = .ok a st' ∧ (m st).andThen f' = .ok b st' ∧ S a b) ∨
    ((m st).andThen f = (m st).andThen f' ∧ ∀ a st', (m st).andThen f ≠ .ok a st')
  cases hm : m st with
  | ok a st' => exact hf st a st' hm st'
  | panic p st' => exact .inr ⟨rfl, by intro a st'' e; cases e⟩
  | stuck => exact .inr ⟨rfl, by intro a st'' e; cases e⟩

theorem RelM.eq {m m' : M α} (h : RelM Eq m m') : m = m' := by
  funext st
  rcases h st with ⟨a, b, st', e1, e2, rfl⟩ | ⟨e, -⟩
  · rw [e1, e2]
  · exact e

theorem RelM.known {o o' : Option α} (h : OptRel R o o') : RelM R (known o) (known o') := by
  cases o <;> cases o'
  · exact .stuck
  · exact h.elim
  · exact h.elim
  · exact .pure h
end

section
variable (C : Ctx) {x : Nat}

theorem named_but {y : Nat} {env env' : Env} (h : EnvBut x env env') (hy : y ≠ x) : named y env = named y env' := by
  unfold named
  rw [h.get hy]

/-- `eval` on `e` and on the operand of `e`. -/
theorem eval_but' {env env' : Env} (h : EnvBut x env env') (e : Expr) : (inExpr x e = false → eval C e env = eval C e env') ∧
    ∀ d m, e = .sel d m → inExpr x d = false → eval C d env = eval C d env' := by
  induction e with
  | name y =>
    refine ⟨fun hx => ?_, fun d m e => by cases e⟩
    simp only [inExpr, beq_eq_false_iff_ne] at hx
    simp only [eval, named_but h hx]
  | sel e f ih =>
    refine ⟨fun hx => ?_, fun d m e hd => ?_⟩
    · simp only [eval, ih.1 hx]
    · injection e with e1 _
      subst e1
      exact ih.1 hd
  | call k args ihk ih =>
    refine ⟨fun hx => ?_, fun d m e => by cases e⟩
    simp only [inExpr, Bool.or_eq_false_iff] at hx
    cases k with
    | name y => simp only [eval, ih.1 hx.2]
    | sel d m => simp only [eval, ih.1 hx.2, ihk.2 d m rfl hx.1]
    | _ => rfl
  | index e i ih ihi =>
    refine ⟨fun hx => ?_, fun d m e => by cases e⟩
    simp only [inExpr, Bool.or_eq_false_iff] at hx
    simp only [eval, ih.1 hx.1, ihi.1 hx.2]
  | slice e lo hi ih ihl ihh =>
    refine ⟨fun hx => ?_, fun d m e => by cases e⟩
    simp only [inExpr, Bool.or_eq_false_iff] at hx
    simp only [eval, ih.1 hx.1.1, ihl.1 hx.1.2, ihh.1 hx.2]
  | un op e ih =>
    refine ⟨fun hx => ?_, fun d m e => by cases e⟩
    simp only [eval, ih.1 hx]
  | bin op a b iha ihb =>
    refine ⟨fun hx => ?_, fun d m e => by cases e⟩
    simp only [inExpr, Bool.or_eq_false_iff] at hx
    simp only [eval, iha.1 hx.1, ihb.1 hx.2]
  | lit t fs iht ih =>
    refine ⟨fun hx => ?_, fun d m e => by cases e⟩
    simp only [inExpr, Bool.or_eq_false_iff] at hx
    simp only [eval, ih.1 hx.2]
  | kv k e ih => exact ⟨fun hx => by simp only [eval]; exact ih.1 hx, fun d m e => by cases e⟩
  | cons e es ih ihs =>
    refine ⟨fun hx => ?_, fun d m e => by cases e⟩
    simp only [inExpr, Bool.or_eq_false_iff] at hx
    simp only [eval, ih.1 hx.1, ihs.1 hx.2]
  | _ => exact ⟨fun _ => rfl, fun d m e => by cases e⟩

theorem eval_but {env env' : Env} (h : EnvBut x env env') {e : Expr} (hx : inExpr x e = false) : eval C e env = eval C e env' :=
  (eval_but' C h e).1 hx

theorem places_but {env env' : Env} (h : EnvBut x env env') (l : Expr) (hx : inExpr x l = false) :
    Source.places C l env = Source.places C l env' := by
  induction l with
  | cons e l _ ih =>
    simp only [inExpr, Bool.or_eq_false_iff] at hx
    cases e with
    | name y => simp only [Source.places, ih hx.2]
    | sel e m => simp only [Source.places, ih hx.2, eval_but C h (e := e) hx.1]
    | _ => rfl
  | _ => rfl

theorem storeOne_but (p : Source.Place) (v : Value) {env env' : Env} (h : EnvBut x env env') :
    RelM (EnvBut x) (storeOne p v env) (storeOne p v env') := by
  cases p with
  | blank => exact .pure h
  | var y =>
    simp only [storeOne]
    have := h.set (y := y) (v := v)
    revert this
    cases Env.set y v env <;> cases Env.set y v env' <;> intro hh
    · exact (RelM.refl (R := Eq) (fun _ => rfl) _).bind fun _ _ _ => .pure h
    · exact hh.elim
    · exact hh.elim
    · exact .pure hh
  | field u f => exact (RelM.refl (R := Eq) (fun _ => rfl) _).bind fun _ _ _ => .pure h

theorem storeAll_but : ∀ (ps : List Source.Place) (vs : List Value) {env env' : Env}, EnvBut x env env' →
    RelM (EnvBut x) (storeAll ps vs env) (storeAll ps vs env')
  | [], [], _, _, h => .pure h
  | p :: ps, v :: vs, _, _, h => (storeOne_but p v h).bind fun _ _ h' => storeAll_but ps vs h'
  | [], _ :: _, _, _, _ => .stuck
  | _ :: _, [], _, _, _ => .stuck

/-- The same way to end a statement. -/
def CtlBut (x : Nat) : Ctl → Ctl → Prop
  | .next env, .next env' => EnvBut x env env'
  | .brk env, .brk env' => EnvBut x env env'
  | .ret vs, .ret vs' => vs = vs'
  | _, _ => False

theorem assignment_but {l r : Expr} {env env' : Env} (h : EnvBut x env env') (hl : inExpr x l = false) (hr : inExpr x r = false) :
    RelM (CtlBut x) (assignment C l r env) (assignment C l r env') := by
  unfold assignment
  rw [places_but C h l hl, eval_but C h hr]
  refine .same fun _ ps _ _ => .same fun _ vs _ _ => ?_
  exact (storeAll_but ps vs h).bind fun _ _ h' => .pure h'

theorem follow_but {c c' : Ctl} (hc : CtlBut x c c') {k k' : Env → M Ctl}
    (hk : ∀ env env', EnvBut x env env' → RelM (CtlBut x) (k env) (k' env')) : RelM (CtlBut x) (follow c k) (follow c' k') := by
  cases c <;> cases c' <;> first | exact hc.elim | exact hk _ _ hc | exact .pure hc

theorem again_but {c c' : Ctl} (hc : CtlBut x c c') {k k' : Env → M Ctl}
    (hk : ∀ env env', EnvBut x env env' → RelM (CtlBut x) (k env) (k' env')) : RelM (CtlBut x) (again c k) (again c' k') := by
  cases c <;> cases c' <;> first | exact hc.elim | exact hk _ _ hc | exact .pure hc

theorem leave_but {c c' : Ctl} (hc : CtlBut x c c') : CtlBut x (leave c) (leave c') := by
  cases c <;> cases c' <;> first | exact hc.elim | exact EnvBut.tail hc | exact hc

theorem choose_but {vs : List Value} {t t' e e' : M Ctl} (ht : RelM (CtlBut x) t t') (he : RelM (CtlBut x) e e') :
    RelM (CtlBut x) (choose vs t e) (choose vs t' e') := by
  unfold choose
  rcases vs with _ | ⟨v, _ | ⟨_, _⟩⟩ <;> try exact .stuck
  · cases v <;> try exact .stuck
    rename_i b
    cases b
    · exact he
    · exact ht
  · cases v <;> try exact .stuck
    rename_i b
    cases b <;> exact .stuck

theorem rounds_but {c : Env → M (List Value)} {b p : Env → M Ctl} (hc : ∀ env env', EnvBut x env env' → c env = c env')
    (hb : ∀ env env', EnvBut x env env' → RelM (CtlBut x) (b env) (b env'))
    (hp : ∀ env env', EnvBut x env env' → RelM (CtlBut x) (p env) (p env')) :
    ∀ (n : Nat) (env env' : Env), EnvBut x env env' → RelM (CtlBut x) (rounds c b p n env) (rounds c b p n env')
  | 0, _, _, _ => .stuck
  | n + 1, env, env', h => by
    unfold rounds
    rw [hc env env' h]
    refine .same fun _ vs _ _ => choose_but ?_ (.pure h)
    exact (hb env env' h).bind fun _ _ h1 => again_but h1 fun env env' h2 => (hp env env' h2).bind fun _ _ h3 =>
      follow_but h3 fun env env' h4 => rounds_but hc hb hp n env env' h4

theorem ranging_but {b : Env → M Ctl} (hb : ∀ env env', EnvBut x env env' → RelM (CtlBut x) (b env) (b env')) (k v : Nat) :
    ∀ (ws : List GoString) (i : Nat) (env env' : Env), EnvBut x env env' →
      RelM (CtlBut x) (ranging b k v env i ws) (ranging b k v env' i ws)
  | [], _, _, _, h => .pure h
  | _ :: ws, i, _, _, h =>
    (hb _ _ h.push.define.define).bind fun _ _ h1 => again_but (leave_but h1) fun env env' h2 => ranging_but hb k v ws (i + 1) env env' h2

theorem exec_but (n : Nat) (s : Stmt) : inStmt x s = false → ∀ env env', EnvBut x env env' →
    RelM (CtlBut x) (exec C n s env) (exec C n s env') := by
  induction s with
  | skip => exact fun _ env env' h => .pure h
  | brk => exact fun _ env env' h => .pure h
  | seq a b iha ihb =>
    intro hx env env' h
    simp only [inStmt, Bool.or_eq_false_iff] at hx
    exact (iha hx.1 env env' h).bind fun _ _ h1 => follow_but h1 (ihb hx.2)
  | block s ih => exact fun hx env env' h => (ih hx _ _ h.push).bind fun _ _ h1 => .pure (leave_but h1)
  | define l r =>
    intro hx env env' h
    simp only [inStmt, Bool.or_eq_false_iff] at hx
    simp only [exec, eval_but C h hx.2]
    exact .same fun _ vs _ _ => (RelM.known (EnvBut.defineAll l vs h)).bind fun _ _ h1 => .pure h1
  | assign l r =>
    intro hx env env' h
    simp only [inStmt, Bool.or_eq_false_iff] at hx
    exact assignment_but C h hx.1 hx.2
  | addAssign l r =>
    intro hx env env' h
    simp only [inStmt, Bool.or_eq_false_iff] at hx
    exact assignment_but C h (by simp [inExpr, hx.1]) (by simp [inExpr, hx.1, hx.2])
  | inc l =>
    intro hx env env' h
    simp only [inStmt] at hx
    exact assignment_but C h (by simp [inExpr, hx]) (by simp [inExpr, hx])
  | expr e =>
    intro hx env env' h
    simp only [exec, eval_but C h (e := e) hx]
    exact .same fun _ _ _ _ => .pure h
  | var y t => exact fun hx env env' h => .same fun _ v _ _ => .pure h.define
  | ret es =>
    intro hx env env' h
    simp only [exec, eval_but C h (e := es) hx]
    exact .same fun _ _ _ _ => .pure rfl
  | ite c t e iht ihe =>
    intro hx env env' h
    simp only [inStmt, Bool.or_eq_false_iff] at hx
    simp only [exec, eval_but C h hx.1.1]
    exact .same fun _ _ _ _ => choose_but (iht hx.1.2 env env' h) (ihe hx.2 env env' h)
  | loop i c p b ihi ihp ihb =>
    intro hx env env' h
    simp only [inStmt, Bool.or_eq_false_iff] at hx
    refine (ihi hx.1.1.1 _ _ h.push).bind fun _ _ h1 => (follow_but h1 fun env env' h2 => ?_).bind fun _ _ h3 => .pure (leave_but h3)
    exact rounds_but (fun env env' h => eval_but C h hx.1.1.2) (ihb hx.2) (ihp hx.1.2) n env env' h2
  | range k v e b ih =>
    intro hx env env' h
    simp only [inStmt, Bool.or_eq_false_iff] at hx
    simp only [exec, eval_but C h hx.1.2]
    refine .same fun _ vs _ _ => ?_
    rcases vs with _ | ⟨u, _ | ⟨_, _⟩⟩
    · exact .stuck
    · cases u <;> first | exact .stuck | exact ranging_but (ih hx.2) k v _ 0 env env' h
    · cases u <;> exact .stuck
  | switch s ih => exact fun hx env env' h => (ih hx env env' h).bind fun _ _ h1 => again_but h1 fun _ _ h2 => .pure h2

end

deriving instance DecidableEq for Value, Seen

namespace Spec

/-- Specification: the names of the receiver and of the parameters of a function. -/
def paramNames (f : Func) : List Nat := (if f.recv = 0 then [] else [f.recvName]) ++ f.params.map Prod.fst

/-- Specification: the same arguments but for the parameter `x`. -/
def SameBut (x : Nat) : List Nat → List Value → List Value → Prop
  | [], [], [] => True
  | y :: ys, v :: vs, w :: ws => (y ≠ x → v = w) ∧ SameBut x ys vs ws
  | _, _, _ => False

/-- Specification: the parameter `x` of a function has no effect on any call: the same results, the same state
afterwards, the same log. -/
def NoEffect (H : Hashes) (E : EcdsaM) (ds : List Decl) (f : Func) (x : Nat) : Prop :=
  ∀ args args' st o, SameBut x (paramNames f) args args' → Ends H E ds f.recv f.name args st o → Ends H E ds f.recv f.name args' st o

end Spec

instance decSameBut (x : Nat) : ∀ ys vs ws, Decidable (SameBut x ys vs ws)
  | [], [], [] => .isTrue trivial
  | y :: ys, v :: vs, w :: ws =>
    have := decSameBut x ys vs ws
    inferInstanceAs (Decidable ((y ≠ x → v = w) ∧ SameBut x ys vs ws))
  | [], _ :: _, _ => .isFalse id
  | [], [], _ :: _ => .isFalse id
  | _ :: _, [], _ => .isFalse id
  | _ :: _, _ :: _, [] => .isFalse id

theorem bindParams_but {x : Nat} : ∀ (ps : List (Nat × Expr)) (vs vs' : List Value), SameBut x (ps.map Prod.fst) vs vs' →
    ∃ s s', bindParams ps vs = some s ∧ bindParams ps vs' = some s' ∧ ScopeBut x s s'
  | [], [], [], _ => ⟨[], [], rfl, rfl, .nil⟩
  | (y, t) :: ps, v :: vs, w :: ws, ⟨h1, h2⟩ => by
    obtain ⟨s, s', e1, e2, h⟩ := bindParams_but ps vs ws h2
    exact ⟨(y, v) :: s, (y, w) :: s', by simp [bindParams, e1], by simp [bindParams, e2], .cons ⟨rfl, h1⟩ h⟩
  | [], _ :: _, _, h => h.elim
  | [], [], _ :: _, h => h.elim
  | _ :: _, [], _, h => h.elim
  | _ :: _, _ :: _, [], h => h.elim

theorem start_but {x : Nat} (f : Func) {vs vs' : List Value} (h : SameBut x (paramNames f) vs vs') :
    ∃ env env', f.start vs = some env ∧ f.start vs' = some env' ∧ EnvBut x env env' := by
  unfold paramNames at h
  unfold Func.start
  split at h
  · next hr =>
    obtain ⟨s, s', e1, e2, hs⟩ := bindParams_but f.params vs vs' h
    exact ⟨[s], [s'], by simp [hr, e1], by simp [hr, e2], .cons hs .nil⟩
  · next hr =>
    cases vs with
    | nil => exact h.elim
    | cons v vs =>
      cases vs' with
      | nil => exact h.elim
      | cons w ws =>
        obtain ⟨s, s', e1, e2, hs⟩ := bindParams_but f.params vs ws h.2
        exact ⟨[(f.recvName, v) :: s], [(f.recvName, w) :: s'], by simp [hr, e1], by simp [hr, e2], .cons (.cons ⟨rfl, h.1⟩ hs) .nil⟩

theorem runFunc_but (H : Hashes) (E : EcdsaM) {ds : List Decl} {f : Func} {x : Nat} (hf : findFunc f.recv f.name ds = some f)
    (hx : inStmt x f.body = false) {args args' : List Value} (h : SameBut x (paramNames f) args args') (n : Nat) :
    runFunc H E ds n f.recv f.name args = runFunc H E ds n f.recv f.name args' := by
  cases n with
  | zero => rfl
  | succ n =>
    obtain ⟨env, env', e1, e2, he⟩ := start_but f h
    simp only [runFunc, hf, e1, e2]
    refine RelM.eq ((exec_but _ n f.body hx env env' he).bind fun c c' hc => ?_)
    cases c <;> cases c' <;> first | exact hc.elim | exact .refl (fun _ => rfl) _ | (cases hc; exact .refl (fun _ => rfl) _)

/-- C118: in every program, a parameter whose name does not occur in the body of its function has no effect on any call. -/
theorem C118_unmentioned (H : Hashes) (E : EcdsaM) (ds : List Decl) (f : Func) (hf : findFunc f.recv f.name ds = some f) (x : Nat)
    (hx : inStmt x f.body = false) : NoEffect H E ds f x := by
  rintro args args' st o h ⟨ho, n, hn⟩
  exact ⟨ho, n, fun m hm => by rw [← runFunc_but H E hf hx h]; exact hn m hm⟩

namespace Samples

/-- The base point of the curve, uncompressed. -/
def pointG : GoString := asc
  "0479be667ef9dcbbac55a06295ce870b07029bfcdb2dce28d959f2815b16f81798483ada7726a3c4655da4fbfc0e1108a8fd17b448a68554199c47d08ffb10d4b8"

/-- For each parameter that matters, a function, the parameter and two lists of arguments that differ in it alone. -/
def differences : List (Nat × Nat × Nat × List Value × List Value) := [
  (0, id! "bigIntToHex", id! "n", [.big (some 7)],
    [.big (some 8)]),
  (0, id! "CheckWIF", id! "wif", [.str wifA],
    [.str (asc "0")]),
  (0, id! "PrivateFromWIF", id! "wif", [.str wifA, .net (some 0)],
    [.str wifB, .net (some 0)]),
  (0, id! "PrivateFromWIF", id! "network", [.str wifA, .net (some 0)],
    [.str wifA, .net (some 1)]),
  (0, id! "PrivateFromHex", id! "hexa", [.str hexA, .net (some 0)],
    [.str hexB, .net (some 0)]),
  (0, id! "PrivateFromHex", id! "network", [.str hexA, .net (some 0)],
    [.str hexA, .net (some 1)]),
  (0, id! "GeneratePrivateKey", id! "network", [.net (some 0)],
    [.net (some 1)]),
  (0, id! "AddPrivateKeys", id! "p1", [.priv (some 0), .priv (some 0)],
    [.priv (some 1), .priv (some 0)]),
  (0, id! "AddPrivateKeys", id! "p2", [.priv (some 0), .priv (some 0)],
    [.priv (some 0), .priv (some 1)]),
  (0, id! "MultiplyPrivateKeys", id! "p1", [.priv (some 0), .priv (some 0)],
    [.priv (some 1), .priv (some 0)]),
  (0, id! "MultiplyPrivateKeys", id! "p2", [.priv (some 0), .priv (some 0)],
    [.priv (some 0), .priv (some 1)]),
  (0, id! "PublicFromHex", id! "hexa", [.str pointG, .net (some 0)],
    [.str (asc "05"), .net (some 0)]),
  (0, id! "PublicFromHex", id! "network", [.str pointG, .net (some 0)],
    [.str pointG, .net (some 1)]),
  (id! "PrivateKey", id! "GetPublicKey", id! "p", [.priv (some 0)],
    [.priv (some 1)]),
  (id! "PublicKey", id! "Format", id! "p", [.pub (some 0), .bool true],
    [.pub none, .bool true]),
  (id! "PublicKey", id! "Format", id! "compressed", [.pub (some 0), .bool true],
    [.pub (some 0), .bool false]),
  (id! "PublicKey", id! "Address", id! "p", [.pub (some 0), .bool true],
    [.pub none, .bool true]),
  (id! "PublicKey", id! "Address", id! "compressed", [.pub (some 0), .bool true],
    [.pub (some 0), .bool false]),
  (0, id! "AddPublicKeys", id! "p1", [.pub (some 0), .pub (some 0), .bool true],
    [.pub none, .pub (some 0), .bool true]),
  (0, id! "AddPublicKeys", id! "p2", [.pub (some 0), .pub (some 0), .bool true],
    [.pub (some 0), .pub none, .bool true]),
  (0, id! "NewSeedFromMnemonic", id! "mnemonic", [.str (asc "a a a a"), .str [], .strs twoWords],
    [.str (asc "c"), .str [], .strs twoWords]),
  (0, id! "NewSeedFromMnemonic", id! "wordlist", [.str (asc "a a a a"), .str [], .strs twoWords],
    [.str (asc "a a a a"), .str [], .strs none]),
  (0, id! "NewMnemonic", id! "words", [.int 12, .strs (some EnglishWordlist)],
    [.int 13, .strs (some EnglishWordlist)]),
  (0, id! "NewMnemonic", id! "wordlist", [.int 12, .strs (some EnglishWordlist)],
    [.int 12, .strs none])]

/-- The calls of a line of the table end and show different results. -/
def differs (c : Nat × Nat × Nat × List Value × List Value) : Bool :=
  match runFunc realHashes pkg program 200 c.1 c.2.1 c.2.2.2.1 (stocked draw), runFunc realHashes pkg program 200 c.1 c.2.1 c.2.2.2.2 (stocked draw) with
  | .ok vs s, .ok vs' s' => decide (vs.map (see s) ≠ vs'.map (see s'))
  | .ok _ _, .panic _ _ => true
  | .panic _ _, .ok _ _ => true
  | _, _ => false

end Samples

/-- All parameters of all functions of the text. -/
def allParams (ds : List Decl) : List (Nat × Nat × Nat) := ds.flatMap fun d =>
  match d with
  | .func f => (paramNames f).map fun x => (f.recv, f.name, x)
  | _ => []

/-- The parameters of the text that are not mentioned. -/
theorem C118_two : (allParams program).filter (fun c => !((findFunc c.1 c.2.1 program).elim false fun f => inStmt c.2.2 f.body)) =
    [(0, id! "AddPublicKeys", id! "compressed"), (0, id! "NewSeedFromMnemonic", id! "passphrase")] := by decide +kernel

theorem differences_cover : (allParams program).filter (fun c => (findFunc c.1 c.2.1 program).elim false fun f => inStmt c.2.2 f.body) =
    Samples.differences.map fun c => (c.1, c.2.1, c.2.2.1) := by decide +kernel

theorem differences_differ : (Samples.differences.all Samples.differs) = true := by decide +kernel

theorem differences_alone : (Samples.differences.all fun c => (findFunc c.1 c.2.1 program).elim false fun f =>
    decide (SameBut c.2.2.1 (paramNames f) c.2.2.2.1 c.2.2.2.2)) = true := by decide +kernel

theorem found_all : (program.all fun d =>
    match d with
    | .func f => decide (findFunc f.recv f.name program = some f)
    | _ => true) = true := by decide +kernel

theorem found_func {f : Func} (hf : Decl.func f ∈ program) : findFunc f.recv f.name program = some f := by
  simpa using List.all_eq_true.mp found_all _ hf

theorem mentioned_differ (f : Func) (hf : Decl.func f ∈ program) (x : Nat) (hp : x ∈ paramNames f) (hx : inStmt x f.body = true) :
    ∃ args args' st o o', SameBut x (paramNames f) args args' ∧ Session realHashes Samples.pkg [] st ∧
      Ends realHashes Samples.pkg program f.recv f.name args st o ∧ Ends realHashes Samples.pkg program f.recv f.name args' st o' ∧
      ¬ ShowSame st st o o' ∧ o ≠ o' := by
  have hm : (f.recv, f.name, x) ∈ Samples.differences.map fun c => (c.1, c.2.1, c.2.2.1) := by
    rw [← differences_cover, List.mem_filter]
    refine ⟨?_, by simpa [found_func hf] using hx⟩
    unfold allParams
    exact List.mem_flatMap.mpr ⟨_, hf, List.mem_map.mpr ⟨x, hp, rfl⟩⟩
  obtain ⟨⟨recv, name, y, args, args'⟩, hc, he⟩ := List.mem_map.mp hm
  injection he with h1 h2
  injection h2 with h2 h3
  dsimp only at h1 h2 h3
  subst h1 h2 h3
  have hd := List.all_eq_true.mp differences_differ _ hc
  have ha := List.all_eq_true.mp differences_alone _ hc
  simp only [found_func hf, Option.elim_some, decide_eq_true_eq] at ha
  refine ⟨args, args', Samples.stocked Samples.draw, _, _, ha, Samples.stocked_session _ _ _, Ends.of (n := 200) rfl ?_, Ends.of (n := 200) rfl ?_, ?_, ?_⟩
  all_goals
    unfold Samples.differs at hd
    revert hd
    dsimp only
    generalize runFunc realHashes Samples.pkg program 200 f.recv f.name args (Samples.stocked Samples.draw) = o
    generalize runFunc realHashes Samples.pkg program 200 f.recv f.name args' (Samples.stocked Samples.draw) = o'
    intro hd
    cases o <;> cases o' <;> simp_all [ShowSame]
  rintro rfl rfl
  exact hd rfl

/-- C118: each of the other parameters makes a difference: in a state that a program can bring about there are two calls
whose arguments differ in this parameter alone and that show different results. -/
theorem C118_mentioned (f : Func) (hf : Decl.func f ∈ program) (x : Nat) (hp : x ∈ paramNames f) (hx : inStmt x f.body = true) :
    ∃ args args' st o o', SameBut x (paramNames f) args args' ∧ Session realHashes Samples.pkg [] st ∧
      Ends realHashes Samples.pkg program f.recv f.name args st o ∧ Ends realHashes Samples.pkg program f.recv f.name args' st o' ∧
      ¬ ShowSame st st o o' := by
  obtain ⟨args, args', st, o, o', h1, h2, h3, h4, h5, -⟩ := mentioned_differ f hf x hp hx
  exact ⟨args, args', st, o, o', h1, h2, h3, h4, h5⟩

/-- C118: a parameter of the text has an effect exactly if its name occurs in the body. -/
theorem C118_exactly (f : Func) (hf : Decl.func f ∈ program) (x : Nat) (hp : x ∈ paramNames f) :
    NoEffect realHashes Samples.pkg program f x ↔ inStmt x f.body = false := by
  refine ⟨fun h => ?_, C118_unmentioned _ _ _ f (found_func hf) x⟩
  by_contra hx
  obtain ⟨args, args', st, o, o', hs, -, h1, h2, -, hn⟩ := mentioned_differ f hf x hp (by simpa using hx)
  exact hn ((h args args' st o hs h1).unique h2)

/-- C118: the passphrase of `NewSeedFromMnemonic` has no effect. -/
theorem C118_passphrase (H : Hashes) (E : EcdsaM) (mnemonic p p' : GoString) (wordlist : Option (List GoString)) (st : State)
    (o : Out (List Value)) (h : (Request.newSeedFromMnemonic mnemonic p wordlist).Ends H E st o) :
    (Request.newSeedFromMnemonic mnemonic p' wordlist).Ends H E st o :=
  C118_unmentioned H E program fNewSeedFromMnemonic find_NewSeedFromMnemonic (id! "passphrase") (by decide +kernel)
    [.str mnemonic, .str p, .strs wordlist] [.str mnemonic, .str p', .strs wordlist] st o ⟨fun _ => rfl, fun h => absurd rfl h, fun _ => rfl, trivial⟩ h

/-- C118: the third parameter of `AddPublicKeys` has no effect. -/
theorem C118_compressed (H : Hashes) (E : EcdsaM) (p1 p2 : Ptr) (c c' : Bool) (st : State)
    (o : Out (List Value)) (h : (Request.addPublicKeys p1 p2 c).Ends H E st o) : (Request.addPublicKeys p1 p2 c').Ends H E st o :=
  C118_unmentioned H E program fAddPublicKeys find_AddPublicKeys (id! "compressed") (by decide +kernel)
    [.pub p1, .pub p2, .bool c] [.pub p1, .pub p2, .bool c'] st o ⟨fun _ => rfl, fun _ => rfl, fun h => absurd rfl h, trivial⟩ h

/-- Calls of `NewSeedFromMnemonic` without and with a passphrase, on a phrase that is refused for its checksum; and the
sums of a key with itself, compressed and not. -/
example : ([((0, id! "NewSeedFromMnemonic", [.str (asc "a a a a"), .str [], .strs Samples.twoWords]),
      [.str (asc "a a a a"), .str (asc "TREZOR"), .strs Samples.twoWords]),
    ((0, id! "AddPublicKeys", [.pub (some 0), .pub (some 0), .bool true]), [.pub (some 0), .pub (some 0), .bool false])].all
    fun (c : (Nat × Nat × List Value) × List Value) =>
      match runFunc realHashes Samples.pkg program 200 c.1.1 c.1.2.1 c.1.2.2 (Samples.stocked []),
        runFunc realHashes Samples.pkg program 200 c.1.1 c.1.2.1 c.2 (Samples.stocked []) with
      | .ok vs s, .ok vs' s' => decide (vs.map (see s) = vs'.map (see s') ∧ vs.length = 2)
      | _, _ => false) = true := by decide +kernel

end Btc
