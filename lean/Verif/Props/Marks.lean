import Verif.Props.Blocks

/-!
# C117: which way a call takes through the text

Put a call `mark("…")` at the beginning of every function and of every block in braces, as one does when debugging by
printing. The marked program does what the program does (`C117_faithful`) and writes down the way it takes.
-/

namespace Btc

open Mem Source

namespace Spec

/-- Specification: `s` with the statement `φ w` put at the beginning of the block at `w`, for every `w`. -/
def insertAt (φ : List Dir → Stmt) : List Dir → Stmt → Stmt
  | w, .seq a b => .seq (insertAt φ (w ++ [.fst]) a) (insertAt φ (w ++ [.snd]) b)
  | w, .block s => .block (.seq (φ w) (insertAt φ (w ++ [.fst]) s))
  | w, .ite c t e => .ite c (insertAt φ (w ++ [.fst]) t) (insertAt φ (w ++ [.snd]) e)
  | w, .loop i c p b => .loop i c p (insertAt φ (w ++ [.fst]) b)
  | w, .range k v e b => .range k v e (insertAt φ (w ++ [.fst]) b)
  | w, .switch s => .switch (insertAt φ (w ++ [.fst]) s)
  | _, s => s

/-- Specification: the characters of an identifier of at most `k` characters. -/
def spelling : Nat → Nat → List Nat
  | 0, _ => []
  | k + 1, x => if x = 0 then [] else spelling k (x / 256) ++ [x % 256]

/-- Specification: the statement `mark("s")`. -/
def mark (s : List Nat) : Stmt := .expr (.call (.name (id! "mark")) (.cons (.str s) .nil))

/-- Specification: the blocks of a function are numbered in the order of the text, from 1. -/
def blockLabel (f : Func) (w : List Dir) : List Nat :=
  spelling 32 f.name ++ 32 :: (fmtNat 10 ((blocks f.body).idxOf w + 1)).map UInt8.toNat

/-- Specification: a function with a mark at the beginning of its body and of each of its blocks. -/
def markedFunc (f : Func) : Func :=
  { f with body := .seq (mark (spelling 32 f.name)) (insertAt (fun w => mark (blockLabel f w)) [] f.body) }

/-- Specification: `func mark(s string) { log.Println(s) }` -/
def markFunc : Func where
  recv := 0
  recvName := 0
  name := id! "mark"
  params := [(id! "s", .name (id! "string"))]
  results := []
  body := .expr (.call (.sel (.name (id! "log")) (id! "Println")) (.cons (.name (id! "s")) .nil))

/-- Specification: the program with marks. -/
def marked (ds : List Decl) : List Decl :=
  .func markFunc :: ds.map fun d =>
    match d with
    | .func f => .func (markedFunc f)
    | d => d

/-- Specification: a state without the lines logged. -/
def Quieted (st : State) : State := { st with log := [] }

/-- Specification: two ends of a call that are the same but for the lines logged. -/
def SameButLog {α : Type} : Out α → Out α → Prop
  | .ok a st, .ok b st' => a = b ∧ Quieted st = Quieted st'
  | .panic p st, .panic q st' => p = q ∧ Quieted st = Quieted st'
  | .stuck, .stuck => True
  | _, _ => False

end Spec

open Spec

/-! ## Marks do not matter -/

/-- `y` does what `x` does but for the lines logged, unless `x` gets stuck. -/
def LeLog {α : Type} (x y : M α) : Prop :=
  ∀ st st', Quieted st = Quieted st' → x st = .stuck ∨ SameButLog (x st) (y st')

section
variable {α β : Type}

theorem LeLog.stuck (y : M α) : LeLog Source.stuck y := fun _ _ _ => .inl rfl

theorem LeLog.pure (a : α) : LeLog (pure a) (pure a) := fun _ _ h => .inr ⟨rfl, h⟩

theorem LeLog.panic (p : GoPanic) : LeLog (panic p : M α) (panic p) := fun _ _ h => .inr ⟨rfl, h⟩

theorem LeLog.bind {x y : M α} {f g : α → M β} (h : LeLog x y) (hf : ∀ a, LeLog (f a) (g a)) : LeLog (x >>= f) (y >>= g) := by
  intro st st' hs
  show (x st).andThen f = .stuck ∨ SameButLog ((x st).andThen f) ((y st').andThen g)
  rcases h st st' hs with e | e
  · rw [e]; exact .inl rfl
  · revert e
    cases x st <;> cases y st' <;> intro e
    case ok.ok a s b s' =>
      obtain ⟨rfl, e⟩ := e
      exact hf a s s' e
    case panic.panic => exact .inr e
    case stuck.stuck => exact .inl rfl
    all_goals exact e.elim

theorem LeLog.onHeap (m : HM α) : LeLog (onHeap m) (onHeap m) := by
  intro st st' h
  right
  have hh : st.heap = st'.heap := (congrArg State.heap h : (Quieted st).heap = _)
  unfold Source.onHeap
  rw [← hh]
  obtain ⟨h1, h2, h3, h4, h5⟩ := st
  obtain ⟨k1, k2, k3, k4, k5⟩ := st'
  simp only [Quieted, State.mk.injEq] at h
  obtain ⟨rfl, rfl, rfl, -, rfl⟩ := h
  rcases m h1 with ⟨a | e | p, q⟩
  · exact ⟨rfl, rfl⟩
  · trivial
  · exact ⟨rfl, rfl⟩

/-- Something that does not look at the lines logged. -/
theorem LeLog.of {x : M α} (hf : ∀ st l, SameButLog (x { st with log := l }) (x st)) : LeLog x x := by
  intro st st' h
  right
  have e : st = { st' with log := st.log } := by
    obtain ⟨h1, h2, h3, h4, h5⟩ := st
    obtain ⟨k1, k2, k3, k4, k5⟩ := st'
    simp only [Quieted, State.mk.injEq] at h
    obtain ⟨rfl, rfl, rfl, -, rfl⟩ := h
    rfl
  rw [e]
  exact hf st' st.log

theorem LeLog.ite {c : Prop} [Decidable c] {x y : M α} (hx : LeLog x x) (hy : LeLog y y) :
    LeLog (if c then x else y) (if c then x else y) := by
  split
  · exact hx
  · exact hy

end

/-- Proves `LeLog x x` for the functions of Verif/Source/Value.lean. -/
macro "le_log" : tactic => `(tactic| repeat' first
  | exact LeLog.stuck _
  | exact LeLog.pure _
  | exact LeLog.panic _
  | exact LeLog.onHeap _
  | assumption
  | with_reducible refine LeLog.bind ?_ fun _ => ?_
  | split)

theorem ofRes_log {α : Type} (r : Res α) : LeLog (ofRes r) (ofRes r) := by
  refine .of fun st l => ?_
  cases r <;> first | exact ⟨rfl, rfl⟩ | trivial

theorem withError_log {α : Type} (r : Res α) (f : α → Value) : LeLog (withError r f) (withError r f) := by
  refine .of fun st l => ?_
  cases r <;> exact ⟨rfl, rfl⟩

theorem one_log (vs : List Value) : LeLog (one vs) (one vs) := by unfold one; le_log

theorem known_log {α : Type} (o : Option α) : LeLog (known o) (known o) := by unfold known; le_log

theorem indexValue_log (v i : Value) : LeLog (indexValue v i) (indexValue v i) := by
  unfold indexValue
  split
  · exact (ofRes_log _).bind fun _ => .pure _
  · exact (ofRes_log _).bind fun _ => .pure _
  · exact .stuck _

theorem sliceValue_log (v lo hi : Value) : LeLog (sliceValue v lo hi) (sliceValue v lo hi) := by
  unfold sliceValue
  split
  · exact (ofRes_log _).bind fun _ => .pure _
  · exact .stuck _

theorem field_log (v : Value) (f : Nat) : LeLog (field v f) (field v f) := by
  unfold field
  split <;> first
    | exact known_log _
    | exact .stuck _
    | exact (LeLog.onHeap _).bind fun _ => known_log _
    | (split <;> first | exact .pure _ | exact .stuck _)

theorem setField_log (u : Value) (f : Nat) (v : Value) : LeLog (setField u f v) (setField u f v) := by
  unfold setField setPriv setPub setCurve setBase updCurve; le_log

theorem zero_log (t : Expr) : LeLog (zero t) (zero t) := by unfold zero; le_log

theorem composite_log (t : Expr) (ks : List Nat) (vs : List Value) : LeLog (composite t ks vs) (composite t ks vs) := by
  unfold composite
  split
  · split
    · rcases given (id! "PrivKeyPrefix") ks vs with _ | a
      · exact .stuck _
      cases a <;> try exact .stuck _
      rcases given (id! "PubKeyHashPrefix") ks vs with _ | b
      · exact .stuck _
      cases b <;> try exact .stuck _
      exact .of fun _ _ => ⟨rfl, rfl⟩
    · le_log
  · le_log
  · exact .stuck _

theorem bigMethod_log (z : Ptr) (m : Nat) (args : List Value) : LeLog (bigMethod z m args) (bigMethod z m args) := by
  unfold bigMethod; le_log

theorem hashMethod_log (H : Hashes) (a m : Nat) (args : List Value) : LeLog (hashMethod H a m args) (hashMethod H a m args) := by
  unfold hashMethod
  split
  · split
    · exact (LeLog.of fun _ _ => ⟨rfl, rfl⟩ : LeLog (writeHash a _) (writeHash a _)).bind fun _ => .pure _
    · exact .stuck _
  · split
    · refine (LeLog.of fun st l => ?_ : LeLog (readHash a) (readHash a)).bind fun _ => .pure _
      unfold readHash
      dsimp only
      split
      · exact ⟨rfl, rfl⟩
      · trivial
    · exact .stuck _
  · exact .stuck _

theorem curveMethod_log (E : EcdsaM) (m : Nat) (args : List Value) : LeLog (curveMethod E m args) (curveMethod E m args) := by
  unfold curveMethod; le_log

theorem drawBig_log (m : Nat) : LeLog (drawBig m) (drawBig m) := by
  refine .of fun st l => ?_
  unfold drawBig
  dsimp only
  split <;> exact ⟨rfl, rfl⟩

theorem sprintf_log (f : GoString) (v : Value) : LeLog (sprintf f v) (sprintf f v) := by
  unfold sprintf
  split
  · exact .stuck _
  · cases v <;> first | exact .stuck _ | exact .pure _ | exact .of fun _ _ => ⟨rfl, rfl⟩

theorem println_log (vs : List Value) : LeLog (println vs) (println vs) := by
  unfold println
  split
  · exact .of fun _ _ => ⟨rfl, rfl⟩
  · exact .stuck _

theorem newHash_log (b : Bool) : LeLog (newHash b) (newHash b) := .of fun _ _ => ⟨rfl, rfl⟩

theorem external_log (H : Hashes) (p f : Nat) (args : List Value) : LeLog (external H p f args) (external H p f args) := by
  unfold external randBig newError deepEqual
  repeat' first
    | exact LeLog.stuck _
    | exact LeLog.pure _
    | exact LeLog.onHeap _
    | exact withError_log _ _
    | exact println_log _
    | exact sprintf_log _ _
    | exact drawBig_log _
    | exact newHash_log _
    | with_reducible refine LeLog.bind ?_ fun _ => ?_
    | with_reducible refine LeLog.ite ?_ ?_
    | split

theorem builtin_log {f : Nat} {args : List Value} {m : M (List Value)} (h : builtin f args = some m) : LeLog m m := by
  unfold builtin at h
  repeat' split at h
  all_goals first
    | (cases h; done)
    | (obtain rfl := Option.some.inj h; le_log)

theorem global_log (x : Nat) : LeLog (global x) (global x) := by
  unfold global
  refine .ite (.pure _) (.ite (.pure _) (.ite (.pure _) (.ite (.pure _) (.ite (.pure _) (.of fun st l => ?_)))))
  dsimp only
  split
  · exact ⟨rfl, rfl⟩
  · trivial

theorem named_log (x : Nat) (env : Env) : LeLog (named x env) (named x env) := by
  unfold named
  split
  · exact .pure _
  · exact global_log x

theorem newOf_log (e : Expr) : LeLog (newOf e) (newOf e) := by unfold newOf; le_log

theorem setGlobal_log (x : Nat) (v : Value) : LeLog (setGlobal x v) (setGlobal x v) := by
  refine .of fun st l => ?_
  unfold setGlobal
  dsimp only
  split
  · exact ⟨rfl, rfl⟩
  · trivial

theorem storeOne_log (p : Source.Place) (v : Value) (env : Env) : LeLog (storeOne p v env) (storeOne p v env) := by
  unfold storeOne
  split
  · exact .pure _
  · split
    · exact .pure _
    · exact (setGlobal_log _ _).bind fun _ => .pure _
  · exact (setField_log _ _ _).bind fun _ => .pure _

theorem storeAll_log : ∀ (ps : List Source.Place) (vs : List Value) (env : Env), LeLog (storeAll ps vs env) (storeAll ps vs env)
  | [], [], _ => .pure _
  | p :: ps, v :: vs, env => (storeOne_log p v env).bind fun env' => storeAll_log ps vs env'
  | [], _ :: _, _ => .stuck _
  | _ :: _, [], _ => .stuck _

/-- The functions of the repository do the same but for the lines logged. -/
def CallsLog (f g : Nat → Nat → List Value → M (List Value)) : Prop := ∀ r x args, LeLog (f r x args) (g r x args)

section
variable {H : Hashes} {E : EcdsaM} {f g : Nat → Nat → List Value → M (List Value)} (h : CallsLog f g)
include h

theorem callName_log (x : Nat) (args : List Value) : LeLog (callName ⟨H, E, f⟩ x args) (callName ⟨H, E, g⟩ x args) := by
  unfold callName
  cases hb : builtin x args with
  | some m => exact builtin_log hb
  | none => exact h _ _ _

theorem callMethod_log (v : Value) (m : Nat) (args : List Value) :
    LeLog (callMethod ⟨H, E, f⟩ v m args) (callMethod ⟨H, E, g⟩ v m args) := by
  cases v <;> first
    | exact .stuck _
    | exact h _ _ _
    | exact external_log _ _ _ _
    | exact bigMethod_log _ _ _
    | exact hashMethod_log _ _ _ _
    | exact curveMethod_log _ _ _

omit h in
theorem combine_log {op : Nat} {a : Value} {x y : M Value} (hx : LeLog x y) : LeLog (Source.combine op a x) (Source.combine op a y) := by
  unfold Source.combine
  by_cases ho : op = id! "||"
  · rw [if_pos ho, if_pos ho]
    cases a <;> try exact .stuck _
    rename_i b
    cases b
    · exact hx
    · exact .pure _
  · rw [if_neg ho, if_neg ho]
    exact hx.bind fun _ => known_log _

/-- `eval` on `e` and on the operand of `e`. -/
theorem eval_log' (e : Expr) : (∀ env, LeLog (eval ⟨H, E, f⟩ e env) (eval ⟨H, E, g⟩ e env)) ∧
    ∀ d m, e = .sel d m → ∀ env, LeLog (eval ⟨H, E, f⟩ d env) (eval ⟨H, E, g⟩ d env) := by
  induction e with
  | name x => exact ⟨fun env => (named_log x env).bind fun _ => .pure _, fun d m e => by cases e⟩
  | num n => exact ⟨fun env => .pure _, fun d m e => by cases e⟩
  | str s => exact ⟨fun env => .pure _, fun d m e => by cases e⟩
  | nil => exact ⟨fun env => .pure _, fun d m e => by cases e⟩
  | sliceOf t => exact ⟨fun env => .stuck _, fun d m e => by cases e⟩
  | sel e f ih =>
    refine ⟨fun env => (ih.1 env).bind fun _ => (one_log _).bind fun _ => (field_log _ _).bind fun _ => .pure _, fun d m e env => ?_⟩
    injection e with e1 _
    subst e1
    exact ih.1 env
  | call k args ihk ih =>
    refine ⟨fun env => ?_, fun d m e => by cases e⟩
    cases k with
    | name x =>
      simp only [eval]
      by_cases hx : x = id! "new"
      · rw [if_pos hx, if_pos hx]
        exact newOf_log args
      · rw [if_neg hx, if_neg hx]
        exact (ih.1 env).bind fun _ => callName_log h _ _
    | sel d m =>
      simp only [eval]
      exact (ihk.2 d m rfl env).bind fun _ => (one_log _).bind fun _ => (ih.1 env).bind fun _ => callMethod_log h _ _ _
    | _ => exact .stuck _
  | index e i ih ihi =>
    exact ⟨fun env => (ih.1 env).bind fun _ => (one_log _).bind fun _ => (ihi.1 env).bind fun _ => (one_log _).bind fun _ =>
      (indexValue_log _ _).bind fun _ => .pure _, fun d m e => by cases e⟩
  | slice e lo hi ih ihl ihh =>
    exact ⟨fun env => (ih.1 env).bind fun _ => (one_log _).bind fun _ => (ihl.1 env).bind fun _ => (one_log _).bind fun _ =>
      (ihh.1 env).bind fun _ => (one_log _).bind fun _ => (sliceValue_log _ _ _).bind fun _ => .pure _, fun d m e => by cases e⟩
  | un op e ih =>
    exact ⟨fun env => (ih.1 env).bind fun _ => (one_log _).bind fun _ => (known_log _).bind fun _ => .pure _,
      fun d m e => by cases e⟩
  | bin op a b iha ihb =>
    exact ⟨fun env => (iha.1 env).bind fun _ => (one_log _).bind fun _ =>
      (combine_log ((ihb.1 env).bind fun _ => one_log _)).bind fun _ => .pure _, fun d m e => by cases e⟩
  | lit t fs iht ih =>
    exact ⟨fun env => (ih.1 env).bind fun _ => (composite_log _ _ _).bind fun _ => .pure _, fun d m e => by cases e⟩
  | kv k e ih => exact ⟨ih.1, fun d m e => by cases e⟩
  | cons e es ih ihs =>
    exact ⟨fun env => (ih.1 env).bind fun _ => (ihs.1 env).bind fun _ => .pure _, fun d m e => by cases e⟩

theorem eval_log (e : Expr) (env : Env) : LeLog (eval ⟨H, E, f⟩ e env) (eval ⟨H, E, g⟩ e env) := (eval_log' h e).1 env

theorem places_log (l : Expr) (env : Env) : LeLog (Source.places ⟨H, E, f⟩ l env) (Source.places ⟨H, E, g⟩ l env) := by
  induction l with
  | cons e l _ ih =>
    cases e with
    | name x => exact ih.bind fun _ => .pure _
    | sel e m => exact (eval_log h e env).bind fun _ => (one_log _).bind fun _ => ih.bind fun _ => .pure _
    | _ => exact .stuck _
  | nil => exact .pure _
  | _ => exact .stuck _

theorem assignment_log (l r : Expr) (env : Env) : LeLog (assignment ⟨H, E, f⟩ l r env) (assignment ⟨H, E, g⟩ l r env) :=
  (places_log h l env).bind fun _ => (eval_log h r env).bind fun _ => (storeAll_log _ _ _).bind fun _ => .pure _

omit h in
theorem follow_log {c : Ctl} {x y : Env → M Ctl} (hx : ∀ env, LeLog (x env) (y env)) : LeLog (follow c x) (follow c y) := by
  cases c <;> first | exact hx _ | exact .pure _

omit h in
theorem again_log {c : Ctl} {x y : Env → M Ctl} (hx : ∀ env, LeLog (x env) (y env)) : LeLog (again c x) (again c y) := by
  cases c <;> first | exact hx _ | exact .pure _

omit h in
theorem choose_log {vs : List Value} {x y x' y' : M Ctl} (hx : LeLog x x') (hy : LeLog y y') :
    LeLog (choose vs x y) (choose vs x' y') := by
  unfold choose
  rcases vs with _ | ⟨v, _ | ⟨_, _⟩⟩ <;> try exact .stuck _
  · cases v <;> try exact .stuck _
    rename_i b
    cases b
    · exact hy
    · exact hx
  · cases v <;> try exact .stuck _
    rename_i b
    cases b <;> exact .stuck _

omit h in
theorem rounds_log {c c' : Env → M (List Value)} {b b' p p' : Env → M Ctl} (hc : ∀ env, LeLog (c env) (c' env))
    (hb : ∀ env, LeLog (b env) (b' env)) (hp : ∀ env, LeLog (p env) (p' env)) {n m : Nat} (hn : n ≤ m) (env : Env) :
    LeLog (rounds c b p n env) (rounds c' b' p' m env) := by
  induction n generalizing m env with
  | zero => exact .stuck _
  | succ n ih =>
    obtain ⟨m, rfl⟩ : ∃ k, m = k + 1 := ⟨m - 1, by omega⟩
    exact (hc env).bind fun _ => choose_log ((hb env).bind fun _ => again_log fun env => (hp env).bind fun _ =>
      follow_log fun env => ih (by omega) env) (.pure _)

omit h in
theorem ranging_log {b b' : Env → M Ctl} (hb : ∀ env, LeLog (b env) (b' env)) (k v : Nat) (env : Env) (i : Nat)
    (ws : List GoString) : LeLog (ranging b k v env i ws) (ranging b' k v env i ws) := by
  induction ws generalizing i env with
  | nil => exact .pure _
  | cons w ws ih => exact (hb _).bind fun _ => again_log fun env => ih env (i + 1)

/-- A statement and the same with additional statements that only log. -/
theorem exec_log {n m : Nat} (hn : n ≤ m) (φ : List Dir → Stmt)
    (hφ : ∀ w env, LeLog (exec ⟨H, E, f⟩ n .skip env) (exec ⟨H, E, g⟩ m (φ w) env)) (s : Stmt) : ∀ (w : List Dir) (env : Env),
    LeLog (exec ⟨H, E, f⟩ n s env) (exec ⟨H, E, g⟩ m (insertAt φ w s) env) := by
  have plain : ∀ s env, LeLog (exec ⟨H, E, f⟩ n s env) (exec ⟨H, E, g⟩ m s env) := by
    intro s
    induction s with
    | skip => exact fun env => .pure _
    | brk => exact fun env => .pure _
    | var x t => exact fun env => (zero_log t).bind fun _ => .pure _
    | seq a b iha ihb => exact fun env => (iha env).bind fun _ => follow_log fun env => ihb env
    | block s ih => exact fun env => (ih _).bind fun _ => .pure _
    | define l r => exact fun env => (eval_log h r env).bind fun _ => (known_log _).bind fun _ => .pure _
    | assign l r => exact assignment_log h l r
    | addAssign l r => exact assignment_log h _ _
    | inc l => exact assignment_log h _ _
    | expr e => exact fun env => (eval_log h e env).bind fun _ => .pure _
    | ret e => exact fun env => (eval_log h e env).bind fun _ => .pure _
    | ite c t e iht ihe => exact fun env => (eval_log h c env).bind fun _ => choose_log (iht env) (ihe env)
    | loop i c p b ihi ihp ihb =>
      exact fun env => (ihi _).bind fun _ => (follow_log fun env => rounds_log (eval_log h c) ihb ihp hn env).bind fun _ => .pure _
    | range k v e b ih =>
      refine fun env => (eval_log h e env).bind fun vs => ?_
      rcases vs with _ | ⟨v, _ | ⟨_, _⟩⟩
      · exact .stuck _
      · cases v <;> first | exact .stuck _ | exact ranging_log ih _ _ env 0 _
      · cases v <;> exact .stuck _
    | switch s ih => exact fun env => (ih env).bind fun _ => again_log fun _ => .pure _
  induction s with
  | seq a b iha ihb => exact fun w env => (iha _ env).bind fun _ => follow_log fun env => ihb _ env
  | block s ih =>
    intro w env
    refine LeLog.bind (x := exec ⟨H, E, f⟩ n s ([] :: env)) ?_ fun _ => .pure _
    exact (hφ w ([] :: env)).bind (f := fun r => follow r fun env => exec ⟨H, E, f⟩ n s env) fun _ => follow_log fun env => ih _ env
  | ite c t e iht ihe => exact fun w env => (eval_log h c env).bind fun _ => choose_log (iht _ env) (ihe _ env)
  | loop i c p b ihi ihp ihb =>
    exact fun w env => (plain i _).bind fun _ => (follow_log fun env => rounds_log (eval_log h c) (ihb _) (plain p) hn env).bind
      fun _ => .pure _
  | range k v e b ih =>
    refine fun w env => (eval_log h e env).bind fun vs => ?_
    rcases vs with _ | ⟨v, _ | ⟨_, _⟩⟩
    · exact .stuck _
    · cases v <;> first | exact .stuck _ | exact ranging_log (ih _) _ _ env 0 _
    · cases v <;> exact .stuck _
  | switch s ih => exact fun w env => (ih _ env).bind fun _ => again_log fun _ => .pure _
  | _ => exact fun w env => plain _ env

end

/-- The function `mark` in a marked program. -/
theorem run_mark (H : Hashes) (E : EcdsaM) (ds : List Decl) (n : Nat) (s : GoString) (st : State) :
    runFunc H E (marked ds) (n + 1) 0 (id! "mark") [.str s] st = .ok [] { st with log := st.log ++ [s] } := rfl

/-- The statement `mark("s")` in a marked program. -/
theorem exec_mark (H : Hashes) (E : EcdsaM) (ds : List Decl) (n k : Nat) (s : List Nat) (env : Env) (st : State) :
    exec ⟨H, E, runFunc H E (marked ds) (n + 1)⟩ k (mark s) env st = .ok (.next env) { st with log := st.log ++ [utf8 s] } := rfl

theorem findFunc_marked {ds : List Decl} {recv name : Nat} (hn : ¬ (0 = recv ∧ id! "mark" = name)) :
    findFunc recv name (marked ds) = (findFunc recv name ds).map markedFunc := by
  have h1 : findFunc recv name (marked ds) = findFunc recv name (ds.map fun d =>
      match d with
      | .func f => .func (markedFunc f)
      | d => d) := by
    unfold marked
    rw [findFunc]
    exact if_neg hn
  rw [h1]
  clear h1 hn
  induction ds with
  | nil => rfl
  | cons d ds ih =>
    cases d with
    | func f =>
      rw [List.map_cons, findFunc, findFunc, ih]
      have e1 : (markedFunc f).recv = f.recv := rfl
      have e2 : (markedFunc f).name = f.name := rfl
      rw [e1, e2]
      split <;> rfl
    | _ => exact ih

/-- The marked program does what the program does, but for the lines logged. -/
theorem runFunc_marked (H : Hashes) (E : EcdsaM) (ds : List Decl) (hm : findFunc 0 (id! "mark") ds = none) :
    ∀ n, CallsLog (runFunc H E ds n) (runFunc H E (marked ds) (n + 1))
  | 0 => fun _ _ _ => .stuck _
  | n + 1 => by
    intro recv name args
    have ih := runFunc_marked H E ds hm n
    unfold runFunc
    cases hf : findFunc recv name ds with
    | none => exact .stuck _
    | some f =>
      rw [findFunc_marked (by rintro ⟨rfl, rfl⟩; rw [hm] at hf; cases hf), hf]
      simp only [Option.map_some]
      have hs : (markedFunc f).start args = f.start args := rfl
      rw [hs]
      cases f.start args with
      | none => exact .stuck _
      | some env =>
        have hk : ∀ s env, LeLog (exec ⟨H, E, runFunc H E ds n⟩ n .skip env)
            (exec ⟨H, E, runFunc H E (marked ds) (n + 1)⟩ (n + 1) (mark s) env) := by
          intro s env st st' he
          right
          rw [exec_mark]
          exact ⟨rfl, he⟩
        refine LeLog.bind (x := exec ⟨H, E, runFunc H E ds n⟩ n f.body env) ?_ fun c => ?_
        · exact (hk (spelling 32 f.name) env).bind (f := fun r => follow r fun env => exec ⟨H, E, runFunc H E ds n⟩ n f.body env)
            fun _ => follow_log fun env => exec_log ih (by omega) _ (fun w env => hk _ env) f.body [] env
        · unfold Func.finish
          cases c with
          | ret vs => exact known_log _
          | next env => exact .ite (.pure _) (.stuck _)
          | brk env => exact .stuck _

theorem no_mark : findFunc 0 (id! "mark") program = none := by decide +kernel

/-- C117: a call of the marked text ends as the same call of the text ends, but for the lines logged. -/
theorem C117_faithful (H : Hashes) (E : EcdsaM) (r : Request) (st : State) (o : Out (List Value)) (h : r.Ends H E st o) :
    ∃ o', Source.Ends H E (marked program) r.recv r.name r.args st o' ∧ SameButLog o o' := by
  obtain ⟨ho, n, hn⟩ := h
  have e := hn n (Nat.le_refl n)
  rcases runFunc_marked H E program no_mark n r.recv r.name r.args st st rfl with hs | hs
  · exact (ho (e.symm.trans hs)).elim
  · rw [e] at hs
    refine ⟨_, Ends.of (n := n + 1) rfl ?_, hs⟩
    intro hz
    rw [hz] at hs
    cases o with
    | stuck => exact ho rfl
    | ok => exact hs
    | panic => exact hs

/-! ## The lines of the calls -/

section
variable (H : Hashes) (E : EcdsaM)

@[go_exec] theorem label_bigIntToHex : utf8 [98, 105, 103, 73, 110, 116, 84, 111, 72, 101, 120] = asc "bigIntToHex" := by decide +kernel
@[go_exec] theorem label_generateRandomBigInt : utf8 [103, 101, 110, 101, 114, 97, 116, 101, 82, 97, 110, 100, 111, 109, 66, 105, 103, 73, 110, 116] = asc "generateRandomBigInt" := by decide +kernel
@[go_exec] theorem label_CheckWIF : utf8 [67, 104, 101, 99, 107, 87, 73, 70] = asc "CheckWIF" := by decide +kernel
@[go_exec] theorem label_PrivateFromWIF : utf8 [80, 114, 105, 118, 97, 116, 101, 70, 114, 111, 109, 87, 73, 70] = asc "PrivateFromWIF" := by decide +kernel
@[go_exec] theorem label_PrivateFromHex : utf8 [80, 114, 105, 118, 97, 116, 101, 70, 114, 111, 109, 72, 101, 120] = asc "PrivateFromHex" := by decide +kernel
@[go_exec] theorem label_GeneratePrivateKey : utf8 [71, 101, 110, 101, 114, 97, 116, 101, 80, 114, 105, 118, 97, 116, 101, 75, 101, 121] = asc "GeneratePrivateKey" := by decide +kernel
@[go_exec] theorem label_GeneratePrivateKey_1 : utf8 [71, 101, 110, 101, 114, 97, 116, 101, 80, 114, 105, 118, 97, 116, 101, 75, 101, 121, 32, 49] = asc "GeneratePrivateKey 1" := by decide +kernel
@[go_exec] theorem label_GeneratePrivateKey_2 : utf8 [71, 101, 110, 101, 114, 97, 116, 101, 80, 114, 105, 118, 97, 116, 101, 75, 101, 121, 32, 50] = asc "GeneratePrivateKey 2" := by decide +kernel
@[go_exec] theorem label_AddPrivateKeys : utf8 [65, 100, 100, 80, 114, 105, 118, 97, 116, 101, 75, 101, 121, 115] = asc "AddPrivateKeys" := by decide +kernel
@[go_exec] theorem label_MultiplyPrivateKeys : utf8 [77, 117, 108, 116, 105, 112, 108, 121, 80, 114, 105, 118, 97, 116, 101, 75, 101, 121, 115] = asc "MultiplyPrivateKeys" := by decide +kernel
@[go_exec] theorem label_GetPublicKey : utf8 [71, 101, 116, 80, 117, 98, 108, 105, 99, 75, 101, 121] = asc "GetPublicKey" := by decide +kernel
@[go_exec] theorem label_Format : utf8 [70, 111, 114, 109, 97, 116] = asc "Format" := by decide +kernel
@[go_exec] theorem label_Format_1 : utf8 [70, 111, 114, 109, 97, 116, 32, 49] = asc "Format 1" := by decide +kernel
@[go_exec] theorem label_Format_2 : utf8 [70, 111, 114, 109, 97, 116, 32, 50] = asc "Format 2" := by decide +kernel
@[go_exec] theorem label_Format_3 : utf8 [70, 111, 114, 109, 97, 116, 32, 51] = asc "Format 3" := by decide +kernel
@[go_exec] theorem label_Format_4 : utf8 [70, 111, 114, 109, 97, 116, 32, 52] = asc "Format 4" := by decide +kernel
@[go_exec] theorem label_Format_5 : utf8 [70, 111, 114, 109, 97, 116, 32, 53] = asc "Format 5" := by decide +kernel
@[go_exec] theorem label_Format_6 : utf8 [70, 111, 114, 109, 97, 116, 32, 54] = asc "Format 6" := by decide +kernel
@[go_exec] theorem label_Address : utf8 [65, 100, 100, 114, 101, 115, 115] = asc "Address" := by decide +kernel
@[go_exec] theorem label_AddPublicKeys : utf8 [65, 100, 100, 80, 117, 98, 108, 105, 99, 75, 101, 121, 115] = asc "AddPublicKeys" := by decide +kernel

/-- `go_run` in a marked program. -/
macro "mark_run" : tactic => `(tactic| go_run [run_mark])
@[inherit_doc tacticMark_run]
macro "mark_run" " [" ls:Lean.Parser.Tactic.simpLemma,* "]" : tactic => `(tactic| go_run [run_mark, $ls,*])

/-- Compares the lines logged. -/
macro "lines" : tactic => `(tactic| first | rfl | simp only [List.append_assoc, List.cons_append, List.nil_append])

/-- The end of a run of a marked program. -/
macro "mark_end" : tactic => `(tactic| (refine ⟨_, _, rfl, ?_⟩; intro _ _ e; first | (cases e; done) | lines))


/-- `CheckWIF` with marks. -/
def mCheckWIF : Func := value_of% markedFunc fCheckWIF

theorem find_mCheckWIF : findFunc 0 (id! "CheckWIF") (marked program) = some mCheckWIF := by decide +kernel

/-- `PrivateFromHex` with marks. -/
def mPrivateFromHex : Func := value_of% markedFunc fPrivateFromHex

theorem find_mPrivateFromHex : findFunc 0 (id! "PrivateFromHex") (marked program) = some mPrivateFromHex := by decide +kernel


/-- `bigIntToHex` with marks. -/
def mBigIntToHex : Func := value_of% markedFunc fBigIntToHex

theorem find_mBigIntToHex : findFunc 0 (id! "bigIntToHex") (marked program) = some mBigIntToHex := by decide +kernel

/-- `generateRandomBigInt` with marks. -/
def mGenerateRandomBigInt : Func := value_of% markedFunc fGenerateRandomBigInt

theorem find_mGenerateRandomBigInt : findFunc 0 (id! "generateRandomBigInt") (marked program) = some mGenerateRandomBigInt := by decide +kernel

/-- `PrivateFromWIF` with marks. -/
def mPrivateFromWIF : Func := value_of% markedFunc fPrivateFromWIF

theorem find_mPrivateFromWIF : findFunc 0 (id! "PrivateFromWIF") (marked program) = some mPrivateFromWIF := by decide +kernel

/-- `GeneratePrivateKey` with marks. -/
def mGeneratePrivateKey : Func := value_of% markedFunc fGeneratePrivateKey

theorem find_mGeneratePrivateKey : findFunc 0 (id! "GeneratePrivateKey") (marked program) = some mGeneratePrivateKey := by decide +kernel

/-- `AddPrivateKeys` with marks. -/
def mAddPrivateKeys : Func := value_of% markedFunc fAddPrivateKeys

theorem find_mAddPrivateKeys : findFunc 0 (id! "AddPrivateKeys") (marked program) = some mAddPrivateKeys := by decide +kernel

/-- `MultiplyPrivateKeys` with marks. -/
def mMultiplyPrivateKeys : Func := value_of% markedFunc fMultiplyPrivateKeys

theorem find_mMultiplyPrivateKeys : findFunc 0 (id! "MultiplyPrivateKeys") (marked program) = some mMultiplyPrivateKeys := by decide +kernel

/-- `GetPublicKey` with marks. -/
def mGetPublicKey : Func := value_of% markedFunc fGetPublicKey

theorem find_mGetPublicKey : findFunc (id! "PrivateKey") (id! "GetPublicKey") (marked program) = some mGetPublicKey := by decide +kernel

/-- `Format` with marks. -/
def mFormat : Func := value_of% markedFunc fFormat

theorem find_mFormat : findFunc (id! "PublicKey") (id! "Format") (marked program) = some mFormat := by decide +kernel

/-- `Address` with marks. -/
def mAddress : Func := value_of% markedFunc fAddress

theorem find_mAddress : findFunc (id! "PublicKey") (id! "Address") (marked program) = some mAddress := by decide +kernel

/-- `AddPublicKeys` with marks. -/
def mAddPublicKeys : Func := value_of% markedFunc fAddPublicKeys

theorem find_mAddPublicKeys : findFunc 0 (id! "AddPublicKeys") (marked program) = some mAddPublicKeys := by decide +kernel
/-- The same, and the number of lines. -/
macro "mark_end'" : tactic => `(tactic| (refine ⟨_, _, rfl, by simp only [List.length_append, List.length_cons, List.length_nil]; omega, ?_⟩; intro _ _ e; first | (cases e; done) | lines))

theorem mark_CheckWIF (n : Nat) (wif : GoString) (st : State) : ∃ hs l,
    runFunc H E (marked program) (n + 2) 0 (id! "CheckWIF") [.str wif] st =
      (match checkWIF H wif with
      | .ok b => .ok [.bool b] { st with hashes := hs, log := l }
      | .err _ => .stuck
      | .panic p => .panic p { st with hashes := hs, log := l }) ∧
    ∀ b, base58Decode wif = .ok b → 4 ≤ b.length → l = st.log ++ [asc "CheckWIF"] := by
  rw [runFunc_succ H E find_mCheckWIF _ rfl]
  unfold mCheckWIF checkWIF
  mark_run
  cases hb : base58Decode wif with
  | err e => mark_run; exact ⟨_, _, rfl, by intro b e; cases e⟩
  | panic p => mark_run; exact ⟨_, _, rfl, by intro b e; cases e⟩
  | ok bytes =>
    mark_run
    rcases slice (hexEncode bytes) ((hexEncode bytes).length - 8) (hexEncode bytes).length with c | _ | _
    · mark_run
      rcases hs2 : slice (hexEncode bytes) 0 ((hexEncode bytes).length - 8) with b | _ | _
      · mark_run
        cases hd : hexDecode b with
        | err e =>
          mark_run
          refine ⟨_, _, rfl, fun b' e hl => ?_⟩
          cases e
          exfalso
          obtain ⟨payload, cs, rfl, hc⟩ := split_last4 hl
          have e : ((hexEncode (payload ++ cs)).length : Int) - 8 = ((2 * payload.length : Nat) : Int) := by
            simp [hc]; omega
          rw [e, slice_zero (by simp)] at hs2
          injection hs2 with hs2
          rw [← hs2, hexEncode_take, List.take_left' rfl, hexDecode_hexEncode] at hd
          cases hd
        | panic p => mark_run; exact (hexDecode_ne_panic _ _ hd).elim
        | ok hexBytes =>
          mark_run
          rcases slice (hexEncode (H.sha256 (H.sha256 hexBytes))) 0 8 with d | _ | _
          · mark_run; exact ⟨_, _, rfl, fun _ _ _ => by lines⟩
          · exact ⟨[], _, rfl, fun _ _ _ => rfl⟩
          · exact ⟨_, _, rfl, fun _ _ _ => by lines⟩
      · exact ⟨[], _, rfl, fun _ _ _ => rfl⟩
      · exact ⟨_, _, rfl,  fun _ _ _ => by lines⟩
    · exact ⟨[], _, rfl, fun _ _ _ => rfl⟩
    · exact ⟨_, _, rfl,  fun _ _ _ => by lines⟩

theorem mark_PrivateFromHex (n : Nat) (hexa : GoString) (network : Ptr) (st : State) : ∃ hs l,
    runFunc H E (marked program) (n + 2) 0 (id! "PrivateFromHex") [.str hexa, .net network] st =
      Out.of (fun p => [.priv p, .err none]) (fun e => [.priv none, .err (some e)]) (privateFromHexM H hexa network st.heap)
        { st with hashes := hs, log := l } ∧
    l.length ≤ st.log.length + 3 ∧ ∀ p h, privateFromHexM H hexa network st.heap = (.ok p, h) → l = st.log ++ [asc "PrivateFromHex"] := by
  rw [runFunc_succ H E find_mPrivateFromHex _ rfl]
  unfold mPrivateFromHex privateFromHexM
  mark_run
  rcases network.bind fun a => st.heap.nets[a]? with _ | net
  · mark_run; mark_end'
  mark_run
  rcases hexDecode (net.PrivKeyPrefix ++ hexa) with b | e | p
  · mark_run
    rcases hs : slice (hexEncode (H.sha256 (H.sha256 b))) 0 8 with c | e | p
    · mark_run
      rcases hexDecode (net.PrivKeyPrefix ++ hexa ++ c) with b | e | p
      · mark_run; mark_end'
      · mark_run; mark_end'
      · mark_run; mark_end'
    · exact (Imp.slice_ne_err hs).elim
    · mark_run; mark_end'
  · mark_run; mark_end'
  · mark_run; mark_end'

theorem mark_bigIntToHex (n : Nat) (p : Ptr) (st : State) :
    runFunc H E (marked program) (n + 2) 0 (id! "bigIntToHex") [.big p] st =
      .ok [.str (bigIntToHex (loadInt st.heap p))] { st with log := st.log ++ [asc "bigIntToHex"] } := by
  rw [runFunc_succ H E find_mBigIntToHex _ rfl]
  unfold mBigIntToHex
  mark_run
  rfl

theorem mark_generateRandomBigInt (n : Nat) (st : State) : ∃ l, l.length ≤ st.log.length + 2 ∧
    runFunc H E (marked program) (n + 2) 0 (id! "generateRandomBigInt") [] st =
      (match generateRandomBigIntM generateRandomBigInt st.rd st.heap with
      | (.ok (p, rd), h) => .ok [.big p] { st with heap := h, rd := rd, log := st.log ++ [asc "generateRandomBigInt"] }
      | (.err _, _) => .stuck
      | (.panic p, h) => .panic p { st with heap := h, log := l }) := by
  rw [runFunc_succ H E find_mGenerateRandomBigInt _ rfl]
  unfold mGenerateRandomBigInt generateRandomBigIntM generateRandomBigInt
  mark_run
  rcases hr : randInt st.rd 0xFFFFFFFFFFFFFFFFFFFFFFFFFFFFFFFEBAAEDCE6AF48A03BBFD25E8CD0364140 with ⟨v, rd'⟩ | e | p
  · simp only [drawBig_ok hr]; mark_run; exact ⟨[], Nat.zero_le _⟩
  · simp only [drawBig_err hr]; mark_run; exact ⟨_, by simp only [List.length_append, List.length_cons, List.length_nil]; omega, rfl⟩
  · simp only [drawBig_panic hr]; mark_run; exact ⟨_, by simp only [List.length_append, List.length_cons, List.length_nil]; omega, rfl⟩

theorem mark_PrivateFromWIF (n : Nat) (wif : GoString) (network : Ptr) (st : State) : ∃ hs l,
    runFunc H E (marked program) (n + 3) 0 (id! "PrivateFromWIF") [.str wif, .net network] st =
      Out.of (fun p => [.priv p, .err none]) (fun e => [.priv none, .err (some e)]) (privateFromWIFM H wif network st.heap)
        { st with hashes := hs, log := l } ∧
    ∀ p h, privateFromWIFM H wif network st.heap = (.ok p, h) → l = st.log ++ [asc "PrivateFromWIF", asc "CheckWIF"] := by
  rw [runFunc_succ H E find_mPrivateFromWIF _ rfl]
  unfold mPrivateFromWIF privateFromWIFM
  mark_run
  obtain ⟨hs, l, e, hl⟩ := mark_CheckWIF H E n wif ⟨st.heap, st.hashes, st.rd, st.log ++ [asc "PrivateFromWIF"], st.vars⟩
  rw [e]
  rcases hc : checkWIF H wif with b | e | p
  · cases b with
    | false => mark_run; mark_end
    | true =>
      mark_run
      rcases hb : base58Decode wif with bytes | e | p
      · mark_run
        have h4 : 4 ≤ bytes.length := by
          by_contra h4
          unfold checkWIF at hc
          rw [hb] at hc
          simp only at hc
          rw [slice_panic (by rw [length_hexEncode]; omega)] at hc
          cases hc
        rcases hs1 : slice (hexEncode bytes) 2 (hexEncode bytes).length with a | e | p
        · mark_run
          rcases hs2 : slice a 0 (a.length - 8) with b | e | p
          · mark_run
            refine ⟨_, _, rfl, fun _ _ _ => ?_⟩
            rw [hl bytes hb h4]
            lines
          · exact (Imp.slice_ne_err hs2).elim
          · mark_run; mark_end
        · exact (Imp.slice_ne_err hs1).elim
        · mark_run; mark_end
      · mark_run; mark_end
      · mark_run; mark_end
  · exact (checkWIF_ne_err H wif e hc).elim
  · mark_run; mark_end

theorem mark_AddPrivateKeys (n : Nat) (p1 p2 : Ptr) (st : State) : ∃ hs l,
    runFunc H E (marked program) (n + 3) 0 (id! "AddPrivateKeys") [.priv p1, .priv p2] st =
      Out.of (fun p => [.priv p, .err none]) (fun e => [.priv none, .err (some e)]) (addPrivateKeysM H p1 p2 st.heap)
        { st with hashes := hs, log := l } ∧
    ∀ p h, addPrivateKeysM H p1 p2 st.heap = (.ok p, h) →
      l = st.log ++ [asc "AddPrivateKeys", asc "bigIntToHex", asc "PrivateFromHex"] := by
  rw [runFunc_succ H E find_mAddPrivateKeys _ rfl]
  unfold mAddPrivateKeys addPrivateKeysM
  mark_run
  rcases h1 : p1.bind fun a => st.heap.privs[a]? with _ | o1
  · mark_run; mark_end
  mark_run
  rcases h2 : p2.bind fun a => st.heap.privs[a]? with _ | o2
  · mark_run; mark_end
  mark_run
  by_cases hn : (o1.Network.bind fun a => st.heap.nets[a]?) = o2.Network.bind fun a => st.heap.nets[a]?
  case neg => mark_run [hn]; mark_end
  mark_run [hn, h1, h2]
  by_cases hw : H.toLower o1.WIF = H.toLower o2.WIF
  case pos => mark_run [hw]; mark_end
  mark_run [hw, h1, h2]
  obtain ⟨l, ⟨a, e⟩ | ⟨p, e⟩⟩ := (intOp_add (some st.heap.ints.length) o1.Key o2.Key).cases
    ⟨st.heap.ints ++ [0], st.heap.nets, st.heap.privs, st.heap.pubs, st.heap.curve⟩
  case inr => mark_run [e]; mark_end
  mark_run [e]
  obtain ⟨l, ⟨a, e⟩ | ⟨p, e⟩⟩ := (intOp_mod a a st.heap.curve.N).cases
    ⟨l, st.heap.nets, st.heap.privs, st.heap.pubs, st.heap.curve⟩
  case inr => mark_run [e]; mark_end
  mark_run [e, mark_bigIntToHex, h1]
  obtain ⟨hs, l', e, -, hl⟩ := mark_PrivateFromHex H E n (bigIntToHex (loadInt ⟨l, st.heap.nets, st.heap.privs, st.heap.pubs, st.heap.curve⟩ a))
    o1.Network ⟨⟨l, st.heap.nets, st.heap.privs, st.heap.pubs, st.heap.curve⟩, st.hashes, st.rd,
      st.log ++ [asc "AddPrivateKeys"] ++ [asc "bigIntToHex"], st.vars⟩
  mark_run [e]
  simp only at hl
  revert hl
  rcases privateFromHexM H _ _ _ with ⟨a | e | p, h⟩ <;> intro hl <;> mark_run
  · refine ⟨_, _, rfl, fun _ _ _ => ?_⟩
    rw [hl a h rfl]
    lines
  · mark_end
  · mark_end

theorem mark_MultiplyPrivateKeys (n : Nat) (p1 p2 : Ptr) (st : State) : ∃ hs l,
    runFunc H E (marked program) (n + 3) 0 (id! "MultiplyPrivateKeys") [.priv p1, .priv p2] st =
      Out.of (fun p => [.priv p, .err none]) (fun e => [.priv none, .err (some e)]) (multiplyPrivateKeysM H p1 p2 st.heap)
        { st with hashes := hs, log := l } ∧
    ∀ p h, multiplyPrivateKeysM H p1 p2 st.heap = (.ok p, h) →
      l = st.log ++ [asc "MultiplyPrivateKeys", asc "bigIntToHex", asc "PrivateFromHex"] := by
  rw [runFunc_succ H E find_mMultiplyPrivateKeys _ rfl]
  unfold mMultiplyPrivateKeys multiplyPrivateKeysM
  mark_run
  rcases h1 : p1.bind fun a => st.heap.privs[a]? with _ | o1
  · mark_run; mark_end
  mark_run
  rcases h2 : p2.bind fun a => st.heap.privs[a]? with _ | o2
  · mark_run; mark_end
  mark_run
  by_cases hn : (o1.Network.bind fun a => st.heap.nets[a]?) = o2.Network.bind fun a => st.heap.nets[a]?
  case neg => mark_run [hn]; mark_end
  mark_run [hn, h1, h2]
  by_cases hw : H.toLower o1.WIF = H.toLower o2.WIF
  case pos => mark_run [hw]; mark_end
  mark_run [hw, h1, h2]
  obtain ⟨l, ⟨a, e⟩ | ⟨p, e⟩⟩ := (intOp_mul (some st.heap.ints.length) o1.Key o2.Key).cases
    ⟨st.heap.ints ++ [0], st.heap.nets, st.heap.privs, st.heap.pubs, st.heap.curve⟩
  case inr => mark_run [e]; mark_end
  mark_run [e]
  obtain ⟨l, ⟨a, e⟩ | ⟨p, e⟩⟩ := (intOp_mod a a st.heap.curve.N).cases
    ⟨l, st.heap.nets, st.heap.privs, st.heap.pubs, st.heap.curve⟩
  case inr => mark_run [e]; mark_end
  mark_run [e, mark_bigIntToHex, h1]
  obtain ⟨hs, l', e, -, hl⟩ := mark_PrivateFromHex H E n (bigIntToHex (loadInt ⟨l, st.heap.nets, st.heap.privs, st.heap.pubs, st.heap.curve⟩ a))
    o1.Network ⟨⟨l, st.heap.nets, st.heap.privs, st.heap.pubs, st.heap.curve⟩, st.hashes, st.rd,
      st.log ++ [asc "MultiplyPrivateKeys"] ++ [asc "bigIntToHex"], st.vars⟩
  mark_run [e]
  simp only at hl
  revert hl
  rcases privateFromHexM H _ _ _ with ⟨a | e | p, h⟩ <;> intro hl <;> mark_run
  · refine ⟨_, _, rfl, fun _ _ _ => ?_⟩
    rw [hl a h rfl]
    lines
  · mark_end
  · mark_end

theorem mark_GetPublicKey (hE : E.IntOps) (n : Nat) (p : Ptr) (st : State) : ∃ l,
    runFunc H E (marked program) (n + 2) (id! "PrivateKey") (id! "GetPublicKey") [.priv p] st =
      Out.exact (fun q => [.pub q, .bool q.isSome]) (getPublicKeyM E p st.heap) { st with log := l } ∧
    ∀ q h, getPublicKeyM E p st.heap = (.ok (some q), h) → l = st.log ++ [asc "GetPublicKey"] := by
  rw [runFunc_succ H E find_mGetPublicKey _ rfl]
  unfold mGetPublicKey getPublicKeyM
  mark_run
  rcases h1 : p.bind fun a => st.heap.privs[a]? with _ | o
  · mark_run; exact ⟨_, rfl, by intro _ _ e; cases e⟩
  mark_run
  rcases e : E.scalarMult _ _ _ with ⟨r, h'⟩
  obtain ⟨l, rfl, hne⟩ := (hE.scalarMult _ _).shape e
  clear e
  rcases r with ⟨⟨x, y⟩, b⟩ | e | p
  case err => exact (hne _ rfl).elim
  case panic => mark_run; exact ⟨_, rfl, by intro _ _ e; cases e⟩
  cases b
  · mark_run
    exact ⟨_, rfl, by intro _ _ e; cases e⟩
  mark_run [h1]
  exact ⟨_, rfl, fun _ _ _ => rfl⟩

theorem mark_AddPublicKeys (hE : E.IntOps) (n : Nat) (p1 p2 : Ptr) (c : Bool) (st : State) : ∃ l,
    runFunc H E (marked program) (n + 2) 0 (id! "AddPublicKeys") [.pub p1, .pub p2, .bool c] st =
      Out.of (fun p => [.pub p, .err none]) (fun e => [.pub none, .err (some e)]) (addPublicKeysM E p1 p2 c st.heap)
        { st with log := l } ∧
    ∀ q h, addPublicKeysM E p1 p2 c st.heap = (.ok q, h) → l = st.log ++ [asc "AddPublicKeys"] := by
  rw [runFunc_succ H E find_mAddPublicKeys _ rfl]
  unfold mAddPublicKeys addPublicKeysM
  mark_run
  rcases h1 : p1.bind fun a => st.heap.pubs[a]? with _ | o1
  · mark_run; exact ⟨_, rfl, by intro _ _ e; cases e⟩
  mark_run
  rcases h2 : p2.bind fun a => st.heap.pubs[a]? with _ | o2
  · mark_run; exact ⟨_, rfl, by intro _ _ e; cases e⟩
  mark_run
  by_cases hn : (o1.Network.bind fun a => st.heap.nets[a]?) = o2.Network.bind fun a => st.heap.nets[a]?
  case neg => mark_run [hn]; exact ⟨_, rfl, by intro _ _ e; cases e⟩
  mark_run [hn, h1, h2]
  rcases e : E.addPoints _ _ _ with ⟨r, h'⟩
  obtain ⟨l, rfl, hne⟩ := (hE.addPoints _ _).shape e
  clear e
  rcases r with ⟨⟨x, y⟩, b⟩ | e | p
  case err => exact (hne _ rfl).elim
  case panic => mark_run; exact ⟨_, rfl, by intro _ _ e; cases e⟩
  cases b
  · mark_run
    exact ⟨_, rfl, by intro _ _ e; cases e⟩
  mark_run [h1]
  exact ⟨_, rfl, fun _ _ _ => rfl⟩

/-- The lines of a round of `GeneratePrivateKey` whose number is refused. -/
def refusedLines : List GoString :=
  [asc "GeneratePrivateKey", asc "generateRandomBigInt", asc "bigIntToHex", asc "GeneratePrivateKey 1"]

/-- The lines of the last round of `GeneratePrivateKey`. -/
def takenLines : List GoString :=
  [asc "GeneratePrivateKey", asc "generateRandomBigInt", asc "bigIntToHex", asc "PrivateFromHex"]

theorem drawM_shape (rd : Reader) (h : Heap) :
    (∃ key rd' h' v, generateRandomBigIntM generateRandomBigInt rd h = (.ok (key, rd'), h') ∧ rd'.length < rd.length ∧
      loadInt h' key = some ((v : Nat) : Int) ∧ h'.nets = h.nets) ∨
    ∃ p h', generateRandomBigIntM generateRandomBigInt rd h = (.panic p, h') := by
  unfold generateRandomBigIntM
  rcases generateRandomBigInt_spec rd.length rd (Nat.le_refl _) with ⟨v, rd', e1, _, e3⟩ | e1
  · go_run [e1]
    refine .inl ⟨_, _, _, v, rfl, by omega, ?_, rfl⟩
    simp [loadInt]
  · go_run [e1]; exact .inr ⟨_, _, rfl⟩

theorem privateFromHexM_good {H : Hashes} {network : Ptr} {net : Network} {pre : Bytes} {v : Nat} {h : Heap}
    (hnet : (network.bind fun a => h.nets[a]?) = some net) (hpre : hexDecode net.PrivKeyPrefix = .ok pre)
    (hv : (fmtNat 16 v).length = 64) : ∃ p h', privateFromHexM H (fmtNat 16 v) network h = (.ok (some p), h') := by
  have hd : ∀ c ∈ fmtNat 16 v, Spec.IsHexDigit c := by
    intro c hc
    rw [fmtNat_eq_digits] at hc
    obtain ⟨d, hd, rfl⟩ := List.mem_map.1 hc
    rw [Spec.IsHexDigit, hexVal_digitChar (fmtDigits_lt (by omega) hd)]
    rfl
  obtain ⟨bs, hb⟩ := (exists_spells_iff (fmtNat 16 v)).2 ⟨hd, by rw [hv]⟩
  have hs := (spells_of_hexDecode _ hpre).append hb
  have h2 : hexDecode ((net.PrivKeyPrefix ++ fmtNat 16 v) ++ hexEncode (checksum H.sha256 (pre ++ bs))) =
      .ok ((pre ++ bs) ++ checksum H.sha256 (pre ++ bs)) :=
    hexDecode_of_spells (hs.append (spells_hexEncode _))
  unfold privateFromHexM
  go_run [hnet, hexDecode_of_spells hs, slice_doubleHash, h2]
  exact ⟨_, _, rfl⟩

theorem mark_GeneratePrivateKey (network : Ptr) (fuel : Nat) : ∀ (n : Nat) (st : State), st.rd.length < fuel → fuel < n →
    ∃ hs rd2 l, runFunc H E (marked program) (n + 1) 0 (id! "GeneratePrivateKey") [.net network] st =
      genOut { st with log := l } hs rd2 (generateLoopM H generateRandomBigInt network fuel st.rd st.heap) ∧
    l.length ≤ st.log.length + 7 * fuel ∧ ∀ net pre q h, (network.bind fun a => st.heap.nets[a]?) = some net → hexDecode net.PrivKeyPrefix = .ok pre →
      generateLoopM H generateRandomBigInt network fuel st.rd st.heap = (.ok q, h) →
      ∃ r, l = st.log ++ ((List.replicate r refusedLines).flatten ++ takenLines) := by
  induction fuel with
  | zero => intro n st h; omega
  | succ fuel ih =>
    intro n st hr hn
    obtain ⟨n, rfl⟩ : ∃ m, n = m + 2 := ⟨n - 2, by omega⟩
    rw [runFunc_succ H E find_mGeneratePrivateKey _ rfl]
    unfold mGeneratePrivateKey generateLoopM
    mark_run
    obtain ⟨l0, hb0, e0⟩ := mark_generateRandomBigInt H E n ⟨st.heap, st.hashes, st.rd, st.log ++ [asc "GeneratePrivateKey"], st.vars⟩
    rw [e0]
    rcases drawM_shape st.rd st.heap with ⟨key, rd', h, v, hd, hl, hk, hnets⟩ | ⟨p, h, hd⟩
    case inr => mark_run [hd]; exact ⟨st.hashes, st.rd, l0, rfl, by simp only [List.length_append, List.length_cons, List.length_nil] at hb0 ⊢; omega, by intro _ _ _ _ _ _ e; cases e⟩
    have hv : bigIntToHex (loadInt h key) = fmtNat 16 v := by rw [hk]; rfl
    mark_run [hd, mark_bigIntToHex, hv]
    have retry : ∀ hs0 h ls, ∃ hs rd2 l, runFunc H E (marked program) (n + 2) 0 (id! "GeneratePrivateKey") [.net network]
        ⟨h, hs0, rd', ls, st.vars⟩ = genOut { st with log := l } hs rd2 (generateLoopM H generateRandomBigInt network fuel rd' h) ∧
        l.length ≤ ls.length + 7 * fuel ∧ ∀ net pre q h', (network.bind fun a => h.nets[a]?) = some net → hexDecode net.PrivKeyPrefix = .ok pre →
          generateLoopM H generateRandomBigInt network fuel rd' h = (.ok q, h') →
          ∃ r, l = ls ++ ((List.replicate r refusedLines).flatten ++ takenLines) := by
      intro hs0 h ls
      obtain ⟨hs, rd2, l, e, hl⟩ := ih (n + 1) ⟨h, hs0, rd', ls, st.vars⟩ (by simp only; omega) (by omega)
      exact ⟨hs, rd2, l, e, hl⟩
    by_cases h64 : (fmtNat 16 v).length = 64
    case neg =>
      have h64' : ((fmtNat 16 v).length : Int) ≠ 64 := by omega
      mark_run [h64, h64']
      obtain ⟨hs, rd2, l, e, hl⟩ := retry st.hashes h (st.log ++ [asc "GeneratePrivateKey"] ++ [asc "generateRandomBigInt"] ++
        [asc "bigIntToHex"] ++ [asc "GeneratePrivateKey 1"])
      rw [e]
      refine ⟨hs, rd2, l, ?_, by simp only [List.length_append, List.length_cons, List.length_nil] at hl ⊢; omega, ?_⟩
      · rcases generateLoopM H generateRandomBigInt network fuel rd' h with ⟨⟨q, rd3⟩ | e | p, h'⟩ <;> mark_run [genOut]
      · intro net pre q h' h1 h2 h3
        obtain ⟨r, hr⟩ := hl.2 net pre q h' (by rw [hnets]; exact h1) h2 h3
        refine ⟨r + 1, hr.trans ?_⟩
        simp only [List.replicate_succ, List.flatten_cons, refusedLines, List.append_assoc, List.cons_append, List.nil_append]
    have h64' : ((fmtNat 16 v).length : Int) = 64 := by omega
    mark_run [h64, h64']
    obtain ⟨hs, l, e, hb, hl⟩ := mark_PrivateFromHex H E n (fmtNat 16 v) network ⟨h, st.hashes, rd',
      st.log ++ [asc "GeneratePrivateKey"] ++ [asc "generateRandomBigInt"] ++ [asc "bigIntToHex"], st.vars⟩
    mark_run [e, onErr]
    by_cases hgood : ∃ net pre, (network.bind fun a => st.heap.nets[a]?) = some net ∧ hexDecode net.PrivKeyPrefix = .ok pre
    · obtain ⟨net, pre, h1, h2⟩ := hgood
      obtain ⟨p, h', hp⟩ := privateFromHexM_good (H := H) (by rw [hnets]; exact h1) h2 h64
      rw [hp]
      have hl := hl _ _ hp
      mark_run
      refine ⟨_, rd', l, rfl, by simp only [List.length_append, List.length_cons, List.length_nil] at hb ⊢; omega, fun _ _ _ _ _ _ _ => ⟨0, hl.trans ?_⟩⟩
      simp only [List.replicate_zero, List.flatten_nil, takenLines, List.append_assoc, List.cons_append, List.nil_append]
    · rcases privateFromHexM H (fmtNat 16 v) network h with ⟨(_ | a) | e | p, h⟩
      · mark_run; exact ⟨_, rd', l, rfl, by simp only [List.length_append, List.length_cons, List.length_nil] at hb ⊢; omega, fun net pre _ _ h1 h2 => (hgood ⟨net, pre, h1, h2⟩).elim⟩
      · mark_run; exact ⟨_, rd', l, rfl, by simp only [List.length_append, List.length_cons, List.length_nil] at hb ⊢; omega, fun net pre _ _ h1 h2 => (hgood ⟨net, pre, h1, h2⟩).elim⟩
      · mark_run
        obtain ⟨hs, rd2, l, e, hl⟩ := retry hs h (l ++ [asc "GeneratePrivateKey 2"])
        rw [e]
        refine ⟨hs, rd2, l, ?_, by simp only [List.length_append, List.length_cons, List.length_nil] at hb hl; omega, fun net pre _ _ h1 h2 => (hgood ⟨net, pre, h1, h2⟩).elim⟩
        rcases generateLoopM H generateRandomBigInt network fuel rd' h with ⟨⟨q, rd3⟩ | e | p, h'⟩ <;> mark_run [genOut]
      · mark_run; exact ⟨_, rd', l, rfl, by simp only [List.length_append, List.length_cons, List.length_nil] at hb ⊢; omega, fun net pre _ _ h1 h2 => (hgood ⟨net, pre, h1, h2⟩).elim⟩

/-- `for len(x) < k { mark("s"); x = "0" + x }` -/
def markedPad (s : List Nat) (x : Nat) (k : Expr) : Stmt :=
  .loop .skip (.bin (id! "<") (.call (.name (id! "len")) (.cons (.name x) .nil)) k) .skip
    (.block (.seq (mark s) (.seq (.assign (.cons (.name x) .nil) (.cons (.bin (id! "+") (.str [48]) (.name x)) .nil)) .skip)))

theorem markedPad_rounds {c : Nat} (s : List Nat) {x : Nat} {k : Expr} {len : Nat} {f : GoString → Env} (hx : (x = id! "_") = False)
    (hget : ∀ t, Env.get x (f t) = some (.str t)) (hset : ∀ t u, Env.set x (.str u) (f t) = some (f u))
    (hk : ∀ t st, eval ⟨H, E, runFunc H E (marked program) (c + 1)⟩ k ([] :: f t) st = .ok [.int len] st) (m : Nat) :
    ∀ (n : Nat) (t : GoString) (st : State), len - t.length < n →
    rounds (eval ⟨H, E, runFunc H E (marked program) (c + 1)⟩ (.bin (id! "<") (.call (.name (id! "len")) (.cons (.name x) .nil)) k))
      (exec ⟨H, E, runFunc H E (marked program) (c + 1)⟩ m (.block (.seq (mark s)
        (.seq (.assign (.cons (.name x) .nil) (.cons (.bin (id! "+") (.str [48]) (.name x)) .nil)) .skip))))
      (exec ⟨H, E, runFunc H E (marked program) (c + 1)⟩ m .skip) n ([] :: f t) st =
        .ok (.next ([] :: f (padZeros len t))) { st with log := st.log ++ List.replicate (len - t.length) (utf8 s) }
  | 0, t, _, h => by omega
  | n + 1, t, st, h => by
    unfold rounds
    by_cases hl : t.length < len
    · have hl' : (t.length : Int) < len := by omega
      unfold mark
      mark_run [hget, hset, hk, hl', hx]
      have ih := markedPad_rounds s hx hget hset hk m n (48 :: t)
        ⟨st.heap, st.hashes, st.rd, st.log ++ [utf8 s], st.vars⟩ (by simp only [List.length_cons]; omega)
      unfold mark at ih
      rw [ih, Imp.padZeros_cons hl]
      have e : len - t.length = (len - (t.length + 1)) + 1 := by omega
      rw [e, List.replicate_succ]
      simp only [List.append_assoc, List.cons_append, List.nil_append, List.length_cons]
    · have hl' : ¬ (t.length : Int) < len := by omega
      mark_run [hget, hset, hk, hl', hx]
      have e : len - t.length = 0 := by omega
      rw [Imp.padZeros_self (by omega), e, List.replicate_zero, List.append_nil]

theorem exec_markedPad {c : Nat} (s : List Nat) {x : Nat} {k : Expr} {len : Nat} (f : GoString → Env) (hx : (x = id! "_") = False)
    (hget : ∀ t, Env.get x (f t) = some (.str t)) (hset : ∀ t u, Env.set x (.str u) (f t) = some (f u))
    (hk : ∀ t st, eval ⟨H, E, runFunc H E (marked program) (c + 1)⟩ k ([] :: f t) st = .ok [.int len] st) (n : Nat) (hn : len < n)
    (t : GoString) (st : State) :
    exec ⟨H, E, runFunc H E (marked program) (c + 1)⟩ n (markedPad s x k) (f t) st =
      .ok (.next (f (padZeros len t))) { st with log := st.log ++ List.replicate (len - t.length) (utf8 s) } := by
  unfold markedPad
  rw [exec_loop]
  mark_run
  rw [markedPad_rounds H E s hx hget hset hk n n t st (by omega)]
  mark_run

/-- The lines of a call of `Format`: they depend on the number of digits of the coordinates, and for a compressed format on
whether the second is even. -/
def formatLines (dx dy : Nat) (compressed even : Bool) : List GoString :=
  [asc "Format", asc "bigIntToHex", asc "bigIntToHex"] ++ List.replicate (64 - dx) (asc "Format 1") ++
    List.replicate (64 - dy) (asc "Format 2") ++
    (if compressed then [asc "Format 4", if even then asc "Format 5" else asc "Format 6"] else [asc "Format 3"])

theorem mark_Format (n : Nat) (p : Ptr) (c : Bool) (st : State) : ∃ l,
    runFunc H E (marked program) (n + 67) (id! "PublicKey") (id! "Format") [.pub p, .bool c] st =
      Out.exact (fun s => [.str s]) (formatM p c st.heap) { st with log := l } ∧
    l.length ≤ st.log.length + 133 ∧
    ∀ o s h, (p.bind fun a => st.heap.pubs[a]?) = some o → formatM p c st.heap = (.ok s, h) →
      l = st.log ++ formatLines (bigIntToHex (loadInt st.heap o.X)).length (bigIntToHex (loadInt st.heap o.Y)).length c
        (decide ((loadInt st.heap o.Y).getD 0 % 2 = 0)) := by
  rw [runFunc_succ H E find_mFormat _ rfl]
  unfold mFormat formatM
  mark_run
  rcases h1 : p.bind fun a => st.heap.pubs[a]? with _ | o1
  · mark_run; exact ⟨_, rfl, by simp only [List.length_append, List.length_cons, List.length_nil]; omega, by intro _ _ _ e; cases e⟩
  mark_run [mark_bigIntToHex, h1]
  have p1 := exec_markedPad H E (c := n + 65) [70, 111, 114, 109, 97, 116, 32, 49] (x := id! "pXHex") (k := .num 64) (len := 64)
    (fun t => [[(id! "pYHex", .str (bigIntToHex (loadInt st.heap o1.Y))), (id! "pXHex", .str t), (id! "key", .str []),
      (id! "p", .pub p), (id! "compressed", .bool c)]]) (by decide) (fun _ => rfl) (fun _ _ => rfl) (fun _ _ => rfl) (n + 66)
    (by omega) (bigIntToHex (loadInt st.heap o1.X))
  have p2 := exec_markedPad H E (c := n + 65) [70, 111, 114, 109, 97, 116, 32, 50] (x := id! "pYHex") (k := .num 64) (len := 64)
    (fun t => [[(id! "pYHex", .str t), (id! "pXHex", .str (padZeros 64 (bigIntToHex (loadInt st.heap o1.X)))),
      (id! "key", .str []), (id! "p", .pub p), (id! "compressed", .bool c)]]) (by decide) (fun _ => rfl) (fun _ _ => rfl)
    (fun _ _ => rfl) (n + 66) (by omega) (bigIntToHex (loadInt st.heap o1.Y))
  unfold markedPad mark at p1 p2
  mark_run [p1, p2]
  cases c
  · mark_run
    refine ⟨_, rfl, by simp only [List.length_append, List.length_replicate, List.length_cons, List.length_nil]; omega, ?_⟩
    rintro _ _ _ ⟨⟩ -
    simp [formatLines]
  mark_run [h1]
  rcases hy : loadInt st.heap o1.Y with _ | y
  · mark_run; exact ⟨_, rfl, by simp only [List.length_append, List.length_replicate, List.length_cons, List.length_nil]; omega, by intro _ _ _ _ e; cases e⟩
  mark_run
  by_cases h2 : y % 2 = 0
  · mark_run [intBit_zero, h2]
    refine ⟨_, rfl, by simp only [List.length_append, List.length_replicate, List.length_cons, List.length_nil]; omega, ?_⟩
    rintro _ _ _ ⟨⟩ -
    simp [formatLines, hy, h2]
  · mark_run [intBit_zero, h2]
    refine ⟨_, rfl, by simp only [List.length_append, List.length_replicate, List.length_cons, List.length_nil]; omega, ?_⟩
    rintro _ _ _ ⟨⟩ -
    simp [formatLines, hy, h2]

theorem mark_Address (n : Nat) (p : Ptr) (c : Bool) (st : State) : ∃ hs l,
    runFunc H E (marked program) (n + 68) (id! "PublicKey") (id! "Address") [.pub p, .bool c] st =
      Out.of (fun s => [.str s, .err none]) (fun e => [.str [], .err (some e)]) (addressM H p c st.heap)
        { st with hashes := hs, log := l } ∧
    l.length ≤ st.log.length + 139 ∧
    ∀ o s h, (p.bind fun a => st.heap.pubs[a]?) = some o → addressM H p c st.heap = (.ok s, h) →
      l = st.log ++ asc "Address" :: formatLines (bigIntToHex (loadInt st.heap o.X)).length
        (bigIntToHex (loadInt st.heap o.Y)).length c (decide ((loadInt st.heap o.Y).getD 0 % 2 = 0)) := by
  rw [runFunc_succ H E find_mAddress _ rfl]
  unfold mAddress addressM
  mark_run
  obtain ⟨l, e0, hb, hl⟩ := mark_Format H E n p c ⟨st.heap, st.hashes, st.rd, st.log ++ [asc "Address"], st.vars⟩
  rw [e0]
  simp only at hl
  obtain ⟨r, e, hne⟩ := formatM_shape p c st.heap
  rw [e] at hl ⊢
  rcases r with f | e | q
  case err => exact (hne _ rfl).elim
  case panic => mark_run; exact ⟨_, _, rfl, by simp only [List.length_append, List.length_cons, List.length_nil] at hb ⊢; omega, by intro _ _ _ _ e; cases e⟩
  mark_run
  rcases hexDecode f with b | e | p
  case err => mark_run; exact ⟨_, _, rfl, by simp only [List.length_append, List.length_cons, List.length_nil] at hb ⊢; omega, by intro _ _ _ _ e; cases e⟩
  case panic => mark_run; exact ⟨_, _, rfl, by simp only [List.length_append, List.length_cons, List.length_nil] at hb ⊢; omega, by intro _ _ _ _ e; cases e⟩
  mark_run
  rcases hp : p.bind fun a => st.heap.pubs[a]? with _ | o
  · mark_run; exact ⟨_, _, rfl, by simp only [List.length_append, List.length_cons, List.length_nil] at hb ⊢; omega, by intro _ _ _ e; cases e⟩
  mark_run
  rcases o.Network.bind fun a => st.heap.nets[a]? with _ | net
  · mark_run; exact ⟨_, _, rfl, by simp only [List.length_append, List.length_cons, List.length_nil] at hb ⊢; omega, by intro _ _ _ _ e; cases e⟩
  mark_run
  generalize net.PubKeyHashPrefix ++ hexEncode (H.ripemd160 (H.sha256 b)) = x
  rcases hexDecode x with b | e | p
  case err => mark_run; exact ⟨_, _, rfl, by simp only [List.length_append, List.length_cons, List.length_nil] at hb ⊢; omega, by intro _ _ _ _ e; cases e⟩
  case panic => mark_run; exact ⟨_, _, rfl, by simp only [List.length_append, List.length_cons, List.length_nil] at hb ⊢; omega, by intro _ _ _ _ e; cases e⟩
  mark_run
  rcases hs : slice (hexEncode (H.sha256 (H.sha256 b))) 0 8 with s | e | p
  case err => exact (Imp.slice_ne_err hs).elim
  case panic => mark_run; exact ⟨_, _, rfl, by simp only [List.length_append, List.length_cons, List.length_nil] at hb ⊢; omega, by intro _ _ _ _ e; cases e⟩
  mark_run
  rcases hexDecode (x ++ s) with b | e | p
  case err => mark_run; exact ⟨_, _, rfl, by simp only [List.length_append, List.length_cons, List.length_nil] at hb ⊢; omega, by intro _ _ _ _ e; cases e⟩
  case panic => mark_run; exact ⟨_, _, rfl, by simp only [List.length_append, List.length_cons, List.length_nil] at hb ⊢; omega, by intro _ _ _ _ e; cases e⟩
  mark_run
  refine ⟨_, _, rfl, by simp only [List.length_append, List.length_cons, List.length_nil] at hb ⊢; omega, ?_⟩
  rintro _ _ _ ⟨⟩ -
  rw [hl o f _ hp rfl]
  lines

end

namespace Spec

/-- Specification: a call of the marked text ends in `o`. -/
def MarkedEnds (H : Hashes) (E : EcdsaM) (r : Request) (st : State) (o : Out (List Value)) : Prop :=
  Source.Ends H E (marked program) r.recv r.name r.args st o

end Spec

theorem Spec.MarkedEnds.run {H : Hashes} {E : EcdsaM} {r : Request} {st : State} {o : Out (List Value)} (h : MarkedEnds H E r st o)
    (k : Nat) : ∃ n, runFunc H E (marked program) (n + k) r.recv r.name r.args st = o := by
  obtain ⟨-, n, hn⟩ := h
  exact ⟨n, hn (n + k) (by omega)⟩

/-- C117. Each function and each block has a line of its own. -/
theorem C117_lines_differ : (program.flatMap fun d =>
    match d with
    | .func f => spelling 32 f.name :: (blocks f.body).map (blockLabel f)
    | _ => []).Nodup := by
  decide +kernel

theorem Source.Out.of_ok {α : Type} {good : α → List Value} {bad : GoError → List Value} {r : Res α × Heap} {st st' : State}
    {vs : List Value} (h : Out.ok vs st' = Out.of good bad r st) :
    (∃ a h, r = (.ok a, h) ∧ vs = good a ∧ st' = { st with heap := h }) ∨
    ∃ e h, r = (.err e, h) ∧ vs = bad e ∧ st' = { st with heap := h } := by
  obtain ⟨a | e | p, h'⟩ := r
  · injection h with h1 h2
    exact .inl ⟨_, _, rfl, h1, h2⟩
  · injection h with h1 h2
    exact .inr ⟨_, _, rfl, h1, h2⟩
  · cases h

theorem Source.Out.exact_ok {α : Type} {good : α → List Value} {r : Res α × Heap} {st st' : State} {vs : List Value}
    (h : Out.ok vs st' = Out.exact good r st) : ∃ a h, r = (.ok a, h) ∧ vs = good a ∧ st' = { st with heap := h } := by
  obtain ⟨a | e | p, h'⟩ := r
  · injection h with h1 h2
    exact ⟨_, _, rfl, h1, h2⟩
  · cases h
  · cases h

/-- C117: `CheckWIF` takes the same way through the text for all texts that are long enough, whether the checksum is right or not. -/
theorem C117_checkWIF (H : Hashes) (E : EcdsaM) (wif : GoString) (b : Bytes) (hb : base58Decode wif = .ok b) (h4 : 4 ≤ b.length)
    (st st' : State) (vs : List Value) (h : MarkedEnds H E (.checkWIF wif) st (.ok vs st')) : st'.log = st.log ++ [asc "CheckWIF"] := by
  obtain ⟨n, h⟩ := h.run 2
  obtain ⟨hs, l, e, hl⟩ := mark_CheckWIF H E n wif st
  have h := h.symm.trans e
  cases hc : checkWIF H wif with
  | err e => exact absurd hc (checkWIF_ne_err H wif e)
  | panic p => rw [hc] at h; cases h
  | ok v =>
    rw [hc] at h
    injection h with _ h2
    rw [h2]
    exact hl b hb h4

/-- C117: `PrivateFromHex` takes the same way for every key it returns. -/
theorem C117_privateFromHex (H : Hashes) (E : EcdsaM) (hexa : GoString) (network p : Ptr) (st st' : State)
    (h : MarkedEnds H E (.privateFromHex hexa network) st (.ok [.priv p, .err none] st')) :
    st'.log = st.log ++ [asc "PrivateFromHex"] := by
  obtain ⟨n, h⟩ := h.run 2
  obtain ⟨hs, l, e, -, hl⟩ := mark_PrivateFromHex H E n hexa network st
  rcases Out.of_ok (h.symm.trans e) with ⟨a, h', e1, -, e3⟩ | ⟨_, _, -, e2, -⟩
  · rw [e3]
    exact hl a h' e1
  · cases e2

/-- C117: `PrivateFromWIF` takes the same way for every key it returns. -/
theorem C117_privateFromWIF (H : Hashes) (E : EcdsaM) (wif : GoString) (network p : Ptr) (st st' : State)
    (h : MarkedEnds H E (.privateFromWIF wif network) st (.ok [.priv p, .err none] st')) :
    st'.log = st.log ++ [asc "PrivateFromWIF", asc "CheckWIF"] := by
  obtain ⟨n, h⟩ := h.run 3
  obtain ⟨hs, l, e, hl⟩ := mark_PrivateFromWIF H E n wif network st
  rcases Out.of_ok (h.symm.trans e) with ⟨a, h', e1, -, e3⟩ | ⟨_, _, -, e2, -⟩
  · rw [e3]
    exact hl a h' e1
  · cases e2

/-- C117: `AddPrivateKeys` takes the same way for all keys whose sum it returns. -/
theorem C117_addPrivateKeys (H : Hashes) (E : EcdsaM) (p1 p2 p : Ptr) (st st' : State)
    (h : MarkedEnds H E (.addPrivateKeys p1 p2) st (.ok [.priv p, .err none] st')) :
    st'.log = st.log ++ [asc "AddPrivateKeys", asc "bigIntToHex", asc "PrivateFromHex"] := by
  obtain ⟨n, h⟩ := h.run 3
  obtain ⟨hs, l, e, hl⟩ := mark_AddPrivateKeys H E n p1 p2 st
  rcases Out.of_ok (h.symm.trans e) with ⟨a, h', e1, -, e3⟩ | ⟨_, _, -, e2, -⟩
  · rw [e3]
    exact hl a h' e1
  · cases e2

/-- C117: `MultiplyPrivateKeys` takes the same way for all keys whose product it returns. -/
theorem C117_multiplyPrivateKeys (H : Hashes) (E : EcdsaM) (p1 p2 p : Ptr) (st st' : State)
    (h : MarkedEnds H E (.multiplyPrivateKeys p1 p2) st (.ok [.priv p, .err none] st')) :
    st'.log = st.log ++ [asc "MultiplyPrivateKeys", asc "bigIntToHex", asc "PrivateFromHex"] := by
  obtain ⟨n, h⟩ := h.run 3
  obtain ⟨hs, l, e, hl⟩ := mark_MultiplyPrivateKeys H E n p1 p2 st
  rcases Out.of_ok (h.symm.trans e) with ⟨a, h', e1, -, e3⟩ | ⟨_, _, -, e2, -⟩
  · rw [e3]
    exact hl a h' e1
  · cases e2

/-- C117: `GetPublicKey` takes the same way for every key it finds a public key for. -/
theorem C117_getPublicKey (H : Hashes) (E : EcdsaM) (hE : E.IntOps) (p q : Ptr) (st st' : State)
    (h : MarkedEnds H E (.getPublicKey p) st (.ok [.pub q, .bool true] st')) : st'.log = st.log ++ [asc "GetPublicKey"] := by
  obtain ⟨n, h⟩ := h.run 2
  obtain ⟨l, e, hl⟩ := mark_GetPublicKey H E hE n p st
  obtain ⟨a, h', e1, e2, e3⟩ := Out.exact_ok (h.symm.trans e)
  rw [e3]
  cases a with
  | none => cases e2
  | some a => exact hl a h' e1

/-- C117: `AddPublicKeys` takes the same way for all keys whose sum it returns. -/
theorem C117_addPublicKeys (H : Hashes) (E : EcdsaM) (hE : E.IntOps) (p1 p2 p : Ptr) (c : Bool) (st st' : State)
    (h : MarkedEnds H E (.addPublicKeys p1 p2 c) st (.ok [.pub p, .err none] st')) :
    st'.log = st.log ++ [asc "AddPublicKeys"] := by
  obtain ⟨n, h⟩ := h.run 2
  obtain ⟨l, e, hl⟩ := mark_AddPublicKeys H E hE n p1 p2 c st
  rcases Out.of_ok (h.symm.trans e) with ⟨a, h', e1, -, e3⟩ | ⟨_, _, -, e2, -⟩
  · rw [e3]
    exact hl a h' e1
  · cases e2

/-- C117: the way of `GeneratePrivateKey` shows how many numbers were refused for being too short, and nothing about the key. -/
theorem C117_generatePrivateKey (H : Hashes) (E : EcdsaM) (network : Ptr) (net : Network) (pre : Bytes) (st st' : State)
    (hnet : (network.bind fun a => st.heap.nets[a]?) = some net) (hpre : hexDecode net.PrivKeyPrefix = .ok pre) (vs : List Value)
    (h : MarkedEnds H E (.generatePrivateKey network) st (.ok vs st')) :
    ∃ r, st'.log = st.log ++ ((List.replicate r
      [asc "GeneratePrivateKey", asc "generateRandomBigInt", asc "bigIntToHex", asc "GeneratePrivateKey 1"]).flatten ++
      [asc "GeneratePrivateKey", asc "generateRandomBigInt", asc "bigIntToHex", asc "PrivateFromHex"]) := by
  obtain ⟨n, h⟩ := h.run (st.rd.length + 3)
  obtain ⟨hs, rd2, l, e, -, hl⟩ := mark_GeneratePrivateKey H E network (st.rd.length + 1) (n + (st.rd.length + 2)) st (by omega) (by omega)
  have h := h.symm.trans e
  rcases hg : generateLoopM H generateRandomBigInt network (st.rd.length + 1) st.rd st.heap with ⟨⟨q, rd⟩ | e | p, h'⟩
  · rw [hg] at h
    injection h with _ h2
    obtain ⟨r, hr⟩ := hl net pre _ _ hnet hpre hg
    rw [h2]
    exact ⟨r, hr⟩
  · rw [hg] at h; cases h
  · rw [hg] at h; cases h

/-- C117: the way of `Format` depends on nothing but the number of digits of the coordinates and, for the compressed form,
whether the second one is even (which the result shows). -/
theorem C117_format (H : Hashes) (E : EcdsaM) (p : Ptr) (o : PubObj) (c : Bool) (st st' : State)
    (ho : (p.bind fun a => st.heap.pubs[a]?) = some o) (vs : List Value) (h : MarkedEnds H E (.format p c) st (.ok vs st')) :
    st'.log = st.log ++ formatLines (bigIntToHex (loadInt st.heap o.X)).length (bigIntToHex (loadInt st.heap o.Y)).length c
      (decide ((loadInt st.heap o.Y).getD 0 % 2 = 0)) := by
  obtain ⟨n, h⟩ := h.run 67
  obtain ⟨l, e, -, hl⟩ := mark_Format H E n p c st
  obtain ⟨a, h', e1, e2, e3⟩ := Out.exact_ok (h.symm.trans e)
  rw [e3]
  exact hl o a h' ho e1

/-- C117: the same for `Address`. -/
theorem C117_address (H : Hashes) (E : EcdsaM) (p : Ptr) (o : PubObj) (c : Bool) (st st' : State) (s : GoString)
    (ho : (p.bind fun a => st.heap.pubs[a]?) = some o) (h : MarkedEnds H E (.address p c) st (.ok [.str s, .err none] st')) :
    st'.log = st.log ++ asc "Address" :: formatLines (bigIntToHex (loadInt st.heap o.X)).length
      (bigIntToHex (loadInt st.heap o.Y)).length c (decide ((loadInt st.heap o.Y).getD 0 % 2 = 0)) := by
  obtain ⟨n, h⟩ := h.run 68
  obtain ⟨hs, l, e, -, hl⟩ := mark_Address H E n p c st
  rcases Out.of_ok (h.symm.trans e) with ⟨a, h', e1, -, e3⟩ | ⟨_, _, -, e2, -⟩
  · rw [e3]
    exact hl o a h' ho e1
  · cases e2

namespace Samples

/-- Numbers drawn for a new key: the first is refused, having fewer than 64 hexadecimal digits. -/
def refusedDraw : Reader := List.replicate 32 0 ++ List.replicate 33 119

/-- Calls in the state `stocked rd`, with the lines the marked text logs and whether the last result tells of success. -/
def marksOf : List (Reader × Request × Bool × List GoString) :=
  [([], .checkWIF wifA, true, [asc "CheckWIF"]),
   ([], .checkWIF (asc "1111111"), false, [asc "CheckWIF"]),
   ([], .checkWIF (asc "0"), false, [asc "CheckWIF", asc "CheckWIF 1"]),
   ([], .privateFromHex hexA (some 0), true, [asc "PrivateFromHex"]),
   ([], .privateFromHex (asc "zz") (some 0), false, [asc "PrivateFromHex", asc "PrivateFromHex 1"]),
   ([], .privateFromWIF wifB (some 0), true, [asc "PrivateFromWIF", asc "CheckWIF"]),
   ([], .addPrivateKeys (some 0) (some 1), true, [asc "AddPrivateKeys", asc "bigIntToHex", asc "PrivateFromHex"]),
   ([], .multiplyPrivateKeys (some 0) (some 1), true, [asc "MultiplyPrivateKeys", asc "bigIntToHex", asc "PrivateFromHex"]),
   ([], .getPublicKey (some 0), true, [asc "GetPublicKey"]),
   ([], .addPublicKeys (some 0) (some 0) true, true, [asc "AddPublicKeys"]),
   (refusedDraw, .generatePrivateKey (some 0), true, refusedLines ++ takenLines),
   ([], .format (some 0) true, true,
     [asc "Format", asc "bigIntToHex", asc "bigIntToHex", asc "Format 4", asc "Format 5"]),
   ([], .format (some 0) false, true, [asc "Format", asc "bigIntToHex", asc "bigIntToHex", asc "Format 3"]),
   ([], .address (some 0) true, true,
     [asc "Address", asc "Format", asc "bigIntToHex", asc "bigIntToHex", asc "Format 4", asc "Format 5"])]

/-- The last result tells of success: no error, `true`, a string or a key. -/
def tellsSuccess (vs : List Value) : Bool :=
  match vs.getLast? with
  | some (.err none) => true
  | some (.bool b) => b
  | some (.str _) => true
  | some (.priv (some _)) => true
  | _ => false

theorem marksOf_right : (marksOf.all fun c =>
    match runFunc realHashes pkg (marked program) 200 c.2.1.recv c.2.1.name c.2.1.args (stocked c.1) with
    | .ok vs st => decide (tellsSuccess vs = c.2.2.1) && decide (st.log = c.2.2.2)
    | _ => false) = true := by decide +kernel

end Samples

end Btc
