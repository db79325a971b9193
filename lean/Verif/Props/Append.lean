import Verif.Props.Ways

/-!
# C120: lines are only ever added to the log

For every program in the part of Go that is modelled, and so for every call of a function of the repository: the lines logged
before a call are kept, and what the call does, and which lines it adds, does not depend on them.
-/

namespace Btc

open Mem Source

namespace Spec

/-- Specification: an end of a call with the lines `l` before those logged. -/
def Prefixed {α : Type} (l : Log) : Out α → Out α
  | .ok a st => .ok a { st with log := l ++ st.log }
  | .panic p st => .panic p { st with log := l ++ st.log }
  | .stuck => .stuck

/-- Specification: an end of a call with `l` for the lines logged. -/
def setLog {α : Type} (l : Log) : Out α → Out α
  | .ok a st => .ok a { st with log := l }
  | .panic p st => .panic p { st with log := l }
  | .stuck => .stuck

end Spec

open Spec

/-- More lines before those logged are kept and change nothing else. -/
def Framed {α : Type} (x : M α) : Prop := ∀ st l, x { st with log := l ++ st.log } = Prefixed l (x st)

section
variable {α β : Type}

theorem Framed.stuck : Framed (Source.stuck : M α) := fun _ _ => rfl

theorem Framed.pure (a : α) : Framed (pure a) := fun _ _ => rfl

theorem Framed.panic (p : GoPanic) : Framed (panic p : M α) := fun _ _ => rfl

theorem Framed.bind {x : M α} {f : α → M β} (h : Framed x) (hf : ∀ a, Framed (f a)) : Framed (x >>= f) := by
  intro st l
  show (x _).andThen f = Prefixed l ((x st).andThen f)
  rw [h]
  cases x st with
  | ok a s => exact hf a s l
  | panic p s => rfl
  | stuck => rfl

theorem Framed.onHeap (m : HM α) : Framed (onHeap m) := by
  intro st l
  unfold Source.onHeap
  dsimp only
  rcases m st.heap with ⟨a | e | p, q⟩ <;> rfl

theorem Framed.ite {c : Prop} [Decidable c] {x y : M α} (hx : Framed x) (hy : Framed y) : Framed (if c then x else y) := by
  split
  · exact hx
  · exact hy

end

/-- Proves `Framed x` for the functions of Verif/Source/Value.lean. -/
macro "framed" : tactic => `(tactic| repeat' first
  | exact Framed.stuck
  | exact Framed.pure _
  | exact Framed.panic _
  | exact Framed.onHeap _
  | assumption
  | with_reducible refine Framed.bind ?_ fun _ => ?_
  | split)

theorem ofRes_framed {α : Type} (r : Res α) : Framed (ofRes r) := by
  intro st l
  cases r <;> rfl

theorem withError_framed {α : Type} (r : Res α) (f : α → Value) : Framed (withError r f) := by
  intro st l
  cases r <;> rfl

theorem one_framed (vs : List Value) : Framed (one vs) := by unfold one; framed

theorem known_framed {α : Type} (o : Option α) : Framed (known o) := by unfold known; framed

theorem indexValue_framed (v i : Value) : Framed (indexValue v i) := by
  unfold indexValue
  split
  · exact (ofRes_framed _).bind fun _ => .pure _
  · exact (ofRes_framed _).bind fun _ => .pure _
  · exact .stuck

theorem sliceValue_framed (v lo hi : Value) : Framed (sliceValue v lo hi) := by
  unfold sliceValue
  split
  · exact (ofRes_framed _).bind fun _ => .pure _
  · exact .stuck

theorem field_framed (v : Value) (f : Nat) : Framed (field v f) := by
  unfold field
  split <;> first
    | exact known_framed _
    | exact .stuck
    | exact (Framed.onHeap _).bind fun _ => known_framed _
    | (split <;> first | exact .pure _ | exact .stuck)

theorem setField_framed (u : Value) (f : Nat) (v : Value) : Framed (setField u f v) := by
  unfold setField setPriv setPub setCurve setBase updCurve; framed

theorem zero_framed (t : Expr) : Framed (zero t) := by unfold zero; framed

theorem composite_framed (t : Expr) (ks : List Nat) (vs : List Value) : Framed (composite t ks vs) := by
  unfold composite
  split
  · split
    · rcases given (id! "PrivKeyPrefix") ks vs with _ | a
      · exact .stuck
      cases a <;> try exact .stuck
      rcases given (id! "PubKeyHashPrefix") ks vs with _ | b
      · exact .stuck
      cases b <;> try exact .stuck
      exact (fun _ _ => rfl)
    · framed
  · framed
  · exact .stuck

theorem bigMethod_framed (z : Ptr) (m : Nat) (args : List Value) : Framed (bigMethod z m args) := by
  unfold bigMethod; framed

theorem hashMethod_framed (H : Hashes) (a m : Nat) (args : List Value) : Framed (hashMethod H a m args) := by
  have hw : ∀ b, Framed (writeHash a b) := fun _ _ _ => rfl
  have hr : Framed (readHash a) := by
    intro st l
    unfold readHash
    dsimp only
    split <;> rfl
  unfold hashMethod
  framed
  all_goals exact hw _

theorem curveMethod_framed (E : EcdsaM) (m : Nat) (args : List Value) : Framed (curveMethod E m args) := by
  unfold curveMethod; framed

theorem drawBig_framed (m : Nat) : Framed (drawBig m) := by
  intro st l
  unfold drawBig
  dsimp only
  split <;> rfl

theorem sprintf_framed (f : GoString) (v : Value) : Framed (sprintf f v) := by
  unfold sprintf
  split
  · exact .stuck
  · cases v <;> first | exact .stuck | exact .pure _ | exact (fun _ _ => rfl)

theorem println_framed (vs : List Value) : Framed (println vs) := by
  unfold println
  split
  · intro st l
    simp [Prefixed]
  · exact .stuck

theorem newHash_framed (b : Bool) : Framed (newHash b) := fun _ _ => rfl

theorem external_framed (H : Hashes) (p f : Nat) (args : List Value) : Framed (external H p f args) := by
  unfold external randBig newError deepEqual
  repeat' first
    | exact Framed.stuck
    | exact Framed.pure _
    | exact Framed.onHeap _
    | exact withError_framed _ _
    | exact println_framed _
    | exact sprintf_framed _ _
    | exact drawBig_framed _
    | exact newHash_framed _
    | with_reducible refine Framed.bind ?_ fun _ => ?_
    | with_reducible refine Framed.ite ?_ ?_
    | split

theorem builtin_framed {f : Nat} {args : List Value} {m : M (List Value)} (h : builtin f args = some m) : Framed m := by
  unfold builtin at h
  repeat' split at h
  all_goals first
    | (cases h; done)
    | (obtain rfl := Option.some.inj h; framed)

theorem global_framed (x : Nat) : Framed (global x) := by
  unfold global
  refine .ite (.pure _) (.ite (.pure _) (.ite (.pure _) (.ite (.pure _) (.ite (.pure _) fun st l => ?_))))
  dsimp only
  split <;> rfl

theorem named_framed (x : Nat) (env : Env) : Framed (named x env) := by
  unfold named
  split
  · exact .pure _
  · exact global_framed x

theorem newOf_framed (e : Expr) : Framed (newOf e) := by unfold newOf; framed

theorem setGlobal_framed (x : Nat) (v : Value) : Framed (setGlobal x v) := by
  intro st l
  unfold setGlobal
  dsimp only
  split <;> rfl

theorem storeOne_framed (p : Source.Place) (v : Value) (env : Env) : Framed (storeOne p v env) := by
  unfold storeOne
  split
  · exact .pure _
  · split
    · exact .pure _
    · exact (setGlobal_framed _ _).bind fun _ => .pure _
  · exact (setField_framed _ _ _).bind fun _ => .pure _

theorem storeAll_framed : ∀ (ps : List Source.Place) (vs : List Value) (env : Env), Framed (storeAll ps vs env)
  | [], [], _ => .pure _
  | p :: ps, v :: vs, env => (storeOne_framed p v env).bind fun env' => storeAll_framed ps vs env'
  | [], _ :: _, _ => .stuck
  | _ :: _, [], _ => .stuck

/-- The functions of the repository only add lines. -/
def CallsFramed (f : Nat → Nat → List Value → M (List Value)) : Prop := ∀ r x args, Framed (f r x args)

section
variable {H : Hashes} {E : EcdsaM} {f : Nat → Nat → List Value → M (List Value)} (h : CallsFramed f)
include h

theorem callName_framed (x : Nat) (args : List Value) : Framed (callName ⟨H, E, f⟩ x args) := by
  unfold callName
  cases hb : builtin x args with
  | some m => exact builtin_framed hb
  | none => exact h _ _ _

theorem callMethod_framed (v : Value) (m : Nat) (args : List Value) :
    Framed (callMethod ⟨H, E, f⟩ v m args) := by
  cases v <;> first
    | exact .stuck
    | exact h _ _ _
    | exact external_framed _ _ _ _
    | exact bigMethod_framed _ _ _
    | exact hashMethod_framed _ _ _ _
    | exact curveMethod_framed _ _ _

omit h in
theorem combine_framed {op : Nat} {a : Value} {x : M Value} (hx : Framed x) : Framed (Source.combine op a x) := by
  unfold Source.combine
  by_cases ho : op = id! "||"
  · rw [if_pos ho]
    cases a <;> try exact .stuck
    rename_i b
    cases b
    · exact hx
    · exact .pure _
  · rw [if_neg ho]
    exact hx.bind fun _ => known_framed _

/-- `eval` on `e` and on the operand of `e`. -/
theorem eval_framed' (e : Expr) : (∀ env, Framed (eval ⟨H, E, f⟩ e env)) ∧
    ∀ d m, e = .sel d m → ∀ env, Framed (eval ⟨H, E, f⟩ d env) := by
  induction e with
  | name x => exact ⟨fun env => (named_framed x env).bind fun _ => .pure _, fun d m e => by cases e⟩
  | num n => exact ⟨fun env => .pure _, fun d m e => by cases e⟩
  | str s => exact ⟨fun env => .pure _, fun d m e => by cases e⟩
  | nil => exact ⟨fun env => .pure _, fun d m e => by cases e⟩
  | sliceOf t => exact ⟨fun env => .stuck, fun d m e => by cases e⟩
  | sel e f ih =>
    refine ⟨fun env => (ih.1 env).bind fun _ => (one_framed _).bind fun _ => (field_framed _ _).bind fun _ => .pure _, fun d m e env => ?_⟩
    injection e with e1 _
    subst e1
    exact ih.1 env
  | call k args ihk ih =>
    refine ⟨fun env => ?_, fun d m e => by cases e⟩
    cases k with
    | name x =>
      simp only [eval]
      by_cases hx : x = id! "new"
      · rw [if_pos hx]
        exact newOf_framed args
      · rw [if_neg hx]
        exact (ih.1 env).bind fun _ => callName_framed h _ _
    | sel d m =>
      simp only [eval]
      exact (ihk.2 d m rfl env).bind fun _ => (one_framed _).bind fun _ => (ih.1 env).bind fun _ => callMethod_framed h _ _ _
    | _ => exact .stuck
  | index e i ih ihi =>
    exact ⟨fun env => (ih.1 env).bind fun _ => (one_framed _).bind fun _ => (ihi.1 env).bind fun _ => (one_framed _).bind fun _ =>
      (indexValue_framed _ _).bind fun _ => .pure _, fun d m e => by cases e⟩
  | slice e lo hi ih ihl ihh =>
    exact ⟨fun env => (ih.1 env).bind fun _ => (one_framed _).bind fun _ => (ihl.1 env).bind fun _ => (one_framed _).bind fun _ =>
      (ihh.1 env).bind fun _ => (one_framed _).bind fun _ => (sliceValue_framed _ _ _).bind fun _ => .pure _, fun d m e => by cases e⟩
  | un op e ih =>
    exact ⟨fun env => (ih.1 env).bind fun _ => (one_framed _).bind fun _ => (known_framed _).bind fun _ => .pure _,
      fun d m e => by cases e⟩
  | bin op a b iha ihb =>
    exact ⟨fun env => (iha.1 env).bind fun _ => (one_framed _).bind fun _ =>
      (combine_framed ((ihb.1 env).bind fun _ => one_framed _)).bind fun _ => .pure _, fun d m e => by cases e⟩
  | lit t fs iht ih =>
    exact ⟨fun env => (ih.1 env).bind fun _ => (composite_framed _ _ _).bind fun _ => .pure _, fun d m e => by cases e⟩
  | kv k e ih => exact ⟨ih.1, fun d m e => by cases e⟩
  | cons e es ih ihs =>
    exact ⟨fun env => (ih.1 env).bind fun _ => (ihs.1 env).bind fun _ => .pure _, fun d m e => by cases e⟩

theorem eval_framed (e : Expr) (env : Env) : Framed (eval ⟨H, E, f⟩ e env) := (eval_framed' h e).1 env

theorem places_framed (l : Expr) (env : Env) : Framed (Source.places ⟨H, E, f⟩ l env) := by
  induction l with
  | cons e l _ ih =>
    cases e with
    | name x => exact ih.bind fun _ => .pure _
    | sel e m => exact (eval_framed h e env).bind fun _ => (one_framed _).bind fun _ => ih.bind fun _ => .pure _
    | _ => exact .stuck
  | nil => exact .pure _
  | _ => exact .stuck

theorem assignment_framed (l r : Expr) (env : Env) : Framed (assignment ⟨H, E, f⟩ l r env) :=
  (places_framed h l env).bind fun _ => (eval_framed h r env).bind fun _ => (storeAll_framed _ _ _).bind fun _ => .pure _

omit h in
theorem follow_framed {c : Ctl} {x : Env → M Ctl} (hx : ∀ env, Framed (x env)) : Framed (follow c x) := by
  cases c <;> first | exact hx _ | exact .pure _

omit h in
theorem again_framed {c : Ctl} {x : Env → M Ctl} (hx : ∀ env, Framed (x env)) : Framed (again c x) := by
  cases c <;> first | exact hx _ | exact .pure _

omit h in
theorem choose_framed {vs : List Value} {x y : M Ctl} (hx : Framed x) (hy : Framed y) : Framed (choose vs x y) := by
  unfold choose
  framed

omit h in
theorem rounds_framed {c : Env → M (List Value)} {b p : Env → M Ctl} (hc : ∀ env, Framed (c env))
    (hb : ∀ env, Framed (b env)) (hp : ∀ env, Framed (p env)) (n : Nat) (env : Env) : Framed (rounds c b p n env) := by
  induction n generalizing env with
  | zero => exact .stuck
  | succ n ih =>
    exact (hc env).bind fun _ => choose_framed ((hb env).bind fun _ => again_framed fun env => (hp env).bind fun _ =>
      follow_framed fun env => ih env) (.pure _)

omit h in
theorem ranging_framed {b : Env → M Ctl} (hb : ∀ env, Framed (b env)) (k v : Nat) (env : Env) (i : Nat)
    (ws : List GoString) : Framed (ranging b k v env i ws) := by
  induction ws generalizing i env with
  | nil => exact .pure _
  | cons w ws ih => exact (hb _).bind fun _ => again_framed fun env => ih env (i + 1)

theorem exec_framed (n : Nat) (s : Stmt) : ∀ env, Framed (exec ⟨H, E, f⟩ n s env) := by
  induction s with
  | skip => exact fun env => .pure _
  | brk => exact fun env => .pure _
  | var x t => exact fun env => (zero_framed t).bind fun _ => .pure _
  | seq a b iha ihb => exact fun env => (iha env).bind fun _ => follow_framed fun env => ihb env
  | block s ih => exact fun env => (ih _).bind fun _ => .pure _
  | define l r => exact fun env => (eval_framed h r env).bind fun _ => (known_framed _).bind fun _ => .pure _
  | assign l r => exact assignment_framed h l r
  | addAssign l r => exact assignment_framed h _ _
  | inc l => exact assignment_framed h _ _
  | expr e => exact fun env => (eval_framed h e env).bind fun _ => .pure _
  | ret e => exact fun env => (eval_framed h e env).bind fun _ => .pure _
  | ite c t e iht ihe => exact fun env => (eval_framed h c env).bind fun _ => choose_framed (iht env) (ihe env)
  | loop i c p b ihi ihp ihb =>
    exact fun env => (ihi _).bind fun _ => (follow_framed fun env => rounds_framed (eval_framed h c) ihb ihp n env).bind fun _ => .pure _
  | range k v e b ih =>
    refine fun env => (eval_framed h e env).bind fun vs => ?_
    rcases vs with _ | ⟨v, _ | ⟨_, _⟩⟩
    · exact .stuck
    · cases v <;> first | exact .stuck | exact ranging_framed ih _ _ env 0 _
    · cases v <;> exact .stuck
  | switch s ih => exact fun env => (ih env).bind fun _ => again_framed fun _ => .pure _

end

/-- Calls only add lines to the log. -/
theorem runFunc_framed (H : Hashes) (E : EcdsaM) (ds : List Decl) : ∀ n, CallsFramed (runFunc H E ds n)
  | 0 => fun _ _ _ => .stuck
  | n + 1 => by
    intro recv name args
    unfold runFunc
    split
    · exact .stuck
    · split
      · exact .stuck
      · refine (exec_framed (runFunc_framed H E ds n) n _ _).bind fun c => ?_
        unfold Func.finish
        cases c with
        | ret vs => exact known_framed _
        | next env => exact .ite (.pure _) .stuck
        | brk env => exact .stuck

/-- The lines logged before do not matter. -/
theorem Framed.append {α : Type} {x : M α} (h : Framed x) (st : State) : ∃ d, x st = setLog (st.log ++ d) (x st) ∧
    ∀ l, x { st with log := l } = setLog (l ++ d) (x st) := by
  have h0 := h { st with log := [] }
  have e : x st = Prefixed st.log (x { st with log := [] }) := by
    rw [← h0]
    simp
  have el : ∀ l, x { st with log := l } = Prefixed l (x { st with log := [] }) := by
    intro l
    rw [← h0]
    simp
  rw [e]
  cases hx : x { st with log := [] } with
  | ok a s => exact ⟨s.log, rfl, fun l => by rw [el, hx]; rfl⟩
  | panic p s => exact ⟨s.log, rfl, fun l => by rw [el, hx]; rfl⟩
  | stuck => exact ⟨[], rfl, fun l => by rw [el, hx]; rfl⟩

/-- C120: for every program of the language, lines are only added to the log, and nothing depends on those logged before. -/
theorem C120_append (H : Hashes) (E : EcdsaM) (ds : List Decl) (recv name : Nat) (args : List Value) (st : State)
    (o : Out (List Value)) (h : Source.Ends H E ds recv name args st o) : ∃ d, o = setLog (st.log ++ d) o ∧
    ∀ l, Source.Ends H E ds recv name args { st with log := l } (setLog (l ++ d) o) := by
  obtain ⟨ho, n, hn⟩ := h
  obtain ⟨d, h1, h2⟩ := (runFunc_framed H E ds n recv name args).append st
  rw [hn n (Nat.le_refl n)] at h1 h2
  refine ⟨d, h1, fun l => .of (h2 l) ?_⟩
  cases o with
  | stuck => exact absurd rfl ho
  | _ => exact fun e => by cases e

/-- C120 for the functions of the repository. -/
theorem C120_calls (H : Hashes) (E : EcdsaM) (r : Request) (st : State) (o : Out (List Value)) (h : r.Ends H E st o) :
    ∃ d, o = setLog (st.log ++ d) o ∧ ∀ l, r.Ends H E { st with log := l } (setLog (l ++ d) o) :=
  C120_append H E program r.recv r.name r.args st o h

/-- C120, a case: the line that was there is kept, five lines of the call follow. -/
example : (match runFunc realHashes Samples.pkg program 100 0 (id! "NewSeedFromMnemonic")
      [.str (asc "b b"), .str [], .strs Samples.eightWords] { Samples.stocked [] with log := [asc "x"] } with
    | .panic _ st => some st.log
    | _ => none) = some (asc "x" :: [asc "0000", asc "0000", asc "0010", asc "0000", asc "0000"]) := by decide +kernel

end Btc
