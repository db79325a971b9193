import Verif.Props.RoutineThreads
import Verif.Props.Append
import Verif.Props.RandomTests

/-!
# C137: random bytes are taken from the front

For every program in the part of Go that is modelled: what a call leaves of the random source is the end of what was there. For the
functions of the repository, and for the repaired ones: a call that does not fail for want of bytes does not depend on the bytes it
leaves.
-/

namespace Btc

open Mem Source

/-- Random bytes are taken from the front, if at all. -/
def Shrinks {α : Type} (x : M α) : Prop := ∀ st s, (x st).state? = some s → s.rd <:+ st.rd

section
variable {α β : Type}

theorem Shrinks.same {x : M α} (h : ∀ st s, (x st).state? = some s → s.rd = st.rd) : Shrinks x :=
  fun st s e => (h st s e) ▸ List.suffix_refl _

theorem Shrinks.stuck : Shrinks (Source.stuck : M α) := fun _ _ h => by cases h

theorem Shrinks.pure (a : α) : Shrinks (pure a) := .same fun _ _ h => by cases h; rfl

theorem Shrinks.panic (p : GoPanic) : Shrinks (panic p : M α) := .same fun _ _ h => by cases h; rfl

theorem Shrinks.bind {x : M α} {f : α → M β} (h : Shrinks x) (hf : ∀ a, Shrinks (f a)) : Shrinks (x >>= f) := by
  intro st s e
  have e' : ((x st).andThen f).state? = some s := e
  have hx := h st
  cases hc : x st with
  | ok a s1 =>
    rw [hc] at e' hx
    exact (hf a s1 s e').trans (hx s1 rfl)
  | panic p s1 =>
    rw [hc] at e' hx
    exact hx s e'
  | stuck =>
    rw [hc] at e'
    cases e'

theorem Shrinks.onHeap (m : HM α) : Shrinks (onHeap m) := by
  refine .same fun st s h => ?_
  unfold Source.onHeap at h
  rcases e : m st.heap with ⟨a | e | p, q⟩ <;> rw [e] at h <;> cases h <;> rfl

theorem Shrinks.ite {c : Prop} [Decidable c] {x y : M α} (hx : Shrinks x) (hy : Shrinks y) : Shrinks (if c then x else y) := by
  split
  · exact hx
  · exact hy

end

/-- Proves `Shrinks x` for the functions of Verif/Source/Value.lean. -/
macro "shrinks" : tactic => `(tactic| repeat' first
  | exact Shrinks.stuck
  | exact Shrinks.pure _
  | exact Shrinks.panic _
  | exact Shrinks.onHeap _
  | assumption
  | with_reducible refine Shrinks.bind ?_ fun _ => ?_
  | split)

theorem randLoop_local (max k b : Nat) (hk : 0 < k) : ∀ (m : Nat) (rd rd' : Reader) (v : Nat), rd.length ≤ m →
    randLoop max k b (rd.length + 1) rd = .ok (v, rd') →
    ∃ used, rd = used ++ rd' ∧ ∀ more, randLoop max k b ((used ++ more).length + 1) (used ++ more) = .ok (v, more) := by
  intro m
  induction m with
  | zero =>
    intro rd rd' v hm h
    rw [randLoop_step max k b hk, if_neg (by omega)] at h
    cases h
  | succ m ih =>
    intro rd rd' v hm h
    rw [randLoop_step max k b hk] at h
    by_cases hl : k ≤ rd.length
    swap
    · rw [if_neg hl] at h
      cases h
    have e : (rd.take k).length = k := by simp [hl]
    rw [if_pos hl] at h
    by_cases hv : bytesToNat (maskFirst b (rd.take k)) < max
    · rw [if_pos hv] at h
      cases h
      refine ⟨rd.take k, (List.take_append_drop k rd).symm, fun more => ?_⟩
      rw [randLoop_step max k b hk, if_pos (by simp [hl]), List.take_left' e, List.drop_left' e, if_pos hv]
    · rw [if_neg hv] at h
      obtain ⟨used, h1, h2⟩ := ih (rd.drop k) rd' v (by simp; omega) h
      refine ⟨rd.take k ++ used, ?_, fun more => ?_⟩
      · rw [List.append_assoc, ← h1, List.take_append_drop]
      · rw [randLoop_step max k b hk, if_pos (by simp [hl]), List.append_assoc, List.take_left' e, List.drop_left' e, if_neg hv]
        exact h2 more

/-- A draw that succeeds does not look ahead. -/
theorem randInt_local {rd rd' : Reader} {m v : Nat} (h : randInt rd m = .ok (v, rd')) :
    ∃ used, rd = used ++ rd' ∧ ∀ more, randInt (used ++ more) m = .ok (v, more) := by
  unfold randInt at h ⊢
  dsimp only at h ⊢
  by_cases hb : Nat.size (m - 1) = 0
  · rw [if_pos hb] at h
    cases h
    exact ⟨[], rfl, fun more => by rw [if_pos hb]; rfl⟩
  · rw [if_neg hb] at h
    obtain ⟨used, h1, h2⟩ := randLoop_local _ _ _ (by omega) _ _ _ _ le_rfl h
    exact ⟨used, h1, fun more => by rw [if_neg hb]; exact h2 more⟩

theorem randInt_suffix {rd rd' : Reader} {m v : Nat} (h : randInt rd m = .ok (v, rd')) : rd' <:+ rd := by
  obtain ⟨used, rfl, -⟩ := randInt_local h
  exact List.suffix_append _ _

theorem ofRes_shrinks {α : Type} (r : Res α) : Shrinks (ofRes r) := by
  intro st s h
  cases r <;> first | cases h; done | (cases h; exact List.suffix_refl _)

theorem withError_shrinks {α : Type} (r : Res α) (f : α → Value) : Shrinks (withError r f) := by
  intro st s h
  cases r <;> (cases h; exact List.suffix_refl _)

theorem one_shrinks (vs : List Value) : Shrinks (one vs) := by unfold one; shrinks

theorem known_shrinks {α : Type} (o : Option α) : Shrinks (known o) := by unfold known; shrinks

theorem indexValue_shrinks (v i : Value) : Shrinks (indexValue v i) := by
  unfold indexValue
  split
  · exact (ofRes_shrinks _).bind fun _ => .pure _
  · exact (ofRes_shrinks _).bind fun _ => .pure _
  · exact .stuck

theorem sliceValue_shrinks (v lo hi : Value) : Shrinks (sliceValue v lo hi) := by
  unfold sliceValue
  split
  · exact (ofRes_shrinks _).bind fun _ => .pure _
  · exact .stuck

theorem field_shrinks (v : Value) (f : Nat) : Shrinks (field v f) := by
  unfold field
  split <;> first
    | exact known_shrinks _
    | exact .stuck
    | exact (Shrinks.onHeap _).bind fun _ => known_shrinks _
    | (split <;> first | exact .pure _ | exact .stuck)

theorem setField_shrinks (u : Value) (f : Nat) (v : Value) : Shrinks (setField u f v) := by
  unfold setField setPriv setPub setCurve setBase updCurve; shrinks

theorem zero_shrinks (t : Expr) : Shrinks (zero t) := by unfold zero; shrinks

theorem composite_shrinks (t : Expr) (ks : List Nat) (vs : List Value) : Shrinks (composite t ks vs) := by
  unfold composite
  split
  · split
    · rcases given (id! "PrivKeyPrefix") ks vs with _ | a
      · exact .stuck
      cases a <;> try exact .stuck
      rcases given (id! "PubKeyHashPrefix") ks vs with _ | b
      · exact .stuck
      cases b <;> try exact .stuck
      exact Shrinks.same fun _ s h => by cases h; rfl
    · shrinks
  · shrinks
  · exact .stuck

theorem bigMethod_shrinks (z : Ptr) (m : Nat) (args : List Value) : Shrinks (bigMethod z m args) := by
  unfold bigMethod; shrinks

theorem hashMethod_shrinks (H : Hashes) (a m : Nat) (args : List Value) : Shrinks (hashMethod H a m args) := by
  have hw : ∀ b, Shrinks (writeHash a b) := fun _ => Shrinks.same fun _ s h => by cases h; rfl
  have hr : Shrinks (readHash a) := by
    refine Shrinks.same fun st s h => ?_
    unfold readHash at h
    split at h <;> cases h <;> rfl
  unfold hashMethod
  shrinks
  all_goals exact hw _

theorem curveMethod_shrinks (E : EcdsaM) (m : Nat) (args : List Value) : Shrinks (curveMethod E m args) := by
  unfold curveMethod; shrinks

theorem drawBig_shrinks (m : Nat) : Shrinks (drawBig m) := by
  intro st s h
  unfold drawBig at h
  rcases hr : randInt st.rd m with ⟨v, rd'⟩ | e | p
  · rw [hr] at h
    cases h
    exact randInt_suffix hr
  · rw [hr] at h
    cases h
    exact List.suffix_refl _
  · rw [hr] at h
    cases h
    exact List.suffix_refl _

theorem sprintf_shrinks (f : GoString) (v : Value) : Shrinks (sprintf f v) := by
  unfold sprintf
  split
  · exact .stuck
  · cases v <;> first | exact .stuck | exact .pure _ | exact Shrinks.same fun _ s h => by cases h; rfl

theorem println_shrinks (vs : List Value) : Shrinks (println vs) := by
  unfold println
  split
  · exact Shrinks.same fun _ s h => by cases h; rfl
  · exact .stuck

theorem newHash_shrinks (b : Bool) : Shrinks (newHash b) := Shrinks.same fun _ s h => by cases h; rfl

theorem external_shrinks (H : Hashes) (p f : Nat) (args : List Value) : Shrinks (external H p f args) := by
  unfold external randBig newError deepEqual
  repeat' first
    | exact Shrinks.stuck
    | exact Shrinks.pure _
    | exact Shrinks.onHeap _
    | exact withError_shrinks _ _
    | exact println_shrinks _
    | exact sprintf_shrinks _ _
    | exact drawBig_shrinks _
    | exact newHash_shrinks _
    | with_reducible refine Shrinks.bind ?_ fun _ => ?_
    | with_reducible refine Shrinks.ite ?_ ?_
    | split

theorem builtin_shrinks {f : Nat} {args : List Value} {m : M (List Value)} (h : builtin f args = some m) : Shrinks m := by
  unfold builtin at h
  repeat' split at h
  all_goals first
    | (cases h; done)
    | (obtain rfl := Option.some.inj h; shrinks)

theorem global_shrinks (x : Nat) : Shrinks (global x) := by
  unfold global
  refine .ite (.pure _) (.ite (.pure _) (.ite (.pure _) (.ite (.pure _) (.ite (.pure _) (Shrinks.same fun st s h => ?_)))))
  split at h <;> cases h <;> rfl

theorem named_shrinks (x : Nat) (env : Env) : Shrinks (named x env) := by
  unfold named
  split
  · exact .pure _
  · exact global_shrinks x

theorem newOf_shrinks (e : Expr) : Shrinks (newOf e) := by unfold newOf; shrinks

theorem setGlobal_shrinks (x : Nat) (v : Value) : Shrinks (setGlobal x v) := by
  refine Shrinks.same fun st s h => ?_
  unfold setGlobal at h
  split at h <;> cases h <;> rfl

theorem storeOne_shrinks (p : Source.Place) (v : Value) (env : Env) : Shrinks (storeOne p v env) := by
  unfold storeOne
  split
  · exact .pure _
  · split
    · exact .pure _
    · exact (setGlobal_shrinks _ _).bind fun _ => .pure _
  · exact (setField_shrinks _ _ _).bind fun _ => .pure _

theorem storeAll_shrinks : ∀ (ps : List Source.Place) (vs : List Value) (env : Env), Shrinks (storeAll ps vs env)
  | [], [], _ => .pure _
  | p :: ps, v :: vs, env => (storeOne_shrinks p v env).bind fun env' => storeAll_shrinks ps vs env'
  | [], _ :: _, _ => .stuck
  | _ :: _, [], _ => .stuck

/-- The functions called take bytes from the front only. -/
def CallsShrink (f : Nat → Nat → List Value → M (List Value)) : Prop := ∀ r x args, Shrinks (f r x args)

section
variable {H : Hashes} {E : EcdsaM} {f : Nat → Nat → List Value → M (List Value)} (h : CallsShrink f)
include h

theorem callName_shrinks (x : Nat) (args : List Value) : Shrinks (callName ⟨H, E, f⟩ x args) := by
  unfold callName
  cases hb : builtin x args with
  | some m => exact builtin_shrinks hb
  | none => exact h _ _ _

theorem callMethod_shrinks (v : Value) (m : Nat) (args : List Value) :
    Shrinks (callMethod ⟨H, E, f⟩ v m args) := by
  cases v <;> first
    | exact .stuck
    | exact h _ _ _
    | exact external_shrinks _ _ _ _
    | exact bigMethod_shrinks _ _ _
    | exact hashMethod_shrinks _ _ _ _
    | exact curveMethod_shrinks _ _ _

omit h in
theorem combine_shrinks {op : Nat} {a : Value} {x : M Value} (hx : Shrinks x) : Shrinks (Source.combine op a x) := by
  unfold Source.combine
  by_cases ho : op = id! "||"
  · rw [if_pos ho]
    cases a <;> try exact .stuck
    rename_i b
    cases b
    · exact hx
    · exact .pure _
  · rw [if_neg ho]
    exact hx.bind fun _ => known_shrinks _

/-- `eval` on `e` and on the operand of `e`. -/
theorem eval_shrinks' (e : Expr) : (∀ env, Shrinks (eval ⟨H, E, f⟩ e env)) ∧
    ∀ d m, e = .sel d m → ∀ env, Shrinks (eval ⟨H, E, f⟩ d env) := by
  induction e with
  | name x => exact ⟨fun env => (named_shrinks x env).bind fun _ => .pure _, fun d m e => by cases e⟩
  | num n => exact ⟨fun env => .pure _, fun d m e => by cases e⟩
  | str s => exact ⟨fun env => .pure _, fun d m e => by cases e⟩
  | nil => exact ⟨fun env => .pure _, fun d m e => by cases e⟩
  | sliceOf t => exact ⟨fun env => .stuck, fun d m e => by cases e⟩
  | sel e f ih =>
    refine ⟨fun env => (ih.1 env).bind fun _ => (one_shrinks _).bind fun _ => (field_shrinks _ _).bind fun _ => .pure _, fun d m e env => ?_⟩
    injection e with e1 _
    subst e1
    exact ih.1 env
  | call k args ihk ih =>
    refine ⟨fun env => ?_, fun d m e => by cases e⟩
    cases k with
    | name x =>
      simp only [eval]
      by_cases hx : x = id! "new"
      · rw [if_pos hx]
        exact newOf_shrinks args
      · rw [if_neg hx]
        exact (ih.1 env).bind fun _ => callName_shrinks h _ _
    | sel d m =>
      simp only [eval]
      exact (ihk.2 d m rfl env).bind fun _ => (one_shrinks _).bind fun _ => (ih.1 env).bind fun _ => callMethod_shrinks h _ _ _
    | _ => exact .stuck
  | index e i ih ihi =>
    exact ⟨fun env => (ih.1 env).bind fun _ => (one_shrinks _).bind fun _ => (ihi.1 env).bind fun _ => (one_shrinks _).bind fun _ =>
      (indexValue_shrinks _ _).bind fun _ => .pure _, fun d m e => by cases e⟩
  | slice e lo hi ih ihl ihh =>
    exact ⟨fun env => (ih.1 env).bind fun _ => (one_shrinks _).bind fun _ => (ihl.1 env).bind fun _ => (one_shrinks _).bind fun _ =>
      (ihh.1 env).bind fun _ => (one_shrinks _).bind fun _ => (sliceValue_shrinks _ _ _).bind fun _ => .pure _, fun d m e => by cases e⟩
  | un op e ih =>
    exact ⟨fun env => (ih.1 env).bind fun _ => (one_shrinks _).bind fun _ => (known_shrinks _).bind fun _ => .pure _,
      fun d m e => by cases e⟩
  | bin op a b iha ihb =>
    exact ⟨fun env => (iha.1 env).bind fun _ => (one_shrinks _).bind fun _ =>
      (combine_shrinks ((ihb.1 env).bind fun _ => one_shrinks _)).bind fun _ => .pure _, fun d m e => by cases e⟩
  | lit t fs iht ih =>
    exact ⟨fun env => (ih.1 env).bind fun _ => (composite_shrinks _ _ _).bind fun _ => .pure _, fun d m e => by cases e⟩
  | kv k e ih => exact ⟨ih.1, fun d m e => by cases e⟩
  | cons e es ih ihs =>
    exact ⟨fun env => (ih.1 env).bind fun _ => (ihs.1 env).bind fun _ => .pure _, fun d m e => by cases e⟩

theorem eval_shrinks (e : Expr) (env : Env) : Shrinks (eval ⟨H, E, f⟩ e env) := (eval_shrinks' h e).1 env

theorem places_shrinks (l : Expr) (env : Env) : Shrinks (Source.places ⟨H, E, f⟩ l env) := by
  induction l with
  | cons e l _ ih =>
    cases e with
    | name x => exact ih.bind fun _ => .pure _
    | sel e m => exact (eval_shrinks h e env).bind fun _ => (one_shrinks _).bind fun _ => ih.bind fun _ => .pure _
    | _ => exact .stuck
  | nil => exact .pure _
  | _ => exact .stuck

theorem assignment_shrinks (l r : Expr) (env : Env) : Shrinks (assignment ⟨H, E, f⟩ l r env) :=
  (places_shrinks h l env).bind fun _ => (eval_shrinks h r env).bind fun _ => (storeAll_shrinks _ _ _).bind fun _ => .pure _

omit h in
theorem follow_shrinks {c : Ctl} {x : Env → M Ctl} (hx : ∀ env, Shrinks (x env)) : Shrinks (follow c x) := by
  cases c <;> first | exact hx _ | exact .pure _

omit h in
theorem again_shrinks {c : Ctl} {x : Env → M Ctl} (hx : ∀ env, Shrinks (x env)) : Shrinks (again c x) := by
  cases c <;> first | exact hx _ | exact .pure _

omit h in
theorem choose_shrinks {vs : List Value} {x y : M Ctl} (hx : Shrinks x) (hy : Shrinks y) : Shrinks (choose vs x y) := by
  unfold choose
  shrinks

omit h in
theorem rounds_shrinks {c : Env → M (List Value)} {b p : Env → M Ctl} (hc : ∀ env, Shrinks (c env))
    (hb : ∀ env, Shrinks (b env)) (hp : ∀ env, Shrinks (p env)) (n : Nat) (env : Env) : Shrinks (rounds c b p n env) := by
  induction n generalizing env with
  | zero => exact .stuck
  | succ n ih =>
    exact (hc env).bind fun _ => choose_shrinks ((hb env).bind fun _ => again_shrinks fun env => (hp env).bind fun _ =>
      follow_shrinks fun env => ih env) (.pure _)

omit h in
theorem ranging_shrinks {b : Env → M Ctl} (hb : ∀ env, Shrinks (b env)) (k v : Nat) (env : Env) (i : Nat)
    (ws : List GoString) : Shrinks (ranging b k v env i ws) := by
  induction ws generalizing i env with
  | nil => exact .pure _
  | cons w ws ih => exact (hb _).bind fun _ => again_shrinks fun env => ih env (i + 1)

theorem exec_shrinks (n : Nat) (s : Stmt) : ∀ env, Shrinks (exec ⟨H, E, f⟩ n s env) := by
  induction s with
  | skip => exact fun env => .pure _
  | brk => exact fun env => .pure _
  | var x t => exact fun env => (zero_shrinks t).bind fun _ => .pure _
  | seq a b iha ihb => exact fun env => (iha env).bind fun _ => follow_shrinks fun env => ihb env
  | block s ih => exact fun env => (ih _).bind fun _ => .pure _
  | define l r => exact fun env => (eval_shrinks h r env).bind fun _ => (known_shrinks _).bind fun _ => .pure _
  | assign l r => exact assignment_shrinks h l r
  | addAssign l r => exact assignment_shrinks h _ _
  | inc l => exact assignment_shrinks h _ _
  | expr e => exact fun env => (eval_shrinks h e env).bind fun _ => .pure _
  | ret e => exact fun env => (eval_shrinks h e env).bind fun _ => .pure _
  | ite c t e iht ihe => exact fun env => (eval_shrinks h c env).bind fun _ => choose_shrinks (iht env) (ihe env)
  | loop i c p b ihi ihp ihb =>
    exact fun env => (ihi _).bind fun _ => (follow_shrinks fun env => rounds_shrinks (eval_shrinks h c) ihb ihp n env).bind fun _ => .pure _
  | range k v e b ih =>
    refine fun env => (eval_shrinks h e env).bind fun vs => ?_
    rcases vs with _ | ⟨v, _ | ⟨_, _⟩⟩
    · exact .stuck
    · cases v <;> first | exact .stuck | exact ranging_shrinks ih _ _ env 0 _
    · cases v <;> exact .stuck
  | switch s ih => exact fun env => (ih env).bind fun _ => again_shrinks fun _ => .pure _

end

/-- Calls take bytes from the front only. -/
theorem runFunc_shrinks (H : Hashes) (E : EcdsaM) (ds : List Decl) : ∀ n, CallsShrink (runFunc H E ds n)
  | 0 => fun _ _ _ => .stuck
  | n + 1 => by
    intro recv name args
    unfold runFunc
    split
    · exact .stuck
    · split
      · exact .stuck
      · refine (exec_shrinks (runFunc_shrinks H E ds n) n _ _).bind fun c => ?_
        unfold Func.finish
        cases c with
        | ret vs => exact known_shrinks _
        | next env => exact .ite (.pure _) .stuck
        | brk env => exact .stuck


/-- C137: for every program of the language, a call takes random bytes from the front and puts none back, however it ends. -/
theorem C137_from_front (H : Hashes) (E : EcdsaM) (ds : List Decl) (recv name : Nat) (args : List Value) (st st' : State)
    (o : Out (List Value)) (h : Source.Ends H E ds recv name args st o) (hs : o.state? = some st') : st'.rd <:+ st.rd := by
  obtain ⟨-, n, hn⟩ := h
  refine runFunc_shrinks H E ds n recv name args st st' ?_
  rw [hn n le_rfl]
  exact hs

attribute [local irreducible] attempt in
theorem generate_local (H : Hashes) (net : Option Network) : ∀ (m : Nat) (rd rd' : Reader) (k : PrivateKey), rd.length ≤ m →
    generatePrivateKey H rd net = .ok (k, rd') →
    ∃ used, rd = used ++ rd' ∧ ∀ more, generatePrivateKey H (used ++ more) net = .ok (k, more) := by
  intro m
  induction m with
  | zero =>
    intro rd rd' v hm h
    rw [generatePrivateKey_step, if_neg (by omega)] at h
    cases h
  | succ m ih =>
    intro rd rd' v hm h
    rw [generatePrivateKey_step] at h
    by_cases hl : 32 ≤ rd.length
    swap
    · rw [if_neg hl] at h
      cases h
    have e : (rd.take 32).length = 32 := by simp [hl]
    rw [if_pos hl] at h
    have step : ∀ used more, generatePrivateKey H (rd.take 32 ++ used ++ more) net =
        if bytesToNat (rd.take 32) < Spec.n - 1 then
          match attempt H net (bytesToNat (rd.take 32)) with
          | .err e => .err e
          | .panic p => .panic p
          | .ok none => generatePrivateKey H (used ++ more) net
          | .ok (some k) => .ok (k, used ++ more)
        else generatePrivateKey H (used ++ more) net := by
      intro used more
      conv_lhs => rw [generatePrivateKey_step]
      rw [if_pos (by simp [hl]), List.append_assoc, List.take_left' e, List.drop_left' e]
      split
      · rcases attempt H net (bytesToNat (rd.take 32)) with (_ | k) | e' | p <;> rfl
      · rfl
    have skip : generatePrivateKey H (rd.drop 32) net = .ok (v, rd') →
        ∃ used, rd = rd.take 32 ++ used ++ rd' ∧ ∀ more, generatePrivateKey H (used ++ more) net = .ok (v, more) := by
      intro h
      obtain ⟨used, h1, h2⟩ := ih (rd.drop 32) rd' v (by simp; omega) h
      exact ⟨used, by rw [List.append_assoc, ← h1, List.take_append_drop], h2⟩
    by_cases hv : bytesToNat (rd.take 32) < Spec.n - 1
    · rw [if_pos hv] at h
      rcases ha : attempt H net (bytesToNat (rd.take 32)) with (_ | k) | e' | p
      · rw [ha] at h
        obtain ⟨used, h1, h2⟩ := skip h
        refine ⟨_, h1, fun more => ?_⟩
        rw [step, if_pos hv, ha]
        exact h2 more
      · rw [ha] at h
        cases h
        refine ⟨rd.take 32 ++ [], by simp, fun more => ?_⟩
        rw [step, if_pos hv, ha]
        rfl
      · rw [ha] at h
        cases h
      · rw [ha] at h
        cases h
    · rw [if_neg hv] at h
      obtain ⟨used, h1, h2⟩ := skip h
      refine ⟨_, h1, fun more => ?_⟩
      rw [step, if_neg hv]
      exact h2 more

theorem newMnemonic_local (H : Hashes) (words : Int) (wl : Option (List GoString)) (rd rd' : Reader) (t : GoString)
    (h : newMnemonic H rd words wl = .ok (t, rd')) :
    ∃ used, rd = used ++ rd' ∧ ∀ more, newMnemonic H (used ++ more) words wl = .ok (t, more) := by
  unfold newMnemonic at h ⊢
  cases wl with
  | none => cases h
  | some l =>
    dsimp only at h ⊢
    cases hw : entropyLengthOf words with
    | none => rw [hw] at h; cases h
    | some el =>
      rw [hw] at h
      dsimp only at h ⊢
      rcases hr : randInt rd (2 ^ el) with ⟨v, rd1⟩ | e | p
      · obtain ⟨used, h1, h2⟩ := randInt_local hr
        rw [hr] at h
        rcases hp : phraseOf H el v l with t' | e | p
        · have h' : (Res.ok (t', rd1) : Res (GoString × Reader)) = .ok (t, rd') := by
            have := h
            simp only [bind, Res.bind, hp] at this
            exact this
          cases h'
          refine ⟨used, h1, fun more => ?_⟩
          rw [h2 more]
          simp only [bind, Res.bind, hp]
        · simp only [bind, Res.bind, hp] at h
          cases h
        · simp only [bind, Res.bind, hp] at h
          cases h
      · rw [hr] at h
        cases h
      · rw [hr] at h
        cases h

section
variable (H : Hashes) (E : EcdsaM) (V : Ecdsa) (hE : Pkg E) (hV : E.Refines V) (nets : List Network) (st : State)
  (hs : Session H E nets st)
include hE hV hs

open Spec in
attribute [local irreducible] generateRandomBigInt in
/-- C137: a call of the repository that does not fail takes bytes from the front, and shows the same whatever follows them; it
leaves what follows. -/
theorem C137_no_lookahead (r : Request) (vs : List Value) (s : State) (h : r.Ends H E st (.ok vs s)) (hn : NoFailure vs) :
    ∃ used, st.rd = used ++ s.rd ∧ ∀ more, ∃ vs' s', r.Ends H E { st with rd := used ++ more } (.ok vs' s') ∧
      ShowSame st { st with rd := used ++ more } (.ok vs s) (.ok vs' s') ∧ s'.rd = more := by
  obtain ⟨o, h1, h2⟩ := shows_answer hE hV (hs.intact hE) r
  obtain rfl := h.unique h1
  have key : ∃ used rest, st.rd = used ++ rest ∧ (answer H V st.rd (question st r)).rest = some rest ∧
      ∀ more, (answer H V (used ++ more) (question st r)).out = (answer H V st.rd (question st r)).out ∧
        (answer H V (used ++ more) (question st r)).log = (answer H V st.rd (question st r)).log ∧
        (answer H V (used ++ more) (question st r)).rest = some more := by
    by_cases hr : Draws r
    · cases r with
      | generatePrivateKey net =>
        obtain ⟨o, g1, g2⟩ := C108_generatePrivateKey H E hE st net
        obtain rfl := h.unique g1
        rcases hg : generatePrivateKey H st.rd (loadNet st.heap net) with ⟨v, rd⟩ | e | p <;> rw [hg] at g2
        · obtain ⟨used, e1, e2⟩ := generate_local H _ _ _ _ _ le_rfl hg
          refine ⟨used, rd, e1, ?_, fun more => ?_⟩
          · show restOf (generatePrivateKey H st.rd (loadNet st.heap net)) = some rd
            rw [hg]
            rfl
          · show digest _ _ (generatePrivateKey H (used ++ more) (loadNet st.heap net)) = digest _ _ (generatePrivateKey H st.rd (loadNet st.heap net)) ∧
              _ ∧ restOf (generatePrivateKey H (used ++ more) (loadNet st.heap net)) = some more
            rw [hg, e2 more]
            exact ⟨rfl, rfl, rfl⟩
        · exact g2.elim
        · obtain ⟨s, e, -⟩ := g2
          cases e
      | newMnemonic n wl =>
        obtain ⟨o, g1, g2⟩ := C108_newMnemonic H E st n wl
        obtain rfl := h.unique g1
        rcases hg : newMnemonic H st.rd n wl with ⟨v, rd⟩ | e | p <;> rw [hg] at g2
        · obtain ⟨used, e1, e2⟩ := newMnemonic_local H _ _ _ _ _ hg
          refine ⟨used, rd, e1, ?_, fun more => ?_⟩
          · show restOf (newMnemonic H st.rd n wl) = some rd
            rw [hg]
            rfl
          · show digest _ _ (newMnemonic H (used ++ more) n wl) = digest _ _ (newMnemonic H st.rd n wl) ∧
              _ ∧ restOf (newMnemonic H (used ++ more) n wl) = some more
            rw [hg, e2 more]
            exact ⟨rfl, rfl, rfl⟩
        · obtain ⟨s, e', -⟩ := g2
          cases e'
          exact (hn e rfl).elim
        · obtain ⟨s, e, -⟩ := g2
          cases e
      | _ => exact hr.elim
    · refine ⟨[], st.rd, rfl, (answer_quiet (H := H) (V := V) (st := st) st.rd st.rd r hr).2.2, fun more => ?_⟩
      have q1 := answer_quiet (H := H) (V := V) (st := st) st.rd more r hr
      have q2 := answer_quiet (H := H) (V := V) (st := st) more more r hr
      exact ⟨q1.1.symm, q1.2.1.symm, q2.2.2⟩
  obtain ⟨used, rest, e1, e2, e3⟩ := key
  refine ⟨used, by rw [(h2.2 s rfl).2 rest e2]; exact e1, fun more => ?_⟩
  obtain ⟨o', g1, g2⟩ := shows_answer (st := { st with rd := used ++ more }) hE hV ⟨(hs.intact hE).curve, (hs.intact hE).objs⟩ r
  have hss := showSame_of_shows (st := st) (st' := { st with rd := used ++ more }) h2 g2 (e3 more).1.symm (e3 more).2.1.symm
  cases o' with
  | ok vs' s' => exact ⟨vs', s', g1, hss, (g2.2 s' rfl).2 more (e3 more).2.2⟩
  | panic p s' => exact hss.elim
  | stuck => exact hss.elim

end

/-! ## Why a goroutine panics -/

namespace Spec

/-- Specification: the goroutine, alone, comes to a call of `GeneratePrivateKey` when its random bytes hold no key any more. -/
inductive Starves (H : Hashes) (E : EcdsaM) : Routine → State → List Ptr → List Ptr → Prop
  | here {network : Ptr} {k : List Value → Routine} {st : State} {ps qs : List Ptr} : (¬ ∃ body rest, FirstKey st.rd body rest) →
      Starves H E (.call (.generatePrivateKey network) k) st ps qs
  | call {r : Request} {k : List Value → Routine} {st st' : State} {ps qs : List Ptr} {vs : List Value} :
      (r.on ps qs).EndsFixed H E st (.ok vs st') → Starves H E (k (vs.map mask)) st' (ps ++ returnedPrivs vs) (qs ++ returnedPubs vs) →
      Starves H E (.call r k) st ps qs
  | look {p : Nat} {wif : Bool} {k : GoString → Routine} {st : State} {ps qs : List Ptr} {o : PrivObj} :
      loadPriv st.heap (pick ps (some p)) = some o → Starves H E (k (if wif then o.WIF else o.Hex)) st ps qs →
      Starves H E (.look p wif k) st ps qs

/-- Specification: the goroutine never calls `GeneratePrivateKey`, whatever it is answered. -/
def NoKeys : Routine → Prop
  | .stop => True
  | .call r k => (∀ network, r ≠ .generatePrivateKey network) ∧ ∀ vs, NoKeys (k vs)
  | .look _ _ k => ∀ s, NoKeys (k s)

end Spec

open Spec

theorem on_generate {r : Request} {ps qs : List Ptr} {network : Ptr} (h : r.on ps qs = .generatePrivateKey network) :
    r = .generatePrivateKey network := by
  cases r <;> simp only [Request.on, reduceCtorEq] at h
  exact h

section
variable {H : Hashes}

theorem routine_panic {E : EcdsaM} {V : Ecdsa} (hE : Pkg E) (hV : E.Refines V) (hC : EcdsaContract V) :
    ∀ (R : Routine) (st st' : State) (p : GoPanic) (ps qs : List Ptr), Sound H st ps qs → Fits st.heap.nets.length ps.length qs.length R →
      EndsAlone H E st ps qs R (.panic p st') → Starves H E R st ps qs
  | .stop, st, st', p, ps, qs, _, _, ⟨n, hn⟩ => by cases hn n le_rfl
  | .call r k, st, st', p, ps, qs, hs, hf, ⟨n0, h0⟩ => by
    obtain ⟨ha, hk⟩ := hf
    obtain ⟨o, he, ho⟩ := hs.step hE hV hC (r.on ps qs) (asks_typed ha)
    rcases ho with ⟨vs, st1, rfl, hg, hs1⟩ | ⟨_, st1, hr, hno, -, -⟩
    · obtain ⟨-, n, hn⟩ := id he
      rw [(on_name r ps qs).1, (on_name r ps qs).2] at hn
      have hf1 := hk (vs.map mask)
      rw [mask_privs, mask_pubs, hg.nets, ← List.length_append, ← List.length_append] at hf1
      have h1 : EndsAlone H E st1 (ps ++ returnedPrivs vs) (qs ++ returnedPubs vs) (k (vs.map mask)) (.panic p st') := by
        refine ⟨max n0 n, fun m hm => ?_⟩
        have h := h0 m (le_trans (le_max_left _ _) hm)
        have e : (runFunc H E repaired m r.recv r.name (r.on ps qs).args st).andThen _ = Out.panic p st' := h
        rw [hn m (le_trans (le_max_right _ _) hm)] at e
        have e2 : ((k (vs.map mask)).run H repaired m E (ps ++ returnedPrivs vs) (qs ++ returnedPubs vs) st1).andThen _ = Out.panic p st' := e
        rcases e3 : (k (vs.map mask)).run H repaired m E (ps ++ returnedPrivs vs) (qs ++ returnedPubs vs) st1 with ⟨ws, s⟩ | ⟨q, s⟩ | _ <;>
          rw [e3] at e2 <;> cases e2
        rfl
      exact .call he (routine_panic hE hV hC (k (vs.map mask)) st1 st' p _ _ hs1 hf1 h1)
    · obtain rfl := on_generate hr
      exact .here hno
  | .look q wif k, st, st', p, ps, qs, hs, hf, ⟨n0, h0⟩ => by
    obtain ⟨hp, hk⟩ := hf
    obtain ⟨nw, net, t, w, pre, bd, c, h1, -⟩ := hs.privs _ (pick_mem ⟨q, rfl, hp⟩)
    obtain ⟨ob, h2, -⟩ := h1.object
    have e := look_text h2 wif
    refine .look h2 (routine_panic hE hV hC (k (if wif then ob.WIF else ob.Hex)) st st' p ps qs hs (hk _) ⟨n0, fun m hm => ?_⟩)
    rw [← h0 m hm]
    have e2 : (Routine.look q wif k).run H repaired m E ps qs =
        (field (.priv (pick ps (some q))) (lookField wif) >>= asText) >>= fun s => (k s).run H repaired m E ps qs := by
      funext st
      show (field (.priv (pick ps (some q))) (lookField wif) st).andThen _ = Out.andThen ((field (.priv (pick ps (some q))) (lookField wif) st).andThen asText) _
      cases field (.priv (pick ps (some q))) (lookField wif) st <;> rfl
    rw [e2]
    show _ = Out.andThen ((field (.priv (pick ps (some q))) (lookField wif) >>= asText) st) _
    rw [e]
    rfl

theorem starves_keys {E : EcdsaM} {R : Routine} {st : State} {ps qs : List Ptr} (h : Starves H E R st ps qs) (hn : NoKeys R) : False := by
  induction h with
  | here => exact hn.1 _ rfl
  | call _ _ ih => exact ih (hn.2 _)
  | look _ _ ih => exact ih (hn _)

end

section
variable (H : Hashes) (E : EcdsaP) (V : Ecdsa) (hL : E.Local) (hE : Pkg E.toM) (hV : E.toM.Refines V)
    (hC : EcdsaContract V) (nets : List Network) (st : State) (ps qs : List Ptr) (hr : ForkRun H E nets st ps qs) (R : Routine)
    (rd : Reader) (hf : Fits st.heap.nets.length ps.length qs.length R)
include hL hE hV hC hr hf

/-- C135. If a goroutine panics, then it has come to a call of `GeneratePrivateKey` when its random bytes held no key any more. -/
theorem C135_panic_reason (p : GoPanic) (st' : State) (h : EndsAlone H E.toM { st with rd := rd } ps qs R (.panic p st')) :
    Starves H E.toM R { st with rd := rd } ps qs :=
  routine_panic hE hV hC R { st with rd := rd } st' p ps qs ((hr.sound hL hE hV hC).kept (rd := rd) (.refl _)) hf h

/-- C135. A goroutine that never calls `GeneratePrivateKey` never panics, with any random bytes or none. -/
theorem C135_calm (hn : NoKeys R) : ∃ us st', EndsAlone H E.toM { st with rd := rd } ps qs R (.ok us st') := by
  obtain ⟨o, h1, ⟨us, st', rfl, -⟩ | ⟨st', rfl⟩⟩ := routine_alone hE hV hC R { st with rd := rd } ps qs
    ((hr.sound hL hE hV hC).kept (rd := rd) (.refl _)) hf
  · exact ⟨us, st', h1⟩
  · exact (starves_keys (C135_panic_reason H E V hL hE hV hC nets st ps qs hr R rd hf _ st' h1) hn).elim

end

/-! ## Cases -/

namespace Samples

/-- The first goroutine of C135 never calls `GeneratePrivateKey`, so it returns with any random bytes; the second starves with
31 bytes. -/
example (rd : Reader) : ∃ us st', EndsAlone realHashes curveP.toM { ready [] with rd := rd } [] [] (crew 0) (.ok us st') := by
  obtain ⟨hL, hE, hV, hC⟩ := curveP_all
  refine C135_calm realHashes curveP EC.ref hL hE hV hC [] (ready []) [] [] crew_state (crew 0) rd (crew_fits 0) ?_
  refine ⟨nofun, fun vs => ?_⟩
  simp only [ifKey]
  split
  · trivial
  · refine fun w => ?_
    beta_reduce
    split
    case isFalse => trivial
    refine ⟨nofun, fun us => ?_⟩
    simp only [ifKey]
    split
    · trivial
    · exact ⟨nofun, fun _ => trivial⟩

example : Starves realHashes curveP.toM (crew 1) { ready [] with rd := List.replicate 31 7 } [] [] :=
  .here (by rintro ⟨body, rest, h⟩; have := h.length; simp at this)

/-- C137, a case: a phrase of twelve words is made of sixteen bytes; with any bytes after them the call shows the same and leaves
those. -/
example : ∃ vs s, (Request.newMnemonic 12 (some EnglishWordlist)).Ends realHashes pkg (stocked (List.replicate 20 255)) (.ok vs s) ∧
    ∀ more, ∃ vs' s', (Request.newMnemonic 12 (some EnglishWordlist)).Ends realHashes pkg
        { stocked (List.replicate 20 255) with rd := List.replicate 16 255 ++ more } (.ok vs' s') ∧ s'.rd = more ∧
      vs.map (see s) = vs'.map (see s') := by
  have e5 : (stocked (List.replicate 20 255)).rd = List.replicate 20 255 := by decide +kernel
  obtain ⟨o, h, hp⟩ := C131_phrase_call realHashes pkg 12 (by decide) (stocked (List.replicate 20 255))
  rw [e5] at hp
  rcases hp with ⟨h1, -⟩ | ⟨ent, rest, e1, e2, hp⟩
  · simp at h1
  have e6 : ent = List.replicate 16 255 := by
    have := congrArg (List.take 16) e1
    rw [List.take_left' e2] at this
    exact this.symm
  have e7 : rest = List.replicate 4 255 := by
    have := congrArg (List.drop 16) e1
    rw [List.drop_left' e2] at this
    exact this.symm
  rcases hp with ⟨h1, -⟩ | ⟨-, vs, s, rfl, e3, t, rfl, -⟩
  · exfalso
    rw [e6] at h1
    revert h1
    decide +kernel
  · refine ⟨_, s, h, fun more => ?_⟩
    obtain ⟨used, h1, h2⟩ := C137_no_lookahead realHashes pkg EC.ref refPkg.1 refPkg.2.1 [] _ (stocked_session realHashes _ _) _ _ _ h
      (by simp [NoFailure])
    obtain rfl : used = List.replicate 16 255 := by
      rw [e5, e3, e7] at h1
      exact List.append_cancel_right (bs := List.replicate 4 255) (h1.symm.trans (by decide))
    obtain ⟨vs', s', h3, h4, h5⟩ := h2 more
    exact ⟨vs', s', h3, h5, h4.1⟩

end Samples

end Btc
