import Verif.Threads.Tree

/-!
# Alone, the trees do what the interpreter does

`Agrees x y`: the tree `x` run to its end without anyone else gives what `y` gives, unless it is illegal.
-/

namespace Btc.Threads

open Mem Source

/-- The tree `x`, run alone, does what `y` does. -/
def Agrees {α : Type} (x : TM α) (y : M α) : Prop := ∀ (s : Rest) (h : Heap),
  match (x s).run h with
  | (.ok (.done a s'), h') => y (s.with h) = .ok a (s'.with h') ∧ s'.vars = s.vars
  | (.ok .stuck, _) => y (s.with h) = .stuck
  | (.ok .illegal, _) => True
  | (.err _, _) => False
  | (.panic p, h') => ∃ st, y (s.with h) = .panic p st ∧ st.heap = h'

namespace Agrees

variable {α β : Type}

theorem pure (a : α) : Agrees (Pure.pure a) (Pure.pure a) := fun _ _ => ⟨rfl, rfl⟩

theorem stuck : Agrees (stuckT : TM α) Source.stuck := fun _ _ => rfl

theorem illegal {y : M α} : Agrees illegalT y := fun _ _ => trivial

theorem panic (p : GoPanic) : Agrees (panicT p : TM α) (Source.panic p) := fun _ _ => ⟨_, rfl, rfl⟩

theorem bind {x : TM α} {y : M α} {f : α → TM β} {g : α → M β} (hx : Agrees x y) (hf : ∀ a, Agrees (f a) (g a)) :
    Agrees (x >>= f) (y >>= g) := by
  intro s h
  have h1 := hx s h
  have e : ((x >>= f) s).run h = _ := Prog.run_next (Ended.andThen f) (fun e => .ret (.err e)) (x s) h
  rw [e]
  rcases hr : (x s).run h with ⟨(_ | _ | _) | _ | _, h'⟩ <;> rw [hr] at h1 <;> simp only at h1
  · rename_i a s'
    have h2 := hf a s' h'
    have ey : (y >>= g) (s.with h) = g a (s'.with h') := by
      show (y (s.with h)).andThen g = _
      rw [h1.1]
      rfl
    simp only [ey, Ended.andThen]
    rcases hr2 : (f a s').run h' with ⟨(_ | _ | _) | _ | _, h''⟩ <;> rw [hr2] at h2 <;> simp only at h2 ⊢
    · exact ⟨h2.1, h2.2.trans h1.2⟩
    · exact h2
    · exact h2
  · show (y (s.with h)).andThen g = _
    rw [h1]
    rfl
  · trivial
  · obtain ⟨st, h1, h2⟩ := h1
    refine ⟨st, ?_, h2⟩
    show (y (s.with h)).andThen g = _
    rw [h1]
    rfl

theorem onHeap {m : Prog α} {m' : HM α} (e : m.run = m') : Agrees (onHeapT m) (Source.onHeap m') := by
  subst e
  intro s h
  unfold onHeapT
  rw [Prog.run_next]
  rcases hr : m.run h with ⟨_ | _ | _, h'⟩ <;> simp only [Prog.run, Source.onHeap, Rest.with, hr]
  · exact ⟨trivial, trivial⟩
  · exact ⟨_, rfl, rfl⟩

theorem ite {c : Prop} [Decidable c] {x x' : TM α} {y y' : M α} (h : Agrees x y) (h' : Agrees x' y') :
    Agrees (if c then x else x') (if c then y else y') := by
  split
  · exact h
  · exact h'

theorem ofRes (r : Res α) : Agrees (ofResT r) (Source.ofRes r) := by
  intro s h
  cases r
  · exact ⟨rfl, rfl⟩
  · rfl
  · exact ⟨_, rfl, rfl⟩

theorem withError (r : Res α) (f : α → Value) : Agrees (withErrorT r f) (Source.withError r f) := by
  intro s h
  cases r
  · exact ⟨rfl, rfl⟩
  · exact ⟨rfl, rfl⟩
  · exact ⟨_, rfl, rfl⟩

theorem one (vs : List Value) : Agrees (oneT vs) (Source.one vs) := by
  rcases vs with _ | ⟨v, _ | _⟩
  · exact stuck
  · exact pure _
  · exact stuck

theorem known (o : Option α) : Agrees (knownT o) (Source.known o) := by
  cases o
  · exact stuck
  · exact pure _

end Agrees

theorem run_readPriv (p : Ptr) : (readPrivP p).run = readPriv p := by
  cases p with
  | none => rfl
  | some a =>
    funext h
    simp only [readPrivP, privFieldP, Prog.run, readPriv, loadPriv, Option.bind_some]
    cases h.privs[a]? <;> rfl

theorem run_readPub (p : Ptr) : (readPubP p).run = readPub p := by
  cases p with
  | none => rfl
  | some a =>
    funext h
    simp only [readPubP, pubFieldP, Prog.run, readPub, loadPub, Option.bind_some]
    cases h.pubs[a]? <;> rfl

theorem run_setString (z : Ptr) (s : GoString) (base : Nat) : (setStringP z s base).run = setString z s base := by
  unfold setStringP setString
  cases bigSetString s base with
  | none => rfl
  | some v => simp only [Prog.run_bind, run_writeInt, Prog.run_pure]

/-- Proves that a tree agrees with the computation of the same form. -/
macro "agree" : tactic => `(tactic|
  repeat' first
    | with_reducible exact Agrees.stuck
    | with_reducible exact Agrees.pure _
    | with_reducible exact Agrees.panic _
    | with_reducible exact Agrees.illegal
    | with_reducible exact Agrees.one _
    | with_reducible exact Agrees.known _
    | with_reducible exact Agrees.ofRes _
    | with_reducible exact Agrees.withError _ _
    | with_reducible exact Agrees.onHeap (run_readInt _)
    | with_reducible exact Agrees.onHeap (run_writeInt _ _)
    | with_reducible exact Agrees.onHeap (run_readNet _)
    | with_reducible exact Agrees.onHeap (run_readPriv _)
    | with_reducible exact Agrees.onHeap (run_readPub _)
    | with_reducible exact Agrees.onHeap run_readCurve
    | with_reducible exact Agrees.onHeap (run_updPriv _ _)
    | with_reducible exact Agrees.onHeap (run_updPub _ _)
    | with_reducible exact Agrees.onHeap run_newPriv
    | with_reducible exact Agrees.onHeap run_newPub
    | with_reducible exact Agrees.onHeap (run_newInt _)
    | with_reducible exact Agrees.onHeap (run_loadNet _)
    | with_reducible exact Agrees.onHeap (run_bigSet _ _)
    | with_reducible exact Agrees.onHeap (run_bigAdd _ _ _)
    | with_reducible exact Agrees.onHeap (run_bigMul _ _ _)
    | with_reducible exact Agrees.onHeap (run_bigMod _ _ _)
    | with_reducible exact Agrees.onHeap (run_setString _ _ _)
    | with_reducible refine Agrees.ite ?_ ?_
    | with_reducible refine Agrees.bind ?_ fun _ => ?_)

theorem agree_index (v i : Value) : Agrees (indexValueT v i) (indexValue v i) := by
  unfold indexValueT indexValue
  cases v <;> try exact .stuck
  all_goals cases i <;> first | exact .stuck | agree

theorem agree_slice (v lo hi : Value) : Agrees (sliceValueT v lo hi) (sliceValue v lo hi) := by
  unfold sliceValueT sliceValue
  cases v <;> try exact .stuck
  cases lo <;> try exact .stuck
  cases hi <;> first | exact .stuck | agree

theorem agree_field (v : Value) (f : Nat) : Agrees (fieldT v f) (field v f) := by
  unfold fieldT field
  cases v <;> simp only <;> agree

theorem agree_setPriv (a f : Nat) (v : Value) : Agrees (setPrivT a f v) (setPriv a f v) := by
  unfold setPrivT setPriv
  cases v <;> simp only <;> agree

theorem agree_setPub (a f : Nat) (v : Value) : Agrees (setPubT a f v) (setPub a f v) := by
  unfold setPubT setPub
  cases v <;> simp only <;> agree

theorem agree_setField (u : Value) (f : Nat) (v : Value) : Agrees (setFieldT u f v) (setField u f v) := by
  unfold setFieldT setField
  cases u <;> first | exact .stuck | exact .illegal | exact agree_setPriv _ _ _ | exact agree_setPub _ _ _ | skip
  all_goals
    rename_i p
    cases p <;> first | exact .panic _ | exact agree_setPriv _ _ _ | exact agree_setPub _ _ _

theorem agree_zero (t : Expr) : Agrees (zeroT t) (zero t) := by
  unfold zeroT zero
  cases t <;> first | exact .stuck | skip
  · simp only; agree
  · rename_i t
    cases t <;> first | exact .stuck | (simp only; agree)

theorem agree_composite (t : Expr) (ks : List Nat) (vs : List Value) : Agrees (compositeT t ks vs) (composite t ks vs) := by
  unfold compositeT composite
  cases t <;> first | exact .stuck | skip
  · simp only
    refine .ite ?_ (.ite ?_ .stuck)
    · generalize given (id! "PrivKeyPrefix") ks vs = a
      generalize given (id! "PubKeyHashPrefix") ks vs = b
      rcases a with _ | a
      · exact .stuck
      cases a <;> try exact .stuck
      rcases b with _ | b
      · exact .stuck
      cases b <;> first | exact .stuck | exact .illegal
    · generalize given (id! "X") ks vs = a
      generalize given (id! "Y") ks vs = b
      generalize given (id! "Network") ks vs = c
      rcases a with _ | a
      · exact .stuck
      cases a <;> try exact .stuck
      rcases b with _ | b
      · exact .stuck
      cases b <;> try exact .stuck
      rcases c with _ | c
      · exact .stuck
      cases c <;> try exact .stuck
      simp only
      agree
  · rename_i t x
    cases t <;> try exact .stuck
    simp only
    refine .ite ?_ .stuck
    generalize given (id! "X") ks vs = a
    generalize given (id! "Y") ks vs = b
    rcases a with _ | a
    · exact .stuck
    cases a <;> try exact .stuck
    rcases b with _ | b
    · exact .stuck
    cases b <;> try exact .stuck
    exact .pure _

theorem agree_bigMethod (z : Ptr) (m : Nat) (args : List Value) : Agrees (bigMethodT z m args) (bigMethod z m args) := by
  unfold bigMethodT bigMethod
  rcases args with _ | ⟨a, _ | ⟨b, _ | ⟨c, _ | ⟨d, l⟩⟩⟩⟩
  · simp only; agree
  · cases a <;> simp only <;> agree
  · cases a <;> try exact .stuck
    all_goals cases b <;> first | exact .stuck | (simp only; agree)
  · cases a <;> try exact .stuck
    all_goals cases b <;> try exact .stuck
    cases c <;> first | exact .stuck | (simp only; agree)
  · cases a <;> try exact .stuck
    all_goals cases b <;> try exact .stuck
    cases c <;> exact .stuck

theorem agree_hashMethod (H : Hashes) (a m : Nat) (args : List Value) :
    Agrees (hashMethodT H a m args) (hashMethod H a m args) := by
  unfold hashMethodT hashMethod
  have hw : ∀ b, Agrees (writeHashT a b) (writeHash a b) := fun b s h => ⟨rfl, rfl⟩
  have hr : Agrees (readHashT a) (readHash a) := by
    intro s h
    simp only [readHashT, readHash, Rest.with]
    cases s.hashes[a]?
    · rfl
    · exact ⟨rfl, rfl⟩
  rcases args with _ | ⟨v, _ | ⟨b, l⟩⟩
  · exact .stuck
  · cases v <;> try exact .stuck
    · exact .ite (.bind hr fun _ => .pure _) .stuck
    · exact .ite (.bind (hw _) fun _ => .pure _) .stuck
  · cases v <;> exact .stuck

theorem agree_curveMethod (E : EcdsaP) (m : Nat) (args : List Value) :
    Agrees (curveMethodT E m args) (curveMethod E.toM m args) := by
  unfold curveMethodT curveMethod
  rcases args with _ | ⟨a, _ | ⟨b, _ | ⟨c, l⟩⟩⟩
  · exact .stuck
  · cases a <;> try exact .stuck
    exact .ite (.bind (.onHeap rfl) fun _ => .pure _) .stuck
  · cases a <;> try exact .stuck
    all_goals cases b <;> try exact .stuck
    all_goals exact .ite (.bind (.onHeap rfl) fun _ => .pure _) .stuck
  · cases a <;> try exact .stuck
    all_goals cases b <;> exact .stuck

theorem agree_newError (s : GoString) : Agrees (newErrorT s) (newError s) := by
  unfold newErrorT newError
  generalize errorTexts.find? _ = o
  cases o
  · exact .stuck
  · exact .pure _

theorem agree_deepEqual (p q : Ptr) : Agrees (deepEqualT p q) (deepEqual p q) := by
  unfold deepEqualT deepEqual
  agree

theorem agree_drawBig (m : Nat) : Agrees (drawBigT m) (drawBig m) := by
  intro s h
  unfold drawBigT drawBig
  simp only [Rest.with]
  rcases randInt s.rd m with ⟨v, rd'⟩ | e | p
  · exact ⟨rfl, rfl⟩
  · exact ⟨rfl, rfl⟩
  · exact ⟨_, rfl, rfl⟩

theorem agree_randBig (p : Ptr) : Agrees (randBigT p) (randBig p) :=
  .bind (.onHeap (run_readInt _)) fun _ => .ite .stuck (agree_drawBig _)

theorem agree_sprintf (f : GoString) (v : Value) : Agrees (sprintfT f v) (sprintf f v) := by
  unfold sprintfT sprintf
  cases verb f with
  | none => exact .stuck
  | some b =>
    cases v <;> try exact .stuck
    · exact .pure _
    · rename_i p
      have hl : Agrees (onHeapT (loadIntP p)) (onHeap fun h => (.ok (loadInt h p), h)) := .onHeap (run_loadInt p)
      exact Agrees.bind hl fun i => .pure [Value.str (fmtBig b i)]

theorem agree_println (vs : List Value) : Agrees (printlnT vs) (println vs) := by
  unfold printlnT println
  cases logLine vs
  · exact .stuck
  · exact fun s h => ⟨rfl, rfl⟩

theorem agree_newHash (b : Bool) : Agrees (newHashT b) (newHash b) := fun _ _ => ⟨rfl, rfl⟩

theorem agree_external (H : Hashes) (p f : Nat) (args : List Value) : Agrees (externalT H p f args) (external H p f args) := by
  unfold externalT external
  refine .ite ?_ (.ite ?_ (.ite ?_ (.ite ?_ (.ite ?_ (.ite ?_ (.ite ?_ (.ite ?_ (.ite ?_ (.ite ?_ (.ite ?_ .stuck))))))))))
  case refine_11 => exact .ite (agree_println _) .stuck
  all_goals
    rcases args with _ | ⟨a, _ | ⟨b, _ | ⟨c, l⟩⟩⟩
    · first | exact .stuck | exact .ite (.bind (agree_newHash _) fun _ => .pure _) .stuck
    · cases a <;> first | exact .stuck | exact .ite (agree_newError _) .stuck | (simp only; agree)
    · cases a <;> try exact .stuck
      all_goals first | exact .ite (agree_sprintf _ _) .stuck | skip
      all_goals cases b <;> first | exact .stuck | exact .ite (agree_deepEqual _ _) .stuck | exact .ite (agree_randBig _) .stuck |
        (simp only; agree)
    · cases a <;> first | exact .stuck | (cases b <;> exact .stuck)

theorem agree_builtin (f : Nat) (args : List Value) : (builtinT f args = none ∧ builtin f args = none) ∨
    ∃ x y, builtinT f args = some x ∧ builtin f args = some y ∧ Agrees x y := by
  unfold builtinT builtin
  split
  · refine .inr ⟨_, _, rfl, rfl, ?_⟩
    rcases args with _ | ⟨a, _ | ⟨b, l⟩⟩
    · exact .stuck
    · cases a <;> first | exact .stuck | exact .pure _
    · cases a <;> exact .stuck
  · split
    · refine .inr ⟨_, _, rfl, rfl, ?_⟩
      rcases args with _ | ⟨a, _ | ⟨b, _ | ⟨c, l⟩⟩⟩
      · exact .stuck
      · cases a <;> exact .stuck
      · cases a <;> try exact .stuck
        cases b <;> first | exact .stuck | exact .pure _
      · cases a <;> try exact .stuck
        cases b <;> exact .stuck
    · split
      · refine .inr ⟨_, _, rfl, rfl, ?_⟩
        rcases args with _ | ⟨a, _ | ⟨b, l⟩⟩
        · exact .stuck
        · cases a <;> first | exact .stuck | exact .pure _
        · cases a <;> exact .stuck
      · split
        · refine .inr ⟨_, _, rfl, rfl, ?_⟩
          rcases args with _ | ⟨a, _ | ⟨b, l⟩⟩
          · exact .stuck
          · cases a <;> first | exact .stuck | exact .pure _
          · cases a <;> exact .stuck
        · split
          · refine .inr ⟨_, _, rfl, rfl, ?_⟩
            rcases args with _ | ⟨a, _ | ⟨b, l⟩⟩
            · exact .stuck
            · cases a <;> try exact .stuck
              rename_i e
              cases e
              · exact .stuck
              · exact .panic _
            · cases a <;> try exact .stuck
              rename_i e
              cases e <;> exact .stuck
          · exact .inl ⟨rfl, rfl⟩

theorem agree_global (x : Nat) : Agrees (globalT x) (global x) := by
  unfold globalT global
  refine .ite (.pure _) (.ite (.pure _) (.ite (.pure _) (.ite (.pure _) (.ite (.pure _) fun s h => ?_))))
  simp only [Rest.with]
  cases scopeGet x s.vars
  · rfl
  · exact ⟨rfl, rfl⟩

theorem agree_named (x : Nat) (env : Env) : Agrees (namedT x env) (named x env) := by
  unfold namedT named
  cases env.get x
  · exact agree_global x
  · exact .pure _

theorem agree_newOf (args : Expr) : Agrees (newOfT args) (newOf args) := by
  unfold newOfT newOf
  cases args <;> try exact .stuck
  rename_i a l
  cases a <;> try exact .stuck
  rename_i a t
  cases a <;> try exact .stuck
  cases l <;> first | exact .stuck | (simp only; agree)

section
variable {C : TCtx} {D : Ctx} (hH : C.H = D.H) (hE : C.E.toM = D.E)
  (hC : ∀ recv name args, Agrees (C.call recv name args) (D.call recv name args))
include hC

theorem agree_callName (f : Nat) (args : List Value) : Agrees (callNameT C f args) (callName D f args) := by
  unfold callNameT callName
  rcases agree_builtin f args with ⟨e, e'⟩ | ⟨x, y, e, e', h⟩ <;> rw [e, e']
  · exact hC _ _ _
  · exact h

include hH hE

theorem agree_callMethod (v : Value) (m : Nat) (args : List Value) : Agrees (callMethodT C v m args) (callMethod D v m args) := by
  unfold callMethodT callMethod
  rw [hH, ← hE]
  cases v <;> first | exact .stuck | exact agree_external _ _ _ _ | exact agree_bigMethod _ _ _ | exact agree_hashMethod _ _ _ _ |
    exact agree_curveMethod _ _ _ | exact hC _ _ _

omit hH hE hC in
theorem agree_combine (op : Nat) (a : Value) {x : TM Value} {y : M Value} (h : Agrees x y) : Agrees (combineT op a x) (Source.combine op a y) := by
  unfold combineT Source.combine
  refine .ite ?_ (.bind h fun _ => .known _)
  unfold shortOrT shortOr
  cases a <;> try exact .stuck
  rename_i b
  cases b
  · exact h
  · exact .pure _

theorem agree_eval : ∀ (e : Expr) (env : Env), Agrees (evalT C e env) (eval D e env)
  | .name x, env => by unfold evalT eval; exact .bind (agree_named _ _) fun _ => .pure _
  | .num n, env => by unfold evalT eval; exact .pure _
  | .str s, env => by unfold evalT eval; exact .pure _
  | .sel e f, env => by
    unfold evalT eval
    exact .bind (agree_eval e env) fun _ => .bind (.one _) fun _ => .bind (agree_field _ _) fun _ => .pure _
  | .call f args, env => by
    unfold evalT eval
    cases f <;> try exact .stuck
    · exact .ite (agree_newOf _) (.bind (agree_eval args env) fun _ => agree_callName hC _ _)
    · exact .bind (agree_eval _ env) fun _ => .bind (.one _) fun _ => .bind (agree_eval args env) fun _ =>
        agree_callMethod hH hE hC _ _ _
  | .index e i, env => by
    unfold evalT eval
    exact .bind (agree_eval e env) fun _ => .bind (.one _) fun _ => .bind (agree_eval i env) fun _ => .bind (.one _) fun _ =>
      .bind (agree_index _ _) fun _ => .pure _
  | .slice e lo hi, env => by
    unfold evalT eval
    exact .bind (agree_eval e env) fun _ => .bind (.one _) fun _ => .bind (agree_eval lo env) fun _ => .bind (.one _) fun _ =>
      .bind (agree_eval hi env) fun _ => .bind (.one _) fun _ => .bind (agree_slice _ _ _) fun _ => .pure _
  | .un op e, env => by
    unfold evalT eval
    exact .bind (agree_eval e env) fun _ => .bind (.one _) fun _ => .bind (.known _) fun _ => .pure _
  | .bin op a b, env => by
    unfold evalT eval
    exact .bind (agree_eval a env) fun _ => .bind (.one _) fun _ =>
      .bind (agree_combine op _ (.bind (agree_eval b env) fun _ => .one _)) fun _ => .pure _
  | .lit t fields, env => by
    unfold evalT eval
    exact .bind (agree_eval fields env) fun _ => .bind (agree_composite _ _ _) fun _ => .pure _
  | .kv _ e, env => by unfold evalT eval; exact agree_eval e env
  | .sliceOf _, env => by unfold evalT eval; exact .stuck
  | .nil, env => by unfold evalT eval; exact .pure _
  | .cons e es, env => by
    unfold evalT eval
    exact .bind (agree_eval e env) fun _ => .bind (agree_eval es env) fun _ => .pure _

theorem agree_places : ∀ (l : Expr) (env : Env), Agrees (placesT C l env) (places D l env)
  | .cons a l, env => by
    cases a <;> try exact .stuck
    · unfold placesT places
      exact .bind (agree_places l env) fun _ => .pure _
    · unfold placesT places
      exact .bind (agree_eval hH hE hC _ env) fun _ => .bind (.one _) fun _ => .bind (agree_places l env) fun _ => .pure _
  | .nil, env => .pure _
  | .name _, env => .stuck
  | .num _, env => .stuck
  | .str _, env => .stuck
  | .sel _ _, env => .stuck
  | .call _ _, env => .stuck
  | .index _ _, env => .stuck
  | .slice _ _ _, env => .stuck
  | .un _ _, env => .stuck
  | .bin _ _ _, env => .stuck
  | .lit _ _, env => .stuck
  | .kv _ _, env => .stuck
  | .sliceOf _, env => .stuck

omit hC hH hE in
theorem agree_setGlobal (x : Nat) (v : Value) : Agrees (setGlobalT x v) (setGlobal x v) := by
  intro s h
  simp only [setGlobalT, setGlobal, Rest.with]
  cases scopeSet x v s.vars
  · rfl
  · trivial

omit hC hH hE in
theorem agree_storeOne (p : Place) (v : Value) (env : Env) : Agrees (storeOneT p v env) (storeOne p v env) := by
  unfold storeOneT storeOne
  cases p
  · exact .pure _
  · simp only
    cases env.set _ v
    · exact .bind (agree_setGlobal _ _) fun _ => .pure _
    · exact .pure _
  · exact .bind (agree_setField _ _ _) fun _ => .pure _

omit hC hH hE in
theorem agree_storeAll : ∀ (ps : List Place) (vs : List Value) (env : Env), Agrees (storeAllT ps vs env) (storeAll ps vs env)
  | [], [], _ => .pure _
  | p :: ps, v :: vs, env => .bind (agree_storeOne p v env) fun _ => agree_storeAll ps vs _
  | [], _ :: _, _ => .stuck
  | _ :: _, [], _ => .stuck

theorem agree_assignment (l r : Expr) (env : Env) : Agrees (assignmentT C l r env) (assignment D l r env) :=
  .bind (agree_places hH hE hC l env) fun _ => .bind (agree_eval hH hE hC r env) fun _ => .bind (agree_storeAll _ _ _) fun _ => .pure _

omit hC hH hE in
theorem agree_follow (c : Ctl) {k : Env → TM Ctl} {k' : Env → M Ctl} (h : ∀ env, Agrees (k env) (k' env)) :
    Agrees (followT c k) (follow c k') := by
  cases c
  · exact h _
  · exact .pure _
  · exact .pure _

omit hC hH hE in
theorem agree_again (c : Ctl) {k : Env → TM Ctl} {k' : Env → M Ctl} (h : ∀ env, Agrees (k env) (k' env)) :
    Agrees (againT c k) (again c k') := by
  cases c
  · exact h _
  · exact .pure _
  · exact .pure _

omit hC hH hE in
theorem agree_choose (vs : List Value) {t e : TM Ctl} {t' e' : M Ctl} (ht : Agrees t t') (he : Agrees e e') :
    Agrees (chooseT vs t e) (choose vs t' e') := by
  unfold chooseT choose
  rcases vs with _ | ⟨v, _ | ⟨w, l⟩⟩
  · exact .stuck
  · cases v <;> try exact .stuck
    rename_i b
    cases b
    · exact he
    · exact ht
  · cases v <;> try exact .stuck
    rename_i b
    cases b <;> exact .stuck

omit hC hH hE in
theorem agree_rounds {c : Env → TM (List Value)} {c' : Env → M (List Value)} {body post : Env → TM Ctl} {body' post' : Env → M Ctl}
    (hc : ∀ env, Agrees (c env) (c' env)) (hb : ∀ env, Agrees (body env) (body' env)) (hp : ∀ env, Agrees (post env) (post' env)) :
    ∀ (n : Nat) (env : Env), Agrees (roundsT c body post n env) (rounds c' body' post' n env)
  | 0, env => .stuck
  | n + 1, env => by
    unfold roundsT rounds
    exact .bind (hc env) fun _ => agree_choose _ (.bind (hb env) fun _ => agree_again _ fun env => .bind (hp env) fun _ =>
      agree_follow _ fun env => agree_rounds hc hb hp n env) (.pure _)

omit hC hH hE in
theorem agree_ranging {body : Env → TM Ctl} {body' : Env → M Ctl} (hb : ∀ env, Agrees (body env) (body' env)) (k v : Nat) :
    ∀ (ws : List GoString) (i : Nat) (env : Env), Agrees (rangingT body k v env i ws) (ranging body' k v env i ws)
  | [], i, env => .pure _
  | w :: ws, i, env => by
    unfold rangingT ranging
    exact .bind (hb _) fun _ => agree_again _ fun env => agree_ranging hb k v ws _ env

theorem agree_exec (n : Nat) : ∀ (s : Stmt) (env : Env), Agrees (execT C n s env) (exec D n s env)
  | .skip, env => by unfold execT exec; exact .pure _
  | .seq a b, env => by
    unfold execT exec
    exact .bind (agree_exec n a env) fun _ => agree_follow _ fun env => agree_exec n b env
  | .block s, env => by unfold execT exec; exact .bind (agree_exec n s _) fun _ => .pure _
  | .define l r, env => by
    unfold execT exec
    exact .bind (agree_eval hH hE hC r env) fun _ => .bind (.known _) fun _ => .pure _
  | .assign l r, env => by unfold execT exec; exact agree_assignment hH hE hC _ _ env
  | .addAssign l r, env => by unfold execT exec; exact agree_assignment hH hE hC _ _ env
  | .inc l, env => by unfold execT exec; exact agree_assignment hH hE hC _ _ env
  | .expr e, env => by unfold execT exec; exact .bind (agree_eval hH hE hC e env) fun _ => .pure _
  | .var x t, env => by unfold execT exec; exact .bind (agree_zero t) fun _ => .pure _
  | .ret es, env => by unfold execT exec; exact .bind (agree_eval hH hE hC es env) fun _ => .pure _
  | .brk, env => by unfold execT exec; exact .pure _
  | .ite c t e, env => by
    unfold execT exec
    exact .bind (agree_eval hH hE hC c env) fun _ => agree_choose _ (agree_exec n t env) (agree_exec n e env)
  | .loop init c post body, env => by
    unfold execT exec
    exact .bind (agree_exec n init _) fun _ => .bind (agree_follow _ fun env => agree_rounds (agree_eval hH hE hC c)
      (agree_exec n body) (agree_exec n post) n env) fun _ => .pure _
  | .range k v e body, env => by
    unfold execT exec
    refine .bind (agree_eval hH hE hC e env) fun vs => ?_
    rcases vs with _ | ⟨a, _ | ⟨b, l⟩⟩
    · exact .stuck
    · cases a <;> first | exact .stuck | exact agree_ranging (agree_exec n body) k v _ _ env
    · cases a <;> exact .stuck
  | .switch s, env => by
    unfold execT exec
    exact .bind (agree_exec n s env) fun _ => agree_again _ fun env => .pure _

end

theorem agree_finish (f : Func) (c : Ctl) : Agrees (finishT f c) (f.finish c) := by
  unfold finishT Func.finish
  cases c
  · exact .ite (.pure _) .stuck
  · exact .stuck
  · exact .known _

/-- Alone, a call in single accesses is the call. -/
theorem agree_runFunc (H : Hashes) (E : EcdsaP) (ds : List Decl) : ∀ (n recv name : Nat) (args : List Value),
    Agrees (runFuncT H E ds n recv name args) (runFunc H E.toM ds n recv name args)
  | 0, recv, name, args => .stuck
  | n + 1, recv, name, args => by
    unfold runFuncT runFunc
    cases findFunc recv name ds with
    | none => exact .stuck
    | some f =>
      simp only
      cases f.start args with
      | none => exact .stuck
      | some env =>
        exact .bind (agree_exec (C := ⟨H, E, runFuncT H E ds n⟩) (D := ⟨H, E.toM, runFunc H E.toM ds n⟩) rfl rfl
          (agree_runFunc H E ds n) n f.body env) fun _ => agree_finish f _

end Btc.Threads
