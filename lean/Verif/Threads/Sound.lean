import Verif.Threads.Rel

/-!
# The check is sound

Functions that pass the check of `Verif/Threads/Own.lean` are in lock step with themselves: they read what is in `b`,
write only elsewhere, and do not change the package variables.
-/

namespace Btc.Threads

open Mem Source

/-! ## Variables -/

/-- Variables of one name that correspond; those of `O` hold only what is new. -/
structure VarRel (b : Heap) (O : List Nat) (r : Ren) (p q : Nat × Value) : Prop where
  name : p.1 = q.1
  rel : VRel b r p.2 q.2
  new : O.contains p.1 = true → Fresh b p.2

/-- Blocks of variables that correspond. -/
def SRel (b : Heap) (O : List Nat) (r : Ren) : List (Nat × Value) → List (Nat × Value) → Prop := List.Forall₂ (VarRel b O r)

/-- The variables of a call that correspond. -/
def ERel (b : Heap) (O : List Nat) (r : Ren) : Env → Env → Prop := List.Forall₂ (SRel b O r)

section
variable {b : Heap} {vars : List (Nat × Value)} {O : List Nat} {r : Ren}

theorem SRel.mono {s : Ren} (h : r.Le s) {l l' : List (Nat × Value)} (hl : SRel b O r l l') : SRel b O s l l' :=
  List.Forall₂.imp (fun _ _ hv => ⟨hv.name, hv.rel.mono h, hv.new⟩) hl

theorem ERel.mono {s : Ren} (h : r.Le s) {env env' : Env} (he : ERel b O r env env') : ERel b O s env env' :=
  List.Forall₂.imp (fun _ _ => SRel.mono h) he

theorem ERel.push {env env' : Env} (he : ERel b O r env env') : ERel b O r ([] :: env) ([] :: env') := .cons .nil he

theorem ERel.tail {env env' : Env} (he : ERel b O r env env') : ERel b O r env.tail env'.tail := by
  cases he with
  | nil => exact .nil
  | cons _ h => exact h

theorem scopeGet_rel (x : Nat) {l l' : List (Nat × Value)} (h : SRel b O r l l') :
    Option.Rel (ValO b (O.contains x) r) (scopeGet x l) (scopeGet x l') := by
  induction h with
  | nil => exact .none
  | @cons p q _ _ h _ ih =>
    obtain ⟨y, v⟩ := p
    obtain ⟨y', v'⟩ := q
    obtain ⟨rfl, hv, hn⟩ := h
    unfold scopeGet
    split
    · rename_i e
      exact .some ⟨hv, fun ho => hn (e ▸ ho)⟩
    · exact ih

theorem get_rel (x : Nat) {env env' : Env} (h : ERel b O r env env') :
    Option.Rel (ValO b (O.contains x) r) (env.get x) (env'.get x) := by
  induction h with
  | nil => exact .none
  | @cons p q _ _ h _ ih =>
    have hg := scopeGet_rel x h
    revert hg
    unfold Env.get
    generalize scopeGet x p = o
    generalize scopeGet x q = o'
    intro hg
    cases hg with
    | none => exact ih
    | some h => exact .some h

theorem scopeSet_rel {x : Nat} {v v' : Value} (hv : ValO b (O.contains x) r v v') {l l' : List (Nat × Value)}
    (h : SRel b O r l l') : Option.Rel (SRel b O r) (scopeSet x v l) (scopeSet x v' l') := by
  induction h with
  | nil => exact .none
  | @cons p q l₁ l₂ h t ih =>
    obtain ⟨y, u⟩ := p
    obtain ⟨y', u'⟩ := q
    obtain ⟨e', hu, hn⟩ := h
    cases e'
    unfold scopeSet
    split
    · rename_i e
      exact .some (.cons ⟨rfl, hv.rel, fun ho => hv.new (e ▸ ho)⟩ t)
    · revert ih
      generalize scopeSet x v l₁ = o
      generalize scopeSet x v' l₂ = o'
      intro ih
      cases ih with
      | none => exact .none
      | some h => exact .some (.cons ⟨rfl, hu, hn⟩ h)

theorem set_rel {x : Nat} {v v' : Value} (hv : ValO b (O.contains x) r v v') {env env' : Env} (h : ERel b O r env env') :
    Option.Rel (ERel b O r) (env.set x v) (env'.set x v') := by
  induction h with
  | nil => exact .none
  | @cons p q l₁ l₂ h t ih =>
    have hs := scopeSet_rel hv h
    revert hs
    unfold Env.set
    generalize scopeSet x v p = o
    generalize scopeSet x v' q = o'
    intro hs
    cases hs with
    | some h => exact .some (.cons h t)
    | none =>
      revert ih
      simp only
      generalize Env.set x v l₁ = w
      generalize Env.set x v' l₂ = w'
      intro ih
      cases ih with
      | none => exact .none
      | some h' => exact .some (.cons h h')

theorem define_cons (x : Nat) (v : Value) (l : List (Nat × Value)) (env : Env) : Env.define x v (l :: env) =
    if x = id! "_" then l :: env
    else
      match scopeSet x v l with
      | some s' => s' :: env
      | none => ((x, v) :: l) :: env := rfl

theorem define_rel {x : Nat} {v v' : Value} (hv : ValO b (O.contains x) r v v') {env env' : Env} (h : ERel b O r env env') :
    ERel b O r (env.define x v) (env'.define x v') := by
  cases h with
  | nil => exact .cons (.cons ⟨rfl, hv.rel, hv.new⟩ .nil) .nil
  | @cons p q l₁ l₂ h t =>
    rw [define_cons, define_cons]
    split
    · exact .cons h t
    · have hs := scopeSet_rel hv h
      revert hs
      generalize scopeSet x v p = o
      generalize scopeSet x v' q = o'
      intro hs
      cases hs with
      | none => exact .cons (.cons ⟨rfl, hv.rel, hv.new⟩ h) t
      | some h => exact .cons h t

/-- A value that may be given to a variable. -/
theorem ValO.okVar {o : Bool} {x : Nat} (hx : okVar O o x = true) {v v' : Value} (hv : ValO b o r v v') :
    ValO b (O.contains x) r v v' := by
  refine ⟨hv.rel, fun hc => ?_⟩
  simp only [Threads.okVar, hc, Bool.not_true, Bool.false_or] at hx
  exact hv.new hx

theorem defineAll_rel {o : Bool} {l : Expr} (hl : okNames O o l = true) {vs vs' : List Value} (hv : ValsO b o r vs vs')
    {env env' : Env} (he : ERel b O r env env') : Option.Rel (ERel b O r) (defineAll l vs env) (defineAll l vs' env') := by
  induction l generalizing vs vs' env env' with
  | nil =>
    cases hv with
    | nil => exact .some he
    | cons _ _ => exact .none
  | cons e l _ ih =>
    cases e with
    | name x =>
      simp only [okNames, Bool.and_eq_true] at hl
      cases hv with
      | nil => exact .none
      | cons h t => exact ih hl.2 t (define_rel (h.okVar hl.1) he)
    | _ => unfold defineAll; exact .none
  | _ => unfold defineAll; exact .none

/-! ## Expressions -/

/-- What is known of the package variables. -/
def VarsOk (G : List Nat) (vars : List (Nat × Value)) : Prop := ∀ q ∈ vars, G.contains q.1 = true ∧ ∃ p, q.2 = Value.net p

/-- What is assumed of the functions that are called. -/
structure CallOk (b : Heap) (vars : List (Nat × Value)) (N : List Nat) (C : TCtx) : Prop where
  ecdsa : C.E.Local
  rel : ∀ (r : Ren) (recv name : Nat) (args args' : List Value), name ≠ id! "init" → Vals b r args args' →
    TRel b vars (ValsO b (isMaker N recv name)) r (C.call recv name args) (C.call recv name args')
  reserved : ∀ (recv name : Nat) (args : List Value), reserved.contains name = true → C.call recv name args = stuckT

theorem scopeGet_mem {x : Nat} {v : Value} : ∀ {l : List (Nat × Value)}, scopeGet x l = some v → ∃ q ∈ l, q.2 = v
  | (y, u) :: l, h => by
    unfold scopeGet at h
    split at h
    · cases h; exact ⟨_, .head _, rfl⟩
    · obtain ⟨q, hq, e⟩ := scopeGet_mem h
      exact ⟨q, .tail _ hq, e⟩

variable {G N : List Nat}

theorem global_rel (hG : VarsOk G vars) (x : Nat) :
    TRel b vars (ValO b (x != id! "secp256k1")) r (globalT x) (globalT x) := by
  unfold globalT
  refine .ite (fun _ => .pure ⟨.nil, fun _ => trivial⟩) (.ite (fun _ => .pure ⟨.bool _, fun _ => trivial⟩)
    (.ite (fun _ => .pure ⟨.bool _, fun _ => trivial⟩) (.ite (fun e => .pure ⟨.curve, fun h => ?_⟩)
      (.ite (fun _ => .pure ⟨.pkg _, fun _ => trivial⟩) ?_))))
  · subst e
    exact absurd h (by decide)
  · intro _ s hs
    dsimp only
    split
    · rename_i v h
      obtain ⟨q, hq, rfl⟩ := scopeGet_mem h
      obtain ⟨-, p, e⟩ := hG q (hs ▸ hq)
      rw [e]
      exact .ret ⟨⟨.net p, fun _ => trivial⟩, rfl, hs⟩
    · exact .ret trivial

theorem named_rel (hG : VarsOk G vars) (hO : okVar O false (id! "secp256k1") = true) (x : Nat) {env env' : Env}
    (he : ERel b O r env env') : TRel b vars (ValO b (O.contains x)) r (namedT x env) (namedT x env') := by
  have h := get_rel x he
  revert h
  unfold namedT
  generalize env.get x = o
  generalize env'.get x = o'
  intro h
  cases h with
  | some h => exact .pure h
  | none =>
    refine (global_rel hG x).mono fun s _ v v' h => ⟨h.rel, fun hx => h.new ?_⟩
    refine bne_iff_ne.mpr fun e => ?_
    subst e
    simp only [okVar, hx] at hO
    exact absurd hO (by decide)

theorem newOf_rel {o : Bool} (args : Expr) : TRel b vars (ValsO b o) r (newOfT args) (newOfT args) := by
  unfold newOfT
  split
  · exact .ite (fun _ => .bind (.onHeap fun hr => .newInt hr _) fun s hs _ _ h => .pure (ownInt_vals h)) .stuck
  · exact .stuck

variable {C : TCtx}

theorem callName_rel (hC : CallOk b vars N C) {f : Nat} (hf : f ≠ id! "init") {args args' : List Value} (h : Vals b r args args') :
    TRel b vars (ValsO b (N.contains f)) r (callNameT C f args) (callNameT C f args') := by
  unfold callNameT
  rcases builtin_rel (vars := vars) f h with ⟨e, e'⟩ | ⟨x, y, e, e', hx⟩
  · rw [e, e']
    exact (hC.rel r 0 f args args' hf h).mono fun s _ _ _ h => h.weaken fun h => by simpa [isMaker] using h
  · rw [e, e']
    exact hx.mono fun s _ _ _ h => h.weaken fun _ => rfl

theorem callMethod_rel (hC : CallOk b vars N C) {m : Nat} (hm : m ≠ id! "init") {v v' : Value} (hv : VRel b r v v')
    (hf : mutators.contains m = true → Fresh b v) {args args' : List Value} (h : Vals b r args args') :
    TRel b vars (ValsO b (reserved.contains m)) r (callMethodT C v m args) (callMethodT C v' m args') := by
  have hc : ∀ (recv : Nat) (us us' : List Value), Vals b r us us' →
      TRel b vars (ValsO b (reserved.contains m)) r (C.call recv m us) (C.call recv m us') := by
    intro recv us us' hu
    by_cases hr : reserved.contains m = true
    · rw [hC.reserved _ _ _ hr, hC.reserved _ _ _ hr]
      exact .stuck
    · exact (hC.rel r recv m us us' hm hu).mono fun s _ _ _ h => h.weaken fun e => absurd e hr
  unfold callMethodT
  cases hv <;> try exact .stuck
  · exact (bigMethod_rel ‹_› hf h).mono fun s _ _ _ h => h.weaken fun _ => rfl
  · exact hc _ _ _ (.cons (.priv ‹_›) h)
  · exact hc _ _ _ (.cons (.pub ‹_›) h)
  · exact curveMethod_rel hC.ecdsa m h
  · exact (hashMethod_rel C.H _ m h).mono fun s _ _ _ h => h.weaken fun _ => rfl
  · exact (external_rel C.H _ m h).mono fun s _ _ _ h => h.weaken fun _ => rfl

theorem combine_rel (op : Nat) {v v' : Value} (hv : VRel b r v v') {x y : TM Value} (h : TRel b vars (VRel b) r x y) :
    TRel b vars (VRel b) r (combineT op v x) (combineT op v' y) := by
  unfold combineT
  refine .ite (fun _ => ?_) (.bind h fun s hs w w' hw => ?_)
  · unfold shortOrT
    cases hv <;> try exact .stuck
    rename_i t
    cases t
    · exact h
    · exact .pure (.bool _)
  · refine (TRel.known ?_).mono fun _ _ _ _ (h : ValO b true _ _ _) => h.rel
    exact binary_rel op (hv.mono hs) hw

/-- What holds of expressions that pass the check. -/
def EvalOk (b : Heap) (vars : List (Nat × Value)) (N O : List Nat) (C : TCtx) (e : Expr) : Prop :=
  okExpr N O e = true → ∀ {r : Ren} {env env' : Env}, ERel b O r env env' →
    TRel b vars (ValsO b (owned N O e)) r (evalT C e env) (evalT C e env')

theorem eval_rel_aux (hG : VarsOk G vars) (hO : okVar O false (id! "secp256k1") = true) (hC : CallOk b vars N C) (e : Expr) :
    EvalOk b vars N O C e ∧ ∀ e' m, e = .sel e' m → EvalOk b vars N O C e' := by
  have one : ∀ {s : Ren} {v v' : Value}, VRel b s v v' → ValsO b false s [v] [v'] := fun h => .cons ⟨h, nofun⟩ .nil
  induction e with
  | name x =>
    refine ⟨fun hok r env env' he => ?_, nofun⟩
    unfold evalT
    exact .bind (named_rel hG hO x he) fun s hs v v' h => .pure (.cons h .nil)
  | num n =>
    refine ⟨fun hok r env env' he => ?_, nofun⟩
    unfold evalT; exact .pure (one (.int _))
  | str n =>
    refine ⟨fun hok r env env' he => ?_, nofun⟩
    unfold evalT; exact .pure (one (.str _))
  | sel e f ih =>
    refine ⟨fun hok r env env' he => ?_, fun _ _ h => by cases h; exact ih.1⟩
    simp only [okExpr] at hok
    unfold evalT
    exact .bind (ih.1 hok he) fun s hs vs vs' h => .bind (.one h) fun t ht v v' h => .bind (field_rel f h.rel) fun u hu w w' h =>
      .pure (one h)
  | call f args ihf iha =>
    refine ⟨fun hok r env env' he => ?_, nofun⟩
    cases f with
    | name g =>
      simp only [okExpr, Bool.and_eq_true] at hok
      unfold evalT
      simp only
      by_cases hg : g = id! "new"
      · rw [if_pos hg, if_pos hg]
        exact newOf_rel _
      · rw [if_neg hg, if_neg hg]
        refine .bind (iha.1 hok.2 he) fun s hs vs vs' h => ?_
        refine (callName_rel hC (bne_iff_ne.mp hok.1) h.rel).mono fun t ht _ _ h => h.weaken fun ho => ?_
        simpa [owned, hg] using ho
    | sel e m =>
      simp only [okExpr, Bool.and_eq_true, bne_iff_ne] at hok
      obtain ⟨⟨⟨hm, hoe⟩, hmu⟩, hargs⟩ := hok
      unfold evalT
      simp only
      refine .bind ((ihf.2 e m rfl) hoe he) fun s hs us us' h => .bind (.one h) fun t ht u u' hu => ?_
      refine .bind (iha.1 hargs (he.mono (hs.trans ht))) fun w hw vs vs' h => ?_
      refine (callMethod_rel hC hm (hu.rel.mono hw) (fun hmm => hu.new ?_) h.rel).mono fun _ _ _ _ h => h.weaken fun ho => ?_
      · rw [hmm] at hmu; exact hmu
      · simp only [owned, Bool.or_eq_true, Bool.and_eq_true] at ho
        simp only [reserved, List.contains_append, Bool.or_eq_true]
        exact ho.imp id And.left
    | _ => unfold evalT; exact .stuck
  | index e i ihe ihi =>
    refine ⟨fun hok r env env' he => ?_, nofun⟩
    simp only [okExpr, Bool.and_eq_true] at hok
    unfold evalT
    refine .bind (ihe.1 hok.1 he) fun s hs vs vs' h => .bind (.one h) fun t ht v v' hv => ?_
    refine .bind (ihi.1 hok.2 (he.mono (hs.trans ht))) fun u hu ws ws' h => .bind (.one h) fun z hz w w' hw => ?_
    exact .bind (index_rel (hv.rel.mono (hu.trans hz)) hw.rel) fun z hz x x' h => .pure (one h)
  | slice e lo hi ihe ihl ihh =>
    refine ⟨fun hok r env env' he => ?_, nofun⟩
    simp only [okExpr, Bool.and_eq_true] at hok
    unfold evalT
    refine .bind (ihe.1 hok.1.1 he) fun s hs vs vs' h => .bind (.one h) fun t ht v v' hv => ?_
    refine .bind (ihl.1 hok.1.2 (he.mono (hs.trans ht))) fun u hu ws ws' h => .bind (.one h) fun z hz w w' hw => ?_
    refine .bind (ihh.1 hok.2 (he.mono ((hs.trans ht).trans (hu.trans hz)))) fun p hp ws ws' h => .bind (.one h) fun q hq x x' hx => ?_
    exact .bind (slice_rel (hv.rel.mono ((hu.trans hz).trans (hp.trans hq))) (hw.rel.mono (hp.trans hq)) hx.rel)
      fun z hz x x' h => .pure (one h)
  | un op e ih =>
    refine ⟨fun hok r env env' he => ?_, nofun⟩
    simp only [okExpr] at hok
    unfold evalT
    exact .bind (ih.1 hok he) fun s hs vs vs' h => .bind (.one h) fun t ht v v' hv => .bind (.known (unary_rel op hv.rel))
      fun u hu w w' h => .pure (.cons ⟨h.rel, fun _ => h.new rfl⟩ .nil)
  | bin op a c iha ihc =>
    refine ⟨fun hok r env env' he => ?_, nofun⟩
    simp only [okExpr, Bool.and_eq_true] at hok
    unfold evalT
    refine .bind (iha.1 hok.1 he) fun s hs vs vs' h => .bind (.one h) fun t ht v v' hv => ?_
    refine .bind (combine_rel op hv.rel ?_) fun u hu w w' h => .pure (one h)
    exact .bind (ihc.1 hok.2 (he.mono (hs.trans ht))) fun u hu ws ws' h => (TRel.one h).mono fun _ _ _ _ h => h.rel
  | lit t fields iht ih =>
    refine ⟨fun hok r env env' he => ?_, nofun⟩
    simp only [okExpr, Bool.and_eq_true, bne_iff_ne] at hok
    unfold evalT
    exact .bind (ih.1 hok.2 he) fun s hs vs vs' h => .bind (composite_rel hok.1 _ h.rel) fun u hu w w' h => .pure (one h)
  | kv f e ih =>
    refine ⟨fun hok r env env' he => ?_, nofun⟩
    simp only [okExpr] at hok
    unfold evalT
    exact (ih.1 hok he).mono fun _ _ _ _ h => h.rel.toO
  | sliceOf t ih =>
    refine ⟨fun hok r env env' he => ?_, nofun⟩
    unfold evalT; exact .stuck
  | nil =>
    refine ⟨fun hok r env env' he => ?_, nofun⟩
    unfold evalT; exact .pure .nil
  | cons e es ihe ihes =>
    refine ⟨fun hok r env env' he => ?_, nofun⟩
    simp only [okExpr, Bool.and_eq_true] at hok
    unfold evalT
    refine .bind (ihe.1 hok.1 he) fun s hs vs vs' h => .bind (ihes.1 hok.2 (he.mono hs)) fun t ht us us' h' => .pure ?_
    refine List.rel_append ((h.mono ht).weaken fun ho => ?_) (h'.weaken fun ho => ?_)
    · simp only [owned, Bool.and_eq_true] at ho; exact ho.1
    · simp only [owned, Bool.and_eq_true] at ho; exact ho.2

theorem eval_rel (hG : VarsOk G vars) (hO : okVar O false (id! "secp256k1") = true) (hC : CallOk b vars N C) {e : Expr}
    (hok : okExpr N O e = true) {r : Ren} {env env' : Env} (he : ERel b O r env env') :
    TRel b vars (ValsO b (owned N O e)) r (evalT C e env) (evalT C e env') := (eval_rel_aux hG hO hC e).1 hok he

/-! ## Statements -/

/-- Places that correspond: variables that may take what is new if `o`, and fields of new keys. -/
inductive PlaceRel (b : Heap) (O G : List Nat) (o : Bool) (r : Ren) : Place → Place → Prop
  | blank : PlaceRel b O G o r .blank .blank
  | var {x : Nat} : okVar O o x = true → G.contains x = false → PlaceRel b O G o r (.var x) (.var x)
  | field {v v' : Value} (f : Nat) : VRel b r v v' → Fresh b v → PlaceRel b O G o r (.field v f) (.field v' f)

theorem PlaceRel.mono {o : Bool} {s : Ren} (h : r.Le s) {p q : Place} (hp : PlaceRel b O G o r p q) : PlaceRel b O G o s p q := by
  cases hp with
  | blank => exact .blank
  | var h1 h2 => exact .var h1 h2
  | field f h1 h2 => exact .field f (h1.mono h) h2

theorem places_rel (hG : VarsOk G vars) (hO : okVar O false (id! "secp256k1") = true) (hC : CallOk b vars N C) {o : Bool} {l : Expr}
    (hl : okPlaces O G o l = true) {r : Ren} {env env' : Env} (he : ERel b O r env env') :
    TRel b vars (fun s => List.Forall₂ (PlaceRel b O G o s)) r (placesT C l env) (placesT C l env') := by
  induction l generalizing r env env' with
  | nil => unfold placesT; exact .pure .nil
  | cons e l _ ih =>
    cases e with
    | name x =>
      simp only [okPlaces, Bool.and_eq_true, Bool.or_eq_true, beq_iff_eq, Bool.not_eq_true'] at hl
      unfold placesT
      refine .bind (ih hl.2 he) fun s hs ps ps' h => .pure (.cons ?_ h)
      split
      · exact .blank
      · rename_i hx
        exact .var (hl.1.resolve_left hx).1 (hl.1.resolve_left hx).2
    | sel e f =>
      cases e with
      | name y =>
        simp only [okPlaces, Bool.and_eq_true] at hl
        unfold placesT
        refine .bind (eval_rel hG hO hC (e := .name y) rfl he) fun s hs vs vs' h => .bind (.one h) fun t ht v v' hv => ?_
        refine .bind (ih hl.2 (he.mono (hs.trans ht))) fun u hu ps ps' h => .pure (.cons (.field f (hv.rel.mono hu) (hv.new ?_)) h)
        exact hl.1
      | _ => simp [okPlaces] at hl
    | _ => unfold placesT; exact .stuck
  | _ => unfold placesT; exact .stuck

theorem scopeSet_none {x : Nat} {v : Value} : ∀ {l : List (Nat × Value)}, (∀ q ∈ l, q.1 ≠ x) → scopeSet x v l = none
  | [], _ => rfl
  | (y, u) :: l, h => by
    unfold scopeSet
    rw [if_neg (h _ (.head _)), scopeSet_none fun q hq => h q (.tail _ hq)]
    rfl

theorem setGlobal_rel (hG : VarsOk G vars) {x : Nat} (hx : G.contains x = false) (v v' : Value) :
    TRel b vars PRel.Same r (setGlobalT x v) (setGlobalT x v') := by
  intro _ s hs
  have hn : ∀ w, scopeSet x w s.vars = none := fun w => scopeSet_none fun q hq e => by
    have := (hG q (hs ▸ hq)).1
    rw [e, hx] at this
    exact absurd this (by decide)
  unfold setGlobalT
  rw [hn, hn]
  exact .ret trivial

theorem storeOne_rel (hG : VarsOk G vars) {o : Bool} {p q : Place} (hp : PlaceRel b O G o r p q) {v v' : Value}
    (hv : ValO b o r v v') {env env' : Env} (he : ERel b O r env env') :
    TRel b vars (ERel b O) r (storeOneT p v env) (storeOneT q v' env') := by
  unfold storeOneT
  cases hp with
  | blank => exact .pure he
  | var h1 h2 =>
    have hs := set_rel (hv.okVar h1) he
    revert hs
    simp only
    generalize env.set _ v = w
    generalize env'.set _ v' = w'
    intro hs
    cases hs with
    | some h => exact .pure h
    | none => exact .bind (setGlobal_rel hG h2 v v') fun s hs _ _ _ => .pure (he.mono hs)
  | field f h1 h2 => exact .bind (setField_rel f h1 h2 hv.rel) fun s hs _ _ _ => .pure (he.mono hs)

theorem storeAll_rel (hG : VarsOk G vars) {o : Bool} {ps qs : List Place} (hp : List.Forall₂ (PlaceRel b O G o r) ps qs)
    {vs vs' : List Value} (hv : ValsO b o r vs vs') {env env' : Env} (he : ERel b O r env env') :
    TRel b vars (ERel b O) r (storeAllT ps vs env) (storeAllT qs vs' env') := by
  induction ps generalizing r qs vs vs' env env' with
  | nil =>
    cases hp
    cases hv with
    | nil => exact .pure he
    | cons _ _ => exact .stuck
  | cons p ps ih =>
    cases hp with
    | cons h t =>
      cases hv with
      | nil => exact .stuck
      | cons hv tv =>
        exact .bind (storeOne_rel hG h hv he) fun s hs w w' hw =>
          ih (List.Forall₂.imp (fun _ _ => PlaceRel.mono hs) t) (ValsO.mono hs tv) hw

/-- How a statement ends, in both runs; if `m`, what is returned is new. -/
inductive CtlRel (b : Heap) (O : List Nat) (m : Bool) (r : Ren) : Ctl → Ctl → Prop
  | next {env env' : Env} : ERel b O r env env' → CtlRel b O m r (.next env) (.next env')
  | brk {env env' : Env} : ERel b O r env env' → CtlRel b O m r (.brk env) (.brk env')
  | ret {vs vs' : List Value} : ValsO b m r vs vs' → CtlRel b O m r (.ret vs) (.ret vs')

theorem leave_rel {m : Bool} {c c' : Ctl} (h : CtlRel b O m r c c') : CtlRel b O m r (leave c) (leave c') := by
  cases h with
  | next h => exact .next h.tail
  | brk h => exact .brk h.tail
  | ret h => exact .ret h

theorem follow_rel {m : Bool} {c c' : Ctl} (h : CtlRel b O m r c c') {k k' : Env → TM Ctl}
    (hk : ∀ env env', ERel b O r env env' → TRel b vars (CtlRel b O m) r (k env) (k' env')) :
    TRel b vars (CtlRel b O m) r (followT c k) (followT c' k') := by
  cases h with
  | next h => exact hk _ _ h
  | brk h => exact .pure (.brk h)
  | ret h => exact .pure (.ret h)

theorem again_rel {m : Bool} {c c' : Ctl} (h : CtlRel b O m r c c') {k k' : Env → TM Ctl}
    (hk : ∀ env env', ERel b O r env env' → TRel b vars (CtlRel b O m) r (k env) (k' env')) :
    TRel b vars (CtlRel b O m) r (againT c k) (againT c' k') := by
  cases h with
  | next h => exact hk _ _ h
  | brk h => exact .pure (.next h)
  | ret h => exact .pure (.ret h)

theorem choose_rel {m : Bool} {vs vs' : List Value} (h : Vals b r vs vs') {t t' e e' : TM Ctl}
    (ht : TRel b vars (CtlRel b O m) r t t') (he : TRel b vars (CtlRel b O m) r e e') :
    TRel b vars (CtlRel b O m) r (chooseT vs t e) (chooseT vs' t' e') := by
  unfold chooseT
  rcases h with _ | ⟨h1, _ | ⟨h2, h⟩⟩
  · exact .stuck
  · cases h1 <;> try exact .stuck
    rename_i x
    cases x
    · exact he
    · exact ht
  · cases h1 <;> try exact .stuck
    rename_i x
    cases x <;> exact .stuck

/-- Statements in lock step, from any corresponding variables. -/
def StmtRel (b : Heap) (vars : List (Nat × Value)) (O : List Nat) (m : Bool) (x : Env → TM Ctl) : Prop :=
  ∀ (r : Ren) (env env' : Env), ERel b O r env env' → TRel b vars (CtlRel b O m) r (x env) (x env')

theorem rounds_rel {m : Bool} {c : Env → TM (List Value)} {body post : Env → TM Ctl}
    (hc : ∀ (r : Ren) (env env' : Env), ERel b O r env env' → TRel b vars (Vals b) r (c env) (c env'))
    (hb : StmtRel b vars O m body) (hp : StmtRel b vars O m post) : ∀ n, StmtRel b vars O m (roundsT c body post n)
  | 0, _, _, _, _ => .stuck
  | n + 1, r, env, env', he => by
    unfold roundsT
    refine .bind (hc r env env' he) fun s hs vs vs' h => choose_rel h ?_ (.pure (.next (he.mono hs)))
    refine .bind (hb s _ _ (he.mono hs)) fun t ht c c' h => again_rel h fun env env' he => ?_
    refine .bind (hp t _ _ he) fun u hu c c' h => follow_rel h fun env env' he => ?_
    exact rounds_rel hc hb hp n u _ _ he

theorem ranging_rel {m : Bool} {body : Env → TM Ctl} (hb : StmtRel b vars O m body) (k v : Nat) : ∀ (ws : List GoString) (i : Nat),
    StmtRel b vars O m fun env => rangingT body k v env i ws
  | [], _, _, _, _, he => by unfold rangingT; exact .pure (.next he)
  | w :: ws, i, r, env, env', he => by
    unfold rangingT
    refine .bind (hb r _ _ ?_) fun s hs c c' h => again_rel (leave_rel h) fun env env' he => ranging_rel hb k v ws (i + 1) s _ _ he
    exact define_rel ⟨.int _, fun _ => trivial⟩ (define_rel ⟨.str _, fun _ => trivial⟩ he.push)

theorem assignment_rel (hG : VarsOk G vars) (hO : okVar O false (id! "secp256k1") = true) (hC : CallOk b vars N C) {m o : Bool}
    {l e : Expr} (hl : okPlaces O G o l = true) (hr : okExpr N O e = true) (ho : o = true → owned N O e = true) :
    StmtRel b vars O m (assignmentT C l e) := by
  intro r env env' he
  unfold assignmentT
  refine .bind (places_rel hG hO hC hl he) fun s hs ps ps' hp => .bind (eval_rel hG hO hC hr (he.mono hs)) fun t ht vs vs' h => ?_
  exact .bind (storeAll_rel hG (List.Forall₂.imp (fun _ _ => PlaceRel.mono ht) hp) (h.weaken ho) (he.mono (hs.trans ht)))
    fun u hu e e' h => .pure (.next h)

theorem exec_rel (hG : VarsOk G vars) (hO : okVar O false (id! "secp256k1") = true) (hC : CallOk b vars N C) (n : Nat) {m : Bool} :
    ∀ {s : Stmt}, okStmt N O G m s = true → StmtRel b vars O m (execT C n s) := by
  intro s
  induction s with
  | skip => intro _ r env env' he; unfold execT; exact .pure (.next he)
  | seq a c iha ihc =>
    intro h r env env' he
    simp only [okStmt, Bool.and_eq_true] at h
    unfold execT
    exact .bind (iha h.1 r _ _ he) fun s hs c c' hc => follow_rel hc fun env env' he => ihc h.2 s _ _ he
  | block s ih =>
    intro h r env env' he
    simp only [okStmt] at h
    unfold execT
    exact .bind (ih h r _ _ he.push) fun s hs c c' hc => .pure (leave_rel hc)
  | define l e =>
    intro h r env env' he
    simp only [okStmt, Bool.and_eq_true] at h
    unfold execT
    refine .bind (eval_rel hG hO hC h.1 he) fun s hs vs vs' hv => ?_
    exact .bind (R := ERel b O) (.known (defineAll_rel h.2 hv (he.mono hs))) fun s hs w w' h => .pure (.next h)
  | assign l e =>
    intro h r env env' he
    simp only [okStmt, Bool.and_eq_true] at h
    unfold execT
    exact assignment_rel hG hO hC h.2 h.1 id r _ _ he
  | addAssign l e =>
    intro h r env env' he
    simp only [okStmt, Bool.and_eq_true] at h
    unfold execT
    exact assignment_rel hG hO hC h.2 (by simp [okExpr, h.1.1, h.1.2]) nofun r _ _ he
  | inc l =>
    intro h r env env' he
    simp only [okStmt, Bool.and_eq_true] at h
    unfold execT
    exact assignment_rel hG hO hC h.2 (by simp [okExpr, h.1]) nofun r _ _ he
  | expr e =>
    intro h r env env' he
    simp only [okStmt] at h
    unfold execT
    exact .bind (eval_rel hG hO hC h he) fun s hs vs vs' hv => .pure (.next (he.mono hs))
  | var x t =>
    intro h r env env' he
    unfold execT
    exact .bind (zero_rel t) fun s hs v v' hv => .pure (.next (define_rel ⟨hv.rel, fun _ => hv.new rfl⟩ (he.mono hs)))
  | ret es =>
    intro h r env env' he
    simp only [okStmt, Bool.and_eq_true, Bool.or_eq_true, Bool.not_eq_true'] at h
    unfold execT
    refine .bind (eval_rel hG hO hC h.1 he) fun s hs vs vs' hv => .pure (.ret (hv.weaken fun hm => ?_))
    exact h.2.resolve_left (by simp [hm])
  | brk => intro _ r env env' he; unfold execT; exact .pure (.brk he)
  | ite c t e iht ihe =>
    intro h r env env' he
    simp only [okStmt, Bool.and_eq_true] at h
    unfold execT
    exact .bind (eval_rel hG hO hC h.1.1 he) fun s hs vs vs' hv =>
      choose_rel hv.rel (iht h.1.2 s _ _ (he.mono hs)) (ihe h.2 s _ _ (he.mono hs))
  | loop init c post body ihi ihp ihb =>
    intro h r env env' he
    simp only [okStmt, Bool.and_eq_true] at h
    unfold execT
    refine .bind (ihi h.1.1.1 r _ _ he.push) fun s hs c c' hc => ?_
    refine .bind (follow_rel hc fun env env' he => ?_) fun t ht q q' hq => .pure (leave_rel hq)
    exact rounds_rel (fun r env env' he => (eval_rel hG hO hC h.1.1.2 he).mono fun _ _ _ _ h => h.rel) (ihb h.2) (ihp h.1.2) n s _ _ he
  | range k v e body ih =>
    intro h r env env' he
    simp only [okStmt, Bool.and_eq_true] at h
    unfold execT
    refine .bind (eval_rel hG hO hC h.1 he) fun s hs vs vs' hv => ?_
    rcases hv.rel with _ | ⟨h1, _ | ⟨h2, h⟩⟩
    · exact .stuck
    · cases h1 <;> try exact .stuck
      exact ranging_rel (ih h.2) k v _ 0 s _ _ (he.mono hs)
    · cases h1 <;> exact .stuck
  | switch s ih =>
    intro h r env env' he
    simp only [okStmt] at h
    unfold execT
    exact .bind (ih h r _ _ he) fun s hs c c' hc => again_rel hc fun env env' he => .pure (.next he)

/-! ## Functions -/

theorem typed_rel (t : Expr) {o : Bool} {v v' : Value} (h : ValO b o r v v') : ValO b o r (typed t v) (typed t v') := by
  obtain ⟨h, hn⟩ := h
  have hnil : ∀ t, ValO b o r (typed t .nil) (typed t .nil) := by
    intro t
    simp only [typed]
    repeat' split
    · exact ⟨.priv trivial, fun _ => nofun⟩
    · exact ⟨.pub trivial, fun _ => nofun⟩
    · exact ⟨.net _, fun _ => trivial⟩
    · exact ⟨.nil, fun _ => trivial⟩
    · exact ⟨.big trivial, fun _ => nofun⟩
    · exact ⟨.err _, fun _ => trivial⟩
    · exact ⟨.nil, fun _ => trivial⟩
    · exact ⟨.nil, fun _ => trivial⟩
  cases h with
  | nil => exact hnil t
  | big h => exact ⟨.big h, hn⟩
  | priv h => exact ⟨.priv h, hn⟩
  | pub h => exact ⟨.pub h, hn⟩
  | privVar h => exact ⟨.privVar h, hn⟩
  | pubVar h => exact ⟨.pubVar h, hn⟩
  | point h h' => exact ⟨.point h h', hn⟩
  | base h h' => exact ⟨.base h h', hn⟩
  | _ => exact ⟨by constructor, hn⟩

theorem typedAll_rel {o : Bool} : ∀ (ts : List Expr) {vs vs' : List Value}, ValsO b o r vs vs' →
    Option.Rel (ValsO b o r) (typedAll ts vs) (typedAll ts vs')
  | [], _, _, h => by
    cases h with
    | nil => exact .some .nil
    | cons _ _ => exact .none
  | t :: ts, _, _, h => by
    cases h with
    | nil => exact .none
    | @cons v v' vs vs' h hs =>
      have ih := typedAll_rel ts hs
      revert ih
      show Option.Rel _ _ _ → Option.Rel _ ((typedAll ts vs).map (typed t v :: ·)) ((typedAll ts vs').map (typed t v' :: ·))
      generalize typedAll ts vs = w
      generalize typedAll ts vs' = w'
      intro ih
      cases ih with
      | none => exact .none
      | some h' => exact .some (.cons (typed_rel t h) h')

theorem bindParams_rel : ∀ {ps : List (Nat × Expr)}, (ps.all fun p => okVar O false p.1) = true → ∀ {vs vs' : List Value},
    Vals b r vs vs' → Option.Rel (SRel b O r) (bindParams ps vs) (bindParams ps vs')
  | [], _, _, _, h => by
    cases h with
    | nil => exact .some .nil
    | cons _ _ => exact .none
  | (x, t) :: ps, hp, _, _, h => by
    simp only [List.all_cons, Bool.and_eq_true] at hp
    cases h with
    | nil => exact .none
    | @cons v v' vs vs' h hs =>
      have ih := bindParams_rel hp.2 hs
      revert ih
      show Option.Rel _ _ _ → Option.Rel _ ((bindParams ps vs).map ((x, v) :: ·)) ((bindParams ps vs').map ((x, v') :: ·))
      generalize bindParams ps vs = w
      generalize bindParams ps vs' = w'
      intro ih
      cases ih with
      | none => exact .none
      | some h' =>
        have hv : ValO b (O.contains x) r v v' := ValO.okVar hp.1 ⟨h, nofun⟩
        exact .some (.cons ⟨rfl, hv.rel, hv.new⟩ h')

theorem start_rel {f : Func} (hf : okFunc N O G f = true) {vs vs' : List Value} (h : Vals b r vs vs') :
    Option.Rel (ERel b O r) (f.start vs) (f.start vs') := by
  simp only [okFunc, Bool.and_eq_true] at hf
  obtain ⟨⟨⟨⟨hrecv, hp⟩, -⟩, -⟩, -⟩ := hf
  unfold Func.start
  split
  · have hb := bindParams_rel hp h
    revert hb
    generalize bindParams f.params vs = w
    generalize bindParams f.params vs' = w'
    intro hb
    cases hb with
    | none => exact .none
    | some h => exact .some (.cons h .nil)
  · cases h with
    | nil => exact .none
    | @cons v v' vs vs' h hs =>
      have hb := bindParams_rel hp hs
      revert hb
      simp only
      generalize bindParams f.params vs = w
      generalize bindParams f.params vs' = w'
      intro hb
      cases hb with
      | none => exact .none
      | some h' =>
        have hv : ValO b (O.contains f.recvName) r v v' := ValO.okVar hrecv ⟨h, nofun⟩
        exact .some (.cons (.cons ⟨rfl, hv.rel, hv.new⟩ h') .nil)

theorem finish_rel {m : Bool} (f : Func) {c c' : Ctl} (h : CtlRel b O m r c c') :
    TRel b vars (ValsO b m) r (finishT f c) (finishT f c') := by
  unfold finishT
  cases h with
  | next _ => exact .ite (fun _ => .pure .nil) .stuck
  | brk _ => exact .stuck
  | ret h => exact .known (typedAll_rel _ h)

theorem findFunc_mem {recv name : Nat} {f : Func} : ∀ {ds : List Decl}, findFunc recv name ds = some f →
    Decl.func f ∈ ds ∧ f.recv = recv ∧ f.name = name
  | [], h => by cases h
  | d :: ds, h => by
    cases d with
    | func g =>
      unfold findFunc at h
      split at h
      · cases h; exact ⟨.head _, ‹_›⟩
      · exact ⟨.tail _ (findFunc_mem h).1, (findFunc_mem h).2⟩
    | _ => exact ⟨.tail _ (findFunc_mem (ds := ds) h).1, (findFunc_mem (ds := ds) h).2⟩

theorem runFunc_rel {H : Hashes} {E : EcdsaP} (hE : E.Local) {ds : List Decl} (hG : VarsOk G vars)
    (hN : ∀ f, Decl.func f ∈ ds → f.name ≠ id! "init" → ∃ O, okFunc N O G f = true) :
    ∀ (n : Nat), CallOk b vars N ⟨H, E, runFuncT H E ds n⟩
  | 0 => ⟨hE, fun _ _ _ _ _ _ _ => .stuck, fun _ _ _ _ => rfl⟩
  | n + 1 => by
    have ih := runFunc_rel (H := H) hE hG hN n
    refine ⟨hE, fun r recv name args args' hname h => ?_, fun recv name args hr => ?_⟩
    · show TRel b vars _ r (runFuncT H E ds (n + 1) recv name args) (runFuncT H E ds (n + 1) recv name args')
      unfold runFuncT
      cases hf : findFunc recv name ds with
      | none => exact .stuck
      | some f =>
        obtain ⟨hmem, hrecv, hnm⟩ := findFunc_mem hf
        obtain ⟨O, hok⟩ := hN f hmem (by rw [hnm]; exact hname)
        have hs := start_rel (b := b) (r := r) hok h
        simp only [okFunc, Bool.and_eq_true] at hok
        revert hs
        simp only
        generalize f.start args = w
        generalize f.start args' = w'
        intro hs
        cases hs with
        | none => exact .stuck
        | some he =>
          rw [← hrecv, ← hnm]
          exact .bind (exec_rel hG hok.1.1.2 ih n hok.1.2 r _ _ he) fun s hs c c' hc => finish_rel f hc
    · show runFuncT H E ds (n + 1) recv name args = stuckT
      unfold runFuncT
      cases hf : findFunc recv name ds with
      | none => rfl
      | some f =>
        obtain ⟨hmem, hrecv, hnm⟩ := findFunc_mem hf
        exfalso
        by_cases hi : name = id! "init"
        · subst hi; exact absurd hr (by decide)
        obtain ⟨O, hok⟩ := hN f hmem (by rw [hnm]; exact hi)
        simp only [okFunc, Bool.and_eq_true, hnm, hr] at hok
        exact absurd hok.2 (by decide)

end

end Btc.Threads
