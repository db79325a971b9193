import Verif.Threads.Own

/-!
# What passes the check may run beside others

Two runs of one syntax tree, with corresponding arguments, stay in lock step (`PRel`): what is allocated may be placed
elsewhere, and writes go to cells that are not in `b`.
-/

namespace Btc.Threads

open Mem Source

/-- Values that correspond. Variables of type `PrivateKey` and `PublicKey` are never in `b`. -/
inductive VRel (b : Heap) (r : Ren) : Value → Value → Prop
  | nil : VRel b r .nil .nil
  | bool (x : Bool) : VRel b r (.bool x) (.bool x)
  | int (i : Int) : VRel b r (.int i) (.int i)
  | byte (x : UInt8) : VRel b r (.byte x) (.byte x)
  | str (s : GoString) : VRel b r (.str s) (.str s)
  | bytes (s : Bytes) : VRel b r (.bytes s) (.bytes s)
  | strs (l : Option (List GoString)) : VRel b r (.strs l) (.strs l)
  | err (e : Option GoError) : VRel b r (.err e) (.err e)
  | big {p q : Ptr} : At r.ints p q → VRel b r (.big p) (.big q)
  | net (p : Ptr) : VRel b r (.net p) (.net p)
  | priv {p q : Ptr} : At r.privs p q → VRel b r (.priv p) (.priv q)
  | pub {p q : Ptr} : At r.pubs p q → VRel b r (.pub p) (.pub q)
  | netVar (a : Nat) : VRel b r (.netVar a) (.netVar a)
  | privVar {a x : Nat} : PRel.OwnPriv b r a x → VRel b r (.privVar a) (.privVar x)
  | pubVar {a x : Nat} : PRel.OwnPub b r a x → VRel b r (.pubVar a) (.pubVar x)
  | point {x y u v : Ptr} : At r.ints x u → At r.ints y v → VRel b r (.point x y) (.point u v)
  | curve : VRel b r .curve .curve
  | base {x y u v : Ptr} : At r.ints x u → At r.ints y v → VRel b r (.base x y) (.base u v)
  | hash (a : Nat) : VRel b r (.hash a) (.hash a)
  | reader : VRel b r .reader .reader
  | pkg (x : Nat) : VRel b r (.pkg x) (.pkg x)
  | unknown : VRel b r .unknown .unknown

theorem VRel.mono {b : Heap} {r s : Ren} (h : r.Le s) {v v' : Value} (hv : VRel b r v v') : VRel b s v v' := by
  cases hv
  case big h1 => exact .big (at_mono h.ints h1)
  case priv h1 => exact .priv (at_mono h.privs h1)
  case pub h1 => exact .pub (at_mono h.pubs h1)
  case privVar h1 => exact .privVar (h1.mono h)
  case pubVar h1 => exact .pubVar (h1.mono h)
  case point h1 h2 => exact .point (at_mono h.ints h1) (at_mono h.ints h2)
  case base h1 h2 => exact .base (at_mono h.ints h1) (at_mono h.ints h2)
  all_goals constructor

/-- The value does not lead to a cell of `b` that can be written through it. -/
def Fresh (b : Heap) : Value → Prop
  | .big p => FreshInt b p
  | .priv p => FreshPriv b p
  | .pub p => FreshPub b p
  | .curve => False
  | .base _ _ => False
  | _ => True

/-- Lists of corresponding values. -/
def Vals (b : Heap) (r : Ren) : List Value → List Value → Prop := List.Forall₂ (VRel b r)

/-- Corresponding values, new if `o`. -/
structure ValO (b : Heap) (o : Bool) (r : Ren) (v v' : Value) : Prop where
  rel : VRel b r v v'
  new : o = true → Fresh b v

/-- Lists of corresponding values, new if `o`. -/
def ValsO (b : Heap) (o : Bool) (r : Ren) : List Value → List Value → Prop := List.Forall₂ (ValO b o r)

theorem ValO.mono {b : Heap} {o : Bool} {r s : Ren} (h : r.Le s) {v v' : Value} (hv : ValO b o r v v') : ValO b o s v v' :=
  ⟨hv.rel.mono h, hv.new⟩

theorem ValsO.mono {b : Heap} {o : Bool} {r s : Ren} (h : r.Le s) {vs vs' : List Value} (hv : ValsO b o r vs vs') :
    ValsO b o s vs vs' := List.Forall₂.imp (fun _ _ => ValO.mono h) hv

theorem ValsO.rel {b : Heap} {o : Bool} {r : Ren} {vs vs' : List Value} (hv : ValsO b o r vs vs') : Vals b r vs vs' :=
  List.Forall₂.imp (fun _ _ h => h.rel) hv

theorem Vals.mono {b : Heap} {r s : Ren} (h : r.Le s) {vs vs' : List Value} (hv : Vals b r vs vs') : Vals b s vs vs' :=
  List.Forall₂.imp (fun _ _ => VRel.mono h) hv

theorem Vals.toO {b : Heap} {r : Ren} {vs vs' : List Value} (hv : Vals b r vs vs') : ValsO b false r vs vs' :=
  List.Forall₂.imp (fun _ _ h => ⟨h, nofun⟩) hv

theorem ValsO.weaken {b : Heap} {o o' : Bool} (ho : o' = true → o = true) {r : Ren} {vs vs' : List Value} (hv : ValsO b o r vs vs') :
    ValsO b o' r vs vs' := List.Forall₂.imp (fun _ _ h => ⟨h.rel, fun e => h.new (ho e)⟩) hv

/-- Ends that correspond; what belongs to the goroutine alone is equal, and the package variables are `vars`. -/
def EndRel {α β : Type} (vars : List (Nat × Value)) (R : Ren → α → β → Prop) (r : Ren) : Ended α → Ended β → Prop
  | .done a s, .done a' s' => R r a a' ∧ s = s' ∧ s.vars = vars
  | .stuck, .stuck => True
  | _, _ => False

/-- Computations in lock step. -/
def TRel {α β : Type} (b : Heap) (vars : List (Nat × Value)) (R : Ren → α → β → Prop) (r : Ren) (x : TM α) (y : TM β) : Prop :=
  r.Has b → ∀ s : Rest, s.vars = vars → PRel b (EndRel vars R) r (x s) (y s)

namespace TRel

variable {α β γ δ : Type} {b : Heap} {vars : List (Nat × Value)} {r : Ren}

theorem bind {R : Ren → α → β → Prop} {S : Ren → γ → δ → Prop} {x : TM α} {y : TM β} {f : α → TM γ} {g : β → TM δ}
    (hx : TRel b vars R r x y) (hf : ∀ s, r.Le s → ∀ a a', R s a a' → TRel b vars S s (f a) (g a')) :
    TRel b vars S r (x >>= f) (y >>= g) := by
  intro hr s hs
  refine PRel.next (hx hr s hs) (fun t ht e e' he => ?_) fun _ _ _ => .ret rfl
  rcases e with ⟨a, s1⟩ | _ | _ <;> rcases e' with ⟨a', s2⟩ | _ | _ <;> simp only [EndRel] at he
  · obtain ⟨ha, rfl, hv⟩ := he
    exact hf t ht a a' ha (hr.mono ht) s1 hv
  · exact .ret trivial

theorem pure {R : Ren → α → β → Prop} {a : α} {a' : β} (h : R r a a') : TRel b vars R r (Pure.pure a) (Pure.pure a') :=
  fun _ _ hs => .ret ⟨h, rfl, hs⟩

theorem stuck {R : Ren → α → β → Prop} : TRel b vars R r stuckT stuckT := fun _ _ _ => .ret trivial

theorem panic {R : Ren → α → β → Prop} (p : GoPanic) : TRel b vars R r (panicT p) (panicT p) := fun _ _ _ => .ret rfl

theorem onHeap {R : Ren → α → β → Prop} {m : Prog α} {m' : Prog β} (h : r.Has b → PRel b R r m m') :
    TRel b vars R r (onHeapT m) (onHeapT m') := by
  intro hr s hs
  exact PRel.next (h hr) (fun t ht a a' ha => .ret ⟨ha, rfl, hs⟩) fun _ _ _ => .ret trivial

theorem ite {c : Prop} [Decidable c] {R : Ren → α → β → Prop} {x x' : TM α} {y y' : TM β} (h : c → TRel b vars R r x y)
    (h' : TRel b vars R r x' y') : TRel b vars R r (if c then x else x') (if c then y else y') := by
  split
  · exact h ‹_›
  · exact h'

theorem mono {R S : Ren → α → β → Prop} {x : TM α} {y : TM β} (h : TRel b vars R r x y)
    (hi : ∀ s, r.Le s → ∀ a a', R s a a' → S s a a') : TRel b vars S r x y := by
  intro hr s hs
  refine (h hr s hs).mono fun t ht e e' he => ?_
  rcases e with ⟨a, s1⟩ | _ | _ <;> rcases e' with ⟨a', s2⟩ | _ | _ <;> simp only [EndRel] at he ⊢
  exact ⟨hi t ht _ _ he.1, he.2⟩

theorem ofRes {R : Ren → α → α → Prop} (x : Res α) (h : ∀ a, R r a a) : TRel b vars R r (ofResT x) (ofResT x) := by
  intro hr s hs
  cases x
  · exact .ret ⟨h _, rfl, hs⟩
  · exact .ret trivial
  · exact .ret rfl

theorem one {o : Bool} {vs vs' : List Value} (h : ValsO b o r vs vs') : TRel b vars (ValO b o) r (oneT vs) (oneT vs') := by
  rcases h with _ | ⟨h, _ | _⟩
  · exact stuck
  · exact pure h
  · exact stuck

theorem known {R : Ren → α → β → Prop} {o : Option α} {o' : Option β} (h : Option.Rel (R r) o o') :
    TRel b vars R r (knownT o) (knownT o') := by
  cases h with
  | none => exact stuck
  | some h => exact pure h

theorem withError {o : Bool} (x : Res α) (f : α → Value) (h : ∀ a, ValO b o r (f a) (f a)) :
    TRel b vars (ValsO b o) r (withErrorT x f) (withErrorT x f) := by
  cases x
  · exact pure (.cons (h _) (.cons ⟨.err _, fun _ => trivial⟩ .nil))
  · exact pure (.cons ⟨.unknown, fun _ => trivial⟩ (.cons ⟨.err _, fun _ => trivial⟩ .nil))
  · exact panic _

end TRel

section
variable {b : Heap} {vars : List (Nat × Value)} {r : Ren}

/-! ## Operators and fields -/

theorem isNil_rel {v v' : Value} (h : VRel b r v v') : isNil v = isNil v' := by
  have ha : ∀ {l : List Nat} {p q : Ptr}, At l p q → p.isNone = q.isNone := by
    intro l p q h; cases p <;> cases q <;> simp only [At] at h <;> rfl
  cases h <;> first | rfl | exact congrArg some (ha ‹_›)

theorem equal_rel {v v' w w' : Value} (h : VRel b r v v') (h' : VRel b r w w') : equal v w = equal v' w' := by
  have hn := isNil_rel h
  cases h'
  case nil => cases h <;> exact hn
  all_goals cases h <;> rfl

theorem binary_rel (op : Nat) {v v' w w' : Value} (h : VRel b r v v') (h' : VRel b r w w') :
    Option.Rel (ValO b true r) (binary op v w) (binary op v' w') := by
  have hr : ∀ {o : Option Value}, (∀ x, o = some x → VRel b r x x ∧ Fresh b x) → Option.Rel (ValO b true r) o o := by
    intro o ho
    cases o with
    | none => exact .none
    | some x => exact .some ⟨(ho x rfl).1, fun _ => (ho x rfl).2⟩
  unfold binary
  rw [equal_rel h h']
  split
  · refine hr fun x hx => ?_
    obtain ⟨t, -, rfl⟩ := Option.map_eq_some_iff.mp hx
    exact ⟨.bool _, trivial⟩
  · split
    · refine hr fun x hx => ?_
      obtain ⟨t, -, rfl⟩ := Option.map_eq_some_iff.mp hx
      exact ⟨.bool _, trivial⟩
    · cases h <;> try exact .none
      · cases h' <;> try exact .none
        simp only
        refine hr fun x hx => ?_
        split at hx
        · cases hx; exact ⟨.int _, trivial⟩
        · split at hx
          · cases hx; exact ⟨.int _, trivial⟩
          · split at hx
            · split at hx
              · cases hx
              · cases hx; exact ⟨.int _, trivial⟩
            · split at hx
              · cases hx; exact ⟨.bool _, trivial⟩
              · cases hx
      · cases h' <;> try exact .none
        simp only
        refine hr fun x hx => ?_
        split at hx
        · cases hx; exact ⟨.str _, trivial⟩
        · cases hx

theorem unary_rel (op : Nat) {v v' : Value} (h : VRel b r v v') :
    Option.Rel (ValO b true r) (unary op v) (unary op v') := by
  unfold unary
  cases h <;> try exact .none
  all_goals
    simp only
    split <;> try exact .none
  · exact .some ⟨.bool _, fun _ => trivial⟩
  · exact .some ⟨.int _, fun _ => trivial⟩
  · exact .some ⟨.net _, fun _ => trivial⟩
  · rename_i h _; exact .some ⟨.priv h.1, fun _ => freshPriv_some h.2⟩
  · rename_i h _; exact .some ⟨.pub h.1, fun _ => freshPub_some h.2⟩

theorem index_rel {v v' i i' : Value} (h : VRel b r v v') (h' : VRel b r i i') :
    TRel b vars (VRel b) r (indexValueT v i) (indexValueT v' i') := by
  unfold indexValueT
  cases h <;> try exact .stuck
  all_goals cases h' <;> try exact .stuck
  · exact .bind (R := PRel.Same) (.ofRes _ fun _ => rfl) fun s hs a a' e => by cases e; exact .pure (.byte _)
  · exact .bind (R := PRel.Same) (.ofRes _ fun _ => rfl) fun s hs a a' e => by cases e; exact .pure (.str _)

theorem slice_rel {v v' i i' j j' : Value} (h : VRel b r v v') (h1 : VRel b r i i') (h2 : VRel b r j j') :
    TRel b vars (VRel b) r (sliceValueT v i j) (sliceValueT v' i' j') := by
  unfold sliceValueT
  cases h <;> try exact .stuck
  cases h1 <;> try exact .stuck
  cases h2 <;> try exact .stuck
  exact .bind (R := PRel.Same) (.ofRes _ fun _ => rfl) fun s hs a a' e => by cases e; exact .pure (.str _)

theorem privField_rel (f : Nat) {o o' : PrivObj} (h : PrivRel r o o') : Option.Rel (VRel b r) (privField o f) (privField o' f) := by
  unfold privField
  split
  · exact .some (.big h.Key)
  · split
    · rw [h.Hex]; exact .some (.str _)
    · split
      · rw [h.WIF]; exact .some (.str _)
      · split
        · rw [h.Network]; exact .some (.net _)
        · exact .none

theorem pubField_rel (f : Nat) {o o' : PubObj} (h : PubRel r o o') : Option.Rel (VRel b r) (pubField o f) (pubField o' f) := by
  unfold pubField
  split
  · exact .some (.big h.X)
  · split
    · exact .some (.big h.Y)
    · split
      · rw [h.Network]; exact .some (.net _)
      · exact .none

theorem netField_rel (f : Nat) (n : Network) : Option.Rel (VRel b r) (netField n f) (netField n f) := by
  unfold netField
  split
  · exact .some (.str _)
  · split
    · exact .some (.str _)
    · exact .none

theorem curveField_rel (f : Nat) {c c' : CurveObj} (h : CurveRel r c c') :
    Option.Rel (VRel b r) (curveField c f) (curveField c' f) := by
  unfold curveField
  repeat' split
  · exact .some (.big h.A)
  · exact .some (.big h.B)
  · exact .some (.big h.P)
  · exact .some (.big h.N)
  · exact .some (.big h.H)
  · exact .some (.base h.GX h.GY)
  · exact .none

theorem pointField_rel (f : Nat) {x y u v : Ptr} (h : At r.ints x u) (h' : At r.ints y v) :
    Option.Rel (VRel b r) (pointField x y f) (pointField u v f) := by
  unfold pointField
  repeat' split
  · exact .some (.big h)
  · exact .some (.big h')
  · exact .none

theorem readPriv_rel {p q : Ptr} (h : At r.privs p q) : TRel b vars PrivRel r (onHeapT (readPrivP p)) (onHeapT (readPrivP q)) :=
  .onHeap fun _ => .privField h _ fun _ _ ho => ho

theorem readPub_rel {p q : Ptr} (h : At r.pubs p q) : TRel b vars PubRel r (onHeapT (readPubP p)) (onHeapT (readPubP q)) :=
  .onHeap fun _ => .pubField h _ fun _ _ ho => ho

theorem readNet_rel (p : Ptr) : TRel b vars PRel.Same r (onHeapT (readNetP p)) (onHeapT (readNetP p)) :=
  .onHeap fun _ => .readNet p

theorem field_rel (f : Nat) {v v' : Value} (h : VRel b r v v') : TRel b vars (VRel b) r (fieldT v f) (fieldT v' f) := by
  unfold fieldT
  cases h <;> try exact .stuck
  · exact .bind (readNet_rel _) fun s hs a a' e => by cases e; exact .known (netField_rel f _)
  · rename_i h; exact .bind (readPriv_rel h) fun s hs a a' e => .known (privField_rel f e)
  · rename_i h; exact .bind (readPub_rel h) fun s hs a a' e => .known (pubField_rel f e)
  · exact .bind (readNet_rel _) fun s hs a a' e => by cases e; exact .known (netField_rel f _)
  · rename_i h; exact .bind (readPriv_rel (p := some _) (q := some _) h.1) fun s hs a a' e => .known (privField_rel f e)
  · rename_i h; exact .bind (readPub_rel (p := some _) (q := some _) h.1) fun s hs a a' e => .known (pubField_rel f e)
  · rename_i h h'; exact .known (pointField_rel f h h')
  · exact .bind (R := CurveRel) (.onHeap fun _ => .readCurve) fun s hs a a' e => .known (curveField_rel f e)
  · rename_i h h'; exact .known (pointField_rel f h h')
  · exact .ite (fun _ => .pure .reader) .stuck

theorem setPriv_rel (f : Nat) {a x : Nat} (ha : PRel.OwnPriv b r a x) {v v' : Value} (h : VRel b r v v') :
    TRel b vars PRel.Same r (setPrivT a f v) (setPrivT x f v') := by
  unfold setPrivT
  cases h <;> try exact .stuck
  · exact .ite (fun _ => .onHeap fun _ => .updPriv ha (PRel.setHex _))
      (.ite (fun _ => .onHeap fun _ => .updPriv ha (PRel.setWIF _)) .stuck)
  · rename_i h; exact .ite (fun _ => .onHeap fun _ => .updPriv ha (PRel.setKey h)) .stuck
  · exact .ite (fun _ => .onHeap fun _ => .updPriv ha (PRel.setNet _)) .stuck

theorem setPub_rel (f : Nat) {a x : Nat} (ha : PRel.OwnPub b r a x) {v v' : Value} (h : VRel b r v v') :
    TRel b vars PRel.Same r (setPubT a f v) (setPubT x f v') := by
  unfold setPubT
  cases h <;> try exact .stuck
  · rename_i h
    exact .ite (fun _ => .onHeap fun _ => .updPub ha (PRel.setX h))
      (.ite (fun _ => .onHeap fun _ => .updPub ha (PRel.setY h)) .stuck)
  · exact .ite (fun _ => .onHeap fun _ => .updPub ha (PRel.setPubNet _)) .stuck

theorem setField_rel (f : Nat) {u u' v v' : Value} (hu : VRel b r u u') (hf : Fresh b u) (h : VRel b r v v') :
    TRel b vars PRel.Same r (setFieldT u f v) (setFieldT u' f v') := by
  unfold setFieldT
  cases hu <;> try exact .stuck
  · rename_i p q hu
    cases p <;> cases q <;> simp only [At] at hu
    · exact .panic _
    · exact setPriv_rel f ⟨hu, hf _ rfl⟩ h
  · rename_i p q hu
    cases p <;> cases q <;> simp only [At] at hu
    · exact .panic _
    · exact setPub_rel f ⟨hu, hf _ rfl⟩ h
  · exact setPriv_rel f ‹_› h
  · exact setPub_rel f ‹_› h
  · exact hf.elim
  · exact hf.elim

theorem zero_rel (t : Expr) : TRel b vars (ValO b true) r (zeroT t) (zeroT t) := by
  unfold zeroT
  cases t <;> try exact .stuck
  · refine .ite (fun _ => .pure ⟨.int _, fun _ => trivial⟩) (.ite (fun _ => .pure ⟨.str _, fun _ => trivial⟩)
      (.ite (fun _ => ?_) (.ite (fun _ => ?_) .stuck)))
    · exact .bind (.onHeap fun hr => .newPriv hr) fun s hs a a' h => .pure ⟨.privVar h, fun _ => trivial⟩
    · exact .bind (.onHeap fun hr => .newPub hr) fun s hs a a' h => .pure ⟨.pubVar h, fun _ => trivial⟩
  · rename_i t
    cases t <;> try exact .stuck
    exact .ite (fun _ => .pure ⟨.strs _, fun _ => trivial⟩) .stuck

theorem given_rel (f : Nat) : ∀ (ks : List Nat) {vs vs' : List Value}, Vals b r vs vs' →
    Option.Rel (VRel b r) (given f ks vs) (given f ks vs')
  | [], _, _, h => by cases h <;> exact .none
  | k :: ks, _, _, h => by
    cases h with
    | nil => exact .none
    | cons h t =>
      unfold given
      split
      · exact .some h
      · exact given_rel f ks t

theorem composite_rel {t : Expr} (ht : t ≠ .name (id! "Network")) (ks : List Nat) {vs vs' : List Value} (h : Vals b r vs vs') :
    TRel b vars (VRel b) r (compositeT t ks vs) (compositeT t ks vs') := by
  unfold compositeT
  cases t <;> try exact .stuck
  · refine .ite (fun e => (ht (congrArg Expr.name e)).elim) (.ite (fun _ => ?_) .stuck)
    have hX := given_rel (id! "X") ks h
    have hY := given_rel (id! "Y") ks h
    have hN := given_rel (id! "Network") ks h
    revert hX hY hN
    generalize given (id! "X") ks vs = a
    generalize given (id! "Y") ks vs = c
    generalize given (id! "Network") ks vs = d
    generalize given (id! "X") ks vs' = a'
    generalize given (id! "Y") ks vs' = c'
    generalize given (id! "Network") ks vs' = d'
    intro hX hY hN
    rcases hX with ⟨hX⟩ | _
    swap
    · exact .stuck
    cases hX <;> try exact .stuck
    rcases hY with ⟨hY⟩ | _
    swap
    · exact .stuck
    cases hY <;> try exact .stuck
    rcases hN with ⟨hN⟩ | _
    swap
    · exact .stuck
    cases hN <;> try exact .stuck
    rename_i hX _ _ hY n
    refine .bind (.onHeap fun hr => .newPub hr) fun s hs k k' hk => ?_
    refine .bind (R := PRel.Same) (.onHeap fun _ => .updPub hk fun o o' ho => ⟨at_mono hs.ints hX, at_mono hs.ints hY, rfl⟩)
      fun s' hs' _ _ _ => .pure (.pubVar (hk.mono hs'))
  · rename_i t x
    cases t <;> try exact .stuck
    refine .ite (fun _ => ?_) .stuck
    have hX := given_rel (id! "X") ks h
    have hY := given_rel (id! "Y") ks h
    revert hX hY
    generalize given (id! "X") ks vs = a
    generalize given (id! "Y") ks vs = c
    generalize given (id! "X") ks vs' = a'
    generalize given (id! "Y") ks vs' = c'
    intro hX hY
    rcases hX with ⟨hX⟩ | _
    swap
    · exact .stuck
    cases hX <;> try exact .stuck
    rcases hY with ⟨hY⟩ | _
    swap
    · exact .stuck
    cases hY <;> try exact .stuck
    rename_i hX _ _ hY
    exact .pure (.point hX hY)

/-! ## Packages -/

theorem readInt_rel {p q : Ptr} (h : At r.ints p q) : TRel b vars PRel.Same r (onHeapT (readIntP p)) (onHeapT (readIntP q)) :=
  .onHeap fun _ => .readInt h

theorem writeInt_rel {p q : Ptr} (h : PRel.OwnInt b r p q) (v : Int) :
    TRel b vars PRel.Same r (onHeapT (writeIntP p v)) (onHeapT (writeIntP q v)) := .onHeap fun _ => .writeInt h v

/-- A new number as the only value. -/
theorem ownInt_vals {o : Bool} {p q : Ptr} (h : PRel.OwnInt b r p q) : ValsO b o r [.big p] [.big q] :=
  .cons ⟨.big h.1, fun _ => h.2⟩ .nil

theorem setString_rel {z z' : Ptr} (hz : PRel.OwnInt b r z z') (s : GoString) (base : Nat) :
    PRel b (PRel.OwnInt b) r (setStringP z s base) (setStringP z' s base) := by
  unfold setStringP
  cases bigSetString s base with
  | none => exact .pure ⟨trivial, nofun⟩
  | some v => exact .bind (.writeInt hz v) fun t ht _ _ _ => .pure (hz.mono ht)

theorem bigMethod_rel {z z' : Ptr} (hz : At r.ints z z') {m : Nat} (hm : mutators.contains m = true → FreshInt b z)
    {args args' : List Value} (h : Vals b r args args') :
    TRel b vars (ValsO b true) r (bigMethodT z m args) (bigMethodT z' m args') := by
  have int1 : ∀ {s : Ren} (i : Int), ValsO b true s [.int i] [.int i] := fun i => .cons ⟨.int i, fun _ => trivial⟩ .nil
  unfold bigMethodT
  rcases h with _ | ⟨h1, _ | ⟨h2, _ | ⟨h3, _ | ⟨h4, h⟩⟩⟩⟩
  · refine .ite (fun _ => .bind (readInt_rel hz) fun s hs a a' e => ?_) (.ite (fun _ => .bind (readInt_rel hz) fun s hs a a' e => ?_) .stuck)
    · cases e; exact .pure (.cons ⟨.bytes _, fun _ => trivial⟩ .nil)
    · cases e; exact .pure (int1 _)
  · cases h1 <;> try exact .stuck
    · refine .ite (fun e => ?_) (.ite (fun e => .ite (fun _ => .stuck) ?_) .stuck)
      · subst e
        have ho : PRel.OwnInt b r z z' := ⟨hz, hm (by decide)⟩
        exact .bind (writeInt_rel ho _) fun s hs _ _ _ => .pure (ownInt_vals (ho.mono hs))
      · exact .bind (readInt_rel hz) fun s hs a a' e => by cases e; exact .pure (int1 _)
    · refine .ite (fun e => ?_) .stuck
      subst e
      have ho : PRel.OwnInt b r z z' := ⟨hz, hm (by decide)⟩
      exact .bind (writeInt_rel ho _) fun s hs _ _ _ => .pure (ownInt_vals (ho.mono hs))
    · rename_i hx
      refine .ite (fun e => ?_) (.ite (fun e => ?_) .stuck)
      · subst e
        have ho : PRel.OwnInt b r z z' := ⟨hz, hm (by decide)⟩
        exact .bind (.onHeap fun _ => .bigSet ho hx) fun s hs _ _ h => .pure (ownInt_vals h)
      · exact .bind (readInt_rel hz) fun s hs a a' e => .bind (readInt_rel (at_mono hs.ints hx)) fun t ht c c' e' => by
          cases e; cases e'; exact .pure (int1 _)
  · cases h1 <;> try exact .stuck
    · cases h2 <;> try exact .stuck
      refine .ite (fun e => .ite (fun _ => ?_) .stuck) .stuck
      subst e
      have ho : PRel.OwnInt b r z z' := ⟨hz, hm (by decide)⟩
      refine .bind (.onHeap fun _ => setString_rel ho _ _) fun s hs p q h => ?_
      have e : p.isSome = q.isSome := by
        have := h.1
        cases p <;> cases q <;> simp only [At] at this <;> rfl
      rw [e]
      exact .pure (.cons ⟨.big h.1, fun _ => h.2⟩ (.cons ⟨.bool _, fun _ => trivial⟩ .nil))
    · cases h2 <;> try exact .stuck
      rename_i hx _ _ hy
      refine .ite (fun e => ?_) (.ite (fun e => ?_) (.ite (fun e => ?_) .stuck))
      · subst e
        exact .bind (.onHeap fun _ => .binop ⟨hz, hm (by decide)⟩ hx hy) fun s hs _ _ h => .pure (ownInt_vals h)
      · subst e
        exact .bind (.onHeap fun _ => .binop ⟨hz, hm (by decide)⟩ hx hy) fun s hs _ _ h => .pure (ownInt_vals h)
      · subst e
        exact .bind (.onHeap fun _ => .bigMod ⟨hz, hm (by decide)⟩ hx hy) fun s hs _ _ h => .pure (ownInt_vals h)
  · cases h1 <;> try exact .stuck
    all_goals cases h2 <;> try exact .stuck
    cases h3 <;> try exact .stuck
    rename_i hx _ _ hy
    refine .ite (fun e => ?_) .stuck
    subst e
    have ho : PRel.OwnInt b r z z' := ⟨hz, hm (by decide)⟩
    refine .bind (readInt_rel hx) fun s hs a a' e => .bind (readInt_rel (at_mono hs.ints hy)) fun t ht c c' e' => ?_
    cases e
    cases e'
    exact .bind (writeInt_rel (ho.mono (hs.trans ht)) _) fun u hu _ _ _ => .pure (ownInt_vals (ho.mono ((hs.trans ht).trans hu)))
  · cases h1 <;> try exact .stuck
    all_goals cases h2 <;> try exact .stuck
    cases h3 <;> exact .stuck

theorem hashMethod_rel (H : Hashes) (a m : Nat) {args args' : List Value} (h : Vals b r args args') :
    TRel b vars (ValsO b true) r (hashMethodT H a m args) (hashMethodT H a m args') := by
  unfold hashMethodT
  have hw : ∀ x, TRel b vars PRel.Same r (writeHashT a x) (writeHashT a x) := fun x _ s hs => .ret ⟨rfl, rfl, hs⟩
  have hr : TRel b vars PRel.Same r (readHashT a) (readHashT a) := by
    intro _ s hs
    unfold readHashT
    cases s.hashes[a]?
    · exact .ret trivial
    · exact .ret ⟨rfl, rfl, hs⟩
  rcases h with _ | ⟨h1, _ | ⟨h2, h⟩⟩
  · exact .stuck
  · cases h1 <;> try exact .stuck
    · exact .ite (fun _ => .bind hr fun s hs _ _ e => by cases e; exact .pure (.cons ⟨.bytes _, fun _ => trivial⟩ .nil)) .stuck
    · exact .ite (fun _ => .bind (hw _) fun s hs _ _ _ =>
        .pure (.cons ⟨.int _, fun _ => trivial⟩ (.cons ⟨.err _, fun _ => trivial⟩ .nil))) .stuck
  · cases h1 <;> exact .stuck

theorem curveMethod_rel {E : EcdsaP} (hE : E.Local) (m : Nat) {args args' : List Value} (h : Vals b r args args') :
    TRel b vars (ValsO b (reserved.contains m)) r (curveMethodT E m args) (curveMethodT E m args') := by
  unfold curveMethodT
  rcases h with _ | ⟨h1, _ | ⟨h2, _ | ⟨h3, h⟩⟩⟩
  · exact .stuck
  · cases h1 <;> try exact .stuck
    rename_i hx
    refine .ite (fun e => ?_) .stuck
    subst e
    refine .bind (.onHeap fun hr => hE.getY b r _ _ hr hx) fun s hs y y' h => ?_
    rw [h.2]
    exact .pure (.cons ⟨.big h.1, fun e => absurd e (by decide)⟩ (.cons ⟨.bool _, fun _ => trivial⟩ .nil))
  · cases h1 <;> try exact .stuck
    · cases h2 <;> try exact .stuck
      · rename_i hx _ _ hy
        refine .ite (fun e => ?_) .stuck
        subst e
        exact .bind (.onHeap fun hr => hE.multMod b r _ _ _ _ hr hx hy) fun s hs y y' h =>
          .pure (.cons ⟨.big h, fun e => absurd e (by decide)⟩ .nil)
      · rename_i hk _ _ _ _ hx hy
        refine .ite (fun e => ?_) .stuck
        exact .bind (.onHeap fun hr => hE.scalarMult b r _ _ _ _ _ _ hr hk hx hy) fun s hs y y' h => by
          rw [h.2.2]
          exact .pure (.cons ⟨.point h.1 h.2.1, fun _ => trivial⟩ (.cons ⟨.bool _, fun _ => trivial⟩ .nil))
    · cases h2 <;> try exact .stuck
      rename_i hx hy _ _ _ _ hu hv
      refine .ite (fun e => ?_) .stuck
      exact .bind (.onHeap fun hr => hE.addPoints b r _ _ _ _ _ _ _ _ hr hx hy hu hv) fun s hs y y' h => by
        rw [h.2.2]
        exact .pure (.cons ⟨.point h.1 h.2.1, fun _ => trivial⟩ (.cons ⟨.bool _, fun _ => trivial⟩ .nil))
  · cases h1 <;> try exact .stuck
    all_goals cases h2 <;> exact .stuck

theorem logLine_cons (v w : Value) (vs : List Value) : logLine (v :: w :: vs) =
    match v with
    | .str s => (logLine (w :: vs)).map fun r => s ++ 32 :: r
    | .int i => (logLine (w :: vs)).map fun r => fmtBig 10 (some i) ++ 32 :: r
    | _ => none := by
  cases v <;> rfl

theorem logLine_rel {vs vs' : List Value} (h : Vals b r vs vs') : logLine vs = logLine vs' := by
  induction h with
  | nil => rfl
  | cons h t ih =>
    cases t with
    | nil => cases h <;> rfl
    | cons h' t =>
      rw [logLine_cons, logLine_cons, ih]
      cases h <;> rfl

theorem println_rel {vs vs' : List Value} (h : Vals b r vs vs') : TRel b vars (ValsO b true) r (printlnT vs) (printlnT vs') := by
  unfold printlnT
  rw [logLine_rel h]
  cases logLine vs'
  · exact .stuck
  · exact fun _ s hs => .ret ⟨.nil, rfl, hs⟩

theorem sprintf_rel (f : GoString) {v v' : Value} (h : VRel b r v v') : TRel b vars (ValsO b true) r (sprintfT f v) (sprintfT f v') := by
  unfold sprintfT
  cases verb f with
  | none => exact .stuck
  | some x =>
    cases h <;> try exact .stuck
    · exact .pure (.cons ⟨.str _, fun _ => trivial⟩ .nil)
    · rename_i h
      exact .bind (.onHeap fun _ => .loadInt h) fun s hs a a' e => by cases e; exact .pure (.cons ⟨.str _, fun _ => trivial⟩ .nil)

theorem drawBig_rel (m : Nat) : TRel b vars (ValsO b true) r (drawBigT m) (drawBigT m) := by
  intro hr s hs
  unfold drawBigT
  rcases randInt s.rd m with ⟨v, rd'⟩ | e | p
  · exact PRel.next (.newInt hr _) (fun t ht a a' ha => .ret ⟨.cons ⟨.big ha.1, fun _ => ha.2⟩
      (.cons ⟨.err _, fun _ => trivial⟩ .nil), rfl, hs⟩) fun _ _ _ => .ret trivial
  · exact .ret ⟨.cons ⟨.big trivial, fun _ => nofun⟩ (.cons ⟨.err _, fun _ => trivial⟩ .nil), rfl, hs⟩
  · exact .ret rfl

theorem external_rel (H : Hashes) (p f : Nat) {args args' : List Value} (h : Vals b r args args') :
    TRel b vars (ValsO b true) r (externalT H p f args) (externalT H p f args') := by
  unfold externalT
  refine .ite (fun _ => ?_) (.ite (fun _ => ?_) (.ite (fun _ => ?_) (.ite (fun _ => ?_) (.ite (fun _ => ?_) (.ite (fun _ => ?_)
    (.ite (fun _ => ?_) (.ite (fun _ => ?_) (.ite (fun _ => ?_) (.ite (fun _ => ?_) (.ite (fun _ => ?_) .stuck))))))))))
  case refine_11 => exact .ite (fun _ => println_rel h) .stuck
  all_goals
    rcases h with _ | ⟨h1, _ | ⟨h2, _ | ⟨h3, h⟩⟩⟩
    · first
      | exact .stuck
      | exact .ite (fun _ => .bind (R := ValO b true) (fun _ s hs => .ret ⟨⟨.hash _, fun _ => trivial⟩, rfl, hs⟩)
          fun s hs _ _ h => .pure (.cons h .nil)) .stuck
    · cases h1 <;> first
        | exact .stuck
        | exact .ite (fun _ => .withError _ _ fun _ => ⟨.bytes _, fun _ => trivial⟩) .stuck
        | exact .ite (fun _ => .pure (.cons ⟨.str _, fun _ => trivial⟩ .nil)) .stuck
        | exact .ite (fun _ => .bind (.onHeap fun hr => .newInt hr _) fun s hs _ _ h => .pure (ownInt_vals h)) .stuck
        | (refine .ite (fun _ => ?_) .stuck
           unfold newErrorT
           generalize errorTexts.find? _ = o
           cases o
           · exact .stuck
           · exact .pure (.cons ⟨.err _, fun _ => trivial⟩ .nil))
    · cases h1 <;> try exact .stuck
      all_goals first | exact .ite (fun _ => sprintf_rel _ h2) .stuck | skip
      all_goals cases h2 <;> first
        | exact .stuck
        | exact .ite (fun _ => .pure (.cons ⟨.strs _, fun _ => trivial⟩ .nil)) .stuck
        | exact .ite (fun _ => .pure (.cons ⟨.str _, fun _ => trivial⟩ .nil)) .stuck
        | (refine .ite (fun _ => ?_) .stuck
           exact .bind (readInt_rel ‹_›) fun s hs a a' e => by cases e; exact .ite (fun _ => .stuck) (drawBig_rel _))
        | (refine .ite (fun _ => ?_) .stuck
           exact .bind (R := PRel.Same) (.onHeap fun _ => .loadNet _) fun s hs a a' e => .bind (R := PRel.Same)
            (.onHeap fun _ => .loadNet _) fun s hs c c' e' => by
              cases e; cases e'; exact .pure (.cons ⟨.bool _, fun _ => trivial⟩ .nil))
    · cases h1 <;> first | exact .stuck | (cases h2 <;> exact .stuck)

theorem builtin_rel (f : Nat) {args args' : List Value} (h : Vals b r args args') :
    (builtinT f args = none ∧ builtinT f args' = none) ∨
    ∃ x y, builtinT f args = some x ∧ builtinT f args' = some y ∧ TRel b vars (ValsO b true) r x y := by
  unfold builtinT
  split
  · refine .inr ⟨_, _, rfl, rfl, ?_⟩
    rcases h with _ | ⟨h1, _ | ⟨h2, h⟩⟩
    · exact .stuck
    · cases h1 <;> first | exact .stuck | exact .pure (.cons ⟨.int _, fun _ => trivial⟩ .nil)
    · cases h1 <;> exact .stuck
  · split
    · refine .inr ⟨_, _, rfl, rfl, ?_⟩
      rcases h with _ | ⟨h1, _ | ⟨h2, _ | ⟨h3, h⟩⟩⟩
      · exact .stuck
      · cases h1 <;> exact .stuck
      · cases h1 <;> try exact .stuck
        cases h2 <;> first | exact .stuck | exact .pure (.cons ⟨.strs _, fun _ => trivial⟩ .nil)
      · cases h1 <;> try exact .stuck
        cases h2 <;> exact .stuck
    · split
      · refine .inr ⟨_, _, rfl, rfl, ?_⟩
        rcases h with _ | ⟨h1, _ | ⟨h2, h⟩⟩
        · exact .stuck
        · cases h1 <;> first | exact .stuck | exact .pure (.cons ⟨.str _, fun _ => trivial⟩ .nil)
        · cases h1 <;> exact .stuck
      · split
        · refine .inr ⟨_, _, rfl, rfl, ?_⟩
          rcases h with _ | ⟨h1, _ | ⟨h2, h⟩⟩
          · exact .stuck
          · cases h1 <;> first | exact .stuck | exact .pure (.cons ⟨.int _, fun _ => trivial⟩ .nil)
          · cases h1 <;> exact .stuck
        · split
          · refine .inr ⟨_, _, rfl, rfl, ?_⟩
            rcases h with _ | ⟨h1, _ | ⟨h2, h⟩⟩
            · exact .stuck
            · cases h1 <;> try exact .stuck
              rename_i e
              cases e
              · exact .stuck
              · exact .panic _
            · cases h1 <;> try exact .stuck
              rename_i e
              cases e <;> exact .stuck
          · exact .inl ⟨rfl, rfl⟩

end

end Btc.Threads
