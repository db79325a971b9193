import Verif.Props.Conc

/-!
# The shared memory after local programs have run

`Verif/Props/Conc.lean` shows what goroutines see of the memory. Here is what is true of the whole memory: it extends the one
at the start, and no key object in it has a dangling pointer.
-/

namespace Btc.Mem

variable {α ι : Type} [DecidableEq ι]

/-- A step makes no cell but the one it accesses. -/
theorem step_has {p q : Prog α} {g g' : Heap} {acc : Access} (hs : p.step g = some (acc, q, g')) {l : Loc} (hl : g'.Has l) :
    g.Has l ∨ l = acc.loc := by
  cases p <;> simp only [Prog.step, Option.some.injEq, Prod.mk.injEq, reduceCtorEq] at hs
  case setInt a v k =>
    obtain ⟨_, hs⟩ := hs
    split at hs <;> cases hs
    · left
      cases l <;> simpa [Heap.Has] using hl
    · exact .inl hl
  all_goals
    obtain ⟨rfl, rfl, rfl⟩ := hs
    cases l <;> simp only [Heap.Has, List.length_append, List.length_cons, List.length_nil, List.length_modify, Loc.int.injEq,
      Loc.priv.injEq, Loc.pub.injEq, reduceCtorEq, or_false, or_true, true_or] at hl ⊢ <;> first | exact hl | exact .inl hl | omega

/-- All cells were there at the start or have been accessed. -/
theorem run_cover {m0 m : Machine ι α} {t : List (ι × Access)} (hrun : Machine.Run m0 t m) {l : Loc} (hl : m.heap.Has l) :
    m0.heap.Has l ∨ ∃ e ∈ t, e.2.loc = l := by
  induction hrun with
  | nil => exact .inl hl
  | @snoc _ _ t i acc _ hs ih =>
    obtain ⟨e⟩ := hs
    rcases step_has e hl with h | rfl
    · rcases ih h with h | ⟨e, he, h⟩
      · exact .inl h
      · exact .inr ⟨e, List.mem_append_left _ he, h⟩
    · exact .inr ⟨(i, acc), by simp, rfl⟩

theorem prefix_of_getElem? {X : Type} {l l' : List X}
    (h : ∀ a, a < l.length → l'[a]? = l[a]?) : l <+: l' := by
  rw [List.prefix_iff_getElem?]
  intro a ha
  rw [h a ha, List.getElem?_eq_getElem ha]

theorem At.below {l : List Nat} {n : Nat} (hl : ∀ x ∈ l, x < n) {p q : Ptr} (h : At l p q) : Below n q := by
  intro x hx
  subst hx
  cases p with
  | none => exact h.elim
  | some a => exact hl x (List.mem_iff_getElem?.mpr ⟨a, h⟩)

section
variable {R : Ren → α → α → Prop} {b : Heap} {p0 : ι → Prog α} {t : List (ι × Access)} {m : Machine ι α} (hb : Closed b)
  (hp : ∀ i, (p0 i).IsLocal b R) (hrun : Machine.Run ⟨b, p0⟩ t m)
include hb hp hrun

/-- The memory at the start is part of the memory later. -/
theorem local_grow : Grow b m.heap := by
  obtain ⟨rn, h, q, M⟩ := exists_inv hb hp hrun
  have pre : ∀ (X : Type) (f : Heap → List X) (L : Nat → Loc), (∀ g a, Heap.Has g (L a) ↔ a < (f g).length) →
      (∀ g g' a, SameAt g g' (L a) ↔ (f g')[a]? = (f g)[a]?) → f b <+: f m.heap := by
    intro X f L hL hS
    exact prefix_of_getElem? fun a ha => (hS _ _ _).1 (M.base (L a) ((hL _ _).2 ha)).2
  exact ⟨pre _ Heap.ints .int (fun _ _ => Iff.rfl) (fun _ _ _ => Iff.rfl), M.nets.symm,
    pre _ Heap.privs .priv (fun _ _ => Iff.rfl) (fun _ _ _ => Iff.rfl),
    pre _ Heap.pubs .pub (fun _ _ => Iff.rfl) (fun _ _ _ => Iff.rfl), (M.base .curve trivial).2.symm⟩

/-- No key object has a dangling pointer. -/
theorem local_objs : Objs m.heap := by
  have hg := local_grow hb hp hrun
  obtain ⟨rn, h, q, M⟩ := exists_inv hb hp hrun
  have hin : ∀ i, ∀ x ∈ (rn i).ints, x < m.heap.ints.length := fun i x hx => (M.thread i).heap.ints.lt hx
  have up : ∀ p, Below b.ints.length p → Below m.heap.ints.length p := fun p h a ha =>
    lt_of_lt_of_le (h a ha) hg.ints.length_le
  refine ⟨fun o ho => ?_, fun o ho => ?_, ?_⟩
  · obtain ⟨x, hx⟩ := List.mem_iff_getElem?.mp ho
    rcases run_cover hrun (l := .priv x) (List.getElem?_eq_some_iff.mp hx).1 with h1 | ⟨e, he, h1⟩
    · have : b.privs[x]? = some o := ((M.base (.priv x) h1).2 : m.heap.privs[x]? = b.privs[x]?).symm.trans hx
      exact up _ (hb.objs.privs o (List.mem_of_getElem? this))
    · have h2 := (M.trace e he).1
      rw [h1] at h2
      obtain ⟨a, ha⟩ := List.mem_iff_getElem?.mp (h2 : x ∈ _)
      obtain ⟨v, v', -, h4, h5⟩ := (M.thread e.1).heap.privs.cell a x ha
      cases h4.symm.trans hx
      exact h5.Key.below (hin e.1)
  · obtain ⟨x, hx⟩ := List.mem_iff_getElem?.mp ho
    rcases run_cover hrun (l := .pub x) (List.getElem?_eq_some_iff.mp hx).1 with h1 | ⟨e, he, h1⟩
    · have : b.pubs[x]? = some o := ((M.base (.pub x) h1).2 : m.heap.pubs[x]? = b.pubs[x]?).symm.trans hx
      have := hb.objs.pubs o (List.mem_of_getElem? this)
      exact ⟨up _ this.1, up _ this.2⟩
    · have h2 := (M.trace e he).1
      rw [h1] at h2
      obtain ⟨a, ha⟩ := List.mem_iff_getElem?.mp (h2 : x ∈ _)
      obtain ⟨v, v', -, h4, h5⟩ := (M.thread e.1).heap.pubs.cell a x ha
      cases h4.symm.trans hx
      exact ⟨h5.X.below (hin e.1), h5.Y.below (hin e.1)⟩
  · rw [← hg.curve]
    exact ⟨up _ hb.objs.gen.1, up _ hb.objs.gen.2⟩

end

end Btc.Mem
