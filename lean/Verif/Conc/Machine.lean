import Verif.Conc.Local

/-!
# Goroutines

Any number of goroutines on one memory. A step of the machine is one memory access of one goroutine; every order of
steps is possible.
-/

namespace Btc.Mem

variable {ι : Type} [DecidableEq ι] {α : Type}

/-- The shared memory and what each goroutine still has to do. -/
structure Machine (ι α : Type) where
  heap : Heap
  prog : ι → Prog α

/-- Goroutine `i` makes one memory access. -/
inductive Machine.Step : Machine ι α → ι → Access → Machine ι α → Prop
  | mk {m : Machine ι α} {i : ι} {acc : Access} {p : Prog α} {h : Heap} :
      (m.prog i).step m.heap = some (acc, p, h) → Machine.Step m i acc ⟨h, Function.update m.prog i p⟩

/-- A run, with the list of all accesses made and by whom. -/
inductive Machine.Run : Machine ι α → List (ι × Access) → Machine ι α → Prop
  | nil {m : Machine ι α} : Machine.Run m [] m
  | snoc {m m' m'' : Machine ι α} {t : List (ι × Access)} {i : ι} {acc : Access} :
      Machine.Run m t m' → Machine.Step m' i acc m'' → Machine.Run m (t ++ [(i, acc)]) m''

/-! ## Corresponding regions of memory -/

/-- The cells `l0` of the private view of a goroutine are the cells of `l` at the addresses `ρ`. -/
structure RegRel {X : Type} (Rel : X → X → Prop) (ρ : List Nat) (l0 l : List X) : Prop where
  length : ρ.length = l0.length
  nodup : ρ.Nodup
  cell : ∀ a x : Nat, ρ[a]? = some x → ∃ v v', l0[a]? = some v ∧ l[x]? = some v' ∧ Rel v v'

namespace RegRel

variable {X : Type} {Rel Rel' : X → X → Prop} {ρ : List Nat} {l0 l l' : List X}

theorem lt (h : RegRel Rel ρ l0 l) {x : Nat} (hx : x ∈ ρ) : x < l.length := by
  obtain ⟨a, ha⟩ := List.mem_iff_getElem?.mp hx
  obtain ⟨v, v', -, h2, -⟩ := h.cell a x ha
  exact (List.getElem?_eq_some_iff.mp h2).1

theorem mono (h : RegRel Rel ρ l0 l) (hr : ∀ v v', Rel v v' → Rel' v v') : RegRel Rel' ρ l0 l := by
  refine ⟨h.length, h.nodup, fun a x hx => ?_⟩
  obtain ⟨v, v', h1, h2, h3⟩ := h.cell a x hx
  exact ⟨v, v', h1, h2, hr v v' h3⟩

/-- Cells used by others do not matter. -/
theorem other (h : RegRel Rel ρ l0 l) (ho : ∀ x ∈ ρ, l'[x]? = l[x]?) : RegRel Rel ρ l0 l' := by
  refine ⟨h.length, h.nodup, fun a x hx => ?_⟩
  obtain ⟨v, v', h1, h2, h3⟩ := h.cell a x hx
  exact ⟨v, v', h1, by rw [ho x (List.mem_iff_getElem?.mpr ⟨a, hx⟩), h2], h3⟩

theorem alloc (h : RegRel Rel ρ l0 l) {v v' : X} (hv : Rel v v') :
    RegRel Rel (ρ ++ [l.length]) (l0 ++ [v]) (l ++ [v']) := by
  refine ⟨by simp [h.length], ?_, fun a x hx => ?_⟩
  · refine List.nodup_append.mpr ⟨h.nodup, by simp, ?_⟩
    intro x hx y hy e
    have := h.lt hx
    simp at hy
    omega
  · by_cases ha : a < ρ.length
    · rw [List.getElem?_append_left ha] at hx
      obtain ⟨v, v', h1, h2, h3⟩ := h.cell a x hx
      refine ⟨v, v', ?_, ?_, h3⟩
      · rw [List.getElem?_append_left (by rw [← h.length]; exact ha), h1]
      · rw [List.getElem?_append_left (h.lt (List.mem_iff_getElem?.mpr ⟨a, hx⟩)), h2]
    · have hlt := (List.getElem?_eq_some_iff.mp hx).1
      simp at hlt
      have ea : a = ρ.length := by omega
      subst ea
      simp at hx
      subst hx
      exact ⟨v, v', by simp [h.length], by simp, hv⟩

theorem modify (h : RegRel Rel ρ l0 l) {a x : Nat} (ha : ρ[a]? = some x) {f f' : X → X}
    (hf : ∀ v v', Rel v v' → Rel (f v) (f' v')) : RegRel Rel ρ (l0.modify a f) (l.modify x f') := by
  refine ⟨by simp [h.length], h.nodup, fun c y hy => ?_⟩
  obtain ⟨v, v', h1, h2, h3⟩ := h.cell c y hy
  have hiff : a = c ↔ x = y := by
    constructor
    · intro e
      subst e
      rw [ha] at hy
      exact Option.some.inj hy
    · intro e
      subst e
      have hlt := (List.getElem?_eq_some_iff.mp ha).1
      exact (List.getElem?_inj hlt h.nodup).mp (ha.trans hy.symm)
  by_cases e : a = c
  · have e' := hiff.mp e
    subst e
    subst e'
    exact ⟨f v, f' v', by simp [h1], by simp [h2], hf v v' h3⟩
  · have e' : x ≠ y := fun h => e (hiff.mpr h)
    exact ⟨v, v', by simp [e, h1], by simp [e', h2], h3⟩

end RegRel

/-- The memory `h` seen by a goroutine running alone, inside the shared memory `g`. -/
structure HeapRel (r : Ren) (h g : Heap) : Prop where
  ints : RegRel (· = ·) r.ints h.ints g.ints
  nets : h.nets = g.nets
  privs : RegRel (PrivRel r) r.privs h.privs g.privs
  pubs : RegRel (PubRel r) r.pubs h.pubs g.pubs
  curve : CurveRel r h.curve g.curve

/-- The addresses of `b` are kept; so they are the same for every goroutine. -/
structure Ren.Ext (r : Ren) (b : Heap) : Prop where
  ints : ∀ a, a < b.ints.length → r.ints[a]? = some a
  privs : ∀ a, a < b.privs.length → r.privs[a]? = some a
  pubs : ∀ a, a < b.pubs.length → r.pubs[a]? = some a

/-- A place the goroutine may read. -/
def Ren.In (r : Ren) : Loc → Prop
  | .int x => x ∈ r.ints
  | .net _ => True
  | .curve => True
  | .priv x => x ∈ r.privs
  | .pub x => x ∈ r.pubs

/-- A place the goroutine allocated. -/
def Ren.Own (b : Heap) (r : Ren) : Loc → Prop
  | .int x => ∃ a, b.ints.length ≤ a ∧ r.ints[a]? = some x
  | .net _ => False
  | .curve => False
  | .priv x => ∃ a, b.privs.length ≤ a ∧ r.privs[a]? = some x
  | .pub x => ∃ a, b.pubs.length ≤ a ∧ r.pubs[a]? = some x

theorem Ren.Own.in {b : Heap} {r : Ren} {l : Loc} (h : r.Own b l) : r.In l := by
  cases l with
  | int x => obtain ⟨a, -, h⟩ := h; exact List.mem_iff_getElem?.mpr ⟨a, h⟩
  | net _ => trivial
  | curve => trivial
  | priv x => obtain ⟨a, -, h⟩ := h; exact List.mem_iff_getElem?.mpr ⟨a, h⟩
  | pub x => obtain ⟨a, -, h⟩ := h; exact List.mem_iff_getElem?.mpr ⟨a, h⟩

theorem Ren.In.mono {r s : Ren} (h : r.Le s) {l : Loc} (hl : r.In l) : s.In l := by
  cases l with
  | int x => exact h.ints.subset hl
  | net _ => trivial
  | curve => trivial
  | priv x => exact h.privs.subset hl
  | pub x => exact h.pubs.subset hl

theorem Ren.Own.mono {b : Heap} {r s : Ren} (h : r.Le s) {l : Loc} (hl : r.Own b l) : s.Own b l := by
  cases l with
  | int x => obtain ⟨a, h1, h2⟩ := hl; exact ⟨a, h1, PRel.getElem?_mono h.ints h2⟩
  | net _ => exact hl
  | curve => exact hl
  | priv x => obtain ⟨a, h1, h2⟩ := hl; exact ⟨a, h1, PRel.getElem?_mono h.privs h2⟩
  | pub x => obtain ⟨a, h1, h2⟩ := hl; exact ⟨a, h1, PRel.getElem?_mono h.pubs h2⟩

/-- A place that exists. -/
def Heap.Has (g : Heap) : Loc → Prop
  | .int x => x < g.ints.length
  | .net _ => True
  | .curve => True
  | .priv x => x < g.privs.length
  | .pub x => x < g.pubs.length

/-- The content of a place is the same. -/
def SameAt (g g' : Heap) : Loc → Prop
  | .int x => g'.ints[x]? = g.ints[x]?
  | .net x => g'.nets[x]? = g.nets[x]?
  | .curve => g'.curve = g.curve
  | .priv x => g'.privs[x]? = g.privs[x]?
  | .pub x => g'.pubs[x]? = g.pubs[x]?

/-- State of one goroutine: it does in the shared memory `g` what it would do alone. `p0` is its program, `b` the
memory at the start. -/
structure TInv (b : Heap) (R : Ren → α → α → Prop) (p0 : Prog α) (g : Heap) (p : Prog α) (r : Ren) (h : Heap)
    (q : Prog α) : Prop where
  solo : q.run h = p0.run b
  rel : PRel b R r q p
  heap : HeapRel r h g
  ext : r.Ext b

theorem HeapRel.in_has {r : Ren} {h g : Heap} (hh : HeapRel r h g) {l : Loc} (hl : r.In l) : g.Has l := by
  cases l with
  | int x => exact hh.ints.lt hl
  | net _ => trivial
  | curve => trivial
  | priv x => exact hh.privs.lt hl
  | pub x => exact hh.pubs.lt hl

/-- What a step of goroutine with addresses `r` may do to the memory. -/
structure Effect (b : Heap) (r r' : Ren) (g g' : Heap) (acc : Access) : Prop where
  le : r.Le r'
  new : ∀ l, r'.In l → r.In l ∨ ¬g.Has l
  same : ∀ l, g.Has l → ¬r.Own b l → SameAt g g' l
  has : ∀ l, g.Has l → g'.Has l
  nets : g'.nets = g.nets
  inn : r'.In acc.loc
  own : acc.write = true → r'.Own b acc.loc

theorem HeapRel.other {r : Ren} {h g g' : Heap} (hh : HeapRel r h g) (hs : ∀ l, r.In l → SameAt g g' l)
    (hn : g'.nets = g.nets) : HeapRel r h g' :=
  ⟨hh.ints.other fun x hx => hs (.int x) hx, hh.nets.trans hn.symm, hh.privs.other fun x hx => hs (.priv x) hx,
    hh.pubs.other fun x hx => hs (.pub x) hx, by have := hs .curve trivial; simp only [SameAt] at this; rw [this]; exact hh.curve⟩

theorem getElem?_append_same {X : Type} {l : List X} {x : Nat} (hx : x < l.length) (t : List X) :
    (l ++ t)[x]? = l[x]? := List.getElem?_append_left hx

theorem Effect.read {b : Heap} {r : Ren} {g : Heap} {l : Loc} (hl : r.In l) : Effect b r r g g ⟨l, false⟩ where
  le := Ren.Le.refl r
  new := fun _ h => .inl h
  same := fun l _ _ => by cases l <;> rfl
  has := fun _ h => h
  nets := rfl
  inn := hl
  own := by simp

theorem TInv.step {b : Heap} {R : Ren → α → α → Prop} {p0 p p' q : Prog α} {g g' h : Heap} {r : Ren} {acc : Access}
    (T : TInv b R p0 g p r h q) (hs : p.step g = some (acc, p', g')) :
    ∃ r' h' q', TInv b R p0 g' p' r' h' q' ∧ Effect b r r' g g' acc := by
  obtain ⟨solo, rel, heap, ext⟩ := T
  cases rel with
  | ret _ => simp [Prog.step] at hs
  | @newIntS _ v k k' hk =>
    simp only [Prog.step, Option.some.injEq, Prod.mk.injEq] at hs
    obtain ⟨rfl, rfl, rfl⟩ := hs
    have hle := Ren.le_addInt r g.ints.length
    have hlen := heap.ints.length
    refine ⟨r.addInt g.ints.length, { h with ints := h.ints ++ [v] }, k h.ints.length, ⟨solo, ?_, ?_, ?_⟩, ?_⟩
    · rw [← hlen]; exact hk _
    · exact ⟨heap.ints.alloc rfl, heap.nets, heap.privs.mono fun _ _ => PrivRel.mono hle,
        heap.pubs.mono fun _ _ => PubRel.mono hle, heap.curve.mono hle⟩
    · exact ⟨fun a ha => PRel.getElem?_mono hle.ints (ext.ints a ha), ext.privs, ext.pubs⟩
    · refine ⟨hle, ?_, ?_, ?_, rfl, ?_, fun _ => ?_⟩
      · intro l hl
        cases l with
        | int x =>
          rcases List.mem_append.mp hl with hx | hx
          · exact .inl hx
          · right
            simp at hx
            simp [Heap.Has, hx]
        | _ => exact .inl hl
      · intro l hl _
        cases l with
        | int x => exact getElem?_append_same hl _
        | _ => rfl
      · intro l hl
        cases l with
        | int x => simp only [Heap.Has, List.length_append] at hl ⊢; omega
        | _ => exact hl
      · simp [Ren.In, Ren.addInt]
      · refine ⟨r.ints.length, ?_, by simp [Ren.addInt]⟩
        by_contra hc
        have := ext.ints _ (not_le.mp hc)
        simp at this
  | @getInt _ a x k k' ha hk =>
    simp only [Prog.step, Option.some.injEq, Prod.mk.injEq] at hs
    obtain ⟨rfl, rfl, rfl⟩ := hs
    obtain ⟨v, v', h1, h2, rfl⟩ := heap.ints.cell a x ha
    refine ⟨r, h, k (some v), ⟨?_, ?_, heap, ext⟩, .read (List.mem_iff_getElem?.mpr ⟨a, ha⟩)⟩
    · rw [← solo]; simp [Prog.run, h1]
    · rw [h2]; exact hk v
  | @setInt _ a x v k k' ha hb hk =>
    have hx : x < g.ints.length := heap.ints.lt (List.mem_iff_getElem?.mpr ⟨a, ha⟩)
    have hah : a < h.ints.length := by rw [← heap.ints.length]; exact (List.getElem?_eq_some_iff.mp ha).1
    simp only [Prog.step, Option.some.injEq, Prod.mk.injEq, if_pos hx] at hs
    obtain ⟨rfl, rfl, rfl⟩ := hs
    refine ⟨r, { h with ints := h.ints.set a v }, k, ⟨?_, hk, ?_, ext⟩, ?_⟩
    · rw [← solo]; simp [Prog.run, hah]
    · refine ⟨?_, heap.nets, heap.privs, heap.pubs, heap.curve⟩
      have := heap.ints.modify ha (f := fun _ => v) (f' := fun _ => v) fun _ _ _ => rfl
      simpa only [List.set_eq_modify] using this
    · refine ⟨Ren.Le.refl r, fun _ hl => .inl hl, ?_, ?_, rfl, List.mem_iff_getElem?.mpr ⟨a, ha⟩, fun _ => ⟨a, hb, ha⟩⟩
      · intro l hl ho
        cases l with
        | int y =>
          have hne : x ≠ y := fun e => ho ⟨a, hb, e ▸ ha⟩
          simp only [SameAt, List.getElem?_set_ne hne]
        | _ => rfl
      · intro l hl
        cases l with
        | int x => simpa [Heap.Has] using hl
        | _ => exact hl
  | @getNet _ a k k' hk =>
    simp only [Prog.step, Option.some.injEq, Prod.mk.injEq] at hs
    obtain ⟨rfl, rfl, rfl⟩ := hs
    refine ⟨r, h, k h.nets[a]?, ⟨solo, ?_, heap, ext⟩, .read trivial⟩
    rw [heap.nets]; exact hk _
  | @getCurve _ k k' hk =>
    simp only [Prog.step, Option.some.injEq, Prod.mk.injEq] at hs
    obtain ⟨rfl, rfl, rfl⟩ := hs
    exact ⟨r, h, k h.curve, ⟨solo, hk _ _ heap.curve, heap, ext⟩, .read trivial⟩
  | @newPrivS _ k k' hk =>
    simp only [Prog.step, Option.some.injEq, Prod.mk.injEq] at hs
    obtain ⟨rfl, rfl, rfl⟩ := hs
    have hle := Ren.le_addPriv r g.privs.length
    have hlen := heap.privs.length
    refine ⟨r.addPriv g.privs.length, { h with privs := h.privs ++ [zeroPriv] }, k h.privs.length,
      ⟨solo, ?_, ?_, ?_⟩, ?_⟩
    · rw [← hlen]; exact hk _
    · exact ⟨heap.ints, heap.nets, (heap.privs.mono fun _ _ => PrivRel.mono hle).alloc ⟨trivial, rfl, rfl, rfl⟩,
        heap.pubs.mono fun _ _ => PubRel.mono hle, heap.curve.mono hle⟩
    · exact ⟨ext.ints, fun a ha => PRel.getElem?_mono hle.privs (ext.privs a ha), ext.pubs⟩
    · refine ⟨hle, ?_, ?_, ?_, rfl, ?_, fun _ => ?_⟩
      · intro l hl
        cases l with
        | priv x =>
          rcases List.mem_append.mp hl with hx | hx
          · exact .inl hx
          · right
            simp at hx
            simp [Heap.Has, hx]
        | _ => exact .inl hl
      · intro l hl _
        cases l with
        | priv x => exact getElem?_append_same hl _
        | _ => rfl
      · intro l hl
        cases l with
        | priv x => simp only [Heap.Has, List.length_append] at hl ⊢; omega
        | _ => exact hl
      · simp [Ren.In, Ren.addPriv]
      · refine ⟨r.privs.length, ?_, by simp [Ren.addPriv]⟩
        by_contra hc
        have := ext.privs _ (not_le.mp hc)
        simp at this
  | @getPriv _ a x k k' ha hk =>
    simp only [Prog.step, Option.some.injEq, Prod.mk.injEq] at hs
    obtain ⟨rfl, rfl, rfl⟩ := hs
    obtain ⟨v, v', h1, h2, h3⟩ := heap.privs.cell a x ha
    refine ⟨r, h, k (some v), ⟨?_, ?_, heap, ext⟩, .read (List.mem_iff_getElem?.mpr ⟨a, ha⟩)⟩
    · rw [← solo]; simp [Prog.run, h1]
    · rw [h2]; exact hk v v' h3
  | @updPrivS _ a x f f' k k' ha hb hf hk =>
    simp only [Prog.step, Option.some.injEq, Prod.mk.injEq] at hs
    obtain ⟨rfl, rfl, rfl⟩ := hs
    refine ⟨r, { h with privs := h.privs.modify a f }, k, ⟨solo, hk, ?_, ext⟩, ?_⟩
    · exact ⟨heap.ints, heap.nets, heap.privs.modify ha hf, heap.pubs, heap.curve⟩
    · refine ⟨Ren.Le.refl r, fun _ hl => .inl hl, ?_, ?_, rfl, List.mem_iff_getElem?.mpr ⟨a, ha⟩, fun _ => ⟨a, hb, ha⟩⟩
      · intro l hl ho
        cases l with
        | priv y =>
          have hne : x ≠ y := fun e => ho ⟨a, hb, e ▸ ha⟩
          simp [SameAt, hne]
        | _ => rfl
      · intro l hl
        cases l with
        | priv x => simpa [Heap.Has] using hl
        | _ => exact hl
  | @newPubS _ k k' hk =>
    simp only [Prog.step, Option.some.injEq, Prod.mk.injEq] at hs
    obtain ⟨rfl, rfl, rfl⟩ := hs
    have hle := Ren.le_addPub r g.pubs.length
    have hlen := heap.pubs.length
    refine ⟨r.addPub g.pubs.length, { h with pubs := h.pubs ++ [zeroPub] }, k h.pubs.length,
      ⟨solo, ?_, ?_, ?_⟩, ?_⟩
    · rw [← hlen]; exact hk _
    · exact ⟨heap.ints, heap.nets, heap.privs.mono fun _ _ => PrivRel.mono hle,
        (heap.pubs.mono fun _ _ => PubRel.mono hle).alloc ⟨trivial, trivial, rfl⟩, heap.curve.mono hle⟩
    · exact ⟨ext.ints, ext.privs, fun a ha => PRel.getElem?_mono hle.pubs (ext.pubs a ha)⟩
    · refine ⟨hle, ?_, ?_, ?_, rfl, ?_, fun _ => ?_⟩
      · intro l hl
        cases l with
        | pub x =>
          rcases List.mem_append.mp hl with hx | hx
          · exact .inl hx
          · right
            simp at hx
            simp [Heap.Has, hx]
        | _ => exact .inl hl
      · intro l hl _
        cases l with
        | pub x => exact getElem?_append_same hl _
        | _ => rfl
      · intro l hl
        cases l with
        | pub x => simp only [Heap.Has, List.length_append] at hl ⊢; omega
        | _ => exact hl
      · simp [Ren.In, Ren.addPub]
      · refine ⟨r.pubs.length, ?_, by simp [Ren.addPub]⟩
        by_contra hc
        have := ext.pubs _ (not_le.mp hc)
        simp at this
  | @getPub _ a x k k' ha hk =>
    simp only [Prog.step, Option.some.injEq, Prod.mk.injEq] at hs
    obtain ⟨rfl, rfl, rfl⟩ := hs
    obtain ⟨v, v', h1, h2, h3⟩ := heap.pubs.cell a x ha
    refine ⟨r, h, k (some v), ⟨?_, ?_, heap, ext⟩, .read (List.mem_iff_getElem?.mpr ⟨a, ha⟩)⟩
    · rw [← solo]; simp [Prog.run, h1]
    · rw [h2]; exact hk v v' h3
  | @updPubS _ a x f f' k k' ha hb hf hk =>
    simp only [Prog.step, Option.some.injEq, Prod.mk.injEq] at hs
    obtain ⟨rfl, rfl, rfl⟩ := hs
    refine ⟨r, { h with pubs := h.pubs.modify a f }, k, ⟨solo, hk, ?_, ext⟩, ?_⟩
    · exact ⟨heap.ints, heap.nets, heap.privs, heap.pubs.modify ha hf, heap.curve⟩
    · refine ⟨Ren.Le.refl r, fun _ hl => .inl hl, ?_, ?_, rfl, List.mem_iff_getElem?.mpr ⟨a, ha⟩, fun _ => ⟨a, hb, ha⟩⟩
      · intro l hl ho
        cases l with
        | pub y =>
          have hne : x ≠ y := fun e => ho ⟨a, hb, e ▸ ha⟩
          simp [SameAt, hne]
        | _ => rfl
      · intro l hl
        cases l with
        | pub x => simpa [Heap.Has] using hl
        | _ => exact hl

/-! ## All goroutines together -/

/-- State of the machine: every goroutine does what it would do alone, no goroutine can reach what another one
allocated, nothing of `b` has changed, and all accesses so far were allowed. -/
structure MInv (b : Heap) (R : Ren → α → α → Prop) (p0 : ι → Prog α) (m : Machine ι α) (t : List (ι × Access))
    (r : ι → Ren) (h : ι → Heap) (q : ι → Prog α) : Prop where
  thread : ∀ i, TInv b R (p0 i) m.heap (m.prog i) (r i) (h i) (q i)
  apart : ∀ i j l, i ≠ j → (r i).Own b l → ¬(r j).In l
  base : ∀ l, b.Has l → m.heap.Has l ∧ SameAt b m.heap l
  nets : m.heap.nets = b.nets
  trace : ∀ e ∈ t, (r e.1).In e.2.loc ∧ (e.2.write = true → (r e.1).Own b e.2.loc)

/-- What a goroutine allocated is not part of `b`. -/
theorem not_own_base {b h g : Heap} {r : Ren} (hh : HeapRel r h g) (ext : r.Ext b) {l : Loc} (hl : b.Has l) :
    ¬r.Own b l := by
  intro ho
  have key : ∀ (ρ : List Nat) (n x : Nat), ρ.Nodup → (∀ a, a < n → ρ[a]? = some a) → x < n →
      ¬∃ a, n ≤ a ∧ ρ[a]? = some x := by
    rintro ρ n x hn he hx ⟨a, ha, e⟩
    have hlt := (List.getElem?_eq_some_iff.mp e).1
    have := (List.getElem?_inj hlt hn).mp (e.trans (he x hx).symm)
    omega
  cases l with
  | int x => exact key _ _ _ hh.ints.nodup ext.ints hl ho
  | net _ => exact ho
  | curve => exact ho
  | priv x => exact key _ _ _ hh.privs.nodup ext.privs hl ho
  | pub x => exact key _ _ _ hh.pubs.nodup ext.pubs hl ho

theorem SameAt.trans {a b c : Heap} {l : Loc} (h1 : SameAt a b l) (h2 : SameAt b c l) : SameAt a c l := by
  cases l with
  | int x => exact Eq.trans h2 h1
  | net x => exact Eq.trans h2 h1
  | curve => exact Eq.trans h2 h1
  | priv x => exact Eq.trans h2 h1
  | pub x => exact Eq.trans h2 h1

theorem MInv.step {b : Heap} {R : Ren → α → α → Prop} {p0 : ι → Prog α} {m m' : Machine ι α}
    {t : List (ι × Access)} {r : ι → Ren} {h : ι → Heap} {q : ι → Prog α} {i : ι} {acc : Access}
    (M : MInv b R p0 m t r h q) (hs : m.Step i acc m') :
    ∃ r' h' q', MInv b R p0 m' (t ++ [(i, acc)]) r' h' q' := by
  obtain ⟨e⟩ := hs
  rename_i p g'
  obtain ⟨ri, hi, qi, T, Ef⟩ := (M.thread i).step e
  refine ⟨Function.update r i ri, Function.update h i hi, Function.update q i qi, ?_, ?_, ?_, ?_, ?_⟩
  · intro j
    by_cases hj : j = i
    · subst hj
      simpa using T
    · have Tj := M.thread j
      simp only [Function.update_of_ne hj]
      refine ⟨Tj.solo, Tj.rel, ?_, Tj.ext⟩
      refine Tj.heap.other (fun l hl => ?_) Ef.nets
      exact Ef.same l (Tj.heap.in_has hl) fun ho => M.apart i j l (Ne.symm hj) ho hl
  · intro j k l hjk ho hin
    by_cases hj : j = i
    · subst hj
      have hk : k ≠ j := Ne.symm hjk
      simp only [Function.update_self, Function.update_of_ne hk] at ho hin
      rcases Ef.new l ho.in with h1 | h1
      · refine M.apart j k l hjk ?_ hin
        -- an own place that was already known was own before
        cases l with
        | int x =>
          obtain ⟨a, ha, ex⟩ := ho
          obtain ⟨c, hc⟩ := List.mem_iff_getElem?.mp h1
          have := PRel.getElem?_mono Ef.le.ints hc
          have e := (List.getElem?_inj (List.getElem?_eq_some_iff.mp ex).1 T.heap.ints.nodup).mp (ex.trans this.symm)
          exact ⟨c, e ▸ ha, hc⟩
        | net _ => exact ho
        | curve => exact ho
        | priv x =>
          obtain ⟨a, ha, ex⟩ := ho
          obtain ⟨c, hc⟩ := List.mem_iff_getElem?.mp h1
          have := PRel.getElem?_mono Ef.le.privs hc
          have e := (List.getElem?_inj (List.getElem?_eq_some_iff.mp ex).1 T.heap.privs.nodup).mp (ex.trans this.symm)
          exact ⟨c, e ▸ ha, hc⟩
        | pub x =>
          obtain ⟨a, ha, ex⟩ := ho
          obtain ⟨c, hc⟩ := List.mem_iff_getElem?.mp h1
          have := PRel.getElem?_mono Ef.le.pubs hc
          have e := (List.getElem?_inj (List.getElem?_eq_some_iff.mp ex).1 T.heap.pubs.nodup).mp (ex.trans this.symm)
          exact ⟨c, e ▸ ha, hc⟩
      · exact h1 ((M.thread k).heap.in_has hin)
    · simp only [Function.update_of_ne hj] at ho
      by_cases hk : k = i
      · subst hk
        simp only [Function.update_self] at hin
        rcases Ef.new l hin with h1 | h1
        · exact M.apart j k l hjk ho h1
        · exact h1 ((M.thread j).heap.in_has ho.in)
      · simp only [Function.update_of_ne hk] at hin
        exact M.apart j k l hjk ho hin
  · intro l hl
    obtain ⟨h1, h2⟩ := M.base l hl
    have hno := not_own_base (M.thread i).heap (M.thread i).ext hl
    exact ⟨Ef.has l h1, h2.trans (Ef.same l h1 hno)⟩
  · exact Ef.nets.trans M.nets
  · intro e he
    rcases List.mem_append.mp he with he | he
    · obtain ⟨h1, h2⟩ := M.trace e he
      by_cases hj : e.1 = i
      · rw [hj] at h1 h2 ⊢
        simp only [Function.update_self]
        exact ⟨h1.mono Ef.le, fun hw => (h2 hw).mono Ef.le⟩
      · simp only [Function.update_of_ne hj]
        exact ⟨h1, h2⟩
    · rw [List.mem_singleton.mp he]
      simp only [Function.update_self]
      exact ⟨Ef.inn, Ef.own⟩

/-- The placement at the start: every cell where it is. -/
def Ren.ofHeap (b : Heap) : Ren where
  ints := List.range b.ints.length
  privs := List.range b.privs.length
  pubs := List.range b.pubs.length

/-- Pointers of `b` that lead to numbers that exist. -/
structure Closed (b : Heap) : Prop where
  objs : Objs b
  curve : CurveOK b

theorem at_range {n : Nat} {p : Ptr} (h : Below n p) : At (List.range n) p p := by
  cases p with
  | none => trivial
  | some a => simp [At, h a rfl]

theorem regRel_range {X : Type} {Rel : X → X → Prop} {l : List X} (h : ∀ v ∈ l, Rel v v) :
    RegRel Rel (List.range l.length) l l := by
  refine ⟨by simp, List.nodup_range, fun a x hx => ?_⟩
  obtain ⟨h1, h2⟩ := List.getElem?_eq_some_iff.mp hx
  simp at h1 h2
  subst h2
  exact ⟨l[a], l[a], by simp [h1], by simp [h1], h _ (List.getElem_mem h1)⟩

theorem heapRel_self {b : Heap} (hb : Closed b) : HeapRel (Ren.ofHeap b) b b :=
  ⟨regRel_range fun _ _ => rfl, rfl,
    regRel_range fun o ho => ⟨at_range (hb.objs.privs o ho), rfl, rfl, rfl⟩,
    regRel_range fun o ho => ⟨at_range (hb.objs.pubs o ho).1, at_range (hb.objs.pubs o ho).2, rfl⟩,
    ⟨at_range hb.curve.A, at_range hb.curve.B, at_range hb.curve.GX, at_range hb.curve.GY, at_range hb.curve.P,
      at_range hb.curve.N, at_range hb.curve.H⟩⟩

theorem ofHeap_has (b : Heap) : (Ren.ofHeap b).Has b := by
  refine ⟨?_, ?_, ?_⟩ <;> simp [Ren.ofHeap]

theorem ofHeap_ext (b : Heap) : (Ren.ofHeap b).Ext b := by
  refine ⟨?_, ?_, ?_⟩ <;> intro a ha <;> simp [Ren.ofHeap, ha]

theorem own_ofHeap {b : Heap} {l : Loc} : ¬(Ren.ofHeap b).Own b l :=
  fun ho => by
    cases l with
    | int x => obtain ⟨a, ha, e⟩ := ho; have := (List.getElem?_eq_some_iff.mp e).1; simp [Ren.ofHeap] at this; omega
    | net _ => exact ho
    | curve => exact ho
    | priv x => obtain ⟨a, ha, e⟩ := ho; have := (List.getElem?_eq_some_iff.mp e).1; simp [Ren.ofHeap] at this; omega
    | pub x => obtain ⟨a, ha, e⟩ := ho; have := (List.getElem?_eq_some_iff.mp e).1; simp [Ren.ofHeap] at this; omega

/-- A program that may run beside others. -/
def Prog.IsLocal (b : Heap) (R : Ren → α → α → Prop) (p : Prog α) : Prop := PRel b R (Ren.ofHeap b) p p

theorem exists_inv {b : Heap} (hb : Closed b) {R : Ren → α → α → Prop} {p0 : ι → Prog α}
    (hp : ∀ i, (p0 i).IsLocal b R) {t : List (ι × Access)} {m : Machine ι α} (hrun : Machine.Run ⟨b, p0⟩ t m) :
    ∃ r h q, MInv b R p0 m t r h q := by
  generalize hm0 : (⟨b, p0⟩ : Machine ι α) = m0 at hrun
  induction hrun with
  | nil =>
    subst hm0
    refine ⟨fun _ => Ren.ofHeap b, fun _ => b, p0, fun i => ⟨rfl, hp i, heapRel_self hb, ofHeap_ext b⟩,
      fun i j l _ ho => absurd ho own_ofHeap, fun l hl => ⟨hl, by cases l <;> rfl⟩, rfl, by simp⟩
  | snoc _ hs ih =>
    obtain ⟨r, h, q, M⟩ := ih
    exact M.step hs

end Btc.Mem
