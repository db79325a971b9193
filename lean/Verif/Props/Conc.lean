import Verif.Conc.Script
import Verif.Props.Samples

/-!
# C78, C83: goroutines using the package at the same time

Every goroutine makes one call (C78) or a sequence of calls (C83); the calls are interleaved in any way, one memory
access at a time (`Verif/Conc/Machine.lean`). The arguments may be shared between goroutines. `crypto/rand` is read by each goroutine
from a byte list of its own: the operating system hands every byte to one reader only.
-/

namespace Btc

open Mem

variable (H : Hashes) {E : EcdsaP} {V : Ecdsa} {ι : Type} [DecidableEq ι]

/-- The machine in which goroutine `i` is about to make the call `c i`. -/
def Mem.start (E : EcdsaP) (b : Heap) (c : ι → Req) : Machine ι Out := ⟨b, fun i => (c i).prog H E⟩

theorem Mem.Reachable.closed {E : EcdsaM} (hE : E.Allocs) {nets : List Network} {h : Heap}
    (hr : Reachable H E nets h) : Closed h := by
  refine ⟨?_, hr.curve H hE⟩
  obtain ⟨pre, rfl⟩ := hr
  exact runAll_objs H hE pre _ (init_objs nets)

section Local
variable {α : Type} {R : Ren → α → α → Prop} {b : Heap} {p0 : ι → Prog α} {t : List (ι × Access)} {m : Machine ι α}

theorem Mem.local_no_races (hb : Closed b) (hp : ∀ i, (p0 i).IsLocal b R) (hrun : Machine.Run ⟨b, p0⟩ t m) (i j : ι)
    (hij : i ≠ j) (x y : Access) (hx : (i, x) ∈ t) (hy : (j, y) ∈ t) (hl : x.loc = y.loc) :
    x.write = false ∧ y.write = false := by
  obtain ⟨rn, h, q, M⟩ := exists_inv hb hp hrun
  obtain ⟨xi, xo⟩ := M.trace _ hx
  obtain ⟨yi, yo⟩ := M.trace _ hy
  constructor
  · rw [← Bool.not_eq_true]
    intro hw
    exact M.apart i j _ hij (xo hw) (hl ▸ yi)
  · rw [← Bool.not_eq_true]
    intro hw
    exact M.apart j i _ (Ne.symm hij) (yo hw) (hl ▸ xi)

theorem Mem.local_unchanged (hb : Closed b) (hp : ∀ i, (p0 i).IsLocal b R) (hrun : Machine.Run ⟨b, p0⟩ t m) :
    Unchanged b m.heap := by
  obtain ⟨rn, h, q, M⟩ := exists_inv hb hp hrun
  refine ⟨fun p v hv => ?_, fun p v hv => ?_, fun p o ho => ?_, fun p o ho => ?_, (M.base .curve trivial).2⟩
  · cases p with
    | none => cases hv
    | some a =>
      have := (M.base (.int a) (List.getElem?_eq_some_iff.mp hv).1).2
      exact Eq.trans this hv
  · simpa only [loadNet, M.nets] using hv
  · cases p with
    | none => cases ho
    | some a =>
      have := (M.base (.priv a) (List.getElem?_eq_some_iff.mp ho).1).2
      exact Eq.trans this ho
  · cases p with
    | none => cases ho
    | some a =>
      have := (M.base (.pub a) (List.getElem?_eq_some_iff.mp ho).1).2
      exact Eq.trans this ho

theorem Mem.local_solo (hb : Closed b) (hp : ∀ i, (p0 i).IsLocal b R) (hrun : Machine.Run ⟨b, p0⟩ t m) (i : ι)
    (y : Res α) (hi : m.prog i = .ret y) :
    ∃ x r h, (p0 i).run b = (x, h) ∧ HeapRel r h m.heap ∧ ResRel (R r) x y := by
  obtain ⟨rn, h, q, M⟩ := exists_inv hb hp hrun
  have T := M.thread i
  have hrel := T.rel
  rw [hi] at hrel
  generalize hq : q i = qi at hrel
  cases hrel with
  | ret hx =>
    refine ⟨_, rn i, h i, ?_, T.heap, hx⟩
    rw [← T.solo, hq]
    rfl

end Local

section Results
variable (hL : E.Local) (hA : E.toM.Allocs) {nets : List Network} {b : Heap} (hr : Reachable H E.toM nets b)
  {c : ι → Req} (hc : ∀ i, (c i).Valid b) {t : List (ι × Access)} {m : Machine ι Out}
  (hrun : Machine.Run (start H E b c) t m)
include hL hA hr hc hrun

/-- C78: whatever the interleaving and whatever the other goroutines do with the same keys, a call that has returned
has returned what the pure model gives for the values its arguments had at the start. -/
theorem C78_results (hV : E.toM.Refines V) (i : ι) (r : Res Out) (hi : m.prog i = .ret r) :
    outcome m.heap r = (c i).result H V b := by
  have hb := hr.closed H hA
  obtain ⟨x, rn, h, e, hh, hx⟩ := local_solo hb (fun i => Req.isLocal H hL (hc i)) hrun i r hi
  have hs := (solo_good H hA.frames hV hb (c i)).value
  rw [e] at hs
  rw [outcome_rel hh hx, hs]

/-- C78: no data races: if two goroutines access the same place, neither of them writes. -/
theorem C78_no_races (i j : ι) (hij : i ≠ j) (x y : Access) (hx : (i, x) ∈ t) (hy : (j, y) ∈ t)
    (hl : x.loc = y.loc) : x.write = false ∧ y.write = false :=
  local_no_races (hr.closed H hA) (fun i => Req.isLocal H hL (hc i)) hrun i j hij x y hx hy hl

/-- C78: at no time during the run is anything changed that existed at the start. -/
theorem C78_unchanged : Unchanged b m.heap :=
  local_unchanged (hr.closed H hA) (fun i => Req.isLocal H hL (hc i)) hrun

/-- C78: two complete runs of the same calls give the same results, goroutine by goroutine. -/
theorem C78_deterministic (hV : E.toM.Refines V) {t' : List (ι × Access)} {m' : Machine ι Out}
    (hrun' : Machine.Run (start H E b c) t' m') (i : ι) (r r' : Res Out) (hi : m.prog i = .ret r)
    (hi' : m'.prog i = .ret r') : outcome m.heap r = outcome m'.heap r' :=
  (C78_results H hL hA hr hc hrun hV i r hi).trans (C78_results H hL hA hr hc hrun' hV i r' hi').symm

end Results

/-! ## Several calls per goroutine -/

/-- The machine in which goroutine `i` is about to make the calls `cs i`, one after the other. -/
def Mem.startAll (E : EcdsaP) (b : Heap) (cs : ι → List Cmd) : Machine ι (List (Res Out)) :=
  ⟨b, fun i => scriptP H E (cs i) []⟩

section Scripts
variable (hL : E.Local) (hA : E.toM.Allocs) {nets : List Network} {b : Heap} (hr : Reachable H E.toM nets b)
  {cs : ι → List Cmd} (hcs : ∀ i, ∀ c ∈ cs i, c.Valid b) {t : List (ι × Access)} {m : Machine ι (List (Res Out))}
  (hrun : Machine.Run (startAll H E b cs) t m)
include hL hA hr hcs hrun

/-- C83: goroutines making any number of calls, results feeding later calls, on shared keys: under every interleaving
each gets what the pure model computes for its own calls alone. -/
theorem C83_results (hV : E.toM.Refines V) (i : ι) (r : Res (List (Res Out))) (hi : m.prog i = .ret r) :
    outcomes m.heap r = scriptResult H V b (cs i) [] := by
  have hb := hr.closed H hA
  obtain ⟨x, rn, h, e, hh, hx⟩ := local_solo hb (fun i => script_isLocal H hL (hcs i)) hrun i r hi
  have hs := script_solo H hA hV hb (cs i) [] b (hcs i) (Grow.refl b) hb (fun x hx => by cases hx)
  rw [e] at hs
  rw [outcomes_rel hh hx]
  exact hs

/-- C83: no data races. -/
theorem C83_no_races (i j : ι) (hij : i ≠ j) (x y : Access) (hx : (i, x) ∈ t) (hy : (j, y) ∈ t)
    (hl : x.loc = y.loc) : x.write = false ∧ y.write = false :=
  local_no_races (hr.closed H hA) (fun i => script_isLocal H hL (hcs i)) hrun i j hij x y hx hy hl

/-- C83: what existed at the start is never changed. -/
theorem C83_unchanged : Unchanged b m.heap :=
  local_unchanged (hr.closed H hA) (fun i => script_isLocal H hL (hcs i)) hrun

end Scripts

/-! ## Progress and termination -/

/-- C78: goroutines never wait for one another: each has returned or can make its next access. -/
theorem C78_progress {α : Type} (m : Machine ι α) (i : ι) :
    (∃ r, m.prog i = .ret r) ∨ ∃ acc m', m.Step i acc m' := by
  cases h : (m.prog i).step m.heap with
  | none => exact .inl (Prog.step_none.mp h)
  | some s =>
    obtain ⟨acc, p, h'⟩ := s
    exact .inr ⟨acc, _, ⟨h⟩⟩

/-- C78: no schedule goes on for ever. -/
theorem C78_terminates [Finite ι] {α : Type} (f : ℕ → Machine ι α) :
    ¬∀ n, ∃ i acc, (f n).Step i acc (f (n + 1)) := by
  have := Fintype.ofFinite ι
  have hw : WellFounded fun m' m : Machine ι α => ∃ i acc, m.Step i acc m' := Machine.step_wf
  intro hf
  exact (wellFounded_iff_isEmpty_descending_chain.mp hw).false ⟨f, hf⟩

/-- C78: every run can be continued until all calls have returned. -/
theorem C78_completes [Finite ι] {α : Type} {m0 : Machine ι α} {t : List (ι × Access)} {m : Machine ι α}
    (hrun : Machine.Run m0 t m) : ∃ t' m', Machine.Run m0 (t ++ t') m' ∧ ∀ i, ∃ r, m'.prog i = .ret r := by
  have := Fintype.ofFinite ι
  have hw : WellFounded fun m' m : Machine ι α => ∃ i acc, m.Step i acc m' := Machine.step_wf
  induction m using hw.induction generalizing t with
  | _ m ih =>
    by_cases hd : ∀ i, ∃ r, m.prog i = .ret r
    · exact ⟨[], m, by simpa using hrun, hd⟩
    · obtain ⟨i, hi⟩ := not_forall.mp hd
      obtain ⟨acc, m1, hs⟩ := (C78_progress m i).resolve_left hi
      obtain ⟨t', m', h1, h2⟩ := ih m1 ⟨i, acc, hs⟩ (hrun.snoc hs)
      exact ⟨(i, acc) :: t', m', by simpa using h1, h2⟩

/-! ## The hypotheses can be met -/

/-- There is a curve package satisfying all assumptions made here and the arithmetic contract. -/
example : (EcdsaP.ofValue EC.ref).Local ∧ (EcdsaP.ofValue EC.ref).toM.Allocs ∧
    (EcdsaP.ofValue EC.ref).toM.Refines EC.ref ∧ Spec.EcdsaContract EC.ref := by
  rw [EcdsaP.ofValue_toM]
  exact ⟨EcdsaP.ofValue_local _, EcdsaM.ofValue_allocs _, EcdsaM.ofValue_refines _, EC.ref_contract⟩

/-- A scheduler: the goroutines named in the list move in this order; the ones that have returned are passed over. -/
def Mem.schedule {α : Type} : Machine ι α → List ι → Machine ι α × List (ι × Access)
  | m, [] => (m, [])
  | m, i :: is =>
    match (m.prog i).step m.heap with
    | none => schedule m is
    | some (acc, p, h) =>
      let r := schedule ⟨h, Function.update m.prog i p⟩ is
      (r.1, (i, acc) :: r.2)

theorem Mem.schedule_run {α : Type} {m0 : Machine ι α} : ∀ (is : List ι) {m : Machine ι α} {t : List (ι × Access)},
    Machine.Run m0 t m → Machine.Run m0 (t ++ (schedule m is).2) (schedule m is).1
  | [], m, t, h => by simpa [schedule] using h
  | i :: is, m, t, h => by
    rw [schedule]
    cases hs : (m.prog i).step m.heap with
    | none => exact schedule_run is h
    | some s =>
      obtain ⟨acc, p, h'⟩ := s
      have := schedule_run is (h.snoc ⟨hs⟩)
      simpa using this

namespace Samples

/-- Three goroutines on the two keys of `heapAB`: a sum, a product, and the sum the other way round. -/
def calls3 : Fin 3 → Req
  | 0 => .addPrivateKeys (some 0) (some 1)
  | 1 => .multiplyPrivateKeys (some 0) (some 1)
  | 2 => .addPrivateKeys (some 1) (some 0)

theorem heapAB_reachable :
    Reachable realHashes (EcdsaP.ofValue EC.ref).toM [MainNetwork, TestNetwork] heapAB := by
  rw [EcdsaP.ofValue_toM]
  exact ⟨_, rfl⟩

theorem calls3_valid (i : Fin 3) : (calls3 i).Valid heapAB := by
  have h : heapAB.privs.length = 2 := by rw [heapAB_privs]; rfl
  have h0 : Below heapAB.privs.length (some 0) := by intro a ha; cases ha; omega
  have h1 : Below heapAB.privs.length (some 1) := by intro a ha; cases ha; omega
  match i with
  | 0 => exact ⟨h0, h1⟩
  | 1 => exact ⟨h0, h1⟩
  | 2 => exact ⟨h1, h0⟩

/-- Strict alternation. -/
def alternate : Machine (Fin 3) Out × List (Fin 3 × Access) :=
  schedule (start realHashes (EcdsaP.ofValue EC.ref) heapAB calls3) ((List.replicate 60 [0, 1, 2]).flatten)

theorem alternate_run :
    Machine.Run (start realHashes (EcdsaP.ofValue EC.ref) heapAB calls3) alternate.2 alternate.1 := by
  have h := schedule_run ((List.replicate 60 [0, 1, 2]).flatten) 
    (.nil (m := start realHashes (EcdsaP.ofValue EC.ref) heapAB calls3))
  rw [List.nil_append] at h
  exact h

/-- The result of a goroutine, if it has returned. -/
def result {ι : Type} (m : Machine ι Out) (i : ι) : Option (Res Val) :=
  match m.prog i with
  | .ret r => some (outcome m.heap r)
  | _ => none

/-- All three have returned after 78 accesses taken in turn; the results are those of the pure model on these keys:
the sum (twice) and the product. -/
example : alternate.2.length = 78 ∧ (alternate.2.take 7).map (·.1) = [0, 1, 2, 0, 1, 2, 0] ∧
    alternate.1.heap.privs.map (·.Key) = [some 7, some 8, some 12, some 13, some 14] ∧
    result alternate.1 0 = some ((calls3 0).result realHashes EC.ref heapAB) ∧
    result alternate.1 1 = some ((calls3 1).result realHashes EC.ref heapAB) ∧
    result alternate.1 2 = result alternate.1 0 ∧ result alternate.1 1 ≠ result alternate.1 0 := by
  decide +kernel

/-- C78 applied to this run, and to any other of these three goroutines: once the product is there it is the product of
the two keys, and both keys are as before. -/
example (t : List (Fin 3 × Access)) (m : Machine (Fin 3) Out) (r : Res Out)
    (hrun : Machine.Run (start realHashes (EcdsaP.ofValue EC.ref) heapAB calls3) t m) (hr : m.prog 1 = .ret r) :
    outcome m.heap r = (calls3 1).result realHashes EC.ref heapAB ∧ Unchanged heapAB m.heap ∧
      ∀ x y, (0, x) ∈ t → (1, y) ∈ t → x.loc = y.loc → x.write = false ∧ y.write = false := by
  have hA : (EcdsaP.ofValue EC.ref).toM.Allocs := by rw [EcdsaP.ofValue_toM]; exact EcdsaM.ofValue_allocs _
  have hV : (EcdsaP.ofValue EC.ref).toM.Refines EC.ref := by rw [EcdsaP.ofValue_toM]; exact EcdsaM.ofValue_refines _
  exact ⟨C78_results realHashes (EcdsaP.ofValue_local _) hA heapAB_reachable calls3_valid hrun hV 1 r hr,
    C78_unchanged realHashes (EcdsaP.ofValue_local _) hA heapAB_reachable calls3_valid hrun,
    fun x y hx hy hl => C78_no_races realHashes (EcdsaP.ofValue_local _) hA heapAB_reachable calls3_valid hrun 0 1 (by decide)
      x y hx hy hl⟩

/-- C78: however it has started, this run can be completed. -/
example (t : List (Fin 3 × Access)) (m : Machine (Fin 3) Out)
    (hrun : Machine.Run (start realHashes (EcdsaP.ofValue EC.ref) heapAB calls3) t m) :
    ∃ t' m', Machine.Run (start realHashes (EcdsaP.ofValue EC.ref) heapAB calls3) (t ++ t') m' ∧ ∀ i, ∃ r, m'.prog i = .ret r :=
  C78_completes hrun

/-- Two goroutines with several calls: the sum of two given keys, times the first key, formatted; and an import that
fails followed by a sum. -/
def scripts2 : Fin 2 → List Cmd
  | 0 => [.addPrivateKeys (.old (some 0)) (.old (some 1)), .multiplyPrivateKeys (.res 0) (.old (some 0))]
  | 1 => [.privateFromHex [120] (some 0), .addPrivateKeys (.old (some 1)) (.old (some 0)),
      .addPrivateKeys (.res 1) (.old (some 1))]

theorem scripts2_valid (i : Fin 2) : ∀ c ∈ scripts2 i, c.Valid heapAB := by
  have h : heapAB.privs.length = 2 := by rw [heapAB_privs]; rfl
  have h0 : Below heapAB.privs.length (some 0) := by intro a ha; cases ha; omega
  have h1 : Below heapAB.privs.length (some 1) := by intro a ha; cases ha; omega
  match i with
  | 0 => simp [scripts2, Cmd.Valid, Arg.Valid, h0, h1]
  | 1 => simp [scripts2, Cmd.Valid, Arg.Valid, h0, h1]

/-- In alternation (and in any other order) the second goroutine gets an error and two keys; its first sum is the one
the first goroutine started from. -/
example :
    let m := (schedule (startAll realHashes (EcdsaP.ofValue EC.ref) heapAB scripts2)
      ((List.replicate 90 [0, 1]).flatten)).1
    (match m.prog 0, m.prog 1 with
    | .ret r, .ret s => some (outcomes m.heap r, outcomes m.heap s)
    | _, _ => none) =
      some (scriptResult realHashes EC.ref heapAB (scripts2 0) [], scriptResult realHashes EC.ref heapAB (scripts2 1) [])
    ∧ (match scriptResult realHashes EC.ref heapAB (scripts2 0) [],
        scriptResult realHashes EC.ref heapAB (scripts2 1) [] with
      | .ok [.ok x, .ok y], .ok [.err _, .ok z, .ok w] => decide (x = z ∧ x ≠ y ∧ y ≠ w)
      | _, _ => false) = true := by
  decide +kernel

/-! ### What the theorems exclude -/

/-- A wrong `AddPrivateKeys`: the sum is computed in the number of the first key instead of a new one. -/
def addInPlaceP (p1 p2 : Ptr) : Prog Out := do
  let k1 ← privFieldP p1 (·.Key)
  let k2 ← privFieldP p2 (·.Key)
  let pKey ← bigAddP k1 k1 k2
  let curve ← readCurveP
  let pKey ← bigModP pKey pKey curve.N
  let hexa ← bigIntToHexP pKey
  let m ← privFieldP p1 (·.Network)
  let p ← privateFromHexP realHashes hexa m
  pure (.priv p)

/-- Two goroutines that both add the keys in the wrong way. -/
def racy (is : List (Fin 2)) : Machine (Fin 2) Out × List (Fin 2 × Access) :=
  schedule ⟨heapAB, fun _ => addInPlaceP (some 0) (some 1)⟩ is

/-- For the wrong function the result depends on the order, and both goroutines write to the number of the first key
(address 7). -/
example :
    result (racy (List.replicate 40 0 ++ List.replicate 40 1)).1 0 ≠
      result (racy (List.replicate 40 1 ++ List.replicate 40 0)).1 0 ∧
    (result (racy (List.replicate 40 0 ++ List.replicate 40 1)).1 0).isSome ∧
    (result (racy (List.replicate 40 1 ++ List.replicate 40 0)).1 0).isSome ∧
    (0, ⟨.int 7, true⟩) ∈ (racy (List.replicate 40 0 ++ List.replicate 40 1)).2 ∧
    (1, ⟨.int 7, true⟩) ∈ (racy (List.replicate 40 0 ++ List.replicate 40 1)).2 := by
  decide +kernel

end Samples

end Btc
