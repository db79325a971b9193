import Verif.Threads.Agree
import Verif.Threads.Sound
import Verif.Props.Conc
import Verif.Props.Source

/-!
# C121: goroutines that run the text itself

Every goroutine calls a function of the program, as parsed from the text; the calls are interleaved in any way, one memory
access at a time. C78 and C83 say the same of programs that were written by hand after the text; here the programs are
computed from the syntax trees (`Verif/Threads/Tree.lean`), and functions added to the package may run as well, as long
as they pass a check on their text (`Verif/Threads/Own.lean`).

Each goroutine has a random source and a log of its own: in what order the bytes and lines of different goroutines are
handed out and written is left open.
-/

namespace Btc

open Mem Source

namespace Spec

/-- Specification: pointers of a value that exist in this memory (or are nil). Variables are not passed to functions. -/
def Exists (h : Heap) : Value → Prop
  | .big p => ∀ a, p = some a → a < h.ints.length
  | .priv p => ∀ a, p = some a → a < h.privs.length
  | .pub p => ∀ a, p = some a → a < h.pubs.length
  | .point x y => (∀ a, x = some a → a < h.ints.length) ∧ ∀ a, y = some a → a < h.ints.length
  | .base x y => (∀ a, x = some a → a < h.ints.length) ∧ ∀ a, y = some a → a < h.ints.length
  | .privVar _ => False
  | .pubVar _ => False
  | _ => True

/-- Specification: what can be seen of a private key. -/
def privSeen (h : Heap) (p : Ptr) : Option PrivateKey := (loadPriv h p).map (privValue h)

/-- Specification: what can be seen of a public key. -/
def pubSeen (h : Heap) (p : Ptr) : Option PublicKey := (loadPub h p).map (pubValue h)

/-- Specification: values in two memories that look the same; addresses of numbers and keys cannot be seen. -/
def Alike (h g : Heap) : Value → Value → Prop
  | .big p, .big q => loadInt h p = loadInt g q
  | .priv p, .priv q => privSeen h p = privSeen g q
  | .pub p, .pub q => pubSeen h p = pubSeen g q
  | .privVar a, .privVar x => privSeen h (some a) = privSeen g (some x)
  | .pubVar a, .pubVar x => pubSeen h (some a) = pubSeen g (some x)
  | .point x y, .point u v => loadInt h x = loadInt g u ∧ loadInt h y = loadInt g v
  | .base x y, .base u v => loadInt h x = loadInt g u ∧ loadInt h y = loadInt g v
  | v, w => v = w

/-- Specification: a goroutine has ended, with the memory now being `g`, as the call made alone ends: with the same values,
the same lines logged and the same part of the random source left, or with the same panic. -/
def SameEnd (g : Heap) : Res (Threads.Ended (List Value)) → Out (List Value) → Prop
  | .ok (.done vs s), .ok us st => List.Forall₂ (Alike st.heap g) us vs ∧ s.log = st.log ∧ s.rd = st.rd
  | .ok .stuck, .stuck => True
  | .panic p, .panic p' _ => p = p'
  | _, _ => False

end Spec

open Spec Threads

/-- What a goroutine is to do: call a function with arguments, reading from a random source. `fuel` bounds the depth of
calls and the rounds of loops. -/
structure Task where
  recv : Nat
  name : Nat
  args : List Value
  rd : Reader
  fuel : Nat

/-- The state in which the task begins. -/
def Task.state (st : State) (g : Task) : State := { st with rd := g.rd }

/-- The task as a tree of memory accesses. -/
def Task.tree (H : Hashes) (E : EcdsaP) (ds : List Decl) (st : State) (g : Task) : Prog (Ended (List Value)) :=
  runFuncT H E ds g.fuel g.recv g.name g.args (privateOf (g.state st))

/-- The task alone. -/
def Task.alone (H : Hashes) (E : EcdsaP) (ds : List Decl) (st : State) (g : Task) : Out (List Value) :=
  runFunc H E.toM ds g.fuel g.recv g.name g.args (g.state st)

/-- The tasks, begun. -/
def begin {ι : Type} (H : Hashes) (E : EcdsaP) (ds : List Decl) (st : State) (g : ι → Task) : Machine ι (Ended (List Value)) :=
  ⟨st.heap, fun i => (g i).tree H E ds st⟩

section
variable {b : Heap} {r : Ren}

theorem exists_rel {v : Value} (h : Spec.Exists b v) : VRel b (Ren.ofHeap b) v v := by
  cases v <;> try (simp only [Spec.Exists] at h)
  case big p => exact .big (at_range h)
  case priv p => exact .priv (at_range h)
  case pub p => exact .pub (at_range h)
  case point x y => exact .point (at_range h.1) (at_range h.2)
  case base x y => exact .base (at_range h.1) (at_range h.2)
  all_goals constructor

theorem exists_vals : ∀ {vs : List Value}, (∀ v ∈ vs, Spec.Exists b v) → Vals b (Ren.ofHeap b) vs vs
  | [], _ => .nil
  | _ :: _, h => .cons (exists_rel (h _ (.head _))) (exists_vals fun v hv => h v (.tail _ hv))

theorem alike_of {h g : Heap} (hh : HeapRel r h g) {v v' : Value} (hv : VRel b r v v') : Alike h g v v' := by
  cases hv
  case big hp => exact (loadInt_rel hh hp).symm
  case priv hp => exact (loadPriv_rel hh hp).symm
  case pub hp => exact (loadPub_rel hh hp).symm
  case privVar hp => exact (loadPriv_rel (p := some _) (q := some _) hh hp.1).symm
  case pubVar hp => exact (loadPub_rel (p := some _) (q := some _) hh hp.1).symm
  case point hp hq => exact ⟨(loadInt_rel hh hp).symm, (loadInt_rel hh hq).symm⟩
  case base hp hq => exact ⟨(loadInt_rel hh hp).symm, (loadInt_rel hh hq).symm⟩
  all_goals rfl

end

section Results
variable {H : Hashes} {E : EcdsaP} (hL : E.Local) {ds : List Decl} {G : List Nat} (hd : Disciplined G ds) {st : State}
  (hb : Closed st.heap) (hv : VarsOk G st.vars) {ι : Type} [DecidableEq ι] {g : ι → Task} (hn : ∀ i, (g i).name ≠ id! "init")
  (ha : ∀ i, ∀ v ∈ (g i).args, Spec.Exists st.heap v)
include hL hd hv hn ha

omit [DecidableEq ι] in
theorem task_local (i : ι) : ((g i).tree H E ds st).IsLocal st.heap (EndRel st.vars fun s => Vals st.heap s) := by
  obtain ⟨N, hN⟩ := hd
  have h := (runFunc_rel (b := st.heap) (H := H) hL hv hN (g i).fuel).rel (Ren.ofHeap st.heap) (g i).recv (g i).name _ _ (hn i)
    (exists_vals (ha i)) (ofHeap_has _) (privateOf ((g i).state st)) rfl
  refine h.mono fun s _ e e' he => ?_
  rcases e with ⟨a, s1⟩ | _ | _ <;> rcases e' with ⟨a', s2⟩ | _ | _ <;> simp only [EndRel] at he ⊢
  exact ⟨he.1.rel, he.2⟩

variable {t : List (ι × Access)} {m : Machine ι (Ended (List Value))} (hrun : Machine.Run (begin H E ds st g) t m)
include hb hrun

/-- C121: no data races: if two goroutines access the same place, neither of them writes. -/
theorem C121_no_races (i j : ι) (hij : i ≠ j) (x y : Access) (hx : (i, x) ∈ t) (hy : (j, y) ∈ t) (hl : x.loc = y.loc) :
    x.write = false ∧ y.write = false :=
  local_no_races hb (task_local hL hd hv hn ha) hrun i j hij x y hx hy hl

/-- C121: at no time during the run is anything changed that existed at the start. -/
theorem C121_unchanged : Unchanged st.heap m.heap := local_unchanged hb (task_local hL hd hv hn ha) hrun

/-- C121: under every interleaving each goroutine ends as it does alone. -/
theorem C121_results (i : ι) (y : Res (Ended (List Value))) (hi : m.prog i = .ret y) :
    SameEnd m.heap y ((g i).alone H E ds st) := by
  obtain ⟨x, r, h, e, hh, hx⟩ := local_solo hb (task_local hL hd hv hn ha) hrun i y hi
  have hs := agree_runFunc H E ds (g i).fuel (g i).recv (g i).name (g i).args (privateOf ((g i).state st)) st.heap
  have e' : (runFuncT H E ds (g i).fuel (g i).recv (g i).name (g i).args (privateOf ((g i).state st))).run st.heap = (x, h) := e
  rw [e'] at hs
  have es : (privateOf ((g i).state st)).with st.heap = (g i).state st := rfl
  rw [es] at hs
  unfold Task.alone
  rcases x with (⟨us, s⟩ | _ | _) | _ | p <;> rcases y with (⟨vs, s'⟩ | _ | _) | _ | q <;> simp only [ResRel, EndRel] at hx <;>
    simp only at hs
  · obtain ⟨hvs, rfl, -⟩ := hx
    rw [hs.1]
    exact ⟨List.Forall₂.imp (fun _ _ => alike_of hh) hvs, rfl, rfl⟩
  · rw [hs]
    trivial
  · obtain ⟨s, hs, -⟩ := hs
    rw [hs]
    exact hx.symm

end Results

/-! ## The package -/

/-- C121: all functions of the text except `init` pass the check. -/
theorem C121_text : Disciplined packageNames program := disciplined_of [id! "PrivateFromHex"] (by decide +kernel)

section Package
variable {H : Hashes} {E : EcdsaP} {nets : List Network} {st : State}

theorem session_closed (hE : Pkg E.toM) (hs : Session H E.toM nets st) : Closed st.heap := by
  have h := hs.sound hE
  exact ⟨h.objs, h.curve⟩

theorem session_vars (hE : Pkg E.toM) (hs : Session H E.toM nets st) : VarsOk packageNames st.vars := by
  rw [(hs.sound hE).vars]
  intro q hq
  simp only [List.mem_cons, List.not_mem_nil, or_false] at hq
  rcases hq with rfl | rfl
  · exact ⟨by decide, _, rfl⟩
  · exact ⟨by decide, _, rfl⟩

/-- Specification: the keys among the arguments of a call are nil or exist. -/
def Spec.Given (h : Heap) (r : Request) : Prop := ∀ v ∈ r.args, Spec.Exists h v

theorem request_name (r : Request) : r.name ≠ id! "init" := by cases r <;> simp [Request.name]

/-- C121: goroutines that call functions of the package, at any time after `init`, with any arguments, shared or not. Each
call, if only it has fuel enough, ends as it ends when nobody else is there; and there is such an amount of fuel. -/
theorem C121_calls (hE : Pkg E.toM) (hL : E.Local) (hs : Session H E.toM nets st) {ι : Type} [DecidableEq ι] (r : ι → Request)
    (rd : ι → Reader) (ha : ∀ i, Spec.Given st.heap (r i)) :
    ∃ n : ι → Nat, ∀ n' : ι → Nat, (∀ i, n i ≤ n' i) → ∀ (t : List (ι × Access)) (m : Machine ι (Ended (List Value))),
      Machine.Run (begin H E program st fun i => ⟨(r i).recv, (r i).name, (r i).args, rd i, n' i⟩) t m →
      (∀ i j, i ≠ j → ∀ x y, (i, x) ∈ t → (j, y) ∈ t → x.loc = y.loc → x.write = false ∧ y.write = false) ∧
      Unchanged st.heap m.heap ∧
      ∀ i y, m.prog i = .ret y → ∃ o, (r i).Ends H E.toM { st with rd := rd i } o ∧ SameEnd m.heap y o := by
  have hc := session_closed hE hs
  have hv := session_vars hE hs
  have he : ∀ i, ∃ o, (r i).Ends H E.toM { st with rd := rd i } o := fun i => ((r i).ends (H := H) hE _).imp fun _ h => h.1
  choose o ho using he
  choose n hn using fun i => (ho i).2
  refine ⟨n, fun n' hle t m hrun => ?_⟩
  let g : ι → Task := fun i => ⟨(r i).recv, (r i).name, (r i).args, rd i, n' i⟩
  refine ⟨?_, ?_, fun i y hi => ⟨o i, ho i, ?_⟩⟩
  · intro i j hij x y hx hy hl
    exact C121_no_races hL C121_text hc hv (g := g) (fun i => request_name (r i)) ha hrun i j hij x y hx hy hl
  · exact C121_unchanged hL C121_text hc hv (g := g) (fun i => request_name (r i)) ha hrun
  · have h := C121_results hL C121_text hc hv (g := g) (fun i => request_name (r i)) ha hrun i y hi
    have e : (Task.alone H E program st ⟨(r i).recv, (r i).name, (r i).args, rd i, n' i⟩) = o i := hn i (n' i) (hle i)
    rwa [e] at h

end Package

/-! ## Examples -/

namespace Samples

/-- A file added to the package, with a function that passes the check. -/
def clientText : String := "package btc

func Combine(p1 *PrivateKey, p2 *PrivateKey) (*PrivateKey, error) {
	s, err := AddPrivateKeys(p1, p2)
	if err != nil {
		return nil, err
	}
	return MultiplyPrivateKeys(s, p1)
}
"

/-- A function that writes to a number it was given. -/
def racyText : String := "package btc

func Double(p *PrivateKey) string {
	p.Key.Add(p.Key, p.Key)
	return bigIntToHex(p.Key)
}
"

/-- A function that writes to a key it was given. -/
def renameText : String := "package btc

func Rename(p *PrivateKey, name string) string {
	p.Hex = name
	return p.Hex
}
"

/-- The first file, as parsed. -/
def clientDecls : List Decl := value_of% (parse (chars_of% clientText)).getD default
/-- The second file, as parsed. -/
def racyDecls : List Decl := value_of% (parse (chars_of% racyText)).getD default
/-- The third file, as parsed. -/
def renameDecls : List Decl := value_of% (parse (chars_of% renameText)).getD default

example : parse (chars_of% clientText) = some clientDecls ∧ parse (chars_of% racyText) = some racyDecls ∧
    parse (chars_of% renameText) = some renameDecls := by decide +kernel

theorem combine_disciplined : Disciplined packageNames (program ++ clientDecls) :=
  disciplined_of [id! "PrivateFromHex"] (by decide +kernel)

/-- Whatever is assumed of the functions and chosen as variables, these two do not pass. -/
theorem racy_undisciplined : ¬Disciplined packageNames (program ++ racyDecls) := by
  rintro ⟨N, h⟩
  obtain ⟨O, hO⟩ := h (value_of% (findFunc 0 (id! "Double") racyDecls).getD default) (by decide +kernel) (by decide)
  simp [okFunc, okStmt, okExpr, owned] at hO
  exact hO.1.2.1 (by decide)

theorem rename_undisciplined : ¬Disciplined packageNames (program ++ renameDecls) := by
  rintro ⟨N, h⟩
  obtain ⟨O, hO⟩ := h (value_of% (findFunc 0 (id! "Rename") renameDecls).getD default) (by decide +kernel) (by decide)
  simp [okFunc, okStmt, okExpr, okPlaces, okVar] at hO
  grind

/-- Three goroutines on the two keys of `stocked`: the function of the added file twice, with the keys in either order, and
a call of the package. -/
def tasks : Fin 3 → Task
  | 0 => ⟨0, id! "Combine", [.priv (some 0), .priv (some 1)], [], 20⟩
  | 1 => ⟨0, id! "Combine", [.priv (some 1), .priv (some 0)], [], 20⟩
  | 2 => ⟨0, id! "AddPrivateKeys", [.priv (some 0), .priv (some 1)], [], 20⟩

/-- The package for the curve. -/
abbrev curveP : EcdsaP := EcdsaP.ofValue EC.ref

/-- The run in turns. -/
def turns : Machine (Fin 3) (Ended (List Value)) × List (Fin 3 × Access) :=
  schedule (begin realHashes curveP (program ++ clientDecls) (stocked []) tasks) ((List.replicate 200 [0, 1, 2]).flatten)

/-- What is left of a goroutine that has ended normally: the values it returned, as seen. -/
def shown {ι : Type} (m : Machine ι (Ended (List Value))) (i : ι) : Option (List (Option PrivateKey)) :=
  match m.prog i with
  | .ret (.ok (.done vs _)) => some (vs.map fun v => match v with | .priv p => privSeen m.heap p | _ => none)
  | _ => none

/-- All three have returned after 130 accesses taken in turn; the results are those of the calls alone. -/
example : turns.2.length = 130 ∧ (turns.2.take 7).map (·.1) = [0, 1, 2, 0, 1, 2, 0] ∧
    (∀ i, shown turns.1 i =
      match (tasks i).alone realHashes curveP (program ++ clientDecls) (stocked []) with
      | .ok vs st => some (vs.map fun v => match v with | .priv p => privSeen st.heap p | _ => none)
      | _ => none) ∧
    (shown turns.1 0).isSome ∧ shown turns.1 0 ≠ shown turns.1 1 ∧ shown turns.1 1 ≠ shown turns.1 2 := by
  decide +kernel

theorem tasks_name (i : Fin 3) : (tasks i).name ≠ id! "init" := by
  fin_cases i <;> decide

theorem stocked_privs : (stocked []).heap.privs.length = 2 := by decide +kernel

theorem tasks_exist (i : Fin 3) : ∀ v ∈ (tasks i).args, Spec.Exists (stocked []).heap v := by
  have h0 : Spec.Exists (stocked []).heap (.priv (some 0)) := by intro a ha; cases ha; rw [stocked_privs]; omega
  have h1 : Spec.Exists (stocked []).heap (.priv (some 1)) := by intro a ha; cases ha; rw [stocked_privs]; omega
  fin_cases i <;> simp [tasks, h0, h1]

theorem curveP_pkg : Pkg curveP.toM := by rw [EcdsaP.ofValue_toM]; exact refPkg.1

theorem stocked_closed : Closed (stocked []).heap := session_closed curveP_pkg (stocked_session realHashes _ [])

theorem stocked_vars : VarsOk packageNames (stocked []).vars := session_vars curveP_pkg (stocked_session realHashes _ [])

/-- C121 applied to this run and to any other of these goroutines. -/
example (t : List (Fin 3 × Access)) (m : Machine (Fin 3) (Ended (List Value))) (y : Res (Ended (List Value)))
    (hrun : Machine.Run (begin realHashes curveP (program ++ clientDecls) (stocked []) tasks) t m) (hy : m.prog 1 = .ret y) :
    SameEnd m.heap y ((tasks 1).alone realHashes curveP (program ++ clientDecls) (stocked [])) ∧
      Unchanged (stocked []).heap m.heap ∧
      ∀ x y, (0, x) ∈ t → (1, y) ∈ t → x.loc = y.loc → x.write = false ∧ y.write = false :=
  ⟨C121_results (EcdsaP.ofValue_local _) combine_disciplined stocked_closed stocked_vars tasks_name tasks_exist hrun 1 y hy,
    C121_unchanged (EcdsaP.ofValue_local _) combine_disciplined stocked_closed stocked_vars tasks_name tasks_exist hrun,
    fun x y hx hy hl => C121_no_races (EcdsaP.ofValue_local _) combine_disciplined stocked_closed stocked_vars tasks_name tasks_exist
      hrun 0 1 (by decide) x y hx hy hl⟩

/-- C121 applied to calls of the package: as many goroutines as there are numbers, all using the same two keys. -/
example := C121_calls (H := realHashes) curveP_pkg (EcdsaP.ofValue_local _) (stocked_session realHashes _ [])
  (fun i : Nat => if i % 2 = 0 then .addPrivateKeys (some 0) (some 1) else .getPublicKey (some 0)) (fun _ => [])
  (by
    have h0 : Spec.Exists (stocked []).heap (.priv (some 0)) := by intro a ha; cases ha; rw [stocked_privs]; omega
    have h1 : Spec.Exists (stocked []).heap (.priv (some 1)) := by intro a ha; cases ha; rw [stocked_privs]; omega
    intro i
    split <;> simp [Spec.Given, Request.args, h0, h1])

/-- However this run has started, it can be completed. -/
example (t : List (Fin 3 × Access)) (m : Machine (Fin 3) (Ended (List Value)))
    (hrun : Machine.Run (begin realHashes curveP (program ++ clientDecls) (stocked []) tasks) t m) :
    ∃ t' m', Machine.Run (begin realHashes curveP (program ++ clientDecls) (stocked []) tasks) (t ++ t') m' ∧
      ∀ i, ∃ r, m'.prog i = .ret r := C78_completes hrun

/-! ### What the check excludes -/

/-- Two goroutines that call the function that writes to the number it was given. -/
def doubles (is : List (Fin 2)) : Machine (Fin 2) (Ended (List Value)) × List (Fin 2 × Access) :=
  schedule (begin realHashes curveP (program ++ racyDecls) (stocked []) fun _ => ⟨0, id! "Double", [.priv (some 0)], [], 9⟩) is

/-- The text a goroutine returned. -/
def said {ι : Type} (m : Machine ι (Ended (List Value))) (i : ι) : Option GoString :=
  match m.prog i with
  | .ret (.ok (.done [.str s] _)) => some s
  | _ => none

/-- The result depends on the order, and both goroutines write to the same number. -/
example : (said (doubles (List.replicate 20 0 ++ List.replicate 20 1)).1 0).isSome ∧
    said (doubles (List.replicate 20 0 ++ List.replicate 20 1)).1 0 ≠ said (doubles (List.replicate 20 1 ++ List.replicate 20 0)).1 0 ∧
    ∃ l, ((0, ⟨l, true⟩) : Fin 2 × Access) ∈ (doubles (List.replicate 20 0 ++ List.replicate 20 1)).2 ∧
      ((1, ⟨l, true⟩) : Fin 2 × Access) ∈ (doubles (List.replicate 20 0 ++ List.replicate 20 1)).2 :=
  ⟨by decide +kernel, by decide +kernel, .int (started [] []).heap.ints.length, by decide +kernel, by decide +kernel⟩

end Samples

end Btc
