import Verif.Props.SeedSteps
import Verif.Props.FrontFixed

/-!
# C138: how many blocks a call of the repaired text passes

The analysis of C123 gives no bound for loops. Here it is extended to loops, which make at most as many rounds as there is fuel, and
proved right for every program of the language. With the fuel that the repaired functions are known to need this bounds their work.
-/

namespace Btc

open Mem Source Spec

namespace Spec

/-- Specification: so many times. -/
def Cost.times (n : Nat) : Cost → Cost
  | some a => some (n * a)
  | none => none

/-- Specification: the lines of a statement when loops make at most `n` rounds; `B` bounds the lines of the functions that are
called. There is no bound for `range`. -/
def roundsCost (B : Nat → Cost) (n : Nat) : Stmt → Cost
  | .seq a b => (roundsCost B n a).plus (roundsCost B n b)
  | .block s | .switch s => roundsCost B n s
  | .ite c t e => (exprCost B c).plus ((roundsCost B n t).or (roundsCost B n e))
  | .loop i c p b => (roundsCost B n i).plus (((exprCost B c).plus ((roundsCost B n b).plus (roundsCost B n p))).times n)
  | s => stmtCost B s

/-- Specification: the lines of the functions of name `x`. -/
def fuelCost (B : Nat → Cost) (n x : Nat) : List Decl → Cost
  | [] => some 0
  | .func f :: ds => if f.name = x then (roundsCost B n f.body).or (fuelCost B n x ds) else fuelCost B n x ds
  | _ :: ds => fuelCost B n x ds

/-- Specification: the most lines that a call with fuel `n` logs. -/
def fuelBound (ds : List Decl) : Nat → Nat → Cost
  | 0, _ => some 0
  | n + 1, x => fuelCost (fuelBound ds n) n x ds

end Spec

theorem AtMost.mono' {α : Type} {x : M α} {c d : Cost} (h : AtMost c x) (hc : ∀ k, d = some k → ∃ j, c = some j ∧ j ≤ k) : AtMost d x := by
  intro k hk st
  obtain ⟨j, h1, h2⟩ := hc k hk
  exact (h j h1 st).mono h2

section
variable {H : Hashes} {E : EcdsaM} {B : Nat → Cost} {f : Nat → Nat → List Value → M (List Value)} (h : CallsCost B f)

/-- The rounds of a loop. -/
theorem rounds_cost {c : Env → M (List Value)} {body post : Env → M Ctl} {k l m : Cost} (hc : ∀ env, AtMost k (c env))
    (hb : ∀ env, AtMost l (body env)) (hp : ∀ env, AtMost m (post env)) :
    ∀ n env, AtMost ((k.plus (l.plus m)).times n) (rounds c body post n env)
  | 0, _ => .stuck _
  | n + 1, env => by
    have ih := fun env => rounds_cost hc hb hp n env
    have h1 : AtMost (k.plus ((l.plus (m.plus ((k.plus (l.plus m)).times n))).or (some 0))) (rounds c body post (n + 1) env) := by
      unfold rounds
      refine (hc env).bind fun b => choose_cost ((hb env).bind fun r => again_cost fun env => (hp env).bind fun q =>
        follow_cost fun env => ih env) (.pure _ _)
    refine h1.mono' fun j hj => ?_
    cases k <;> cases l <;> cases m <;> simp only [Cost.plus, Cost.times, Cost.or, reduceCtorEq, Option.some.injEq] at hj ⊢
    subst hj
    exact ⟨_, rfl, by simp only [Nat.max_zero]; ring_nf; exact le_rfl⟩

include h in
theorem exec_rounds (n : Nat) (s : Stmt) : ∀ env, AtMost (roundsCost B n s) (exec ⟨H, E, f⟩ n s env) := by
  induction s with
  | seq a b iha ihb => exact fun env => (iha env).bind fun _ => follow_cost fun env => ihb env
  | block s ih => exact fun env => (ih _).then fun _ => .pure _ _
  | ite c t e iht ihe => exact fun env => (eval_cost h c env).bind fun _ => choose_cost (iht env) (ihe env)
  | loop i c p b ihi ihp ihb =>
    exact fun env => (ihi _).bind fun _ => (follow_cost fun env => rounds_cost (eval_cost h c) ihb ihp n env).then fun _ => .pure _ _
  | switch s ih => exact fun env => (ih env).then fun _ => again_cost fun _ => .pure _ _
  | _ => exact exec_cost h n _

end

theorem fuelCost_find {B : Nat → Cost} {n recv x : Nat} {f : Func} : ∀ {ds : List Decl}, findFunc recv x ds = some f →
    ∀ {k : Nat}, fuelCost B n x ds = some k → ∃ j, roundsCost B n f.body = some j ∧ j ≤ k
  | [], h, _, _ => by cases h
  | .func g :: ds, h, k, hk => by
    rw [findFunc] at h
    rw [fuelCost] at hk
    by_cases hx : g.name = x
    · rw [if_pos hx] at hk
      obtain ⟨a, b, ha, hb, rfl⟩ : ∃ a b, roundsCost B n g.body = some a ∧ fuelCost B n x ds = some b ∧ k = max a b := by
        revert hk
        cases roundsCost B n g.body <;> cases fuelCost B n x ds <;> intro hk <;> simp only [Cost.or, reduceCtorEq, Option.some.injEq] at hk
        exact ⟨_, _, rfl, rfl, hk.symm⟩
      by_cases hr : g.recv = recv ∧ g.name = x
      · rw [if_pos hr] at h
        cases h
        exact ⟨a, ha, by omega⟩
      · rw [if_neg hr] at h
        obtain ⟨j, h1, h2⟩ := fuelCost_find h hb
        exact ⟨j, h1, by omega⟩
    · rw [if_neg hx] at hk
      rw [if_neg fun hr => hx hr.2] at h
      exact fuelCost_find h hk
  | .imports _ :: ds, h, _, hk => fuelCost_find (ds := ds) h hk
  | .var _ _ :: ds, h, _, hk => fuelCost_find (ds := ds) h hk
  | .varInit _ _ :: ds, h, _, hk => fuelCost_find (ds := ds) h hk
  | .struct _ _ :: ds, h, _, hk => fuelCost_find (ds := ds) h hk
  | .type _ _ :: ds, h, _, hk => fuelCost_find (ds := ds) h hk

theorem fuelBound_sound (H : Hashes) (E : EcdsaM) (ds : List Decl) : ∀ n, CallsCost (fuelBound ds n) (runFunc H E ds n)
  | 0 => fun _ _ _ => .stuck _
  | n + 1 => by
    intro recv x args
    unfold runFunc
    split
    · exact .stuck _
    next f hf =>
      split
      · exact .stuck _
      next env _ =>
        have h := exec_rounds (H := H) (E := E) (fuelBound_sound H E ds n) n f.body env
        have h2 : AtMost (roundsCost (fuelBound ds n) n f.body) (exec ⟨H, E, runFunc H E ds n⟩ n f.body env >>= f.finish) := by
          refine h.then fun c => ?_
          unfold Func.finish
          cases c with
          | ret vs => exact known_silent _
          | next env => exact .ite (.pure _ _) (.stuck _)
          | brk env => exact .stuck _
        intro j hj st
        obtain ⟨i, h3, h4⟩ := fuelCost_find hf hj
        exact (h2 i h3 st).mono h4

/-- C138: the analysis is right for every program: a call with fuel `n` logs no more lines than the bound, however it ends. -/
theorem C138_fuel (H : Hashes) (E : EcdsaM) (ds : List Decl) (n recv x b : Nat) (args : List Value) (st : State)
    (hb : fuelBound ds n x = some b) : (endLog (runFunc H E ds n recv x args st)).length ≤ st.log.length + b :=
  (fuelBound_sound H E ds n recv x args b hb st).endLog

/-! ## The repaired text -/

theorem no_mark_repaired : findFunc 0 (id! "mark") repaired = none := by decide +kernel

namespace Spec

/-- Specification: a call of the repaired text with marks ends in `o`. -/
def FixedMarked (H : Hashes) (E : EcdsaM) (r : Request) (st : State) (o : Out (List Value)) : Prop :=
  Source.Ends H E (marked repaired) r.recv r.name r.args st o

/-- Specification: the most lines that a call of the repaired text logs when each function and each block logs a line as it is
entered. -/
def fixedWork (st : State) : Request → Nat
  | .checkWIF _ => 4
  | .privateFromWIF _ _ => 14
  | .privateFromHex _ _ => 5
  | .generatePrivateKey _ => (st.rd.length + 69) * (st.rd.length + 92) / 2
  | .addPrivateKeys _ _ => 76
  | .multiplyPrivateKeys _ _ => 76
  | .publicFromHex _ _ => 10
  | .getPublicKey _ => 2
  | .format _ _ => 137
  | .address _ _ => 141
  | .addPublicKeys _ _ _ => 4
  | .newMnemonic _ _ => 1210
  | .newSeedFromMnemonic mnemonic _ wordlist => (splitSpace mnemonic).length * ((wordlist.getD []).length + 13) + 608

end Spec

/-- C138: a call of the repaired text with marks ends as the same call of the repaired text ends, but for the lines logged. -/
theorem C138_faithful (H : Hashes) (E : EcdsaM) (r : Request) (st : State) (o : Out (List Value)) (h : r.EndsFixed H E st o) :
    ∃ o', FixedMarked H E r st o' ∧ SameButLog o o' := by
  obtain ⟨ho, n, hn⟩ := h
  have e := hn n (Nat.le_refl n)
  rcases runFunc_marked H E repaired no_mark_repaired n r.recv r.name r.args st st rfl with hs | hs
  · exact (ho (e.symm.trans hs)).elim
  · rw [e] at hs
    refine ⟨_, Ends.of (n := n + 1) rfl ?_, hs⟩
    intro hz
    rw [hz] at hs
    cases o with
    | stuck => exact ho rfl
    | ok => exact hs
    | panic => exact hs

/-- If the call needs no more fuel than `n`, the marked one needs no more than one more. -/
theorem FixedMarked.run {H : Hashes} {E : EcdsaM} {r : Request} {st : State} {o : Out (List Value)} (h : FixedMarked H E r st o) {n : Nat}
    (hn : runFunc H E repaired n r.recv r.name r.args st ≠ .stuck) : runFunc H E (marked repaired) (n + 1) r.recv r.name r.args st = o := by
  rcases runFunc_marked H E repaired no_mark_repaired n r.recv r.name r.args st st rfl with hs | hs
  · exact (hn hs).elim
  · refine Ends.unique (Ends.of (n := n + 1) rfl ?_) h
    intro hz
    rw [hz] at hs
    cases e : runFunc H E repaired n r.recv r.name r.args st with
    | stuck => exact hn e
    | ok => rw [e] at hs; exact hs
    | panic => rw [e] at hs; exact hs

/-- The bodies of the functions of this name. -/
def bodiesOf (x : Nat) (ds : List Decl) : List Stmt := ds.filterMap fun d =>
  match d with
  | .func f => if f.name = x then some f.body else none
  | _ => none

theorem fuelCost_bodies (B : Nat → Cost) (n x : Nat) : ∀ ds : List Decl,
    fuelCost B n x ds = (bodiesOf x ds).foldr (fun s c => (roundsCost B n s).or c) (some 0)
  | [] => rfl
  | .func f :: ds => by
    rw [fuelCost, fuelCost_bodies B n x ds]
    by_cases h : f.name = x
    · have e : bodiesOf x (.func f :: ds) = f.body :: bodiesOf x ds := by simp [bodiesOf, h]
      rw [if_pos h, e]
      rfl
    · have e : bodiesOf x (.func f :: ds) = bodiesOf x ds := by simp [bodiesOf, h]
      rw [if_neg h, e]
  | .imports _ :: ds => fuelCost_bodies B n x ds
  | .var _ _ :: ds => fuelCost_bodies B n x ds
  | .varInit _ _ :: ds => fuelCost_bodies B n x ds
  | .struct _ _ :: ds => fuelCost_bodies B n x ds
  | .type _ _ :: ds => fuelCost_bodies B n x ds

/-- The repaired `GeneratePrivateKey` with marks (private_key.go:117-133, with changes). -/
def mrGenerate : Stmt := value_of% (markedFunc rGeneratePrivateKey).body

theorem bodies_generate : bodiesOf (id! "GeneratePrivateKey") (marked repaired) = [mrGenerate] := by decide +kernel

theorem generate_round (B : Nat → Cost) (n k : Nat) (h1 : B (id! "mark") = some 1) (h2 : B (id! "DecodeString") = some 0)
    (h3 : B (id! "generateRandomBigInt") = some 2) (h4 : B (id! "bigIntToHex") = some 1) (h5 : B (id! "len") = some 0)
    (h6 : B (id! "PrivateFromHex") = some 5) (h7 : B (id! "GeneratePrivateKey") = some k) :
    roundsCost B n mrGenerate = some (n + 12 + k) := by
  unfold mrGenerate
  simp only [roundsCost, stmtCost, exprCost, h1, h2, h3, h4, h5, h6, h7, Cost.plus, Cost.or, Cost.times]
  rw [if_neg (by decide)]
  congr 1
  omega

/-- The lines of `n` attempts to generate a key, the last with fuel for one round. -/
def attempts : Nat → Nat
  | 0 => 0
  | n + 1 => n + 12 + attempts n

theorem attempts_eq : ∀ n, 2 * attempts n = n * n + 23 * n
  | 0 => rfl
  | n + 1 => by
    have := attempts_eq n
    rw [attempts]
    ring_nf at this ⊢
    omega

/-- Bounds for all functions but `GeneratePrivateKey` from C123, for `GeneratePrivateKey` by fuel. -/
def generateBound (n x : Nat) : Cost := if x = id! "GeneratePrivateKey" then some (attempts n) else bounds (marked repaired) (fun _ => none) 4 x

theorem generateBound_sound (H : Hashes) (E : EcdsaM) : ∀ n, CallsCost (generateBound n) (runFunc H E (marked repaired) n)
  | 0 => fun _ _ _ => .stuck _
  | n + 1 => by
    intro recv x args
    by_cases hx : x = id! "GeneratePrivateKey"
    swap
    · unfold generateBound
      rw [if_neg hx]
      exact bounds_sound H E (marked repaired) (fun _ => none) (fun _ _ _ _ _ h => by cases h) 4 (n + 1) recv x args
    subst hx
    unfold runFunc
    split
    · exact .stuck _
    next f hf =>
      split
      · exact .stuck _
      next env _ =>
        have h := exec_rounds (H := H) (E := E) (generateBound_sound H E n) n f.body env
        have h2 : AtMost (roundsCost (generateBound n) n f.body) (exec ⟨H, E, runFunc H E (marked repaired) n⟩ n f.body env >>= f.finish) := by
          refine h.then fun c => ?_
          unfold Func.finish
          cases c with
          | ret vs => exact known_silent _
          | next env => exact .ite (.pure _ _) (.stuck _)
          | brk env => exact .stuck _
        have hc : fuelCost (generateBound n) n (id! "GeneratePrivateKey") (marked repaired) = some (n + 12 + attempts n) := by
          have hs : [id! "mark", id! "DecodeString", id! "generateRandomBigInt", id! "bigIntToHex", id! "len", id! "PrivateFromHex"].map
            (bounds (marked repaired) (fun _ => none) 4) = [some 1, some 0, some 2, some 1, some 0, some 5] := by decide +kernel
          simp only [List.map_cons, List.map_nil, List.cons.injEq, and_true] at hs
          obtain ⟨b1, b2, b3, b4, b5, b6⟩ := hs
          have hne : ∀ {x}, x ≠ id! "GeneratePrivateKey" → generateBound n x = bounds (marked repaired) (fun _ => none) 4 x := fun h => if_neg h
          rw [fuelCost_bodies, bodies_generate]
          simp only [List.foldr_cons, List.foldr_nil]
          rw [generate_round (generateBound n) n (attempts n) ((hne (by decide)).trans b1) ((hne (by decide)).trans b2)
            ((hne (by decide)).trans b3) ((hne (by decide)).trans b4) ((hne (by decide)).trans b5) ((hne (by decide)).trans b6) (if_pos rfl)]
          exact congrArg some (Nat.max_zero _)
        intro j hj st
        cases hj.symm.trans (if_pos rfl : generateBound (n + 1) (id! "GeneratePrivateKey") = some (attempts (n + 1)))
        obtain ⟨i, h3, h4⟩ := fuelCost_find hf hc
        exact (h2 i h3 st).mono h4

/-- C138: the bounds that the analysis of C123 finds for functions without loops. -/
theorem C138_straight : [id! "CheckWIF", id! "PrivateFromWIF", id! "PrivateFromHex", id! "PublicFromHex", id! "GetPublicKey",
    id! "AddPublicKeys"].map (bounds (marked repaired) (fun _ => none) 4) = [some 4, some 14, some 5, some 10, some 2, some 4] := by
  decide +kernel

/-- C138: the bounds for functions with loops, with the fuel that they need. -/
theorem C138_loops : [(68, id! "AddPrivateKeys"), (68, id! "MultiplyPrivateKeys"), (67, id! "Format"), (68, id! "Address"),
    (302, id! "NewMnemonic")].map (fun c => fuelBound (marked repaired) c.1 c.2) = [some 76, some 76, some 137, some 141, some 1210] := by
  decide +kernel

end Btc
