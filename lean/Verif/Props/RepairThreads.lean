import Verif.Conc.Whole
import Verif.Props.RepairSession
import Verif.Props.Threads

/-!
# C135: goroutines that use the repaired text

C121 is about goroutines that each make one call of the repository's text. Here each goroutine runs a program of its own: it
calls the repaired functions as often as it likes, uses the keys it got, reads their texts, and decides what to do next from
what it has seen. Goroutines may be started, and waited for, again and again.
-/

set_option linter.constructorNameAsVariable false

namespace Btc

open Mem Source Spec Threads

namespace Spec

/-- Specification: what can be seen of a returned value without following pointers: of a pointer only whether it is nil. -/
def mask : Value → Value
  | .big p => .big (p.map fun _ => 0)
  | .priv p => .priv (p.map fun _ => 0)
  | .pub p => .pub (p.map fun _ => 0)
  | .privVar _ => .privVar 0
  | .pubVar _ => .pubVar 0
  | .point x y => .point (x.map fun _ => 0) (y.map fun _ => 0)
  | .base x y => .base (x.map fun _ => 0) (y.map fun _ => 0)
  | v => v

end Spec

/-- What a goroutine does. In a call, a key is given by its number among the keys that the goroutine holds (those held when it
was started, then those it got); the rest depends on what is seen of the values returned. `look` reads the field `WIF` or `Hex`
of a private key. -/
inductive Routine where
  | stop
  | call (r : Request) (k : List Value → Routine)
  | look (p : Nat) (wif : Bool) (k : GoString → Routine)

/-- The key with this number. -/
def pick (l : List Ptr) (p : Ptr) : Ptr := p.bind fun i => l[i]?.join

/-- The call, with the keys in place of their numbers. -/
def Source.Request.on (ps qs : List Ptr) : Request → Request
  | .addPrivateKeys p q => .addPrivateKeys (pick ps p) (pick ps q)
  | .multiplyPrivateKeys p q => .multiplyPrivateKeys (pick ps p) (pick ps q)
  | .getPublicKey p => .getPublicKey (pick ps p)
  | .format q c => .format (pick qs q) c
  | .address q c => .address (pick qs q) c
  | .addPublicKeys p q c => .addPublicKeys (pick qs p) (pick qs q) c
  | r => r

/-- The field that is looked at. -/
def lookField (wif : Bool) : Nat := if wif then id! "WIF" else id! "Hex"

/-- A text, or stuck. -/
def asText (v : Value) : M GoString := match v with | .str s => pure s | _ => stuck
/-- A text, or stuck. -/
def asTextT (v : Value) : TM GoString := match v with | .str s => pure s | _ => stuckT

section
variable (H : Hashes) (ds : List Decl) (n : Nat)

/-- The goroutine alone, with fuel `n` for every call: all values it got. -/
def Routine.run (E : EcdsaM) : Routine → List Ptr → List Ptr → M (List Value)
  | .stop, _, _ => pure []
  | .call r k, ps, qs => do
    let vs ← runFunc H E ds n r.recv r.name (r.on ps qs).args
    let ws ← (k (vs.map mask)).run E (ps ++ returnedPrivs vs) (qs ++ returnedPubs vs)
    pure (vs ++ ws)
  | .look p wif k, ps, qs => do
    let v ← field (.priv (pick ps (some p))) (lookField wif)
    let s ← asText v
    (k s).run E ps qs

/-- The goroutine as a tree of memory accesses. -/
def Routine.tree (E : EcdsaP) : Routine → List Ptr → List Ptr → TM (List Value)
  | .stop, _, _ => pure []
  | .call r k, ps, qs => do
    let vs ← runFuncT H E ds n r.recv r.name (r.on ps qs).args
    let ws ← (k (vs.map mask)).tree E (ps ++ returnedPrivs vs) (qs ++ returnedPubs vs)
    pure (vs ++ ws)
  | .look p wif k, ps, qs => do
    let v ← fieldT (.priv (pick ps (some p))) (lookField wif)
    let s ← asTextT v
    (k s).tree E ps qs

end

namespace Spec

/-- Specification: the networks of a call are nil or exist, and its keys are held. -/
def Asks (nets np nq : Nat) : Request → Prop
  | .privateFromWIF _ network => ∀ a, network = some a → a < nets
  | .privateFromHex _ network => ∀ a, network = some a → a < nets
  | .generatePrivateKey network => ∀ a, network = some a → a < nets
  | .publicFromHex _ network => ∀ a, network = some a → a < nets
  | .addPrivateKeys p q => (∃ i, p = some i ∧ i < np) ∧ ∃ j, q = some j ∧ j < np
  | .multiplyPrivateKeys p q => (∃ i, p = some i ∧ i < np) ∧ ∃ j, q = some j ∧ j < np
  | .getPublicKey p => ∃ i, p = some i ∧ i < np
  | .format q _ => ∃ i, q = some i ∧ i < nq
  | .address q _ => ∃ i, q = some i ∧ i < nq
  | .addPublicKeys p q _ => (∃ i, p = some i ∧ i < nq) ∧ ∃ j, q = some j ∧ j < nq
  | _ => True

/-- Specification: whatever it is answered, the goroutine uses only networks that exist and keys that it holds. -/
def Fits (nets : Nat) : Nat → Nat → Routine → Prop
  | _, _, .stop => True
  | np, nq, .call r k => Asks nets np nq r ∧
      ∀ vs, Fits nets (np + (returnedPrivs vs).length) (nq + (returnedPubs vs).length) (k vs)
  | np, nq, .look p _ k => p < np ∧ ∀ s, Fits nets np nq (k s)

end Spec

/-! ## Trees of goroutines -/

section Trees
variable {H : Hashes} {ds : List Decl} {n : Nat}

theorem agree_asText (v : Value) : Agrees (asTextT v) (asText v) := by
  cases v <;> first | exact .pure _ | exact .stuck

theorem agree_routine (E : EcdsaP) : ∀ (R : Routine) (ps qs : List Ptr), Agrees (R.tree H ds n E ps qs) (R.run H ds n E.toM ps qs)
  | .stop, _, _ => .pure _
  | .call _ k, _, _ => .bind (agree_runFunc H E ds n _ _ _) fun _ => .bind (agree_routine E (k _) _ _) fun _ => .pure _
  | .look p wif k, ps, qs => .bind (agree_field _ _) fun v => .bind (agree_asText v) fun s => agree_routine E (k s) ps qs

variable {b : Heap} {r s : Ren} {vars : List (Nat × Value)}

/-- Corresponding lists of held keys. -/
def Held (l : List Nat) : List Ptr → List Ptr → Prop := List.Forall₂ (At l)

theorem Held.mono {l l' : List Nat} (h : l <+: l') {ps ps' : List Ptr} (hp : Held l ps ps') : Held l' ps ps' :=
  List.Forall₂.imp (fun _ _ => at_mono h) hp

theorem Held.pick {l : List Nat} {ps ps' : List Ptr} (hp : Held l ps ps') (p : Ptr) : At l (pick ps p) (pick ps' p) := by
  cases p with
  | none => trivial
  | some i =>
    simp only [Btc.pick, Option.bind_some]
    induction hp generalizing i with
    | nil => trivial
    | cons h _ ih =>
      cases i with
      | zero => simpa using h
      | succ i => simpa using ih i

theorem Held.append {l : List Nat} {ps ps' qs qs' : List Ptr} (hp : Held l ps ps') (hq : Held l qs qs') :
    Held l (ps ++ qs) (ps' ++ qs') := List.rel_append hp hq

theorem vals_mask {vs vs' : List Value} (h : Vals b r vs vs') : vs.map mask = vs'.map mask := by
  induction h with
  | nil => rfl
  | cons h _ ih =>
    have isSome : ∀ {l : List Nat} {p q : Ptr}, At l p q → (p.map fun _ => 0) = (q.map fun _ => 0) := by
      intro l p q h
      cases p <;> cases q <;> first | rfl | exact h.elim
    rw [List.map_cons, List.map_cons, ih]
    congr 1
    cases h <;> simp only [mask]
    case big h => rw [isSome h]
    case priv h => rw [isSome h]
    case pub h => rw [isSome h]
    case point h h' => rw [isSome h, isSome h']
    case base h h' => rw [isSome h, isSome h']

theorem vals_privs {vs vs' : List Value} (h : Vals b r vs vs') : Held r.privs (returnedPrivs vs) (returnedPrivs vs') := by
  induction h with
  | nil => exact .nil
  | cons h _ ih =>
    cases h <;> try exact ih
    case priv p q h =>
      cases p <;> cases q <;> first | exact h.elim | exact ih | exact .cons h ih

theorem vals_pubs {vs vs' : List Value} (h : Vals b r vs vs') : Held r.pubs (returnedPubs vs) (returnedPubs vs') := by
  induction h with
  | nil => exact .nil
  | cons h _ ih =>
    cases h <;> try exact ih
    case pub p q h =>
      cases p <;> cases q <;> first | exact h.elim | exact ih | exact .cons h ih

theorem request_on_args (q : Request) {ps ps' qs qs' : List Ptr} (hp : Held r.privs ps ps') (hq : Held r.pubs qs qs') :
    Vals b r (q.on ps qs).args (q.on ps' qs').args := by
  cases q <;> simp only [Request.on, Request.args]
  case addPrivateKeys x y => exact .cons (.priv (hp.pick _)) (.cons (.priv (hp.pick _)) .nil)
  case multiplyPrivateKeys x y => exact .cons (.priv (hp.pick _)) (.cons (.priv (hp.pick _)) .nil)
  case getPublicKey x => exact .cons (.priv (hp.pick _)) .nil
  case format x c => exact .cons (.pub (hq.pick _)) (.cons (.bool _) .nil)
  case address x c => exact .cons (.pub (hq.pick _)) (.cons (.bool _) .nil)
  case addPublicKeys x y c => exact .cons (.pub (hq.pick _)) (.cons (.pub (hq.pick _)) (.cons (.bool _) .nil))
  all_goals repeat' constructor

theorem routine_rel {E : EcdsaP} (hL : E.Local) {G : List Nat} (hd : Disciplined G ds) (hv : VarsOk G vars) :
    ∀ (R : Routine) (r : Ren) (ps ps' qs qs' : List Ptr), Held r.privs ps ps' → Held r.pubs qs qs' →
      TRel b vars (Vals b) r (R.tree H ds n E ps qs) (R.tree H ds n E ps' qs')
  | .stop, _, _, _, _, _, _, _ => .pure .nil
  | .call q k, r, ps, ps', qs, qs', hp, hq => by
    obtain ⟨N, hN⟩ := hd
    have h := (runFunc_rel (b := b) (H := H) hL hv hN n).rel r q.recv q.name _ _ (request_name q) (request_on_args q hp hq)
    refine .bind h fun s hs vs vs' hvs => ?_
    have e := hvs.rel
    rw [vals_mask e]
    refine .bind (routine_rel hL ⟨N, hN⟩ hv (k _) s _ _ _ _ ((hp.mono hs.privs).append (vals_privs e))
      ((hq.mono hs.pubs).append (vals_pubs e))) fun t ht ws ws' hws => ?_
    exact .pure (List.rel_append (e.mono ht) hws)
  | .look p wif k, r, ps, ps', qs, qs', hp, hq => by
    refine .bind (field_rel _ (.priv (hp.pick _))) fun s hs v v' hvv => ?_
    refine TRel.bind (R := fun _ x y => x = y) ?_ fun t ht x y e => ?_
    · cases hvv <;> first | exact .stuck | exact .pure rfl
    · subst e
      exact routine_rel hL hd hv (k x) t _ _ _ _ ((hp.mono hs.privs).mono ht.privs) ((hq.mono hs.pubs).mono ht.pubs)

end Trees

/-! ## A goroutine alone -/

section Alone
variable {H : Hashes}

theorem returnedPrivs_append : ∀ us vs : List Value, returnedPrivs (us ++ vs) = returnedPrivs us ++ returnedPrivs vs
  | [], _ => rfl
  | u :: us, vs => by
    have ih := returnedPrivs_append us vs
    cases u with
    | priv p => cases p <;> simp [returnedPrivs, ih]
    | _ => simpa [returnedPrivs] using ih

theorem returnedPubs_append : ∀ us vs : List Value, returnedPubs (us ++ vs) = returnedPubs us ++ returnedPubs vs
  | [], _ => rfl
  | u :: us, vs => by
    have ih := returnedPubs_append us vs
    cases u with
    | pub p => cases p <;> simp [returnedPubs, ih]
    | _ => simpa [returnedPubs] using ih

theorem mask_privs : ∀ vs : List Value, (returnedPrivs (vs.map mask)).length = (returnedPrivs vs).length
  | [] => rfl
  | v :: vs => by
    have ih := mask_privs vs
    cases v with
    | priv p => cases p <;> simp [returnedPrivs, mask, ih]
    | _ => simpa [returnedPrivs, mask] using ih

theorem mask_pubs : ∀ vs : List Value, (returnedPubs (vs.map mask)).length = (returnedPubs vs).length
  | [] => rfl
  | v :: vs => by
    have ih := mask_pubs vs
    cases v with
    | pub p => cases p <;> simp [returnedPubs, mask, ih]
    | _ => simpa [returnedPubs, mask] using ih

theorem pick_mem {l : List Ptr} {p : Ptr} (h : ∃ i, p = some i ∧ i < l.length) : pick l p ∈ l := by
  obtain ⟨i, rfl, hi⟩ := h
  simp [pick, hi]

theorem netPtr_of {st : State} {network : Ptr} (h : ∀ a, network = some a → a < st.heap.nets.length) : NetPtr st network := by
  cases network with
  | none => exact .inl rfl
  | some a => exact .inr ⟨_, List.getElem?_eq_getElem (h a rfl)⟩

theorem asks_typed {st : State} {ps qs : List Ptr} {r : Request} (h : Asks st.heap.nets.length ps.length qs.length r) :
    Typed st ps qs (r.on ps qs) := by
  cases r <;> simp only [Request.on, Typed, Asks] at h ⊢
  case privateFromWIF => exact netPtr_of h
  case privateFromHex => exact netPtr_of h
  case generatePrivateKey => exact netPtr_of h
  case publicFromHex => exact netPtr_of h
  case addPrivateKeys => exact ⟨pick_mem h.1, pick_mem h.2⟩
  case multiplyPrivateKeys => exact ⟨pick_mem h.1, pick_mem h.2⟩
  case getPublicKey => exact pick_mem h
  case format => exact pick_mem h
  case address => exact pick_mem h
  case addPublicKeys => exact ⟨pick_mem h.1, pick_mem h.2⟩

theorem on_name (r : Request) (ps qs : List Ptr) : (r.on ps qs).recv = r.recv ∧ (r.on ps qs).name = r.name := by
  cases r <;> exact ⟨rfl, rfl⟩

theorem look_text {st : State} {p : Ptr} {o : PrivObj} (h : loadPriv st.heap p = some o) (wif : Bool) :
    (field (.priv p) (lookField wif) >>= asText) st = .ok (if wif then o.WIF else o.Hex) st := by
  have e : (onHeap (readPriv p) : M PrivObj) st = .ok o st := by
    unfold onHeap
    rw [readPriv_some h]
  cases wif
  · show (((onHeap (readPriv p) : M PrivObj) st).andThen fun o => known (privField o (id! "Hex"))).andThen asText = _
    rw [e]
    rfl
  · show (((onHeap (readPriv p) : M PrivObj) st).andThen fun o => known (privField o (id! "WIF"))).andThen asText = _
    rw [e]
    rfl

/-- More fuel changes nothing. -/
theorem routine_le (E : EcdsaM) (ds : List Decl) {n m : Nat} (hn : n ≤ m) : ∀ (R : Routine) (ps qs : List Ptr),
    Le (R.run H ds n E ps qs) (R.run H ds m E ps qs)
  | .stop, _, _ => .refl _
  | .call r k, ps, qs => (runFunc_le H E ds hn _ _ _).bind fun _ => (routine_le E ds hn (k _) _ _).bind fun _ => .refl _
  | .look p wif k, ps, qs => (Le.refl _).bind fun _ => (Le.refl _).bind fun s => routine_le E ds hn (k s) ps qs

/-- How a goroutine may end. -/
def FineAlone (H : Hashes) (st : State) (ps qs : List Ptr) (o : Out (List Value)) : Prop :=
  (∃ vs st', o = .ok vs st' ∧ Grow st.heap st'.heap ∧ Sound H st' (ps ++ returnedPrivs vs) (qs ++ returnedPubs vs)) ∨
    ∃ st', o = .panic (.explicit .randRead) st'

theorem routine_alone {E : EcdsaM} {V : Ecdsa} (hE : Pkg E) (hV : E.Refines V) (hC : EcdsaContract V) :
    ∀ (R : Routine) (st : State) (ps qs : List Ptr), Sound H st ps qs → Fits st.heap.nets.length ps.length qs.length R →
      ∃ o, (∃ n, ∀ m, n ≤ m → R.run H repaired m E ps qs st = o) ∧ FineAlone H st ps qs o
  | .stop, st, ps, qs, hs, _ => ⟨.ok [] st, ⟨0, fun _ _ => rfl⟩, .inl ⟨[], st, rfl, .refl _, by simpa [returnedPrivs, returnedPubs] using hs⟩⟩
  | .call r k, st, ps, qs, hs, hf => by
    obtain ⟨ha, hk⟩ := hf
    obtain ⟨o, he, ho⟩ := hs.step hE hV hC (r.on ps qs) (asks_typed ha)
    obtain ⟨-, n, hn⟩ := he
    rw [(on_name r ps qs).1, (on_name r ps qs).2] at hn
    rcases ho with ⟨vs, st1, rfl, hg, hs1⟩ | ⟨_, st1, -, -, rfl, -⟩
    · have hf1 := hk (vs.map mask)
      rw [mask_privs, mask_pubs, hg.nets, ← List.length_append, ← List.length_append] at hf1
      obtain ⟨o, ⟨n1, hn1⟩, h1⟩ := routine_alone hE hV hC (k (vs.map mask)) st1 _ _ hs1 hf1
      rcases h1 with ⟨ws, st2, rfl, hg2, hs2⟩ | ⟨st2, rfl⟩
      · refine ⟨.ok (vs ++ ws) st2, ⟨max n n1, fun m hm => ?_⟩, .inl ⟨_, _, rfl, hg.trans hg2, ?_⟩⟩
        · show (runFunc H E repaired m r.recv r.name (r.on ps qs).args st).andThen _ = _
          rw [hn m (le_trans (le_max_left _ _) hm)]
          show ((k (vs.map mask)).run H repaired m E (ps ++ returnedPrivs vs) (qs ++ returnedPubs vs) st1).andThen _ = _
          rw [hn1 m (le_trans (le_max_right _ _) hm)]
          rfl
        · rw [returnedPrivs_append, returnedPubs_append, ← List.append_assoc, ← List.append_assoc]
          exact hs2
      · refine ⟨.panic (.explicit .randRead) st2, ⟨max n n1, fun m hm => ?_⟩, .inr ⟨_, rfl⟩⟩
        show (runFunc H E repaired m r.recv r.name (r.on ps qs).args st).andThen _ = _
        rw [hn m (le_trans (le_max_left _ _) hm)]
        show ((k (vs.map mask)).run H repaired m E (ps ++ returnedPrivs vs) (qs ++ returnedPubs vs) st1).andThen _ = _
        rw [hn1 m (le_trans (le_max_right _ _) hm)]
        rfl
    · refine ⟨.panic (.explicit .randRead) st1, ⟨n, fun m hm => ?_⟩, .inr ⟨_, rfl⟩⟩
      show (runFunc H E repaired m r.recv r.name (r.on ps qs).args st).andThen _ = _
      rw [hn m hm]
      rfl
  | .look p wif k, st, ps, qs, hs, hf => by
    obtain ⟨hp, hk⟩ := hf
    obtain ⟨nw, net, t, w, pre, bd, c, h1, -⟩ := hs.privs _ (pick_mem ⟨p, rfl, hp⟩)
    obtain ⟨ob, h2, -⟩ := h1.object
    have e := look_text h2 wif
    obtain ⟨o, ⟨n, hn⟩, h3⟩ := routine_alone hE hV hC (k (if wif then ob.WIF else ob.Hex)) st ps qs hs (hk _)
    refine ⟨o, ⟨n, fun m hm => ?_⟩, h3⟩
    rw [← hn m hm]
    have e2 : (Routine.look p wif k).run H repaired m E ps qs =
        (field (.priv (pick ps (some p))) (lookField wif) >>= asText) >>= fun s => (k s).run H repaired m E ps qs := by
      funext st
      show (field (.priv (pick ps (some p))) (lookField wif) st).andThen _ = Out.andThen ((field (.priv (pick ps (some p))) (lookField wif) st).andThen asText) _
      cases field (.priv (pick ps (some p))) (lookField wif) st <;> rfl
    rw [e2]
    show Out.andThen ((field (.priv (pick ps (some p))) (lookField wif) >>= asText) st) _ = _
    rw [e]
    rfl

end Alone

/-! ## Goroutines together -/

/-- Goroutines started in the state `st`, each with the keys `ps` and `qs` and a random source of its own. -/
def launch {ι : Type} (H : Hashes) (E : EcdsaP) (st : State) (ps qs : List Ptr) (R : ι → Routine) (rd : ι → Reader)
    (fuel : ι → Nat) : Machine ι (Ended (List Value)) :=
  ⟨st.heap, fun i => (R i).tree H repaired (fuel i) E ps qs (privateOf { st with rd := rd i })⟩

/-- C135: all repaired functions pass the check of C121: they write only to memory that they allocated themselves. -/
theorem C135_text : Disciplined packageNames repaired := disciplined_of [id! "PrivateFromHex"] (by decide +kernel)

namespace Spec

/-- Specification: the goroutine, run alone with fuel enough, ends in `o`. -/
def EndsAlone (H : Hashes) (E : EcdsaM) (st : State) (ps qs : List Ptr) (R : Routine) (o : Out (List Value)) : Prop :=
  ∃ n, ∀ m, n ≤ m → R.run H repaired m E ps qs st = o

/-- Specification: the values look the same in both memories, and pointers are nil in both or in neither. -/
def SameValues (h g : Heap) (us vs : List Value) : Prop := us.map mask = vs.map mask ∧ List.Forall₂ (Alike h g) us vs

end Spec

/-- What a program that starts goroutines can reach: the state, and the keys it holds. As in `FixedRun` it makes calls,
recovers from panics and exchanges the random source. `fork` starts any number of goroutines, with random sources of their own
and with all keys held; they run interleaved in any way. When the program goes on, it takes the keys of goroutines that have
ended, or leaves them. Simplifications: goroutines that have not ended by then make no more steps, and of a goroutine that
panics or has not ended no log lines are recorded. -/
inductive ForkRun (H : Hashes) (E : EcdsaP) (nets : List Network) : State → List Ptr → List Ptr → Prop
  | start {rd : Reader} {st : State} : Ends H E.toM repaired 0 (id! "init") [] (before repaired rd) (.ok [] st) →
      ForkRun H E nets { st with heap := { st.heap with nets := st.heap.nets ++ nets } } [] []
  | call {st st' : State} {ps qs : List Ptr} {vs : List Value} (r : Request) : ForkRun H E nets st ps qs →
      Typed st ps qs r → r.EndsFixed H E.toM st (.ok vs st') → ForkRun H E nets st' (ps ++ returnedPrivs vs) (qs ++ returnedPubs vs)
  | recovered {st st' : State} {ps qs : List Ptr} {pn : GoPanic} (r : Request) : ForkRun H E nets st ps qs →
      Typed st ps qs r → r.EndsFixed H E.toM st (.panic pn st') → ForkRun H E nets st' ps qs
  | source {st : State} {ps qs : List Ptr} (rd : Reader) : ForkRun H E nets st ps qs → ForkRun H E nets { st with rd := rd } ps qs
  | fork {st : State} {ps qs : List Ptr} {k : Nat} (R : Fin k → Routine) (rd : Fin k → Reader) (fuel : Fin k → Nat)
      {t : List (Fin k × Access)} {m : Machine (Fin k) (Ended (List Value))} (vs : Fin k → List Value) (log : Log) :
      ForkRun H E nets st ps qs → (∀ i, Fits st.heap.nets.length ps.length qs.length (R i)) →
      Machine.Run (launch H E st ps qs R rd fuel) t m →
      (∀ i, vs i = [] ∨ ∃ s, m.prog i = .ret (.ok (.done (vs i) s))) →
      (∀ l ∈ log, l ∈ st.log ∨ ∃ i vs s, m.prog i = .ret (.ok (.done vs s)) ∧ l ∈ s.log) →
      ForkRun H E nets { st with heap := m.heap, log := log } (ps ++ (List.finRange k).flatMap fun i => returnedPrivs (vs i))
        (qs ++ (List.finRange k).flatMap fun i => returnedPubs (vs i))

section Together
variable {H : Hashes} {E : EcdsaP} {V : Ecdsa}

theorem Sound.varsOk {st : State} {ps qs : List Ptr} (h : Sound H st ps qs) : VarsOk packageNames st.vars := by
  rw [h.vars]
  intro q hq
  simp only [List.mem_cons, List.not_mem_nil, or_false] at hq
  rcases hq with rfl | rfl
  · exact ⟨by decide, _, rfl⟩
  · exact ⟨by decide, _, rfl⟩

theorem held_self {n : Nat} {ps : List Ptr} (h : ∀ p ∈ ps, ∃ a, p = some a ∧ a < n) : Held (List.range n) ps ps := by
  induction ps with
  | nil => exact .nil
  | cons p ps ih =>
    refine .cons ?_ (ih fun q hq => h q (.tail _ hq))
    obtain ⟨a, rfl, ha⟩ := h p (.head _)
    simp [At, ha]

theorem heldKey_exists {sha : Bytes → Bytes} {st : State} {p : Ptr} (h : HeldKey sha st p) :
    ∃ a, p = some a ∧ a < st.heap.privs.length := by
  obtain ⟨nw, net, t, w, pre, bd, c, h1, -⟩ := h
  obtain ⟨ob, h2, -⟩ := h1.object
  cases p with
  | none => cases h2
  | some a => exact ⟨a, rfl, (List.getElem?_eq_some_iff.mp h2).1⟩

theorem heldPub_exists {st : State} {p : Ptr} (h : HeldPub st p) : ∃ a, p = some a ∧ a < st.heap.pubs.length := by
  obtain ⟨nw, net, x, y, h1, -⟩ := h
  obtain ⟨ob, h2, -⟩ := h1.object
  cases p with
  | none => cases h2
  | some a => exact ⟨a, rfl, (List.getElem?_eq_some_iff.mp h2).1⟩

/-- A key in order is one in the memory of others too. -/
theorem heldKey_rel {sha : Bytes → Bytes} {r : Ren} {st st' : State} (hh : HeapRel r st.heap st'.heap) {p q : Ptr} (hp : At r.privs p q)
    (h : HeldKey sha st p) : HeldKey sha st' q := by
  obtain ⟨nw, net, t, w, pre, bd, c, h1, h2, h3⟩ := h
  obtain ⟨ob, h4, h5, h6, h7, h8⟩ := h1.object
  cases p with
  | none => cases h4
  | some a =>
    cases q with
    | none => exact hp.elim
    | some x =>
      obtain ⟨v, v', e1, e2, e3⟩ := hh.privs.cell a x hp
      cases e1.symm.trans h4
      refine ⟨nw, net, t, w, pre, bd, c, ⟨⟨v', e2, ?_, e3.Hex ▸ h6, e3.WIF ▸ h7, e3.Network ▸ h8⟩, h1.text, h1.wif, h1.length, h1.low, h1.high⟩,
        ?_, h3⟩
      · rw [loadInt_rel hh e3.Key]
        exact h5
      · unfold NetAt at h2 ⊢
        rw [← hh.nets]
        exact h2

/-- The same for public keys. -/
theorem heldPub_rel {r : Ren} {st st' : State} (hh : HeapRel r st.heap st'.heap) {p q : Ptr} (hp : At r.pubs p q)
    (h : HeldPub st p) : HeldPub st' q := by
  obtain ⟨nw, net, x, y, h1, h2⟩ := h
  obtain ⟨ob, h4, h5, h6, h7⟩ := h1.object
  cases p with
  | none => cases h4
  | some a =>
    cases q with
    | none => exact hp.elim
    | some z =>
      obtain ⟨v, v', e1, e2, e3⟩ := hh.pubs.cell a z hp
      cases e1.symm.trans h4
      refine ⟨nw, net, x, y, ⟨⟨v', e2, ?_, ?_, e3.Network ▸ h7⟩, h1.point⟩, ?_⟩
      · rw [loadInt_rel hh e3.X]
        exact h5
      · rw [loadInt_rel hh e3.Y]
        exact h6
      · unfold NetAt at h2 ⊢
        rw [← hh.nets]
        exact h2

theorem held_mem {l : List Nat} {ps ps' : List Ptr} (h : Held l ps ps') {q : Ptr} (hq : q ∈ ps') : ∃ p ∈ ps, At l p q := by
  induction h with
  | nil => cases hq
  | cons h _ ih =>
    rcases List.mem_cons.1 hq with rfl | hq
    · exact ⟨_, .head _, h⟩
    · obtain ⟨p, hp, ha⟩ := ih hq
      exact ⟨p, .tail _ hp, ha⟩

variable (hL : E.Local) {st : State} {ps qs : List Ptr} (hs : Sound H st ps qs) {ι : Type} {R : ι → Routine} {rd : ι → Reader}
  {fuel : ι → Nat}
include hL hs

theorem launch_local (i : ι) : ((launch H E st ps qs R rd fuel).prog i).IsLocal st.heap (EndRel st.vars fun s => Vals st.heap s) :=
  routine_rel hL C135_text hs.varsOk (R i) (Ren.ofHeap st.heap) ps ps qs qs
    (held_self fun p hp => heldKey_exists (hs.privs p hp)) (held_self fun q hq => heldPub_exists (hs.pubs q hq))
    (ofHeap_has _) (privateOf { st with rd := rd i }) rfl

variable [DecidableEq ι] {t : List (ι × Access)} {m : Machine ι (Ended (List Value))}
  (hrun : Machine.Run (launch H E st ps qs R rd fuel) t m)
include hrun

/-- A goroutine that has returned has returned what it returns alone, in another place. -/
theorem launch_done (i : ι) (vs : List Value) (s : Rest) (hi : m.prog i = .ret (.ok (.done vs s))) :
    ∃ us st' r, (R i).run H repaired (fuel i) E.toM ps qs { st with rd := rd i } = .ok us st' ∧ HeapRel r st'.heap m.heap ∧
      Vals st.heap r us vs ∧ s.log = st'.log ∧ s.rd = st'.rd := by
  obtain ⟨x, r, h, e, hh, hx⟩ := local_solo ⟨hs.objs, hs.curve⟩ (launch_local hL hs) hrun i _ hi
  have ha := agree_routine (H := H) (ds := repaired) (n := fuel i) E (R i) ps qs (privateOf { st with rd := rd i }) st.heap
  have e' : ((R i).tree H repaired (fuel i) E ps qs (privateOf { st with rd := rd i })).run st.heap = (x, h) := e
  rw [e'] at ha
  rcases x with (⟨us, s'⟩ | _ | _) | _ | p <;> simp only [ResRel, EndRel] at hx
  obtain ⟨hv, rfl, -⟩ := hx
  exact ⟨us, _, r, ha.1, hh, hv, rfl, rfl⟩

/-- A goroutine that has not returned normally, but ended, ends so alone. -/
theorem launch_other (i : ι) (y : Res (Ended (List Value))) (hi : m.prog i = .ret y) :
    (∃ vs s, y = .ok (.done vs s)) ∨
    (y = .ok .stuck ∧ (R i).run H repaired (fuel i) E.toM ps qs { st with rd := rd i } = .stuck) ∨
    ∃ p st', y = .panic p ∧ (R i).run H repaired (fuel i) E.toM ps qs { st with rd := rd i } = .panic p st' := by
  obtain ⟨x, r, h, e, hh, hx⟩ := local_solo ⟨hs.objs, hs.curve⟩ (launch_local hL hs) hrun i _ hi
  have ha := agree_routine (H := H) (ds := repaired) (n := fuel i) E (R i) ps qs (privateOf { st with rd := rd i }) st.heap
  have e' : ((R i).tree H repaired (fuel i) E ps qs (privateOf { st with rd := rd i })).run st.heap = (x, h) := e
  rw [e'] at ha
  rcases x with (⟨us, s'⟩ | _ | _) | _ | p <;> rcases y with (⟨vs, s''⟩ | _ | _) | _ | q <;> simp only [ResRel, EndRel] at hx <;>
    simp only at ha
  · exact .inl ⟨_, _, rfl⟩
  · exact .inr (.inl ⟨rfl, ha⟩)
  · obtain ⟨st', ha, -⟩ := ha
    exact .inr (.inr ⟨_, st', rfl, by rw [← hx]; exact ha⟩)

theorem launch_kept {log : Log} (hl : log = st.log) : Kept st { st with heap := m.heap, log := log } :=
  ⟨local_grow ⟨hs.objs, hs.curve⟩ (launch_local hL hs) hrun, rfl, hl, rfl,
    fun _ => local_objs ⟨hs.objs, hs.curve⟩ (launch_local hL hs) hrun⟩

variable (hE : Pkg E.toM) (hV : E.toM.Refines V) (hC : EcdsaContract V)
  (hf : ∀ i, Fits st.heap.nets.length ps.length qs.length (R i))
include hE hV hC hf

/-- The keys of a goroutine that has returned are in order, and it has logged nothing. -/
theorem launch_keys (i : ι) (vs : List Value) (s : Rest) (hi : m.prog i = .ret (.ok (.done vs s))) (log : Log) :
    (∃ us st', EndsAlone H E.toM { st with rd := rd i } ps qs (R i) (.ok us st') ∧ SameValues st'.heap m.heap us vs ∧
      s.rd = st'.rd) ∧ s.log = [] ∧
    (∀ p ∈ returnedPrivs vs, HeldKey H.sha256 { st with heap := m.heap, log := log } p) ∧
    ∀ q ∈ returnedPubs vs, HeldPub { st with heap := m.heap, log := log } q := by
  obtain ⟨us, st', r, e, hh, hv, h1, h2⟩ := launch_done hL hs hrun i vs s hi
  obtain ⟨o, ⟨n, hn⟩, ho⟩ := routine_alone hE hV hC (R i) { st with rd := rd i } ps qs (hs.kept (rd := rd i) (.refl _)) (hf i)
  obtain rfl : o = .ok us st' := by
    rcases routine_le (H := H) E.toM repaired (le_max_left (fuel i) n) (R i) ps qs { st with rd := rd i } with h | h
    · rw [e] at h
      cases h
    · rw [← hn _ (le_max_right (fuel i) n), ← h, e]
  rcases ho with ⟨_, _, ho, -, hs'⟩ | ⟨_, ho⟩
  · cases ho
    refine ⟨⟨us, st', ⟨n, hn⟩, ⟨vals_mask hv, List.Forall₂.imp (fun _ _ => alike_of hh) hv⟩, h2⟩, h1.trans hs'.log, fun q hq => ?_, fun q hq => ?_⟩
    · obtain ⟨p, hp, ha⟩ := held_mem (vals_privs hv) hq
      exact heldKey_rel (st' := { st with heap := m.heap, log := log }) hh ha (hs'.privs p (List.mem_append_right _ hp))
    · obtain ⟨p, hp, ha⟩ := held_mem (vals_pubs hv) hq
      exact heldPub_rel (st' := { st with heap := m.heap, log := log }) hh ha (hs'.pubs p (List.mem_append_right _ hp))
  · cases ho

end Together

theorem ForkRun.sound {H : Hashes} {E : EcdsaP} {V : Ecdsa} (hL : E.Local) (hE : Pkg E.toM) (hV : E.toM.Refines V) (hC : EcdsaContract V)
    {nets : List Network} {st : State} {ps qs : List Ptr} (h : ForkRun H E nets st ps qs) : Sound H st ps qs := by
  induction h with
  | start he => exact FixedRun.sound hE hV hC (.start he)
  | call r _ ht he ih =>
    obtain ⟨o, he', ⟨vs, st', rfl, -, hs⟩ | ⟨_, _, _, _, rfl, _⟩⟩ := ih.step hE hV hC r ht
    · cases Ends.unique he he'
      exact hs
    · cases Ends.unique he he'
  | recovered r _ ht he ih =>
    obtain ⟨o, he', ⟨vs, st', rfl, -, hs⟩ | ⟨_, _, _, _, rfl, hs⟩⟩ := ih.step hE hV hC r ht
    · cases Ends.unique he he'
    · cases Ends.unique he he'
      exact hs
  | @source st ps qs rd _ ih => exact ih.kept (rd := rd) (.refl _)
  | @fork st ps qs k R rd fuel t m vs log _ hf hrun hd hlog ih =>
    have hl : log = st.log := by
      rw [ih.log]
      refine List.eq_nil_iff_forall_not_mem.2 fun l hl => ?_
      rcases hlog l hl with h | ⟨i, us, s, hi, h⟩
      · rw [ih.log] at h
        cases h
      · rw [(launch_keys hL ih hrun hE hV hC hf i us s hi []).2.1] at h
        cases h
    have hk := ih.kept (rd := st.rd) (launch_kept hL ih hrun hl)
    refine ⟨hk.order, hk.curve, fun p hp => ?_, fun q hq => ?_, hk.log, hk.objs, hk.vars⟩
    · rcases List.mem_append.1 hp with hp | hp
      · exact hk.privs p hp
      · obtain ⟨i, -, hi⟩ := List.mem_flatMap.1 hp
        rcases hd i with e | ⟨s, e⟩
        · rw [e] at hi
          cases hi
        · exact (launch_keys hL ih hrun hE hV hC hf i _ s e log).2.2.1 p hi
    · rcases List.mem_append.1 hq with hq | hq
      · exact hk.pubs q hq
      · obtain ⟨i, -, hi⟩ := List.mem_flatMap.1 hq
        rcases hd i with e | ⟨s, e⟩
        · rw [e] at hi
          cases hi
        · exact (launch_keys hL ih hrun hE hV hC hf i _ s e log).2.2.2 q hi

section
variable (H : Hashes) (E : EcdsaP) (V : Ecdsa) (hL : E.Local) (hE : Pkg E.toM) (hV : E.toM.Refines V) (hC : EcdsaContract V)
  (nets : List Network) (st : State) (ps qs : List Ptr) (hr : ForkRun H E nets st ps qs)
include hL hE hV hC hr

/-- C135. All keys that a program with goroutines holds are in order, also those it got from goroutines; nothing is logged; no
pointer dangles. -/
theorem C135_in_order : (∀ p ∈ ps, HeldKey H.sha256 st p) ∧ (∀ q ∈ qs, HeldPub st q) ∧ st.log = [] ∧
    (∀ o ∈ st.heap.privs, ∀ a, o.Key = some a → a < st.heap.ints.length) ∧
    ∀ o ∈ st.heap.pubs, (∀ a, o.X = some a → a < st.heap.ints.length) ∧ ∀ a, o.Y = some a → a < st.heap.ints.length :=
  have h := hr.sound hL hE hV hC
  ⟨h.privs, h.pubs, h.log, h.objs.privs, h.objs.pubs⟩

/-- C135. No call of the program crashes, but that `GeneratePrivateKey` panics when the random bytes hold no key. -/
theorem C135_no_crash (r : Request) (ht : Typed st ps qs r) :
    (∃ vs st', r.EndsFixed H E.toM st (.ok vs st')) ∨
    ∃ network st', r = .generatePrivateKey network ∧ (¬ ∃ body rest, FirstKey st.rd body rest) ∧
      r.EndsFixed H E.toM st (.panic (.explicit .randRead) st') := by
  obtain ⟨o, he, ⟨vs, st', rfl, -⟩ | ⟨network, st', h1, h2, rfl, -⟩⟩ := (hr.sound hL hE hV hC).step hE hV hC r ht
  · exact .inl ⟨vs, st', he⟩
  · exact .inr ⟨network, st', h1, h2, he⟩

section
variable {ι : Type} (R : ι → Routine) (rd : ι → Reader) (hf : ∀ i, Fits st.heap.nets.length ps.length qs.length (R i))

section
variable [DecidableEq ι] {fuel : ι → Nat} {t : List (ι × Access)} {m : Machine ι (Ended (List Value))}
  (hrun : Machine.Run (launch H E st ps qs R rd fuel) t m)
include hrun

/-- C135. No data races: if two goroutines access the same place, neither of them writes. -/
theorem C135_no_races (i j : ι) (hij : i ≠ j) (x y : Access) (hx : (i, x) ∈ t) (hy : (j, y) ∈ t) (hl : x.loc = y.loc) :
    x.write = false ∧ y.write = false :=
  have h := hr.sound hL hE hV hC
  local_no_races ⟨h.objs, h.curve⟩ (launch_local hL h) hrun i j hij x y hx hy hl

/-- C135. At no time is anything changed that existed when the goroutines were started. -/
theorem C135_unchanged : Unchanged st.heap m.heap :=
  have h := hr.sound hL hE hV hC
  local_unchanged ⟨h.objs, h.curve⟩ (launch_local hL h) hrun

include hf

/-- C135. What a goroutine has returned when it ended is what it returns alone; the keys are in order in the memory that all
share; it logged nothing. This does not depend on the fuel. -/
theorem C135_returned (i : ι) (vs : List Value) (s : Rest) (hi : m.prog i = .ret (.ok (.done vs s))) :
    (∃ us st', EndsAlone H E.toM { st with rd := rd i } ps qs (R i) (.ok us st') ∧ SameValues st'.heap m.heap us vs ∧ s.rd = st'.rd) ∧
    s.log = [] ∧ (∀ p ∈ returnedPrivs vs, HeldKey H.sha256 { st with heap := m.heap } p) ∧
    ∀ q ∈ returnedPubs vs, HeldPub { st with heap := m.heap } q :=
  launch_keys hL (hr.sound hL hE hV hC) hrun hE hV hC hf i vs s hi st.log

end

include hf

/-- C135. Every goroutine ends alone, in values or in the panic for want of random bytes. -/
theorem C135_ends_alone (i : ι) : (∃ us st', EndsAlone H E.toM { st with rd := rd i } ps qs (R i) (.ok us st')) ∨
    ∃ st', EndsAlone H E.toM { st with rd := rd i } ps qs (R i) (.panic (.explicit .randRead) st') := by
  obtain ⟨o, h1, ⟨us, st', rfl, -⟩ | ⟨st', rfl⟩⟩ := routine_alone hE hV hC (R i) { st with rd := rd i } ps qs
    ((hr.sound hL hE hV hC).kept (rd := rd i) (.refl _)) (hf i)
  · exact .inl ⟨us, st', h1⟩
  · exact .inr ⟨st', h1⟩

/-- C135. With fuel enough, a goroutine that ends has returned, or it panicked for want of random bytes, as it does alone: none
is stuck, and none panics because of the others. -/
theorem C135_ends [DecidableEq ι] : ∃ n : ι → Nat, ∀ fuel : ι → Nat, (∀ i, n i ≤ fuel i) →
    ∀ (t : List (ι × Access)) (m : Machine ι (Ended (List Value))), Machine.Run (launch H E st ps qs R rd fuel) t m →
    ∀ i y, m.prog i = .ret y → (∃ vs s, y = .ok (.done vs s)) ∨ y = .panic (.explicit .randRead) ∧
      ∃ st', EndsAlone H E.toM { st with rd := rd i } ps qs (R i) (.panic (.explicit .randRead) st') := by
  have h := hr.sound hL hE hV hC
  choose o ho hfine using fun i => routine_alone hE hV hC (R i) { st with rd := rd i } ps qs (h.kept (rd := rd i) (.refl _)) (hf i)
  choose n hn using ho
  refine ⟨n, fun fuel hle t m hrun i y hi => ?_⟩
  have e := hn i (fuel i) (hle i)
  rcases launch_other hL h hrun i y hi with h1 | ⟨rfl, h1⟩ | ⟨p, st', rfl, h1⟩
  · exact .inl h1
  · rw [e] at h1
    rcases hfine i with ⟨_, _, h2, -⟩ | ⟨_, h2⟩ <;> rw [h1] at h2 <;> cases h2
  · rw [e] at h1
    rcases hfine i with ⟨_, _, h2, -⟩ | ⟨st2, h2⟩
    · rw [h1] at h2
      cases h2
    · rw [h1] at h2
      cases h2
      exact .inr ⟨rfl, st', n i, fun k hk => (hn i k hk).trans h1⟩

end
end

/-! ## Cases -/

namespace Samples

/-- Go on if a private key was returned. -/
def ifKey (R : Routine) (vs : List Value) : Routine := if returnedPrivs vs = [] then .stop else R

/-- Go on if a public key was returned. -/
def ifPub (R : Routine) (vs : List Value) : Routine := if returnedPubs vs = [] then .stop else R

/-- The first imports a key, reads its WIF, and if that begins with a 5 imports another and adds the two. The second generates a key and writes out its public
key. The third tries a text that is no key, and generates one if that fails. -/
def crew : Fin 3 → Routine
  | 0 => .call (.privateFromHex (hexEncode (smallBody 1)) (some 0)) (ifKey (.look 0 true fun w =>
      if w.head? = some 53 then .call (.privateFromHex (hexEncode (smallBody 2)) (some 0)) (ifKey
        (.call (.addPrivateKeys (some 0) (some 1)) fun _ => .stop)) else .stop))
  | 1 => .call (.generatePrivateKey (some 0)) (ifKey (.call (.getPublicKey (some 0)) (ifPub (.call (.format (some 0) true) fun _ => .stop))))
  | 2 => .call (.privateFromHex (asc "no key") (some 1)) fun vs => if returnedPrivs vs = [] then
      .call (.generatePrivateKey (some 1)) fun _ => .stop else .stop

/-- Their random sources. -/
def crewReaders : Fin 3 → Reader
  | 1 => smallBody 7
  | 2 => smallBody 9
  | _ => []

theorem length_pos_of {α : Type} {l : List α} (h : ¬l = []) (n : Nat) : n < n + l.length := by
  have := List.length_pos_iff.2 h
  omega

theorem crew_fits (i : Fin 3) : Fits 2 0 0 (crew i) := by
  have h2 : ∀ a, (some 0 : Ptr) = some a → a < 2 := by intro a h; cases h; omega
  have h3 : ∀ a, (some 1 : Ptr) = some a → a < 2 := by intro a h; cases h; omega
  fin_cases i
  · refine ⟨h2, fun vs => ?_⟩
    simp only [ifKey]
    split
    · trivial
    · rename_i h
      refine ⟨length_pos_of h 0, fun w => ?_⟩
      beta_reduce
      split
      case isFalse => trivial
      refine ⟨h2, fun us => ?_⟩
      simp only [ifKey]
      split
      · trivial
      · rename_i h'
        have p1 := List.length_pos_iff.2 h
        have p2 := List.length_pos_iff.2 h'
        exact ⟨⟨⟨0, rfl, by omega⟩, 1, rfl, by omega⟩, fun _ => trivial⟩
  · refine ⟨h2, fun vs => ?_⟩
    simp only [ifKey]
    split
    · trivial
    · rename_i h
      refine ⟨⟨0, rfl, length_pos_of h 0⟩, fun us => ?_⟩
      simp only [ifPub]
      split
      · trivial
      · rename_i h'
        have p2 := List.length_pos_iff.2 h'
        exact ⟨⟨0, rfl, by omega⟩, fun _ => trivial⟩
  · refine ⟨h3, fun vs => ?_⟩
    beta_reduce
    split
    · exact ⟨h3, fun _ => trivial⟩
    · trivial

/-- The three, started after `init`. -/
def crewStart : Machine (Fin 3) (Ended (List Value)) := launch realHashes curveP (ready []) [] [] crew crewReaders fun _ => 120

/-- The run in turns. -/
def crewTurns : Machine (Fin 3) (Ended (List Value)) × List (Fin 3 × Access) :=
  schedule crewStart ((List.replicate 200 [0, 1, 2]).flatten)

theorem crew_run : Machine.Run crewStart crewTurns.2 crewTurns.1 := by
  have h := schedule_run ((List.replicate 200 [0, 1, 2]).flatten) (.nil (m := crewStart))
  rw [List.nil_append] at h
  exact h

/-- The numbers of the keys that a goroutine has returned. -/
def crewKeys (i : Fin 3) : Option (List (Option Int)) :=
  match crewTurns.1.prog i with
  | .ret (.ok (.done vs _)) => some ((returnedPrivs vs).map fun p => (privSeen crewTurns.1.heap p).bind (·.Key))
  | _ => none

/-- All three have returned: the first with the keys 1, 2 and 3, the others with the keys they generated; they took turns. -/
theorem crew_ends : (crewTurns.2.take 6).map (·.1) = [0, 1, 2, 0, 1, 2] ∧
    crewKeys 0 = some [some 1, some 2, some 3] ∧ crewKeys 1 = some [some 7] ∧ crewKeys 2 = some [some 9] := by
  decide +kernel

theorem crew_state : ForkRun realHashes curveP [] (ready []) [] [] := .start (nets := []) (C127_init realHashes curveP.toM []).1

theorem curveP_all : curveP.Local ∧ Pkg curveP.toM ∧ curveP.toM.Refines EC.ref ∧ EcdsaContract EC.ref := by
  refine ⟨EcdsaP.ofValue_local _, curveP_pkg, ?_, EC.ref_contract⟩
  rw [EcdsaP.ofValue_toM]
  exact EcdsaM.ofValue_refines _

/-- C135 for this run and for every other of the three: no races, and what they return is what they return alone. -/
example (t : List (Fin 3 × Access)) (m : Machine (Fin 3) (Ended (List Value))) (hrun : Machine.Run crewStart t m) :
    (∀ x y, (0, x) ∈ t → (1, y) ∈ t → x.loc = y.loc → x.write = false ∧ y.write = false) ∧
    ∀ i vs s, m.prog i = .ret (.ok (.done vs s)) → ∃ us st',
      EndsAlone realHashes curveP.toM { ready [] with rd := crewReaders i } [] [] (crew i) (.ok us st') ∧ SameValues st'.heap m.heap us vs := by
  obtain ⟨hL, hE, hV, hC⟩ := curveP_all
  refine ⟨fun x y hx hy hl => C135_no_races realHashes curveP EC.ref hL hE hV hC [] (ready []) [] [] crew_state crew crewReaders hrun
    0 1 (by decide) x y hx hy hl, fun i vs s hi => ?_⟩
  obtain ⟨⟨us, st', h1, h2, -⟩, -⟩ := C135_returned realHashes curveP EC.ref hL hE hV hC [] (ready []) [] [] crew_state crew crewReaders
    crew_fits hrun i vs s hi
  exact ⟨us, st', h1, h2⟩

/-- The run can be continued until all have ended; with fuel enough nobody is stuck. -/
example (t : List (Fin 3 × Access)) (m : Machine (Fin 3) (Ended (List Value))) (hrun : Machine.Run crewStart t m) :
    ∃ t' m', Machine.Run crewStart (t ++ t') m' ∧ ∀ i, ∃ r, m'.prog i = .ret r := C78_completes hrun

theorem crew_vals (i : Fin 3) : ∃ vs s, crewTurns.1.prog i = .ret (.ok (.done vs s)) ∧
    ((returnedPrivs vs).map fun p => (privSeen crewTurns.1.heap p).bind (·.Key)) = (if i = 0 then [some 1, some 2, some 3] else
      if i = 1 then [some 7] else [some 9]) := by
  have key : ∀ l, crewKeys i = some l → ∃ vs s, crewTurns.1.prog i = .ret (.ok (.done vs s)) ∧
      ((returnedPrivs vs).map fun p => (privSeen crewTurns.1.heap p).bind (·.Key)) = l := by
    intro l h
    unfold crewKeys at h
    split at h
    · rename_i vs s e
      exact ⟨vs, s, e, Option.some.inj h⟩
    · cases h
  obtain ⟨-, h0, h1, h2⟩ := crew_ends
  fin_cases i
  · exact key _ h0
  · exact key _ h1
  · exact key _ h2

/-- The program takes the keys of the three goroutines: they are in order, and any two of them can be added without a crash. -/
example : ∃ st ps qs, ForkRun realHashes curveP [] st ps qs ∧
    ps.map (fun p => (privSeen st.heap p).bind (·.Key)) = [some 1, some 2, some 3, some 7, some 9] ∧
    (∀ p ∈ ps, HeldKey realHashes.sha256 st p) ∧
    ∀ p ∈ ps, ∀ q ∈ ps, ∃ vs st', (Request.addPrivateKeys p q).EndsFixed realHashes curveP.toM st (.ok vs st') := by
  obtain ⟨hL, hE, hV, hC⟩ := curveP_all
  choose vs s hv hk using crew_vals
  have hr := crew_state.fork crew crewReaders (fun _ => 120) vs [] crew_fits crew_run (fun i => .inr ⟨s i, hv i⟩) nofun
  refine ⟨_, _, _, hr, ?_, (C135_in_order _ _ _ hL hE hV hC _ _ _ _ hr).1, fun p hp q hq => ?_⟩
  · have h0 := hk 0
    have h1 := hk 1
    have h2 := hk 2
    simp only [List.nil_append, List.map_flatMap]
    show (([0, 1, 2] : List (Fin 3)).flatMap _) = _
    simp only [List.flatMap_cons, List.flatMap_nil, h0, h1, h2]
    rfl
  · exact (C135_no_crash _ _ _ hL hE hV hC _ _ _ _ hr (.addPrivateKeys p q) ⟨hp, hq⟩).resolve_right (by rintro ⟨_, _, h, -⟩; cases h)

end Samples

end Btc
