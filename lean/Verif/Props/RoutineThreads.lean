import Verif.Props.RepairThreads
import Verif.Props.Local

/-!
# C136: goroutines that run programs of their own with the repository's text

C121 is about goroutines that each make one call. Here, as in C135, each goroutine runs a program of its own, that makes calls of
the repository's text, reads texts of keys and decides from what it has seen what to do next; it may use nil, too. Goroutines may
be started again and again, and in between the program makes calls and builds keys. What it can reach in this way it can reach
without goroutines.
-/

set_option linter.constructorNameAsVariable false

namespace Btc

open Mem Source Spec Threads

/-- Goroutines that use the repository's text, started in the state `st`, each with the keys `ps` and `qs` and a random source of
its own. -/
def launchText {ι : Type} (H : Hashes) (E : EcdsaP) (st : State) (ps qs : List Ptr) (R : ι → Routine) (rd : ι → Reader)
    (fuel : ι → Nat) : Machine ι (Ended (List Value)) :=
  ⟨st.heap, fun i => (R i).tree H program (fuel i) E ps qs (privateOf { st with rd := rd i })⟩

namespace Spec

/-- Specification: each of the keys is nil or exists. -/
def InMemory (h : Heap) (ps qs : List Ptr) : Prop :=
  (∀ p ∈ ps, ∀ a, p = some a → a < h.privs.length) ∧ ∀ q ∈ qs, ∀ a, q = some a → a < h.pubs.length

/-- Specification: the goroutine, run alone with the repository's text and fuel enough, ends in `o`. -/
def EndsByText (H : Hashes) (E : EcdsaM) (st : State) (ps qs : List Ptr) (R : Routine) (o : Out (List Value)) : Prop :=
  o ≠ .stuck ∧ ∃ n, ∀ m, n ≤ m → R.run H program m E ps qs st = o

end Spec

/-- What a program that starts goroutines can reach with the repository's text. As in `Session` it makes calls and builds numbers
and keys; it may exchange the random source. `fork` starts any number of goroutines with keys that are nil or exist; they run
interleaved in any way. Afterwards the log is any log, and the random source any source. Simplification: goroutines that have not
ended when the program goes on make no more steps. -/
inductive ForkSession (H : Hashes) (E : EcdsaP) (nets : List Network) : State → Prop
  | start {rd : Reader} {st : State} : Ends H E.toM program 0 (id! "init") [] (before program rd) (.ok [] st) →
      ForkSession H E nets { st with heap := { st.heap with nets := st.heap.nets ++ nets } }
  | call {st st' : State} {o : Out (List Value)} (r : Request) : ForkSession H E nets st → r.Ends H E.toM st o →
      o.state? = some st' → ForkSession H E nets st'
  | int {st : State} (v : Int) : ForkSession H E nets st →
      ForkSession H E nets { st with heap := { st.heap with ints := st.heap.ints ++ [v] } }
  | priv {st : State} (o : PrivObj) : ForkSession H E nets st → ValidInt st.heap o.Key →
      ForkSession H E nets { st with heap := { st.heap with privs := st.heap.privs ++ [o] } }
  | pub {st : State} (o : PubObj) : ForkSession H E nets st → ValidInt st.heap o.X → ValidInt st.heap o.Y →
      ForkSession H E nets { st with heap := { st.heap with pubs := st.heap.pubs ++ [o] } }
  | fork {st : State} {ps qs : List Ptr} {k : Nat} (R : Fin k → Routine) (rd : Fin k → Reader) (fuel : Fin k → Nat)
      {t : List (Fin k × Access)} {m : Machine (Fin k) (Ended (List Value))} (log : Log) (rd' : Reader) :
      ForkSession H E nets st → InMemory st.heap ps qs → Machine.Run (launchText H E st ps qs R rd fuel) t m →
      ForkSession H E nets { st with heap := m.heap, log := log, rd := rd' }

section Lemmas
variable {H : Hashes} {E : EcdsaP}

theorem held_of {n : Nat} {ps : List Ptr} (h : ∀ p ∈ ps, ∀ a, p = some a → a < n) : Btc.Held (List.range n) ps ps := by
  induction ps with
  | nil => exact .nil
  | cons p ps ih =>
    refine .cons ?_ (ih fun q hq => h q (.tail _ hq))
    cases p with
    | none => trivial
    | some a => simp [At, h _ (.head _) a rfl]

theorem source_varsOk {nets : List Network} {st : State} (h : Source.Sound nets st) : VarsOk packageNames st.vars := by
  rw [h.vars]
  intro q hq
  simp only [List.mem_cons, List.not_mem_nil, or_false] at hq
  rcases hq with rfl | rfl
  · exact ⟨by decide, _, rfl⟩
  · exact ⟨by decide, _, rfl⟩

theorem source_closed {nets : List Network} {st : State} (h : Source.Sound nets st) : Closed st.heap := ⟨h.objs, h.curve⟩

/-- Every goroutine ends alone, whatever it does and whatever keys it uses. -/
theorem routine_ends {E : EcdsaM} (hE : Pkg E) : ∀ (R : Routine) (st : State) (ps qs : List Ptr), ∃ o, EndsByText H E st ps qs R o
  | .stop, st, ps, qs => ⟨.ok [] st, nofun, 0, fun _ _ => rfl⟩
  | .call r k, st, ps, qs => by
    obtain ⟨o, he, hg⟩ := (r.on ps qs).ends (H := H) hE st
    obtain ⟨-, n, hn⟩ := he
    rw [(on_name r ps qs).1, (on_name r ps qs).2] at hn
    cases o with
    | ok vs st1 =>
      obtain ⟨o, h1, n1, hn1⟩ := routine_ends hE (k (vs.map mask)) st1 (ps ++ returnedPrivs vs) (qs ++ returnedPubs vs)
      refine ⟨o.andThen fun ws s => .ok (vs ++ ws) s, ?_, max n n1, fun m hm => ?_⟩
      · cases o <;> first | exact absurd rfl h1 | nofun
      · show (runFunc H E program m r.recv r.name (r.on ps qs).args st).andThen _ = _
        rw [hn m (le_trans (le_max_left _ _) hm)]
        show ((k (vs.map mask)).run H program m E (ps ++ returnedPrivs vs) (qs ++ returnedPubs vs) st1).andThen _ = _
        rw [hn1 m (le_trans (le_max_right _ _) hm)]
        rfl
    | panic p st1 =>
      refine ⟨.panic p st1, nofun, n, fun m hm => ?_⟩
      show (runFunc H E program m r.recv r.name (r.on ps qs).args st).andThen _ = _
      rw [hn m hm]
      rfl
    | stuck => exact absurd rfl hg.ne_stuck
  | .look p wif k, st, ps, qs => by
    have e2 : ∀ m, (Routine.look p wif k).run H program m E ps qs =
        (field (.priv (pick ps (some p))) (lookField wif) >>= asText) >>= fun s => (k s).run H program m E ps qs := by
      intro m
      funext st
      show (field (.priv (pick ps (some p))) (lookField wif) st).andThen _ =
        Out.andThen ((field (.priv (pick ps (some p))) (lookField wif) st).andThen asText) _
      cases field (.priv (pick ps (some p))) (lookField wif) st <;> rfl
    cases ho : loadPriv st.heap (pick ps (some p)) with
    | none =>
      refine ⟨.panic .nilDeref st, nofun, 0, fun m _ => ?_⟩
      have e : (onHeap (readPriv (pick ps (some p))) : M PrivObj) st = .panic .nilDeref st := by
        unfold onHeap
        rw [readPriv_none ho]
      have e1 : field (.priv (pick ps (some p))) (lookField wif) st = .panic .nilDeref st := by
        show ((onHeap (readPriv (pick ps (some p))) : M PrivObj) st).andThen _ = _
        rw [e]
        rfl
      show (field (.priv (pick ps (some p))) (lookField wif) st).andThen _ = _
      rw [e1]
      rfl
    | some ob =>
      obtain ⟨o, h1, n, hn⟩ := routine_ends hE (k (if wif then ob.WIF else ob.Hex)) st ps qs
      refine ⟨o, h1, n, fun m hm => ?_⟩
      rw [← hn m hm, e2]
      show Out.andThen ((field (.priv (pick ps (some p))) (lookField wif) >>= asText) st) _ = _
      rw [look_text ho wif]
      rfl

theorem Spec.EndsByText.unique {E : EcdsaM} {st : State} {ps qs : List Ptr} {R : Routine} {o o' : Out (List Value)}
    (h : EndsByText H E st ps qs R o) (h' : EndsByText H E st ps qs R o') : o = o' := by
  obtain ⟨-, n, hn⟩ := h
  obtain ⟨-, n', hn'⟩ := h'
  rw [← hn (max n n') (le_max_left _ _), ← hn' (max n n') (le_max_right _ _)]

variable (hL : E.Local) {nets : List Network} {st : State} (hs : Source.Sound nets st) {ps qs : List Ptr} (hk : InMemory st.heap ps qs)
  {ι : Type} {R : ι → Routine} {rd : ι → Reader} {fuel : ι → Nat}
include hL hs hk

theorem launchText_local (i : ι) :
    ((launchText H E st ps qs R rd fuel).prog i).IsLocal st.heap (EndRel st.vars fun s => Vals st.heap s) :=
  routine_rel hL C121_text (source_varsOk hs) (R i) (Ren.ofHeap st.heap) ps ps qs qs (held_of hk.1) (held_of hk.2)
    (ofHeap_has _) (privateOf { st with rd := rd i }) rfl

variable [DecidableEq ι] {t : List (ι × Access)} {m : Machine ι (Ended (List Value))}
  (hrun : Machine.Run (launchText H E st ps qs R rd fuel) t m)
include hrun

theorem launchText_sound (log : Log) (rd' : Reader) : Source.Sound nets { st with heap := m.heap, log := log, rd := rd' } :=
  ⟨hs.grow.trans (local_grow (source_closed hs) (launchText_local hL hs hk) hrun),
    local_objs (source_closed hs) (launchText_local hL hs hk) hrun, hs.vars⟩

/-- A goroutine that has ended has ended as it does alone with the same fuel; the keys it returns exist. -/
theorem launchText_ended (i : ι) (y : Res (Ended (List Value))) (hi : m.prog i = .ret y) :
    SameEnd m.heap y ((R i).run H program (fuel i) E.toM ps qs { st with rd := rd i }) ∧
    ∀ vs s, y = .ok (.done vs s) → InMemory m.heap (returnedPrivs vs) (returnedPubs vs) := by
  obtain ⟨x, r, h, e, hh, hx⟩ := local_solo (source_closed hs) (launchText_local hL hs hk) hrun i y hi
  have ha := agree_routine (H := H) (ds := program) (n := fuel i) E (R i) ps qs (privateOf { st with rd := rd i }) st.heap
  have e' : ((R i).tree H program (fuel i) E ps qs (privateOf { st with rd := rd i })).run st.heap = (x, h) := e
  rw [e'] at ha
  rcases x with (⟨us, s⟩ | _ | _) | _ | p <;> rcases y with (⟨vs, s'⟩ | _ | _) | _ | q <;> simp only [ResRel, EndRel] at hx <;>
    simp only at ha
  · obtain ⟨hvs, rfl, -⟩ := hx
    have e3 : (R i).run H program (fuel i) E.toM ps qs { st with rd := rd i } = _ := ha.1
    rw [e3]
    refine ⟨⟨List.Forall₂.imp (fun _ _ => alike_of hh) hvs, rfl, rfl⟩, ?_⟩
    rintro _ _ ⟨⟩
    refine ⟨fun q hq => ?_, fun q hq => ?_⟩
    · obtain ⟨p, -, hp⟩ := held_mem (vals_privs hvs) hq
      exact hp.below fun x hx => hh.privs.lt hx
    · obtain ⟨p, -, hp⟩ := held_mem (vals_pubs hvs) hq
      exact hp.below fun x hx => hh.pubs.lt hx
  · have e3 : (R i).run H program (fuel i) E.toM ps qs { st with rd := rd i } = _ := ha
    rw [e3]
    exact ⟨trivial, nofun⟩
  · obtain ⟨s, hs, -⟩ := ha
    have e3 : (R i).run H program (fuel i) E.toM ps qs { st with rd := rd i } = _ := hs
    rw [e3]
    exact ⟨hx.symm, nofun⟩

end Lemmas

theorem ForkSession.sound {H : Hashes} {E : EcdsaP} (hL : E.Local) (hE : Pkg E.toM) {nets : List Network} {st : State}
    (h : ForkSession H E nets st) : Source.Sound nets st := by
  induction h with
  | start h => exact Session.sound hE (.start h)
  | call r _ h hs ih =>
    have := r.step hE h hs
    exact ⟨ih.grow.trans this.grow, this.objs ih.objs, this.vars.trans ih.vars⟩
  | int v _ ih => exact ⟨ih.grow.trans (grow_ints _ [v]), ih.objs.ints (by simp), ih.vars⟩
  | priv o _ hv ih =>
    exact ⟨⟨ih.grow.ints, ih.grow.nets, prefix_append ih.grow.privs o, ih.grow.pubs, ih.grow.curve⟩, Objs.priv_alloc ih.objs hv, ih.vars⟩
  | pub o _ hx hy ih =>
    exact ⟨⟨ih.grow.ints, ih.grow.nets, ih.grow.privs, prefix_append ih.grow.pubs o, ih.grow.curve⟩, Objs.pub_alloc ih.objs hx hy, ih.vars⟩
  | fork R rd fuel log rd' _ hk hrun ih => exact launchText_sound hL ih hk hrun log rd'

section Sessions
variable {H : Hashes} {E : EcdsaM} {nets : List Network}

theorem session_ints : ∀ (l : List Int) {st : State}, Session H E nets st →
    Session H E nets { st with heap := { st.heap with ints := st.heap.ints ++ l } }
  | [], st, h => by simpa using h
  | v :: l, st, h => by simpa [List.append_assoc] using session_ints l (h.int v)

theorem session_privs : ∀ (l : List PrivObj) {st : State}, Session H E nets st → (∀ o ∈ l, ValidInt st.heap o.Key) →
    Session H E nets { st with heap := { st.heap with privs := st.heap.privs ++ l } }
  | [], st, h, _ => by simpa using h
  | o :: l, st, h, hv => by
    have := session_privs l (h.priv o (hv o (.head _))) fun o ho => hv o (.tail _ ho)
    simpa [List.append_assoc] using this

theorem session_pubs : ∀ (l : List PubObj) {st : State}, Session H E nets st →
    (∀ o ∈ l, ValidInt st.heap o.X ∧ ValidInt st.heap o.Y) →
    Session H E nets { st with heap := { st.heap with pubs := st.heap.pubs ++ l } }
  | [], st, h, _ => by simpa using h
  | o :: l, st, h, hv => by
    have := session_pubs l (h.pub o (hv o (.head _)).1 (hv o (.head _)).2) fun o ho => hv o (.tail _ ho)
    simpa [List.append_assoc] using this

/-- A memory without dangling pointers, that extends the first one, can be built by a program. -/
theorem Source.Sound.session {st : State} (h : Source.Sound nets st) : Session H E nets { st with log := [], hashes := [] } := by
  obtain ⟨⟨hp, hs, rd, log, vars⟩, hh⟩ : ∃ s : State, s = st := ⟨st, rfl⟩
  subst hh
  obtain ⟨hg, ho, hv⟩ := h
  obtain ⟨ints, hn, privs, pubs, hc⟩ := hg
  obtain ⟨l, hl⟩ := ints
  have h0 : Session H E nets _ := .start (ends_init (H := H) (E := E) rd)
  have h1 := session_ints l h0
  have h2 := session_privs hp.privs h1 (fun o hoo => by
    have := ho.privs o hoo
    intro a ha
    have := this a ha
    simp only at hl ⊢
    rw [← hl] at this
    exact this)
  have h3 := session_pubs hp.pubs h2 (fun o hoo => by
    have := ho.pubs o hoo
    refine ⟨fun a ha => ?_, fun a ha => ?_⟩
    · have := this.1 a ha
      simp only at hl ⊢
      rw [← hl] at this
      exact this
    · have := this.2 a ha
      simp only at hl ⊢
      rw [← hl] at this
      exact this)
  cases hp
  simp only at hl hn hc hv
  subst hn hc hv
  rw [← hl]
  exact h3

end Sessions

section
variable (H : Hashes) (E : EcdsaP) (V : Ecdsa) (hL : E.Local) (hE : Pkg E.toM)
  (nets : List Network) (st : State) (hr : ForkSession H E nets st)

section
include hL hE hr

/-- C136. What a program with goroutines can reach, it can reach without goroutines: there is a session without goroutines after
which the memory and the random source are the same. -/
theorem C136_as_session : Session H E.toM nets { st with log := [], hashes := [] } := (hr.sound hL hE).session

/-- C136. No goroutine ever changes the networks or the curve, and no pointer dangles. -/
theorem C136_intact : Unchanged (initHeap (MainNetwork :: TestNetwork :: nets)) st.heap ∧
    st.heap.nets = MainNetwork :: TestNetwork :: nets ∧
    (∀ o ∈ st.heap.privs, ∀ a, o.Key = some a → a < st.heap.ints.length) ∧
    ∀ o ∈ st.heap.pubs, (∀ a, o.X = some a → a < st.heap.ints.length) ∧ ∀ a, o.Y = some a → a < st.heap.ints.length := by
  have h := hr.sound hL hE
  exact ⟨h.grow.unchanged, h.grow.nets.symm, h.objs.privs, h.objs.pubs⟩

/-- C136. So every call made after goroutines have run shows what it shows in a session without goroutines. -/
theorem C136_calls (hV : E.toM.Refines V) (r : Request) : ∃ st' o o', Session H E.toM nets st' ∧ st'.heap = st.heap ∧ st'.rd = st.rd ∧
    r.Ends H E.toM st o ∧ r.Ends H E.toM st' o' ∧ ShowSame st st' o o' := by
  have h := hr.sound hL hE
  have h1 := C136_as_session H E hL hE nets st hr
  obtain ⟨o, e1, e2⟩ := shows_answer hE hV h.intact r
  obtain ⟨o', e3, e4⟩ := shows_answer hE hV (h1.intact hE) r
  exact ⟨_, o, o', h1, rfl, rfl, e1, e3, showSame_of_shows e2 e4 rfl rfl⟩

end

variable (ps qs : List Ptr) (hk : InMemory st.heap ps qs) {ι : Type} (R : ι → Routine) (rd : ι → Reader)

section
include hL hE hr hk
variable [DecidableEq ι] {fuel : ι → Nat} {t : List (ι × Access)} {m : Machine ι (Ended (List Value))}
  (hrun : Machine.Run (launchText H E st ps qs R rd fuel) t m)
include hrun

/-- C136. No data races: if two goroutines access the same place, neither of them writes. -/
theorem C136_no_races (i j : ι) (hij : i ≠ j) (x y : Access) (hx : (i, x) ∈ t) (hy : (j, y) ∈ t) (hl : x.loc = y.loc) :
    x.write = false ∧ y.write = false :=
  have h := hr.sound hL hE
  local_no_races (source_closed h) (launchText_local hL h hk) hrun i j hij x y hx hy hl

/-- C136. At no time is anything changed that existed when the goroutines were started. -/
theorem C136_unchanged : Unchanged st.heap m.heap :=
  have h := hr.sound hL hE
  local_unchanged (source_closed h) (launchText_local hL h hk) hrun

/-- C136. What a goroutine has returned when it ended is what it returns alone, with any fuel; the keys it returns exist. -/
theorem C136_returned (i : ι) (vs : List Value) (s : Rest) (hi : m.prog i = .ret (.ok (.done vs s))) :
    (∃ us st', EndsByText H E.toM { st with rd := rd i } ps qs (R i) (.ok us st') ∧ List.Forall₂ (Alike st'.heap m.heap) us vs ∧
      s.log = st'.log ∧ s.rd = st'.rd) ∧ InMemory m.heap (returnedPrivs vs) (returnedPubs vs) := by
  have h := hr.sound hL hE
  obtain ⟨h1, h2⟩ := launchText_ended hL h hk hrun i _ hi
  refine ⟨?_, h2 vs s rfl⟩
  obtain ⟨o, h3, n, hn⟩ := routine_ends (H := H) hE (R i) { st with rd := rd i } ps qs
  rcases e : (R i).run H program (fuel i) E.toM ps qs { st with rd := rd i } with ⟨us, st'⟩ | _ | _
  · rw [e] at h1
    obtain rfl : o = .ok us st' := by
      rcases routine_le (H := H) E.toM program (le_max_left (fuel i) n) (R i) ps qs { st with rd := rd i } with h | h
      · rw [e] at h
        cases h
      · rw [← hn _ (le_max_right (fuel i) n), ← h, e]
    exact ⟨us, st', ⟨h3, n, hn⟩, h1⟩
  · rw [e] at h1
    exact h1.elim
  · rw [e] at h1
    exact h1.elim

end

include hE in
/-- C136. Every goroutine ends alone, in one way only, whatever it does. -/
theorem C136_ends_alone (i : ι) : ∃! o, EndsByText H E.toM { st with rd := rd i } ps qs (R i) o := by
  obtain ⟨o, h⟩ := routine_ends (H := H) hE (R i) { st with rd := rd i } ps qs
  exact ⟨o, h, fun _ h' => Spec.EndsByText.unique h' h⟩

include hL hE hr hk in
/-- C136. With fuel enough, every goroutine that ends does so as it does alone: with the same values, lines of the log and rest of
the random source, or with the same panic. -/
theorem C136_ends [DecidableEq ι] : ∃ n : ι → Nat, ∀ fuel : ι → Nat, (∀ i, n i ≤ fuel i) →
    ∀ (t : List (ι × Access)) (m : Machine ι (Ended (List Value))), Machine.Run (launchText H E st ps qs R rd fuel) t m →
    ∀ i y, m.prog i = .ret y → ∃ o, EndsByText H E.toM { st with rd := rd i } ps qs (R i) o ∧ SameEnd m.heap y o := by
  have h := hr.sound hL hE
  choose o ho using fun i => routine_ends (H := H) hE (R i) { st with rd := rd i } ps qs
  choose n hn using fun i => (ho i).2
  refine ⟨n, fun fuel hle t m hrun i y hi => ⟨o i, ho i, ?_⟩⟩
  have h1 := (launchText_ended hL h hk hrun i _ hi).1
  rwa [hn i (fuel i) (hle i)] at h1

end

/-! ## Cases -/

namespace Samples

/-- The first imports two keys and adds them if the WIF of the first begins with a 5, the second generates a key and writes out its public
key, the third passes a nil key. -/
def gang : Fin 3 → Routine
  | 0 => .call (.privateFromHex (hexEncode (List.replicate 32 17)) (some 0)) fun _ => .look 0 true fun w =>
      if w.head? = some 53 then .call (.privateFromHex (hexEncode (List.replicate 32 34)) (some 0)) fun _ =>
        .call (.addPrivateKeys (some 0) (some 1)) fun _ => .stop else .stop
  | 1 => .call (.generatePrivateKey (some 1)) fun _ => .call (.getPublicKey (some 0)) fun _ => .call (.format (some 0) true) fun _ => .stop
  | 2 => .call (.privateFromHex (asc "no key") (some 1)) fun _ => .call (.getPublicKey (some 0)) fun _ => .stop

/-- Their random sources. -/
def gangReaders : Fin 3 → Reader
  | 1 => List.replicate 32 85
  | _ => []

/-- The three, started after `init`. -/
def gangStart : Machine (Fin 3) (Ended (List Value)) := launchText realHashes curveP (ready []) [] [] gang gangReaders fun _ => 80

/-- The run in turns. -/
def gangTurns : Machine (Fin 3) (Ended (List Value)) × List (Fin 3 × Access) :=
  schedule gangStart ((List.replicate 200 [0, 1, 2]).flatten)

theorem gang_run : Machine.Run gangStart gangTurns.2 gangTurns.1 := by
  have h := schedule_run ((List.replicate 200 [0, 1, 2]).flatten) (.nil (m := gangStart))
  rw [List.nil_append] at h
  exact h

/-- The numbers of the keys that a goroutine has returned, or the panic. -/
def gangKeys (i : Fin 3) : Option (List (Option Int)) × Option GoPanic :=
  match gangTurns.1.prog i with
  | .ret (.ok (.done vs _)) => (some ((returnedPrivs vs).map fun p => (privSeen gangTurns.1.heap p).bind (·.Key)), none)
  | .ret (.panic p) => (none, some p)
  | _ => (none, none)

/-- The first two have returned keys, the third has panicked; they took turns. -/
theorem gang_ends : (gangTurns.2.take 6).map (·.1) = [0, 1, 2, 0, 1, 2] ∧
    (gangKeys 0).1 = some [some (bigEndian (List.replicate 32 17) : Int), some (bigEndian (List.replicate 32 34) : Int), some (bigEndian (List.replicate 32 51) : Int)] ∧
    (gangKeys 1).1 = some [some (bigEndian (List.replicate 32 85) : Int)] ∧ (gangKeys 2).2 = some .nilDeref := by
  decide +kernel

theorem gang_state : ForkSession realHashes curveP [] (ready []) := .start (nets := []) (ends_init (H := realHashes) (E := curveP.toM) [])

theorem gang_memory : InMemory (ready []).heap [] [] := ⟨nofun, nofun⟩

/-- C136 for every run of the three: no races, and a goroutine that returns, returns what it returns alone. -/
example (t : List (Fin 3 × Access)) (m : Machine (Fin 3) (Ended (List Value))) (hrun : Machine.Run gangStart t m) :
    (∀ x y, (0, x) ∈ t → (1, y) ∈ t → x.loc = y.loc → x.write = false ∧ y.write = false) ∧
    ∀ i vs s, m.prog i = .ret (.ok (.done vs s)) → ∃ us st',
      EndsByText realHashes curveP.toM { ready [] with rd := gangReaders i } [] [] (gang i) (.ok us st') ∧
        List.Forall₂ (Alike st'.heap m.heap) us vs := by
  obtain ⟨hL, hE, -, -⟩ := curveP_all
  refine ⟨fun x y hx hy hl => C136_no_races realHashes curveP hL hE [] (ready []) gang_state [] [] gang_memory gang gangReaders hrun
    0 1 (by decide) x y hx hy hl, fun i vs s hi => ?_⟩
  obtain ⟨⟨us, st', h1, h2, -⟩, -⟩ := C136_returned realHashes curveP hL hE [] (ready []) gang_state [] [] gang_memory gang gangReaders
    hrun i vs s hi
  exact ⟨us, st', h1, h2⟩

theorem gang_session (t : List (Fin 3 × Access)) (m : Machine (Fin 3) (Ended (List Value))) (hrun : Machine.Run gangStart t m) :
    Session realHashes curveP.toM [] { ready [] with heap := m.heap } := by
  obtain ⟨hL, hE, -, -⟩ := curveP_all
  exact C136_as_session realHashes curveP hL hE [] _ (gang_state.fork gang gangReaders (fun _ => 80) [] [] gang_memory hrun)

/-- The state after the run is one of a session without goroutines, and it holds at least four keys. -/
example : Session realHashes curveP.toM [] { ready [] with heap := gangTurns.1.heap } ∧ 4 ≤ gangTurns.1.heap.privs.length :=
  ⟨gang_session _ _ gang_run, by decide +kernel⟩

end Samples

end Btc
