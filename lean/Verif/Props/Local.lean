import Verif.Props.Careful

/-!
# C114: what a call does depends on nothing but what its arguments show

The functions of the package share one address space: keys hold pointers to numbers and networks, and results of earlier
calls are arguments of later ones. Here it is proved of the text that none of this matters. A `Question` is a call with
every pointer replaced by what it points to. Two calls that ask the same question, in whatever two states of whatever two
programs, get answers that show the same.
-/

namespace Btc

open Mem Source Spec

namespace Spec

/-- Specification: a call of an exported function with its arguments read through every pointer; `none` is a pointer that
points to nothing. -/
inductive Question where
  | checkWIF (wif : GoString)
  | privateFromWIF (wif : GoString) (network : Option Network)
  | privateFromHex (hexa : GoString) (network : Option Network)
  | generatePrivateKey (network : Option Network)
  | addPrivateKeys (a b : Option PrivateKey)
  | multiplyPrivateKeys (a b : Option PrivateKey)
  | publicFromHex (hexa : GoString) (network : Option Network)
  | getPublicKey (k : Option PrivateKey)
  | format (k : Option PublicKey) (compressed : Bool)
  | address (k : Option PublicKey) (compressed : Bool)
  | addPublicKeys (a b : Option PublicKey) (compressed : Bool)
  | newMnemonic (words : Int) (wordlist : Option (List GoString))
  | newSeedFromMnemonic (mnemonic passphrase : GoString) (wordlist : Option (List GoString))
deriving DecidableEq

/-- Specification: what a call asks in the state `st`. -/
def question (st : State) : Request → Question
  | .checkWIF w => .checkWIF w
  | .privateFromWIF w p => .privateFromWIF w (loadNet st.heap p)
  | .privateFromHex h p => .privateFromHex h (loadNet st.heap p)
  | .generatePrivateKey p => .generatePrivateKey (loadNet st.heap p)
  | .addPrivateKeys p q => .addPrivateKeys (privAt st p) (privAt st q)
  | .multiplyPrivateKeys p q => .multiplyPrivateKeys (privAt st p) (privAt st q)
  | .publicFromHex h p => .publicFromHex h (loadNet st.heap p)
  | .getPublicKey p => .getPublicKey (privAt st p)
  | .format p c => .format (pubAt st p) c
  | .address p c => .address (pubAt st p) c
  | .addPublicKeys p q c => .addPublicKeys (pubAt st p) (pubAt st q) c
  | .newMnemonic n wl => .newMnemonic n wl
  | .newSeedFromMnemonic m pa wl => .newSeedFromMnemonic m pa wl

/-- Specification: the calls that read the random source. -/
def Draws : Request → Prop
  | .generatePrivateKey _ => True
  | .newMnemonic _ _ => True
  | _ => False

/-- Specification: a returned value read through every pointer. -/
inductive Seen where
  | priv (k : Option PrivateKey)
  | pub (k : Option PublicKey)
  | plain (v : Value)

/-- Specification: what a returned value shows in the state `st`. -/
def see (st : State) : Value → Seen
  | .priv p => .priv (privAt st p)
  | .pub p => .pub (pubAt st p)
  | v => .plain v

/-- Specification: two outcomes that show the same, each seen from the state in which its call was made: the same
values or the same panic, and the same lines written to the log. -/
def ShowSame (st st' : State) : Out (List Value) → Out (List Value) → Prop
  | .ok vs s, .ok vs' s' => vs.map (see s) = vs'.map (see s') ∧ ∃ l, s.log = st.log ++ l ∧ s'.log = st'.log ++ l
  | .panic p s, .panic p' s' => p = p' ∧ ∃ l, s.log = st.log ++ l ∧ s'.log = st'.log ++ l
  | _, _ => False

/-- Specification: the last value returned is not an error. -/
def NoFailure (vs : List Value) : Prop := ∀ e, vs.getLast? ≠ some (.err (some e))

/-- Specification: the ways a program can go on from a state: calls, and keys and numbers it builds itself. -/
inductive Continues (H : Hashes) (E : EcdsaM) : State → State → Prop
  | refl (st : State) : Continues H E st st
  | call {st s s' : State} {o : Out (List Value)} (r : Request) : Continues H E st s → r.Ends H E s o → o.state? = some s' →
      Continues H E st s'
  | int {st s : State} (v : Int) : Continues H E st s →
      Continues H E st { s with heap := { s.heap with ints := s.heap.ints ++ [v] } }
  | priv {st s : State} (o : PrivObj) : Continues H E st s → ValidInt s.heap o.Key →
      Continues H E st { s with heap := { s.heap with privs := s.heap.privs ++ [o] } }
  | pub {st s : State} (o : PubObj) : Continues H E st s → ValidInt s.heap o.X → ValidInt s.heap o.Y →
      Continues H E st { s with heap := { s.heap with pubs := s.heap.pubs ++ [o] } }

/-- Specification: each key among the arguments is nil or exists already in the state `st`. -/
def Held (st : State) : Request → Prop
  | .addPrivateKeys p q => (p = none ∨ privAt st p ≠ none) ∧ (q = none ∨ privAt st q ≠ none)
  | .multiplyPrivateKeys p q => (p = none ∨ privAt st p ≠ none) ∧ (q = none ∨ privAt st q ≠ none)
  | .getPublicKey p => p = none ∨ privAt st p ≠ none
  | .format p _ => p = none ∨ pubAt st p ≠ none
  | .address p _ => p = none ∨ pubAt st p ≠ none
  | .addPublicKeys p q _ => (p = none ∨ pubAt st p ≠ none) ∧ (q = none ∨ pubAt st q ≠ none)
  | _ => True

end Spec

/-! ## The answer to a question -/

/-- What a call answers: the panic or the values seen, the lines logged and, unless the random source failed, what is left
of it. -/
structure Answer where
  out : Except GoPanic (List Seen)
  log : Log
  rest : Option Reader

/-- The outcome `o` of a call made in `st` shows the answer `a`. -/
def Shows (st : State) (a : Answer) (o : Out (List Value)) : Prop :=
  (match a.out with
    | .ok l => ∃ vs s, o = .ok vs s ∧ vs.map (see s) = l
    | .error p => ∃ s, o = .panic p s) ∧
  (∀ s, o.state? = some s → s.log = st.log ++ a.log ∧ ∀ rd, a.rest = some rd → s.rd = rd)

/-- The values seen of a result of the model. -/
def digest {β : Type} (g : β → List Seen) (b : GoError → List Seen) : Res β → Except GoPanic (List Seen)
  | .ok v => .ok (g v)
  | .err e => .ok (b e)
  | .panic p => .error p

/-- What is left of the random source: nothing is said of a draw that failed. -/
def restOf {β : Type} : Res (β × Reader) → Option Reader
  | .ok v => some v.2
  | _ => none

/-- A private key and an error. -/
def seenPriv (k : PrivateKey) : List Seen := [.priv (some k), .plain (.err none)]

/-- A private key and an error. -/
def seenPrivErr (e : GoError) : List Seen := [.priv none, .plain (.err (some e))]

/-- A public key and an error. -/
def seenPub (k : PublicKey) : List Seen := [.pub (some k), .plain (.err none)]

/-- A public key and an error. -/
def seenPubErr (e : GoError) : List Seen := [.pub none, .plain (.err (some e))]

/-- The values seen of a seed and an error. -/
def seenSeed : Option Bytes → List Seen
  | none => [.plain .nil, .plain (.err none)]
  | some b => [.plain (.bytes b), .plain (.err none)]

attribute [local irreducible] generateRandomBigInt in
/-- The answer to a question, by the model of values. -/
def answer (H : Hashes) (V : Ecdsa) (rd : Reader) : Question → Answer
  | .checkWIF w => ⟨digest (fun b => [.plain (.bool b)]) (fun _ => []) (checkWIF H w), [], some rd⟩
  | .privateFromWIF w net => ⟨digest seenPriv seenPrivErr (privateFromWIF H w net), [], some rd⟩
  | .privateFromHex h net => ⟨digest seenPriv seenPrivErr (privateFromHex H h net), [], some rd⟩
  | .generatePrivateKey net => ⟨digest (fun v => [.priv (some v.1)]) (fun _ => []) (generatePrivateKey H rd net), [],
      restOf (generatePrivateKey H rd net)⟩
  | .addPrivateKeys (some a) (some b) => ⟨digest seenPriv seenPrivErr (addPrivateKeys H a b), [], some rd⟩
  | .addPrivateKeys _ _ => ⟨.error .nilDeref, [], some rd⟩
  | .multiplyPrivateKeys (some a) (some b) => ⟨digest seenPriv seenPrivErr (multiplyPrivateKeys H a b), [], some rd⟩
  | .multiplyPrivateKeys _ _ => ⟨.error .nilDeref, [], some rd⟩
  | .publicFromHex h net => ⟨digest seenPub seenPubErr (publicFromHex V h net), [], some rd⟩
  | .getPublicKey (some k) => ⟨digest (fun v => [.pub v, .plain (.bool v.isSome)]) (fun _ => []) (getPublicKey V k), [], some rd⟩
  | .getPublicKey none => ⟨.error .nilDeref, [], some rd⟩
  | .format (some k) c => ⟨digest (fun s => [.plain (.str s)]) (fun _ => []) (Btc.format k c), [], some rd⟩
  | .format none _ => ⟨.error .nilDeref, [], some rd⟩
  | .address (some k) c => ⟨digest (fun s => [.plain (.str s), .plain (.err none)])
      (fun e => [.plain (.str []), .plain (.err (some e))]) (Btc.address H k c), [], some rd⟩
  | .address none _ => ⟨.error .nilDeref, [], some rd⟩
  | .addPublicKeys (some a) (some b) c => ⟨digest seenPub seenPubErr (addPublicKeys V a b c), [], some rd⟩
  | .addPublicKeys _ _ _ => ⟨.error .nilDeref, [], some rd⟩
  | .newMnemonic n wl => ⟨digest (fun v => [.plain (.str v.1), .plain (.err none)])
      (fun e => [.plain (.str []), .plain (.err (some e))]) (newMnemonic H rd n wl), [], restOf (newMnemonic H rd n wl)⟩
  | .newSeedFromMnemonic m pa wl => ⟨digest seenSeed (fun e => [.plain .nil, .plain (.err (some e))])
      (newSeedFromMnemonic H m pa wl).1, (newSeedFromMnemonic H m pa wl).2, some rd⟩

section
variable {H : Hashes} {E : EcdsaM} {V : Ecdsa} {nets : List Network} {st : State}

theorem shows_quiet {x : Except GoPanic (List Seen)} {o : Out (List Value)} {s : State} (ho : o.state? = some s) (hq : Quiet st s)
    (h : match x with
      | .ok l => ∃ vs s, o = .ok vs s ∧ vs.map (see s) = l
      | .error p => ∃ s, o = .panic p s) : Shows st ⟨x, [], some st.rd⟩ o := by
  refine ⟨h, fun s' hs' => ?_⟩
  rw [ho] at hs'
  cases hs'
  refine ⟨by rw [hq.log]; exact (List.append_nil _).symm, fun rd h => ?_⟩
  cases h
  exact hq.rd

theorem shows_of_returns {α β : Type} {good : α → List Value} {bad : GoError → List Value} {Q : α → β → Heap → Prop} {r : Request}
    {x : Res β} (g : β → List Seen) (b : GoError → List Seen) (h : ∃ o, r.Ends H E st o ∧ Returns st good bad Q x o)
    (hg : ∀ a v s, Q a v (State.heap s) → (good a).map (see s) = g v) (hb : ∀ e s, x = .err e → (bad e).map (see s) = b e) :
    ∃ o, r.Ends H E st o ∧ Shows st ⟨digest g b x, [], some st.rd⟩ o := by
  obtain ⟨o, h1, h2⟩ := h
  refine ⟨o, h1, ?_⟩
  cases x with
  | ok v =>
    obtain ⟨a, s, rfl, h3, h4⟩ := h2
    exact shows_quiet rfl h4 ⟨_, _, rfl, hg a v s h3⟩
  | err e =>
    obtain ⟨s, rfl, h4⟩ := h2
    exact shows_quiet rfl h4 ⟨_, _, rfl, hb e s rfl⟩
  | panic p =>
    obtain ⟨s, rfl, h4⟩ := h2
    exact shows_quiet rfl h4 ⟨_, rfl⟩

theorem shows_nil {r : Request} (h : ∃ st', Quiet st st' ∧ r.Ends H E st (.panic .nilDeref st')) :
    ∃ o, r.Ends H E st o ∧ Shows st ⟨.error .nilDeref, [], some st.rd⟩ o := by
  obtain ⟨s, h1, h2⟩ := h
  exact ⟨_, h2, shows_quiet rfl h1 ⟨_, rfl⟩⟩

theorem privAt_cases (st : State) (p : Ptr) : (loadPriv st.heap p = none ∧ privAt st p = none) ∨
    ∃ o, loadPriv st.heap p = some o ∧ privAt st p = some (privValue st.heap o) := by
  unfold privAt
  cases loadPriv st.heap p with
  | none => exact .inl ⟨rfl, rfl⟩
  | some o => exact .inr ⟨o, rfl, rfl⟩

theorem pubAt_cases (st : State) (p : Ptr) : (loadPub st.heap p = none ∧ pubAt st p = none) ∨
    ∃ o, loadPub st.heap p = some o ∧ pubAt st p = some (pubValue st.heap o) := by
  unfold pubAt
  cases loadPub st.heap p with
  | none => exact .inl ⟨rfl, rfl⟩
  | some o => exact .inr ⟨o, rfl, rfl⟩

theorem see_priv {net a : Ptr} {v : PrivateKey} {s : State} (h : NewPriv st.heap net a v s.heap) :
    (privResult a).map (see s) = seenPriv v := by
  simp [privResult, seenPriv, see, new_priv (st := st) h]

theorem see_pub {net a : Ptr} {v : PublicKey} {s : State} (h : NewPub st.heap net a v s.heap) :
    (pubResult a).map (see s) = seenPub v := by
  simp [pubResult, seenPub, see, new_pub (st := st) h]

theorem see_privErr (e : GoError) (s : State) : (privError e).map (see s) = seenPrivErr e := rfl

theorem see_pubErr (e : GoError) (s : State) : (pubError e).map (see s) = seenPubErr e := rfl

attribute [local irreducible] generateRandomBigInt in
/-- Every call ends showing the answer to what it asks. -/
theorem shows_answer (hE : Pkg E) (hV : E.Refines V) (hd : Intact st) (r : Request) :
    ∃ o, r.Ends H E st o ∧ Shows st (answer H V st.rd (question st r)) o := by
  cases r with
  | checkWIF w =>
    exact shows_of_returns _ _ (C108_checkWIF H E hE st w) (fun a v s h => by rw [h]; rfl)
      (fun e s _ => rfl)
  | privateFromWIF w net =>
    exact shows_of_returns _ _ (C108_privateFromWIF H E hE st w net) (fun a v s h => see_priv h) (fun e s _ => rfl)
  | privateFromHex h net =>
    exact shows_of_returns _ _ (C108_privateFromHex H E hE st h net) (fun a v s h => see_priv h) (fun e s _ => rfl)
  | generatePrivateKey net =>
    obtain ⟨o, h1, h2⟩ := C108_generatePrivateKey H E hE st net
    refine ⟨o, h1, ?_⟩
    show Shows st ⟨digest _ _ (generatePrivateKey H st.rd (loadNet st.heap net)), [], _⟩ o
    rcases hg : generatePrivateKey H st.rd (loadNet st.heap net) with ⟨v, rd⟩ | e | p <;> rw [hg] at h2
    · obtain ⟨a, s, rfl, h3, h4⟩ := h2
      refine ⟨⟨_, _, rfl, by simp [see, new_priv (st := st) h3]⟩, ?_⟩
      intro s' hs'
      cases hs'
      refine ⟨h4.log.trans (List.append_nil _).symm, ?_⟩
      intro rd' h
      cases h
      exact h4.rd
    · exact h2.elim
    · obtain ⟨s, rfl, h4⟩ := h2
      refine ⟨⟨_, rfl⟩, ?_⟩
      intro s' hs'
      cases hs'
      refine ⟨h4.log.trans (List.append_nil _).symm, ?_⟩
      intro rd' h
      cases h
  | addPrivateKeys p q =>
    rcases privAt_cases st p with ⟨h1, e1⟩ | ⟨o1, h1, e1⟩
    · rw [question, e1]
      exact shows_nil ((C108_nil H E st hE p q true).1 (.inl h1))
    rcases privAt_cases st q with ⟨h2, e2⟩ | ⟨o2, h2, e2⟩
    · rw [question, e1, e2]
      exact shows_nil ((C108_nil H E st hE p q true).1 (.inr h2))
    · rw [question, e1, e2]
      exact shows_of_returns _ _ (text_addPrivateKeys H E hE st hd p q o1 o2 h1 h2) (fun a v s h => see_priv h)
        (fun e s _ => rfl)
  | multiplyPrivateKeys p q =>
    rcases privAt_cases st p with ⟨h1, e1⟩ | ⟨o1, h1, e1⟩
    · rw [question, e1]
      exact shows_nil ((C108_nil H E st hE p q true).2.1 (.inl h1))
    rcases privAt_cases st q with ⟨h2, e2⟩ | ⟨o2, h2, e2⟩
    · rw [question, e1, e2]
      exact shows_nil ((C108_nil H E st hE p q true).2.1 (.inr h2))
    · rw [question, e1, e2]
      exact shows_of_returns _ _ (text_multiplyPrivateKeys H E hE st hd p q o1 o2 h1 h2) (fun a v s h => see_priv h)
        (fun e s _ => rfl)
  | publicFromHex h net =>
    exact shows_of_returns _ _ (text_publicFromHex H E V hE hV st hd h net) (fun a v s h => see_pub h) (fun e s _ => rfl)
  | getPublicKey p =>
    rcases privAt_cases st p with ⟨h1, e1⟩ | ⟨o1, h1, e1⟩
    · rw [question, e1]
      exact shows_nil ((C108_nil H E st hE p p true).2.2.2.1 h1)
    · rw [question, e1]
      refine shows_of_returns _ _ (text_getPublicKey H E V hE hV st hd p o1 h1) (fun a v s h => ?_) (fun e s _ => rfl)
      · cases v with
        | none =>
          obtain rfl : a = none := h
          rfl
        | some v =>
          have h' : NewPub st.heap o1.Network a v s.heap := h
          obtain ⟨a', rfl⟩ : ∃ a', a = some a' := by
            obtain ⟨o, h2, -⟩ := h'.obj
            cases a with
            | none => cases h2
            | some a => exact ⟨a, rfl⟩
          simp [see, new_pub (st := st) h']
  | format p c =>
    rcases pubAt_cases st p with ⟨h1, e1⟩ | ⟨o1, h1, e1⟩
    · rw [question, e1]
      exact shows_nil ((C108_nil H E st hE p p c).2.2.2.2.1 h1)
    · rw [question, e1]
      exact shows_of_returns _ _ (C108_format H E hE st p o1 h1 c) (fun a v s h => by rw [h]; rfl)
        (fun e s _ => rfl)
  | address p c =>
    rcases pubAt_cases st p with ⟨h1, e1⟩ | ⟨o1, h1, e1⟩
    · rw [question, e1]
      exact shows_nil ((C108_nil H E st hE p p c).2.2.2.2.2 h1)
    · rw [question, e1]
      exact shows_of_returns _ _ (C108_address H E hE st p o1 h1 c) (fun a v s h => by rw [h]; rfl) (fun e s h => rfl)
  | addPublicKeys p q c =>
    rcases pubAt_cases st p with ⟨h1, e1⟩ | ⟨o1, h1, e1⟩
    · rw [question, e1]
      exact shows_nil ((C108_nil H E st hE p q c).2.2.1 (.inl h1))
    rcases pubAt_cases st q with ⟨h2, e2⟩ | ⟨o2, h2, e2⟩
    · rw [question, e1, e2]
      exact shows_nil ((C108_nil H E st hE p q c).2.2.1 (.inr h2))
    · rw [question, e1, e2]
      exact shows_of_returns _ _ (text_addPublicKeys H E V hE hV st hd p q o1 o2 h1 h2 c) (fun a v s h => see_pub h)
        (fun e s _ => rfl)
  | newMnemonic n wl =>
    obtain ⟨o, h1, h2⟩ := C108_newMnemonic H E st n wl
    refine ⟨o, h1, ?_⟩
    show Shows st ⟨digest _ _ (newMnemonic H st.rd n wl), [], _⟩ o
    rcases hg : newMnemonic H st.rd n wl with ⟨v, rd⟩ | e | p <;> rw [hg] at h2
    · obtain ⟨s, rfl, h4⟩ := h2
      refine ⟨⟨_, _, rfl, rfl⟩, ?_⟩
      intro s' hs'
      cases hs'
      refine ⟨h4.log.trans (List.append_nil _).symm, ?_⟩
      intro rd' h
      cases h
      exact h4.rd
    · obtain ⟨s, rfl, h4⟩ := h2
      refine ⟨⟨_, _, rfl, rfl⟩, ?_⟩
      intro s' hs'
      cases hs'
      refine ⟨h4.log.trans (List.append_nil _).symm, ?_⟩
      intro rd' h
      cases h
    · obtain ⟨s, rfl, h4⟩ := h2
      refine ⟨⟨_, rfl⟩, ?_⟩
      intro s' hs'
      cases hs'
      refine ⟨h4.log.trans (List.append_nil _).symm, ?_⟩
      intro rd' h
      cases h
  | newSeedFromMnemonic m pa wl =>
    obtain ⟨o, h1, h2⟩ := C108_newSeedFromMnemonic H E st m pa wl
    refine ⟨o, h1, ?_⟩
    show Shows st ⟨digest _ _ (newSeedFromMnemonic H m pa wl).1, (newSeedFromMnemonic H m pa wl).2, some st.rd⟩ o
    rcases hg : newSeedFromMnemonic H m pa wl with ⟨(_ | b) | e | p, log⟩ <;> rw [hg] at h2
    all_goals
      obtain ⟨s, rfl, h4⟩ := h2
      refine ⟨?_, ?_⟩
      · first
          | exact ⟨_, _, rfl, rfl⟩
          | exact ⟨_, rfl⟩
      · intro s' hs'
        cases hs'
        refine ⟨h4.log, ?_⟩
        intro rd' h
        cases h
        exact h4.rd

theorem showSame_of_shows {st' : State} {a : Answer} {a' : Answer} {o o' : Out (List Value)} (h : Shows st a o) (h' : Shows st' a' o')
    (ho : a.out = a'.out) (hl : a.log = a'.log) : ShowSame st st' o o' := by
  obtain ⟨h1, h2⟩ := h
  obtain ⟨h3, h4⟩ := h'
  rw [← ho] at h3
  rw [← hl] at h4
  cases ha : a.out with
  | ok l =>
    rw [ha] at h1 h3
    obtain ⟨vs, s, rfl, e⟩ := h1
    obtain ⟨vs', s', rfl, e'⟩ := h3
    exact ⟨e.trans e'.symm, a.log, (h2 s rfl).1, (h4 s' rfl).1⟩
  | error p =>
    rw [ha] at h1 h3
    obtain ⟨s, rfl⟩ := h1
    obtain ⟨s', rfl⟩ := h3
    exact ⟨rfl, a.log, (h2 s rfl).1, (h4 s' rfl).1⟩

attribute [local irreducible] generateRandomBigInt in
theorem answer_quiet (rd rd' : Reader) (r : Request) (hd : ¬ Draws r) :
    (answer H V rd (question st r)).out = (answer H V rd' (question st r)).out ∧
    (answer H V rd (question st r)).log = (answer H V rd' (question st r)).log ∧
    (answer H V rd (question st r)).rest = some rd := by
  cases r with
  | generatePrivateKey net => exact (hd trivial).elim
  | newMnemonic n wl => exact (hd trivial).elim
  | checkWIF w => exact ⟨rfl, rfl, rfl⟩
  | privateFromWIF w net => exact ⟨rfl, rfl, rfl⟩
  | privateFromHex h net => exact ⟨rfl, rfl, rfl⟩
  | publicFromHex h net => exact ⟨rfl, rfl, rfl⟩
  | newSeedFromMnemonic m pa wl => exact ⟨rfl, rfl, rfl⟩
  | addPrivateKeys p q =>
    rw [question]
    cases privAt st p with
    | none => exact ⟨rfl, rfl, rfl⟩
    | some a => cases privAt st q <;> exact ⟨rfl, rfl, rfl⟩
  | multiplyPrivateKeys p q =>
    rw [question]
    cases privAt st p with
    | none => exact ⟨rfl, rfl, rfl⟩
    | some a => cases privAt st q <;> exact ⟨rfl, rfl, rfl⟩
  | getPublicKey p => rw [question]; cases privAt st p <;> exact ⟨rfl, rfl, rfl⟩
  | format p c => rw [question]; cases pubAt st p <;> exact ⟨rfl, rfl, rfl⟩
  | address p c => rw [question]; cases pubAt st p <;> exact ⟨rfl, rfl, rfl⟩
  | addPublicKeys p q c =>
    rw [question]
    cases pubAt st p with
    | none => exact ⟨rfl, rfl, rfl⟩
    | some a => cases pubAt st q <;> exact ⟨rfl, rfl, rfl⟩

theorem Spec.Continues.session {st' : State} (h : Continues H E st st') (hs : Session H E nets st) : Session H E nets st' := by
  induction h with
  | refl => exact hs
  | call r _ h1 h2 ih => exact ih.call r h1 h2
  | int v _ ih => exact ih.int v
  | priv o _ h1 ih => exact ih.priv o h1
  | pub o _ h1 h2 ih => exact ih.pub o h1 h2

theorem Spec.Continues.grow (hE : Pkg E) {st' : State} (h : Continues H E st st') : Grow st.heap st'.heap := by
  induction h with
  | refl => exact Grow.refl _
  | call r _ h1 h2 ih => exact ih.trans (Request.step hE h1 h2).grow
  | int v _ ih => exact ih.trans ⟨List.prefix_append _ _, rfl, List.prefix_refl _, List.prefix_refl _, rfl⟩
  | priv o _ h1 ih => exact ih.trans ⟨List.prefix_refl _, rfl, List.prefix_append _ _, List.prefix_refl _, rfl⟩
  | pub o _ h1 h2 ih => exact ih.trans ⟨List.prefix_refl _, rfl, List.prefix_refl _, List.prefix_append _ _, rfl⟩

theorem loadInt_keep {h h' : Heap} (hg : Grow h h') {p : Ptr} (hp : ValidInt h p) : loadInt h' p = loadInt h p :=
  loadInt_grow hg hp

theorem privAt_keep (hd : Sound nets st) {st' : State} (hg : Grow st.heap st'.heap) {p : Ptr} (hp : p = none ∨ privAt st p ≠ none) :
    privAt st' p = privAt st p := by
  rcases privAt_cases st p with ⟨h1, e1⟩ | ⟨o, h1, e1⟩
  · rcases hp with rfl | hp
    · rfl
    · exact (hp e1).elim
  · rw [e1, privAt, loadPriv_grow hg h1, Option.map_some, privValue, privValue, loadInt_keep hg (hd.priv h1), loadNet_grow hg]

theorem pubAt_keep (hd : Sound nets st) {st' : State} (hg : Grow st.heap st'.heap) {p : Ptr} (hp : p = none ∨ pubAt st p ≠ none) :
    pubAt st' p = pubAt st p := by
  rcases pubAt_cases st p with ⟨h1, e1⟩ | ⟨o, h1, e1⟩
  · rcases hp with rfl | hp
    · rfl
    · exact (hp e1).elim
  · rw [e1, pubAt, loadPub_grow hg h1, Option.map_some, pubValue, pubValue, loadInt_keep hg (hd.pub h1).1,
      loadInt_keep hg (hd.pub h1).2, loadNet_grow hg]

theorem question_keep (hd : Sound nets st) {st' : State} (hg : Grow st.heap st'.heap) {r : Request} (hr : Held st r) :
    question st' r = question st r := by
  cases r with
  | checkWIF w => rfl
  | privateFromWIF w net => simp only [question, loadNet_grow hg]
  | privateFromHex w net => simp only [question, loadNet_grow hg]
  | generatePrivateKey net => simp only [question, loadNet_grow hg]
  | publicFromHex w net => simp only [question, loadNet_grow hg]
  | addPrivateKeys p q => simp only [question, privAt_keep hd hg hr.1, privAt_keep hd hg hr.2]
  | multiplyPrivateKeys p q => simp only [question, privAt_keep hd hg hr.1, privAt_keep hd hg hr.2]
  | getPublicKey p => simp only [question, privAt_keep hd hg hr]
  | format p c => simp only [question, pubAt_keep hd hg hr]
  | address p c => simp only [question, pubAt_keep hd hg hr]
  | addPublicKeys p q c => simp only [question, pubAt_keep hd hg hr.1, pubAt_keep hd hg hr.2]
  | newMnemonic n wl => rfl
  | newSeedFromMnemonic m pa wl => rfl

theorem draws_of_question {st' : State} {r r' : Request} (h : question st r = question st' r') (hd : ¬ Draws r) : ¬ Draws r' := by
  intro h'
  cases r' <;> first
    | exact h'.elim
    | (cases r <;> first
        | exact hd trivial
        | cases h)

end

/-! ## The theorems -/

section
variable (H : Hashes) (E E' : EcdsaM) (V : Ecdsa) (hE : Pkg E) (hE' : Pkg E') (hV : E.Refines V) (hV' : E'.Refines V)
  (nets nets' : List Network) (st st' : State) (hs : Session H E nets st) (hs' : Session H E' nets' st')
include hE hE' hV hV' hs hs'

/-- C114: two calls that ask the same, in any two states of any two programs, show the same answers. The programs may use
other networks and other implementations of the curve package; only what the curve package computes must agree. If the
call reads the random source, that must hold the same bytes. -/
theorem C114_same_answer (r r' : Request) (hq : question st r = question st' r') (hd : Draws r → st.rd = st'.rd) :
    ∃ o o', r.Ends H E st o ∧ r'.Ends H E' st' o' ∧ ShowSame st st' o o' := by
  obtain ⟨o, h1, h2⟩ := shows_answer hE hV (hs.intact hE) r
  obtain ⟨o', h3, h4⟩ := shows_answer hE' hV' (hs'.intact hE') r'
  rw [← hq] at h4
  refine ⟨o, o', h1, h3, ?_⟩
  by_cases hr : Draws r
  · rw [← hd hr] at h4
    exact showSame_of_shows h2 h4 rfl rfl
  · have ha := answer_quiet (H := H) (V := V) (st := st) st.rd st'.rd r hr
    exact showSame_of_shows h2 h4 ha.1 ha.2.1

attribute [local irreducible] generateRandomBigInt in
/-- C114: a call that does not return an error leaves the same bytes of the same random source. -/
theorem C114_same_rest (r r' : Request) (hq : question st r = question st' r') (hd : st.rd = st'.rd) (vs vs' : List Value)
    (s s' : State) (h : r.Ends H E st (.ok vs s)) (h' : r'.Ends H E' st' (.ok vs' s')) (hn : NoFailure vs) : s.rd = s'.rd := by
  obtain ⟨o, h1, h2⟩ := shows_answer hE hV (hs.intact hE) r
  obtain ⟨o', h3, h4⟩ := shows_answer hE' hV' (hs'.intact hE') r'
  obtain rfl := h.unique h1
  obtain rfl := h'.unique h3
  rw [← hq, ← hd] at h4
  have hr : ∃ rd, (answer H V st.rd (question st r)).rest = some rd := by
    by_cases hr : Draws r
    · cases r with
      | generatePrivateKey net =>
        obtain ⟨o, g1, g2⟩ := C108_generatePrivateKey H E hE st net
        obtain rfl := h.unique g1
        rcases hg : generatePrivateKey H st.rd (loadNet st.heap net) with ⟨v, rd⟩ | e | p <;> rw [hg] at g2
        · refine ⟨rd, ?_⟩
          show restOf (generatePrivateKey H st.rd (loadNet st.heap net)) = some rd
          rw [hg]
          rfl
        · exact g2.elim
        · obtain ⟨s, e, -⟩ := g2
          cases e
      | newMnemonic n wl =>
        obtain ⟨o, g1, g2⟩ := C108_newMnemonic H E st n wl
        obtain rfl := h.unique g1
        rcases hg : newMnemonic H st.rd n wl with ⟨v, rd⟩ | e | p <;> rw [hg] at g2
        · refine ⟨rd, ?_⟩
          show restOf (newMnemonic H st.rd n wl) = some rd
          rw [hg]
          rfl
        · obtain ⟨s, e', -⟩ := g2
          cases e'
          exact (hn e rfl).elim
        · obtain ⟨s, e, -⟩ := g2
          cases e
      | _ => exact hr.elim
    · exact ⟨_, (answer_quiet (H := H) (V := V) (st := st) st.rd st.rd r hr).2.2⟩
  obtain ⟨rd, hr⟩ := hr
  exact ((h2.2 s rfl).2 rd hr).trans ((h4.2 s' rfl).2 rd hr).symm

end

section
variable (H : Hashes) (E : EcdsaM) (V : Ecdsa) (hE : Pkg E) (hV : E.Refines V) (nets : List Network) (st : State)
  (hs : Session H E nets st)
include hE hV hs

/-- C114: all calls but `GeneratePrivateKey` and `NewMnemonic` leave the random source alone, however they end. -/
theorem C114_source_kept (r : Request) (hd : ¬ Draws r) (o : Out (List Value)) (s : State) (h : r.Ends H E st o)
    (ho : o.state? = some s) : s.rd = st.rd := by
  obtain ⟨o, h1, h2⟩ := shows_answer hE hV (hs.intact hE) r
  obtain rfl := h.unique h1
  exact (h2.2 s ho).2 _ (answer_quiet (H := H) (V := V) (st := st) st.rd st.rd r hd).2.2

/-- C114: whatever the program does in between, with the keys it holds or with others, a call made later shows what it
would have shown at once. -/
theorem C114_history (st' : State) (hc : Continues H E st st') (r : Request) (hr : Held st r) (hd : Draws r → st'.rd = st.rd) :
    ∃ o o', r.Ends H E st o ∧ r.Ends H E st' o' ∧ ShowSame st st' o o' :=
  C114_same_answer H E E V hE hE hV hV nets nets st st' hs (hc.session hs) r r
    (question_keep (hs.sound hE) (hc.grow hE) hr).symm (fun h => (hd h).symm)

/-- C114: two calls on keys the program holds, of which at most one reads the random source, can be made in either
order. -/
theorem C114_swap (r1 r2 : Request) (h1 : Held st r1) (h2 : Held st r2) (hd : ¬ (Draws r1 ∧ Draws r2)) :
    ∃ a s1 b a' s2 b', r1.Ends H E st a ∧ a.state? = some s1 ∧ r2.Ends H E s1 b ∧
      r2.Ends H E st b' ∧ b'.state? = some s2 ∧ r1.Ends H E s2 a' ∧ ShowSame st s2 a a' ∧ ShowSame st s1 b' b := by
  obtain ⟨a, s1, e1, -, x1, -⟩ := C109_ends H E hE r1 st
  obtain ⟨b', s2, e2, -, x2, -⟩ := C109_ends H E hE r2 st
  have d1 : Draws r1 → s2.rd = st.rd := fun h =>
    C114_source_kept H E V hE hV nets st hs r2 (fun h' => hd ⟨h, h'⟩) b' s2 e2 x2
  have d2 : Draws r2 → s1.rd = st.rd := fun h =>
    C114_source_kept H E V hE hV nets st hs r1 (fun h' => hd ⟨h', h⟩) a s1 e1 x1
  obtain ⟨_, a', f1, f2, f3⟩ := C114_history H E V hE hV nets st hs s2 (.call r2 (.refl st) e2 x2) r1 h1 d1
  obtain ⟨_, b, g1, g2, g3⟩ := C114_history H E V hE hV nets st hs s1 (.call r1 (.refl st) e1 x1) r2 h2 d2
  obtain rfl := e1.unique f1
  obtain rfl := e2.unique g1
  exact ⟨a, s1, b, a', s2, b', e1, x1, g2, e2, x2, f2, f3, g3⟩

end

section
open Samples

/-- The sample state with a copy of its first key, which has its own number. -/
def Samples.copied (rd : Reader) : State :=
  let h := (stocked rd).heap
  { stocked rd with heap := { h with
      ints := h.ints ++ [0x8613DFD6C099751DCC4020EF6F9BCD3C00F4565A15B26979B4B93C045D0A5CEB]
      privs := h.privs ++ [⟨some h.ints.length, hexA, wifA, some 0⟩] } }

theorem Samples.copied_continues (H : Hashes) (E : EcdsaM) (rd : Reader) : Continues H E (stocked rd) (copied rd) :=
  .priv ⟨some (stocked rd).heap.ints.length, hexA, wifA, some 0⟩
    (.int 0x8613DFD6C099751DCC4020EF6F9BCD3C00F4565A15B26979B4B93C045D0A5CEB (.refl _)) (fun a ha => by cases ha; simp)

/-- Adding the copy shows what adding the key shows, although the copy lives elsewhere. -/
example : ∃ o o', (Request.addPrivateKeys (some 0) (some 1)).Ends realHashes pkg (stocked []) o ∧
    (Request.addPrivateKeys (some 2) (some 1)).Ends realHashes pkg (copied [1, 2, 3]) o' ∧
    ShowSame (stocked []) (copied [1, 2, 3]) o o' :=
  C114_same_answer realHashes pkg pkg EC.ref refPkg.1 refPkg.1 refPkg.2.1 refPkg.2.1 [] [] _ _ (stocked_session _ _ [])
    ((copied_continues _ _ _).session (stocked_session _ _ _)) _ _ (by decide +kernel) (fun h => h.elim)

/-- Adding two keys later. -/
example : ∃ o o', (Request.addPrivateKeys (some 0) (some 1)).Ends realHashes pkg (stocked []) o ∧
    (Request.addPrivateKeys (some 0) (some 1)).Ends realHashes pkg (copied []) o' ∧ ShowSame (stocked []) (copied []) o o' :=
  C114_history realHashes pkg EC.ref refPkg.1 refPkg.2.1 [] _ (stocked_session _ _ []) _ (copied_continues _ _ _) _
    (by constructor <;> right <;> decide +kernel) (fun h => h.elim)

/-- The copy is another pointer: nothing was found at it before. -/
example : privAt (stocked []) (some 2) = none ∧ privAt (copied []) (some 2) = privAt (copied []) (some 0) ∧
    loadPriv (copied []).heap (some 2) ≠ loadPriv (copied []).heap (some 0) := by decide +kernel

/-- Drawing a phrase and adding keys. -/
example (rd : Reader) : ¬ (Draws (.newMnemonic 12 (some EnglishWordlist)) ∧ Draws (.addPrivateKeys (some 0) (some 1))) ∧
    Held (stocked rd) (.newMnemonic 12 (some EnglishWordlist)) ∧ Held (stocked []) (.addPrivateKeys (some 0) (some 1)) :=
  ⟨fun h => h.2.elim, trivial, by constructor <;> right <;> decide +kernel⟩

end

end Btc
