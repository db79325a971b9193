import Verif.Props.RepairErrors
import Verif.Props.RepairThreads

/-!
# C141: two runs of one program on the repaired text

The same program is run twice on the repaired text (Verif/Source/Repair.lean), perhaps with two different implementations of the
curve, at other addresses in memory, but with the same random bytes. Keys are given to calls by their number among the keys held.
Then at every call both runs show the same: the same keys, texts and answers, the same error, the same nil, the same panic.
-/

namespace Btc

open Spec Mem Source

namespace Spec

/-- Specification: what the outcome of a call shows. -/
inductive Shown where
  | answer (g : Answer)
  | error (e : GoError)
  | nil
  | panic (p : GoPanic)

/-- Specification: a call that ended in `o` shows this; pointers are followed, values beside an error are not seen. -/
inductive ShowsAs : Out (List Value) → Shown → Prop
  | answer {vs : List Value} {st : State} {g : Answer} : view st vs = some g → ShowsAs (.ok vs st) (.answer g)
  | error {v : Value} {e : GoError} {st : State} : ShowsAs (.ok [v, .err (some e)] st) (.error e)
  | nil {st : State} : ShowsAs (.ok [.priv none] st) .nil
  | panic {p : GoPanic} {st : State} : ShowsAs (.panic p st) (.panic p)

/-- Specification: a word list given to `NewSeedFromMnemonic` is one. -/
def ListsWords (r : Request) : Prop := ∀ mn pa wl, r = .newSeedFromMnemonic mn pa wl → IsWordlist (wl.getD [])

end Spec

/-- Two runs of one program on the repaired text, with the curve packages `E` and `E'`: for each of them the state and the
private and public keys held. Both make the same calls and have the same random source; after a panic both get another. -/
inductive TwinRun (H : Hashes) (E E' : EcdsaM) (nets : List Network) :
    State → List Ptr → List Ptr → State → List Ptr → List Ptr → Prop
  | start {rd : Reader} {st st' : State} : Ends H E repaired 0 (id! "init") [] (before repaired rd) (.ok [] st) →
      Ends H E' repaired 0 (id! "init") [] (before repaired rd) (.ok [] st') →
      TwinRun H E E' nets { st with heap := { st.heap with nets := st.heap.nets ++ nets } } [] []
        { st' with heap := { st'.heap with nets := st'.heap.nets ++ nets } } [] []
  | call {st st' s s' : State} {ps qs ps' qs' : List Ptr} {vs vs' : List Value} (r : Request) :
      TwinRun H E E' nets st ps qs st' ps' qs' → Asks st.heap.nets.length ps.length qs.length r → ListsWords r →
      (r.on ps qs).EndsFixed H E st (.ok vs s) → (r.on ps' qs').EndsFixed H E' st' (.ok vs' s') →
      TwinRun H E E' nets s (ps ++ returnedPrivs vs) (qs ++ returnedPubs vs) s' (ps' ++ returnedPrivs vs') (qs' ++ returnedPubs vs')
  | recovered {st st' s s' : State} {ps qs ps' qs' : List Ptr} {p p' : GoPanic} (r : Request) (rd : Reader) :
      TwinRun H E E' nets st ps qs st' ps' qs' → Asks st.heap.nets.length ps.length qs.length r →
      (r.on ps qs).EndsFixed H E st (.panic p s) → (r.on ps' qs').EndsFixed H E' st' (.panic p' s') →
      TwinRun H E E' nets { s with rd := rd } ps qs { s' with rd := rd } ps' qs'
  | source {st st' : State} {ps qs ps' qs' : List Ptr} (rd : Reader) : TwinRun H E E' nets st ps qs st' ps' qs' →
      TwinRun H E E' nets { st with rd := rd } ps qs { st' with rd := rd } ps' qs'

/-! ## How a call ends -/

/-- A call ended in one of four ways; what was in memory is as it was, and the random source is read only by calls that draw. -/
def Tidy (st : State) (r : Request) (o : Out (List Value)) : Prop :=
  (∃ vs s g rd, o = .ok vs s ∧ Kept { st with rd := rd } s ∧ (¬ Draws r → rd = st.rd) ∧ view s vs = some g) ∨
  (∃ v e s, o = .ok [v, .err (some e)] s ∧ Kept st s ∧ returnedPrivs [v] = [] ∧ returnedPubs [v] = []) ∨
  ((∃ network, r = .generatePrivateKey network) ∧ o = .ok [.priv none] st) ∨
  (∃ network, r = .generatePrivateKey network) ∧ ∃ p s, o = .panic p s ∧ Kept { st with rd := s.rd } s

section
variable {H : Hashes} {E : EcdsaM} {V : Ecdsa} {st : State} {ps qs : List Ptr}

theorem tidy_ok {r : Request} {vs : List Value} {s : State} {g : Spec.Answer} (hk : Kept st s) (hv : view s vs = some g) :
    Tidy st r (.ok vs s) := .inl ⟨vs, s, g, st.rd, rfl, hk, fun _ => rfl, hv⟩

theorem tidy_newKey {r : Request} {network : Ptr} {net : Network} {hexa wif : GoString} {pre body : Bytes} {c : Bool}
    {o : Out (List Value)} (hn : NetAt st network net) (ho : NewKey H.sha256 st network hexa wif pre body c o) : Tidy st r o := by
  obtain ⟨s, a, rfl, hk, -, ha⟩ := ho
  exact tidy_ok hk (congrArg (Option.map Spec.Answer.priv) (ha.priv (hn.kept (rd := st.rd) hk)))

theorem tidy_newPub {r : Request} {network : Ptr} {net : Network} {x y : Nat} {o : Out (List Value)}
    (hn : NetAt st network net) (ho : NewPubKey st network x y o) : Tidy st r o := by
  obtain ⟨s, a, rfl, hk, -, ha⟩ := ho
  exact tidy_ok hk (congrArg (Option.map Spec.Answer.pub) (ha.pub (hn.kept (rd := st.rd) hk)))

theorem tidy_error {r : Request} {e : GoError} {o : Out (List Value)} (ho : GaveError st e o) : Tidy st r o := by
  obtain ⟨s, rfl, hk⟩ := ho
  exact .inr (.inl ⟨_, _, s, rfl, hk, rfl, rfl⟩)

theorem tidy_noPub {r : Request} {e : GoError} {o : Out (List Value)} (ho : GaveNoPub st e o) : Tidy st r o := by
  obtain ⟨s, rfl, hk⟩ := ho
  exact .inr (.inl ⟨_, _, s, rfl, hk, rfl, rfl⟩)

/-- Every call ends in one of the four ways. -/
theorem Sound.tidy (hE : Pkg E) (hV : E.Refines V) (hC : EcdsaContract V) (h : Sound H st ps qs) (r : Request)
    (hr : Typed st ps qs r) : ∃ o, r.EndsFixed H E st o ∧ Tidy st r o := by
  cases r with
  | checkWIF wif =>
    obtain ⟨b, st', he, hk, -⟩ := C127_check H E st wif
    exact ⟨_, he, tidy_ok hk rfl⟩
  | privateFromWIF wif network =>
    rcases hr with rfl | ⟨net, hn⟩
    · obtain ⟨o, he, ho⟩ := (C127_nil_network H E st wif).2
      exact ⟨o, he, tidy_error ho⟩
    · obtain ⟨o, he, ⟨pre, body, c, ht, ho⟩ | ⟨-, _, -, ho⟩⟩ := C127_import_wif H E st h.order wif network net hn
      · exact ⟨o, he, tidy_newKey hn ho⟩
      · exact ⟨o, he, tidy_error ho⟩
  | privateFromHex hexa network =>
    rcases hr with rfl | ⟨net, hn⟩
    · obtain ⟨o, he, ho⟩ := (C127_nil_network H E st hexa).1
      exact ⟨o, he, tidy_error ho⟩
    · obtain ⟨o, he, ⟨pre, body, wif, ht, ho⟩ | ⟨-, _, -, ho⟩⟩ := C127_import_hex H E st h.order hexa network net hn
      · exact ⟨o, he, tidy_newKey hn ho⟩
      · exact ⟨o, he, tidy_error ho⟩
  | generatePrivateKey network =>
    rcases hr with rfl | ⟨net, hn⟩
    · exact ⟨_, C127_generate_no_network H E st none MainNetwork (.inl rfl), .inr (.inr (.inl ⟨⟨_, rfl⟩, rfl⟩))⟩
    by_cases hp : ∃ pre, Spells net.PrivKeyPrefix pre
    case neg => exact ⟨_, C127_generate_no_network H E st network net (.inr ⟨hn, hp⟩), .inr (.inr (.inl ⟨⟨_, rfl⟩, rfl⟩))⟩
    obtain ⟨pre, hp⟩ := hp
    obtain ⟨o, he, ⟨body, rest, wif, st', a, -, rfl, hk, -, ha⟩ | ⟨hf, st', rfl, hk⟩⟩ := C127_generate H E st h.order network net hn pre hp
    · exact ⟨_, he, .inl ⟨_, st', _, rest, rfl, hk, fun h => (h trivial).elim,
        congrArg (Option.map Spec.Answer.priv) (ha.priv (hn.kept hk))⟩⟩
    · exact ⟨_, he, .inr (.inr (.inr ⟨⟨_, rfl⟩, _, st', rfl, hk⟩))⟩
  | addPrivateKeys p q =>
    obtain ⟨nw1, net1, t1, w1, pre1, b1, c1, k1, n1, s1⟩ := h.privs p hr.1
    obtain ⟨nw2, net2, t2, w2, pre2, b2, c2, k2, n2, s2⟩ := h.privs q hr.2
    by_cases hne : net1 = net2
    case neg => exact ⟨_, (C127_other_networks H E k1 k2 n1 n2 hne).1, .inr (.inl ⟨_, _, _, rfl, .refl _, rfl, rfl⟩)⟩
    subst hne
    obtain rfl := s1.unique s2
    obtain ⟨o, he, ⟨-, body, wif, -, ho⟩ | ⟨-, ho⟩ | ⟨-, -, ho⟩⟩ := C127_add H E h.order k1 k2 n1 n2 s1
    · exact ⟨o, he, tidy_newKey n1 ho⟩
    · exact ⟨o, he, tidy_error ho⟩
    · exact ⟨o, he, tidy_error ho⟩
  | multiplyPrivateKeys p q =>
    obtain ⟨nw1, net1, t1, w1, pre1, b1, c1, k1, n1, s1⟩ := h.privs p hr.1
    obtain ⟨nw2, net2, t2, w2, pre2, b2, c2, k2, n2, s2⟩ := h.privs q hr.2
    by_cases hne : net1 = net2
    case neg => exact ⟨_, (C127_other_networks H E k1 k2 n1 n2 hne).2, .inr (.inl ⟨_, _, _, rfl, .refl _, rfl, rfl⟩)⟩
    subst hne
    obtain rfl := s1.unique s2
    obtain ⟨o, he, ⟨-, body, wif, -, ho⟩ | ⟨-, ho⟩⟩ := C127_multiply H E h.order k1 k2 n1 n2 s1
    · exact ⟨o, he, tidy_newKey n1 ho⟩
    · exact ⟨o, he, tidy_error ho⟩
  | publicFromHex hexa network =>
    rcases hr with rfl | ⟨net, hn⟩
    · obtain ⟨o, he, ho⟩ := C129_nil_network H E hexa st
      exact ⟨o, he, tidy_noPub ho⟩
    · have hne : network ≠ none := by
        rintro rfl
        cases hn
      obtain ⟨o, he, ⟨c, x, y, -, ho⟩ | ⟨-, e, ho, -⟩⟩ := C129_import H hE hV hC st h.curve hexa network hne
      · exact ⟨o, he, tidy_newPub hn ho⟩
      · exact ⟨o, he, tidy_noPub ho⟩
  | getPublicKey p =>
    obtain ⟨nw, net, t, w, pre, b, c, k, hn, -⟩ := h.privs p hr
    obtain ⟨x, y, q, st', he, hk, -, -, hq⟩ := C129_public_key H hE hV hC EC.G EC.G_coords st h.curve k
    exact ⟨_, he, tidy_ok hk (congrArg (Option.map Spec.Answer.pub) (hq.pub (hn.kept (rd := st.rd) hk)))⟩
  | format q c =>
    obtain ⟨nw, net, x, y, k, hn⟩ := h.pubs q hr
    obtain ⟨s, he, -⟩ := C129_format H st k c
    exact ⟨_, he, tidy_ok (.refl _) rfl⟩
  | address q c =>
    obtain ⟨nw, net, x, y, k, hn⟩ := h.pubs q hr
    by_cases hp : ∃ pre, Spells net.PubKeyHashPrefix pre
    · obtain ⟨pre, hp⟩ := hp
      obtain ⟨s, ser, st', he, hk, -⟩ := C129_address H st k hn hp c
      exact ⟨_, he, tidy_ok hk rfl⟩
    · obtain ⟨-, e, st', -, -, he, hk⟩ := C129_no_address H st k hn hp c
      exact ⟨_, he, .inr (.inl ⟨_, _, _, rfl, hk, rfl, rfl⟩)⟩
  | addPublicKeys p q c =>
    obtain ⟨nw1, net1, x1, y1, k1, n1⟩ := h.pubs p hr.1
    obtain ⟨nw2, net2, x2, y2, k2, n2⟩ := h.pubs q hr.2
    have href := C129_add_refused H (E := E) st k1 k2 n1 n2 c
    by_cases hne : net1 = net2
    case neg => exact ⟨_, href.1 hne, .inr (.inl ⟨_, _, _, rfl, .refl _, rfl, rfl⟩)⟩
    by_cases hx : x1 = x2
    · exact ⟨_, href.2 hne hx, .inr (.inl ⟨_, _, _, rfl, .refl _, rfl, rfl⟩)⟩
    subst hne
    obtain ⟨P, hP⟩ := (EC.onCurve_iff _ _).1 k1.point
    obtain ⟨Q, hQ⟩ := (EC.onCurve_iff _ _).1 k2.point
    obtain ⟨o, x, y, he, -, ho⟩ := C129_add H hE hV hC st h.curve k1 k2 n1 n2 hP hQ hx c
    exact ⟨o, he, tidy_newPub n1 ho⟩
  | newMnemonic words wl =>
    obtain ⟨o, he, ⟨c, ws, st', -, -, -, -, -, -, rfl, hk⟩ | ⟨-, st', e, -, rfl, hk⟩⟩ := C128_generate H E words wl st
    · exact ⟨_, he, .inl ⟨_, st', _, _, rfl, hk, fun h => (h trivial).elim, rfl⟩⟩
    · exact ⟨_, he, .inr (.inl ⟨_, _, _, rfl, hk, rfl, rfl⟩)⟩
  | newSeedFromMnemonic mn pa wl =>
    obtain ⟨st', e, he, hk, -⟩ := C128_accept H E mn pa wl st
    cases e with
    | none => exact ⟨_, he, tidy_ok hk rfl⟩
    | some e => exact ⟨_, he, .inr (.inl ⟨_, _, _, rfl, hk, rfl, rfl⟩)⟩

end

/-! ## What corresponds -/

/-- The two runs correspond: keys with the same number have the same value, and networks and random source are the same. -/
structure Alike (H : Hashes) (E E' : EcdsaM) (nets : List Network) (st : State) (ps qs : List Ptr) (st' : State) (ps' qs' : List Ptr) :
    Prop where
  run : FixedRun H E nets st ps qs
  run' : FixedRun H E' nets st' ps' qs'
  privs : ps.map (privAt st) = ps'.map (privAt st')
  pubs : qs.map (pubAt st) = qs'.map (pubAt st')
  nets : st.heap.nets = st'.heap.nets
  rd : st.rd = st'.rd

theorem pick_alike {α : Type} {f f' : Ptr → Option α} (h0 : f none = f' none) {l l' : List Ptr} (h : l.map f = l'.map f') (p : Ptr) :
    f (pick l p) = f' (pick l' p) := by
  cases p with
  | none => exact h0
  | some i =>
    have h := congrArg (·[i]?) h
    simp only [List.getElem?_map] at h
    show f (l[i]?.join) = f' (l'[i]?.join)
    cases h1 : l[i]? <;> cases h2 : l'[i]? <;> rw [h1, h2] at h
    · exact h0
    · cases h
    · cases h
    · exact Option.some.inj h

/-- The private key in an answer. -/
def answerPrivs : Spec.Answer → List (Option PrivateKey)
  | .priv k => [some k]
  | _ => []

/-- The public key in an answer. -/
def answerPubs : Spec.Answer → List (Option PublicKey)
  | .pub k => [some k]
  | _ => []

theorem view_privs {s : State} {vs : List Value} {g : Spec.Answer} (h : view s vs = some g) :
    (returnedPrivs vs).map (privAt s) = answerPrivs g ∧
    (returnedPubs vs).map (pubAt s) = answerPubs g := by
  have one : ∀ {p : Ptr} {k : PrivateKey}, privAt s p = some k → ∃ a, p = some a := by
    rintro (_ | a) k h
    · cases h
    · exact ⟨a, rfl⟩
  have two : ∀ {p : Ptr} {k : PublicKey}, pubAt s p = some k → ∃ a, p = some a := by
    rintro (_ | a) k h
    · cases h
    · exact ⟨a, rfl⟩
  unfold view at h
  split at h
  case h_1 => cases h; exact ⟨rfl, rfl⟩
  case h_2 p =>
    obtain ⟨k, h1, rfl⟩ := Option.map_eq_some_iff.1 h
    obtain ⟨a, rfl⟩ := one h1
    exact ⟨congrArg (fun x => [x]) h1, rfl⟩
  case h_3 p =>
    obtain ⟨k, h1, rfl⟩ := Option.map_eq_some_iff.1 h
    obtain ⟨a, rfl⟩ := one h1
    exact ⟨congrArg (fun x => [x]) h1, rfl⟩
  case h_4 p =>
    obtain ⟨k, h1, rfl⟩ := Option.map_eq_some_iff.1 h
    obtain ⟨a, rfl⟩ := two h1
    exact ⟨rfl, congrArg (fun x => [x]) h1⟩
  case h_5 p =>
    obtain ⟨k, h1, rfl⟩ := Option.map_eq_some_iff.1 h
    obtain ⟨a, rfl⟩ := two h1
    exact ⟨rfl, congrArg (fun x => [x]) h1⟩
  case h_6 => cases h; exact ⟨rfl, rfl⟩
  case h_7 => cases h; exact ⟨rfl, rfl⟩
  case h_8 => cases h; exact ⟨rfl, rfl⟩
  case h_9 => cases h

section
variable {H : Hashes} {E E' : EcdsaM} {V V' : Ecdsa} {nets : List Network} {st st' : State} {ps qs ps' qs' : List Ptr}

/-- Keys that are held keep their values. -/
theorem held_kept {rd : Reader} {s : State} (hs : Sound H st ps qs) (hk : Kept { st with rd := rd } s) :
    ps.map (privAt s) = ps.map (privAt st) ∧ qs.map (pubAt s) = qs.map (pubAt st) := by
  constructor
  · refine List.map_congr_left fun p hp => ?_
    obtain ⟨network, net, hexa, wif, pre, body, c, h1, h2, -⟩ := hs.privs p hp
    rw [(h1.kept hk).priv (h2.kept hk), h1.priv h2]
  · refine List.map_congr_left fun q hq => ?_
    obtain ⟨network, net, x, y, h1, h2⟩ := hs.pubs q hq
    rw [(h1.kept hk).pub (h2.kept hk), h1.pub h2]

theorem Alike.question (h : Alike H E E' nets st ps qs st' ps' qs') (r : Request) :
    question st (r.on ps qs) = question st' (r.on ps' qs') := by
  have hn : ∀ p, loadNet st.heap p = loadNet st'.heap p := fun p => by rw [loadNet, loadNet, h.nets]
  have h1 := pick_alike (f := privAt st) (f' := privAt st') rfl h.privs
  have h2 := pick_alike (f := pubAt st) (f' := pubAt st') rfl h.pubs
  cases r <;> simp only [Request.on, Spec.question, hn, h1, h2]

theorem Alike.asks (h : Alike H E E' nets st ps qs st' ps' qs') {r : Request} (ha : Asks st.heap.nets.length ps.length qs.length r) :
    Asks st'.heap.nets.length ps'.length qs'.length r := by
  have h1 := congrArg List.length h.privs
  have h2 := congrArg List.length h.pubs
  rw [List.length_map, List.length_map] at h1 h2
  rwa [← h.nets, ← h1, ← h2]

theorem draws_on (r : Request) (ps qs : List Ptr) : Draws (r.on ps qs) ↔ Draws r := by
  cases r <;> exact Iff.rfl

theorem words_on {r : Request} (h : ListsWords r) (ps qs : List Ptr) : ListsWords (r.on ps qs) := by
  cases r with
  | newSeedFromMnemonic => exact h
  | _ => intro mn pa wl e; cases e

theorem Alike.grown (h : Alike H E E' nets st ps qs st' ps' qs') (hs : Sound H st ps qs) (hs' : Sound H st' ps' qs')
    {rd rd' : Reader} {s s' : State} {vs vs' : List Value}
    (hk : Kept { st with rd := rd } s) (hk' : Kept { st' with rd := rd' } s') (hrd : rd = rd')
    (hr : FixedRun H E nets s (ps ++ returnedPrivs vs) (qs ++ returnedPubs vs))
    (hr' : FixedRun H E' nets s' (ps' ++ returnedPrivs vs') (qs' ++ returnedPubs vs'))
    (h1 : (returnedPrivs vs).map (privAt s) = (returnedPrivs vs').map (privAt s'))
    (h2 : (returnedPubs vs).map (pubAt s) = (returnedPubs vs').map (pubAt s')) :
    Alike H E E' nets s (ps ++ returnedPrivs vs) (qs ++ returnedPubs vs) s' (ps' ++ returnedPrivs vs') (qs' ++ returnedPubs vs') := by
  obtain ⟨a1, a2⟩ := held_kept hs hk
  obtain ⟨b1, b2⟩ := held_kept hs' hk'
  refine ⟨hr, hr', ?_, ?_, ?_, ?_⟩
  · rw [List.map_append, List.map_append, a1, b1, h.privs, h1]
  · rw [List.map_append, List.map_append, a2, b2, h.pubs, h2]
  · rw [← hk.heap.nets, ← hk'.heap.nets]
    exact h.nets
  · rw [hk.rd, hk'.rd]
    exact hrd

variable (hE : Pkg E) (hV : E.Refines V) (hC : EcdsaContract V) (hE' : Pkg E') (hV' : E'.Refines V') (hC' : EcdsaContract V')
include hE hV hC hE' hV' hC'

/-- A call in both runs: it shows the same, and the runs correspond afterwards. -/
theorem Alike.step (h : Alike H E E' nets st ps qs st' ps' qs') (r : Request) (ha : Asks st.heap.nets.length ps.length qs.length r)
    (hw : ListsWords r) : ∃ o o' x, (r.on ps qs).EndsFixed H E st o ∧ (r.on ps' qs').EndsFixed H E' st' o' ∧ ShowsAs o x ∧ ShowsAs o' x ∧
      ((∃ vs s vs' s', o = .ok vs s ∧ o' = .ok vs' s' ∧ Alike H E E' nets s (ps ++ returnedPrivs vs) (qs ++ returnedPubs vs)
          s' (ps' ++ returnedPrivs vs') (qs' ++ returnedPubs vs')) ∨
        ∃ p s s', o = .panic p s ∧ o' = .panic p s' ∧ ∀ rd, Alike H E E' nets { s with rd := rd } ps qs { s' with rd := rd } ps' qs') := by
  have hs := h.run.sound hE hV hC
  have hs' := h.run'.sound hE' hV' hC'
  have ht := asks_typed ha
  have ht' := asks_typed (h.asks ha)
  have hq := h.question r
  have hw1 := words_on hw ps qs
  have hn : ∀ p, loadNet st.heap p = loadNet st'.heap p := fun p => by rw [loadNet, loadNet, h.nets]
  obtain ⟨o, he, hto⟩ := hs.tidy hE hV hC _ ht
  obtain ⟨o', he', hto'⟩ := hs'.tidy hE' hV' hC' _ ht'
  rcases hto with ⟨vs, s, g, rd, rfl, hk, hd, hv⟩ | ⟨v, e, s, rfl, hk, n1, n2⟩ | ⟨⟨network, hg⟩, rfl⟩ | ⟨⟨network, hg⟩, p, s, rfl, hk⟩
  · obtain ⟨vs', s', f1, f2, f3⟩ := C139_same hE hV hC hE' hV' hC' h.run h.run' _ _ ht ht' hw1 hq (fun _ => h.rd) vs s g he hv
    cases Ends.unique he' f1
    rcases hto' with ⟨_, _, _, rd', e0, hk', hd', hv'⟩ | ⟨v', e', _, e0, -⟩ | ⟨-, e0⟩ | ⟨-, _, _, e0, -⟩
    · cases e0
      refine ⟨_, _, _, he, he', .answer hv, .answer f2, .inl ⟨_, _, _, _, rfl, rfl, ?_⟩⟩
      refine h.grown hs hs' hk hk' ?_ (h.run.call _ ht he) (h.run'.call _ ht' he') ?_ ?_
      · by_cases hdr : Draws r
        · have := f3 ((draws_on r ps qs).2 hdr)
          rw [hk.rd, hk'.rd] at this
          exact this.symm
        · rw [hd (fun x => hdr ((draws_on r ps qs).1 x)), hd' (fun x => hdr ((draws_on r ps' qs').1 x)), h.rd]
      · rw [(view_privs hv).1, (view_privs f2).1]
      · rw [(view_privs hv).2, (view_privs f2).2]
    · cases e0
      cases v' <;> simp [view] at f2
    · cases e0
      cases f2
    · cases e0
  · obtain ⟨v', s', f1⟩ := C140_same hE hV hC hE' hV' hC' h.run h.run' _ _ ht ht' (fun mn pa wl e _ => hw1 mn pa wl e) hq
      (fun _ => h.rd) v e s he
    cases Ends.unique he' f1
    rcases hto' with ⟨_, _, _, rd', e0, hk', hd', hv'⟩ | ⟨v', e', _, e0, hk', n1', n2'⟩ | ⟨-, e0⟩ | ⟨-, _, _, e0, -⟩
    · cases e0
      cases v' <;> simp [view] at hv'
    · cases e0
      refine ⟨_, _, _, he, he', .error, .error, .inl ⟨_, _, _, _, rfl, rfl, ?_⟩⟩
      have m1 : ∀ {v : Value} {e : GoError}, returnedPrivs [v] = [] → returnedPrivs [v, .err (some e)] = [] := by
        intro v e h
        cases v with
        | priv p =>
          cases p with
          | none => rfl
          | some a => cases h
        | _ => rfl
      have m2 : ∀ {v : Value} {e : GoError}, returnedPubs [v] = [] → returnedPubs [v, .err (some e)] = [] := by
        intro v e h
        cases v with
        | pub p =>
          cases p with
          | none => rfl
          | some a => cases h
        | _ => rfl
      refine h.grown (rd := st.rd) (rd' := st'.rd) hs hs' hk hk' h.rd (h.run.call _ ht he) (h.run'.call _ ht' he') ?_ ?_
      · rw [m1 n1, m1 n1']
        rfl
      · rw [m2 n2, m2 n2']
        rfl
    · cases e0
    · cases e0
  · have hr : r = .generatePrivateKey network := by
      cases r <;> simp [Request.on] at hg ⊢
      exact hg
    subst hr
    obtain ⟨s', f1⟩ := (C140_generate hE' hV' hC' h.run' network ht').1.2 (by
      rintro ⟨net, pre, x1, x2⟩
      exact (C140_generate hE hV hC h.run network ht).1.1 ⟨_, he⟩ ⟨net, pre, (hn network).trans x1, x2⟩)
    cases Ends.unique he' f1
    rcases hto' with ⟨_, _, _, rd', e0, hk', hd', hv'⟩ | ⟨v', e', _, e0, -⟩ | ⟨-, e0⟩ | ⟨-, _, _, e0, -⟩
    · cases e0
      cases hv'
    · cases e0
    · cases e0
      refine ⟨_, _, _, he, he', .nil, .nil, .inl ⟨_, _, _, _, rfl, rfl, ?_⟩⟩
      exact h.grown (rd := st.rd) (rd' := st'.rd) hs hs' (.refl _) (.refl _) h.rd (h.run.call _ ht he) (h.run'.call _ ht' he') rfl rfl
    · cases e0
  · have hr : r = .generatePrivateKey network := by
      cases r <;> simp [Request.on] at hg ⊢
      exact hg
    subst hr
    obtain ⟨x0, ⟨net, pre, x1, x2⟩, x3⟩ := ((C140_generate hE hV hC h.run network ht).2 p).1 ⟨_, he⟩
    obtain ⟨s', f1⟩ := ((C140_generate hE' hV' hC' h.run' network ht').2 p).2
      ⟨x0, ⟨net, pre, (hn network).symm.trans x1, x2⟩, by rw [← h.rd]; exact x3⟩
    cases Ends.unique he' f1
    rcases hto' with ⟨_, _, _, rd', e0, hk', hd', hv'⟩ | ⟨v', e', _, e0, -⟩ | ⟨-, e0⟩ | ⟨-, _, _, e0, hk'⟩
    · cases e0
    · cases e0
    · cases e0
    · cases e0
      refine ⟨_, _, _, he, he', .panic, .panic, .inr ⟨_, _, _, rfl, rfl, fun rd => ?_⟩⟩
      obtain ⟨a1, a2⟩ := held_kept hs hk
      obtain ⟨b1, b2⟩ := held_kept hs' hk'
      refine ⟨(h.run.recovered _ ht he).source rd, (h.run'.recovered _ ht' he').source rd, ?_, ?_, ?_, rfl⟩
      · exact (a1.trans h.privs).trans b1.symm
      · exact (a2.trans h.pubs).trans b2.symm
      · show s.heap.nets = s'.heap.nets
        rw [← hk.heap.nets, ← hk'.heap.nets]
        exact h.nets

/-- Two runs of one program correspond. -/
theorem TwinRun.alike (h : TwinRun H E E' nets st ps qs st' ps' qs') : Alike H E E' nets st ps qs st' ps' qs' := by
  induction h with
  | @start rd st st' h1 h2 =>
    cases h1.unique (C127_init H E rd).1
    cases h2.unique (C127_init H E' rd).1
    exact ⟨.start h1, .start h2, rfl, rfl, rfl, rfl⟩
  | call r _ ha hw h1 h2 ih =>
    obtain ⟨o, o', x, f1, f2, -, -, ⟨_, _, _, _, rfl, rfl, h⟩ | ⟨_, _, _, rfl, rfl, _⟩⟩ := ih.step hE hV hC hE' hV' hC' r ha hw
    · cases Ends.unique h1 f1
      cases Ends.unique h2 f2
      exact h
    · cases Ends.unique h1 f1
  | @recovered st st' s s' ps qs ps' qs' p p' r rd _ ha h1 h2 ih =>
    have hg : ListsWords r := by
      intro mn pa wl e
      subst e
      obtain ⟨-, ⟨network, e⟩, -⟩ := C130_panic H E V hE hV hC nets _ _ _ ih.run _ (asks_typed ha) _ _ h1
      cases e
    obtain ⟨o, o', x, f1, f2, -, -, ⟨_, _, _, _, rfl, rfl, _⟩ | ⟨_, _, _, rfl, rfl, h⟩⟩ := ih.step hE hV hC hE' hV' hC' r ha hg
    · cases Ends.unique h1 f1
    · cases Ends.unique h1 f1
      cases Ends.unique h2 f2
      exact h rd
  | source rd _ ih => exact ⟨ih.run.source rd, ih.run'.source rd, ih.privs, ih.pubs, ih.nets, rfl⟩

/-- C141. Keys with the same number have the same value in both runs, so the runs hold equally many, and they have left the
same random bytes unread. -/
theorem C141_keys (h : TwinRun H E E' nets st ps qs st' ps' qs') :
    ps.map (privAt st) = ps'.map (privAt st') ∧ qs.map (pubAt st) = qs'.map (pubAt st') ∧ st.rd = st'.rd :=
  let a := h.alike hE hV hC hE' hV' hC'
  ⟨a.privs, a.pubs, a.rd⟩

/-- C141. The next call ends in both runs and shows the same. -/
theorem C141_same (h : TwinRun H E E' nets st ps qs st' ps' qs') (r : Request) (ha : Asks st.heap.nets.length ps.length qs.length r)
    (hw : ListsWords r) : ∃ o o' x, (r.on ps qs).EndsFixed H E st o ∧ (r.on ps' qs').EndsFixed H E' st' o' ∧ ShowsAs o x ∧ ShowsAs o' x := by
  obtain ⟨o, o', x, h1, h2, h3, h4, -⟩ := (h.alike hE hV hC hE' hV' hC').step hE hV hC hE' hV' hC' r ha hw
  exact ⟨o, o', x, h1, h2, h3, h4⟩

/-- C141. Whatever one run can be taken to, the other can be taken to with the same calls: no run gets stuck alone. -/
theorem C141_follows (h : TwinRun H E E' nets st ps qs st' ps' qs') (r : Request) (ha : Asks st.heap.nets.length ps.length qs.length r)
    (hw : ListsWords r) (vs : List Value) (s : State) (he : (r.on ps qs).EndsFixed H E st (.ok vs s)) :
    ∃ vs' s', (r.on ps' qs').EndsFixed H E' st' (.ok vs' s') ∧
      TwinRun H E E' nets s (ps ++ returnedPrivs vs) (qs ++ returnedPubs vs) s' (ps' ++ returnedPrivs vs') (qs' ++ returnedPubs vs') := by
  obtain ⟨o, o', x, f1, f2, -, -, ⟨_, _, vs', s', rfl, rfl, -⟩ | ⟨_, _, _, rfl, rfl, _⟩⟩ :=
    (h.alike hE hV hC hE' hV' hC').step hE hV hC hE' hV' hC' r ha hw
  · cases Ends.unique he f1
    exact ⟨vs', s', f2, h.call r ha hw he f2⟩
  · cases Ends.unique he f1

end

/-- What an outcome shows is one thing. -/
theorem C141_shows_one {o : Out (List Value)} {x y : Shown} (h : ShowsAs o x) (h' : ShowsAs o y) : x = y := by
  cases h with
  | answer hv =>
    cases h' with
    | answer hv' => rw [Option.some.inj (hv.symm.trans hv')]
    | @error v => cases v <;> simp [view] at hv
    | nil => cases hv
  | @error v =>
    cases h' with
    | answer hv => cases v <;> simp [view] at hv
    | error => rfl
  | nil =>
    cases h' with
    | answer hv => cases hv
    | nil => rfl
  | panic =>
    cases h' with
    | panic => rfl

/-! ## Cases -/

open Samples

/-- C141: in both runs the program imports the text of one; the keys it then holds have the same value, its number is one, and
both add the key to itself with the same result. -/
example (rd : Reader) : ∃ st st' a a' k, TwinRun realHashes pkg pkg [] st [some a] [] st' [some a'] [] ∧
    privAt st (some a) = some k ∧ privAt st' (some a') = some k ∧ k.Key = some 1 ∧
    ∃ o o' x, (Request.addPrivateKeys (some a) (some a)).EndsFixed realHashes pkg st o ∧
      (Request.addPrivateKeys (some a') (some a')).EndsFixed realHashes pkg st' o' ∧ ShowsAs o x ∧ ShowsAs o' x := by
  obtain ⟨h1, h2, h3, -⟩ := C127_init realHashes pkg rd
  have r0 : TwinRun realHashes pkg pkg [] (ready rd) [] [] (ready rd) [] [] := .start (nets := []) h1 h1
  have t1 : KeyText MainNetwork (hexEncode (smallBody 1)) [0x80] (smallBody 1) := by
    refine ⟨main_prefix, spells_hexEncode _, ?_⟩
    decide +kernel
  obtain ⟨o, e1, ⟨pre, body, wif, ht, st1, a, rfl, k1, -, ha⟩ | ⟨hno, -⟩⟩ := C127_import_hex realHashes pkg (ready rd) h2
    (hexEncode (smallBody 1)) (some 0) MainNetwork h3
  case inr => exact (hno ⟨_, _, t1⟩).elim
  obtain rfl := ht.2.1.unique t1.2.1
  have r1 := r0.call (.privateFromHex (hexEncode (smallBody 1)) (some 0)) (by
    rintro _ ⟨⟩
    exact (List.getElem?_eq_some_iff.1 (show (ready rd).heap.nets[0]? = some MainNetwork from h3)).1) nofun e1 e1
  have v := ha.priv (h3.kept (rd := rd) k1)
  refine ⟨st1, st1, a, a, _, r1, v, v, congrArg some (show ((bigEndian (smallBody 1) : Nat) : Int) = 1 by decide +kernel), ?_⟩
  exact C141_same refPkg.1 refPkg.2.1 refPkg.2.2 refPkg.1 refPkg.2.1 refPkg.2.2 r1 (.addPrivateKeys (some 0) (some 0))
    ⟨⟨0, rfl, Nat.one_pos⟩, 0, rfl, Nat.one_pos⟩ nofun

/-- C141: without random bytes both runs panic; the programs go on with other random bytes, and an import without a network
then shows the same in both. -/
example : ∃ st st', TwinRun realHashes pkg pkg [] st [] [] st' [] [] ∧ st.rd = [7] ∧
    ∃ o o' x, (Request.privateFromHex [] none).EndsFixed realHashes pkg st o ∧
      (Request.privateFromHex [] none).EndsFixed realHashes pkg st' o' ∧ ShowsAs o x ∧ ShowsAs o' x := by
  obtain ⟨h1, h2, h3, -⟩ := C127_init realHashes pkg []
  have r0 : TwinRun realHashes pkg pkg [] (ready []) [] [] (ready []) [] [] := .start (nets := []) h1 h1
  have ha : Asks (ready []).heap.nets.length 0 0 (.generatePrivateKey (some 0)) := by
    rintro _ ⟨⟩
    exact (List.getElem?_eq_some_iff.1 (show (ready []).heap.nets[0]? = some MainNetwork from h3)).1
  obtain ⟨o, e1, ⟨body, rest, _, _, _, hf, -⟩ | ⟨-, s, rfl, -⟩⟩ :=
    C127_generate realHashes pkg (ready []) h2 (some 0) MainNetwork h3 [0x80] main_prefix
  · have := hf.length
    simp [ready] at this
  have r1 := r0.recovered (.generatePrivateKey (some 0)) [7] ha e1 e1
  exact ⟨_, _, r1, rfl, C141_same refPkg.1 refPkg.2.1 refPkg.2.2 refPkg.1 refPkg.2.1 refPkg.2.2 r1 (.privateFromHex [] none)
    nofun nofun⟩

end Btc
