import Verif.Props.Careful
import Verif.Props.RepairPhrase
import Verif.Props.RepairPub

/-!
# C130: programs that use the repaired text

C113 is about programs that check what the repository does not check. With the text of `Verif/Source/Repair.lean` a
program need check nothing: it may pass every text, number and word list, and networks that are nil or have bad prefixes.
-/

namespace Btc

open Spec Mem Source

/-- The call, run on the repaired text, ends in `o`. -/
def Source.Request.EndsFixed (H : Hashes) (E : EcdsaM) (r : Request) (st : State) (o : Out (List Value)) : Prop :=
  Source.Ends H E repaired r.recv r.name r.args st o

namespace Spec

/-- Specification: a pointer to a network is nil or points to a network. -/
def NetPtr (st : State) (network : Ptr) : Prop := network = none ∨ ∃ net, NetAt st network net

/-- Specification: all that is asked of a program is that its pointers are pointers to networks, or to keys which the
package returned. `ps` and `qs` are the private and public keys it holds. -/
def Typed (st : State) (ps qs : List Ptr) : Request → Prop
  | .checkWIF _ => True
  | .privateFromWIF _ network => NetPtr st network
  | .privateFromHex _ network => NetPtr st network
  | .generatePrivateKey network => NetPtr st network
  | .addPrivateKeys p q => p ∈ ps ∧ q ∈ ps
  | .multiplyPrivateKeys p q => p ∈ ps ∧ q ∈ ps
  | .publicFromHex _ network => NetPtr st network
  | .getPublicKey p => p ∈ ps
  | .format q _ => q ∈ qs
  | .address q _ => q ∈ qs
  | .addPublicKeys p q _ => p ∈ qs ∧ q ∈ qs
  | .newMnemonic _ _ => True
  | .newSeedFromMnemonic _ _ _ => True

/-- Specification: a private key in order, with the prefix of its network. -/
def HeldKey (sha : Bytes → Bytes) (st : State) (p : Ptr) : Prop :=
  ∃ network net hexa wif pre body c, KeyAt sha st p network hexa wif pre body c ∧ NetAt st network net ∧ Spells net.PrivKeyPrefix pre

/-- Specification: a public key in order. -/
def HeldPub (st : State) (q : Ptr) : Prop := ∃ network net x y, PubAt st q network x y ∧ NetAt st network net

end Spec

/-- The states that programs reach with the repaired text, and the private and public keys they hold. Panics are recovered;
the random source may be exchanged. `nets` are networks of the program's own. -/
inductive FixedRun (H : Hashes) (E : EcdsaM) (nets : List Network) : State → List Ptr → List Ptr → Prop
  | start {rd : Reader} {st : State} : Ends H E repaired 0 (id! "init") [] (before repaired rd) (.ok [] st) →
      FixedRun H E nets { st with heap := { st.heap with nets := st.heap.nets ++ nets } } [] []
  | call {st st' : State} {ps qs : List Ptr} {vs : List Value} (r : Request) : FixedRun H E nets st ps qs →
      Typed st ps qs r → r.EndsFixed H E st (.ok vs st') → FixedRun H E nets st' (ps ++ returnedPrivs vs) (qs ++ returnedPubs vs)
  | recovered {st st' : State} {ps qs : List Ptr} {pn : GoPanic} (r : Request) : FixedRun H E nets st ps qs →
      Typed st ps qs r → r.EndsFixed H E st (.panic pn st') → FixedRun H E nets st' ps qs
  | source {st : State} {ps qs : List Ptr} (rd : Reader) : FixedRun H E nets st ps qs → FixedRun H E nets { st with rd := rd } ps qs

/-- What is true of every state that is reached. -/
structure Sound (H : Hashes) (st : State) (ps qs : List Ptr) : Prop where
  order : OrderKnown st
  curve : CurveOK st.heap
  privs : ∀ p ∈ ps, HeldKey H.sha256 st p
  pubs : ∀ q ∈ qs, HeldPub st q
  log : st.log = []
  objs : Objs st.heap
  vars : st.vars = [(id! "MainNetwork", .net (some 0)), (id! "TestNetwork", .net (some 1))]

section
variable {H : Hashes} {E : EcdsaM} {V : Ecdsa} {st : State} {ps qs : List Ptr}

theorem NetAt.kept {rd : Reader} {st' : State} (hk : Kept { st with rd := rd } st') {network : Ptr} {net : Network}
    (h : NetAt st network net) : NetAt st' network net := by
  unfold NetAt at h ⊢
  rw [← hk.heap.nets]
  exact h

theorem KeyAt.kept {rd : Reader} {st' : State} (hk : Kept { st with rd := rd } st') {p network : Ptr}
    {hexa wif : GoString} {pre body : Bytes} {c : Bool} (h : KeyAt H.sha256 st p network hexa wif pre body c) :
    KeyAt H.sha256 st' p network hexa wif pre body c :=
  C127_keys_stay H hk ⟨h.object, h.text, h.wif, h.length, h.low, h.high⟩

theorem PubAt.kept {rd : Reader} {st' : State} (hk : Kept { st with rd := rd } st') {q network : Ptr} {x y : Nat}
    (h : PubAt st q network x y) : PubAt st' q network x y :=
  C129_keys_stay hk ⟨h.object, h.point⟩

theorem Sound.kept {rd : Reader} {st' : State} (hk : Kept { st with rd := rd } st') (h : Sound H st ps qs) : Sound H st' ps qs where
  order := by
    have := h.order
    unfold OrderKnown at this ⊢
    rw [← hk.heap.curve]
    exact load_grow hk.heap this
  curve := h.curve.grow hk.heap
  privs p hp := by
    obtain ⟨network, net, hexa, wif, pre, body, c, h1, h2, h3⟩ := h.privs p hp
    exact ⟨network, net, hexa, wif, pre, body, c, h1.kept hk, h2.kept hk, h3⟩
  pubs q hq := by
    obtain ⟨network, net, x, y, h1, h2⟩ := h.pubs q hq
    exact ⟨network, net, x, y, h1.kept hk, h2.kept hk⟩
  log := hk.log.trans h.log
  objs := hk.objs h.objs
  vars := hk.vars.trans h.vars

/-- A call ended well: it returned, changed nothing, and what it returned is in order; or it is `GeneratePrivateKey` and the random source ended. -/
def Fine (H : Hashes) (st : State) (ps qs : List Ptr) (r : Request) (o : Out (List Value)) : Prop :=
  (∃ vs st', o = .ok vs st' ∧ Grow st.heap st'.heap ∧ Sound H st' (ps ++ returnedPrivs vs) (qs ++ returnedPubs vs)) ∨
  ∃ network st', r = .generatePrivateKey network ∧ (¬ ∃ body rest, FirstKey st.rd body rest) ∧
    o = .panic (.explicit .randRead) st' ∧ Sound H st' ps qs

theorem fine_same {r : Request} {vs : List Value} {st' : State} {rd : Reader} (h : Sound H st ps qs)
    (hk : Kept { st with rd := rd } st') (h1 : returnedPrivs vs = []) (h2 : returnedPubs vs = []) : Fine H st ps qs r (.ok vs st') :=
  .inl ⟨vs, st', rfl, hk.heap, by rw [h1, h2, List.append_nil, List.append_nil]; exact h.kept hk⟩

theorem fine_key {r : Request} {vs : List Value} {st' : State} {rd : Reader} {a : Nat} (h : Sound H st ps qs)
    (hk : Kept { st with rd := rd } st') (h1 : returnedPrivs vs = [some a]) (h2 : returnedPubs vs = [])
    (ha : HeldKey H.sha256 st' (some a)) : Fine H st ps qs r (.ok vs st') := by
  have hs := h.kept hk
  refine .inl ⟨vs, st', rfl, hk.heap, hs.order, hs.curve, fun p hp => ?_, ?_, hs.log, hs.objs, hs.vars⟩
  · rw [h1] at hp
    rcases List.mem_append.1 hp with hp | hp
    · exact hs.privs p hp
    · rw [List.mem_singleton.1 hp]
      exact ha
  · rw [h2, List.append_nil]
    exact hs.pubs

theorem fine_pub {r : Request} {vs : List Value} {st' : State} {rd : Reader} {a : Nat} (h : Sound H st ps qs)
    (hk : Kept { st with rd := rd } st') (h1 : returnedPrivs vs = []) (h2 : returnedPubs vs = [some a])
    (ha : HeldPub st' (some a)) : Fine H st ps qs r (.ok vs st') := by
  have hs := h.kept hk
  refine .inl ⟨vs, st', rfl, hk.heap, hs.order, hs.curve, ?_, fun p hp => ?_, hs.log, hs.objs, hs.vars⟩
  · rw [h1, List.append_nil]
    exact hs.privs
  · rw [h2] at hp
    rcases List.mem_append.1 hp with hp | hp
    · exact hs.pubs p hp
    · rw [List.mem_singleton.1 hp]
      exact ha

theorem fine_newKey {r : Request} {network : Ptr} {net : Network} {hexa wif : GoString} {pre body : Bytes} {c : Bool}
    {o : Out (List Value)} (h : Sound H st ps qs) (hn : NetAt st network net) (hp : Spells net.PrivKeyPrefix pre)
    (ho : NewKey H.sha256 st network hexa wif pre body c o) : Fine H st ps qs r o := by
  obtain ⟨st', a, rfl, hk, -, ha⟩ := ho
  exact fine_key h hk rfl rfl ⟨_, _, _, _, _, _, _, ha, hn.kept (rd := st.rd) hk, hp⟩

theorem fine_error {r : Request} {e : GoError} {o : Out (List Value)} (h : Sound H st ps qs) (ho : GaveError st e o) :
    Fine H st ps qs r o := by
  obtain ⟨st', rfl, hk⟩ := ho
  exact fine_same h hk rfl rfl

theorem fine_newPub {r : Request} {network : Ptr} {net : Network} {x y : Nat} {o : Out (List Value)} (h : Sound H st ps qs)
    (hn : NetAt st network net) (ho : NewPubKey st network x y o) : Fine H st ps qs r o := by
  obtain ⟨st', a, rfl, hk, -, ha⟩ := ho
  exact fine_pub h hk rfl rfl ⟨_, _, _, _, ha, hn.kept (rd := st.rd) hk⟩

theorem fine_noPub {r : Request} {e : GoError} {o : Out (List Value)} (h : Sound H st ps qs) (ho : GaveNoPub st e o) :
    Fine H st ps qs r o := by
  obtain ⟨st', rfl, hk⟩ := ho
  exact fine_same h hk rfl rfl

/-- Every call ends well. -/
theorem Sound.step (hE : Pkg E) (hV : E.Refines V) (hC : EcdsaContract V) (h : Sound H st ps qs) (r : Request)
    (hr : Typed st ps qs r) : ∃ o, r.EndsFixed H E st o ∧ Fine H st ps qs r o := by
  cases r with
  | checkWIF wif =>
    obtain ⟨b, st', he, hk, -⟩ := C127_check H E st wif
    exact ⟨_, he, fine_same h hk rfl rfl⟩
  | privateFromWIF wif network =>
    rcases hr with rfl | ⟨net, hn⟩
    · obtain ⟨o, he, ho⟩ := (C127_nil_network H E st wif).2
      exact ⟨o, he, fine_error h ho⟩
    · obtain ⟨o, he, ⟨pre, body, c, ht, ho⟩ | ⟨-, _, -, ho⟩⟩ := C127_import_wif H E st h.order wif network net hn
      · exact ⟨o, he, fine_newKey h hn ht.1 ho⟩
      · exact ⟨o, he, fine_error h ho⟩
  | privateFromHex hexa network =>
    rcases hr with rfl | ⟨net, hn⟩
    · obtain ⟨o, he, ho⟩ := (C127_nil_network H E st hexa).1
      exact ⟨o, he, fine_error h ho⟩
    · obtain ⟨o, he, ⟨pre, body, wif, ht, ho⟩ | ⟨-, _, -, ho⟩⟩ := C127_import_hex H E st h.order hexa network net hn
      · exact ⟨o, he, fine_newKey h hn ht.1 ho⟩
      · exact ⟨o, he, fine_error h ho⟩
  | generatePrivateKey network =>
    rcases hr with rfl | ⟨net, hn⟩
    · exact ⟨_, C127_generate_no_network H E st none MainNetwork (.inl rfl), fine_same h (rd := st.rd) (.refl _) rfl rfl⟩
    by_cases hp : ∃ pre, Spells net.PrivKeyPrefix pre
    case neg => exact ⟨_, C127_generate_no_network H E st network net (.inr ⟨hn, hp⟩), fine_same h (rd := st.rd) (.refl _) rfl rfl⟩
    obtain ⟨pre, hp⟩ := hp
    obtain ⟨o, he, ⟨body, rest, wif, st', a, -, rfl, hk, -, ha⟩ | ⟨hf, st', rfl, hk⟩⟩ := C127_generate H E st h.order network net hn pre hp
    · exact ⟨_, he, fine_key h hk rfl rfl ⟨_, _, _, _, _, _, _, ha, hn.kept hk, hp⟩⟩
    · exact ⟨_, he, .inr ⟨network, st', rfl, hf, rfl, h.kept hk⟩⟩
  | addPrivateKeys p q =>
    obtain ⟨nw1, net1, t1, w1, pre1, b1, c1, k1, n1, s1⟩ := h.privs p hr.1
    obtain ⟨nw2, net2, t2, w2, pre2, b2, c2, k2, n2, s2⟩ := h.privs q hr.2
    by_cases hne : net1 = net2
    case neg => exact ⟨_, (C127_other_networks H E k1 k2 n1 n2 hne).1, fine_same h (rd := st.rd) (.refl _) rfl rfl⟩
    subst hne
    obtain rfl := s1.unique s2
    obtain ⟨o, he, ⟨-, body, wif, -, ho⟩ | ⟨-, ho⟩ | ⟨-, -, ho⟩⟩ := C127_add H E h.order k1 k2 n1 n2 s1
    · exact ⟨o, he, fine_newKey h n1 s1 ho⟩
    · exact ⟨o, he, fine_error h ho⟩
    · exact ⟨o, he, fine_error h ho⟩
  | multiplyPrivateKeys p q =>
    obtain ⟨nw1, net1, t1, w1, pre1, b1, c1, k1, n1, s1⟩ := h.privs p hr.1
    obtain ⟨nw2, net2, t2, w2, pre2, b2, c2, k2, n2, s2⟩ := h.privs q hr.2
    by_cases hne : net1 = net2
    case neg => exact ⟨_, (C127_other_networks H E k1 k2 n1 n2 hne).2, fine_same h (rd := st.rd) (.refl _) rfl rfl⟩
    subst hne
    obtain rfl := s1.unique s2
    obtain ⟨o, he, ⟨-, body, wif, -, ho⟩ | ⟨-, ho⟩⟩ := C127_multiply H E h.order k1 k2 n1 n2 s1
    · exact ⟨o, he, fine_newKey h n1 s1 ho⟩
    · exact ⟨o, he, fine_error h ho⟩
  | publicFromHex hexa network =>
    rcases hr with rfl | ⟨net, hn⟩
    · obtain ⟨o, he, ho⟩ := C129_nil_network H E hexa st
      exact ⟨o, he, fine_noPub h ho⟩
    · have hne : network ≠ none := by
        rintro rfl
        cases hn
      obtain ⟨o, he, ⟨c, x, y, -, ho⟩ | ⟨-, e, ho, -⟩⟩ := C129_import H hE hV hC st h.curve hexa network hne
      · exact ⟨o, he, fine_newPub h hn ho⟩
      · exact ⟨o, he, fine_noPub h ho⟩
  | getPublicKey p =>
    obtain ⟨nw, net, t, w, pre, b, c, k, hn, -⟩ := h.privs p hr
    obtain ⟨x, y, q, st', he, hk, -, -, hq⟩ := C129_public_key H hE hV hC EC.G EC.G_coords st h.curve k
    exact ⟨_, he, fine_pub h (rd := st.rd) hk rfl rfl ⟨_, _, _, _, hq, hn.kept (rd := st.rd) hk⟩⟩
  | format q c =>
    obtain ⟨nw, net, x, y, k, hn⟩ := h.pubs q hr
    obtain ⟨s, he, -⟩ := C129_format H st k c
    exact ⟨_, he, fine_same h (rd := st.rd) (.refl _) rfl rfl⟩
  | address q c =>
    obtain ⟨nw, net, x, y, k, hn⟩ := h.pubs q hr
    by_cases hp : ∃ pre, Spells net.PubKeyHashPrefix pre
    · obtain ⟨pre, hp⟩ := hp
      obtain ⟨s, ser, st', he, hk, -⟩ := C129_address H st k hn hp c
      exact ⟨_, he, fine_same h (rd := st.rd) hk rfl rfl⟩
    · obtain ⟨-, e, st', -, -, he, hk⟩ := C129_no_address H st k hn hp c
      exact ⟨_, he, fine_same h (rd := st.rd) hk rfl rfl⟩
  | addPublicKeys p q c =>
    obtain ⟨nw1, net1, x1, y1, k1, n1⟩ := h.pubs p hr.1
    obtain ⟨nw2, net2, x2, y2, k2, n2⟩ := h.pubs q hr.2
    have href := C129_add_refused H (E := E) st k1 k2 n1 n2 c
    by_cases hne : net1 = net2
    case neg => exact ⟨_, href.1 hne, fine_same h (rd := st.rd) (.refl _) rfl rfl⟩
    by_cases hx : x1 = x2
    · exact ⟨_, href.2 hne hx, fine_same h (rd := st.rd) (.refl _) rfl rfl⟩
    subst hne
    obtain ⟨P, hP⟩ := (EC.onCurve_iff _ _).1 k1.point
    obtain ⟨Q, hQ⟩ := (EC.onCurve_iff _ _).1 k2.point
    obtain ⟨o, x, y, he, -, ho⟩ := C129_add H hE hV hC st h.curve k1 k2 n1 n2 hP hQ hx c
    exact ⟨o, he, fine_newPub h n1 ho⟩
  | newMnemonic words wl =>
    obtain ⟨o, he, ⟨c, ws, st', -, -, -, -, -, -, rfl, hk⟩ | ⟨-, st', e, -, rfl, hk⟩⟩ := C128_generate H E words wl st
    · exact ⟨_, he, fine_same h hk rfl rfl⟩
    · exact ⟨_, he, fine_same h (rd := st.rd) hk rfl rfl⟩
  | newSeedFromMnemonic mn pa wl =>
    obtain ⟨st', e, he, hk, -⟩ := C128_accept H E mn pa wl st
    exact ⟨_, he, fine_same h (rd := st.rd) hk rfl rfl⟩

end

theorem FixedRun.sound {H : Hashes} {E : EcdsaM} {V : Ecdsa} (hE : Pkg E) (hV : E.Refines V) (hC : EcdsaContract V)
    {nets : List Network} {st : State} {ps qs : List Ptr} (h : FixedRun H E nets st ps qs) : Sound H st ps qs := by
  induction h with
  | @start rd st he =>
    obtain ⟨h1, h2, -⟩ := C127_init H E rd
    cases he.unique h1
    exact ⟨h2, init_curveOK ([MainNetwork, TestNetwork] ++ nets), nofun, nofun, rfl, init_objs ([MainNetwork, TestNetwork] ++ nets), rfl⟩
  | call r _ ht he ih =>
    obtain ⟨o, he', ⟨vs, st', rfl, -, hs⟩ | ⟨_, _, _, _, rfl, _⟩⟩ := ih.step hE hV hC r ht
    · cases Ends.unique he he'
      exact hs
    · cases Ends.unique he he'
  | recovered r _ ht he ih =>
    obtain ⟨o, he', ⟨vs, st', rfl, -, hs⟩ | ⟨_, _, _, _, rfl, hs⟩⟩ := ih.step hE hV hC r ht
    · cases Ends.unique he he'
    · cases Ends.unique he he'
      exact hs
  | @source st ps qs rd _ ih => exact ih.kept (rd := rd) (.refl _)

section
variable (H : Hashes) (E : EcdsaM) (V : Ecdsa) (hE : Pkg E) (hV : E.Refines V) (hC : EcdsaContract V) (nets : List Network)
  (st : State) (ps qs : List Ptr) (hr : FixedRun H E nets st ps qs)
include hE hV hC hr

/-- C130. All keys that a program holds are in order, whatever it does and however long it runs. -/
theorem C130_keys_in_order : (∀ p ∈ ps, HeldKey H.sha256 st p) ∧ ∀ q ∈ qs, HeldPub st q :=
  ⟨(hr.sound hE hV hC).privs, (hr.sound hE hV hC).pubs⟩

/-- C130. No pointer dangles: the numbers of all key objects exist, also of those the program does not hold. -/
theorem C130_no_dangling : (∀ o ∈ st.heap.privs, ∀ a, o.Key = some a → a < st.heap.ints.length) ∧
    ∀ o ∈ st.heap.pubs, (∀ a, o.X = some a → a < st.heap.ints.length) ∧ ∀ a, o.Y = some a → a < st.heap.ints.length :=
  ⟨(hr.sound hE hV hC).objs.privs, (hr.sound hE hV hC).objs.pubs⟩

/-- C130. No call crashes, whatever texts, numbers, word lists and networks it is given, except that `GeneratePrivateKey`
panics when the random bytes hold no key. -/
theorem C130_no_crash (r : Request) (ht : Typed st ps qs r) :
    (∃ vs st', r.EndsFixed H E st (.ok vs st')) ∨
    ∃ network st', r = .generatePrivateKey network ∧ (¬ ∃ body rest, FirstKey st.rd body rest) ∧
      r.EndsFixed H E st (.panic (.explicit .randRead) st') := by
  obtain ⟨o, he, ⟨vs, st', rfl, -⟩ | ⟨network, st', h1, h2, rfl, -⟩⟩ := (hr.sound hE hV hC).step hE hV hC r ht
  · exact .inl ⟨vs, st', he⟩
  · exact .inr ⟨network, st', h1, h2, he⟩

/-- C130. So a panic is a panic of `GeneratePrivateKey`, for want of random bytes. -/
theorem C130_panic (r : Request) (ht : Typed st ps qs r) (pn : GoPanic) (st' : State) (he : r.EndsFixed H E st (.panic pn st')) :
    pn = .explicit .randRead ∧ (∃ network, r = .generatePrivateKey network) ∧ ¬ ∃ body rest, FirstKey st.rd body rest := by
  rcases C130_no_crash H E V hE hV hC nets st ps qs hr r ht with ⟨vs, st1, h1⟩ | ⟨network, st1, h1, h2, h3⟩
  · cases Ends.unique he h1
  · cases Ends.unique he h3
    exact ⟨rfl, ⟨network, h1⟩, h2⟩

/-- C130. Nothing is ever logged (C52). -/
theorem C130_silent : st.log = [] := (hr.sound hE hV hC).log

/-- C130. The WIF of every private key held is accepted by `CheckWIF` and, on the network of the key, imported again as the
same number. -/
theorem C130_wif (p : Ptr) (hp : p ∈ ps) : ∃ network wif pre body c hexa st1 a st2,
    KeyAt H.sha256 st p network hexa wif pre body c ∧
    (Request.checkWIF wif).EndsFixed H E st (.ok [.bool true] st1) ∧
    (Request.privateFromWIF wif network).EndsFixed H E st1 (.ok [.priv (some a), .err none] st2) ∧
    KeyAt H.sha256 st2 (some a) network (hexEncode body) wif pre body c := by
  have hs := hr.sound hE hV hC
  obtain ⟨network, net, hexa, wif, pre, body, c, h1, h2, h3⟩ := hs.privs p hp
  obtain ⟨b, st1, e1, k1, hb⟩ := C127_check H E st wif
  obtain rfl := hb.2 ⟨_, h1.wif⟩
  have hs1 := hs.kept (rd := st.rd) k1
  obtain ⟨o, e2, st2, a, rfl, -, -, h4⟩ := C127_round_trip H E st1 hs1.order p network net hexa wif pre body c
    (h1.kept (rd := st.rd) k1) (h2.kept (rd := st.rd) k1) h3
  exact ⟨network, wif, pre, body, c, hexa, st1, a, st2, h1, e1, e2, h4⟩

/-- C130. The text of every public key held is imported again as the same point, in both forms. -/
theorem C130_text (q : Ptr) (hq : q ∈ qs) (c : Bool) : ∃ network x y s a st1,
    PubAt st q network x y ∧ (Request.format q c).EndsFixed H E st (.ok [.str s] st) ∧
    (Request.publicFromHex s network).EndsFixed H E st (.ok [.pub (some a), .err none] st1) ∧
    PubAt st1 (some a) network x y := by
  have hs := hr.sound hE hV hC
  obtain ⟨network, net, x, y, h1, h2⟩ := hs.pubs q hq
  obtain ⟨s, o, e1, e2, st1, a, rfl, -, -, h3⟩ := C129_round_trip H hE hV hC st hs.curve h1 c (nw := network) (by
    rintro rfl
    cases h2)
  exact ⟨network, x, y, s, a, st1, h1, e1, e2, h3⟩

/-- C130. From every private key held a program obtains its public key and, if the network has a hexadecimal prefix, the
Bitcoin address of its number. -/
theorem C130_address (B : W.Point) (hB : HasCoords B gx gy) (p : Ptr) (hp : p ∈ ps) (c : Bool) :
    ∃ network net hexa wif pre body m x y q st1, KeyAt H.sha256 st p network hexa wif pre body m ∧ NetAt st network net ∧
      (Request.getPublicKey p).EndsFixed H E st (.ok [.pub (some q), .bool true] st1) ∧ HasCoords (bigEndian body • B) x y ∧
      ∀ ver, Spells net.PubKeyHashPrefix ver → ∃ s ser st2,
        (Request.address (some q) c).EndsFixed H E st1 (.ok [.str s, .err none] st2) ∧ IsSerialized c x y ser ∧
        IsBase58Check H.sha256 (ver ++ hash160 H.sha256 H.ripemd160 ser) s := by
  have hs := hr.sound hE hV hC
  obtain ⟨network, net, hexa, wif, pre, body, m, h1, h2, -⟩ := hs.privs p hp
  obtain ⟨x, y, q, st1, e1, k1, -, hxy, h3⟩ := C129_public_key H hE hV hC B hB st hs.curve h1
  refine ⟨network, net, hexa, wif, pre, body, m, x, y, q, st1, h1, h2, e1, hxy, fun ver hv => ?_⟩
  obtain ⟨s, ser, st2, e2, -, h4, h5⟩ := C129_address H st1 h3 (h2.kept (rd := st.rd) k1) hv c
  exact ⟨s, ser, st2, e2, h4, h5⟩

/-- C130. No two keys held on one network have the same WIF but different numbers; and keys with the same number in the same
form have the same WIF. -/
theorem C130_wifs_differ (p1 p2 : Ptr) (hp1 : p1 ∈ ps) (hp2 : p2 ∈ ps) :
    ∃ nw1 net1 t1 w1 pre1 b1 c1 nw2 net2 t2 w2 pre2 b2 c2, KeyAt H.sha256 st p1 nw1 t1 w1 pre1 b1 c1 ∧
      KeyAt H.sha256 st p2 nw2 t2 w2 pre2 b2 c2 ∧ NetAt st nw1 net1 ∧ NetAt st nw2 net2 ∧
      (net1 = net2 → (w1 = w2 ↔ bigEndian b1 = bigEndian b2 ∧ c1 = c2)) := by
  have hs := hr.sound hE hV hC
  obtain ⟨nw1, net1, t1, w1, pre1, b1, c1, k1, n1, s1⟩ := hs.privs p1 hp1
  obtain ⟨nw2, net2, t2, w2, pre2, b2, c2, k2, n2, s2⟩ := hs.privs p2 hp2
  refine ⟨nw1, net1, t1, w1, pre1, b1, c1, nw2, net2, t2, w2, pre2, b2, c2, k1, k2, n1, n2, fun e => ?_⟩
  subst e
  obtain rfl := s1.unique s2
  constructor
  · rintro rfl
    obtain ⟨rfl, rfl⟩ := C127_same_wif H k1 k2
    exact ⟨rfl, rfl⟩
  · rintro ⟨h, rfl⟩
    exact C127_one_wif H k1 k2 h

end

/-! ## Cases -/

open Samples

/-- The program starts, and imports the texts of one and two, which no program of C113 must check first. -/
theorem fixed_case (rd : Reader) : ∃ st a b, FixedRun realHashes pkg [] st [some a, some b] [] ∧
    NetAt st (some 0) MainNetwork ∧
    (∃ wif, KeyAt realHashes.sha256 st (some a) (some 0) (hexEncode (smallBody 1)) wif [0x80] (smallBody 1) false) ∧
    ∃ wif, KeyAt realHashes.sha256 st (some b) (some 0) (hexEncode (smallBody 2)) wif [0x80] (smallBody 2) false := by
  obtain ⟨h1, h2, h3, -⟩ := C127_init realHashes pkg rd
  have r0 : FixedRun realHashes pkg [] (ready rd) [] [] := .start (nets := []) h1
  have t1 : KeyText MainNetwork (hexEncode (smallBody 1)) [0x80] (smallBody 1) := by
    refine ⟨main_prefix, spells_hexEncode _, ?_⟩
    decide +kernel
  have t2 : KeyText MainNetwork (hexEncode (smallBody 2)) [0x80] (smallBody 2) := by
    refine ⟨main_prefix, spells_hexEncode _, ?_⟩
    decide +kernel
  obtain ⟨o, e1, ⟨pre, body, wif, ht, st1, a, rfl, k1, -, ha⟩ | ⟨hno, -⟩⟩ := C127_import_hex realHashes pkg (ready rd) h2
    (hexEncode (smallBody 1)) (some 0) MainNetwork h3
  case inr => exact (hno ⟨_, _, t1⟩).elim
  obtain rfl := ht.2.1.unique t1.2.1
  obtain rfl := ht.1.unique main_prefix
  have r1 := r0.call (.privateFromHex (hexEncode (smallBody 1)) (some 0)) (.inr ⟨_, h3⟩) e1
  have s1 := r1.sound refPkg.1 refPkg.2.1 refPkg.2.2
  have n1 := h3.kept (rd := rd) k1
  obtain ⟨o, e2, ⟨pre2, body2, wif2, ht2, st2, b, rfl, k2, -, hb⟩ | ⟨hno, -⟩⟩ := C127_import_hex realHashes pkg st1 s1.order
    (hexEncode (smallBody 2)) (some 0) MainNetwork n1
  case inr => exact (hno ⟨_, _, t2⟩).elim
  obtain rfl := ht2.2.1.unique t2.2.1
  obtain rfl := ht2.1.unique main_prefix
  have r2 := r1.call (.privateFromHex (hexEncode (smallBody 2)) (some 0)) (.inr ⟨_, n1⟩) e2
  exact ⟨st2, a, b, r2, n1.kept (rd := st1.rd) k2, ⟨_, ha.kept (H := realHashes) (rd := st1.rd) k2⟩, _, hb⟩

/-- C130: the keys are in order; adding them does not crash, nor does the import of a text that is no WIF, with no network. -/
example (rd : Reader) : ∃ st a b, FixedRun realHashes pkg [] st [some a, some b] [] ∧ HeldKey realHashes.sha256 st (some b) ∧
    (∃ vs st', (Request.addPrivateKeys (some a) (some b)).EndsFixed realHashes pkg st (.ok vs st')) ∧
    (∃ vs st', (Request.privateFromWIF (asc "no WIF") none).EndsFixed realHashes pkg st (.ok vs st')) ∧ st.log = [] := by
  obtain ⟨st, a, b, h, -⟩ := fixed_case rd
  have hc := C130_no_crash realHashes pkg EC.ref refPkg.1 refPkg.2.1 refPkg.2.2 [] st _ _ h
  refine ⟨st, a, b, h, (C130_keys_in_order _ _ _ refPkg.1 refPkg.2.1 refPkg.2.2 _ _ _ _ h).1 _ (by simp),
    (hc (.addPrivateKeys (some a) (some b)) ⟨by simp, by simp⟩).resolve_right ?_,
    (hc (.privateFromWIF (asc "no WIF") none) (.inl rfl)).resolve_right ?_,
    C130_silent _ _ _ refPkg.1 refPkg.2.1 refPkg.2.2 _ _ _ _ h⟩
  · rintro ⟨_, _, h, _⟩
    cases h
  · rintro ⟨_, _, h, _⟩
    cases h

/-- C130: their WIFs differ, can be read back, and each has an address. -/
example (rd : Reader) : ∃ (st : State) (a b : Nat), (∃ network wif pre body c hexa st1 a' st2,
      KeyAt realHashes.sha256 st (some a) network hexa wif pre body c ∧
      (Request.checkWIF wif).EndsFixed realHashes pkg st (.ok [.bool true] st1) ∧
      (Request.privateFromWIF wif network).EndsFixed realHashes pkg st1 (.ok [.priv (some a'), .err none] st2)) ∧
    ∃ q st1, (Request.getPublicKey (some b)).EndsFixed realHashes pkg st (.ok [.pub (some q), .bool true] st1) := by
  obtain ⟨st, a, b, h, -⟩ := fixed_case rd
  obtain ⟨network, wif, pre, body, c, hexa, st1, a', st2, h1, h2, h3, -⟩ :=
    C130_wif realHashes pkg EC.ref refPkg.1 refPkg.2.1 refPkg.2.2 [] st _ _ h (some a) (by simp)
  obtain ⟨_, _, _, _, _, _, _, _, _, q, st3, -, -, h4, -⟩ :=
    C130_address realHashes pkg EC.ref refPkg.1 refPkg.2.1 refPkg.2.2 [] st _ _ h EC.G EC.G_coords (some b) (by simp) true
  exact ⟨st, a, b, ⟨network, wif, pre, body, c, hexa, st1, a', st2, h1, h2, h3⟩, q, st3, h4⟩

/-- C130: with no random bytes `GeneratePrivateKey` panics. -/
example : ∃ st pn st', FixedRun realHashes pkg [] st [] [] ∧
    (Request.generatePrivateKey (some 0)).EndsFixed realHashes pkg st (.panic pn st') := by
  obtain ⟨h1, h2, h3, -⟩ := C127_init realHashes pkg []
  obtain ⟨o, e, ⟨_, _, _, _, _, hf, _⟩ | ⟨-, st', rfl, -⟩⟩ := C127_generate realHashes pkg (ready []) h2 (some 0) MainNetwork h3 [0x80] main_prefix
  · exact absurd hf.length (by change ¬ _ ≤ 0; omega)
  · exact ⟨_, _, _, .start (nets := []) h1, e⟩

end Btc
