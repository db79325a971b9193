import Verif.Props.Local

/-!
# C126: programs that use the package cannot see its memory

C114 is about one call. Here a whole program is run: a `Caller` makes a call, looks at everything it can see (the keys
returned with their fields, errors, panics, lines of the log) and decides what to do next. It is proved of the text that
what a client sees is computed by `transcript`, in which keys are plain values and there are no pointers and no memory.
-/

namespace Btc

open Mem Source Spec

namespace Spec

/-- Specification: a call as a client writes it. Keys are named by their place among the keys which the client has got so
far, networks by their place among `MainNetwork`, `TestNetwork` and the client's own; `none` is nil, and so is a place
beyond the end. -/
inductive Ask where
  | checkWIF (wif : GoString)
  | privateFromWIF (wif : GoString) (network : Option Nat)
  | privateFromHex (hexa : GoString) (network : Option Nat)
  | generatePrivateKey (network : Option Nat)
  | addPrivateKeys (a b : Option Nat)
  | multiplyPrivateKeys (a b : Option Nat)
  | publicFromHex (hexa : GoString) (network : Option Nat)
  | getPublicKey (k : Option Nat)
  | format (k : Option Nat) (compressed : Bool)
  | address (k : Option Nat) (compressed : Bool)
  | addPublicKeys (a b : Option Nat) (compressed : Bool)
  | newMnemonic (words : Int) (wordlist : Option (List GoString))
  | newSeedFromMnemonic (mnemonic passphrase : GoString) (wordlist : Option (List GoString))

/-- Specification: what a client sees of one call: the panic or the values, and the lines logged. -/
structure Glimpse where
  out : Except GoPanic (List Seen)
  log : Log

/-- Specification: a client. It stops, makes a call and goes on according to what it sees, or builds a key of its own out
of any parts. -/
inductive Caller where
  | stop
  | ask (a : Ask) (next : Glimpse → Caller)
  | priv (key : Option Int) (hexa wif : GoString) (network : Option Nat) (next : Caller)
  | pub (x y : Option Int) (network : Option Nat) (next : Caller)

/-- Specification: the element at a place; nil is nothing. -/
def place {α : Type} (l : List α) (i : Option Nat) : Option α := i.bind (l[·]?)

/-- Specification: the pointer at a place. -/
def placePtr (l : List Ptr) (i : Option Nat) : Ptr := (place l i).getD none

/-- Specification: the call with the pointers which the client holds. -/
def Ask.request (ps qs : List Ptr) : Ask → Request
  | .checkWIF w => .checkWIF w
  | .privateFromWIF w net => .privateFromWIF w net
  | .privateFromHex h net => .privateFromHex h net
  | .generatePrivateKey net => .generatePrivateKey net
  | .addPrivateKeys a b => .addPrivateKeys (placePtr ps a) (placePtr ps b)
  | .multiplyPrivateKeys a b => .multiplyPrivateKeys (placePtr ps a) (placePtr ps b)
  | .publicFromHex h net => .publicFromHex h net
  | .getPublicKey k => .getPublicKey (placePtr ps k)
  | .format k c => .format (placePtr qs k) c
  | .address k c => .address (placePtr qs k) c
  | .addPublicKeys a b c => .addPublicKeys (placePtr qs a) (placePtr qs b) c
  | .newMnemonic n wl => .newMnemonic n wl
  | .newSeedFromMnemonic m pa wl => .newSeedFromMnemonic m pa wl

/-- Specification: the call with the values of the keys. -/
def Ask.question (all : List Network) (ks : List PrivateKey) (js : List PublicKey) : Ask → Question
  | .checkWIF w => .checkWIF w
  | .privateFromWIF w net => .privateFromWIF w (place all net)
  | .privateFromHex h net => .privateFromHex h (place all net)
  | .generatePrivateKey net => .generatePrivateKey (place all net)
  | .addPrivateKeys a b => .addPrivateKeys (place ks a) (place ks b)
  | .multiplyPrivateKeys a b => .multiplyPrivateKeys (place ks a) (place ks b)
  | .publicFromHex h net => .publicFromHex h (place all net)
  | .getPublicKey k => .getPublicKey (place ks k)
  | .format k c => .format (place js k) c
  | .address k c => .address (place js k) c
  | .addPublicKeys a b c => .addPublicKeys (place js a) (place js b) c
  | .newMnemonic n wl => .newMnemonic n wl
  | .newSeedFromMnemonic m pa wl => .newSeedFromMnemonic m pa wl

/-- Specification: the call reads the random source. `NewMnemonic` refuses a missing list and other numbers of words
before it does. -/
def Ask.draws : Ask → Bool
  | .generatePrivateKey _ => true
  | .newMnemonic n wl => wl.isSome && (n == 12 || n == 15 || n == 18 || n == 21 || n == 24)
  | _ => false

/-- Specification: the pointers to private keys among returned values. -/
def gotPrivs (s : State) (vs : List Value) : List Ptr :=
  vs.filterMap fun | .priv p => if (privAt s p).isSome then some p else none | _ => none

/-- Specification: the pointers to public keys among returned values. -/
def gotPubs (s : State) (vs : List Value) : List Ptr :=
  vs.filterMap fun | .pub p => if (pubAt s p).isSome then some p else none | _ => none

/-- Specification: the private keys among values seen. -/
def shownPrivs (l : List Seen) : List PrivateKey := l.filterMap fun | .priv k => k | _ => none

/-- Specification: the public keys among values seen. -/
def shownPubs (l : List Seen) : List PublicKey := l.filterMap fun | .pub k => k | _ => none

/-- Specification: a client runs on the text. `ps` and `qs` are the keys it holds; the last argument is all it sees. A
panic is recovered from. Numbers may be made at any time, and a key which the client builds may share its numbers
with other keys or have its own. -/
inductive Plays (H : Hashes) (E : EcdsaM) : Caller → State → List Ptr → List Ptr → List Glimpse → Prop
  | stop (st : State) (ps qs : List Ptr) : Plays H E .stop st ps qs []
  | returns {a : Ask} {next : Glimpse → Caller} {st s : State} {ps qs : List Ptr} {vs : List Value} {l : Log}
      {gs : List Glimpse} : (a.request ps qs).Ends H E st (.ok vs s) → s.log = st.log ++ l →
      Plays H E (next ⟨.ok (vs.map (see s)), l⟩) s (ps ++ gotPrivs s vs) (qs ++ gotPubs s vs) gs →
      Plays H E (.ask a next) st ps qs (⟨.ok (vs.map (see s)), l⟩ :: gs)
  | panics {a : Ask} {next : Glimpse → Caller} {st s : State} {ps qs : List Ptr} {e : GoPanic} {l : Log}
      {gs : List Glimpse} : (a.request ps qs).Ends H E st (.panic e s) → s.log = st.log ++ l →
      Plays H E (next ⟨.error e, l⟩) s ps qs gs → Plays H E (.ask a next) st ps qs (⟨.error e, l⟩ :: gs)
  | int {c : Caller} {st : State} {ps qs : List Ptr} {gs : List Glimpse} (v : Int) :
      Plays H E c { st with heap := { st.heap with ints := st.heap.ints ++ [v] } } ps qs gs → Plays H E c st ps qs gs
  | priv {next : Caller} {st : State} {ps qs : List Ptr} {gs : List Glimpse} (o : PrivObj) : ValidInt st.heap o.Key →
      Plays H E next { st with heap := { st.heap with privs := st.heap.privs ++ [o] } } (ps ++ [some st.heap.privs.length]) qs gs →
      Plays H E (.priv (loadInt st.heap o.Key) o.Hex o.WIF o.Network next) st ps qs gs
  | pub {next : Caller} {st : State} {ps qs : List Ptr} {gs : List Glimpse} (o : PubObj) : ValidInt st.heap o.X →
      ValidInt st.heap o.Y →
      Plays H E next { st with heap := { st.heap with pubs := st.heap.pubs ++ [o] } } ps (qs ++ [some st.heap.pubs.length]) gs →
      Plays H E (.pub (loadInt st.heap o.X) (loadInt st.heap o.Y) o.Network next) st ps qs gs

end Spec

/-- What a call can read of the random source; one that does not draw needs nothing. -/
def source : Bool → Option Reader → Option Reader
  | true, rd => rd
  | false, _ => some []

/-- What a client sees, computed on values. `rd` is what is left of the random source, `none` when a draw has failed
before; the transcript ends where the client then wants to draw again. -/
def transcript (H : Hashes) (V : Ecdsa) (all : List Network) : Caller → Option Reader → List PrivateKey → List PublicKey →
    List Glimpse
  | .stop, _, _, _ => []
  | .ask a next, rd, ks, js =>
    match source a.draws rd with
    | none => []
    | some r =>
      let x := answer H V r (a.question all ks js)
      ⟨x.out, x.log⟩ :: transcript H V all (next ⟨x.out, x.log⟩) (if a.draws then x.rest else rd)
        (ks ++ (x.out.toOption.map shownPrivs).getD []) (js ++ (x.out.toOption.map shownPubs).getD [])
  | .priv key hexa wif net next, rd, ks, js => transcript H V all next rd (ks ++ [⟨key, hexa, wif, place all net⟩]) js
  | .pub x y net next, rd, ks, js => transcript H V all next rd ks (js ++ [⟨x, y, place all net⟩])

/-- The client never wants to draw after a draw has failed. -/
def patient (H : Hashes) (V : Ecdsa) (all : List Network) : Caller → Option Reader → List PrivateKey → List PublicKey → Bool
  | .stop, _, _, _ => true
  | .ask a next, rd, ks, js =>
    match source a.draws rd with
    | none => false
    | some r =>
      let x := answer H V r (a.question all ks js)
      patient H V all (next ⟨x.out, x.log⟩) (if a.draws then x.rest else rd)
        (ks ++ (x.out.toOption.map shownPrivs).getD []) (js ++ (x.out.toOption.map shownPubs).getD [])
  | .priv key hexa wif net next, rd, ks, js => patient H V all next rd (ks ++ [⟨key, hexa, wif, place all net⟩]) js
  | .pub x y net next, rd, ks, js => patient H V all next rd ks (js ++ [⟨x, y, place all net⟩])

section
variable {H : Hashes} {E : EcdsaM} {V : Ecdsa} {nets : List Network} {st : State}

/-- The client holds the keys `ks` and `js`. -/
structure Holding (st : State) (ps qs : List Ptr) (ks : List PrivateKey) (js : List PublicKey) : Prop where
  privs : ps.map (privAt st) = ks.map some
  pubs : qs.map (pubAt st) = js.map some

theorem place_map {α β γ : Type} {l : List α} {m : List β} {f : α → γ} {g : β → γ} (h : l.map f = m.map g) (i : Option Nat) :
    (place l i).map f = (place m i).map g := by
  cases i with
  | none => rfl
  | some i =>
    have := congrArg (·[i]?) h
    simpa [place, List.getElem?_map] using this

theorem Holding.priv {ps qs : List Ptr} {ks : List PrivateKey} {js : List PublicKey} (h : Holding st ps qs ks js) (i : Option Nat) :
    privAt st (placePtr ps i) = place ks i := by
  have := place_map h.privs i
  unfold placePtr
  cases h1 : place ps i <;> cases h2 : place ks i <;> rw [h1, h2] at this <;> simp at this
  · rfl
  · exact this

theorem Holding.pub {ps qs : List Ptr} {ks : List PrivateKey} {js : List PublicKey} (h : Holding st ps qs ks js) (i : Option Nat) :
    pubAt st (placePtr qs i) = place js i := by
  have := place_map h.pubs i
  unfold placePtr
  cases h1 : place qs i <;> cases h2 : place js i <;> rw [h1, h2] at this <;> simp at this
  · rfl
  · exact this

theorem loadNet_place (hd : Sound nets st) (i : Option Nat) : loadNet st.heap i = place (MainNetwork :: TestNetwork :: nets) i := by
  unfold loadNet place
  rw [show st.heap.nets = MainNetwork :: TestNetwork :: nets from hd.grow.nets.symm]

theorem question_request (hd : Sound nets st) {ps qs : List Ptr} {ks : List PrivateKey} {js : List PublicKey}
    (h : Holding st ps qs ks js) (a : Ask) :
    Spec.question st (a.request ps qs) = a.question (MainNetwork :: TestNetwork :: nets) ks js := by
  cases a <;> simp only [Ask.request, Ask.question, Spec.question, h.priv, h.pub, loadNet_place hd]

theorem Holding.keep {ps qs : List Ptr} {ks : List PrivateKey} {js : List PublicKey} (h : Holding st ps qs ks js)
    (hd : Sound nets st) {s : State} (hg : Grow st.heap s.heap) : Holding s ps qs ks js := by
  refine ⟨?_, ?_⟩
  · rw [← h.privs]
    refine List.map_congr_left fun p hp => privAt_keep hd hg (.inr ?_)
    have : privAt st p ∈ ks.map some := h.privs ▸ List.mem_map_of_mem hp
    obtain ⟨k, -, e⟩ := List.mem_map.1 this
    rw [← e]
    exact Option.some_ne_none k
  · rw [← h.pubs]
    refine List.map_congr_left fun p hp => pubAt_keep hd hg (.inr ?_)
    have : pubAt st p ∈ js.map some := h.pubs ▸ List.mem_map_of_mem hp
    obtain ⟨k, -, e⟩ := List.mem_map.1 this
    rw [← e]
    exact Option.some_ne_none k

theorem gotPrivs_shown (s : State) (vs : List Value) : (gotPrivs s vs).map (privAt s) = (shownPrivs (vs.map (see s))).map some := by
  induction vs with
  | nil => rfl
  | cons v vs ih =>
    unfold gotPrivs shownPrivs at ih ⊢
    cases v with
    | priv p => cases h : privAt s p <;> simp [see, h, ih]
    | _ => simpa [see] using ih

theorem gotPubs_shown (s : State) (vs : List Value) : (gotPubs s vs).map (pubAt s) = (shownPubs (vs.map (see s))).map some := by
  induction vs with
  | nil => rfl
  | cons v vs ih =>
    unfold gotPubs shownPubs at ih ⊢
    cases v with
    | pub p => cases h : pubAt s p <;> simp [see, h, ih]
    | _ => simpa [see] using ih

theorem Holding.more {ps qs : List Ptr} {ks : List PrivateKey} {js : List PublicKey} {s : State} (h : Holding s ps qs ks js)
    (vs : List Value) : Holding s (ps ++ gotPrivs s vs) (qs ++ gotPubs s vs) (ks ++ shownPrivs (vs.map (see s)))
      (js ++ shownPubs (vs.map (see s))) :=
  ⟨by rw [List.map_append, List.map_append, h.privs, gotPrivs_shown], by rw [List.map_append, List.map_append, h.pubs, gotPubs_shown]⟩

/-- A phrase that is refused costs no random bytes. -/
theorem refused_rest (n : Int) (wl : Option (List GoString)) (hr : (Ask.newMnemonic n wl).draws = false) :
    ∃ e s, (Request.newMnemonic n wl).Ends H E st (.ok [.str [], .err (some e)] s) ∧ s.rd = st.rd ∧ s.log = st.log ∧
      ∀ rd, newMnemonic H rd n wl = .err e := by
  have hfin : fNewMnemonic.results = [.name (id! "string"), .name (id! "error")] := rfl
  have key : ∃ e s, runFunc H E program 301 0 (id! "NewMnemonic") [.int n, .strs wl] st = .ok [.str [], .err (some e)] s ∧
      s.rd = st.rd ∧ s.log = st.log ∧ ∀ rd, newMnemonic H rd n wl = .err e := by
    rw [runFunc_succ H E find_NewMnemonic _ rfl, fNewMnemonic_body]
    unfold mnemonicNil mnemonicVar mnemonicSwitch newMnemonic entropyLengthOf
    cases wl with
    | none => go_run [hfin]; exact ⟨_, _, rfl, rfl, rfl, fun _ => rfl⟩
    | some wl =>
      simp only [Ask.draws, Option.isSome_some, Bool.true_and, Bool.or_eq_false_iff, beq_eq_false_iff_ne] at hr
      obtain ⟨⟨⟨⟨h12, h15⟩, h18⟩, h21⟩, h24⟩ := hr
      go_run [h12, h15, h18, h21, h24, hfin]
      exact ⟨_, _, rfl, rfl, rfl, fun _ => rfl⟩
  obtain ⟨e, s, h1, h2, h3, h4⟩ := key
  exact ⟨e, s, .of h1 (by simp), h2, h3, h4⟩

theorem draws_of_Draws {ps qs : List Ptr} {a : Ask} (h : a.draws = false) :
    ¬ Draws (a.request ps qs) ∨ ∃ n wl, a = .newMnemonic n wl := by
  cases a with
  | newMnemonic n wl => exact .inr ⟨n, wl, rfl⟩
  | generatePrivateKey net => cases h
  | _ => exact .inl fun h => h

theorem source_eq {d : Bool} {rd : Option Reader} {rd' r : Reader} (hr : ∀ r, rd = some r → r = rd') (h : source d rd = some r) :
    if d then r = rd' else r = [] := by
  cases d with
  | true => exact hr r h
  | false => cases h; rfl

theorem rest_eq {d : Bool} {rd x : Option Reader} {rd' rs : Reader} (hr : ∀ r, rd = some r → r = rd')
    (h : if d then ∀ r, x = some r → rs = r else rs = rd') : ∀ r, (if d then x else rd) = some r → r = rs := by
  cases d with
  | true => exact fun r e => (h r e).symm
  | false => exact fun r e => (hr r e).trans h.symm

/-- How a call of a client looks in memory. -/
theorem client_call (hE : Pkg E) (hV : E.Refines V) (hs : Session H E nets st) {ps qs : List Ptr} {ks : List PrivateKey}
    {js : List PublicKey} (hh : Holding st ps qs ks js) {a : Ask} {r : Reader}
    (hr : if a.draws then r = st.rd else r = []) {o : Out (List Value)} (he : (a.request ps qs).Ends H E st o) :
    ∃ x, x = answer H V r (a.question (MainNetwork :: TestNetwork :: nets) ks js) ∧
      (match x.out with
        | .ok l => ∃ vs s, o = .ok vs s ∧ vs.map (see s) = l
        | .error p => ∃ s, o = .panic p s) ∧
      ∀ s, o.state? = some s → s.log = st.log ++ x.log ∧
        (if a.draws then ∀ rd, x.rest = some rd → s.rd = rd else s.rd = st.rd) := by
  refine ⟨_, rfl, ?_⟩
  obtain ⟨o', h1, h2⟩ := shows_answer (H := H) hE hV (hs.intact hE) (a.request ps qs)
  rw [question_request (hs.sound hE) hh] at h2
  obtain rfl := h1.unique he
  by_cases hd : a.draws
  · simp only [hd, if_true] at hr ⊢
    rw [hr]
    exact h2
  · simp only [hd, Bool.false_eq_true, if_false] at hr ⊢
    subst hr
    rcases draws_of_Draws (ps := ps) (qs := qs) (Bool.eq_false_iff.2 hd) with hn | ⟨n, wl, rfl⟩
    · obtain ⟨q1, q2, q3⟩ := answer_quiet (H := H) (V := V) (st := st) [] st.rd _ hn
      rw [question_request (hs.sound hE) hh] at q1 q2
      obtain ⟨-, -, q3⟩ := answer_quiet (H := H) (V := V) (st := st) st.rd [] _ hn
      rw [question_request (hs.sound hE) hh] at q3
      rw [q1, q2]
      exact ⟨h2.1, fun s e => ⟨(h2.2 s e).1, (h2.2 s e).2 _ q3⟩⟩
    · obtain ⟨e, s, g1, g2, g3, g4⟩ := refused_rest (H := H) (E := E) (st := st) n wl (Bool.eq_false_iff.2 hd)
      obtain rfl := g1.unique he
      have e1 : answer H V [] (Ask.question (MainNetwork :: TestNetwork :: nets) ks js (.newMnemonic n wl)) =
          ⟨.ok [.plain (.str []), .plain (.err (some e))], [], none⟩ := by
        simp only [Ask.question, answer, g4, digest, restOf]
      rw [e1]
      refine ⟨⟨_, _, rfl, rfl⟩, fun s' hs' => ?_⟩
      cases hs'
      exact ⟨g3.trans (List.append_nil _).symm, g2⟩

end

/-- C44 on the text. `NewMnemonic` reads no random bytes and logs nothing when it refuses a nil list, or a number of words
other than 12, 15, 18, 21 and 24. -/
theorem C44_reads_nothing (H : Hashes) (E : EcdsaM) (st : State) (words : Int) (wl : Option (List GoString))
    (h : wl = none ∨ words ∉ ([12, 15, 18, 21, 24] : List Int)) :
    ∃ s, (Request.newMnemonic words wl).Ends H E st
      (.ok [.str [], .err (some (if wl = none then .invalidWordlist else .unsupportedMnemonicLength))] s) ∧
      s.rd = st.rd ∧ s.log = st.log := by
  obtain ⟨e, s, h1, h2, h3, h4⟩ := refused_rest (H := H) (E := E) (st := st) words wl (by
    rcases h with rfl | h
    · rfl
    · simp only [List.mem_cons, List.not_mem_nil, or_false, not_or] at h
      cases wl with
      | none => rfl
      | some l => simp [Ask.draws, h])
  cases wl with
  | none =>
    have := h4 []
    rw [C44_nil_wordlist] at this
    cases this
    exact ⟨s, h1, h2, h3⟩
  | some l =>
    have := h4 []
    rw [C44_unsupported_count H [] words l (h.resolve_left (by simp))] at this
    cases this
    exact ⟨s, h1, h2, h3⟩

/-- Thirteen words. -/
example := C44_reads_nothing realHashes Samples.pkg (Samples.stocked [1, 2, 3]) 13 (some EnglishWordlist) (.inr (by decide))

section
variable (H : Hashes) (E : EcdsaM) (V : Ecdsa) (hE : Pkg E) (hV : E.Refines V) (nets : List Network)
include hE hV

theorem plays_transcript {c : Caller} {st : State} {ps qs : List Ptr} {gs : List Glimpse} (hp : Plays H E c st ps qs gs)
    (hs : Session H E nets st) {ks : List PrivateKey} {js : List PublicKey} (hh : Holding st ps qs ks js) (rd : Option Reader)
    (hr : ∀ r, rd = some r → r = st.rd) :
    transcript H V (MainNetwork :: TestNetwork :: nets) c rd ks js <+: gs ∧
    (patient H V (MainNetwork :: TestNetwork :: nets) c rd ks js = true →
      gs = transcript H V (MainNetwork :: TestNetwork :: nets) c rd ks js) := by
  induction hp generalizing ks js rd with
  | stop st ps qs => exact ⟨List.prefix_refl _, fun _ => rfl⟩
  | @returns a next st s ps qs vs l gs he hl _ ih =>
    have hk := hh.keep (hs.sound hE) (Request.step hE he rfl).grow
    have hc := @client_call H E V nets st hE hV hs ps qs ks js hh a
    rw [transcript, patient]
    cases hsrc : source a.draws rd with
    | none => exact ⟨List.nil_prefix, fun h => nomatch h⟩
    | some r =>
      obtain ⟨x, hx, h1, h2⟩ := hc (source_eq hr hsrc) he
      simp only [← hx]
      cases ho : x.out with
      | error e => rw [ho] at h1; obtain ⟨_, h1⟩ := h1; cases h1
      | ok w =>
        rw [ho] at h1
        obtain ⟨vs', s', e1, rfl⟩ := h1
        cases e1
        obtain rfl : l = x.log := List.append_cancel_left (hl.symm.trans (h2 s rfl).1)
        obtain ⟨i1, i2⟩ := ih (hs.call _ he rfl) (hk.more vs) (if a.draws then x.rest else rd) (rest_eq hr (h2 s rfl).2)
        exact ⟨List.cons_prefix_cons.2 ⟨rfl, i1⟩, fun hp => congrArg _ (i2 hp)⟩
  | @panics a next st s ps qs e l gs he hl _ ih =>
    have hk := hh.keep (hs.sound hE) (Request.step hE he rfl).grow
    have hc := @client_call H E V nets st hE hV hs ps qs ks js hh a
    rw [transcript, patient]
    cases hsrc : source a.draws rd with
    | none => exact ⟨List.nil_prefix, fun h => nomatch h⟩
    | some r =>
      obtain ⟨x, hx, h1, h2⟩ := hc (source_eq hr hsrc) he
      simp only [← hx]
      cases ho : x.out with
      | ok w => rw [ho] at h1; obtain ⟨_, _, h1, _⟩ := h1; cases h1
      | error e =>
        rw [ho] at h1
        obtain ⟨s', e1⟩ := h1
        cases e1
        obtain rfl : l = x.log := List.append_cancel_left (hl.symm.trans (h2 s rfl).1)
        obtain ⟨i1, i2⟩ := ih (hs.call _ he rfl) hk (if a.draws then x.rest else rd) (rest_eq hr (h2 s rfl).2)
        simp only [Except.toOption, Option.map_none, Option.getD_none, List.append_nil]
        exact ⟨List.cons_prefix_cons.2 ⟨rfl, i1⟩, fun hp => congrArg _ (i2 hp)⟩
  | @int c st ps qs gs v _ ih =>
    exact ih (hs.int v) (hh.keep (hs.sound hE) ⟨List.prefix_append _ _, rfl, List.prefix_refl _, List.prefix_refl _, rfl⟩) rd hr
  | @priv next st ps qs gs o ho _ ih =>
    have hs' := hs.priv o ho
    have hk := hh.keep (hs.sound hE) (s := { st with heap := { st.heap with privs := st.heap.privs ++ [o] } })
      ⟨List.prefix_refl _, rfl, List.prefix_append _ _, List.prefix_refl _, rfl⟩
    rw [transcript, patient]
    refine ih hs' ⟨?_, hk.pubs⟩ rd hr
    rw [List.map_append, List.map_append, hk.privs, List.map_singleton, List.map_singleton, ← loadNet_place (hs.sound hE)]
    simp [privAt, loadPriv, privValue, loadInt, loadNet]
  | @pub next st ps qs gs o ho ho' _ ih =>
    have hs' := hs.pub o ho ho'
    have hk := hh.keep (hs.sound hE) (s := { st with heap := { st.heap with pubs := st.heap.pubs ++ [o] } })
      ⟨List.prefix_refl _, rfl, List.prefix_refl _, List.prefix_append _ _, rfl⟩
    rw [transcript, patient]
    refine ih hs' ⟨hk.privs, ?_⟩ rd hr
    rw [List.map_append, List.map_append, hk.pubs, List.map_singleton, List.map_singleton, ← loadNet_place (hs.sound hE)]
    simp [pubAt, loadPub, pubValue, loadInt, loadNet]

/-- C126. What a client sees begins with its transcript, whatever state it starts in and however its keys share memory. -/
theorem C126_transcript (st : State) (hs : Session H E nets st) (c : Caller) (gs : List Glimpse) (hp : Plays H E c st [] [] gs) :
    transcript H V (MainNetwork :: TestNetwork :: nets) c (some st.rd) [] [] <+: gs :=
  (plays_transcript H E V hE hV nets hp hs ⟨rfl, rfl⟩ (some st.rd) (fun r h => by cases h; rfl)).1

/-- C126. Unless it draws again after a draw has failed, a client sees its transcript and nothing else. -/
theorem C126_exact (st : State) (hs : Session H E nets st) (c : Caller) (gs : List Glimpse) (hp : Plays H E c st [] [] gs)
    (hn : patient H V (MainNetwork :: TestNetwork :: nets) c (some st.rd) [] [] = true) :
    gs = transcript H V (MainNetwork :: TestNetwork :: nets) c (some st.rd) [] [] :=
  (plays_transcript H E V hE hV nets hp hs ⟨rfl, rfl⟩ (some st.rd) (fun r h => by cases h; rfl)).2 hn

/-- C126. Every client can be run to its end: each of its calls ends. -/
theorem C126_runs (c : Caller) : ∀ (st : State), Session H E nets st → ∀ ps qs, ∃ gs, Plays H E c st ps qs gs := by
  induction c with
  | stop => exact fun st _ ps qs => ⟨_, .stop st ps qs⟩
  | ask a next ih =>
    intro st hs ps qs
    obtain ⟨o, h1, h2⟩ := shows_answer (H := H) hE hV (hs.intact hE) (a.request ps qs)
    cases o with
    | ok vs s =>
      obtain ⟨gs, hg⟩ := ih ⟨.ok (vs.map (see s)), _⟩ s (hs.call _ h1 rfl) (ps ++ gotPrivs s vs) (qs ++ gotPubs s vs)
      exact ⟨_, .returns h1 (h2.2 s rfl).1 hg⟩
    | panic e s =>
      obtain ⟨gs, hg⟩ := ih ⟨.error e, _⟩ s (hs.call _ h1 rfl) ps qs
      exact ⟨_, .panics h1 (h2.2 s rfl).1 hg⟩
    | stuck =>
      obtain ⟨h3, -⟩ := h2
      split at h3
      · obtain ⟨_, _, h3, _⟩ := h3; cases h3
      · obtain ⟨_, h3⟩ := h3; cases h3
  | priv key hexa wif net next ih =>
    intro st hs ps qs
    cases key with
    | none =>
      obtain ⟨gs, hg⟩ := ih _ (hs.priv ⟨none, hexa, wif, net⟩ (fun _ h => by cases h)) _ qs
      exact ⟨gs, .priv ⟨none, hexa, wif, net⟩ (fun _ h => by cases h) hg⟩
    | some k =>
      have hv : ValidInt { st.heap with ints := st.heap.ints ++ [k] } (some st.heap.ints.length) := fun _ h => by cases h; simp
      obtain ⟨gs, hg⟩ := ih _ ((hs.int k).priv ⟨some st.heap.ints.length, hexa, wif, net⟩ hv) (ps ++ [some st.heap.privs.length]) qs
      have hp := Plays.priv (st := { st with heap := { st.heap with ints := st.heap.ints ++ [k] } })
        ⟨some st.heap.ints.length, hexa, wif, net⟩ hv hg
      simp only [loadInt, Option.bind_some, List.getElem?_concat_length] at hp
      exact ⟨gs, .int k hp⟩
  | pub x y net next ih =>
    intro st hs ps qs
    obtain ⟨st1, p1, g1, v1, e1, b1⟩ : ∃ (st1 : State) (p1 : Ptr), Session H E nets st1 ∧ ValidInt st1.heap p1 ∧
        loadInt st1.heap p1 = x ∧ ∀ c gs, Plays H E c st1 ps qs gs → Plays H E c st ps qs gs := by
      cases x with
      | none => exact ⟨st, none, hs, (fun _ h => nomatch h), rfl, fun _ _ h => h⟩
      | some k => exact ⟨_, some st.heap.ints.length, hs.int k, (fun _ h => by cases h; simp), by simp [loadInt], fun _ _ h => .int k h⟩
    obtain ⟨st2, p2, g2, v2, e2, v3, e3, b2⟩ : ∃ (st2 : State) (p2 : Ptr), Session H E nets st2 ∧ ValidInt st2.heap p2 ∧
        loadInt st2.heap p2 = y ∧ ValidInt st2.heap p1 ∧ loadInt st2.heap p1 = x ∧
        ∀ c gs, Plays H E c st2 ps qs gs → Plays H E c st1 ps qs gs := by
      cases y with
      | none => exact ⟨st1, none, g1, (fun _ h => nomatch h), rfl, v1, e1, fun _ _ h => h⟩
      | some k =>
        have hg : Grow st1.heap { st1.heap with ints := st1.heap.ints ++ [k] } :=
          ⟨List.prefix_append _ _, rfl, List.prefix_refl _, List.prefix_refl _, rfl⟩
        exact ⟨_, some st1.heap.ints.length, g1.int k, (fun _ h => by cases h; simp), by simp [loadInt],
          (fun a h => by have := v1 a h; simp; omega), by rw [← e1]; exact loadInt_grow hg v1, fun _ _ h => .int k h⟩
    obtain ⟨gs, hg⟩ := ih _ (g2.pub ⟨p1, p2, net⟩ v3 v2) ps (qs ++ [some st2.heap.pubs.length])
    have hp := Plays.pub ⟨p1, p2, net⟩ v3 v2 hg
    simp only [e2, e3] at hp
    exact ⟨gs, b1 _ _ (b2 _ _ hp)⟩

/-- C126. No client can tell two implementations of the curve package apart that compute the same, nor one history of the
memory from another: what it sees is the same. -/
theorem C126_same (E' : EcdsaM) (hE' : Pkg E') (hV' : E'.Refines V) (st st' : State) (hs : Session H E nets st)
    (hs' : Session H E' nets st') (hrd : st.rd = st'.rd) (c : Caller) (gs gs' : List Glimpse) (hp : Plays H E c st [] [] gs)
    (hp' : Plays H E' c st' [] [] gs') (hn : patient H V (MainNetwork :: TestNetwork :: nets) c (some st.rd) [] [] = true) : gs = gs' := by
  rw [C126_exact H E V hE hV nets st hs c gs hp hn, C126_exact H E' V hE' hV' nets st' hs' c gs' hp' (hrd ▸ hn), hrd]

end

namespace Samples

/-- A client that makes the private key 1, asks for its public key if it has got a key, and for the address of that if it
has got one. -/
def wallet : Caller :=
  .ask (.privateFromHex (asc "01") (some 0)) fun g =>
    if (g.out.toOption.map shownPrivs).getD [] = [] then .stop
    else .ask (.getPublicKey (some 0)) fun g =>
      if (g.out.toOption.map shownPubs).getD [] = [] then .stop else .ask (.address (some 0) true) fun _ => .stop

/-- The texts among values seen. -/
def texts : List Seen → List GoString := List.filterMap fun | .plain (.str s) => some s | _ => none

/-- The client sees three replies, the last of which shows the address of the generator. -/
example (st : State) (hs : Session realHashes pkg [] st) (hrd : st.rd = []) (gs : List Glimpse)
    (hp : Plays realHashes pkg wallet st [] [] gs) :
    gs.map (fun g => (g.out.toOption.map texts).getD []) = [[], [], [asc "1BgGZ9tcN4rm9KBzDn7KprQz87SZ26SAMH"]] := by
  have h : patient realHashes EC.ref [MainNetwork, TestNetwork] wallet (some st.rd) [] [] = true := by
    rw [hrd]
    decide +kernel
  rw [C126_exact realHashes pkg EC.ref refPkg.1 refPkg.2.1 [] st hs wallet gs hp h, hrd]
  decide +kernel

end Samples

end Btc
