import Verif.Props.Local

/-!
# C116: programs that change keys, numbers, networks and package variables themselves, on the text

All fields of keys and networks are exported, and so are the package variables `MainNetwork` and `TestNetwork` and
`rand.Reader`. A program may assign to all of them between its calls. Calls still compute what the model computes from the
values that are there at the time, and the parameters of the curve cannot be reached.
-/

namespace Btc

open Mem Source Spec

namespace Spec

/-- Specification: the program has a pointer to this number: it made the number itself or found it in a key. -/
def Knows (st : State) (own : List Nat) (p : Ptr) : Prop :=
  ∀ a, p = some a → a ∈ own ∨ (∃ o ∈ st.heap.privs, o.Key = some a) ∨ ∃ o ∈ st.heap.pubs, o.X = some a ∨ o.Y = some a

/-- Specification: the states a program can reach that calls the package, run on the text, and writes wherever it can.
`own` are the numbers it made itself. A panic may be recovered. -/
inductive Roams (H : Hashes) (E : EcdsaM) : State → List Nat → Prop
  | start {rd : Reader} {st : State} : Source.Ends H E program 0 (id! "init") [] (before program rd) (.ok [] st) → Roams H E st []
  | call {st st' : State} {own : List Nat} {o : Out (List Value)} (r : Request) : Roams H E st own → r.Ends H E st o →
      o.state? = some st' → Roams H E st' own
  | newInt {st : State} {own : List Nat} (v : Int) : Roams H E st own →
      Roams H E { st with heap := { st.heap with ints := st.heap.ints ++ [v] } } (st.heap.ints.length :: own)
  | setInt {st : State} {own : List Nat} (a : Nat) (v : Int) : Roams H E st own → Knows st own (some a) →
      Roams H E { st with heap := { st.heap with ints := st.heap.ints.set a v } } own
  | newPriv {st : State} {own : List Nat} (o : PrivObj) : Roams H E st own → Knows st own o.Key →
      Roams H E { st with heap := { st.heap with privs := st.heap.privs ++ [o] } } own
  | setPriv {st : State} {own : List Nat} (a : Nat) (o : PrivObj) : Roams H E st own → Knows st own o.Key →
      Roams H E { st with heap := { st.heap with privs := st.heap.privs.set a o } } own
  | newPub {st : State} {own : List Nat} (o : PubObj) : Roams H E st own → Knows st own o.X → Knows st own o.Y →
      Roams H E { st with heap := { st.heap with pubs := st.heap.pubs ++ [o] } } own
  | setPub {st : State} {own : List Nat} (a : Nat) (o : PubObj) : Roams H E st own → Knows st own o.X → Knows st own o.Y →
      Roams H E { st with heap := { st.heap with pubs := st.heap.pubs.set a o } } own
  | newNet {st : State} {own : List Nat} (n : Network) : Roams H E st own →
      Roams H E { st with heap := { st.heap with nets := st.heap.nets ++ [n] } } own
  | setNet {st : State} {own : List Nat} (a : Nat) (n : Network) : Roams H E st own →
      Roams H E { st with heap := { st.heap with nets := st.heap.nets.set a n } } own
  | setVars {st : State} {own : List Nat} (vars : List (Nat × Value)) : Roams H E st own → Roams H E { st with vars := vars } own
  | setReader {st : State} {own : List Nat} (rd : Reader) : Roams H E st own → Roams H E { st with rd := rd } own
  | log {st : State} {own : List Nat} (l : Log) : Roams H E st own → Roams H E { st with log := l } own

end Spec

section
variable {H : Hashes} {E : EcdsaM} {st : State} {own : List Nat}

theorem Spec.Roams.inv (hE : Pkg E) (hF : E.Fresh) (h : Roams H E st own) : Client.Inv ⟨st.heap, own⟩ := by
  have step : ∀ {st : State} {own : List Nat} {s' : Client}, Client.Inv ⟨st.heap, own⟩ →
      Client.Step H E ⟨st.heap, own⟩ s' → s'.Inv := fun hi hs => hs.inv hE.allocs hF hi
  induction h with
  | @start rd st h =>
    cases h.unique (ends_init rd)
    exact init_inv _
  | @call st st' own o r _ h1 h2 ih =>
    have hs := Request.step hE h1 h2
    exact ⟨hs.grow.curve.symm.trans ih.curve, ih.ints.trans hs.grow.ints, hs.clear hF 7 ih.length ih.clear, hs.objs ih.objs,
      fun a ha => ⟨(ih.own a ha).1, lt_of_lt_of_le (ih.own a ha).2 hs.grow.ints.length_le⟩⟩
  | newInt v _ ih => exact step ih (.newInt _ v)
  | @setInt st own a v _ hk ih =>
    have h := step ih (.setInt _ (some a) v hk)
    have ha : a < st.heap.ints.length := (ih.knows (p := some a) hk).2 a rfl
    simp only [writeInt, ha, if_true] at h
    exact h
  | newPriv o _ hk ih => exact step ih (.newPriv _ o hk)
  | setPriv a o _ hk ih => exact step ih (.setPriv _ a o hk)
  | newPub o _ hx hy ih => exact step ih (.newPub _ o hx hy)
  | setPub a o _ hx hy ih => exact step ih (.setPub _ a o hx hy)
  | newNet n _ ih => exact step ih (.newNet _ n)
  | setNet a n _ ih => exact step ih (.setNet _ a n)
  | setVars _ _ ih => exact ih
  | setReader _ _ ih => exact ih
  | log _ _ ih => exact ih

theorem Spec.Roams.intact (hE : Pkg E) (hF : E.Fresh) (h : Roams H E st own) : Intact st :=
  ⟨(h.inv hE hF).curveOK, (h.inv hE hF).objs⟩

end

section
variable (H : Hashes) (E : EcdsaM) (hE : Pkg E) (hF : E.Fresh) (st : State) (own : List Nat) (hs : Roams H E st own)
include hE hF hs

/-- C116: whatever a program has done, the parameters are those of secp256k1. -/
theorem C116_parameters : curveValue st.heap =
    ⟨some 0, some 7, ⟨some (Spec.gx : Int), some (Spec.gy : Int)⟩, some (Spec.p : Int), some (Spec.n : Int), some 1⟩ :=
  (hs.intact hE hF).curve.value.trans (by decide +kernel)

/-- C116: no number the program can reach is one of the parameters. -/
theorem C116_out_of_reach (p : Ptr) (hp : Knows st own p) : p = none ∨ p ∉ [st.heap.curve.A, st.heap.curve.B, st.heap.curve.GX,
    st.heap.curve.GY, st.heap.curve.P, st.heap.curve.N, st.heap.curve.H] := by
  have hi := hs.inv hE hF
  cases p with
  | none => exact .inl rfl
  | some a =>
    right
    have h7 := (hi.knows (p := some a) hp).1 a rfl
    have hc := hi.curve
    rw [show st.heap.curve = (initHeap []).curve from hc]
    simp only [initHeap, List.mem_cons, Option.some.injEq, List.not_mem_nil, or_false, not_or]
    omega

/-- C116: every call ends, with the answer the model gives for the values the arguments have at the time. -/
theorem C116_computes (V : Ecdsa) (hV : E.Refines V) (r : Request) :
    ∃ o, r.Ends H E st o ∧ Shows st (answer H V st.rd (question st r)) o :=
  shows_answer hE hV (hs.intact hE hF) r

/-- C116: the table of crashes of C112 is valid in these states, too. -/
theorem C116_crash_table (V : Ecdsa) (hV : E.Refines V) (hC : EcdsaContract V) (r : Request) (hd : Determined st r) :
    (∃ pn st', r.Ends H E st (.panic pn st')) ↔ Crashes H st r :=
  crash_table H E V hE hV hC st (hs.intact hE hF) r hd

/-- C116: two calls that ask the same in any two such states, of any two programs, show the same answers. -/
theorem C116_same_answer (V : Ecdsa) (hV : E.Refines V) (st' : State) (own' : List Nat) (hs' : Roams H E st' own') (r r' : Request)
    (hq : question st r = question st' r') (hd : Draws r → st.rd = st'.rd) :
    ∃ o o', r.Ends H E st o ∧ r'.Ends H E st' o' ∧ ShowSame st st' o o' := by
  obtain ⟨o, h1, h2⟩ := shows_answer hE hV (hs.intact hE hF) r
  obtain ⟨o', h3, h4⟩ := shows_answer hE hV (hs'.intact hE hF) r'
  rw [← hq] at h4
  refine ⟨o, o', h1, h3, ?_⟩
  by_cases hr : Draws r
  · rw [← hd hr] at h4
    exact showSame_of_shows h2 h4 rfl rfl
  · have ha := answer_quiet (H := H) (V := V) (st := st) st.rd st'.rd r hr
    exact showSame_of_shows h2 h4 ha.1 ha.2.1

end

section
open Samples

theorem refFresh : pkg.Fresh := EcdsaM.ofValue_fresh _

theorem roams_start (H : Hashes) (E : EcdsaM) (rd : Reader) : Roams H E (ready rd) [] := .start (ends_init rd)

set_option linter.constructorNameAsVariable false in
/-- A program imports the private key 1 and then writes 2 into its number. -/
theorem Samples.rewritten (rd : Reader) : ∃ (st : State) (p : Ptr) (k : PrivateKey), Roams realHashes pkg st [] ∧ privAt st p = some k ∧
    k.Key = some 2 ∧ k.Hex = asc "01" ∧ k.Network = some MainNetwork := by
  obtain ⟨k, hk, h1, h2, h3⟩ : ∃ k, privateFromHex realHashes (asc "01") (loadNet (ready rd).heap (some 0)) = .ok k ∧
      k.Key = some 1 ∧ k.Hex = asc "01" ∧ k.Network = some MainNetwork := by
    have e : loadNet (ready rd).heap (some 0) = some MainNetwork := rfl
    have h : (match privateFromHex realHashes (asc "01") (some MainNetwork) with
      | .ok k => decide (k.Key = some 1 ∧ k.Hex = asc "01" ∧ k.Network = some MainNetwork)
      | _ => false) = true := by decide +kernel
    rw [e]
    cases hp : privateFromHex realHashes (asc "01") (some MainNetwork) with
    | ok k => rw [hp] at h; exact ⟨k, rfl, of_decide_eq_true h⟩
    | err e => rw [hp] at h; cases h
    | panic e => rw [hp] at h; cases h
  obtain ⟨o, e1, e2⟩ := C108_privateFromHex realHashes pkg refPkg.1 (ready rd) (asc "01") (some 0)
  rw [hk] at e2
  obtain ⟨p, st1, rfl, hn, -⟩ := e2
  have hr := (roams_start realHashes pkg rd).call _ e1 rfl
  obtain ⟨q, g1, g2, g3, -, -⟩ := hn.obj
  obtain ⟨a, ha⟩ : ∃ a, q.Key = some a := by
    have : loadInt st1.heap q.Key = some 1 := by
      have := congrArg PrivateKey.Key g2
      exact this.trans h1
    cases hq : q.Key with
    | none => rw [hq] at this; cases this
    | some a => exact ⟨a, rfl⟩
  obtain ⟨i, rfl⟩ : ∃ i, p = some i := by
    cases p with
    | none => cases g1
    | some i => exact ⟨i, rfl⟩
  have hm : q ∈ st1.heap.privs := List.mem_iff_getElem?.mpr ⟨i, g1⟩
  have hw := hr.setInt a 2 (fun b hb => by cases hb; exact .inr (.inl ⟨q, hm, ha⟩))
  have hlt : a < st1.heap.ints.length := (hr.inv refPkg.1 refFresh).objs.privs q hm a ha
  have g2' : q.Hex = k.Hex ∧ loadNet st1.heap q.Network = k.Network :=
    ⟨congrArg PrivateKey.Hex g2, congrArg PrivateKey.Network g2⟩
  refine ⟨_, some i, { privValue st1.heap q with Key := some 2 }, hw, ?_, rfl, g2'.1.trans h2, g2'.2.trans h3⟩
  have e : loadPriv { st1.heap with ints := st1.heap.ints.set a 2 } (some i) = some q := g1
  show (loadPriv { st1.heap with ints := st1.heap.ints.set a 2 } (some i)).map _ = _
  rw [e, Option.map_some]
  simp only [privValue, ha, loadInt, Option.bind_some, List.getElem?_set_self hlt]
  rfl

/-- C116: the call uses the number that is there now: the public key is that of 2. -/
example : ∃ (st : State) (p q : Ptr) (st' : State) (k : PublicKey), Roams realHashes pkg st [] ∧
    (Request.getPublicKey p).Ends realHashes pkg st (.ok [.pub q, .bool true] st') ∧ pubAt st' q = some k ∧
    k.X = some 0xC6047F9441ED7D6D3045406E95C07CD85C778E4B8CEF3CA7ABAC09B95C709EE5 := by
  obtain ⟨st, p, k, hr, hp, hk, -, hn⟩ := rewritten []
  obtain ⟨o, h1, h2, -⟩ := C116_computes realHashes pkg refPkg.1 refFresh st [] hr EC.ref refPkg.2.1 (.getPublicKey p)
  have hq : question st (.getPublicKey p) = .getPublicKey (some k) := by rw [question, hp]
  rw [hq] at h2
  have hg : ∃ v : PublicKey, getPublicKey EC.ref k = .ok (some v) ∧
      v.X = some 0xC6047F9441ED7D6D3045406E95C07CD85C778E4B8CEF3CA7ABAC09B95C709EE5 := by
    unfold getPublicKey
    rw [hk]
    have h : (match EC.ref.scalarMult secp256k1 (some 2) secp256k1.G with
      | .ok (r, true) => decide (r.X = some 0xC6047F9441ED7D6D3045406E95C07CD85C778E4B8CEF3CA7ABAC09B95C709EE5)
      | _ => false) = true := by decide +kernel
    rcases hs : EC.ref.scalarMult secp256k1 (some 2) secp256k1.G with ⟨r, _ | _⟩ | e | p <;> rw [hs] at h
    · cases h
    · exact ⟨_, rfl, of_decide_eq_true h⟩
    · cases h
    · cases h
  obtain ⟨v, hv, hx⟩ := hg
  have e : (answer realHashes EC.ref st.rd (.getPublicKey (some k))).out = .ok [.pub (some v), .plain (.bool true)] := by
    show digest _ _ (getPublicKey EC.ref k) = _
    rw [hv]
    rfl
  rw [e] at h2
  obtain ⟨vs, s, rfl, hvs⟩ := h2
  rcases vs with _ | ⟨a, _ | ⟨b, _ | ⟨c, l⟩⟩⟩
  · simp at hvs
  · simp at hvs
  · simp only [List.map_cons, List.map_nil, List.cons.injEq, and_true] at hvs
    obtain ⟨ha, hb⟩ := hvs
    cases a <;> simp only [see, Seen.pub.injEq, reduceCtorEq] at ha
    cases b <;> simp only [see, Seen.plain.injEq, Value.bool.injEq, reduceCtorEq] at hb
    subst hb
    exact ⟨st, p, _, s, v, hr, h1, ha, hx⟩
  · simp at hvs

/-- C116: the parameters after that write. -/
example : ∃ (st : State) (p : Ptr), Roams realHashes pkg st [] ∧ privAt st p ≠ none ∧ curveValue st.heap =
    ⟨some 0, some 7, ⟨some (Spec.gx : Int), some (Spec.gy : Int)⟩, some (Spec.p : Int), some (Spec.n : Int), some 1⟩ := by
  obtain ⟨st, p, k, hr, hp, -⟩ := rewritten []
  exact ⟨st, p, hr, by rw [hp]; simp, C116_parameters realHashes pkg refPkg.1 refFresh st [] hr⟩

end

end Btc
