import Verif.Heap.Hidden
import Verif.Props.Heap
import Mathlib.Logic.Relation

/-!
# Programs that also modify keys, numbers and networks themselves

All fields of `PrivateKey`, `PublicKey` and `Network` are exported (struct.go:8-28), so a program can overwrite them and
can write to the numbers they point to. It cannot reach the unexported package variable `secp256k1` (btc.go:9) except
through pointers found in key objects.
-/

namespace Btc.Mem

/-- A program in execution: the memory, and the numbers the program has allocated itself. -/
structure Client where
  heap : Heap
  own : List Nat

/-- Pointers to numbers a program can have: nil, those to its own numbers, and those found in key objects. -/
def Client.Knows (s : Client) (p : Ptr) : Prop :=
  ∀ a, p = some a → a ∈ s.own ∨ (∃ o ∈ s.heap.privs, o.Key = some a) ∨
    ∃ o ∈ s.heap.pubs, o.X = some a ∨ o.Y = some a

/-- The exported functions and methods, as opposed to the program's own allocations. -/
def Call.ofPackage : Call → Prop
  | .clientInt _ | .clientPriv _ | .clientPub _ => False
  | _ => True

/-- The state after a call. -/
def Client.call (H : Hashes) (E : EcdsaM) (s : Client) (c : Call) : Client := ⟨c.run H E s.heap, s.own⟩

/-- One step of a program: a call of the package, an allocation, or a write to anything it can reach. -/
inductive Client.Step (H : Hashes) (E : EcdsaM) : Client → Client → Prop
  | call (s : Client) (c : Call) (hc : c.ofPackage) : Step H E s (s.call H E c)
  | newInt (s : Client) (v : Int) :
    Step H E s ⟨{ s.heap with ints := s.heap.ints ++ [v] }, s.heap.ints.length :: s.own⟩
  | setInt (s : Client) (p : Ptr) (v : Int) (hp : s.Knows p) : Step H E s ⟨(writeInt p v s.heap).2, s.own⟩
  | newPriv (s : Client) (o : PrivObj) (ho : s.Knows o.Key) :
    Step H E s ⟨{ s.heap with privs := s.heap.privs ++ [o] }, s.own⟩
  | setPriv (s : Client) (a : Nat) (o : PrivObj) (ho : s.Knows o.Key) :
    Step H E s ⟨{ s.heap with privs := s.heap.privs.set a o }, s.own⟩
  | newPub (s : Client) (o : PubObj) (hx : s.Knows o.X) (hy : s.Knows o.Y) :
    Step H E s ⟨{ s.heap with pubs := s.heap.pubs ++ [o] }, s.own⟩
  | setPub (s : Client) (a : Nat) (o : PubObj) (hx : s.Knows o.X) (hy : s.Knows o.Y) :
    Step H E s ⟨{ s.heap with pubs := s.heap.pubs.set a o }, s.own⟩
  | newNet (s : Client) (n : Network) : Step H E s ⟨{ s.heap with nets := s.heap.nets ++ [n] }, s.own⟩
  | setNet (s : Client) (a : Nat) (n : Network) : Step H E s ⟨{ s.heap with nets := s.heap.nets.set a n }, s.own⟩

/-- States a program can reach after the initialisation of the package. -/
def Client.Reached (H : Hashes) (E : EcdsaM) (nets : List Network) (s : Client) : Prop :=
  Relation.ReflTransGen (Client.Step H E) ⟨initHeap nets, []⟩ s

/-- What stays true: the parameters are intact, all pointers are valid, and none known to the program is one of the
parameters. -/
structure Client.Inv (s : Client) : Prop where
  curve : s.heap.curve = (initHeap []).curve
  ints : (initHeap []).ints <+: s.heap.ints
  clear : Clear 7 s.heap
  objs : Objs s.heap
  own : ∀ a ∈ s.own, 7 ≤ a ∧ a < s.heap.ints.length

variable {H : Hashes} {E : EcdsaM} {s : Client}

theorem Client.Inv.length (hi : s.Inv) : 7 ≤ s.heap.ints.length := hi.ints.length_le

theorem Client.Inv.knows (hi : s.Inv) {p : Ptr} (hp : s.Knows p) : Above 7 p ∧ Below s.heap.ints.length p := by
  have key : ∀ a, p = some a → 7 ≤ a ∧ a < s.heap.ints.length := by
    intro a ha
    rcases hp a ha with h | ⟨o, ho, e⟩ | ⟨o, ho, e | e⟩
    · exact hi.own a h
    · exact ⟨hi.clear.privs o ho a e, hi.objs.privs o ho a e⟩
    · exact ⟨(hi.clear.pubs o ho).1 a e, (hi.objs.pubs o ho).1 a e⟩
    · exact ⟨(hi.clear.pubs o ho).2 a e, (hi.objs.pubs o ho).2 a e⟩
  exact ⟨fun a ha => (key a ha).1, fun a ha => (key a ha).2⟩

theorem Client.Inv.curveOK (hi : s.Inv) : CurveOK s.heap := by
  refine (init_curveOK s.heap.nets).grow ⟨?_, rfl, List.nil_prefix, List.nil_prefix, hi.curve.symm⟩
  exact hi.ints

theorem Client.Inv.priv (hi : s.Inv) {p : Ptr} {o : PrivObj} (ho : loadPriv s.heap p = some o) :
    ValidInt s.heap o.Key := by
  cases p with
  | none => cases ho
  | some a => exact hi.objs.privs o (List.mem_iff_getElem?.mpr ⟨a, ho⟩)

theorem Client.Inv.pub (hi : s.Inv) {p : Ptr} {o : PubObj} (ho : loadPub s.heap p = some o) :
    ValidInt s.heap o.X ∧ ValidInt s.heap o.Y := by
  cases p with
  | none => cases ho
  | some a => exact hi.objs.pubs o (List.mem_iff_getElem?.mpr ⟨a, ho⟩)

theorem init_inv (nets : List Network) : Client.Inv ⟨initHeap nets, []⟩ :=
  ⟨rfl, List.prefix_refl _, ⟨(by intro o ho; cases ho), (by intro o ho; cases ho)⟩, init_objs nets,
    by intro a ha; cases ha⟩

theorem Call.clear (hE : E.Allocs) (hF : E.Fresh) {c : Call} (hc : c.ofPackage) {k : Nat} {h : Heap}
    (hk : k ≤ h.ints.length) (hh : Clear k h) : Clear k (c.run H E h) := by
  cases c with
  | privateFromWIF wif network => exact (clears_privateFromWIF H wif network h hk hh).2.1
  | privateFromHex hexa network => exact (clears_privateFromHex H hexa network h hk hh).2.1
  | generatePrivateKey rd network => exact (clears_generate H rd network h hk hh).2.1
  | addPrivateKeys p1 p2 => exact (clears_addPrivateKeys H p1 p2 h hk hh).2.1
  | multiplyPrivateKeys p1 p2 => exact (clears_multiplyPrivateKeys H p1 p2 h hk hh).2.1
  | publicFromHex hexa network => exact (clears_publicFromHex hE hF hexa network h hk hh).2.1
  | getPublicKey p => exact (clears_getPublicKey hE hF p h hk hh).2.1
  | format p c => exact (clears_format p c h hk hh).2.1
  | address p c => exact (clears_address H p c h hk hh).2.1
  | addPublicKeys p1 p2 c => exact (clears_addPublicKeys hE hF p1 p2 c h hk hh).2.1
  | clientInt v => exact hc.elim
  | clientPriv o => exact hc.elim
  | clientPub o => exact hc.elim

theorem mem_set {α : Type} {l : List α} {a : Nat} {x o : α} (h : o ∈ l.set a x) : o ∈ l ∨ o = x :=
  List.mem_or_eq_of_mem_set h

theorem Client.Step.inv (hE : E.Allocs) (hF : E.Fresh) {s s' : Client} (h : Client.Step H E s s') (hi : s.Inv) :
    s'.Inv := by
  have hl := hi.length
  cases h with
  | call c hc =>
    have hg := Call.grow H hE c s.heap
    unfold Client.call
    exact ⟨hg.curve.symm.trans hi.curve, hi.ints.trans hg.ints, Call.clear hE hF hc hl hi.clear,
      Call.objs H hE c hi.objs, fun a ha => ⟨(hi.own a ha).1, lt_of_lt_of_le (hi.own a ha).2 hg.ints.length_le⟩⟩
  | newInt v =>
    refine ⟨hi.curve, prefix_append hi.ints v, hi.clear.ints _, hi.objs.ints (by simp), fun a ha => ?_⟩
    rcases List.mem_cons.mp ha with rfl | ha
    · exact ⟨hl, by simp⟩
    · have := hi.own a ha
      exact ⟨this.1, by simp; omega⟩
  | setInt p v hp =>
    obtain ⟨ka, kb⟩ := hi.knows hp
    cases p with
    | none => exact hi
    | some a =>
      have h1 := ka a rfl
      have h2 := kb a rfl
      simp only [writeInt, h2, if_true]
      refine ⟨hi.curve, prefix_set hi.ints h1 v, hi.clear.ints _, hi.objs.ints (by simp), fun b hb => ?_⟩
      simpa using hi.own b hb
  | newPriv o ho =>
    obtain ⟨ka, kb⟩ := hi.knows ho
    refine ⟨hi.curve, hi.ints, ⟨fun q hq => ?_, hi.clear.pubs⟩, ⟨fun q hq => ?_, hi.objs.pubs, hi.objs.gen⟩, hi.own⟩
    · rcases List.mem_append.mp hq with hq | hq
      · exact hi.clear.privs q hq
      · rw [List.mem_singleton.mp hq]; exact ka
    · rcases List.mem_append.mp hq with hq | hq
      · exact hi.objs.privs q hq
      · rw [List.mem_singleton.mp hq]; exact kb
  | setPriv a o ho =>
    obtain ⟨ka, kb⟩ := hi.knows ho
    refine ⟨hi.curve, hi.ints, ⟨fun q hq => ?_, hi.clear.pubs⟩, ⟨fun q hq => ?_, hi.objs.pubs, hi.objs.gen⟩, hi.own⟩
    · rcases mem_set hq with hq | rfl
      · exact hi.clear.privs q hq
      · exact ka
    · rcases mem_set hq with hq | rfl
      · exact hi.objs.privs q hq
      · exact kb
  | newPub o hx hy =>
    obtain ⟨xa, xb⟩ := hi.knows hx
    obtain ⟨ya, yb⟩ := hi.knows hy
    refine ⟨hi.curve, hi.ints, ⟨hi.clear.privs, fun q hq => ?_⟩, ⟨hi.objs.privs, fun q hq => ?_, hi.objs.gen⟩, hi.own⟩
    · rcases List.mem_append.mp hq with hq | hq
      · exact hi.clear.pubs q hq
      · rw [List.mem_singleton.mp hq]; exact ⟨xa, ya⟩
    · rcases List.mem_append.mp hq with hq | hq
      · exact hi.objs.pubs q hq
      · rw [List.mem_singleton.mp hq]; exact ⟨xb, yb⟩
  | setPub a o hx hy =>
    obtain ⟨xa, xb⟩ := hi.knows hx
    obtain ⟨ya, yb⟩ := hi.knows hy
    refine ⟨hi.curve, hi.ints, ⟨hi.clear.privs, fun q hq => ?_⟩, ⟨hi.objs.privs, fun q hq => ?_, hi.objs.gen⟩, hi.own⟩
    · rcases mem_set hq with hq | rfl
      · exact hi.clear.pubs q hq
      · exact ⟨xa, ya⟩
    · rcases mem_set hq with hq | rfl
      · exact hi.objs.pubs q hq
      · exact ⟨xb, yb⟩
  | newNet n => exact ⟨hi.curve, hi.ints, ⟨hi.clear.privs, hi.clear.pubs⟩,
      ⟨hi.objs.privs, hi.objs.pubs, hi.objs.gen⟩, hi.own⟩
  | setNet a n => exact ⟨hi.curve, hi.ints, ⟨hi.clear.privs, hi.clear.pubs⟩,
      ⟨hi.objs.privs, hi.objs.pubs, hi.objs.gen⟩, hi.own⟩

theorem Client.Reached.inv (hE : E.Allocs) (hF : E.Fresh) {nets : List Network} {s : Client}
    (h : Client.Reached H E nets s) : s.Inv := by
  induction h with
  | refl => exact init_inv nets
  | tail _ hs ih => exact hs.inv hE hF ih

/-! ## The coordinates of computed public keys are new -/

theorem updPub_run (a : Nat) (f : PubObj → PubObj) (h : Heap) :
    updPub a f h = (.ok (), { h with pubs := h.pubs.modify a f }) := rfl

theorem getPublicKey_fresh (hE : E.Allocs) (hF : E.Fresh) {p : Ptr} {h h' : Heap} {a : Ptr}
    (hr : getPublicKeyM E p h = (.ok a, h')) {q : PubObj} (hq : loadPub h' a = some q) :
    FreshInt h q.X ∧ FreshInt h q.Y := by
  obtain ⟨h1, e1, hi⟩ : ∃ h1 : Heap, h1 = { h with pubs := h.pubs ++ [⟨none, none, none⟩] } ∧ h1.ints = h.ints :=
    ⟨_, rfl, rfl⟩
  unfold getPublicKeyM at hr
  rw [bind_run] at hr
  simp only [newPub, ← e1] at hr
  rw [bind_run] at hr
  simp only [readPriv] at hr
  cases hp : loadPriv h1 p with
  | none => rw [hp] at hr; cases hr
  | some o =>
    rw [hp] at hr
    simp only [deref_some] at hr
    rw [bind_run] at hr
    simp only [readCurve] at hr
    rw [bind_run] at hr
    have hf := hF.scalarMult h1 o.Key (h1.curve.GX, h1.curve.GY)
    obtain ⟨n, hn⟩ := exists_below o.Key
    obtain ⟨n₁, hn₁⟩ := exists_below h1.curve.GX
    obtain ⟨n₂, hn₂⟩ := exists_below h1.curve.GY
    obtain ⟨l, el, -⟩ := hE.scalarMult (n + n₁ + n₂) o.Key (h1.curve.GX, h1.curve.GY) (hn.mono (by omega))
      (hn₁.mono (by omega)) (hn₂.mono (by omega)) h1
    rcases hx : E.scalarMult o.Key (h1.curve.GX, h1.curve.GY) h1 with ⟨r, h2⟩
    rw [hx] at hr hf el
    simp only at el
    have hpub : h2.pubs = h.pubs ++ [⟨none, none, none⟩] := by rw [el, e1]
    cases r with
    | err e => cases hr
    | panic e => cases hr
    | ok r =>
      obtain ⟨⟨x, y⟩, valid⟩ := r
      have hf' := hf _ rfl
      clear hf
      simp only at hr hf'
      cases valid with
      | false =>
        cases hr
        cases hq
      | true =>
        simp only [Bool.not_true, Bool.false_eq_true, if_false, bind_run, updPub_run] at hr
        cases hr
        simp only [loadPub, Option.bind_some, hpub, modify_last] at hq
        simp at hq
        subst hq
        unfold FreshInt at hf' ⊢
        rw [hi] at hf'
        exact hf'

theorem addPublicKeys_fresh (hF : E.Fresh) {p1 p2 : Ptr} {c : Bool} {h h' : Heap} {a : Ptr}
    (hr : addPublicKeysM E p1 p2 c h = (.ok a, h')) {q : PubObj} (hq : loadPub h' a = some q) :
    FreshInt h q.X ∧ FreshInt h q.Y := by
  unfold addPublicKeysM at hr
  rw [bind_run] at hr
  simp only [readPub] at hr
  cases hp1 : loadPub h p1 with
  | none => rw [hp1] at hr; cases hr
  | some o1 =>
  cases hp2 : loadPub h p2 with
  | none => rw [hp1, deref_some] at hr; simp only [bind_run, readPub, hp2] at hr; cases hr
  | some o2 =>
    rw [hp1, deref_some] at hr
    simp only [bind_run, readPub, hp2, deref_some, deepNet] at hr
    by_cases hn : loadNet h o1.Network ≠ loadNet h o2.Network
    · rw [if_pos hn] at hr
      cases hr
    · rw [if_neg hn, bind_run] at hr
      have hf := hF.addPoints h (o1.X, o1.Y) (o2.X, o2.Y)
      rcases hx : E.addPoints (o1.X, o1.Y) (o2.X, o2.Y) h with ⟨r, h2⟩
      rw [hx] at hr hf
      cases r with
      | err e => cases hr
      | panic e => cases hr
      | ok r =>
        obtain ⟨⟨x, y⟩, onCurve⟩ := r
        have hf' := hf _ rfl
        clear hf
        simp only at hr hf'
        cases onCurve with
        | false => cases hr
        | true =>
          simp only [Bool.not_true, Bool.false_eq_true, if_false, bind_run, newPub, updPub_run] at hr
          cases hr
          simp only [loadPub, Option.bind_some, modify_last] at hq
          simp at hq
          subst hq
          exact hf'

end Btc.Mem
