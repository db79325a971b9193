import Verif.Heap.Client

/-!
# C89–C91: programs that modify keys and networks themselves
-/

namespace Btc

open Mem

variable {H : Hashes} {E : EcdsaM} {V : Ecdsa}

/-! ## C89 -/

/-- C89. Whatever a program does with the exported functions and with the keys, numbers and networks it can reach, the
parameters of the curve are those of secp256k1 afterwards. -/
theorem C89_parameters_protected (hE : E.Allocs) (hF : E.Fresh) (nets : List Network) (s : Client)
    (hs : Client.Reached H E nets s) : curveValue s.heap = secp256k1 :=
  (hs.inv hE hF).curveOK.value

/-- C89. No number known to the program is one of the parameters. -/
theorem C89_parameters_unknown (hE : E.Allocs) (hF : E.Fresh) (nets : List Network) (s : Client)
    (hs : Client.Reached H E nets s) (p : Ptr) (hp : s.Knows p) :
    p = none ∨ p ∉ [s.heap.curve.A, s.heap.curve.B, s.heap.curve.GX, s.heap.curve.GY, s.heap.curve.P, s.heap.curve.N,
      s.heap.curve.H] := by
  have hi := hs.inv hE hF
  cases p with
  | none => exact .inl rfl
  | some a =>
    right
    have h7 := (hi.knows hp).1 a rfl
    rw [hi.curve]
    simp only [initHeap, List.mem_cons, Option.some.injEq, List.not_mem_nil, or_false, not_or]
    omega

namespace Samples

/-- A curve package that returns the given point itself for the multiplier one. -/
def leaky : EcdsaM :=
  { EcdsaM.ofValue EC.ref with
    scalarMult := fun k p h =>
      if loadInt h k = some 1 ∧ loadInt h p.1 = some (Spec.gx : Int) ∧ loadInt h p.2 = some (Spec.gy : Int) then
        (.ok (p, true), h)
      else (EcdsaM.ofValue EC.ref).scalarMult k p h }

theorem leaky_allocs : leaky.Allocs := by
  have h0 := EcdsaM.ofValue_allocs EC.ref
  refine ⟨h0.getY, h0.multMod, fun n k p hk hx hy h => ?_, h0.addPoints⟩
  simp only [leaky]
  split
  · exact ⟨[], by simp, fun a ha hn => by cases ha; exact ⟨hx.mono hn, hy.mono hn⟩⟩
  · exact h0.scalarMult n k p hk hx hy h

theorem one_times_G : EC.ref.scalarMult secp256k1 (some 1) ⟨some (Spec.gx : Int), some (Spec.gy : Int)⟩ =
    .ok (⟨some (Spec.gx : Int), some (Spec.gy : Int)⟩, true) := by decide +kernel

theorem leaky_refines : leaky.Refines EC.ref := by
  have h0 := EcdsaM.ofValue_refines EC.ref
  refine ⟨h0.getY, h0.multMod, fun h k x y hc hk hx hy => ?_, h0.addPoints⟩
  by_cases hk1 : loadInt h k = some 1 ∧ loadInt h x = some (Spec.gx : Int) ∧ loadInt h y = some (Spec.gy : Int)
  · rw [hk1.1, hk1.2.1, hk1.2.2, one_times_G]
    refine ⟨((x, y), true), h, ?_, Grow.refl h, hk1.2.1, hk1.2.2, hx, hy, rfl⟩
    simp only [leaky, hk1, and_self, if_true]
  · have e : leaky.scalarMult k (x, y) h = (EcdsaM.ofValue EC.ref).scalarMult k (x, y) h := by
      simp only [leaky, if_neg hk1]
    have := h0.scalarMult h k x y hc hk hx hy
    unfold Ref at this ⊢
    rw [e]
    exact this

/-- The public key of the number one, and then `pub.X.SetInt64(5)`. -/
def leak1 : Client := Client.call realHashes leaky ⟨initHeap [MainNetwork], []⟩ (.privateFromHex (asc "01") (some 0))
def leak2 : Client := leak1.call realHashes leaky (.getPublicKey (some 0))
def leak3 : Client := ⟨(writeInt (some 2) 5 leak2.heap).2, leak2.own⟩

theorem leak1_reached : Client.Reached realHashes leaky [MainNetwork] leak1 :=
  .tail .refl (.call _ (.privateFromHex (asc "01") (some 0)) (by exact trivial))

theorem leak2_reached : Client.Reached realHashes leaky [MainNetwork] leak2 :=
  .tail leak1_reached (.call leak1 (.getPublicKey (some 0)) (by exact trivial))

theorem leak2_knows : leak2.Knows (some 2) := by
  intro a ha
  cases ha
  refine .inr (.inr ⟨⟨some 2, some 3, some 0⟩, ?_, .inl rfl⟩)
  have : leak2.heap.pubs = [⟨some 2, some 3, some 0⟩] := by decide +kernel
  rw [this]
  exact List.mem_singleton.mpr rfl

theorem leak3_reached : Client.Reached realHashes leaky [MainNetwork] leak3 :=
  .tail leak2_reached (.setInt leak2 (some 2) 5 leak2_knows)

end Samples

open Samples in
/-- C89: the assumption that the curve package returns new numbers is needed. A package that computes correctly and
writes only to new numbers, but returns its argument when multiplying by one, lets a program change the generator. -/
theorem C89_needs_fresh : leaky.Allocs ∧ leaky.Refines EC.ref ∧
    ∃ s, Client.Reached realHashes leaky [MainNetwork] s ∧ curveValue s.heap ≠ secp256k1 := by
  exact ⟨leaky_allocs, leaky_refines, leak3, leak3_reached, by decide +kernel⟩

/-! ## C90 -/

namespace Spec

/-- Specification: `h'` differs from `h` only in numbers and keys that already existed in `b`, and in networks. -/
structure OnlyOlder (b h h' : Heap) : Prop where
  ints : ∀ a, b.ints.length ≤ a → h'.ints[a]? = h.ints[a]?
  privs : ∀ a, b.privs.length ≤ a → h'.privs[a]? = h.privs[a]?
  pubs : ∀ a, b.pubs.length ≤ a → h'.pubs[a]? = h.pubs[a]?

/-- Specification: `h'` differs from `h` only in numbers and keys that did not exist in `b`. -/
structure OnlyNewer (b h h' : Heap) : Prop where
  ints : ∀ a, a < b.ints.length → h'.ints[a]? = h.ints[a]?
  privs : ∀ a, a < b.privs.length → h'.privs[a]? = h.privs[a]?
  pubs : ∀ a, a < b.pubs.length → h'.pubs[a]? = h.pubs[a]?
  nets : h'.nets = h.nets

end Spec

open Spec

theorem Spec.OnlyOlder.loadInt {b h h' : Heap} (ho : OnlyOlder b h h') {p : Ptr} (hp : FreshInt b p) :
    Mem.loadInt h' p = Mem.loadInt h p := by
  cases p with
  | none => rfl
  | some a => exact ho.ints a (hp a rfl)

theorem Spec.onlyOlder_nets (b h : Heap) (l : List Network) : OnlyOlder b h { h with nets := l } :=
  ⟨fun _ _ => rfl, fun _ _ => rfl, fun _ _ => rfl⟩

theorem loadPriv_nets (h : Heap) (l : List Network) (p : Ptr) : loadPriv { h with nets := l } p = loadPriv h p := rfl

theorem Spec.onlyOlder_wipe (b h : Heap) (i j k : Nat) (v w : Int) (o : PrivObj) (hi : i < b.ints.length)
    (hj : j < b.ints.length) (hk : k < b.privs.length) :
    OnlyOlder b h { h with ints := (h.ints.set i v).set j w, privs := h.privs.set k o } := by
  refine ⟨fun a ha => ?_, fun a ha => ?_, fun _ _ => rfl⟩
  · show ((h.ints.set i v).set j w)[a]? = _
    rw [List.getElem?_set_ne (by omega), List.getElem?_set_ne (by omega)]
  · show (h.privs.set k o)[a]? = _
    rw [List.getElem?_set_ne (by omega)]

theorem Mem.NewPriv.later {b h h2 : Heap} {net a : Ptr} {v : PrivateKey} (hn : NewPriv b net a v h)
    (ho : OnlyOlder b h h2) :
    ∃ o, loadPriv h2 a = some o ∧ privValue h2 o = { v with Network := loadNet h2 net } := by
  obtain ⟨o, h1, h2', h3, h4, h5⟩ := hn.obj
  refine ⟨o, ?_, ?_⟩
  · cases a with
    | none => cases h1
    | some i => exact (ho.privs i (hn.fresh i rfl)).trans h1
  · rw [← h2', privValue, privValue, ho.loadInt h4, h3]

theorem Mem.NewPub.later {b h h2 : Heap} {net a : Ptr} {v : PublicKey} (hn : NewPub b net a v h)
    (hf : ∀ o, loadPub h a = some o → FreshInt b o.X ∧ FreshInt b o.Y) (ho : OnlyOlder b h h2) :
    ∃ o, loadPub h2 a = some o ∧ pubValue h2 o = { v with Network := loadNet h2 net } := by
  obtain ⟨o, h1, h2', h3, h4, h5⟩ := hn.obj
  refine ⟨o, ?_, ?_⟩
  · cases a with
    | none => cases h1
    | some i => exact (ho.pubs i (hn.fresh i rfl)).trans h1
  · rw [← h2', pubValue, pubValue, ho.loadInt (hf o h1).1, ho.loadInt (hf o h1).2, h3]

section Reached

variable (hE : E.Allocs) (hF : E.Fresh) {nets : List Network} {s : Client} (hs : Client.Reached H E nets s)
include hE hF hs

/-- C91. In every state a program can reach, also after it has overwritten keys, numbers and networks, `AddPrivateKeys`
computes what the value-level model computes from the present values. -/
theorem C91_add {p1 p2 : Ptr} {o1 o2 : PrivObj} (h1 : loadPriv s.heap p1 = some o1)
    (h2 : loadPriv s.heap p2 = some o2) :
    Ref s.heap (addPrivateKeysM H p1 p2) (addPrivateKeys H (privValue s.heap o1) (privValue s.heap o2))
      (NewPriv s.heap o1.Network) :=
  have hi := hs.inv hE hF
  addPrivateKeys_ref H h1 h2 hi.curveOK.value hi.curveOK.N (hi.priv h1) (hi.priv h2)

/-- C91 for `MultiplyPrivateKeys`. -/
theorem C91_multiply {p1 p2 : Ptr} {o1 o2 : PrivObj} (h1 : loadPriv s.heap p1 = some o1)
    (h2 : loadPriv s.heap p2 = some o2) :
    Ref s.heap (multiplyPrivateKeysM H p1 p2) (multiplyPrivateKeys H (privValue s.heap o1) (privValue s.heap o2))
      (NewPriv s.heap o1.Network) :=
  have hi := hs.inv hE hF
  multiplyPrivateKeys_ref H h1 h2 hi.curveOK.value hi.curveOK.N (hi.priv h1) (hi.priv h2)

/-- C91 for `PublicFromHex`. -/
theorem C91_publicFromHex (hV : E.Refines V) (hexa : GoString) (network : Ptr) :
    Ref s.heap (publicFromHexM E hexa network) (publicFromHex V hexa (loadNet s.heap network)) fun a v h' =>
      NewPub s.heap network a v h' ∧ ∃ o, loadPub h' a = some o ∧ FreshInt s.heap o.X ∧ FreshInt s.heap o.Y :=
  publicFromHex_ref hV hexa network (hs.inv hE hF).curveOK

/-- C91 for `GetPublicKey`. -/
theorem C91_getPublicKey (hV : E.Refines V) {p : Ptr} {o : PrivObj} (ho : loadPriv s.heap p = some o) :
    Ref s.heap (getPublicKeyM E p) (getPublicKey V (privValue s.heap o)) fun a v h' =>
      match v with
      | none => a = none ∧ Grow s.heap h'
      | some v => NewPub s.heap o.Network a v h' :=
  have hi := hs.inv hE hF
  getPublicKey_ref hV ho hi.curveOK (hi.priv ho)

/-- C91 for `AddPublicKeys`. -/
theorem C91_addPublicKeys (hV : E.Refines V) {p1 p2 : Ptr} {o1 o2 : PubObj} (h1 : loadPub s.heap p1 = some o1)
    (h2 : loadPub s.heap p2 = some o2) (c : Bool) :
    Ref s.heap (addPublicKeysM E p1 p2 c) (addPublicKeys V (pubValue s.heap o1) (pubValue s.heap o2) c)
      (NewPub s.heap o1.Network) :=
  have hi := hs.inv hE hF
  addPublicKeys_ref hV h1 h2 hi.curveOK (hi.pub h1).1 (hi.pub h1).2 (hi.pub h2).1 (hi.pub h2).2 c

/-- C90. A sum computed by `AddPrivateKeys` keeps its value whatever is done later to the numbers and keys that existed
before the call, in particular to the arguments. Only its network is shared: it is whatever the network object of the
first argument then holds. What is missing for the full statement is this network, see `C90_violated`. -/
theorem C90_add_partial {p1 p2 : Ptr} {o1 o2 : PrivObj} (h1 : loadPriv s.heap p1 = some o1)
    (h2 : loadPriv s.heap p2 = some o2) :
    Ref s.heap (addPrivateKeysM H p1 p2) (addPrivateKeys H (privValue s.heap o1) (privValue s.heap o2))
      fun a v h' => ∀ h2, OnlyOlder s.heap h' h2 →
        ∃ o, loadPriv h2 a = some o ∧ privValue h2 o = { v with Network := loadNet h2 o1.Network } :=
  (C91_add hE hF hs h1 h2).mono fun _ _ _ hn _ => hn.later

/-- C90 for `MultiplyPrivateKeys`. -/
theorem C90_multiply_partial {p1 p2 : Ptr} {o1 o2 : PrivObj} (h1 : loadPriv s.heap p1 = some o1)
    (h2 : loadPriv s.heap p2 = some o2) :
    Ref s.heap (multiplyPrivateKeysM H p1 p2) (multiplyPrivateKeys H (privValue s.heap o1) (privValue s.heap o2))
      fun a v h' => ∀ h2, OnlyOlder s.heap h' h2 →
        ∃ o, loadPriv h2 a = some o ∧ privValue h2 o = { v with Network := loadNet h2 o1.Network } :=
  (C91_multiply hE hF hs h1 h2).mono fun _ _ _ hn _ => hn.later

/-- C90 for `PublicFromHex`. -/
theorem C90_publicFromHex_partial (hV : E.Refines V) (hexa : GoString) (network : Ptr) :
    Ref s.heap (publicFromHexM E hexa network) (publicFromHex V hexa (loadNet s.heap network)) fun a v h' =>
      ∀ h2, OnlyOlder s.heap h' h2 →
        ∃ o, loadPub h2 a = some o ∧ pubValue h2 o = { v with Network := loadNet h2 network } := by
  refine (C91_publicFromHex hE hF hs hV hexa network).mono ?_
  rintro a v h' ⟨hn, o, h1, h2, h3⟩ h2'
  refine hn.later fun o' ho' => ?_
  rw [h1] at ho'
  cases ho'
  exact ⟨h2, h3⟩

/-- C90 for `GetPublicKey`. -/
theorem C90_getPublicKey_partial (hV : E.Refines V) {p : Ptr} {o : PrivObj} (ho : loadPriv s.heap p = some o) :
    Ref s.heap (getPublicKeyM E p) (getPublicKey V (privValue s.heap o)) fun a v h' =>
      match v with
      | none => a = none
      | some v => ∀ h2, OnlyOlder s.heap h' h2 →
        ∃ q, loadPub h2 a = some q ∧ pubValue h2 q = { v with Network := loadNet h2 o.Network } := by
  have hr := C91_getPublicKey hE hF hs hV ho
  cases hv : getPublicKey V (privValue s.heap o) with
  | ok v =>
    rw [hv] at hr
    obtain ⟨a, h', e, hq⟩ := hr
    refine ⟨a, h', e, ?_⟩
    cases v with
    | none => exact hq.1
    | some v => exact fun h2 => hq.later fun q hq' => getPublicKey_fresh hE hF e hq'
  | err e => rw [hv] at hr; exact hr
  | panic e => rw [hv] at hr; exact hr

/-- C90 for `AddPublicKeys`. -/
theorem C90_addPublicKeys_partial (hV : E.Refines V) {p1 p2 : Ptr} {o1 o2 : PubObj}
    (h1 : loadPub s.heap p1 = some o1) (h2 : loadPub s.heap p2 = some o2) (c : Bool) :
    Ref s.heap (addPublicKeysM E p1 p2 c) (addPublicKeys V (pubValue s.heap o1) (pubValue s.heap o2) c)
      fun a v h' => ∀ h2, OnlyOlder s.heap h' h2 →
        ∃ q, loadPub h2 a = some q ∧ pubValue h2 q = { v with Network := loadNet h2 o1.Network } := by
  have hr := C91_addPublicKeys hE hF hs hV h1 h2 c
  cases hv : addPublicKeys V (pubValue s.heap o1) (pubValue s.heap o2) c with
  | ok v =>
    rw [hv] at hr
    obtain ⟨a, h', e, hq⟩ := hr
    exact ⟨a, h', e, fun h2 => hq.later fun q hq' => addPublicKeys_fresh hF e hq'⟩
  | err e => rw [hv] at hr; exact hr
  | panic e => rw [hv] at hr; exact hr

omit hF hs in
/-- C90, the other direction: whatever is done to the numbers and keys created by a call, in particular to its result,
every number, key and network that existed before the call still reads the same. -/
theorem C90_arguments_kept (c : Call) (h2 : Heap) (hn : OnlyNewer s.heap (c.run H E s.heap) h2) :
    (∀ p v, loadInt s.heap p = some v → loadInt h2 p = some v) ∧
      (∀ p v, loadNet s.heap p = some v → loadNet h2 p = some v) ∧
      (∀ p o, loadPriv s.heap p = some o → loadPriv h2 p = some o) ∧
      ∀ p o, loadPub s.heap p = some o → loadPub h2 p = some o := by
  have hu := (Call.grow H hE c s.heap).unchanged
  refine ⟨fun p v hp => ?_, fun p v hp => ?_, fun p o hp => ?_, fun p o hp => ?_⟩
  · have := hu.int p v hp
    cases p with
    | none => cases hp
    | some a => exact (hn.ints a (List.getElem?_eq_some_iff.mp hp).1).trans this
  · have := hu.net p v hp
    cases p with
    | none => cases hp
    | some a => rw [loadNet, hn.nets]; exact this
  · have := hu.priv p o hp
    cases p with
    | none => cases hp
    | some a => exact (hn.privs a (List.getElem?_eq_some_iff.mp hp).1).trans this
  · have := hu.pub p o hp
    cases p with
    | none => cases hp
    | some a => exact (hn.pubs a (List.getElem?_eq_some_iff.mp hp).1).trans this

end Reached

/-- C90 for the constructors. -/
theorem C90_privateFromHex_partial (h : Heap) (hexa : GoString) (network : Ptr) :
    Ref h (privateFromHexM H hexa network) (privateFromHex H hexa (loadNet h network)) fun a v h' =>
      ∀ h2, OnlyOlder h h' h2 →
        ∃ o, loadPriv h2 a = some o ∧ privValue h2 o = { v with Network := loadNet h2 network } :=
  (C57_privateFromHex H h hexa network).mono fun _ _ _ hn _ => hn.later

theorem C90_privateFromWIF_partial (h : Heap) (wif : GoString) (network : Ptr) :
    Ref h (privateFromWIFM H wif network) (privateFromWIF H wif (loadNet h network)) fun a v h' =>
      ∀ h2, OnlyOlder h h' h2 →
        ∃ o, loadPriv h2 a = some o ∧ privValue h2 o = { v with Network := loadNet h2 network } :=
  (C57_privateFromWIF H h wif network).mono fun _ _ _ hn _ => hn.later

namespace Samples

/-- Two keys of the main network, their sum, and then `*MainNetwork = *TestNetwork`. -/
def share0 : Client :=
  Client.call realHashes (EcdsaM.ofValue EC.ref) ⟨initHeap [MainNetwork, TestNetwork], []⟩ (.privateFromHex hexA (some 0))
def shareA : Client := share0.call realHashes (EcdsaM.ofValue EC.ref) (.privateFromHex hexB (some 0))
def shareB : Client := shareA.call realHashes (EcdsaM.ofValue EC.ref) (.addPrivateKeys (some 0) (some 1))
def shareC : Client := ⟨{ shareB.heap with nets := shareB.heap.nets.set 0 TestNetwork }, shareB.own⟩

theorem shareA_reached : Client.Reached realHashes (EcdsaM.ofValue EC.ref) [MainNetwork, TestNetwork] shareA :=
  .tail (.tail .refl (.call _ (.privateFromHex hexA (some 0)) (by exact trivial)))
    (.call share0 (.privateFromHex hexB (some 0)) (by exact trivial))

theorem shareB_reached : Client.Reached realHashes (EcdsaM.ofValue EC.ref) [MainNetwork, TestNetwork] shareB :=
  .tail shareA_reached (.call shareA (.addPrivateKeys (some 0) (some 1)) (by exact trivial))

theorem shareC_reached : Client.Reached realHashes (EcdsaM.ofValue EC.ref) [MainNetwork, TestNetwork] shareC :=
  .tail shareB_reached (.setNet shareB 0 TestNetwork)

end Samples

open Samples in
/-- C90 violated: the sum of two keys shares its network with the first argument. When the program changes that network
and no number or key, the sum changes too: it now claims to be of the test network while its WIF still is that of the
main network. -/
theorem C90_violated : ∃ (s s' s2 : Client) (o : PrivObj),
    Client.Reached realHashes (EcdsaM.ofValue EC.ref) [MainNetwork, TestNetwork] s ∧
    s' = s.call realHashes (EcdsaM.ofValue EC.ref) (.addPrivateKeys (some 0) (some 1)) ∧
    Client.Step realHashes (EcdsaM.ofValue EC.ref) s' s2 ∧ OnlyOlder s.heap s'.heap s2.heap ∧
    loadPriv s'.heap (some 2) = some o ∧ (privValue s'.heap o).Network = some MainNetwork ∧
    loadPriv s2.heap (some 2) = some o ∧ (privValue s2.heap o).Network = some TestNetwork ∧
    addPrivateKeys realHashes keyA keyB = .ok (privValue s'.heap o) := by
  obtain ⟨o, h1, h2⟩ : ∃ o, loadPriv shareB.heap (some 2) = some o ∧
      (privValue shareB.heap o).Network = some MainNetwork ∧ (privValue shareC.heap o).Network = some TestNetwork ∧
      addPrivateKeys realHashes keyA keyB = .ok (privValue shareB.heap o) := by
    cases h : loadPriv shareB.heap (some 2) with
    | none => exact absurd h (by decide +kernel)
    | some o =>
      refine ⟨o, rfl, ?_⟩
      have h' : (loadPriv shareB.heap (some 2)).map (fun o => ((privValue shareB.heap o).Network,
          (privValue shareC.heap o).Network, (Res.ok (privValue shareB.heap o) : Res PrivateKey))) =
          some (some MainNetwork, some TestNetwork, addPrivateKeys realHashes keyA keyB) := by decide +kernel
      rw [h] at h'
      simp only [Option.map_some, Option.some.injEq, Prod.mk.injEq] at h'
      exact ⟨h'.1, h'.2.1, h'.2.2.symm⟩
  have h3 : loadPriv shareC.heap (some 2) = some o := by
    unfold shareC
    rw [loadPriv_nets]
    exact h1
  exact ⟨shareA, shareB, shareC, o, shareA_reached, rfl, .setNet shareB 0 TestNetwork,
    onlyOlder_nets _ _ _, h1, h2.1, h3, h2.2.1, h2.2.2⟩

/-! ## The hypotheses can be met -/

/-- There is a curve package satisfying all assumptions. -/
example : (EcdsaM.ofValue EC.ref).Allocs ∧ (EcdsaM.ofValue EC.ref).Fresh ∧ (EcdsaM.ofValue EC.ref).Refines EC.ref ∧
    Spec.EcdsaContract EC.ref :=
  ⟨EcdsaM.ofValue_allocs _, EcdsaM.ofValue_fresh _, EcdsaM.ofValue_refines _, EC.ref_contract⟩

namespace Samples

/-- A program that overwrites the number of its first key: `k.Key.SetInt64(3)`. -/
def share3 : Client := ⟨(writeInt (some 7) 3 shareA.heap).2, shareA.own⟩

theorem share3_reached : Client.Reached realHashes (EcdsaM.ofValue EC.ref) [MainNetwork, TestNetwork] share3 := by
  refine .tail shareA_reached (.setInt shareA (some 7) 3 ?_)
  intro a ha
  cases ha
  refine .inr (.inl ⟨⟨some 7, hexA, wifA, some 0⟩, ?_, rfl⟩)
  have : shareA.heap.privs = [⟨some 7, hexA, wifA, some 0⟩, ⟨some 8, hexB, wifB, some 0⟩] := by decide +kernel
  rw [this]
  exact List.mem_cons_self

attribute [local irreducible] Ref in
/-- C91 applied to it: the sum is computed from the number 3, not from the text of the key. -/
example : Ref share3.heap (addPrivateKeysM realHashes (some 0) (some 1))
    (addPrivateKeys realHashes { keyA with Key := some 3 } keyB) (NewPriv share3.heap (some 0)) := by
  have h1 : loadPriv share3.heap (some 0) = some ⟨some 7, hexA, wifA, some 0⟩ := by decide +kernel
  have h2 : loadPriv share3.heap (some 1) = some ⟨some 8, hexB, wifB, some 0⟩ := by decide +kernel
  have h3 : privValue share3.heap ⟨some 7, hexA, wifA, some 0⟩ = { keyA with Key := some 3 } := by decide +kernel
  have h4 : privValue share3.heap ⟨some 8, hexB, wifB, some 0⟩ = keyB := by decide +kernel
  have := C91_add (EcdsaM.ofValue_allocs _) (EcdsaM.ofValue_fresh _) share3_reached h1 h2
  rw [h3, h4] at this
  exact this

/-- C89: after this the curve parameters are still those of secp256k1, and no pointer the program knows leads to them. -/
example : curveValue share3.heap = secp256k1 ∧ ∀ p, share3.Knows p → p = none ∨ p ≠ share3.heap.curve.N := by
  refine ⟨C89_parameters_protected (EcdsaM.ofValue_allocs _) (EcdsaM.ofValue_fresh _) _ _ share3_reached, fun p hp => ?_⟩
  rcases C89_parameters_unknown (EcdsaM.ofValue_allocs _) (EcdsaM.ofValue_fresh _) _ _ share3_reached p hp with h | h
  · exact .inl h
  · exact .inr fun e => h (by simp [e])

attribute [local irreducible] Ref in
/-- C90: a later change of older objects does not reach the sum, its network apart. -/
example : Ref share3.heap (addPrivateKeysM realHashes (some 0) (some 1))
    (addPrivateKeys realHashes { keyA with Key := some 3 } keyB) fun a v h' => ∀ h2, OnlyOlder share3.heap h' h2 →
      ∃ o, loadPriv h2 a = some o ∧ privValue h2 o = { v with Network := loadNet h2 (some 0) } := by
  have h1 : loadPriv share3.heap (some 0) = some ⟨some 7, hexA, wifA, some 0⟩ := by decide +kernel
  have h2 : loadPriv share3.heap (some 1) = some ⟨some 8, hexB, wifB, some 0⟩ := by decide +kernel
  have h3 : privValue share3.heap ⟨some 7, hexA, wifA, some 0⟩ = { keyA with Key := some 3 } := by decide +kernel
  have h4 : privValue share3.heap ⟨some 8, hexB, wifB, some 0⟩ = keyB := by decide +kernel
  have := C90_add_partial (EcdsaM.ofValue_allocs _) (EcdsaM.ofValue_fresh _) share3_reached h1 h2
  rw [h3, h4] at this
  exact this

/-- The result of the sum, after both arguments have been wiped. -/
example : OnlyOlder shareA.heap shareB.heap
    { shareB.heap with
      ints := (shareB.heap.ints.set 7 0).set 8 0, privs := (shareB.heap.privs.set 0 ⟨none, [], [], none⟩) } := by
  have h1 : 7 < shareA.heap.ints.length ∧ 8 < shareA.heap.ints.length ∧ 0 < shareA.heap.privs.length := by
    decide +kernel
  exact onlyOlder_wipe _ _ 7 8 0 0 0 _ h1.1 h1.2.1 h1.2.2

end Samples

end Btc
