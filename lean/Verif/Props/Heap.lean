import Verif.Heap.Safe
import Verif.Props.Samples
import Verif.Curve.Ref

/-!
# C57: calls do not modify what existed before them
-/

namespace Btc

open Mem

variable (H : Hashes)

namespace Mem

/-- One step of a program using the package: a call with any arguments, or the allocation of a number or a key by the
program itself (fields are exported). Pointers that do not exist cannot be written in Go; such steps do nothing. -/
inductive Call where
  | privateFromWIF (wif : GoString) (network : Ptr)
  | privateFromHex (hexa : GoString) (network : Ptr)
  | generatePrivateKey (rd : Reader) (network : Ptr)
  | addPrivateKeys (p1 p2 : Ptr)
  | multiplyPrivateKeys (p1 p2 : Ptr)
  | publicFromHex (hexa : GoString) (network : Ptr)
  | getPublicKey (p : Ptr)
  | format (p : Ptr) (compressed : Bool)
  | address (p : Ptr) (compressed : Bool)
  | addPublicKeys (p1 p2 : Ptr) (compressed : Bool)
  | clientInt (v : Int)
  | clientPriv (o : PrivObj)
  | clientPub (o : PubObj)

/-- The heap after a step; results, errors and panics are dropped (a panic may be recovered by the caller). -/
def Call.run (E : EcdsaM) (h : Heap) : Call → Heap
  | .privateFromWIF wif network => (privateFromWIFM H wif network h).2
  | .privateFromHex hexa network => (privateFromHexM H hexa network h).2
  | .generatePrivateKey rd network => (generatePrivateKeyM H rd network h).2
  | .addPrivateKeys p1 p2 => (addPrivateKeysM H p1 p2 h).2
  | .multiplyPrivateKeys p1 p2 => (multiplyPrivateKeysM H p1 p2 h).2
  | .publicFromHex hexa network => (publicFromHexM E hexa network h).2
  | .getPublicKey p => (getPublicKeyM E p h).2
  | .format p c => (formatM p c h).2
  | .address p c => (addressM H p c h).2
  | .addPublicKeys p1 p2 c => (addPublicKeysM E p1 p2 c h).2
  | .clientInt v => { h with ints := h.ints ++ [v] }
  | .clientPriv o => if Below h.ints.length o.Key then { h with privs := h.privs ++ [o] } else h
  | .clientPub o =>
    if Below h.ints.length o.X ∧ Below h.ints.length o.Y then { h with pubs := h.pubs ++ [o] } else h

/-- The heap after a program. -/
def runAll (E : EcdsaM) (h : Heap) (calls : List Call) : Heap := calls.foldl (Call.run H E) h

/-- btc.go:17-26 `init`: the numbers of the package variable; `nets` are the networks in use. -/
def initHeap (nets : List Network) : Heap where
  ints := [0, 7, Spec.gx, Spec.gy, Spec.p, Spec.n, 1]
  nets := nets
  privs := []
  pubs := []
  curve := ⟨some 0, some 1, some 2, some 3, some 4, some 5, some 6⟩

/-- Specification: whatever could be read in `h` reads the same in `h'`. -/
structure Unchanged (h h' : Heap) : Prop where
  int : ∀ p v, loadInt h p = some v → loadInt h' p = some v
  net : ∀ p v, loadNet h p = some v → loadNet h' p = some v
  priv : ∀ p o, loadPriv h p = some o → loadPriv h' p = some o
  pub : ∀ p o, loadPub h p = some o → loadPub h' p = some o
  curve : h'.curve = h.curve

theorem Grow.unchanged {h h' : Heap} (hg : Grow h h') : Unchanged h h' := by
  refine ⟨fun p v hv => ?_, fun p v hv => ?_, fun p o => loadPriv_grow hg, fun p o => loadPub_grow hg, hg.curve.symm⟩
  · rw [loadInt_grow hg, hv]
    intro a ha
    subst ha
    exact (List.getElem?_eq_some_iff.mp hv).1
  · rw [loadNet_grow hg, hv]

theorem keeps_format (b : Heap) (p : Ptr) (c : Bool) : Keeps b (formatM p c) fun _ => True := by
  refine .bind (.readPub _) fun o _ => .bind (.bigIntToHex _) fun _ _ => .bind (.bigIntToHex _) fun _ _ => ?_
  cases c with
  | false => exact .lift _
  | true =>
    refine .bind (.readInt _) fun y _ => ?_
    split <;> exact .lift _

theorem keeps_address (b : Heap) (p : Ptr) (c : Bool) : Keeps b (addressM H p c) fun _ => True :=
  .bind (keeps_format b p c) fun _ _ => .bind (.lift _) fun _ _ => .bind (.readPub _) fun _ _ =>
    .bind (.readNet _) fun _ _ => .bind (.lift _) fun _ _ => .bind (.lift _) fun _ _ => .bind (.lift _) fun _ _ =>
    .lift _

theorem safe_format {n : Nat} (p : Ptr) (c : Bool) : Safe n (formatM p c) fun _ _ => True := by
  refine .bind (.readPub _) fun o _ _ _ => .bind (.read fun _ => rfl) fun _ _ _ _ =>
    .bind (.read fun _ => rfl) fun _ _ _ _ => ?_
  cases c with
  | false => exact .lift _
  | true =>
    refine .bind (.read fun _ => rfl) fun y _ _ _ => ?_
    split <;> exact .lift _

theorem safe_address {n : Nat} (p : Ptr) (c : Bool) : Safe n (addressM H p c) fun _ _ => True :=
  .bind (safe_format p c) fun _ _ _ _ => .bind (.lift _) fun _ _ _ _ => .bind (.readPub _) fun _ _ _ _ =>
    .bind (.read fun _ => rfl) fun _ _ _ _ => .bind (.lift _) fun _ _ _ _ => .bind (.lift _) fun _ _ _ _ =>
    .bind (.lift _) fun _ _ _ _ => .lift _

variable {E : EcdsaM}

theorem Call.grow (hE : E.Allocs) (c : Call) (h : Heap) : Grow h (c.run H E h) := by
  have hg := Grow.refl h
  have hF := hE.frames
  cases c with
  | privateFromWIF wif network => exact (keeps_privateFromWIF H h wif network h hg).1
  | privateFromHex hexa network => exact (keeps_privateFromHex H h hexa network h hg).1
  | generatePrivateKey rd network =>
    simp only [Call.run, generatePrivateKeyM]
    generalize generateRandomBigInt = draw
    exact (keeps_generateLoop H h draw network _ rd h hg).1
  | addPrivateKeys p1 p2 => exact (keeps_addPrivateKeys H h p1 p2 h hg).1
  | multiplyPrivateKeys p1 p2 => exact (keeps_multiplyPrivateKeys H h p1 p2 h hg).1
  | publicFromHex hexa network => exact (keeps_publicFromHex h E hF hexa network h hg).1
  | getPublicKey p => exact (keeps_getPublicKey h E hF p h hg).1
  | format p c => exact (keeps_format h p c h hg).1
  | address p c => exact (keeps_address H h p c h hg).1
  | addPublicKeys p1 p2 c => exact (keeps_addPublicKeys h E hF p1 p2 c h hg).1
  | clientInt v => exact grow_ints h [v]
  | clientPriv o =>
    simp only [Call.run]
    split
    · exact ⟨hg.ints, rfl, List.prefix_append _ _, hg.pubs, rfl⟩
    · exact hg
  | clientPub o =>
    simp only [Call.run]
    split
    · exact ⟨hg.ints, rfl, hg.privs, List.prefix_append _ _, rfl⟩
    · exact hg

theorem Call.objs (hE : E.Allocs) (c : Call) {h : Heap} (ho : Objs h) : Objs (c.run H E h) := by
  have hg := Nat.zero_le h.ints.length
  cases c with
  | privateFromWIF wif network => exact (safe_privateFromWIF H wif network h hg ho).1
  | privateFromHex hexa network => exact (safe_privateFromHex H hexa network h hg ho).1
  | generatePrivateKey rd network => exact (safe_generate H rd network h hg ho).1
  | addPrivateKeys p1 p2 => exact (safe_addPrivateKeys H p1 p2 h hg ho).1
  | multiplyPrivateKeys p1 p2 => exact (safe_multiplyPrivateKeys H p1 p2 h hg ho).1
  | publicFromHex hexa network => exact (safe_publicFromHex hE hexa network h hg ho).1
  | getPublicKey p => exact (safe_getPublicKey hE p h hg ho).1
  | format p c => exact (safe_format p c h hg ho).1
  | address p c => exact (safe_address H p c h hg ho).1
  | addPublicKeys p1 p2 c => exact (safe_addPublicKeys hE p1 p2 c h hg ho).1
  | clientInt v => exact ho.ints (by simp)
  | clientPriv o =>
    simp only [Call.run]
    split
    · rename_i hb
      refine ⟨fun o' hm => ?_, ho.pubs, ho.gen⟩
      rcases List.mem_append.mp hm with hm | hm
      · exact ho.privs o' hm
      · rw [List.mem_singleton.mp hm]; exact hb
    · exact ho
  | clientPub o =>
    simp only [Call.run]
    split
    · rename_i hb
      refine ⟨ho.privs, fun o' hm => ?_, ho.gen⟩
      rcases List.mem_append.mp hm with hm | hm
      · exact ho.pubs o' hm
      · rw [List.mem_singleton.mp hm]; exact hb
    · exact ho

theorem runAll_grow (hE : E.Allocs) : ∀ (calls : List Call) (h : Heap), Grow h (runAll H E h calls)
  | [], h => Grow.refl h
  | c :: cs, h => (Call.grow H hE c h).trans (runAll_grow hE cs _)

theorem runAll_objs (hE : E.Allocs) : ∀ (calls : List Call) (h : Heap), Objs h → Objs (runAll H E h calls)
  | [], _, ho => ho
  | c :: cs, _, ho => runAll_objs hE cs _ (Call.objs H hE c ho)

theorem init_curveOK (nets : List Network) : CurveOK (initHeap nets) := by
  have hv : ∀ i, i < 7 → ValidInt (initHeap nets) (some i) := by
    intro i hi a ha
    cases ha
    exact hi
  refine ⟨?_, hv 0 (by decide), hv 1 (by decide), hv 2 (by decide), hv 3 (by decide), hv 4 (by decide),
    hv 5 (by decide), hv 6 (by decide)⟩
  have e : curveValue (initHeap nets) = curveValue (initHeap []) := rfl
  rw [e]
  decide +kernel

theorem init_objs (nets : List Network) : Objs (initHeap nets) :=
  ⟨(by intro o ho; cases ho), (by intro o ho; cases ho), (by intro a ha; cases ha; show (_ : Nat) < 7; omega),
    (by intro a ha; cases ha; show (_ : Nat) < 7; omega)⟩

/-- Heaps that a program can produce, starting from the initialised package. -/
def Reachable (E : EcdsaM) (nets : List Network) (h : Heap) : Prop := ∃ calls, h = runAll H E (initHeap nets) calls

end Mem

variable {E : EcdsaM} {V : Ecdsa}

/-- C57: no program made of calls (with any arguments, aliased or nil; failing calls included) changes any number,
network, key or parameter that existed before. -/
theorem C57_programs_change_nothing (hE : E.Allocs) (h : Heap) (calls : List Call) :
    Unchanged h (runAll H E h calls) := (runAll_grow H hE calls h).unchanged

/-- C57: the value of a key is not affected by later calls. -/
theorem C57_key_values_kept (hE : E.Allocs) (nets : List Network) (h : Heap) (hr : Reachable H E nets h)
    (calls : List Call) (p : Ptr) (o : PrivObj) (ho : loadPriv h p = some o) :
    loadPriv (runAll H E h calls) p = some o ∧ privValue (runAll H E h calls) o = privValue h o := by
  obtain ⟨pre, rfl⟩ := hr
  have hg := runAll_grow H hE calls (runAll H E (initHeap nets) pre)
  have hv := runAll_objs H hE pre _ (init_objs nets)
  refine ⟨loadPriv_grow hg ho, ?_⟩
  simp only [privValue]
  rw [loadNet_grow hg, loadInt_grow hg]
  cases p with
  | none => cases ho
  | some a => exact hv.privs o (List.mem_iff_getElem?.mpr ⟨a, ho⟩)

/-- The same for public keys. -/
theorem C57_public_key_values_kept (hE : E.Allocs) (nets : List Network) (h : Heap) (hr : Reachable H E nets h)
    (calls : List Call) (p : Ptr) (o : PubObj) (ho : loadPub h p = some o) :
    loadPub (runAll H E h calls) p = some o ∧ pubValue (runAll H E h calls) o = pubValue h o := by
  obtain ⟨pre, rfl⟩ := hr
  have hg := runAll_grow H hE calls (runAll H E (initHeap nets) pre)
  have hv := runAll_objs H hE pre _ (init_objs nets)
  have hv : ValidInt (runAll H E (initHeap nets) pre) o.X ∧ ValidInt (runAll H E (initHeap nets) pre) o.Y := by
    cases p with
    | none => cases ho
    | some a => exact hv.pubs o (List.mem_iff_getElem?.mpr ⟨a, ho⟩)
  refine ⟨loadPub_grow hg ho, ?_⟩
  simp only [pubValue]
  rw [loadNet_grow hg, loadInt_grow hg hv.1, loadInt_grow hg hv.2]

section Results

theorem Mem.Reachable.curve (hE : E.Allocs) {nets : List Network} {h : Heap} (hr : Reachable H E nets h) :
    CurveOK h := by
  obtain ⟨pre, rfl⟩ := hr
  exact (init_curveOK nets).grow (runAll_grow H hE pre _)

theorem Mem.Reachable.priv (hE : E.Allocs) {nets : List Network} {h : Heap} (hr : Reachable H E nets h) {p : Ptr}
    {o : PrivObj} (ho : loadPriv h p = some o) : ValidInt h o.Key := by
  obtain ⟨pre, rfl⟩ := hr
  have hv := runAll_objs H hE pre _ (init_objs nets)
  cases p with
  | none => cases ho
  | some a => exact hv.privs o (List.mem_iff_getElem?.mpr ⟨a, ho⟩)

theorem Mem.Reachable.pub (hE : E.Allocs) {nets : List Network} {h : Heap} (hr : Reachable H E nets h) {p : Ptr}
    {o : PubObj} (ho : loadPub h p = some o) : ValidInt h o.X ∧ ValidInt h o.Y := by
  obtain ⟨pre, rfl⟩ := hr
  have hv := runAll_objs H hE pre _ (init_objs nets)
  cases p with
  | none => cases ho
  | some a => exact hv.pubs o (List.mem_iff_getElem?.mpr ⟨a, ho⟩)

variable (hE : E.Allocs) {nets : List Network} {h : Heap} (hr : Reachable H E nets h)
include hE hr

/-- C57: in every reachable heap and for every pair of pointers to keys (equal ones included) `AddPrivateKeys` gives
the result of the pure model; the returned key and its number are new, the network pointer is that of the first key,
and everything older is unchanged. -/
theorem C57_add {p1 p2 : Ptr} {o1 o2 : PrivObj} (h1 : loadPriv h p1 = some o1) (h2 : loadPriv h p2 = some o2) :
    Ref h (addPrivateKeysM H p1 p2) (addPrivateKeys H (privValue h o1) (privValue h o2)) (NewPriv h o1.Network) :=
  addPrivateKeys_ref H h1 h2 (hr.curve H hE).value (hr.curve H hE).N (hr.priv H hE h1) (hr.priv H hE h2)

/-- C57 for `MultiplyPrivateKeys`. -/
theorem C57_multiply {p1 p2 : Ptr} {o1 o2 : PrivObj} (h1 : loadPriv h p1 = some o1) (h2 : loadPriv h p2 = some o2) :
    Ref h (multiplyPrivateKeysM H p1 p2) (multiplyPrivateKeys H (privValue h o1) (privValue h o2))
      (NewPriv h o1.Network) :=
  multiplyPrivateKeys_ref H h1 h2 (hr.curve H hE).value (hr.curve H hE).N (hr.priv H hE h1) (hr.priv H hE h2)

/-- C57 for `PublicFromHex`: both coordinates of the new key are new numbers. -/
theorem C57_publicFromHex (hV : E.Refines V) (hexa : GoString) (network : Ptr) :
    Ref h (publicFromHexM E hexa network) (publicFromHex V hexa (loadNet h network)) fun a v h' =>
      NewPub h network a v h' ∧ ∃ o, loadPub h' a = some o ∧ FreshInt h o.X ∧ FreshInt h o.Y :=
  publicFromHex_ref hV hexa network (hr.curve H hE)

/-- C57 for `GetPublicKey` (the coordinates are the numbers returned by the curve package). -/
theorem C57_getPublicKey (hV : E.Refines V) {p : Ptr} {o : PrivObj} (ho : loadPriv h p = some o) :
    Ref h (getPublicKeyM E p) (getPublicKey V (privValue h o)) fun a v h' =>
      match v with
      | none => a = none ∧ Grow h h'
      | some v => NewPub h o.Network a v h' :=
  getPublicKey_ref hV ho (hr.curve H hE) (hr.priv H hE ho)

/-- C57 for `AddPublicKeys`. -/
theorem C57_addPublicKeys (hV : E.Refines V) {p1 p2 : Ptr} {o1 o2 : PubObj} (h1 : loadPub h p1 = some o1)
    (h2 : loadPub h p2 = some o2) (c : Bool) :
    Ref h (addPublicKeysM E p1 p2 c) (addPublicKeys V (pubValue h o1) (pubValue h o2) c) (NewPub h o1.Network) :=
  addPublicKeys_ref hV h1 h2 (hr.curve H hE) (hr.pub H hE h1).1 (hr.pub H hE h1).2 (hr.pub H hE h2).1
    (hr.pub H hE h2).2 c

end Results

/-- C57 for the constructors; these do not depend on the state of the heap beyond the network. -/
theorem C57_privateFromHex (h : Heap) (hexa : GoString) (network : Ptr) :
    Ref h (privateFromHexM H hexa network) (privateFromHex H hexa (loadNet h network)) (NewPriv h network) :=
  privateFromHex_ref H (Grow.refl h) hexa network

theorem C57_privateFromWIF (h : Heap) (wif : GoString) (network : Ptr) :
    Ref h (privateFromWIFM H wif network) (privateFromWIF H wif (loadNet h network)) (NewPriv h network) :=
  privateFromWIF_ref H (Grow.refl h) wif network

attribute [local irreducible] Ref in
/-- C57 for `GeneratePrivateKey`; the unread random bytes are the same as well. -/
theorem C57_generate (h : Heap) (rd : Reader) (network : Ptr) :
    Ref h (generatePrivateKeyM H rd network) (generatePrivateKey H rd (loadNet h network)) fun r v h' =>
      NewPriv h network r.1 v.1 h' ∧ r.2 = v.2 := by
  exact generatePrivateKey_ref H rd network h

/-- C57 for the readers: the heap is the same afterwards. -/
theorem C57_readers {h : Heap} {p : Ptr} {o : PubObj} (ho : loadPub h p = some o) (c : Bool) :
    formatM p c h = (format (pubValue h o) c, h) ∧ addressM H p c h = (address H (pubValue h o) c, h) :=
  ⟨format_ref ho c, address_ref H ho c⟩

/-- C57: nil receivers and arguments are nil dereferences. -/
theorem C57_nil (p : Ptr) (h : Heap) (c : Bool) :
    (addPrivateKeysM H none p h).1 = .panic .nilDeref ∧ (multiplyPrivateKeysM H none p h).1 = .panic .nilDeref ∧
    (getPublicKeyM E none h).1 = .panic .nilDeref ∧ (addPublicKeysM E none p c h).1 = .panic .nilDeref ∧
    (formatM none c h).1 = .panic .nilDeref ∧ (addressM H none c h).1 = .panic .nilDeref :=
  ⟨rfl, rfl, rfl, rfl, rfl, rfl⟩

namespace Samples

/-- Two keys of the main network in memory. -/
def heapAB : Heap :=
  runAll realHashes (EcdsaM.ofValue EC.ref) (initHeap [MainNetwork, TestNetwork])
    [.privateFromHex hexA (some 0), .privateFromHex hexB (some 0)]

theorem heapAB_privs : heapAB.privs = [⟨some 7, hexA, wifA, some 0⟩, ⟨some 8, hexB, wifB, some 0⟩] := by
  decide +kernel

theorem heapAB_load0 : loadPriv heapAB (some 0) = some ⟨some 7, hexA, wifA, some 0⟩ := by decide +kernel

theorem heapAB_load1 : loadPriv heapAB (some 1) = some ⟨some 8, hexB, wifB, some 0⟩ := by decide +kernel

/-- C57: the keys in this memory, whatever is called afterwards. -/
example (calls : List Call) : Unchanged heapAB (runAll realHashes (EcdsaM.ofValue EC.ref) heapAB calls) ∧
    privValue (runAll realHashes (EcdsaM.ofValue EC.ref) heapAB calls) ⟨some 7, hexA, wifA, some 0⟩ = keyA := by
  refine ⟨C57_programs_change_nothing realHashes (EcdsaM.ofValue_allocs _) heapAB calls, ?_⟩
  rw [(C57_key_values_kept realHashes (EcdsaM.ofValue_allocs _) [MainNetwork, TestNetwork] heapAB ⟨_, rfl⟩ calls (some 0) _
    heapAB_load0).2]
  decide +kernel

attribute [local irreducible] Ref in
/-- C57: product, public key and import in this memory compute what the value model computes. -/
example : Ref heapAB (multiplyPrivateKeysM realHashes (some 0) (some 1)) (multiplyPrivateKeys realHashes keyA keyB)
      (NewPriv heapAB (some 0)) ∧
    Ref heapAB (privateFromHexM realHashes hexT (some 1)) (privateFromHex realHashes hexT (some TestNetwork)) (NewPriv heapAB (some 1)) ∧
    Ref heapAB (getPublicKeyM (EcdsaM.ofValue EC.ref) (some 0)) (getPublicKey EC.ref keyA) fun a v h' =>
      match v with
      | none => a = none ∧ Grow heapAB h'
      | some v => NewPub heapAB (some 0) a v h' := by
  have e0 : privValue heapAB ⟨some 7, hexA, wifA, some 0⟩ = keyA := by decide +kernel
  have e1 : privValue heapAB ⟨some 8, hexB, wifB, some 0⟩ = keyB := by decide +kernel
  have e2 : loadNet heapAB (some 1) = some TestNetwork := by decide +kernel
  have hr : Reachable realHashes (EcdsaM.ofValue EC.ref) [MainNetwork, TestNetwork] heapAB := ⟨_, rfl⟩
  have h1 := C57_multiply realHashes (EcdsaM.ofValue_allocs EC.ref) hr heapAB_load0 heapAB_load1
  have h2 := C57_privateFromHex realHashes heapAB hexT (some 1)
  have h3 := C57_getPublicKey realHashes (EcdsaM.ofValue_allocs EC.ref) hr (EcdsaM.ofValue_refines EC.ref) heapAB_load0
  rw [e0, e1] at h1
  rw [e2] at h2
  rw [e0] at h3
  exact ⟨h1, h2, h3⟩

end Samples

/-! ## The hypotheses can be met -/

/-- There is a curve package on the heap satisfying all assumptions made here and the arithmetic contract. -/
example : (EcdsaM.ofValue EC.ref).Allocs ∧ (EcdsaM.ofValue EC.ref).Refines EC.ref ∧ Spec.EcdsaContract EC.ref :=
  ⟨EcdsaM.ofValue_allocs _, EcdsaM.ofValue_refines _, EC.ref_contract⟩

namespace Samples

/-- The sum is a third key with a number of its own; adding a key to itself is refused and changes nothing. -/
example : (addPrivateKeysM realHashes (some 0) (some 1) heapAB).1 = .ok (some 2) ∧
    (addPrivateKeysM realHashes (some 0) (some 0) heapAB).1 = .err .identicalKeys ∧
    (addPrivateKeysM realHashes (some 0) (some 1) heapAB).2.ints.length = heapAB.ints.length + 2 ∧
    ((addPrivateKeysM realHashes (some 0) (some 1) heapAB).2.privs.map (·.Key)) = [some 7, some 8, some 10] := by
  decide +kernel

end Samples

end Btc
