import Verif.Conc.Machine
import Verif.Props.Heap
import Mathlib.Logic.Hydra
import Mathlib.Data.Fintype.Basic
import Mathlib.Data.Finset.Insert

/-!
# Calls made by goroutines
-/

namespace Btc.Mem

/-- A call of the package with pointers as arguments. -/
inductive Req where
  | privateFromWIF (wif : GoString) (network : Ptr)
  | privateFromHex (hexa : GoString) (network : Ptr)
  | generatePrivateKey (rd : Reader) (network : Ptr)
  | addPrivateKeys (p1 p2 : Ptr)
  | multiplyPrivateKeys (p1 p2 : Ptr)
  | publicFromHex (hexa : GoString) (network : Ptr)
  | getPublicKey (p : Ptr)
  | addPublicKeys (p1 p2 : Ptr) (compressed : Bool)
  | format (p : Ptr) (compressed : Bool)
  | address (p : Ptr) (compressed : Bool)

/-- What a call returns (errors and panics apart). -/
inductive Out where
  | priv (p : Ptr)
  | gen (p : Ptr) (rest : Reader)
  | pub (p : Ptr)
  | text (s : GoString)
  deriving DecidableEq, Repr

/-- What a returned value means: pointers are followed. -/
inductive Val where
  | priv (v : Option PrivateKey)
  | gen (v : Option PrivateKey) (rest : Reader)
  | pub (v : Option PublicKey)
  | text (s : GoString)
  deriving DecidableEq, Repr

/-- The value of a private key pointer. -/
def privAt (b : Heap) (p : Ptr) : Option PrivateKey := (loadPriv b p).map (privValue b)

/-- The value of a public key pointer. -/
def pubAt (b : Heap) (p : Ptr) : Option PublicKey := (loadPub b p).map (pubValue b)

/-- Follow the pointers of a returned value. -/
def Out.value (h : Heap) : Out → Val
  | .priv p => .priv (privAt h p)
  | .gen p rest => .gen (privAt h p) rest
  | .pub p => .pub (pubAt h p)
  | .text s => .text s

/-- Outcome of a call, with pointers followed in `h`. -/
def outcome (h : Heap) : Res Out → Res Val
  | .ok x => .ok (x.value h)
  | .err e => .err e
  | .panic p => .panic p

/-- The pointers of a call are not dangling (Go has no dangling pointers). -/
def Req.Valid (b : Heap) : Req → Prop
  | .addPrivateKeys p1 p2 => Below b.privs.length p1 ∧ Below b.privs.length p2
  | .multiplyPrivateKeys p1 p2 => Below b.privs.length p1 ∧ Below b.privs.length p2
  | .getPublicKey p => Below b.privs.length p
  | .addPublicKeys p1 p2 _ => Below b.pubs.length p1 ∧ Below b.pubs.length p2
  | .format p _ => Below b.pubs.length p
  | .address p _ => Below b.pubs.length p
  | _ => True

variable (H : Hashes)

/-- The program of a call. -/
def Req.prog (E : EcdsaP) : Req → Prog Out
  | .privateFromWIF wif network => do let p ← privateFromWIFP H wif network; pure (.priv p)
  | .privateFromHex hexa network => do let p ← privateFromHexP H hexa network; pure (.priv p)
  | .generatePrivateKey rd network => do let r ← generatePrivateKeyP H rd network; pure (.gen r.1 r.2)
  | .addPrivateKeys p1 p2 => do let p ← addPrivateKeysP H p1 p2; pure (.priv p)
  | .multiplyPrivateKeys p1 p2 => do let p ← multiplyPrivateKeysP H p1 p2; pure (.priv p)
  | .publicFromHex hexa network => do let p ← publicFromHexP E hexa network; pure (.pub p)
  | .getPublicKey p => do let q ← getPublicKeyP E p; pure (.pub q)
  | .addPublicKeys p1 p2 c => do let q ← addPublicKeysP E p1 p2 c; pure (.pub q)
  | .format p c => do let s ← formatP p c; pure (.text s)
  | .address p c => do let s ← addressP H p c; pure (.text s)

/-- A call with values as arguments; nil keys are `none`. -/
inductive VReq where
  | privateFromWIF (wif : GoString) (network : Option Network)
  | privateFromHex (hexa : GoString) (network : Option Network)
  | generatePrivateKey (rd : Reader) (network : Option Network)
  | addPrivateKeys (p1 p2 : Option PrivateKey)
  | multiplyPrivateKeys (p1 p2 : Option PrivateKey)
  | publicFromHex (hexa : GoString) (network : Option Network)
  | getPublicKey (p : Option PrivateKey)
  | addPublicKeys (p1 p2 : Option PublicKey) (compressed : Bool)
  | format (p : Option PublicKey) (compressed : Bool)
  | address (p : Option PublicKey) (compressed : Bool)

/-- Specification: the result of the pure model; nil keys are nil dereferences. -/
def VReq.result (V : Ecdsa) : VReq → Res Val
  | .privateFromWIF wif network => do
    let v ← Btc.privateFromWIF H wif network
    pure (.priv (some v))
  | .privateFromHex hexa network => do
    let v ← Btc.privateFromHex H hexa network
    pure (.priv (some v))
  | .generatePrivateKey rd network => do
    let v ← Btc.generatePrivateKey H rd network
    pure (.gen (some v.1) v.2)
  | .addPrivateKeys p1 p2 => do
    let v1 ← deref p1
    let v2 ← deref p2
    let v ← Btc.addPrivateKeys H v1 v2
    pure (.priv (some v))
  | .multiplyPrivateKeys p1 p2 => do
    let v1 ← deref p1
    let v2 ← deref p2
    let v ← Btc.multiplyPrivateKeys H v1 v2
    pure (.priv (some v))
  | .publicFromHex hexa network => do
    let v ← Btc.publicFromHex V hexa network
    pure (.pub (some v))
  | .getPublicKey p => do
    let v1 ← deref p
    let v ← Btc.getPublicKey V v1
    pure (.pub v)
  | .addPublicKeys p1 p2 c => do
    let v1 ← deref p1
    let v2 ← deref p2
    let v ← Btc.addPublicKeys V v1 v2 c
    pure (.pub (some v))
  | .format p c => do
    let v ← deref p
    let s ← Btc.format v c
    pure (.text s)
  | .address p c => do
    let v ← deref p
    let s ← Btc.address H v c
    pure (.text s)

/-- The call with the values its arguments have in `b`. -/
def Req.vals (b : Heap) : Req → VReq
  | .privateFromWIF wif network => .privateFromWIF wif (loadNet b network)
  | .privateFromHex hexa network => .privateFromHex hexa (loadNet b network)
  | .generatePrivateKey rd network => .generatePrivateKey rd (loadNet b network)
  | .addPrivateKeys p1 p2 => .addPrivateKeys (privAt b p1) (privAt b p2)
  | .multiplyPrivateKeys p1 p2 => .multiplyPrivateKeys (privAt b p1) (privAt b p2)
  | .publicFromHex hexa network => .publicFromHex hexa (loadNet b network)
  | .getPublicKey p => .getPublicKey (privAt b p)
  | .addPublicKeys p1 p2 c => .addPublicKeys (pubAt b p1) (pubAt b p2) c
  | .format p c => .format (pubAt b p) c
  | .address p c => .address (pubAt b p) c

/-- Specification: the result of the pure model on the values the arguments have in `b`. -/
def Req.result (V : Ecdsa) (b : Heap) (c : Req) : Res Val := (c.vals b).result H V

/-! ## Alone, a call gives the result of the pure model -/

/-- A returned pointer is not dangling. -/
def Out.Valid (h : Heap) : Out → Prop
  | .priv p => Below h.privs.length p
  | .gen p _ => Below h.privs.length p
  | .pub p => Below h.pubs.length p
  | .text _ => True

/-- What is shown of a program run alone: the result is `v` and no returned pointer is dangling. -/
structure Good (r : Res Out × Heap) (v : Res Val) : Prop where
  value : outcome r.2 r.1 = v
  valid : ∀ x, r.1 = .ok x → x.Valid r.2

theorem good_of_ref {α β : Type} {h : Heap} {m : HM α} {r : Res β} {Q : α → β → Heap → Prop} {f : α → Out}
    {g : β → Val} (hr : Ref h m r Q) (hq : ∀ a v h', Q a v h' → (f a).value h' = g v ∧ (f a).Valid h') :
    Good ((m >>= fun a => pure (f a) : HM Out) h) (r >>= fun v => pure (g v)) := by
  cases r with
  | ok v =>
    obtain ⟨a, h', e, hq'⟩ := hr
    rw [bind_run, e]
    obtain ⟨h1, h2⟩ := hq a v h' hq'
    exact ⟨congrArg Res.ok h1, fun x hx => by cases hx; exact h2⟩
  | err e =>
    have hr : (m h).1 = .err e := hr
    rw [bind_run]
    rcases hm : m h with ⟨r, h'⟩
    rw [hm] at hr
    simp only at hr
    subst hr
    exact ⟨rfl, fun x hx => by cases hx⟩
  | panic p =>
    have hr : (m h).1 = .panic p := hr
    rw [bind_run]
    rcases hm : m h with ⟨r, h'⟩
    rw [hm] at hr
    simp only at hr
    subst hr
    exact ⟨rfl, fun x hx => by cases hx⟩

theorem good_nil {α : Type} {h : Heap} {m : HM α} {f : α → Out} (hm : (m h).1 = .panic .nilDeref) :
    Good ((m >>= fun a => pure (f a) : HM Out) h) (.panic .nilDeref) := by
  rw [bind_run]
  rcases e : m h with ⟨r, h'⟩
  rw [e] at hm
  simp only at hm
  subst hm
  exact ⟨rfl, fun x hx => by cases hx⟩

theorem below_of_load {X : Type} {l : List X} {p : Ptr} {o : X} (h : (p.bind fun a => l[a]?) = some o) :
    Below l.length p := by
  cases p with
  | none => cases h
  | some a => intro x hx; cases hx; exact (List.getElem?_eq_some_iff.mp h).1

theorem newPriv_value {b h' : Heap} {network a : Ptr} {v : PrivateKey} (h : NewPriv b network a v h') :
    privAt h' a = some v ∧ Below h'.privs.length a := by
  obtain ⟨o, e, hv, -⟩ := h.obj
  exact ⟨by rw [privAt, e, Option.map_some, hv], below_of_load e⟩

theorem newPub_value {b h' : Heap} {network a : Ptr} {v : PublicKey} (h : NewPub b network a v h') :
    pubAt h' a = some v ∧ Below h'.pubs.length a := by
  obtain ⟨o, e, hv, -⟩ := h.obj
  exact ⟨by rw [pubAt, e, Option.map_some, hv], below_of_load e⟩

theorem objs_priv {b : Heap} (ho : Objs b) {p : Ptr} {o : PrivObj} (h : loadPriv b p = some o) :
    ValidInt b o.Key := by
  cases p with
  | none => cases h
  | some a => exact ho.privs o (List.mem_iff_getElem?.mpr ⟨a, h⟩)

theorem objs_pub {b : Heap} (ho : Objs b) {p : Ptr} {o : PubObj} (h : loadPub b p = some o) :
    ValidInt b o.X ∧ ValidInt b o.Y := by
  cases p with
  | none => cases h
  | some a => exact ho.pubs o (List.mem_iff_getElem?.mpr ⟨a, h⟩)

variable {E : EcdsaP} {V : Ecdsa} {b : Heap}

theorem ref_of_eq {α : Type} {h : Heap} {m : HM α} {r : Res α} (e : m h = (r, h)) : Ref h m r fun a v _ => a = v := by
  cases r <;> simp [Ref, e]

attribute [local irreducible] Ref in
theorem solo_good (hF : E.toM.Frames) (hV : E.toM.Refines V) (hb : Closed b) (c : Req) :
    Good ((c.prog H E).run b) (c.result H V b) := by
  unfold Req.result
  cases c with
  | privateFromWIF wif network =>
    simp only [Req.prog, Prog.run_bind, run_privateFromWIF, Req.vals, VReq.result]
    exact good_of_ref (C57_privateFromWIF H b wif network) fun a v h' hq => 
      ⟨congrArg Val.priv (newPriv_value hq).1, (newPriv_value hq).2⟩
  | privateFromHex hexa network =>
    simp only [Req.prog, Prog.run_bind, run_privateFromHex, Req.vals, VReq.result]
    exact good_of_ref (C57_privateFromHex H b hexa network) fun a v h' hq => 
      ⟨congrArg Val.priv (newPriv_value hq).1, (newPriv_value hq).2⟩
  | generatePrivateKey rd network =>
    have key := C57_generate H b rd network
    simp only [Req.prog, Prog.run_bind, run_generate, Req.vals, VReq.result]
    refine good_of_ref key fun a v h' hq => ?_
    exact ⟨by rw [Out.value, (newPriv_value hq.1).1, hq.2], (newPriv_value hq.1).2⟩
  | addPrivateKeys p1 p2 =>
    simp only [Req.prog, Prog.run_bind, run_addPrivateKeys, Req.vals, VReq.result, privAt]
    cases e1 : loadPriv b p1 with
    | none =>
      refine good_nil ?_
      rw [addPrivateKeysM, bind_read_panic (readPriv_none e1)]
    | some o1 =>
      cases e2 : loadPriv b p2 with
      | none =>
        refine good_nil ?_
        rw [addPrivateKeysM, bind_read (readPriv_some e1), bind_read_panic (readPriv_none e2)]
      | some o2 =>
        exact good_of_ref (addPrivateKeys_ref H e1 e2 hb.curve.value hb.curve.N (objs_priv hb.objs e1)
          (objs_priv hb.objs e2)) fun a v h' hq => ⟨congrArg Val.priv (newPriv_value hq).1, (newPriv_value hq).2⟩
  | multiplyPrivateKeys p1 p2 =>
    simp only [Req.prog, Prog.run_bind, run_multiplyPrivateKeys, Req.vals, VReq.result, privAt]
    cases e1 : loadPriv b p1 with
    | none =>
      refine good_nil ?_
      rw [multiplyPrivateKeysM, bind_read_panic (readPriv_none e1)]
    | some o1 =>
      cases e2 : loadPriv b p2 with
      | none =>
        refine good_nil ?_
        rw [multiplyPrivateKeysM, bind_read (readPriv_some e1), bind_read_panic (readPriv_none e2)]
      | some o2 =>
        exact good_of_ref (multiplyPrivateKeys_ref H e1 e2 hb.curve.value hb.curve.N (objs_priv hb.objs e1)
          (objs_priv hb.objs e2)) fun a v h' hq => ⟨congrArg Val.priv (newPriv_value hq).1, (newPriv_value hq).2⟩
  | publicFromHex hexa network =>
    simp only [Req.prog, Prog.run_bind, run_publicFromHex, Req.vals, VReq.result]
    exact good_of_ref (publicFromHex_ref hV hexa network hb.curve) fun a v h' hq => 
      ⟨congrArg Val.pub (newPub_value hq.1).1, (newPub_value hq.1).2⟩
  | getPublicKey p =>
    simp only [Req.prog, Prog.run_bind, run_getPublicKey hF, Req.vals, VReq.result, privAt]
    cases e : loadPriv b p with
    | none =>
      refine good_nil ?_
      have h1 : loadPriv { b with pubs := b.pubs ++ [⟨none, none, none⟩] } p = none := e
      rw [getPublicKeyM, bind_run]
      simp only [Mem.newPub]
      rw [bind_read_panic (readPriv_none h1)]
    | some o =>
      refine good_of_ref (g := fun v => .pub v) (getPublicKey_ref hV e hb.curve (objs_priv hb.objs e))
        fun a v h' hq => ?_
      cases v with
      | none =>
        have : a = none := hq.1
        subst this
        exact ⟨rfl, fun x hx => by cases hx⟩
      | some v => exact ⟨congrArg Val.pub (newPub_value hq).1, (newPub_value hq).2⟩
  | addPublicKeys p1 p2 c =>
    simp only [Req.prog, Prog.run_bind, run_addPublicKeys hF, Req.vals, VReq.result, pubAt]
    cases e1 : loadPub b p1 with
    | none =>
      refine good_nil ?_
      rw [addPublicKeysM, bind_read_panic (readPub_none e1)]
    | some o1 =>
      cases e2 : loadPub b p2 with
      | none =>
        refine good_nil ?_
        rw [addPublicKeysM, bind_read (readPub_some e1), bind_read_panic (readPub_none e2)]
      | some o2 =>
        have v1 := objs_pub hb.objs e1
        have v2 := objs_pub hb.objs e2
        exact good_of_ref (addPublicKeys_ref hV e1 e2 hb.curve v1.1 v1.2 v2.1 v2.2 c) fun a v h' hq => 
          ⟨congrArg Val.pub (newPub_value hq).1, (newPub_value hq).2⟩
  | format p c =>
    simp only [Req.prog, Prog.run_bind, run_format, Req.vals, VReq.result, pubAt]
    cases e : loadPub b p with
    | none =>
      refine good_nil ?_
      rw [formatM, bind_read_panic (readPub_none e)]
    | some o =>
      exact good_of_ref (ref_of_eq (format_ref e c)) fun a v h' hq => ⟨congrArg Val.text hq, trivial⟩
  | address p c =>
    simp only [Req.prog, Prog.run_bind, run_address, Req.vals, VReq.result, pubAt]
    cases e : loadPub b p with
    | none =>
      refine good_nil ?_
      rw [addressM, bind_run, formatM, bind_read_panic (readPub_none e)]
    | some o =>
      exact good_of_ref (ref_of_eq (address_ref H e c)) fun a v h' hq => ⟨congrArg Val.text hq, trivial⟩

/-! ## Calls are local -/

/-- Returned values that correspond. -/
def ORel (r : Ren) : Out → Out → Prop
  | .priv p, .priv q => At r.privs p q
  | .gen p s, .gen q s' => At r.privs p q ∧ s = s'
  | .pub p, .pub q => At r.pubs p q
  | .text s, .text s' => s = s'
  | _, _ => False

/-- The same call on corresponding pointers. -/
def Req.Rel (r : Ren) : Req → Req → Prop
  | .privateFromWIF wif n, .privateFromWIF wif' n' => wif = wif' ∧ n = n'
  | .privateFromHex hexa n, .privateFromHex hexa' n' => hexa = hexa' ∧ n = n'
  | .generatePrivateKey rd n, .generatePrivateKey rd' n' => rd = rd' ∧ n = n'
  | .addPrivateKeys p1 p2, .addPrivateKeys q1 q2 => At r.privs p1 q1 ∧ At r.privs p2 q2
  | .multiplyPrivateKeys p1 p2, .multiplyPrivateKeys q1 q2 => At r.privs p1 q1 ∧ At r.privs p2 q2
  | .publicFromHex hexa n, .publicFromHex hexa' n' => hexa = hexa' ∧ n = n'
  | .getPublicKey p, .getPublicKey q => At r.privs p q
  | .addPublicKeys p1 p2 c, .addPublicKeys q1 q2 c' => At r.pubs p1 q1 ∧ At r.pubs p2 q2 ∧ c = c'
  | .format p c, .format q c' => At r.pubs p q ∧ c = c'
  | .address p c, .address q c' => At r.pubs p q ∧ c = c'
  | _, _ => False

theorem Req.local (hE : E.Local) {r : Ren} (hr : r.Has b) {c c' : Req} (hc : c.Rel r c') :
    PRel b ORel r (c.prog H E) (c'.prog H E) := by
  cases c <;> cases c' <;> simp only [Req.Rel] at hc
  · obtain ⟨rfl, rfl⟩ := hc
    exact .bind (.privateFromWIF H hr _ _) fun s hs x y h => .pure h.1
  · obtain ⟨rfl, rfl⟩ := hc
    exact .bind (.privateFromHex H hr _ _) fun s hs x y h => .pure h.1
  · obtain ⟨rfl, rfl⟩ := hc
    exact .bind (.generate H hr _ _) fun s hs x y h => .pure ⟨h.1.1, h.2⟩
  · exact .bind (.addPrivateKeys H hr hc.1 hc.2) fun s hs x y h => .pure h.1
  · exact .bind (.multiplyPrivateKeys H hr hc.1 hc.2) fun s hs x y h => .pure h.1
  · obtain ⟨rfl, rfl⟩ := hc
    exact .bind (.publicFromHex hE hr _ _) fun s hs x y h => .pure h
  · exact .bind (.getPublicKey hE hr hc) fun s hs x y h => .pure h
  · obtain ⟨h1, h2, rfl⟩ := hc
    exact .bind (.addPublicKeys hE hr h1 h2 _) fun s hs x y h => .pure h
  · obtain ⟨h1, rfl⟩ := hc
    exact .bind (.format h1 _) fun s hs x y h => .pure h
  · obtain ⟨h1, rfl⟩ := hc
    exact .bind (.address H h1 _) fun s hs x y h => .pure h

theorem Req.Valid.rel {c : Req} (hc : c.Valid b) : c.Rel (Ren.ofHeap b) c := by
  cases c with
  | privateFromWIF wif network => exact ⟨rfl, rfl⟩
  | privateFromHex hexa network => exact ⟨rfl, rfl⟩
  | generatePrivateKey rd network => exact ⟨rfl, rfl⟩
  | addPrivateKeys p1 p2 => exact ⟨at_range hc.1, at_range hc.2⟩
  | multiplyPrivateKeys p1 p2 => exact ⟨at_range hc.1, at_range hc.2⟩
  | publicFromHex hexa network => exact ⟨rfl, rfl⟩
  | getPublicKey p => exact at_range hc
  | addPublicKeys p1 p2 c => exact ⟨at_range hc.1, at_range hc.2, rfl⟩
  | format p c => exact ⟨at_range hc, rfl⟩
  | address p c => exact ⟨at_range hc, rfl⟩

theorem Req.isLocal (hE : E.Local) {c : Req} (hc : c.Valid b) : (c.prog H E).IsLocal b ORel :=
  Req.local H hE (ofHeap_has b) hc.rel

theorem loadInt_rel {r : Ren} {h g : Heap} (hh : HeapRel r h g) {p q : Ptr} (hp : At r.ints p q) :
    loadInt g q = loadInt h p := by
  cases p <;> cases q <;> simp only [At] at hp
  · rfl
  · obtain ⟨v, v', h1, h2, e⟩ := hh.ints.cell _ _ hp
    simp only [loadInt, Option.bind_some, h1, h2, e]

theorem loadNet_rel {r : Ren} {h g : Heap} (hh : HeapRel r h g) (p : Ptr) : loadNet g p = loadNet h p := by
  simp only [loadNet, hh.nets]

theorem privRel_value {r : Ren} {h g : Heap} (hh : HeapRel r h g) {o o' : PrivObj} (ho : PrivRel r o o') :
    privValue g o' = privValue h o := by
  simp only [privValue, loadInt_rel hh ho.Key, ho.Hex, ho.WIF, ho.Network, loadNet_rel hh]

theorem pubRel_value {r : Ren} {h g : Heap} (hh : HeapRel r h g) {o o' : PubObj} (ho : PubRel r o o') :
    pubValue g o' = pubValue h o := by
  simp only [pubValue, loadInt_rel hh ho.X, loadInt_rel hh ho.Y, ho.Network, loadNet_rel hh]

theorem loadPriv_rel {r : Ren} {h g : Heap} (hh : HeapRel r h g) {p q : Ptr} (hp : At r.privs p q) :
    privAt g q = privAt h p := by
  cases p <;> cases q <;> simp only [At] at hp
  · rfl
  · obtain ⟨v, v', h1, h2, e⟩ := hh.privs.cell _ _ hp
    simp only [privAt, loadPriv, Option.bind_some, h1, h2, Option.map_some, privRel_value hh e]

theorem loadPub_rel {r : Ren} {h g : Heap} (hh : HeapRel r h g) {p q : Ptr} (hp : At r.pubs p q) :
    pubAt g q = pubAt h p := by
  cases p <;> cases q <;> simp only [At] at hp
  · rfl
  · obtain ⟨v, v', h1, h2, e⟩ := hh.pubs.cell _ _ hp
    simp only [pubAt, loadPub, Option.bind_some, h1, h2, Option.map_some, pubRel_value hh e]

theorem outcome_rel {r : Ren} {h g : Heap} (hh : HeapRel r h g) {x y : Res Out} (hxy : ResRel (ORel r) x y) :
    outcome g y = outcome h x := by
  cases x with
  | ok x =>
    cases y with
    | ok y =>
      cases x <;> cases y <;> simp only [ResRel, ORel] at hxy
      · simp only [outcome, Out.value, loadPriv_rel hh hxy]
      · simp only [outcome, Out.value, loadPriv_rel hh hxy.1, hxy.2]
      · simp only [outcome, Out.value, loadPub_rel hh hxy]
      · simp only [outcome, Out.value, hxy]
    | err e => exact hxy.elim
    | panic p => exact hxy.elim
  | err e => cases y <;> first | exact hxy.elim | exact congrArg _ (Eq.symm hxy)
  | panic e => cases y <;> first | exact hxy.elim | exact congrArg _ (Eq.symm hxy)

/-! ## A curve package that meets the assumptions -/

/-- Read all parameters of the package variable. -/
def curveP : Prog Curve := do
  let c ← readCurveP
  let A ← loadIntP c.A
  let B ← loadIntP c.B
  let gx ← loadIntP c.GX
  let gy ← loadIntP c.GY
  let P ← loadIntP c.P
  let N ← loadIntP c.N
  let H ← loadIntP c.H
  pure ⟨A, B, ⟨gx, gy⟩, P, N, H⟩

/-- Allocate a number, if there is one. -/
def allocOptP : Option Int → Prog Ptr
  | none => pure none
  | some v => newIntP v

/-- The methods on values, with every result allocated anew. -/
def EcdsaP.ofValue (V : Ecdsa) : EcdsaP where
  getY x := do
    let c ← curveP
    let a ← loadIntP x
    let r ← liftP (V.getY c a)
    let y ← allocOptP r.1
    pure (y, r.2)
  multMod x y := do
    let c ← curveP
    let k ← loadIntP y
    let a ← loadIntP x
    let r ← liftP (do let k ← deref k; V.multMod c a k)
    allocOptP r
  scalarMult k p := do
    let c ← curveP
    let n ← loadIntP k
    let x ← loadIntP p.1
    let y ← loadIntP p.2
    let r ← liftP (V.scalarMult c n ⟨x, y⟩)
    let x ← allocOptP r.1.X
    let y ← allocOptP r.1.Y
    pure ((x, y), r.2)
  addPoints p q := do
    let c ← curveP
    let x ← loadIntP p.1
    let y ← loadIntP p.2
    let u ← loadIntP q.1
    let v ← loadIntP q.2
    let r ← liftP (V.addPoints c ⟨x, y⟩ ⟨u, v⟩)
    let x ← allocOptP r.1.X
    let y ← allocOptP r.1.Y
    pure ((x, y), r.2)

theorem run_curve : curveP.run = fun h => (.ok (curveValue h), h) := by
  simp only [curveP, Prog.run_bind, run_readCurve, run_loadInt, Prog.run_pure]
  rfl

theorem run_allocOpt (v : Option Int) : (allocOptP v).run = allocOpt v := by cases v <;> rfl

theorem EcdsaP.ofValue_toM (V : Ecdsa) : (EcdsaP.ofValue V).toM = EcdsaM.ofValue V := by
  simp only [EcdsaP.toM, EcdsaP.ofValue, Prog.run_bind, run_curve, run_loadInt, run_lift, run_allocOpt,
    Prog.run_pure]
  rfl

theorem local_curve {r : Ren} : PRel b PRel.Same r curveP curveP := by
  refine .bind .readCurve fun r1 l1 c c' hc => ?_
  refine .bind (.loadInt hc.A) fun r2 l2 A _ e => ?_
  cases e
  have hc := hc.mono l2
  refine .bind (.loadInt hc.B) fun r2 l2 B _ e => ?_
  cases e
  have hc := hc.mono l2
  refine .bind (.loadInt hc.GX) fun r2 l2 gx _ e => ?_
  cases e
  have hc := hc.mono l2
  refine .bind (.loadInt hc.GY) fun r2 l2 gy _ e => ?_
  cases e
  have hc := hc.mono l2
  refine .bind (.loadInt hc.P) fun r2 l2 P _ e => ?_
  cases e
  have hc := hc.mono l2
  refine .bind (.loadInt hc.N) fun r2 l2 N _ e => ?_
  cases e
  have hc := hc.mono l2
  refine .bind (.loadInt hc.H) fun r2 l2 H _ e => ?_
  cases e
  exact .pure rfl

theorem local_allocOpt {r : Ren} (hr : r.Has b) (v : Option Int) :
    PRel b PRel.IntP r (allocOptP v) (allocOptP v) := by
  cases v with
  | none => exact .pure trivial
  | some v => exact (PRel.newInt hr v).mono fun s _ x y h => h.1

theorem local_alloc2 {r : Ren} (hr : r.Has b) (u v : Option Int) (f : Bool) :
    PRel b PRel.PointP r (do let x ← allocOptP u; let y ← allocOptP v; pure ((x, y), f))
      (do let x ← allocOptP u; let y ← allocOptP v; pure ((x, y), f)) :=
  .bind (local_allocOpt hr u) fun _ l1 _ _ hx => .bind (local_allocOpt (hr.mono l1) v) fun _ l2 _ _ hy =>
    .pure ⟨at_mono l2.ints hx, hy, rfl⟩

theorem EcdsaP.ofValue_local (V : Ecdsa) : (EcdsaP.ofValue V).Local := by
  refine ⟨fun b r x x' hr hx => ?_, fun b r x x' y y' hr hx hy => ?_, fun b r k k' x x' y y' hr hk hx hy => ?_,
    fun b r x x' y y' u u' v v' hr hx hy hu hv => ?_⟩
  · refine .bind local_curve fun r1 l1 c _ e => ?_
    cases e
    refine .bind (.loadInt (at_mono l1.ints hx)) fun r2 l2 a _ e => ?_
    cases e
    refine .bind (.lift _) fun r3 l3 res _ e => ?_
    cases e
    exact .bind (local_allocOpt (hr.mono ((l1.trans l2).trans l3)) _) fun r4 l4 p q hp => .pure ⟨hp, rfl⟩
  · refine .bind local_curve fun r1 l1 c _ e => ?_
    cases e
    refine .bind (.loadInt (at_mono l1.ints hy)) fun r2 l2 a _ e => ?_
    cases e
    refine .bind (.loadInt (at_mono (l1.trans l2).ints hx)) fun r3 l3 a _ e => ?_
    cases e
    refine .bind (.lift _) fun r4 l4 res _ e => ?_
    cases e
    exact local_allocOpt (hr.mono (((l1.trans l2).trans l3).trans l4)) _
  · refine .bind local_curve fun r1 l1 c _ e => ?_
    cases e
    refine .bind (.loadInt (at_mono l1.ints hk)) fun r2 l2 n _ e => ?_
    cases e
    have l := l1.trans l2
    refine .bind (.loadInt (at_mono l.ints hx)) fun r3 l3 a _ e => ?_
    cases e
    have l := l.trans l3
    refine .bind (.loadInt (at_mono l.ints hy)) fun r4 l4 a _ e => ?_
    cases e
    refine .bind (.lift _) fun r5 l5 res _ e => ?_
    cases e
    exact local_alloc2 (hr.mono ((l.trans l4).trans l5)) _ _ _
  · refine .bind local_curve fun r1 l1 c _ e => ?_
    cases e
    refine .bind (.loadInt (at_mono l1.ints hx)) fun r2 l2 n _ e => ?_
    cases e
    have l := l1.trans l2
    refine .bind (.loadInt (at_mono l.ints hy)) fun r3 l3 a _ e => ?_
    cases e
    have l := l.trans l3
    refine .bind (.loadInt (at_mono l.ints hu)) fun r4 l4 a _ e => ?_
    cases e
    have l := l.trans l4
    refine .bind (.loadInt (at_mono l.ints hv)) fun r5 l5 a _ e => ?_
    cases e
    refine .bind (.lift _) fun r6 l6 res _ e => ?_
    cases e
    exact local_alloc2 (hr.mono ((l.trans l5).trans l6)) _ _ _

/-! ## Every schedule ends -/

/-- `q` is what remains of `p` after some step. -/
def Prog.After {α : Type} (q p : Prog α) : Prop := ∃ h acc h', p.step h = some (acc, q, h')

theorem Prog.after_wf {α : Type} : WellFounded (Prog.After (α := α)) := by
  refine ⟨fun p => ?_⟩
  have hret : ∀ r : Res α, Acc Prog.After (Prog.ret r) := fun r =>
    ⟨_, fun q ⟨h, acc, h', e⟩ => by simp [Prog.step] at e⟩
  induction p with
  | ret r => exact hret r
  | setInt a v k ih =>
    refine ⟨_, fun q ⟨h, acc, h', e⟩ => ?_⟩
    simp only [Prog.step, Option.some.injEq, Prod.mk.injEq] at e
    obtain ⟨-, e⟩ := e
    split at e <;> cases e
    · exact ih
    · exact hret _
  | newInt v k ih => exact ⟨_, fun q ⟨h, acc, h', e⟩ => by cases e; exact ih _⟩
  | getInt a k ih => exact ⟨_, fun q ⟨h, acc, h', e⟩ => by cases e; exact ih _⟩
  | getNet a k ih => exact ⟨_, fun q ⟨h, acc, h', e⟩ => by cases e; exact ih _⟩
  | getCurve k ih => exact ⟨_, fun q ⟨h, acc, h', e⟩ => by cases e; exact ih _⟩
  | newPriv k ih => exact ⟨_, fun q ⟨h, acc, h', e⟩ => by cases e; exact ih _⟩
  | getPriv a k ih => exact ⟨_, fun q ⟨h, acc, h', e⟩ => by cases e; exact ih _⟩
  | updPriv a f k ih => exact ⟨_, fun q ⟨h, acc, h', e⟩ => by cases e; exact ih⟩
  | newPub k ih => exact ⟨_, fun q ⟨h, acc, h', e⟩ => by cases e; exact ih _⟩
  | getPub a k ih => exact ⟨_, fun q ⟨h, acc, h', e⟩ => by cases e; exact ih _⟩
  | updPub a f k ih => exact ⟨_, fun q ⟨h, acc, h', e⟩ => by cases e; exact ih⟩

theorem Machine.step_wf {ι α : Type} [DecidableEq ι] [Fintype ι] :
    WellFounded fun m' m : Machine ι α => ∃ i acc, m.Step i acc m' := by
  refine Subrelation.wf ?_ (InvImage.wf (fun m : Machine ι α => Finset.univ.val.map m.prog)
    (WellFounded.cutExpand Prog.after_wf))
  rintro m' m ⟨i, acc, ⟨e⟩⟩
  rename_i p h
  refine ⟨{p}, m.prog i, fun q hq => ?_, ?_⟩
  · rw [Multiset.mem_singleton.mp hq]
    exact ⟨_, _, _, e⟩
  · have hi : i ∈ (Finset.univ : Finset ι) := Finset.mem_univ i
    rw [← Finset.insert_erase hi, Finset.insert_val_of_notMem (by simp)]
    simp only [Multiset.map_cons, Function.update_self]
    have : (Finset.univ.erase i).val.map (Function.update m.prog i p) = (Finset.univ.erase i).val.map m.prog := by
      refine Multiset.map_congr rfl fun j hj => ?_
      have : j ≠ i := by
        have hj : j ∈ Finset.univ.erase i := hj
        exact (Finset.mem_erase.mp hj).1
      simp [this]
    rw [this, ← Multiset.singleton_add, ← Multiset.singleton_add]
    ac_rfl

end Btc.Mem
