import Verif.Heap.Client
import Verif.Source.Fuel
import Verif.Source.Init
import Verif.Source.Mnemonic
import Verif.Source.Pub

/-!
# Programs that use the package, run on the text

A session starts with `init`, run on the text. Each step is a call of an exported function, run on the text, or the
allocation of a number or a key by the program itself.
-/

namespace Btc.Source

open Mem

/-- What is assumed of the memory behaviour of the curve package: `Allocs`, and no `error` values (its methods return
none in Go). -/
structure Pkg (E : EcdsaM) : Prop where
  allocs : E.Allocs
  getY : ∀ x h e, (E.getY x h).1 ≠ .err e
  multMod : ∀ x y h e, (E.multMod x y h).1 ≠ .err e
  scalarMult : ∀ k p h e, (E.scalarMult k p h).1 ≠ .err e
  addPoints : ∀ p q h e, (E.addPoints p q h).1 ≠ .err e

theorem intOp_of {α : Type} {m : HM α} {Q : α → Nat → Prop} (h : AllocInts m Q) (hn : ∀ h e, (m h).1 ≠ .err e) : IntOp m :=
  ⟨fun h' => by obtain ⟨l, e, -⟩ := h h'; exact ⟨_, e⟩, hn⟩

theorem Pkg.intOps {E : EcdsaM} (hE : Pkg E) : E.IntOps := by
  refine ⟨fun x => ?_, fun x y => ?_, fun k p => ?_, fun p q => ?_⟩
  · obtain ⟨n, hn⟩ := exists_below x
    exact intOp_of (hE.allocs.getY n x hn) (hE.getY x)
  · obtain ⟨n, hn⟩ := exists_below x
    obtain ⟨n', hn'⟩ := exists_below y
    exact intOp_of (hE.allocs.multMod (n + n') x y (hn.mono (by omega)) (hn'.mono (by omega))) (hE.multMod x y)
  · obtain ⟨n, hn⟩ := exists_below k
    obtain ⟨n₁, h₁⟩ := exists_below p.1
    obtain ⟨n₂, h₂⟩ := exists_below p.2
    exact intOp_of (hE.allocs.scalarMult (n + n₁ + n₂) k p (hn.mono (by omega)) (h₁.mono (by omega)) (h₂.mono (by omega)))
      (hE.scalarMult k p)
  · obtain ⟨n₁, h₁⟩ := exists_below p.1
    obtain ⟨n₂, h₂⟩ := exists_below p.2
    obtain ⟨n₃, h₃⟩ := exists_below q.1
    obtain ⟨n₄, h₄⟩ := exists_below q.2
    exact intOp_of (hE.allocs.addPoints (n₁ + n₂ + n₃ + n₄) p q (h₁.mono (by omega)) (h₂.mono (by omega))
      (h₃.mono (by omega)) (h₄.mono (by omega))) (hE.addPoints p q)

/-- Calls of the exported functions with arguments of the right types. -/
inductive Request where
  | checkWIF (wif : GoString)
  | privateFromWIF (wif : GoString) (network : Ptr)
  | privateFromHex (hexa : GoString) (network : Ptr)
  | generatePrivateKey (network : Ptr)
  | addPrivateKeys (p1 p2 : Ptr)
  | multiplyPrivateKeys (p1 p2 : Ptr)
  | publicFromHex (hexa : GoString) (network : Ptr)
  | getPublicKey (p : Ptr)
  | format (p : Ptr) (compressed : Bool)
  | address (p : Ptr) (compressed : Bool)
  | addPublicKeys (p1 p2 : Ptr) (compressed : Bool)
  | newMnemonic (words : Int) (wordlist : Option (List GoString))
  | newSeedFromMnemonic (mnemonic passphrase : GoString) (wordlist : Option (List GoString))

/-- The type a method belongs to; 0 for functions. -/
def Request.recv : Request → Nat
  | .getPublicKey _ => id! "PrivateKey"
  | .format _ _ => id! "PublicKey"
  | .address _ _ => id! "PublicKey"
  | _ => 0

/-- The name in the text. -/
def Request.name : Request → Nat
  | .checkWIF _ => id! "CheckWIF"
  | .privateFromWIF _ _ => id! "PrivateFromWIF"
  | .privateFromHex _ _ => id! "PrivateFromHex"
  | .generatePrivateKey _ => id! "GeneratePrivateKey"
  | .addPrivateKeys _ _ => id! "AddPrivateKeys"
  | .multiplyPrivateKeys _ _ => id! "MultiplyPrivateKeys"
  | .publicFromHex _ _ => id! "PublicFromHex"
  | .getPublicKey _ => id! "GetPublicKey"
  | .format _ _ => id! "Format"
  | .address _ _ => id! "Address"
  | .addPublicKeys _ _ _ => id! "AddPublicKeys"
  | .newMnemonic _ _ => id! "NewMnemonic"
  | .newSeedFromMnemonic _ _ _ => id! "NewSeedFromMnemonic"

/-- Receiver and arguments. -/
def Request.args : Request → List Value
  | .checkWIF wif => [.str wif]
  | .privateFromWIF wif network => [.str wif, .net network]
  | .privateFromHex hexa network => [.str hexa, .net network]
  | .generatePrivateKey network => [.net network]
  | .addPrivateKeys p1 p2 => [.priv p1, .priv p2]
  | .multiplyPrivateKeys p1 p2 => [.priv p1, .priv p2]
  | .publicFromHex hexa network => [.str hexa, .net network]
  | .getPublicKey p => [.priv p]
  | .format p c => [.pub p, .bool c]
  | .address p c => [.pub p, .bool c]
  | .addPublicKeys p1 p2 c => [.pub p1, .pub p2, .bool c]
  | .newMnemonic words wl => [.int words, .strs wl]
  | .newSeedFromMnemonic mn pa wl => [.str mn, .str pa, .strs wl]

variable (H : Hashes) (E : EcdsaM)

/-- The call, run on the text, ends in `o`. -/
def Request.Ends (r : Request) (st : State) (o : Out (List Value)) : Prop := Source.Ends H E program r.recv r.name r.args st o

/-- The state in which a call ends. -/
def Out.state? {α : Type} : Out α → Option State
  | .ok _ st => some st
  | .panic _ st => some st
  | .stuck => none

/-- The states a program can reach: `init` is run; then there are calls (whose panics may be recovered) and allocations
by the program. `nets` are networks of the program's own, which it makes at the start and does not assign to. -/
inductive Session (nets : List Network) : State → Prop
  | start {rd : Reader} {st : State} : Ends H E program 0 (id! "init") [] (before program rd) (.ok [] st) →
      Session nets { st with heap := { st.heap with nets := st.heap.nets ++ nets } }
  | call {st st' : State} {o : Out (List Value)} (r : Request) : Session nets st → r.Ends H E st o → o.state? = some st' →
      Session nets st'
  | int {st : State} (v : Int) : Session nets st → Session nets { st with heap := { st.heap with ints := st.heap.ints ++ [v] } }
  | priv {st : State} (o : PrivObj) : Session nets st → ValidInt st.heap o.Key →
      Session nets { st with heap := { st.heap with privs := st.heap.privs ++ [o] } }
  | pub {st : State} (o : PubObj) : Session nets st → ValidInt st.heap o.X → ValidInt st.heap o.Y →
      Session nets { st with heap := { st.heap with pubs := st.heap.pubs ++ [o] } }

/-- How a call changes the state. -/
structure Step (st st' : State) : Prop where
  grow : Grow st.heap st'.heap
  objs : Objs st.heap → Objs st'.heap
  clear : E.Fresh → ∀ k, k ≤ st.heap.ints.length → Clear k st.heap → Clear k st'.heap
  vars : st'.vars = st.vars

variable {H E}

theorem genLoop_no_err (network : Ptr) : ∀ (fuel : Nat) (rd : Reader) (h : Heap) (e : GoError),
    (generateLoopM H generateRandomBigInt network fuel rd h).1 ≠ .err e
  | 0, rd, h, e => by simp [generateLoopM, lift]
  | fuel + 1, rd, h, e => by
    have ih := genLoop_no_err network fuel
    unfold generateLoopM
    rcases drawM_cases rd h with ⟨key, rd', h', hd, -⟩ | ⟨p, h', hd⟩
    · simp only [Mem.bind_run, hd, bigIntToHexM]
      split
      · exact ih _ _ _
      · unfold onErr
        rcases privateFromHexM H (bigIntToHex (loadInt h' key)) network h' with ⟨(_ | a) | e | p, h''⟩
        · simp [lift]
        · intro h; cases h
        · exact ih _ _ _
        · simp
    · simp [Mem.bind_run, hd]

theorem getPublicKey_no_err (hE : E.IntOps) (p : Ptr) (h : Heap) (e : GoError) : (getPublicKeyM E p h).1 ≠ .err e := by
  unfold getPublicKeyM
  go_run
  rcases p.bind fun a => h.privs[a]? with _ | o
  · go_run; simp
  go_run
  obtain ⟨l, ⟨⟨⟨x, y⟩, v⟩, e⟩ | ⟨p, e⟩⟩ := (hE.scalarMult o.Key (h.curve.GX, h.curve.GY)).cases
    ⟨h.ints, h.nets, h.privs, h.pubs ++ [⟨none, none, none⟩], h.curve⟩
  · go_run [e]; cases v <;> go_run <;> simp
  · go_run [e]; simp

theorem Step.of_call (hE : Pkg E) (c : Call) (hc : c.ofPackage) {st st' : State} (hh : st'.heap = c.run H E st.heap)
    (hv : st'.vars = st.vars) : Step E st st' := by
  refine ⟨?_, ?_, ?_, hv⟩ <;> rw [hh]
  · exact Call.grow H hE.allocs c st.heap
  · exact Call.objs H hE.allocs c
  · exact fun hF k hk => Call.clear hE.allocs hF hc hk

theorem Step.of_same {st st' : State} (hh : st'.heap = st.heap) (hv : st'.vars = st.vars) : Step E st st' := by
  refine ⟨?_, ?_, ?_, hv⟩ <;> rw [hh]
  · exact Grow.refl _
  · exact id
  · exact fun _ _ _ => id

theorem Step.of_ints {st st' : State} {ints : List Int} (hg : st.heap.ints <+: ints)
    (hh : st'.heap = { st.heap with ints := ints }) (hv : st'.vars = st.vars) : Step E st st' := by
  refine ⟨?_, ?_, ?_, hv⟩ <;> rw [hh]
  · exact ⟨hg, rfl, List.prefix_refl _, List.prefix_refl _, rfl⟩
  · exact fun ho => ho.ints hg.length_le
  · exact fun _ _ _ hc => hc.ints _

/-- The end of a call: not stuck, and a step. -/
def Good (E : EcdsaM) (st : State) (o : Out (List Value)) : Prop := ∃ st', o.state? = some st' ∧ Step E st st'

theorem Good.ne_stuck {st : State} {o : Out (List Value)} (h : Good E st o) : o ≠ .stuck := by
  rintro rfl
  obtain ⟨_, h, _⟩ := h
  cases h

theorem good_of (hE : Pkg E) {α : Type} {good : α → List Value} {bad : GoError → List Value} {m : HM α} (c : Call) (hp : c.ofPackage) {st : State}
    (hs : List HashObj) (hc : c.run H E st.heap = (m st.heap).2) : Good E st (Out.of good bad (m st.heap) { st with hashes := hs }) := by
  rcases e : m st.heap with ⟨a | e' | p, h⟩ <;> rw [e] at hc <;> exact ⟨_, rfl, .of_call hE c hp hc.symm rfl⟩

theorem good_exact (hE : Pkg E) {α : Type} {good : α → List Value} {m : HM α} (c : Call) (hp : c.ofPackage) {st : State}
    (hn : ∀ e, (m st.heap).1 ≠ .err e) (hc : c.run H E st.heap = (m st.heap).2) : Good E st (Out.exact good (m st.heap) st) := by
  rcases e : m st.heap with ⟨a | e' | p, h⟩ <;> rw [e] at hc hn
  · exact ⟨_, rfl, .of_call hE c hp hc.symm rfl⟩
  · exact (hn e' rfl).elim
  · exact ⟨_, rfl, .of_call hE c hp hc.symm rfl⟩

/-- Every call, with any arguments of the right types and in any state, ends; it keeps what was there. -/
theorem Request.ends (hE : Pkg E) (r : Request) (st : State) : ∃ o, r.Ends H E st o ∧ Good E st o := by
  have fin : ∀ {n : Nat} {o : Out (List Value)}, runFunc H E program n r.recv r.name r.args st = o → Good E st o →
      ∃ o, r.Ends H E st o ∧ Good E st o := fun h g => ⟨_, .of h g.ne_stuck, g⟩
  cases r with
  | checkWIF wif =>
    obtain ⟨hs, e⟩ := run_CheckWIF H E 0 wif st
    refine fin e ?_
    cases hc : Btc.checkWIF H wif with
    | ok b => exact ⟨_, rfl, .of_same rfl rfl⟩
    | err e => exact (checkWIF_ne_err H wif e hc).elim
    | panic p => exact ⟨_, rfl, .of_same rfl rfl⟩
  | privateFromWIF wif network =>
    obtain ⟨hs, e⟩ := run_PrivateFromWIF H E 0 wif network st
    exact fin e (good_of hE (.privateFromWIF wif network) trivial hs rfl)
  | privateFromHex hexa network =>
    obtain ⟨hs, e⟩ := run_PrivateFromHex H E 0 hexa network st
    exact fin e (good_of hE (.privateFromHex hexa network) trivial hs rfl)
  | generatePrivateKey network =>
    obtain ⟨hs, rd2, e⟩ := run_GeneratePrivateKey_loop H E network (st.rd.length + 1) (st.rd.length + 2) st (by omega) (by omega)
    refine fin e ?_
    have hn := genLoop_no_err (H := H) network (st.rd.length + 1) st.rd st.heap
    have hc : (Call.generatePrivateKey st.rd network).run H E st.heap =
      (generateLoopM H generateRandomBigInt network (st.rd.length + 1) st.rd st.heap).2 := rfl
    rcases hg : generateLoopM H generateRandomBigInt network (st.rd.length + 1) st.rd st.heap with ⟨⟨q, rd⟩ | e | p, h⟩ <;>
      rw [hg] at hn hc
    · exact ⟨_, rfl, .of_call hE (.generatePrivateKey st.rd network) trivial hc.symm rfl⟩
    · exact (hn e rfl).elim
    · exact ⟨_, rfl, .of_call hE (.generatePrivateKey st.rd network) trivial hc.symm rfl⟩
  | addPrivateKeys p1 p2 =>
    obtain ⟨hs, e⟩ := run_AddPrivateKeys H E 0 p1 p2 st
    exact fin e (good_of hE (.addPrivateKeys p1 p2) trivial hs rfl)
  | multiplyPrivateKeys p1 p2 =>
    obtain ⟨hs, e⟩ := run_MultiplyPrivateKeys H E 0 p1 p2 st
    exact fin e (good_of hE (.multiplyPrivateKeys p1 p2) trivial hs rfl)
  | publicFromHex hexa network =>
    exact fin (run_PublicFromHex H hE.intOps 0 hexa network st) (good_of (H := H) hE (.publicFromHex hexa network) trivial st.hashes rfl)
  | getPublicKey p =>
    exact fin (run_GetPublicKey H hE.intOps 0 p st) (good_exact (H := H) hE (.getPublicKey p) trivial (getPublicKey_no_err hE.intOps p st.heap) rfl)
  | format p c =>
    refine fin (run_Format H 0 p c st) (good_exact (H := H) hE (.format p c) trivial ?_ rfl)
    obtain ⟨r, e, hn⟩ := formatM_shape p c st.heap
    rw [e]; exact hn
  | address p c =>
    obtain ⟨hs, e⟩ := run_Address H (E := E) 0 p c st
    exact fin e (good_of hE (.address p c) trivial hs rfl)
  | addPublicKeys p1 p2 c =>
    exact fin (run_AddPublicKeys H hE.intOps 0 p1 p2 c st) (good_of (H := H) hE (.addPublicKeys p1 p2 c) trivial st.hashes rfl)
  | newMnemonic words wl =>
    obtain ⟨ints, hs, rd2, hg, e⟩ := run_NewMnemonic H E words wl 300 (by omega) st
    refine fin e ?_
    rcases Btc.newMnemonic H st.rd words wl with ⟨s, rd'⟩ | e | p <;> exact ⟨_, rfl, .of_ints hg rfl rfl⟩
  | newSeedFromMnemonic mn pa wl =>
    obtain ⟨ints, hs, hg, e⟩ := run_NewSeedFromMnemonic H E mn pa wl _ (Nat.le_refl _) st
    refine fin e ?_
    rcases Btc.newSeedFromMnemonic H mn pa wl with ⟨(_ | b) | e | p, log⟩ <;> exact ⟨_, rfl, .of_ints hg rfl rfl⟩

theorem Request.step (hE : Pkg E) {r : Request} {st st' : State} {o : Out (List Value)} (h : r.Ends H E st o)
    (hs : o.state? = some st') : Step E st st' := by
  obtain ⟨o', h', st'', e, hg⟩ := r.ends (H := H) hE st
  cases h.unique h'
  cases hs.symm.trans e
  exact hg

theorem Objs.priv_alloc {h : Heap} (ho : Objs h) {o : PrivObj} (hv : ValidInt h o.Key) : Objs { h with privs := h.privs ++ [o] } := by
  refine ⟨fun o' hm => ?_, ho.pubs, ho.gen⟩
  rcases List.mem_append.1 hm with hm | hm
  · exact ho.privs o' hm
  · rw [List.mem_singleton.1 hm]; exact hv

theorem Objs.pub_alloc {h : Heap} (ho : Objs h) {o : PubObj} (hx : ValidInt h o.X) (hy : ValidInt h o.Y) :
    Objs { h with pubs := h.pubs ++ [o] } := by
  refine ⟨ho.privs, fun o' hm => ?_, ho.gen⟩
  rcases List.mem_append.1 hm with hm | hm
  · exact ho.pubs o' hm
  · rw [List.mem_singleton.1 hm]; exact ⟨hx, hy⟩

/-- What holds in every session: everything `init` made is still there, and all pointers are valid. -/
structure Sound (nets : List Network) (st : State) : Prop where
  grow : Grow (initHeap (MainNetwork :: TestNetwork :: nets)) st.heap
  objs : Objs st.heap
  vars : st.vars = [(id! "MainNetwork", .net (some 0)), (id! "TestNetwork", .net (some 1))]

theorem ends_init (rd : Reader) : Ends H E program 0 (id! "init") [] (before program rd) (.ok [] (ready rd)) :=
  .of (run_init H E 0 rd) (by simp)

theorem Session.sound (hE : Pkg E) {nets : List Network} {st : State} (h : Session H E nets st) : Sound nets st := by
  induction h with
  | @start rd st h =>
    cases h.unique (ends_init rd)
    exact ⟨Grow.refl _, init_objs _, rfl⟩
  | call r _ h hs ih =>
    have := r.step hE h hs
    exact ⟨ih.grow.trans this.grow, this.objs ih.objs, this.vars.trans ih.vars⟩
  | int v _ ih => exact ⟨ih.grow.trans (grow_ints _ [v]), ih.objs.ints (by simp), ih.vars⟩
  | priv o _ hv ih =>
    exact ⟨⟨ih.grow.ints, ih.grow.nets, prefix_append ih.grow.privs o, ih.grow.pubs, ih.grow.curve⟩, Objs.priv_alloc ih.objs hv, ih.vars⟩
  | pub o _ hx hy ih =>
    exact ⟨⟨ih.grow.ints, ih.grow.nets, ih.grow.privs, prefix_append ih.grow.pubs o, ih.grow.curve⟩, Objs.pub_alloc ih.objs hx hy, ih.vars⟩

/-- What the calls need: the parameters of the curve are in place and all pointers are valid. -/
structure Intact (st : State) : Prop where
  curve : CurveOK st.heap
  objs : Objs st.heap

theorem Intact.priv {st : State} (h : Intact st) {p : Ptr} {o : PrivObj} (ho : loadPriv st.heap p = some o) :
    ValidInt st.heap o.Key := by
  cases p with
  | none => cases ho
  | some a => exact h.objs.privs o (List.mem_iff_getElem?.mpr ⟨a, ho⟩)

theorem Intact.pub {st : State} (h : Intact st) {p : Ptr} {o : PubObj} (ho : loadPub st.heap p = some o) :
    ValidInt st.heap o.X ∧ ValidInt st.heap o.Y := by
  cases p with
  | none => cases ho
  | some a => exact h.objs.pubs o (List.mem_iff_getElem?.mpr ⟨a, ho⟩)

theorem Sound.curve {nets : List Network} {st : State} (h : Sound nets st) : CurveOK st.heap := (init_curveOK _).grow h.grow

theorem Sound.intact {nets : List Network} {st : State} (h : Sound nets st) : Intact st := ⟨h.curve, h.objs⟩

theorem Session.intact (hE : Pkg E) {nets : List Network} {st : State} (h : Session H E nets st) : Intact st := (h.sound hE).intact

theorem Sound.priv {nets : List Network} {st : State} (h : Sound nets st) {p : Ptr} {o : PrivObj}
    (ho : loadPriv st.heap p = some o) : ValidInt st.heap o.Key := h.intact.priv ho

theorem Sound.pub {nets : List Network} {st : State} (h : Sound nets st) {p : Ptr} {o : PubObj}
    (ho : loadPub st.heap p = some o) : ValidInt st.heap o.X ∧ ValidInt st.heap o.Y := h.intact.pub ho

end Btc.Source
