import Verif.Conc.Calls

/-!
# Goroutines that make several calls
-/

namespace Btc.Mem

/-- A key argument: a pointer that exists at the start, or the key returned by the `k`th call of the goroutine. -/
inductive Arg where
  | old (p : Ptr)
  | res (k : Nat)

/-- A call whose arguments may be results of earlier calls. -/
inductive Cmd where
  | privateFromWIF (wif : GoString) (network : Ptr)
  | privateFromHex (hexa : GoString) (network : Ptr)
  | generatePrivateKey (rd : Reader) (network : Ptr)
  | addPrivateKeys (p1 p2 : Arg)
  | multiplyPrivateKeys (p1 p2 : Arg)
  | publicFromHex (hexa : GoString) (network : Ptr)
  | getPublicKey (p : Arg)
  | addPublicKeys (p1 p2 : Arg) (compressed : Bool)
  | format (p : Arg) (compressed : Bool)
  | address (p : Arg) (compressed : Bool)

/-- The private key pointer meant by an argument; nil after an error (the functions return nil with their errors). -/
def privArg (acc : List (Res Out)) : Arg → Ptr
  | .old p => p
  | .res k =>
    match acc[k]? with
    | some (.ok (.priv p)) => p
    | some (.ok (.gen p _)) => p
    | _ => none

/-- The public key pointer meant by an argument. -/
def pubArg (acc : List (Res Out)) : Arg → Ptr
  | .old p => p
  | .res k =>
    match acc[k]? with
    | some (.ok (.pub p)) => p
    | _ => none

/-- The call, given the results of the earlier ones. -/
def Cmd.req (acc : List (Res Out)) : Cmd → Req
  | .privateFromWIF wif network => .privateFromWIF wif network
  | .privateFromHex hexa network => .privateFromHex hexa network
  | .generatePrivateKey rd network => .generatePrivateKey rd network
  | .addPrivateKeys p1 p2 => .addPrivateKeys (privArg acc p1) (privArg acc p2)
  | .multiplyPrivateKeys p1 p2 => .multiplyPrivateKeys (privArg acc p1) (privArg acc p2)
  | .publicFromHex hexa network => .publicFromHex hexa network
  | .getPublicKey p => .getPublicKey (privArg acc p)
  | .addPublicKeys p1 p2 c => .addPublicKeys (pubArg acc p1) (pubArg acc p2) c
  | .format p c => .format (pubArg acc p) c
  | .address p c => .address (pubArg acc p) c

variable (H : Hashes)

/-- The program of a goroutine: the calls one after the other; errors are recorded, a panic ends it. -/
def scriptP (E : EcdsaP) : List Cmd → List (Res Out) → Prog (List (Res Out))
  | [], acc => .ret (.ok acc)
  | c :: cs, acc =>
    ((c.req acc).prog H E).next (fun o => scriptP E cs (acc ++ [.ok o])) fun e => scriptP E cs (acc ++ [.err e])

/-! ## Specification: the same calls on values -/

/-- The private key meant by an argument. -/
def privVal (b : Heap) (env : List (Res Val)) : Arg → Option PrivateKey
  | .old p => privAt b p
  | .res k =>
    match env[k]? with
    | some (.ok (.priv v)) => v
    | some (.ok (.gen v _)) => v
    | _ => none

/-- The public key meant by an argument. -/
def pubVal (b : Heap) (env : List (Res Val)) : Arg → Option PublicKey
  | .old p => pubAt b p
  | .res k =>
    match env[k]? with
    | some (.ok (.pub v)) => v
    | _ => none

/-- The call on values. -/
def Cmd.vals (b : Heap) (env : List (Res Val)) : Cmd → VReq
  | .privateFromWIF wif network => .privateFromWIF wif (loadNet b network)
  | .privateFromHex hexa network => .privateFromHex hexa (loadNet b network)
  | .generatePrivateKey rd network => .generatePrivateKey rd (loadNet b network)
  | .addPrivateKeys p1 p2 => .addPrivateKeys (privVal b env p1) (privVal b env p2)
  | .multiplyPrivateKeys p1 p2 => .multiplyPrivateKeys (privVal b env p1) (privVal b env p2)
  | .publicFromHex hexa network => .publicFromHex hexa (loadNet b network)
  | .getPublicKey p => .getPublicKey (privVal b env p)
  | .addPublicKeys p1 p2 c => .addPublicKeys (pubVal b env p1) (pubVal b env p2) c
  | .format p c => .format (pubVal b env p) c
  | .address p c => .address (pubVal b env p) c

/-- Results of the calls in the pure model: there is no memory here, only values. -/
def scriptResult (V : Ecdsa) (b : Heap) : List Cmd → List (Res Val) → Res (List (Res Val))
  | [], env => .ok env
  | c :: cs, env =>
    match (c.vals b env).result H V with
    | .ok v => scriptResult V b cs (env ++ [.ok v])
    | .err e => scriptResult V b cs (env ++ [.err e])
    | .panic p => .panic p

/-- The outcome of all calls of a goroutine. -/
def outcomes (h : Heap) : Res (List (Res Out)) → Res (List (Res Val))
  | .ok l => .ok (l.map (outcome h))
  | .err e => .err e
  | .panic p => .panic p

/-- Arguments that are pointers are not dangling. -/
def Arg.Valid (n : Nat) : Arg → Prop
  | .old p => Below n p
  | .res _ => True

/-- The pointers of a call are not dangling. -/
def Cmd.Valid (b : Heap) : Cmd → Prop
  | .addPrivateKeys p1 p2 => p1.Valid b.privs.length ∧ p2.Valid b.privs.length
  | .multiplyPrivateKeys p1 p2 => p1.Valid b.privs.length ∧ p2.Valid b.privs.length
  | .getPublicKey p => p.Valid b.privs.length
  | .addPublicKeys p1 p2 _ => p1.Valid b.pubs.length ∧ p2.Valid b.pubs.length
  | .format p _ => p.Valid b.pubs.length
  | .address p _ => p.Valid b.pubs.length
  | _ => True

/-! ## Alone, a goroutine computes what the specification says -/

variable {E : EcdsaP} {V : Ecdsa} {b : Heap}

/-- The call of the heap model. -/
def Req.call : Req → Call
  | .privateFromWIF wif network => .privateFromWIF wif network
  | .privateFromHex hexa network => .privateFromHex hexa network
  | .generatePrivateKey rd network => .generatePrivateKey rd network
  | .addPrivateKeys p1 p2 => .addPrivateKeys p1 p2
  | .multiplyPrivateKeys p1 p2 => .multiplyPrivateKeys p1 p2
  | .publicFromHex hexa network => .publicFromHex hexa network
  | .getPublicKey p => .getPublicKey p
  | .addPublicKeys p1 p2 c => .addPublicKeys p1 p2 c
  | .format p c => .format p c
  | .address p c => .address p c

theorem bind_pure_heap {α β : Type} (m : HM α) (f : α → β) (h : Heap) :
    ((m >>= fun a => pure (f a) : HM β) h).2 = (m h).2 := by
  rw [bind_run]
  rcases m h with ⟨r, h'⟩
  cases r <;> rfl

theorem Req.run_heap (hF : E.toM.Frames) (c : Req) (h : Heap) :
    ((c.prog H E).run h).2 = c.call.run H E.toM h := by
  cases c with
  | privateFromWIF wif network =>
    simp only [Req.prog, Prog.run_bind, run_privateFromWIF]; exact bind_pure_heap _ _ _
  | privateFromHex hexa network =>
    simp only [Req.prog, Prog.run_bind, run_privateFromHex]; exact bind_pure_heap _ _ _
  | generatePrivateKey rd network =>
    simp only [Req.prog, Prog.run_bind, run_generate, Req.call, Call.run]
    generalize generatePrivateKeyM H rd network = m
    exact bind_pure_heap m (fun r => Out.gen r.1 r.2) h
  | addPrivateKeys p1 p2 =>
    simp only [Req.prog, Prog.run_bind, run_addPrivateKeys]; exact bind_pure_heap _ _ _
  | multiplyPrivateKeys p1 p2 =>
    simp only [Req.prog, Prog.run_bind, run_multiplyPrivateKeys]; exact bind_pure_heap _ _ _
  | publicFromHex hexa network =>
    simp only [Req.prog, Prog.run_bind, run_publicFromHex]; exact bind_pure_heap _ _ _
  | getPublicKey p =>
    simp only [Req.prog, Prog.run_bind, run_getPublicKey hF]; exact bind_pure_heap _ _ _
  | addPublicKeys p1 p2 c =>
    simp only [Req.prog, Prog.run_bind, run_addPublicKeys hF]; exact bind_pure_heap _ _ _
  | format p c =>
    simp only [Req.prog, Prog.run_bind, run_format]; exact bind_pure_heap _ _ _
  | address p c =>
    simp only [Req.prog, Prog.run_bind, run_address]; exact bind_pure_heap _ _ _

theorem privAt_grow {h h' : Heap} (hg : Grow h h') (ho : Objs h) {p : Ptr} (hp : Below h.privs.length p) :
    privAt h' p = privAt h p := by
  cases p with
  | none => rfl
  | some a =>
    have hl : (loadPriv h (some a)).isSome := by simpa [loadPriv] using hp a rfl
    obtain ⟨o, e⟩ := Option.isSome_iff_exists.mp hl
    simp only [privAt, e, loadPriv_grow hg e, Option.map_some, privValue]
    rw [loadNet_grow hg, loadInt_grow hg (objs_priv ho e)]

theorem pubAt_grow {h h' : Heap} (hg : Grow h h') (ho : Objs h) {p : Ptr} (hp : Below h.pubs.length p) :
    pubAt h' p = pubAt h p := by
  cases p with
  | none => rfl
  | some a =>
    have hl : (loadPub h (some a)).isSome := by simpa [loadPub] using hp a rfl
    obtain ⟨o, e⟩ := Option.isSome_iff_exists.mp hl
    have hv := objs_pub ho e
    simp only [pubAt, e, loadPub_grow hg e, Option.map_some, pubValue]
    rw [loadNet_grow hg, loadInt_grow hg hv.1, loadInt_grow hg hv.2]

/-- No pointer among the results is dangling. -/
def AccOK (h : Heap) (acc : List (Res Out)) : Prop := ∀ x, .ok x ∈ acc → x.Valid h

theorem Out.Valid.grow {h h' : Heap} (hg : Grow h h') {x : Out} (hx : x.Valid h) : x.Valid h' := by
  cases x with
  | priv p => exact fun a ha => (hx a ha).trans_le hg.privs.length_le
  | gen p r => exact fun a ha => (hx a ha).trans_le hg.privs.length_le
  | pub p => exact fun a ha => (hx a ha).trans_le hg.pubs.length_le
  | text s => trivial

theorem outcome_grow {h h' : Heap} (hg : Grow h h') (ho : Objs h) {x : Res Out} (hx : ∀ o, x = .ok o → o.Valid h) :
    outcome h' x = outcome h x := by
  cases x with
  | ok o =>
    have := hx o rfl
    cases o with
    | priv p => simp only [outcome, Out.value, privAt_grow hg ho this]
    | gen p r => simp only [outcome, Out.value, privAt_grow hg ho this]
    | pub p => simp only [outcome, Out.value, pubAt_grow hg ho this]
    | text s => rfl
  | err e => rfl
  | panic p => rfl

theorem privArg_ok {h : Heap} {acc : List (Res Out)} (hok : AccOK h acc) (hg : Grow b h) {a : Arg}
    (ha : a.Valid b.privs.length) : Below h.privs.length (privArg acc a) := by
  cases a with
  | old p => exact fun x hx => (ha x hx).trans_le hg.privs.length_le
  | res k =>
    simp only [privArg]
    split
    · rename_i p e
      exact hok _ (List.mem_iff_getElem?.mpr ⟨k, e⟩)
    · rename_i p r e
      exact hok _ (List.mem_iff_getElem?.mpr ⟨k, e⟩)
    · intro x hx
      cases hx

theorem pubArg_ok {h : Heap} {acc : List (Res Out)} (hok : AccOK h acc) (hg : Grow b h) {a : Arg}
    (ha : a.Valid b.pubs.length) : Below h.pubs.length (pubArg acc a) := by
  cases a with
  | old p => exact fun x hx => (ha x hx).trans_le hg.pubs.length_le
  | res k =>
    simp only [pubArg]
    split
    · rename_i p e
      exact hok _ (List.mem_iff_getElem?.mpr ⟨k, e⟩)
    · intro x hx
      cases hx

theorem privArg_val {h : Heap} {acc : List (Res Out)} (hg : Grow b h) (ho : Objs b) {a : Arg}
    (ha : a.Valid b.privs.length) : privAt h (privArg acc a) = privVal b (acc.map (outcome h)) a := by
  cases a with
  | old p => exact privAt_grow hg ho ha
  | res k =>
    simp only [privArg, privVal, List.getElem?_map]
    rcases acc[k]? with _ | (x | e | p)
    · rfl
    · cases x <;> rfl
    · rfl
    · rfl

theorem pubArg_val {h : Heap} {acc : List (Res Out)} (hg : Grow b h) (ho : Objs b) {a : Arg}
    (ha : a.Valid b.pubs.length) : pubAt h (pubArg acc a) = pubVal b (acc.map (outcome h)) a := by
  cases a with
  | old p => exact pubAt_grow hg ho ha
  | res k =>
    simp only [pubArg, pubVal, List.getElem?_map]
    rcases acc[k]? with _ | (x | e | p)
    · rfl
    · cases x <;> rfl
    · rfl
    · rfl

theorem Cmd.req_vals {h : Heap} {acc : List (Res Out)} (hg : Grow b h) (ho : Objs b) {c : Cmd} (hc : c.Valid b) :
    (c.req acc).vals h = c.vals b (acc.map (outcome h)) := by
  cases c with
  | privateFromWIF wif network => simp only [Cmd.req, Req.vals, Cmd.vals, loadNet_grow hg]
  | privateFromHex hexa network => simp only [Cmd.req, Req.vals, Cmd.vals, loadNet_grow hg]
  | generatePrivateKey rd network => simp only [Cmd.req, Req.vals, Cmd.vals, loadNet_grow hg]
  | addPrivateKeys p1 p2 => simp only [Cmd.req, Req.vals, Cmd.vals, privArg_val hg ho hc.1, privArg_val hg ho hc.2]
  | multiplyPrivateKeys p1 p2 =>
    simp only [Cmd.req, Req.vals, Cmd.vals, privArg_val hg ho hc.1, privArg_val hg ho hc.2]
  | publicFromHex hexa network => simp only [Cmd.req, Req.vals, Cmd.vals, loadNet_grow hg]
  | getPublicKey p => simp only [Cmd.req, Req.vals, Cmd.vals, privArg_val hg ho hc]
  | addPublicKeys p1 p2 c => simp only [Cmd.req, Req.vals, Cmd.vals, pubArg_val hg ho hc.1, pubArg_val hg ho hc.2]
  | format p c => simp only [Cmd.req, Req.vals, Cmd.vals, pubArg_val hg ho hc]
  | address p c => simp only [Cmd.req, Req.vals, Cmd.vals, pubArg_val hg ho hc]

theorem outcomes_grow {h h' : Heap} (hg : Grow h h') (ho : Objs h) {acc : List (Res Out)} (hok : AccOK h acc) :
    acc.map (outcome h') = acc.map (outcome h) :=
  List.map_congr_left fun _ hx => outcome_grow hg ho fun o e => hok o (e ▸ hx)

theorem script_solo (hA : E.toM.Allocs) (hV : E.toM.Refines V) (hb : Closed b) :
    ∀ (cs : List Cmd) (acc : List (Res Out)) (h : Heap), (∀ c ∈ cs, c.Valid b) → Grow b h → Closed h →
      AccOK h acc →
      outcomes ((scriptP H E cs acc).run h).2 ((scriptP H E cs acc).run h).1 =
        scriptResult H V b cs (acc.map (outcome h))
  | [], acc, h, _, _, _, _ => rfl
  | c :: cs, acc, h, hcs, hg, hh, hok => by
    have hc := hcs c (List.mem_cons_self ..)
    have hcs' : ∀ c ∈ cs, c.Valid b := fun c hm => hcs c (List.mem_cons_of_mem _ hm)
    have G := solo_good H hA.frames hV hh (c.req acc)
    have hg1 : Grow h (((c.req acc).prog H E).run h).2 := by
      rw [Req.run_heap H hA.frames]; exact Call.grow H hA _ h
    have ho1 : Objs (((c.req acc).prog H E).run h).2 := by
      rw [Req.run_heap H hA.frames]; exact Call.objs H hA _ hh.objs
    rw [scriptP, scriptResult, Prog.run_next, ← Cmd.req_vals hg hb.objs hc]
    have Gv : outcome _ _ = ((c.req acc).vals h).result H V := G.value
    rw [← Gv]
    have hvalid := G.valid
    clear G Gv
    generalize ((c.req acc).prog H E).run h = out at hg1 ho1 hvalid ⊢
    obtain ⟨res, h'⟩ := out
    have hh' : Closed h' := ⟨ho1, hh.curve.grow hg1⟩
    cases res with
    | ok o =>
      have hok' : AccOK h' (acc ++ [.ok o]) := by
        intro x hx
        rcases List.mem_append.mp hx with hx | hx
        · exact (hok x hx).grow hg1
        · rw [List.mem_singleton] at hx
          cases hx
          exact hvalid o rfl
      have := script_solo hA hV hb cs (acc ++ [.ok o]) h' hcs' (hg.trans hg1) hh' hok'
      simp only [outcome]
      rw [this, List.map_append, outcomes_grow hg1 hh.objs hok]
      rfl
    | err e =>
      have hok' : AccOK h' (acc ++ [.err e]) := by
        intro x hx
        rcases List.mem_append.mp hx with hx | hx
        · exact (hok x hx).grow hg1
        · rw [List.mem_singleton] at hx
          cases hx
      have := script_solo hA hV hb cs (acc ++ [.err e]) h' hcs' (hg.trans hg1) hh' hok'
      simp only [outcome]
      rw [this, List.map_append, outcomes_grow hg1 hh.objs hok]
      rfl
    | panic p => rfl

/-! ## Goroutines with several calls are local -/

/-- Results that correspond. -/
def AccRel (r : Ren) (acc acc' : List (Res Out)) : Prop := List.Forall₂ (ResRel (ORel r)) acc acc'

theorem ORel.mono {r s : Ren} (h : r.Le s) {x y : Out} (hx : ORel r x y) : ORel s x y := by
  cases x <;> cases y <;> simp only [ORel] at hx ⊢
  · exact at_mono h.privs hx
  · exact ⟨at_mono h.privs hx.1, hx.2⟩
  · exact at_mono h.pubs hx
  · exact hx

theorem ResRel.mono {r s : Ren} (h : r.Le s) {x y : Res Out} (hx : ResRel (ORel r) x y) : ResRel (ORel s) x y := by
  cases x <;> cases y <;> first | exact hx.elim | exact ORel.mono h hx | exact hx

theorem AccRel.mono {r s : Ren} (h : r.Le s) {acc acc' : List (Res Out)} (ha : AccRel r acc acc') :
    AccRel s acc acc' := List.Forall₂.imp (fun _ _ hx => ResRel.mono h hx) ha

theorem AccRel.get {r : Ren} : ∀ {acc acc' : List (Res Out)}, AccRel r acc acc' → ∀ k : Nat,
    (acc[k]? = none ∧ acc'[k]? = none) ∨ ∃ x y, acc[k]? = some x ∧ acc'[k]? = some y ∧ ResRel (ORel r) x y
  | _, _, .nil, k => by simp
  | _, _, .cons h _, 0 => .inr ⟨_, _, rfl, rfl, h⟩
  | _, _, .cons _ h, k + 1 => by simpa using AccRel.get h k

theorem at_ofHeap {n : Nat} {l : List Nat} (h : List.range n <+: l) {p : Ptr} (hp : Below n p) : At l p p :=
  at_mono h (at_range hp)

theorem privArg_rel {r : Ren} (hr : (Ren.ofHeap b).Le r) {acc acc' : List (Res Out)} (h : AccRel r acc acc') {a : Arg}
    (ha : a.Valid b.privs.length) : At r.privs (privArg acc a) (privArg acc' a) := by
  cases a with
  | old p => exact at_ofHeap hr.privs ha
  | res k =>
    simp only [privArg]
    rcases h.get k with ⟨e1, e2⟩ | ⟨x, y, e1, e2, hxy⟩ <;> rw [e1, e2]
    · trivial
    · cases x <;> cases y <;> simp only [ResRel] at hxy
      · rename_i x y
        cases x <;> cases y <;> simp only [ORel] at hxy
        · exact hxy
        · exact hxy.1
        · trivial
        · trivial
      · trivial
      · trivial

theorem pubArg_rel {r : Ren} (hr : (Ren.ofHeap b).Le r) {acc acc' : List (Res Out)} (h : AccRel r acc acc') {a : Arg}
    (ha : a.Valid b.pubs.length) : At r.pubs (pubArg acc a) (pubArg acc' a) := by
  cases a with
  | old p => exact at_ofHeap hr.pubs ha
  | res k =>
    simp only [pubArg]
    rcases h.get k with ⟨e1, e2⟩ | ⟨x, y, e1, e2, hxy⟩ <;> rw [e1, e2]
    · trivial
    · cases x <;> cases y <;> simp only [ResRel] at hxy
      · rename_i x y
        cases x <;> cases y <;> simp only [ORel] at hxy
        · trivial
        · trivial
        · exact hxy
        · trivial
      · trivial
      · trivial

theorem Cmd.req_rel {r : Ren} (hr : (Ren.ofHeap b).Le r) {acc acc' : List (Res Out)} (h : AccRel r acc acc') {c : Cmd}
    (hc : c.Valid b) : (c.req acc).Rel r (c.req acc') := by
  cases c with
  | privateFromWIF wif network => exact ⟨rfl, rfl⟩
  | privateFromHex hexa network => exact ⟨rfl, rfl⟩
  | generatePrivateKey rd network => exact ⟨rfl, rfl⟩
  | addPrivateKeys p1 p2 => exact ⟨privArg_rel hr h hc.1, privArg_rel hr h hc.2⟩
  | multiplyPrivateKeys p1 p2 => exact ⟨privArg_rel hr h hc.1, privArg_rel hr h hc.2⟩
  | publicFromHex hexa network => exact ⟨rfl, rfl⟩
  | getPublicKey p => exact privArg_rel hr h hc
  | addPublicKeys p1 p2 c => exact ⟨pubArg_rel hr h hc.1, pubArg_rel hr h hc.2, rfl⟩
  | format p c => exact ⟨pubArg_rel hr h hc, rfl⟩
  | address p c => exact ⟨pubArg_rel hr h hc, rfl⟩

theorem script_rel (hE : E.Local) : ∀ (cs : List Cmd) (acc acc' : List (Res Out)) (r : Ren), (∀ c ∈ cs, c.Valid b) →
    (Ren.ofHeap b).Le r → AccRel r acc acc' → PRel b AccRel r (scriptP H E cs acc) (scriptP H E cs acc')
  | [], _, _, _, _, _, ha => .ret ha
  | c :: cs, acc, acc', r, hcs, hr, ha => by
    have hcs' : ∀ c ∈ cs, c.Valid b := fun c hm => hcs c (List.mem_cons_of_mem _ hm)
    refine PRel.next (Req.local H hE ((ofHeap_has b).mono hr) (Cmd.req_rel hr ha (hcs c (List.mem_cons_self ..))))
      (fun s hs x y hxy => ?_) fun s hs e => ?_
    · exact script_rel hE cs _ _ s hcs' (hr.trans hs)
        (List.rel_append (ha.mono hs) (.cons hxy .nil))
    · exact script_rel hE cs _ _ s hcs' (hr.trans hs) (List.rel_append (ha.mono hs) (.cons rfl .nil))

theorem script_isLocal (hE : E.Local) {cs : List Cmd} (hcs : ∀ c ∈ cs, c.Valid b) :
    (scriptP H E cs []).IsLocal b AccRel := script_rel H hE cs [] [] _ hcs (Ren.Le.refl _) .nil

theorem outcomes_rel {r : Ren} {h g : Heap} (hh : HeapRel r h g) {x y : Res (List (Res Out))}
    (hxy : ResRel (AccRel r) x y) : outcomes g y = outcomes h x := by
  cases x <;> cases y <;> simp only [ResRel] at hxy
  · rename_i l l'
    simp only [outcomes, Res.ok.injEq]
    induction hxy with
    | nil => rfl
    | cons h1 _ ih => rw [List.map_cons, List.map_cons, ih, outcome_rel hh h1]
  · rw [hxy]; rfl
  · rw [hxy]; rfl

end Btc.Mem
