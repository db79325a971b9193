import Verif.Props.Chain
import Verif.Props.Mnemonic
import Verif.Source.Print
import Verif.Source.Session

/-!
# C106–C110: the text of the repository's files

The files are embedded byte for byte (`Verif/Source/Files.lean`). C106: they are parsed. C107: `init`, run on the parsed
text. C108: every exported function, run on the parsed text, computes the model. C109: calls end, and change nothing that
was there. C110: the text computes Bitcoin addresses.
-/

namespace Btc

open Mem Source Spec

/-! ## C106 -/

/-- C106: the parser accepts each file. -/
theorem C106_parse : parse structGo.toList = some structDecls ∧ parse btcGo.toList = some btcDecls ∧
    parse utilGo.toList = some utilDecls ∧ parse privateKeyGo.toList = some privateKeyDecls ∧
    parse publicKeyGo.toList = some publicKeyDecls ∧ parse mnemonicGo.toList = some mnemonicDecls :=
  ⟨structGo_parse, btcGo_parse, utilGo_parse, privateKeyGo_parse, publicKeyGo_parse, mnemonicGo_parse⟩

/-- C106: printing the trees of a file gives all its tokens in their order. -/
theorem C106_print : lex structGo.toList = some (printFile structDecls) ∧ lex btcGo.toList = some (printFile btcDecls) ∧
    lex utilGo.toList = some (printFile utilDecls) ∧ lex privateKeyGo.toList = some (printFile privateKeyDecls) ∧
    lex publicKeyGo.toList = some (printFile publicKeyDecls) ∧ lex mnemonicGo.toList = some (printFile mnemonicDecls) :=
  ⟨structGo_print, btcGo_print, utilGo_print, privateKeyGo_print, publicKeyGo_print, mnemonicGo_print⟩

namespace Source

/-- Receiver type, name, parameter types and result types of the functions of a program, in order. -/
def signatures : List Decl → List (Nat × Nat × List Expr × List Expr)
  | .func f :: ds => (f.recv, f.name, f.params.map (·.2), f.results) :: signatures ds
  | _ :: ds => signatures ds
  | [] => []

/-- Go types. -/
def tString : Expr := .name (id! "string")
/-- Go types. -/
def tBool : Expr := .name (id! "bool")
/-- Go types. -/
def tError : Expr := .name (id! "error")
/-- Go types. -/
def tPtr (x : Nat) : Expr := .un (id! "*") (.name x)
/-- Go types. -/
def tBig : Expr := .un (id! "*") (.sel (.name (id! "big")) (id! "Int"))
/-- Go types. -/
def tWords : Expr := .name (id! "Wordlist")

/-- The struct types of a program. -/
def structTypes : List Decl → List (Nat × List (Nat × Expr))
  | .struct x fs :: ds => (x, fs) :: structTypes ds
  | _ :: ds => structTypes ds
  | [] => []

/-- The package variables of a program. -/
def packageVariables : List Decl → List (Nat × Expr)
  | .var x t :: ds => (x, t) :: packageVariables ds
  | _ :: ds => packageVariables ds
  | [] => []

/-- Declarations of another kind than imports, functions, struct types and variables without a value. -/
def otherDecls : List Decl → List Decl
  | .imports _ :: ds => otherDecls ds
  | .func _ :: ds => otherDecls ds
  | .struct _ _ :: ds => otherDecls ds
  | .var _ _ :: ds => otherDecls ds
  | d :: ds => d :: otherDecls ds
  | [] => []

end Source

/-- C106: the files declare these functions and methods, with these types, and no others. -/
theorem C106_functions : signatures program =
    [(0, id! "init", [], []),
      (0, id! "generateRandomBigInt", [], [tBig]),
      (0, id! "bigIntToHex", [tBig], [tString]),
      (0, id! "CheckWIF", [tString], [tBool]),
      (0, id! "PrivateFromWIF", [tString, tPtr (id! "Network")], [tPtr (id! "PrivateKey"), tError]),
      (0, id! "PrivateFromHex", [tString, tPtr (id! "Network")], [tPtr (id! "PrivateKey"), tError]),
      (0, id! "GeneratePrivateKey", [tPtr (id! "Network")], [tPtr (id! "PrivateKey")]),
      (0, id! "AddPrivateKeys", [tPtr (id! "PrivateKey"), tPtr (id! "PrivateKey")], [tPtr (id! "PrivateKey"), tError]),
      (0, id! "MultiplyPrivateKeys", [tPtr (id! "PrivateKey"), tPtr (id! "PrivateKey")], [tPtr (id! "PrivateKey"), tError]),
      (0, id! "PublicFromHex", [tString, tPtr (id! "Network")], [tPtr (id! "PublicKey"), tError]),
      (id! "PrivateKey", id! "GetPublicKey", [], [tPtr (id! "PublicKey"), tBool]),
      (id! "PublicKey", id! "Format", [tBool], [tString]),
      (id! "PublicKey", id! "Address", [tBool], [tString, tError]),
      (0, id! "AddPublicKeys", [tPtr (id! "PublicKey"), tPtr (id! "PublicKey"), tBool], [tPtr (id! "PublicKey"), tError]),
      (0, id! "NewSeedFromMnemonic", [tString, tString, tWords], [.sliceOf (.name (id! "byte")), tError]),
      (0, id! "NewMnemonic", [.name (id! "int"), tWords], [tString, tError])] := by
  decide +kernel

/-- C106: the struct types have exactly the fields of the model. -/
theorem C106_types :
    structTypes program =
      [(id! "Network", [(id! "PrivKeyPrefix", tString), (id! "PubKeyHashPrefix", tString)]),
        (id! "PrivateKey", [(id! "Key", tBig), (id! "Hex", tString), (id! "WIF", tString), (id! "Network", tPtr (id! "Network"))]),
        (id! "PublicKey", [(id! "X", tBig), (id! "Y", tBig), (id! "Network", tPtr (id! "Network"))])] ∧
    packageVariables program =
      [(id! "secp256k1", .sel (.name (id! "ecdsa")) (id! "Curve")), (id! "MainNetwork", tPtr (id! "Network")),
        (id! "TestNetwork", tPtr (id! "Network"))] ∧
    otherDecls program = [] := by
  decide +kernel

/-- The parser does not accept everything: without its last brace, util.go is refused. -/
example : parse (utilChars.take (utilChars.length - 3)) = none := by decide +kernel

/-! ## C107 -/

/-- C107: `init`, run on the text from the state in which a program starts (all package variables zero), ends; the
parameters are those of secp256k1 and of the two networks, and the random source and the log are untouched. -/
theorem C107_init (H : Hashes) (E : EcdsaM) (rd : Reader) : ∃ st,
    Ends H E program 0 (id! "init") [] (before program rd) (.ok [] st) ∧
    curveValue st.heap = ⟨some 0, some 7, ⟨some (Spec.gx : Int), some (Spec.gy : Int)⟩, some (Spec.p : Int), some (Spec.n : Int), some 1⟩ ∧
    (∃ m t, scopeGet (id! "MainNetwork") st.vars = some (.net m) ∧ scopeGet (id! "TestNetwork") st.vars = some (.net t) ∧
      loadNet st.heap m = some ⟨asc "80", asc "00"⟩ ∧ loadNet st.heap t = some ⟨asc "EF", asc "6F"⟩) ∧
    st.heap.privs = [] ∧ st.heap.pubs = [] ∧ st.rd = rd ∧ st.log = [] := by
  refine ⟨ready rd, ends_init rd, ?_, ⟨some 0, some 1, rfl, rfl, ?_, ?_⟩, rfl, rfl, rfl, rfl⟩
  · exact ((init_curveOK _).value.trans (by decide +kernel))
  · rfl
  · rfl

/-- C107: in every session these parameters are still in place. -/
theorem C107_parameters_stay (H : Hashes) (E : EcdsaM) (hE : Pkg E) (nets : List Network) (st : State) (hs : Session H E nets st) :
    curveValue st.heap = ⟨some 0, some 7, ⟨some (Spec.gx : Int), some (Spec.gy : Int)⟩, some (Spec.p : Int), some (Spec.n : Int), some 1⟩ ∧
    ∃ m t, scopeGet (id! "MainNetwork") st.vars = some (.net m) ∧ scopeGet (id! "TestNetwork") st.vars = some (.net t) ∧
      loadNet st.heap m = some ⟨asc "80", asc "00"⟩ ∧ loadNet st.heap t = some ⟨asc "EF", asc "6F"⟩ := by
  have h := hs.sound hE
  refine ⟨h.curve.value.trans (by decide +kernel), some 0, some 1, ?_, ?_, ?_, ?_⟩
  · rw [h.vars]; rfl
  · rw [h.vars]; rfl
  · rw [loadNet_grow h.grow]; rfl
  · rw [loadNet_grow h.grow]; rfl

/-! ## C108 -/

namespace Spec

/-- Specification: the call changed nothing that could be read before it, consumed nothing of the random source, wrote
nothing to the log and left the package variables alone. -/
structure Quiet (st st' : State) : Prop where
  heap : Unchanged st.heap st'.heap
  rd : st'.rd = st.rd
  log : st'.log = st.log
  vars : st'.vars = st.vars

/-- Specification: the outcome `o` of a Go call made in the state `st` is what the model's result `r` says. `good` and
`bad` are the lists of values Go returns; `Q` relates what is returned to the model's value. -/
def Returns {α β : Type} (st : State) (good : α → List Value) (bad : GoError → List Value) (Q : α → β → Heap → Prop)
    (r : Res β) (o : Out (List Value)) : Prop :=
  match r with
  | .ok v => ∃ a st', o = .ok (good a) st' ∧ Q a v st'.heap ∧ Quiet st st'
  | .err e => ∃ st', o = .ok (bad e) st' ∧ Quiet st st'
  | .panic p => ∃ st', o = .panic p st' ∧ Quiet st st'

/-- Specification: `(*PrivateKey, error)`. -/
def privResult (p : Ptr) : List Value := [.priv p, .err none]

/-- Specification: `(*PrivateKey, error)`. -/
def privError (e : GoError) : List Value := [.priv none, .err (some e)]

/-- Specification: `(*PublicKey, error)`. -/
def pubResult (p : Ptr) : List Value := [.pub p, .err none]

/-- Specification: `(*PublicKey, error)`. -/
def pubError (e : GoError) : List Value := [.pub none, .err (some e)]

end Spec

section
variable {H : Hashes} {E : EcdsaM} {V : Ecdsa} {nets : List Network} {st : State}

theorem returns_of (hE : Pkg E) {α β : Type} {good : α → List Value} {bad : GoError → List Value} {Q : α → β → Heap → Prop}
    {m : HM α} {x : Res β} (r : Request) {n : Nat} {hs : List HashObj}
    (e : runFunc H E program n r.recv r.name r.args st = Out.of good bad (m st.heap) { st with hashes := hs })
    (hr : Ref st.heap m x Q) : ∃ o, r.Ends H E st o ∧ Returns st good bad Q x o := by
  have hend : r.Ends H E st (Out.of good bad (m st.heap) { st with hashes := hs }) := by
    refine .of e ?_
    rcases m st.heap with ⟨a | e | p, h⟩ <;> intro hc <;> cases hc
  refine ⟨_, hend, ?_⟩
  have hstep := fun st' => r.step (st' := st') hE hend
  unfold Returns
  cases x with
  | ok v =>
    obtain ⟨a, h', hm, hq⟩ := hr
    rw [hm] at hstep ⊢
    exact ⟨a, _, rfl, hq, (hstep _ rfl).grow.unchanged, rfl, rfl, rfl⟩
  | err e =>
    have hr' : (m st.heap).1 = .err e := hr
    rcases hm : m st.heap with ⟨x, h'⟩
    rw [hm] at hstep hr'
    obtain rfl : x = .err e := hr'
    exact ⟨_, rfl, (hstep _ rfl).grow.unchanged, rfl, rfl, rfl⟩
  | panic p =>
    have hr' : (m st.heap).1 = .panic p := hr
    rcases hm : m st.heap with ⟨x, h'⟩
    rw [hm] at hstep hr'
    obtain rfl : x = .panic p := hr'
    exact ⟨_, rfl, (hstep _ rfl).grow.unchanged, rfl, rfl, rfl⟩

theorem ref_of_reads {α : Type} {m : HM α} {h : Heap} {x : Res α} (hr : m h = (x, h)) : Ref h m x fun a v h' => a = v ∧ h' = h := by
  unfold Ref
  rw [hr]
  cases x with
  | ok v => exact ⟨v, h, rfl, rfl, rfl⟩
  | err e => rfl
  | panic p => rfl

end

section
variable (H : Hashes) (E : EcdsaM) (V : Ecdsa) (hE : Pkg E) (hV : E.Refines V) (nets : List Network) (st : State)
  (hs : Session H E nets st) (hd : Intact st)
include hE

/-- C108: `CheckWIF`. -/
theorem C108_checkWIF (wif : GoString) : ∃ o, (Request.checkWIF wif).Ends H E st o ∧
    Returns st (fun b => [.bool b]) (fun _ => []) (fun a v _ => a = v) (checkWIF H wif) o := by
  obtain ⟨hs, e⟩ := run_CheckWIF H E 0 wif st
  refine returns_of hE (m := lift (checkWIF H wif)) (.checkWIF wif) (n := 1) (hs := hs) (e.trans ?_) ?_
  · cases hc : checkWIF H wif with
    | err e => exact (checkWIF_ne_err H wif e hc).elim
    | ok b => rfl
    | panic p => rfl
  · unfold Ref
    cases checkWIF H wif with
    | ok b => exact ⟨b, _, rfl, rfl⟩
    | err e => rfl
    | panic p => rfl

/-- C108: `PrivateFromWIF`. -/
theorem C108_privateFromWIF (wif : GoString) (network : Ptr) : ∃ o, (Request.privateFromWIF wif network).Ends H E st o ∧
    Returns st privResult privError (NewPriv st.heap network) (privateFromWIF H wif (loadNet st.heap network)) o := by
  obtain ⟨hs, e⟩ := run_PrivateFromWIF H E 0 wif network st
  exact returns_of hE (.privateFromWIF wif network) e (privateFromWIF_ref H (Grow.refl _) wif network)

/-- C108: `PrivateFromHex`. -/
theorem C108_privateFromHex (hexa : GoString) (network : Ptr) : ∃ o, (Request.privateFromHex hexa network).Ends H E st o ∧
    Returns st privResult privError (NewPriv st.heap network) (privateFromHex H hexa (loadNet st.heap network)) o := by
  obtain ⟨hs, e⟩ := run_PrivateFromHex H E 0 hexa network st
  exact returns_of hE (.privateFromHex hexa network) e (privateFromHex_ref H (Grow.refl _) hexa network)

include hd

/-- `AddPrivateKeys` in any state in which the parameters are in place and all pointers valid. -/
theorem text_addPrivateKeys (p1 p2 : Ptr) (o1 o2 : PrivObj) (h1 : loadPriv st.heap p1 = some o1)
    (h2 : loadPriv st.heap p2 = some o2) : ∃ o, (Request.addPrivateKeys p1 p2).Ends H E st o ∧
    Returns st privResult privError (NewPriv st.heap o1.Network)
      (addPrivateKeys H (privValue st.heap o1) (privValue st.heap o2)) o := by
  obtain ⟨hs', e⟩ := run_AddPrivateKeys H E 0 p1 p2 st
  exact returns_of hE (.addPrivateKeys p1 p2) e
    (addPrivateKeys_ref H h1 h2 hd.curve.value hd.curve.N (hd.priv h1) (hd.priv h2))

/-- `MultiplyPrivateKeys` in any state in which the parameters are in place and all pointers valid. -/
theorem text_multiplyPrivateKeys (p1 p2 : Ptr) (o1 o2 : PrivObj) (h1 : loadPriv st.heap p1 = some o1)
    (h2 : loadPriv st.heap p2 = some o2) : ∃ o, (Request.multiplyPrivateKeys p1 p2).Ends H E st o ∧
    Returns st privResult privError (NewPriv st.heap o1.Network)
      (multiplyPrivateKeys H (privValue st.heap o1) (privValue st.heap o2)) o := by
  obtain ⟨hs', e⟩ := run_MultiplyPrivateKeys H E 0 p1 p2 st
  exact returns_of hE (.multiplyPrivateKeys p1 p2) e
    (multiplyPrivateKeys_ref H h1 h2 hd.curve.value hd.curve.N (hd.priv h1) (hd.priv h2))

include hV

/-- `PublicFromHex` in any state in which the parameters are in place and all pointers valid. -/
theorem text_publicFromHex (hexa : GoString) (network : Ptr) : ∃ o, (Request.publicFromHex hexa network).Ends H E st o ∧
    Returns st pubResult pubError (NewPub st.heap network) (publicFromHex V hexa (loadNet st.heap network)) o := by
  refine returns_of (H := H) hE (.publicFromHex hexa network) (run_PublicFromHex H hE.intOps 0 hexa network st) ?_
  exact (publicFromHex_ref hV hexa network hd.curve).mono fun _ _ _ h => h.1

/-- `GetPublicKey` in any state in which the parameters are in place and all pointers valid. -/
theorem text_getPublicKey (p : Ptr) (o : PrivObj) (h1 : loadPriv st.heap p = some o) :
    ∃ out, (Request.getPublicKey p).Ends H E st out ∧
    Returns st (fun q => [.pub q, .bool q.isSome]) (fun _ => [])
      (fun a v h' => match v with
        | none => a = none
        | some v => NewPub st.heap o.Network a v h')
      (getPublicKey V (privValue st.heap o)) out := by
  refine returns_of (H := H) hE (m := getPublicKeyM E p) (.getPublicKey p) (hs := st.hashes)
    ((run_GetPublicKey H hE.intOps 0 p st).trans ?_) ?_
  · have hn := getPublicKey_no_err hE.intOps p st.heap
    rcases hg : getPublicKeyM E p st.heap with ⟨a | e | p, h⟩
    · rfl
    · rw [hg] at hn; exact (hn e rfl).elim
    · rfl
  · refine (getPublicKey_ref hV h1 hd.curve (hd.priv h1)).mono fun _ v _ h => ?_
    cases v with
    | none => exact h.1
    | some v => exact h

/-- `AddPublicKeys` in any state in which the parameters are in place and all pointers valid. -/
theorem text_addPublicKeys (p1 p2 : Ptr) (o1 o2 : PubObj) (h1 : loadPub st.heap p1 = some o1) (h2 : loadPub st.heap p2 = some o2)
    (c : Bool) : ∃ o, (Request.addPublicKeys p1 p2 c).Ends H E st o ∧
    Returns st pubResult pubError (NewPub st.heap o1.Network)
      (addPublicKeys V (pubValue st.heap o1) (pubValue st.heap o2) c) o := by
  exact returns_of (H := H) hE (.addPublicKeys p1 p2 c) (run_AddPublicKeys H hE.intOps 0 p1 p2 c st)
    (addPublicKeys_ref hV h1 h2 hd.curve (hd.pub h1).1 (hd.pub h1).2 (hd.pub h2).1 (hd.pub h2).2 c)

omit hV hd
include hs

/-- C108: `AddPrivateKeys`. -/
theorem C108_addPrivateKeys (p1 p2 : Ptr) (o1 o2 : PrivObj) (h1 : loadPriv st.heap p1 = some o1)
    (h2 : loadPriv st.heap p2 = some o2) : ∃ o, (Request.addPrivateKeys p1 p2).Ends H E st o ∧
    Returns st privResult privError (NewPriv st.heap o1.Network)
      (addPrivateKeys H (privValue st.heap o1) (privValue st.heap o2)) o :=
  text_addPrivateKeys H E hE st (hs.intact hE) p1 p2 o1 o2 h1 h2

/-- C108: `MultiplyPrivateKeys`. -/
theorem C108_multiplyPrivateKeys (p1 p2 : Ptr) (o1 o2 : PrivObj) (h1 : loadPriv st.heap p1 = some o1)
    (h2 : loadPriv st.heap p2 = some o2) : ∃ o, (Request.multiplyPrivateKeys p1 p2).Ends H E st o ∧
    Returns st privResult privError (NewPriv st.heap o1.Network)
      (multiplyPrivateKeys H (privValue st.heap o1) (privValue st.heap o2)) o :=
  text_multiplyPrivateKeys H E hE st (hs.intact hE) p1 p2 o1 o2 h1 h2

include hV

/-- C108: `PublicFromHex`. -/
theorem C108_publicFromHex (hexa : GoString) (network : Ptr) : ∃ o, (Request.publicFromHex hexa network).Ends H E st o ∧
    Returns st pubResult pubError (NewPub st.heap network) (publicFromHex V hexa (loadNet st.heap network)) o :=
  text_publicFromHex H E V hE hV st (hs.intact hE) hexa network

/-- C108: `GetPublicKey`. -/
theorem C108_getPublicKey (p : Ptr) (o : PrivObj) (h1 : loadPriv st.heap p = some o) :
    ∃ out, (Request.getPublicKey p).Ends H E st out ∧
    Returns st (fun q => [.pub q, .bool q.isSome]) (fun _ => [])
      (fun a v h' => match v with
        | none => a = none
        | some v => NewPub st.heap o.Network a v h')
      (getPublicKey V (privValue st.heap o)) out :=
  text_getPublicKey H E V hE hV st (hs.intact hE) p o h1

/-- C108: `AddPublicKeys`. -/
theorem C108_addPublicKeys (p1 p2 : Ptr) (o1 o2 : PubObj) (h1 : loadPub st.heap p1 = some o1) (h2 : loadPub st.heap p2 = some o2)
    (c : Bool) : ∃ o, (Request.addPublicKeys p1 p2 c).Ends H E st o ∧
    Returns st pubResult pubError (NewPub st.heap o1.Network)
      (addPublicKeys V (pubValue st.heap o1) (pubValue st.heap o2) c) o :=
  text_addPublicKeys H E V hE hV st (hs.intact hE) p1 p2 o1 o2 h1 h2 c

omit hV hs

/-- C108: `Format`. -/
theorem C108_format (p : Ptr) (o : PubObj) (h1 : loadPub st.heap p = some o) (c : Bool) :
    ∃ out, (Request.format p c).Ends H E st out ∧
    Returns st (fun s => [.str s]) (fun _ => []) (fun a v _ => a = v) (format (pubValue st.heap o) c) out := by
  refine returns_of (H := H) hE (m := formatM p c) (.format p c) (hs := st.hashes) ((run_Format H 0 p c st).trans ?_) ?_
  · obtain ⟨r, e, hn⟩ := formatM_shape p c st.heap
    rw [e]
    rcases r with a | e' | p
    · rfl
    · exact (hn e' rfl).elim
    · rfl
  · exact (ref_of_reads (format_ref h1 c)).mono fun _ _ _ h => h.1

/-- C108: `Address`. -/
theorem C108_address (p : Ptr) (o : PubObj) (h1 : loadPub st.heap p = some o) (c : Bool) :
    ∃ out, (Request.address p c).Ends H E st out ∧
    Returns st (fun s => [.str s, .err none]) (fun e => [.str [], .err (some e)]) (fun a v _ => a = v)
      (address H (pubValue st.heap o) c) out := by
  obtain ⟨hs, e⟩ := run_Address H (E := E) 0 p c st
  exact returns_of hE (.address p c) e ((ref_of_reads (address_ref H h1 c)).mono fun _ _ _ h => h.1)

attribute [local irreducible] generateRandomBigInt in
/-- C108: `GeneratePrivateKey`. It advances the random source exactly as the model does. -/
theorem C108_generatePrivateKey (network : Ptr) : ∃ o, (Request.generatePrivateKey network).Ends H E st o ∧
    match generatePrivateKey H st.rd (loadNet st.heap network) with
    | .ok (v, rd) => ∃ a st', o = .ok [.priv a] st' ∧ NewPriv st.heap network a v st'.heap ∧ Quiet { st with rd := rd } st'
    | .err _ => False
    | .panic p => ∃ st', o = .panic p st' ∧ Quiet { st with rd := st'.rd } st' := by
  obtain ⟨hs, rd2, e⟩ := run_GeneratePrivateKey_loop H E network (st.rd.length + 1) (st.rd.length + 2) st (by omega) (by omega)
  have hn := genLoop_no_err (H := H) network (st.rd.length + 1) st.rd st.heap
  have hr : Ref st.heap (generatePrivateKeyM H st.rd network) (generatePrivateKey H st.rd (loadNet st.heap network))
      fun r v h' => NewPriv st.heap network r.1 v.1 h' ∧ r.2 = v.2 := generatePrivateKey_ref H st.rd network st.heap
  have hm : generatePrivateKeyM H st.rd network st.heap =
    generateLoopM H generateRandomBigInt network (st.rd.length + 1) st.rd st.heap := by
    rw [generatePrivateKeyM]
  have hend : (Request.generatePrivateKey network).Ends H E st
      (genOut st hs rd2 (generateLoopM H generateRandomBigInt network (st.rd.length + 1) st.rd st.heap)) := by
    refine .of e ?_
    rcases hg : generateLoopM H generateRandomBigInt network (st.rd.length + 1) st.rd st.heap with ⟨⟨q, rd⟩ | e | p, h⟩
    · intro hc; cases hc
    · rw [hg] at hn; exact (hn e rfl).elim
    · intro hc; cases hc
  refine ⟨_, hend, ?_⟩
  have hstep := fun st' => (Request.generatePrivateKey network).step (st' := st') hE hend
  unfold Ref at hr
  rw [hm] at hr
  cases hx : generatePrivateKey H st.rd (loadNet st.heap network) with
  | ok w =>
    obtain ⟨v, rd⟩ := w
    rw [hx] at hr
    obtain ⟨⟨a, rd'⟩, h', e1, e2, e3⟩ := hr
    obtain rfl : rd' = rd := e3
    rw [e1] at hstep ⊢
    exact ⟨a, _, rfl, e2, (hstep _ rfl).grow.unchanged, rfl, rfl, rfl⟩
  | err e =>
    rw [hx] at hr
    exact hn e hr
  | panic p =>
    rw [hx] at hr
    rcases hg : generateLoopM H generateRandomBigInt network (st.rd.length + 1) st.rd st.heap with ⟨x, h⟩
    rw [hg] at hr hstep
    obtain rfl : x = .panic p := hr
    exact ⟨_, rfl, (hstep _ rfl).grow.unchanged, rfl, rfl, rfl⟩

omit hE in
/-- C108: `NewMnemonic`. -/
theorem C108_newMnemonic (words : Int) (wl : Option (List GoString)) : ∃ o, (Request.newMnemonic words wl).Ends H E st o ∧
    match newMnemonic H st.rd words wl with
    | .ok (s, rd) => ∃ st', o = .ok [.str s, .err none] st' ∧ Quiet { st with rd := rd } st'
    | .err e => ∃ st', o = .ok [.str [], .err (some e)] st' ∧ Quiet { st with rd := st'.rd } st'
    | .panic p => ∃ st', o = .panic p st' ∧ Quiet { st with rd := st'.rd } st' := by
  obtain ⟨ints, hs, rd2, hg, e⟩ := run_NewMnemonic H E words wl 300 (by omega) st
  have hend : (Request.newMnemonic words wl).Ends H E st (mnemonicOut st ints hs rd2 (newMnemonic H st.rd words wl)) := by
    refine .of e ?_
    rcases newMnemonic H st.rd words wl with ⟨s, rd⟩ | e | p <;> intro hc <;> cases hc
  refine ⟨_, hend, ?_⟩
  have hu : Unchanged st.heap { st.heap with ints := ints } := Grow.unchanged ⟨hg, rfl, List.prefix_refl _, List.prefix_refl _, rfl⟩
  rcases newMnemonic H st.rd words wl with ⟨s, rd⟩ | e | p
  · exact ⟨_, rfl, hu, rfl, rfl, rfl⟩
  · exact ⟨_, rfl, hu, rfl, rfl, rfl⟩
  · exact ⟨_, rfl, hu, rfl, rfl, rfl⟩

omit hE in
/-- C108: `NewSeedFromMnemonic`. It logs what the model logs. (`.nil` is the nil slice.) -/
theorem C108_newSeedFromMnemonic (mn pa : GoString) (wl : Option (List GoString)) :
    ∃ o, (Request.newSeedFromMnemonic mn pa wl).Ends H E st o ∧
    match newSeedFromMnemonic H mn pa wl with
    | (.ok none, log) => ∃ st', o = .ok [.nil, .err none] st' ∧ Quiet { st with log := st.log ++ log } st'
    | (.ok (some b), log) => ∃ st', o = .ok [.bytes b, .err none] st' ∧ Quiet { st with log := st.log ++ log } st'
    | (.err e, log) => ∃ st', o = .ok [.nil, .err (some e)] st' ∧ Quiet { st with log := st.log ++ log } st'
    | (.panic p, log) => ∃ st', o = .panic p st' ∧ Quiet { st with log := st.log ++ log } st' := by
  obtain ⟨ints, hs, hg, e⟩ := run_NewSeedFromMnemonic H E mn pa wl _ (Nat.le_refl _) st
  have hend : (Request.newSeedFromMnemonic mn pa wl).Ends H E st (seedOut st ints hs (newSeedFromMnemonic H mn pa wl)) := by
    refine .of e ?_
    rcases newSeedFromMnemonic H mn pa wl with ⟨(_ | b) | e | p, log⟩ <;> intro hc <;> cases hc
  refine ⟨_, hend, ?_⟩
  have hu : Unchanged st.heap { st.heap with ints := ints } := Grow.unchanged ⟨hg, rfl, List.prefix_refl _, List.prefix_refl _, rfl⟩
  rcases newSeedFromMnemonic H mn pa wl with ⟨(_ | b) | e | p, log⟩
  · exact ⟨_, rfl, hu, rfl, rfl, rfl⟩
  · exact ⟨_, rfl, hu, rfl, rfl, rfl⟩
  · exact ⟨_, rfl, hu, rfl, rfl, rfl⟩
  · exact ⟨_, rfl, hu, rfl, rfl, rfl⟩

end

/-! ## The assumptions can be met -/

/-- A package on values whose methods return no `error`. -/
structure NoError (V : Ecdsa) : Prop where
  getY : ∀ C x e, V.getY C x ≠ .err e
  multMod : ∀ C x y e, V.multMod C x y ≠ .err e
  scalarMult : ∀ C k P e, V.scalarMult C k P ≠ .err e
  addPoints : ∀ C P Q e, V.addPoints C P Q ≠ .err e

theorem bind_ne_err {α β : Type} {x : HM α} {f : α → HM β} {h : Heap} (hx : ∀ e, (x h).1 ≠ .err e)
    (hf : ∀ a h' e, (f a h').1 ≠ .err e) : ∀ e, ((x >>= f) h).1 ≠ .err e := by
  intro e
  rw [Mem.bind_run]
  rcases hm : x h with ⟨a | e' | p, h'⟩
  · exact hf a h' e
  · rw [hm] at hx; exact (hx e' rfl).elim
  · intro hc; cases hc

theorem allocOpt_ne_err (v : Option Int) (h : Heap) : ∀ e, (allocOpt v h).1 ≠ .err e := by
  obtain ⟨p, l, e, -⟩ := allocOpt_run v h
  rw [e]
  intro e hc
  cases hc

theorem pure_ne_err {α : Type} (a : α) (h : Heap) : ∀ e, ((pure a : HM α) h).1 ≠ .err e := by
  intro e hc
  cases hc

theorem ofValue_pkg {V : Ecdsa} (hV : NoError V) : Pkg (EcdsaM.ofValue V) := by
  refine ⟨EcdsaM.ofValue_allocs V, fun x h => ?_, fun x y h => ?_, fun k p h => ?_, fun p q h => ?_⟩
  · exact bind_ne_err (hV.getY _ _) fun r h' => bind_ne_err (allocOpt_ne_err _ _) fun _ _ => pure_ne_err _ _
  · refine bind_ne_err ?_ fun r h' => allocOpt_ne_err _ _
    intro e
    show (deref (loadInt h y) >>= fun k => V.multMod (curveValue h) (loadInt h x) k) ≠ .err e
    cases loadInt h y with
    | none => intro hc; cases hc
    | some v => exact hV.multMod _ _ _ e
  · exact bind_ne_err (hV.scalarMult _ _ _) fun r h' => bind_ne_err (allocOpt_ne_err _ _) fun _ _ =>
      bind_ne_err (allocOpt_ne_err _ _) fun _ _ => pure_ne_err _ _
  · exact bind_ne_err (hV.addPoints _ _ _) fun r h' => bind_ne_err (allocOpt_ne_err _ _) fun _ _ =>
      bind_ne_err (allocOpt_ne_err _ _) fun _ _ => pure_ne_err _ _

theorem ref_noError : NoError EC.ref := by
  refine ⟨fun C x e => ?_, fun C x y e => ?_, fun C k P e => ?_, fun C P Q e => ?_⟩
  · unfold EC.ref; simp only; split
    · intro hc; cases hc
    · split <;> (intro hc; cases hc)
  · unfold EC.ref; simp only; split <;> (intro hc; cases hc)
  · unfold EC.ref; simp only; split
    · unfold EC.outcome; split <;> (intro hc; cases hc)
    · intro hc; cases hc
  · unfold EC.ref; simp only; split
    · unfold EC.outcome; split <;> (intro hc; cases hc)
    · intro hc; cases hc

/-- The reference package meets all assumptions made of the curve package. -/
theorem refPkg : Pkg (EcdsaM.ofValue EC.ref) ∧ (EcdsaM.ofValue EC.ref).Refines EC.ref ∧ EcdsaContract EC.ref :=
  ⟨ofValue_pkg ref_noError, EcdsaM.ofValue_refines _, EC.ref_contract⟩

section
variable (H : Hashes) (E : EcdsaM) (hE : Pkg E) (st : State)

/-- C108: a nil receiver or argument is a nil dereference, whatever the other arguments are. -/
theorem C108_nil (hE : Pkg E) (p1 p2 : Ptr) (c : Bool) :
    (loadPriv st.heap p1 = none ∨ loadPriv st.heap p2 = none → ∃ st', Quiet st st' ∧
      (Request.addPrivateKeys p1 p2).Ends H E st (.panic .nilDeref st')) ∧
    (loadPriv st.heap p1 = none ∨ loadPriv st.heap p2 = none → ∃ st', Quiet st st' ∧
      (Request.multiplyPrivateKeys p1 p2).Ends H E st (.panic .nilDeref st')) ∧
    (loadPub st.heap p1 = none ∨ loadPub st.heap p2 = none → ∃ st', Quiet st st' ∧
      (Request.addPublicKeys p1 p2 c).Ends H E st (.panic .nilDeref st')) ∧
    (loadPriv st.heap p1 = none → ∃ st', Quiet st st' ∧ (Request.getPublicKey p1).Ends H E st (.panic .nilDeref st')) ∧
    (loadPub st.heap p1 = none → ∃ st', Quiet st st' ∧ (Request.format p1 c).Ends H E st (.panic .nilDeref st')) ∧
    (loadPub st.heap p1 = none → ∃ st', Quiet st st' ∧ (Request.address p1 c).Ends H E st (.panic .nilDeref st')) := by
  have fin : ∀ {α : Type} {good : α → List Value} {bad : GoError → List Value} {m : HM α} {n : Nat} {hs : List HashObj}
      (r : Request), runFunc H E program n r.recv r.name r.args st = Out.of good bad (m st.heap) { st with hashes := hs } →
      (m st.heap).1 = .panic .nilDeref → ∃ st', Quiet st st' ∧ r.Ends H E st (.panic .nilDeref st') := by
    intro α good bad m n hs r e hm
    obtain ⟨o, h1, st', rfl, h2⟩ := returns_of (H := H) hE (β := Unit) (x := .panic .nilDeref) (Q := fun _ _ _ => True) r e hm
    exact ⟨st', h2, h1⟩
  refine ⟨fun h => ?_, fun h => ?_, fun h => ?_, fun h => ?_, fun h => ?_, fun h => ?_⟩
  · obtain ⟨hs, e⟩ := run_AddPrivateKeys H E 0 p1 p2 st
    refine fin (.addPrivateKeys p1 p2) e ?_
    rcases h1 : loadPriv st.heap p1 with _ | o1
    · simp [addPrivateKeysM, Mem.bind_run, readPriv, h1]
    · rcases h with h | h
      · rw [h1] at h; cases h
      · simp [addPrivateKeysM, Mem.bind_run, readPriv, h1, h]
  · obtain ⟨hs, e⟩ := run_MultiplyPrivateKeys H E 0 p1 p2 st
    refine fin (.multiplyPrivateKeys p1 p2) e ?_
    rcases h1 : loadPriv st.heap p1 with _ | o1
    · simp [multiplyPrivateKeysM, Mem.bind_run, readPriv, h1]
    · rcases h with h | h
      · rw [h1] at h; cases h
      · simp [multiplyPrivateKeysM, Mem.bind_run, readPriv, h1, h]
  · refine fin (hs := st.hashes) (.addPublicKeys p1 p2 c) (run_AddPublicKeys H hE.intOps 0 p1 p2 c st) ?_
    rcases h1 : loadPub st.heap p1 with _ | o1
    · simp [addPublicKeysM, Mem.bind_run, readPub, h1]
    · rcases h with h | h
      · rw [h1] at h; cases h
      · simp [addPublicKeysM, Mem.bind_run, readPub, h1, h]
  · have hm : (getPublicKeyM E p1 st.heap).1 = .panic .nilDeref := by
      have h' : loadPriv { st.heap with pubs := st.heap.pubs ++ [⟨none, none, none⟩] } p1 = none := h
      simp [getPublicKeyM, Mem.bind_run, readPriv, newPub, h']
    refine fin (good := fun q => [.pub q, .bool q.isSome]) (bad := fun _ => []) (m := getPublicKeyM E p1) (hs := st.hashes)
      (.getPublicKey p1) ((run_GetPublicKey H hE.intOps 0 p1 st).trans ?_) hm
    rcases hg : getPublicKeyM E p1 st.heap with ⟨x, h'⟩
    rw [hg] at hm
    obtain rfl : x = _ := hm
    rfl
  · have hm : formatM p1 c st.heap = (.panic .nilDeref, st.heap) := by simp [formatM, Mem.bind_run, readPub, h]
    refine fin (good := fun s => [.str s]) (bad := fun _ => []) (m := formatM p1 c) (hs := st.hashes)
      (.format p1 c) ((run_Format H 0 p1 c st).trans ?_) ?_
    · rw [hm]; rfl
    · rw [hm]
  · obtain ⟨hs, e⟩ := run_Address H (E := E) 0 p1 c st
    refine fin (.address p1 c) e ?_
    simp [addressM, formatM, Mem.bind_run, readPub, h]

end

/-! ## C109 -/

/-- C109: every call of an exported function, with any arguments of the right types and in any state, ends in exactly one
way; nothing that could be read before is changed, and the package variables are not assigned to. -/
theorem C109_ends (H : Hashes) (E : EcdsaM) (hE : Pkg E) (r : Request) (st : State) :
    ∃ o st', r.Ends H E st o ∧ (∀ o', r.Ends H E st o' → o' = o) ∧ o.state? = some st' ∧ Unchanged st.heap st'.heap ∧
      st'.vars = st.vars := by
  obtain ⟨o, h, st', hs, hg⟩ := r.ends (H := H) hE st
  exact ⟨o, st', h, fun o' h' => h'.unique h, hs, hg.grow.unchanged, hg.vars⟩

namespace Spec

/-- Specification: a value of a Go type. -/
def HasType (t : Expr) (v : Value) : Prop :=
  (t = tString ∧ ∃ s, v = .str s) ∨ (t = tBool ∧ ∃ b, v = .bool b) ∨ (t = .name (id! "int") ∧ ∃ i, v = .int i) ∨
  (t = tWords ∧ ∃ l, v = .strs l) ∨ (t = tPtr (id! "Network") ∧ ∃ p, v = .net p) ∨
  (t = tPtr (id! "PrivateKey") ∧ ∃ p, v = .priv p) ∨ (t = tPtr (id! "PublicKey") ∧ ∃ p, v = .pub p)

/-- Specification: the first character of an identifier. -/
def firstChar (x : Nat) : Nat := ((Nat.digits 256 x).getLast?).getD 0

/-- Specification: Go exports identifiers that begin with a capital letter. -/
def Exported (x : Nat) : Prop := 65 ≤ firstChar x ∧ firstChar x ≤ 90

end Spec

/-- C109: every well-typed call of an exported function or method is one of the calls considered. -/
theorem C109_all_calls (recv name : Nat) (params results : List Expr) (args : List Value)
    (hf : (recv, name, params, results) ∈ signatures program) (hx : Exported name)
    (ha : List.Forall₂ HasType ((if recv = 0 then [] else [tPtr recv]) ++ params) args) :
    ∃ r : Request, r.recv = recv ∧ r.name = name ∧ r.args = args := by
  have tStr : ∀ v, HasType tString v → ∃ s, v = .str s := by
    rintro v (⟨e, h⟩ | ⟨e, h⟩ | ⟨e, h⟩ | ⟨e, h⟩ | ⟨e, h⟩ | ⟨e, h⟩ | ⟨e, h⟩) <;> first | exact h | (exfalso; revert e; decide)
  have tBl : ∀ v, HasType tBool v → ∃ s, v = .bool s := by
    rintro v (⟨e, h⟩ | ⟨e, h⟩ | ⟨e, h⟩ | ⟨e, h⟩ | ⟨e, h⟩ | ⟨e, h⟩ | ⟨e, h⟩) <;> first | exact h | (exfalso; revert e; decide)
  have tInt : ∀ v, HasType (.name (id! "int")) v → ∃ s, v = .int s := by
    rintro v (⟨e, h⟩ | ⟨e, h⟩ | ⟨e, h⟩ | ⟨e, h⟩ | ⟨e, h⟩ | ⟨e, h⟩ | ⟨e, h⟩) <;> first | exact h | (exfalso; revert e; decide)
  have tWl : ∀ v, HasType tWords v → ∃ s, v = .strs s := by
    rintro v (⟨e, h⟩ | ⟨e, h⟩ | ⟨e, h⟩ | ⟨e, h⟩ | ⟨e, h⟩ | ⟨e, h⟩ | ⟨e, h⟩) <;> first | exact h | (exfalso; revert e; decide)
  have tNet : ∀ v, HasType (tPtr (id! "Network")) v → ∃ s, v = .net s := by
    rintro v (⟨e, h⟩ | ⟨e, h⟩ | ⟨e, h⟩ | ⟨e, h⟩ | ⟨e, h⟩ | ⟨e, h⟩ | ⟨e, h⟩) <;> first | exact h | (exfalso; revert e; decide)
  have tPriv : ∀ v, HasType (tPtr (id! "PrivateKey")) v → ∃ s, v = .priv s := by
    rintro v (⟨e, h⟩ | ⟨e, h⟩ | ⟨e, h⟩ | ⟨e, h⟩ | ⟨e, h⟩ | ⟨e, h⟩ | ⟨e, h⟩) <;> first | exact h | (exfalso; revert e; decide)
  have tPub : ∀ v, HasType (tPtr (id! "PublicKey")) v → ∃ s, v = .pub s := by
    rintro v (⟨e, h⟩ | ⟨e, h⟩ | ⟨e, h⟩ | ⟨e, h⟩ | ⟨e, h⟩ | ⟨e, h⟩ | ⟨e, h⟩) <;> first | exact h | (exfalso; revert e; decide)
  have no : ∀ x, firstChar x = 98 ∨ firstChar x = 103 ∨ firstChar x = 105 → ¬ Exported x := by
    intro x h ⟨h1, h2⟩
    omega
  rw [C106_functions] at hf
  simp only [List.mem_cons, List.not_mem_nil, or_false, Prod.mk.injEq] at hf
  rcases hf with ⟨rfl, rfl, rfl, -⟩ | ⟨rfl, rfl, rfl, -⟩ | ⟨rfl, rfl, rfl, -⟩ | ⟨rfl, rfl, rfl, -⟩ | ⟨rfl, rfl, rfl, -⟩ |
    ⟨rfl, rfl, rfl, -⟩ | ⟨rfl, rfl, rfl, -⟩ | ⟨rfl, rfl, rfl, -⟩ | ⟨rfl, rfl, rfl, -⟩ | ⟨rfl, rfl, rfl, -⟩ |
    ⟨rfl, rfl, rfl, -⟩ | ⟨rfl, rfl, rfl, -⟩ | ⟨rfl, rfl, rfl, -⟩ | ⟨rfl, rfl, rfl, -⟩ | ⟨rfl, rfl, rfl, -⟩ | ⟨rfl, rfl, rfl, -⟩
  · exact (no _ (by decide +kernel) hx).elim
  · exact (no _ (by decide +kernel) hx).elim
  · exact (no _ (by decide +kernel) hx).elim
  · rcases ha with _ | ⟨h1, _ | _⟩
    obtain ⟨a, rfl⟩ := tStr _ h1
    exact ⟨.checkWIF a, rfl, rfl, rfl⟩
  · rcases ha with _ | ⟨h1, _ | ⟨h2, _ | _⟩⟩
    obtain ⟨a, rfl⟩ := tStr _ h1
    obtain ⟨b, rfl⟩ := tNet _ h2
    exact ⟨.privateFromWIF a b, rfl, rfl, rfl⟩
  · rcases ha with _ | ⟨h1, _ | ⟨h2, _ | _⟩⟩
    obtain ⟨a, rfl⟩ := tStr _ h1
    obtain ⟨b, rfl⟩ := tNet _ h2
    exact ⟨.privateFromHex a b, rfl, rfl, rfl⟩
  · rcases ha with _ | ⟨h1, _ | _⟩
    obtain ⟨a, rfl⟩ := tNet _ h1
    exact ⟨.generatePrivateKey a, rfl, rfl, rfl⟩
  · rcases ha with _ | ⟨h1, _ | ⟨h2, _ | _⟩⟩
    obtain ⟨a, rfl⟩ := tPriv _ h1
    obtain ⟨b, rfl⟩ := tPriv _ h2
    exact ⟨.addPrivateKeys a b, rfl, rfl, rfl⟩
  · rcases ha with _ | ⟨h1, _ | ⟨h2, _ | _⟩⟩
    obtain ⟨a, rfl⟩ := tPriv _ h1
    obtain ⟨b, rfl⟩ := tPriv _ h2
    exact ⟨.multiplyPrivateKeys a b, rfl, rfl, rfl⟩
  · rcases ha with _ | ⟨h1, _ | ⟨h2, _ | _⟩⟩
    obtain ⟨a, rfl⟩ := tStr _ h1
    obtain ⟨b, rfl⟩ := tNet _ h2
    exact ⟨.publicFromHex a b, rfl, rfl, rfl⟩
  · rcases ha with _ | ⟨h1, _ | _⟩
    obtain ⟨a, rfl⟩ := tPriv _ h1
    exact ⟨.getPublicKey a, rfl, rfl, rfl⟩
  · rcases ha with _ | ⟨h1, _ | ⟨h2, _ | _⟩⟩
    obtain ⟨a, rfl⟩ := tPub _ h1
    obtain ⟨b, rfl⟩ := tBl _ h2
    exact ⟨.format a b, rfl, rfl, rfl⟩
  · rcases ha with _ | ⟨h1, _ | ⟨h2, _ | _⟩⟩
    obtain ⟨a, rfl⟩ := tPub _ h1
    obtain ⟨b, rfl⟩ := tBl _ h2
    exact ⟨.address a b, rfl, rfl, rfl⟩
  · rcases ha with _ | ⟨h1, _ | ⟨h2, _ | ⟨h3, _ | _⟩⟩⟩
    obtain ⟨a, rfl⟩ := tPub _ h1
    obtain ⟨b, rfl⟩ := tPub _ h2
    obtain ⟨c, rfl⟩ := tBl _ h3
    exact ⟨.addPublicKeys a b c, rfl, rfl, rfl⟩
  · rcases ha with _ | ⟨h1, _ | ⟨h2, _ | ⟨h3, _ | _⟩⟩⟩
    obtain ⟨a, rfl⟩ := tStr _ h1
    obtain ⟨b, rfl⟩ := tStr _ h2
    obtain ⟨c, rfl⟩ := tWl _ h3
    exact ⟨.newSeedFromMnemonic a b c, rfl, rfl, rfl⟩
  · rcases ha with _ | ⟨h1, _ | ⟨h2, _ | _⟩⟩
    obtain ⟨a, rfl⟩ := tInt _ h1
    obtain ⟨b, rfl⟩ := tWl _ h2
    exact ⟨.newMnemonic a b, rfl, rfl, rfl⟩

/-! ## C110 -/

section
variable {H : Hashes} {E : EcdsaM} {V : Ecdsa} {nets : List Network} {st : State}

/-- `Returns` for a result that is known. -/
theorem ends_ok {α β : Type} {good : α → List Value} {bad : GoError → List Value} {Q : α → β → Heap → Prop} {r : Request}
    {x : Res β} {v : β} (hx : x = .ok v) (h : ∃ o, r.Ends H E st o ∧ Returns st good bad Q x o) (hs : Session H E nets st) :
    ∃ a st', r.Ends H E st (.ok (good a) st') ∧ Q a v st'.heap ∧ Quiet st st' ∧ Session H E nets st' := by
  obtain ⟨o, h1, h2⟩ := h
  rw [hx] at h2
  obtain ⟨a, st', rfl, h3, h4⟩ := h2
  exact ⟨a, st', h1, h3, h4, hs.call r h1 rfl⟩

/-- From a private key in memory to its address. -/
theorem text_chain (hE : Pkg E) (hV : E.Refines V) (hC : EcdsaContract V) (hs : Session H E nets st) {B : W.Point}
    (hB : HasCoords B gx gy) {net : Network} {v : UInt8} (hv : Spells net.PubKeyHashPrefix [v]) {p : Ptr} {o : PrivObj} {k : Nat}
    (ho : loadPriv st.heap p = some o) (hk : loadInt st.heap o.Key = some (k : Int)) (hn : loadNet st.heap o.Network = some net)
    (h1 : 1 ≤ k) (h2 : k < Spec.n) (c : Bool) :
    ∃ q st1 a st2, (Request.getPublicKey p).Ends H E st (.ok [.pub q, .bool true] st1) ∧
      (Request.address q c).Ends H E st1 (.ok [.str a, .err none] st2) ∧ IsAddressOf H B v c k a ∧ Session H E nets st2 ∧
      Quiet st st2 := by
  obtain ⟨P, a, e1, e2, e3⟩ := chain V hC H B hB net v hv (privValue st.heap o) k hk hn h1 h2 c
  obtain ⟨q, st1, g1, g2, g3, g4⟩ := ends_ok e1 (C108_getPublicKey H E V hE hV nets st hs p o ho) hs
  obtain ⟨w, w1, w2, w3, -⟩ := g2.obj
  have hq : q.isSome = true := by
    cases q with
    | none => cases w1
    | some _ => rfl
  rw [← w2] at e2
  obtain ⟨_, st2, k1, rfl, k3, k4⟩ := ends_ok e2 (C108_address H E hE st1 q w w1 c) g4
  rw [hq] at g1
  refine ⟨q, st1, _, st2, g1, k1, e3, k4, ?_⟩
  exact ⟨⟨fun p v h => k3.heap.int p v (g3.heap.int p v h), fun p v h => k3.heap.net p v (g3.heap.net p v h),
    fun p v h => k3.heap.priv p v (g3.heap.priv p v h), fun p v h => k3.heap.pub p v (g3.heap.pub p v h),
    k3.heap.curve.trans g3.heap.curve⟩, k3.rd.trans g3.rd, k3.log.trans g3.log, k3.vars.trans g3.vars⟩

end

section
variable (H : Hashes) (E : EcdsaM) (V : Ecdsa) (hE : Pkg E) (hV : E.Refines V) (hC : EcdsaContract V) (nets : List Network)
  (st : State) (hs : Session H E nets st) (B : W.Point) (hB : HasCoords B gx gy) (network : Ptr) (net : Network)
  (hn : loadNet st.heap network = some net) (v : UInt8) (hv : Spells net.PubKeyHashPrefix [v])
include hE hV hC hs hB hn hv

/-- C110: the text of `PrivateFromHex`, `GetPublicKey` and `Address`, run one after the other on the hexadecimal text of a
valid private key, returns the Bitcoin address of that key. -/
theorem C110_address_of_hex (pre : Bytes) (hpre : Spells net.PrivKeyPrefix pre) (h : GoString) (body : Bytes)
    (hb : Spells h body) (h1 : 1 ≤ bigEndian body) (h2 : bigEndian body < Spec.n) (c : Bool) :
    ∃ p q a st1 st2 st3, (Request.privateFromHex h network).Ends H E st (.ok [.priv p, .err none] st1) ∧
      (Request.getPublicKey p).Ends H E st1 (.ok [.pub q, .bool true] st2) ∧
      (Request.address q c).Ends H E st2 (.ok [.str a, .err none] st3) ∧ IsAddressOf H B v c (bigEndian body) a := by
  have e := privateFromHex_of_spells H (net := net) (hpre.append hb)
  obtain ⟨body', hb', -, hkey⟩ := C01_wif_bytes H h net _ pre hpre e
  obtain rfl := hb.unique hb'
  have hne : h ≠ [] := by
    rintro rfl
    cases hb
    exact absurd h1 (by decide)
  have hr := C108_privateFromHex H E hE st h network
  rw [hn] at hr
  obtain ⟨p, st1, g1, g2, g3, g4⟩ := ends_ok e hr hs
  obtain ⟨o, o1, o2, o3, -⟩ := g2.obj
  have hk := hkey hne
  rw [← o2] at hk
  have hn1 : loadNet st1.heap o.Network = some net := by rw [o3]; exact g3.heap.net _ _ hn
  obtain ⟨q, st2, a, st3, k1, k2, k3, -⟩ := text_chain hE hV hC g4 hB hv o1 hk hn1 h1 h2 c
  exact ⟨p, q, a, st1, st2, st3, g1, k1, k2, k3⟩

/-- C110: the same from a WIF. -/
theorem C110_address_of_wif (w : GoString) (w0 : UInt8) (body : Bytes) (hw : IsBase58Check H.sha256 (w0 :: body) w)
    (h1 : 1 ≤ bigEndian body) (h2 : bigEndian body < Spec.n) (c : Bool) :
    ∃ p q a st1 st2 st3, (Request.privateFromWIF w network).Ends H E st (.ok [.priv p, .err none] st1) ∧
      (Request.getPublicKey p).Ends H E st1 (.ok [.pub q, .bool true] st2) ∧
      (Request.address q c).Ends H E st2 (.ok [.str a, .err none] st3) ∧ IsAddressOf H B v c (bigEndian body) a := by
  have e : privateFromWIF H w (some net) = .ok
      { WIF := w, Hex := hexEncode body, Key := bigSetString (hexEncode body) 16, Network := some net } := by
    refine (privateFromWIF_eq_ok H).2 ⟨w0, body, base58Decode_eq_ok.2 ⟨?_, hw⟩, rfl⟩
    rw [IsBase58.text_unique hw (isBase58_encode _)]
    exact base58Encode_ne_nil (by simp)
  have hb := spells_hexEncode body
  have hne : hexEncode body ≠ [] := by
    intro e
    rw [e] at hb
    cases hb
    exact absurd h1 (by decide)
  have hkey : bigSetString (hexEncode body) 16 = some ((bigEndian body : Nat) : Int) := by
    rw [bigSetString_hex ((exists_spells_iff _).1 ⟨body, hb⟩).1, if_neg hne, hexNumber_of_spells hb]
  have hr := C108_privateFromWIF H E hE st w network
  rw [hn] at hr
  obtain ⟨p, st1, g1, g2, g3, g4⟩ := ends_ok e hr hs
  obtain ⟨o, o1, o2, o3, -⟩ := g2.obj
  have hk : loadInt st1.heap o.Key = some ((bigEndian body : Nat) : Int) := (congrArg PrivateKey.Key o2).trans hkey
  have hn1 : loadNet st1.heap o.Network = some net := by rw [o3]; exact g3.heap.net _ _ hn
  obtain ⟨q, st2, a, st3, k1, k2, k3, -⟩ := text_chain hE hV hC g4 hB hv o1 hk hn1 h1 h2 c
  exact ⟨p, q, a, st1, st2, st3, g1, k1, k2, k3⟩

attribute [local irreducible] generateRandomBigInt in
/-- C110: the text of `GeneratePrivateKey`, with any random source, either panics because the source fails, or returns a
key of which the text of `GetPublicKey` and `Address` compute the address. -/
theorem C110_address_of_generated (c : Bool) :
    (∃ st1, (Request.generatePrivateKey network).Ends H E st (.panic (.explicit .randRead) st1)) ∨
    ∃ (k : Nat) (p q : Ptr) (a : GoString) (st1 st2 st3 : State), 1 ≤ k ∧ k < Spec.n ∧
      (Request.generatePrivateKey network).Ends H E st (.ok [.priv p] st1) ∧ st1.rd <:+ st.rd ∧
      (Request.getPublicKey p).Ends H E st1 (.ok [.pub q, .bool true] st2) ∧
      (Request.address q c).Ends H E st2 (.ok [.str a, .err none] st3) ∧ IsAddressOf H B v c k a := by
  obtain ⟨out, g1, g2⟩ := C108_generatePrivateKey H E hE st network
  rw [hn] at g2
  rcases C14_only_source_failure H net st.rd with ⟨⟨key, rd⟩, e⟩ | e
  · right
    rw [e] at g2
    obtain ⟨p, st1, rfl, g3, g4⟩ := g2
    obtain ⟨k, k1, k2, k3, -, -, -, -, k4⟩ := C14_generated_valid H st.rd rd net key e
    obtain ⟨o, o1, o2, o3, -⟩ := g3.obj
    have hk : loadInt st1.heap o.Key = some (k : Int) := (congrArg PrivateKey.Key o2).trans k1
    have hn1 : loadNet st1.heap o.Network = some net := by rw [o3]; exact g4.heap.net _ _ hn
    have hk1 : 1 ≤ k := le_trans (Nat.one_le_pow _ _ (by decide)) k2
    have hk2 : k < Spec.n := lt_of_le_of_lt k3 (by decide +kernel)
    obtain ⟨q, st2, a, st3, j1, j2, j3, -⟩ := text_chain hE hV hC (hs.call _ g1 rfl) hB hv o1 hk hn1 hk1 hk2 c
    exact ⟨k, p, q, a, st1, st2, st3, hk1, hk2, g1, by rw [g4.rd]; exact k4, j1, j2, j3⟩
  · left
    rw [e] at g2
    obtain ⟨st1, rfl, -⟩ := g2
    exact ⟨st1, g1⟩

end

/-- The state after `init`, with networks of the program's own. -/
def Samples.started (rd : Reader) (nets : List Network) : State :=
  { ready rd with heap := { (ready rd).heap with nets := (ready rd).heap.nets ++ nets } }

/-- The sample session: the program has just started. -/
theorem session_start (H : Hashes) (E : EcdsaM) (rd : Reader) (nets : List Network) : Session H E nets (Samples.started rd nets) :=
  .start (ends_init rd)

/-- The private key 1 and the compressed address of the generator. -/
example : ∃ p q a st1 st2 st3,
    (Request.privateFromHex (asc "01") (some 0)).Ends realHashes (EcdsaM.ofValue EC.ref) (Samples.started [] []) (.ok [.priv p, .err none] st1) ∧
    (Request.getPublicKey p).Ends realHashes (EcdsaM.ofValue EC.ref) st1 (.ok [.pub q, .bool true] st2) ∧
    (Request.address q true).Ends realHashes (EcdsaM.ofValue EC.ref) st2 (.ok [.str a, .err none] st3) ∧
    IsAddressOf realHashes EC.G 0x00 true 1 a :=
  C110_address_of_hex realHashes _ _ refPkg.1 refPkg.2.1 refPkg.2.2 _ _ (session_start _ _ [] []) EC.G EC.G_coords (some 0) MainNetwork rfl
    0x00 mainPrefix [0x80] (hexDecode_eq_ok.1 (by decide +kernel)) (asc "01") [1] (hexDecode_eq_ok.1 (by decide +kernel)) (by decide)
    (by decide +kernel) true

/-! ## C111 -/

/-- C111 (C52 on the text). Whatever it is given, the text of `NewSeedFromMnemonic` never returns a seed: the first result
is the nil slice. -/
theorem C111_no_seed (H : Hashes) (E : EcdsaM) (st st' : State) (mn pa : GoString) (wl : Option (List GoString)) (vs : List Value)
    (h : (Request.newSeedFromMnemonic mn pa wl).Ends H E st (.ok vs st')) : ∃ e, vs = [.nil, .err e] := by
  obtain ⟨o, h1, h2⟩ := C108_newSeedFromMnemonic H E st mn pa wl
  obtain rfl := h1.unique h
  have hn := C52_seed_always_nil H mn pa wl
  rcases hx : newSeedFromMnemonic H mn pa wl with ⟨(_ | b) | e | p, log⟩ <;> rw [hx] at h2 hn
  · obtain ⟨s, e, -⟩ := h2
    cases e
    exact ⟨_, rfl⟩
  · cases hn _ rfl
  · obtain ⟨s, e, -⟩ := h2
    cases e
    exact ⟨_, rfl⟩
  · obtain ⟨s, e, -⟩ := h2
    cases e

set_option linter.constructorNameAsVariable false in
/-- C111 (C53 on the text). There are 32 random bytes for which the text of `NewMnemonic` returns 24 words which the text of
`NewSeedFromMnemonic` refuses. -/
theorem C111_own_phrase_refused (E : EcdsaM) : ∃ (rd : Reader) (phrase : GoString) (st1 st2 : State),
    Session realHashes E [] (Samples.started rd []) ∧
    (Request.newMnemonic 24 (some EnglishWordlist)).Ends realHashes E (Samples.started rd []) (.ok [.str phrase, .err none] st1) ∧
    (Request.newSeedFromMnemonic phrase [] (some EnglishWordlist)).Ends realHashes E st1
      (.ok [.nil, .err (some .invalidChecksum)] st2) := by
  obtain ⟨rd, phrase, h1, h2⟩ := C53_accepted_back_violated
  obtain ⟨o, g1, g2⟩ := C108_newMnemonic realHashes E (Samples.started rd []) 24 (some EnglishWordlist)
  have h1' : newMnemonic realHashes (Samples.started rd []).rd 24 (some EnglishWordlist) = .ok (phrase, []) := h1
  rw [h1'] at g2
  obtain ⟨st1, rfl, -⟩ := g2
  obtain ⟨o2, k1, k2⟩ := C108_newSeedFromMnemonic realHashes E st1 phrase [] (some EnglishWordlist)
  rcases hx : newSeedFromMnemonic realHashes phrase [] (some EnglishWordlist) with ⟨x, log⟩
  rw [hx] at h2 k2
  obtain rfl : x = .err .invalidChecksum := h2
  obtain ⟨st2, rfl, -⟩ := k2
  exact ⟨rd, phrase, st1, st2, session_start _ _ _ _, g1, k1⟩

/-- C111 (C53 on the text). Phrases of 15, 18 or 21 words made by the text of `NewMnemonic` make the text of
`NewSeedFromMnemonic` panic; those of 12 words are refused. -/
theorem C111_short_phrases (H : Hashes) (E : EcdsaM) (st st1 st2 : State) (n : Nat) (wl : List GoString) (hwl : IsWordlist wl)
    (phrase pa : GoString) (h : (Request.newMnemonic n (some wl)).Ends H E st (.ok [.str phrase, .err none] st1)) :
    (n = 12 → ∃ st3, (Request.newSeedFromMnemonic phrase pa (some wl)).Ends H E st2 (.ok [.nil, .err (some .hexLength)] st3)) ∧
    (n = 15 ∨ n = 18 ∨ n = 21 →
      ∃ st3, (Request.newSeedFromMnemonic phrase pa (some wl)).Ends H E st2 (.panic .indexRange st3)) := by
  obtain ⟨o, g1, g2⟩ := C108_newMnemonic H E st n (some wl)
  obtain rfl := g1.unique h
  obtain ⟨rd, hm⟩ : ∃ rd, newMnemonic H st.rd n (some wl) = .ok (phrase, rd) := by
    rcases hx : newMnemonic H st.rd n (some wl) with ⟨s, rd⟩ | e | p <;> rw [hx] at g2
    · obtain ⟨s', e, -⟩ := g2
      cases e
      exact ⟨rd, rfl⟩
    · obtain ⟨s', e, -⟩ := g2
      cases e
    · obtain ⟨s', e, -⟩ := g2
      cases e
  obtain ⟨o2, k1, k2⟩ := C108_newSeedFromMnemonic H E st2 phrase pa (some wl)
  obtain ⟨c1, c2⟩ := C53_short_phrases_never_accepted H st.rd rd n wl phrase pa hwl hm
  rcases hx : newSeedFromMnemonic H phrase pa (some wl) with ⟨x, log⟩
  rw [hx] at k2 c1 c2
  constructor
  · intro hn
    obtain rfl : x = .err .hexLength := c1 hn
    obtain ⟨st3, rfl, -⟩ := k2
    exact ⟨st3, k1⟩
  · intro hn
    obtain rfl : x = .panic .indexRange := c2 hn
    obtain ⟨st3, rfl, -⟩ := k2
    exact ⟨st3, k1⟩

/-- C111 (C54 on the text). The lines which the text of `NewSeedFromMnemonic` adds to the log determine the phrase. -/
theorem C111_log_reveals (wl : List GoString) (hwl : IsWordlist wl) (H : Hashes) : ∃ recover : Log → GoString,
    ∀ (E : EcdsaM) (st : State) (ws : List GoString) (pa : GoString), ws ≠ [] → (∀ w ∈ ws, w ∈ wl) → ws.length % 4 = 0 →
      ∃ o st', (Request.newSeedFromMnemonic (phraseText ws) pa (some wl)).Ends H E st o ∧ o.state? = some st' ∧
        recover (st'.log.drop st.log.length) = phraseText ws := by
  obtain ⟨recover, hr⟩ := C54_not_logged_violated H wl hwl
  refine ⟨recover, fun E st ws pa hne hw h4 => ?_⟩
  obtain ⟨o, h1, h2⟩ := C108_newSeedFromMnemonic H E st (phraseText ws) pa (some wl)
  have hr' := hr ws pa hne hw h4
  rcases hx : newSeedFromMnemonic H (phraseText ws) pa (some wl) with ⟨(_ | b) | e | p, log⟩ <;>
  · rw [hx] at h2 hr'
    obtain ⟨st', rfl, hq⟩ := h2
    refine ⟨_, st', h1, rfl, ?_⟩
    rw [hq.log, List.drop_left]
    exact hr'

/-- C111 (C20 on the text). The keys 2 and 3, imported by the text, cannot be added by the text: the sum has an odd
number of digits. -/
theorem C111_sum_refused (H : Hashes) (E : EcdsaM) (hE : Pkg E) (nets : List Network) (st : State) (hs : Session H E nets st) :
    ∃ p1 p2 e st1 st2 st3, (Request.privateFromHex Samples.hex2 (some 0)).Ends H E st (.ok [.priv p1, .err none] st1) ∧
      (Request.privateFromHex Samples.hex3 (some 0)).Ends H E st1 (.ok [.priv p2, .err none] st2) ∧
      (Request.addPrivateKeys p1 p2).Ends H E st2 (.ok [.priv none, .err (some e)] st3) := by
  obtain ⟨⟨a, _, ha, _⟩, _⟩ := C11_wif_shape H Samples.hex2 (by decide +kernel) (by decide +kernel)
  obtain ⟨⟨b, _, hb, _⟩, _⟩ := C11_wif_shape H Samples.hex3 (by decide +kernel) (by decide +kernel)
  have e1 : bigSetString Samples.hex2 16 = some ((2 : Nat) : Int) := by decide +kernel
  have e2 : bigSetString Samples.hex3 16 = some ((3 : Nat) : Int) := by decide +kernel
  have ka : a.Key = some ((2 : Nat) : Int) := by
    obtain ⟨_, _, x, _, rfl⟩ := (privateFromHex_eq_ok H).1 ha; exact e1
  have kb : b.Key = some ((3 : Nat) : Int) := by
    obtain ⟨_, _, x, _, rfl⟩ := (privateFromHex_eq_ok H).1 hb; exact e2
  have na := (C01_wif_is_base58check H _ MainNetwork a ha).2.2.1
  have nb := (C01_wif_is_base58check H _ MainNetwork b hb).2.2.1
  have hnet : ∀ s : State, Session H E nets s → loadNet s.heap (some 0) = some MainNetwork := fun s hs => by
    rw [loadNet_grow (hs.sound hE).grow]; rfl
  have hr := C108_privateFromHex H E hE st Samples.hex2 (some 0)
  rw [hnet st hs] at hr
  obtain ⟨p1, st1, g1, g2, -, g4⟩ := ends_ok ha hr hs
  have hr := C108_privateFromHex H E hE st1 Samples.hex3 (some 0)
  rw [hnet st1 g4] at hr
  obtain ⟨p2, st2, k1, k2, k3, k4⟩ := ends_ok hb hr g4
  obtain ⟨o1, l1, l2, -⟩ := g2.obj
  obtain ⟨o2, m1, m2, -⟩ := k2.obj
  have l1' := k3.heap.priv _ _ l1
  have l2' : privValue st2.heap o1 = a := by
    have i1 : loadInt st1.heap o1.Key = some ((2 : Nat) : Int) := (congrArg PrivateKey.Key l2).trans ka
    have i2 : loadNet st1.heap o1.Network = some MainNetwork := (congrArg PrivateKey.Network l2).trans na
    rw [← l2]
    simp only [privValue, i1, i2, k3.heap.int _ _ i1, k3.heap.net _ _ i2]
  obtain ⟨o, h1, h2⟩ := C108_addPrivateKeys H E hE nets st2 k4 p1 p2 o1 o2 l1' m1
  rw [l2', m2] at h2
  have hne := combine_odd_fails H (· + ·) _ _ 2 3 a b ha hb e1 e2 (by decide +kernel)
  obtain ⟨e, he⟩ : ∃ e, addPrivateKeys H a b = .err e := by
    by_cases hw : H.toLower a.WIF = H.toLower b.WIF
    · exact ⟨_, by simp [addPrivateKeys, hw, na, nb]; rfl⟩
    · have hp : Spells MainNetwork.PrivKeyPrefix [0x80] := hexDecode_eq_ok.1 (by decide +kernel)
      exact ⟨_, (combine_outcome H (· + ·) hp na nb ka kb hw).2 fun ⟨k, hk⟩ => hne k hk⟩
  rw [he] at h2
  obtain ⟨st3, rfl, -⟩ := h2
  exact ⟨p1, p2, e, st1, st2, st3, g1, k1, h1⟩

/-! ## Concrete cases

One session with four keys of the program's own; the theorems above are applied to it. -/

namespace Samples

/-- Four numbers, two private and two public keys, made by the program after `init`. -/
def stocked (rd : Reader) : State :=
  let h := (started rd []).heap
  { started rd [] with heap := { h with
      ints := h.ints ++ [0x8613DFD6C099751DCC4020EF6F9BCD3C00F4565A15B26979B4B93C045D0A5CEB] ++
        [0xaef29c9770a9f6b9da86e37fc12a334eeffb02f967a55ba125deb77736ee3fc1] ++ [(gx : Int)] ++ [(gy : Int)]
      privs := h.privs ++ [⟨some h.ints.length, hexA, wifA, some 0⟩] ++ [⟨some (h.ints.length + 1), hexB, wifB, some 0⟩]
      pubs := h.pubs ++ [⟨some (h.ints.length + 2), some (h.ints.length + 3), some 0⟩] ++ [⟨none, none, some 0⟩] } }

theorem stocked_session (H : Hashes) (E : EcdsaM) (rd : Reader) : Session H E [] (stocked rd) := by
  have h0 := (((session_start H E rd []).int 0x8613DFD6C099751DCC4020EF6F9BCD3C00F4565A15B26979B4B93C045D0A5CEB).int
    0xaef29c9770a9f6b9da86e37fc12a334eeffb02f967a55ba125deb77736ee3fc1).int (gx : Int) |>.int (gy : Int)
  have h1 := h0.priv ⟨some (started rd []).heap.ints.length, hexA, wifA, some 0⟩ (fun a ha => by cases ha; simp)
  have h2 := h1.priv ⟨some ((started rd []).heap.ints.length + 1), hexB, wifB, some 0⟩ (fun a ha => by cases ha; simp)
  have h3 := h2.pub ⟨some ((started rd []).heap.ints.length + 2), some ((started rd []).heap.ints.length + 3), some 0⟩
    (fun a ha => by cases ha; simp) (fun a ha => by cases ha; simp)
  exact h3.pub ⟨none, none, some 0⟩ (fun a ha => by cases ha) (fun a ha => by cases ha)

/-- The curve package of the samples. -/
abbrev pkg : EcdsaM := EcdsaM.ofValue EC.ref

end Samples

open Samples

set_option linter.constructorNameAsVariable false

/-- C107: the parameters, with keys in memory. -/
example : curveValue (stocked []).heap =
    ⟨some 0, some 7, ⟨some (Spec.gx : Int), some (Spec.gy : Int)⟩, some (Spec.p : Int), some (Spec.n : Int), some 1⟩ :=
  (C107_parameters_stay realHashes pkg refPkg.1 [] (stocked []) (stocked_session _ _ _)).1

/-- C108: a WIF is accepted. -/
example : ∃ st', (Request.checkWIF wifA).Ends realHashes pkg (stocked []) (.ok [.bool true] st') ∧ Quiet (stocked []) st' := by
  obtain ⟨o, h1, h2⟩ := C108_checkWIF realHashes pkg refPkg.1 (stocked []) wifA
  rw [checkA] at h2
  obtain ⟨a, st', rfl, rfl, h⟩ := h2
  exact ⟨st', h1, h⟩

/-- C108: a WIF is imported. -/
example : ∃ p st', (Request.privateFromWIF wifB (some 0)).Ends realHashes pkg (stocked []) (.ok [.priv p, .err none] st') ∧
    NewPriv (stocked []).heap (some 0) p keyB st'.heap := by
  obtain ⟨o, h1, h2⟩ := C108_privateFromWIF realHashes pkg refPkg.1 (stocked []) wifB (some 0)
  rw [show loadNet (stocked []).heap (some 0) = some MainNetwork from rfl, fromWifB] at h2
  obtain ⟨a, st', rfl, h, -⟩ := h2
  exact ⟨a, st', h1, h⟩

/-- C108: hexadecimal text is imported for the test network. -/
example : ∃ p st', (Request.privateFromHex hexT (some 1)).Ends realHashes pkg (stocked []) (.ok [.priv p, .err none] st') ∧
    NewPriv (stocked []).heap (some 1) p keyT st'.heap := by
  obtain ⟨o, h1, h2⟩ := C108_privateFromHex realHashes pkg refPkg.1 (stocked []) hexT (some 1)
  rw [show loadNet (stocked []).heap (some 1) = some TestNetwork from rfl, fromHexT] at h2
  obtain ⟨a, st', rfl, h, -⟩ := h2
  exact ⟨a, st', h1, h⟩

/-- C108: the two private keys in memory are added and multiplied. -/
example := C108_addPrivateKeys realHashes pkg refPkg.1 [] (stocked []) (stocked_session _ _ _) (some 0) (some 1) _ _ rfl rfl

example := C108_multiplyPrivateKeys realHashes pkg refPkg.1 [] (stocked []) (stocked_session _ _ _) (some 0) (some 1) _ _ rfl rfl

/-- C108: text of a public key. -/
example := C108_publicFromHex realHashes pkg EC.ref refPkg.1 refPkg.2.1 [] (stocked []) (stocked_session _ _ _) (asc "02ff") (some 0)

/-- C108: the public key of the first private key in memory. -/
example := C108_getPublicKey realHashes pkg EC.ref refPkg.1 refPkg.2.1 [] (stocked []) (stocked_session _ _ _) (some 0) _ rfl

/-- C108: the two public keys in memory. The second has no coordinates: the text panics, as the model says. -/
example : ∃ st', (Request.addPublicKeys (some 0) (some 1) true).Ends realHashes pkg (stocked []) (.panic .nilDeref st') ∧
    Quiet (stocked []) st' := by
  obtain ⟨o, h1, h2⟩ := C108_addPublicKeys realHashes pkg EC.ref refPkg.1 refPkg.2.1 [] (stocked []) (stocked_session _ _ _)
    (some 0) (some 1) _ _ rfl rfl true
  obtain ⟨st', rfl, h⟩ := h2
  exact ⟨st', h1, h⟩

/-- C108: the first public key in memory is the generator. -/
example := C108_format realHashes pkg refPkg.1 (stocked []) (some 0) _ rfl true

example := C108_address realHashes pkg refPkg.1 (stocked []) (some 0) _ rfl true

attribute [local irreducible] generateRandomBigInt in
/-- C108: whatever the random source is. -/
example (rd : Reader) := C108_generatePrivateKey realHashes pkg refPkg.1 (stocked rd) (some 0)

/-- C108: a phrase from 32 bytes of entropy. -/
example : ∃ st', (Request.newMnemonic 24 (some EnglishWordlist)).Ends realHashes pkg (stocked ent32)
    (.ok [.str phrase32, .err none] st') := by
  obtain ⟨o, h1, h2⟩ := C108_newMnemonic realHashes pkg (stocked ent32) 24 (some EnglishWordlist)
  have e : newMnemonic realHashes (stocked ent32).rd 24 (some EnglishWordlist) = .ok (phrase32, []) := new32
  rw [e] at h2
  obtain ⟨st', rfl, h⟩ := h2
  exact ⟨st', h1⟩

/-- C108: the phrase of the repository's test is accepted, without a seed. -/
example : ∃ st', (Request.newSeedFromMnemonic phraseA [] (some EnglishWordlist)).Ends realHashes pkg (stocked [])
    (.ok [.nil, .err none] st') := by
  obtain ⟨o, h1, h2⟩ := C108_newSeedFromMnemonic realHashes pkg (stocked []) phraseA [] (some EnglishWordlist)
  have e := seedA
  rcases hx : newSeedFromMnemonic realHashes phraseA [] (some EnglishWordlist) with ⟨x, log⟩
  rw [hx] at h2 e
  obtain rfl : x = .ok none := e
  obtain ⟨st', rfl, h⟩ := h2
  exact ⟨st', h1⟩

/-- C108: nil keys. -/
example : ∃ st', Quiet (stocked []) st' ∧ (Request.format none true).Ends realHashes pkg (stocked []) (.panic .nilDeref st') :=
  (C108_nil realHashes pkg (stocked []) refPkg.1 none none true).2.2.2.2.1 rfl

/-- C109: a call on keys in memory. -/
example := C109_ends realHashes pkg refPkg.1 (.addPrivateKeys (some 0) (some 1)) (stocked [])

/-- C109: an exported method with its receiver. -/
example : ∃ r : Request, r.recv = id! "PublicKey" ∧ r.name = id! "Format" ∧ r.args = [.pub none, .bool true] := by
  refine C109_all_calls _ _ [tBool] [tString] _ (by rw [C106_functions]; decide) (by constructor <;> decide +kernel) ?_
  rw [if_neg (by decide)]
  exact .cons (by simp [HasType]) (.cons (by simp [HasType]) .nil)

/-- C110: from a WIF. -/
example : ∃ p q a st1 st2 st3,
    (Request.privateFromWIF wifA (some 0)).Ends realHashes pkg (stocked []) (.ok [.priv p, .err none] st1) ∧
    (Request.getPublicKey p).Ends realHashes pkg st1 (.ok [.pub q, .bool true] st2) ∧
    (Request.address q false).Ends realHashes pkg st2 (.ok [.str a, .err none] st3) ∧
    IsAddressOf realHashes EC.G 0x00 false 0x8613DFD6C099751DCC4020EF6F9BCD3C00F4565A15B26979B4B93C045D0A5CEB a := by
  obtain ⟨body, hb, hw, hk⟩ := C01_wif_bytes realHashes hexA MainNetwork _ [0x80] (hexDecode_eq_ok.1 (by decide +kernel)) fromHexA
  have e : bigEndian body = 0x8613DFD6C099751DCC4020EF6F9BCD3C00F4565A15B26979B4B93C045D0A5CEB :=
    (Int.ofNat.inj (Option.some.inj (hk (by decide +kernel)))).symm
  rw [← e]
  exact C110_address_of_wif realHashes pkg EC.ref refPkg.1 refPkg.2.1 refPkg.2.2 [] (stocked []) (stocked_session _ _ _) EC.G EC.G_coords
    (some 0) MainNetwork rfl 0x00 mainPrefix wifA 0x80 body hw (by rw [e]; decide) (by rw [e]; decide +kernel) false

attribute [local irreducible] generateRandomBigInt in
/-- C110: generated keys. -/
example (rd : Reader) := C110_address_of_generated realHashes pkg EC.ref refPkg.1 refPkg.2.1 refPkg.2.2 [] (stocked rd)
  (stocked_session _ _ _) EC.G EC.G_coords (some 0) MainNetwork rfl 0x00 mainPrefix true

/-- C111: no seed, for the phrase of the repository's test. -/
example (st' : State) (vs : List Value) (h : (Request.newSeedFromMnemonic phraseA [] (some EnglishWordlist)).Ends realHashes pkg
    (stocked []) (.ok vs st')) : ∃ e, vs = [.nil, .err e] := C111_no_seed _ _ _ _ _ _ _ _ h

/-- C111: the log line of two four-word phrases. -/
example := C111_log_reveals EnglishWordlist english realHashes

/-- C111: on the sample session. -/
example := C111_sum_refused realHashes pkg refPkg.1 [] (stocked []) (stocked_session _ _ _)

/-- C111: fifteen words. -/
example : ∃ st1 st3, (Request.newMnemonic (15 : Nat) (some EnglishWordlist)).Ends realHashes pkg (stocked (List.replicate 20 255))
      (.ok [.str (asc "soup zoo zoo zoo zoo zoo zoo zoo zoo zoo zoo zoo zoo zoo zoo"), .err none] st1) ∧
    (Request.newSeedFromMnemonic (asc "soup zoo zoo zoo zoo zoo zoo zoo zoo zoo zoo zoo zoo zoo zoo") [] (some EnglishWordlist)).Ends
      realHashes pkg st1 (.panic .indexRange st3) := by
  obtain ⟨o, h1, h2⟩ := C108_newMnemonic realHashes pkg (stocked (List.replicate 20 255)) (15 : Nat) (some EnglishWordlist)
  have e : newMnemonic realHashes (stocked (List.replicate 20 255)).rd (15 : Nat) (some EnglishWordlist) =
      .ok (asc "soup zoo zoo zoo zoo zoo zoo zoo zoo zoo zoo zoo zoo zoo zoo", []) := by
    show newMnemonic realHashes (List.replicate 20 255) 15 _ = _
    decide +kernel
  rw [e] at h2
  obtain ⟨st1, rfl, -⟩ := h2
  obtain ⟨st3, h3⟩ := (C111_short_phrases realHashes pkg _ st1 st1 15 EnglishWordlist english _ [] h1).2 (.inl rfl)
  exact ⟨st1, st3, h1, h3⟩

