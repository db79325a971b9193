import Verif.Conc.Prog

/-!
# Run alone, the programs are the functions of `Verif/Heap/Model.lean`
-/

namespace Btc.Mem

open Prog

theorem run_lift {α : Type} (r : Res α) : (liftP r).run = Mem.lift r := rfl

theorem run_onErr {α β : Type} (x : Prog α) (y : Prog β) (f : α → Prog β) :
    (onErrP x y f).run = Mem.onErr x.run y.run fun a => (f a).run := by
  funext h
  refine (run_next f (fun _ => y) x h).trans ?_
  unfold Mem.onErr
  rcases x.run h with ⟨r, h'⟩
  cases r <;> rfl

theorem run_newInt (v : Int) : (newIntP v).run = Mem.newInt v := rfl

theorem run_loadInt (p : Ptr) : (loadIntP p).run = fun h => (.ok (loadInt h p), h) := by cases p <;> rfl

theorem run_loadNet (p : Ptr) : (loadNetP p).run = deepNet p := by cases p <;> rfl

theorem run_readInt (p : Ptr) : (readIntP p).run = readInt p := by
  rw [readIntP, run_bind, run_loadInt]
  rfl

theorem run_readNet (p : Ptr) : (readNetP p).run = readNet p := by
  rw [readNetP, run_bind, run_loadNet]
  rfl

/-- Read one field of a private key. -/
def fieldPriv {α : Type} (p : Ptr) (f : PrivObj → α) : HM α := fun h => (deref ((loadPriv h p).map f), h)

/-- Read one field of a public key. -/
def fieldPub {α : Type} (p : Ptr) (f : PubObj → α) : HM α := fun h => (deref ((loadPub h p).map f), h)

theorem run_privField {α : Type} (p : Ptr) (f : PrivObj → α) : (privFieldP p f).run = fieldPriv p f := by
  cases p <;> rfl

theorem run_pubField {α : Type} (p : Ptr) (f : PubObj → α) : (pubFieldP p f).run = fieldPub p f := by
  cases p <;> rfl

theorem run_readCurve : readCurveP.run = readCurve := rfl

theorem run_writeInt (p : Ptr) (v : Int) : (writeIntP p v).run = Mem.writeInt p v := by cases p <;> rfl

theorem run_newPriv : newPrivP.run = Mem.newPriv := rfl

theorem run_updPriv (a : Nat) (f : PrivObj → PrivObj) : (updPrivP a f).run = Mem.updPriv a f := rfl

theorem run_newPub : newPubP.run = Mem.newPub := rfl

theorem run_updPub (a : Nat) (f : PubObj → PubObj) : (updPubP a f).run = Mem.updPub a f := rfl

theorem run_bigAdd (z x y : Ptr) : (bigAddP z x y).run = bigAdd z x y := by
  simp only [bigAddP, run_bind, run_readInt, run_writeInt, run_pure]
  rfl

theorem run_bigMul (z x y : Ptr) : (bigMulP z x y).run = bigMul z x y := by
  simp only [bigMulP, run_bind, run_readInt, run_writeInt, run_pure]
  rfl

theorem run_ite {α : Type} {c : Prop} [Decidable c] (x y : Prog α) :
    (if c then x else y).run = if c then x.run else y.run := by split <;> rfl

theorem run_bigMod (z x y : Ptr) : (bigModP z x y).run = bigMod z x y := by
  simp only [bigModP, run_bind, run_readInt, run_ite, run_lift, run_writeInt, run_pure]
  rfl

theorem run_bigSet (z x : Ptr) : (bigSetP z x).run = bigSet z x := by
  simp only [bigSetP, run_bind, run_readInt, run_writeInt, run_pure]
  rfl

theorem run_newSetString (s : GoString) (base : Nat) : (newSetStringP s base).run = newSetString s base := by
  unfold newSetStringP newSetString
  rw [run_bind, run_newInt]
  cases bigSetString s base with
  | none => rfl
  | some v => simp only [run_bind, run_writeInt, run_pure]

theorem run_bigIntToHex (p : Ptr) : (bigIntToHexP p).run = bigIntToHexM p := by
  rw [bigIntToHexP, run_bind, run_loadInt]
  rfl

variable (H : Hashes)

theorem run_privateFromHex (hexa : GoString) (network : Ptr) :
    (privateFromHexP H hexa network).run = privateFromHexM H hexa network := by
  simp only [privateFromHexP, run_bind, run_newPriv, run_newSetString, run_updPriv, run_readNet, run_lift, run_pure]
  rfl

theorem run_privateFromWIF (wif : GoString) (network : Ptr) :
    (privateFromWIFP H wif network).run = privateFromWIFM H wif network := by
  simp only [privateFromWIFP, run_bind, run_ite, run_newPriv, run_newSetString, run_updPriv, run_lift, run_pure]
  rfl

theorem run_generateLoop (draw : Reader → Res (Nat × Reader)) (network : Ptr) : ∀ (fuel : Nat) (rd : Reader),
    (generateLoopP H draw network fuel rd).run = generateLoopM H draw network fuel rd
  | 0, _ => rfl
  | fuel + 1, rd => by
    unfold generateLoopP generateLoopM generateRandomBigIntP generateRandomBigIntM
    simp only [run_bind, run_newSetString, run_lift, run_newInt, run_pure, run_bigIntToHex, run_ite, run_onErr,
      run_privateFromHex, run_generateLoop draw network fuel]
    congr 1
    funext r
    congr 1
    funext hexa
    congr 2
    funext q
    cases q <;> rfl

theorem run_generate (rd : Reader) (network : Ptr) :
    (generatePrivateKeyP H rd network).run = generatePrivateKeyM H rd network := run_generateLoop H _ _ _ _

theorem bind_read {α β : Type} {x : HM α} {f : α → HM β} {h : Heap} {a : α} (hx : x h = (.ok a, h)) :
    (x >>= f) h = f a h := by rw [bind_run, hx]

theorem bind_read_panic {α β : Type} {x : HM α} {f : α → HM β} {h : Heap} {e : GoPanic}
    (hx : x h = (.panic e, h)) : (x >>= f) h = (.panic e, h) := by rw [bind_run, hx]

theorem bind_congr' {α β : Type} {x : HM α} {f g : α → HM β} {h : Heap}
    (hfg : ∀ a h', x h = (.ok a, h') → f a h' = g a h') : (x >>= f) h = (x >>= g) h := by
  rw [bind_run, bind_run]
  rcases hx : x h with ⟨r, h'⟩
  cases r with
  | ok a => exact hfg a h' hx
  | err e => rfl
  | panic p => rfl

/-- The objects in memory are those of `h`. -/
def SameObjs (h h' : Heap) : Prop := h'.privs = h.privs ∧ h'.pubs = h.pubs

theorem writeInt_same {p : Ptr} {v : Int} {h h' : Heap} {u : Unit} (hw : Mem.writeInt p v h = (.ok u, h')) :
    SameObjs h h' := by
  unfold Mem.writeInt at hw
  cases p with
  | none => cases hw
  | some a =>
    simp only at hw
    split at hw <;> cases hw
    exact ⟨rfl, rfl⟩

theorem readInt_same {p : Ptr} {v : Int} {h h' : Heap} (hw : readInt p h = (.ok v, h')) : h' = h := by
  have := congrArg Prod.snd hw
  exact this.symm

theorem bind_ok {α β : Type} {x : HM α} {f : α → HM β} {h h' : Heap} {b : β} (hb : (x >>= f) h = (.ok b, h')) :
    ∃ a h1, x h = (.ok a, h1) ∧ f a h1 = (.ok b, h') := by
  rw [bind_run] at hb
  rcases hx : x h with ⟨r, h1⟩
  rw [hx] at hb
  cases r with
  | ok a => exact ⟨a, h1, rfl, hb⟩
  | err e => cases hb
  | panic p => cases hb

theorem binop_same {op : Int → Int → Int} {z x y r : Ptr} {h h' : Heap}
    (hw : (do let a ← readInt x; let b ← readInt y; writeInt z (op a b); pure z : HM Ptr) h = (.ok r, h')) :
    SameObjs h h' := by
  obtain ⟨a, h1, e1, hw⟩ := bind_ok hw
  obtain ⟨b, h2, e2, hw⟩ := bind_ok hw
  obtain ⟨u, h3, e3, hw⟩ := bind_ok hw
  cases hw
  rw [readInt_same e2, readInt_same e1] at e3
  exact writeInt_same e3

theorem bigMod_same {z x y r : Ptr} {h h' : Heap} (hw : bigMod z x y h = (.ok r, h')) : SameObjs h h' := by
  obtain ⟨a, h1, e1, hw⟩ := bind_ok hw
  obtain ⟨b, h2, e2, hw⟩ := bind_ok hw
  split at hw
  · cases hw
  · obtain ⟨u, h3, e3, hw⟩ := bind_ok hw
    cases hw
    rw [readInt_same e2, readInt_same e1] at e3
    exact writeInt_same e3

theorem privField_some {α : Type} {p : Ptr} {f : PrivObj → α} {h : Heap} {o : PrivObj}
    (ho : loadPriv h p = some o) : fieldPriv p f h = (.ok (f o), h) := by
  simp [fieldPriv, ho, deref]

theorem privField_none {α : Type} {p : Ptr} {f : PrivObj → α} {h : Heap}
    (ho : loadPriv h p = none) : fieldPriv p f h = (.panic .nilDeref, h) := by
  simp [fieldPriv, ho, deref]

theorem pubField_some {α : Type} {p : Ptr} {f : PubObj → α} {h : Heap} {o : PubObj}
    (ho : loadPub h p = some o) : fieldPub p f h = (.ok (f o), h) := by
  simp [fieldPub, ho, deref]

theorem pubField_none {α : Type} {p : Ptr} {f : PubObj → α} {h : Heap}
    (ho : loadPub h p = none) : fieldPub p f h = (.panic .nilDeref, h) := by
  simp [fieldPub, ho, deref]

theorem readPriv_some {p : Ptr} {h : Heap} {o : PrivObj} (ho : loadPriv h p = some o) :
    readPriv p h = (.ok o, h) := by simp [readPriv, ho, deref]

theorem readPriv_none {p : Ptr} {h : Heap} (ho : loadPriv h p = none) : readPriv p h = (.panic .nilDeref, h) := by
  simp [readPriv, ho, deref]

theorem readPub_some {p : Ptr} {h : Heap} {o : PubObj} (ho : loadPub h p = some o) :
    readPub p h = (.ok o, h) := by simp [readPub, ho, deref]

theorem readPub_none {p : Ptr} {h : Heap} (ho : loadPub h p = none) : readPub p h = (.panic .nilDeref, h) := by
  simp [readPub, ho, deref]

theorem deepNet_run (p : Ptr) (h : Heap) : deepNet p h = (.ok (loadNet h p), h) := rfl

theorem bigIntToHex_run (p : Ptr) (h : Heap) : bigIntToHexM p h = (.ok (bigIntToHex (loadInt h p)), h) := rfl

theorem run_combine (op : Int → Int → Int) (opM : Ptr → Ptr → Ptr → HM Ptr)
    (hop : ∀ z x y, opM z x y = do let a ← readInt x; let b ← readInt y; writeInt z (op a b); pure z)
    (p1 p2 : Ptr) :
    (do
      let m1 ← fieldPriv p1 (·.Network)
      let m2 ← fieldPriv p2 (·.Network)
      let n1 ← deepNet m1
      let n2 ← deepNet m2
      if n1 ≠ n2 then Mem.lift (.err .differentNetwork)
      else do
        let w1 ← fieldPriv p1 (·.WIF)
        let w2 ← fieldPriv p2 (·.WIF)
        if H.toLower w1 = H.toLower w2 then Mem.lift (.err .identicalKeys)
        else do
          let pKey ← Mem.newInt 0
          let k1 ← fieldPriv p1 (·.Key)
          let k2 ← fieldPriv p2 (·.Key)
          let pKey ← opM pKey k1 k2
          let curve ← readCurve
          let pKey ← bigMod pKey pKey curve.N
          let hexa ← bigIntToHexM pKey
          let m ← fieldPriv p1 (·.Network)
          privateFromHexM H hexa m : HM Ptr) =
    (do
      let o1 ← readPriv p1
      let o2 ← readPriv p2
      let n1 ← deepNet o1.Network
      let n2 ← deepNet o2.Network
      if n1 ≠ n2 then Mem.lift (.err .differentNetwork)
      else if H.toLower o1.WIF = H.toLower o2.WIF then Mem.lift (.err .identicalKeys)
      else do
        let pKey ← Mem.newInt 0
        let pKey ← opM pKey o1.Key o2.Key
        let curve ← readCurve
        let pKey ← bigMod pKey pKey curve.N
        let hexa ← bigIntToHexM pKey
        privateFromHexM H hexa o1.Network) := by
  funext h
  cases e1 : loadPriv h p1 with
  | none => rw [bind_read_panic (privField_none e1), bind_read_panic (readPriv_none e1)]
  | some o1 =>
    rw [bind_read (privField_some e1), bind_read (readPriv_some e1)]
    cases e2 : loadPriv h p2 with
    | none => rw [bind_read_panic (privField_none e2), bind_read_panic (readPriv_none e2)]
    | some o2 =>
      rw [bind_read (privField_some e2), bind_read (readPriv_some e2)]
      rw [bind_read (deepNet_run o1.Network h), bind_read (deepNet_run o1.Network h),
        bind_read (deepNet_run o2.Network h), bind_read (deepNet_run o2.Network h)]
      by_cases hn : loadNet h o1.Network ≠ loadNet h o2.Network
      · rw [if_pos hn, if_pos hn]
      · rw [if_neg hn, if_neg hn, bind_read (privField_some e1), bind_read (privField_some e2)]
        by_cases hw : H.toLower o1.WIF = H.toLower o2.WIF
        · rw [if_pos hw, if_pos hw]
        · rw [if_neg hw, if_neg hw]
          refine bind_congr' fun z h1 hz => ?_
          cases hz
          generalize hh : ({ h with ints := h.ints ++ [0] } : Heap) = h1
          have e1' : loadPriv h1 p1 = some o1 := by rw [← hh]; exact e1
          have e2' : loadPriv h1 p2 = some o2 := by rw [← hh]; exact e2
          rw [bind_read (privField_some e1'), bind_read (privField_some e2')]
          refine bind_congr' fun z h2 hz => ?_
          rw [hop] at hz
          obtain ⟨s2, -⟩ := binop_same hz
          refine bind_congr' fun c h3 hc => ?_
          cases hc
          refine bind_congr' fun z' h4 hz' => ?_
          obtain ⟨s4, -⟩ := bigMod_same hz'
          refine bind_congr' fun hexa h5 h5e => ?_
          cases h5e
          refine bind_read (privField_some (o := o1) ?_)
          rw [← e1']
          simp only [loadPriv, s4, s2]

theorem run_addPrivateKeys (p1 p2 : Ptr) : (addPrivateKeysP H p1 p2).run = addPrivateKeysM H p1 p2 := by
  simp only [addPrivateKeysP, run_bind, run_ite, run_privField, run_loadNet, run_lift, run_newInt, run_bigAdd,
    run_readCurve, run_bigMod, run_bigIntToHex, run_privateFromHex]
  exact run_combine H (· + ·) bigAdd (fun _ _ _ => rfl) p1 p2

theorem run_multiplyPrivateKeys (p1 p2 : Ptr) :
    (multiplyPrivateKeysP H p1 p2).run = multiplyPrivateKeysM H p1 p2 := by
  simp only [multiplyPrivateKeysP, run_bind, run_ite, run_privField, run_loadNet, run_lift, run_newInt, run_bigMul,
    run_readCurve, run_bigMod, run_bigIntToHex, run_privateFromHex]
  exact run_combine H (· * ·) bigMul (fun _ _ _ => rfl) p1 p2

theorem run_format (p : Ptr) (c : Bool) : (formatP p c).run = formatM p c := by
  simp only [formatP, run_bind, run_ite, run_pubField, run_bigIntToHex, run_readInt, run_lift]
  funext h
  unfold formatM
  cases e : loadPub h p with
  | none => rw [bind_read_panic (pubField_none e), bind_read_panic (readPub_none e)]
  | some o =>
    rw [bind_read (pubField_some e), bind_read (readPub_some e),
      bind_read (bigIntToHex_run o.X h), bind_read (bigIntToHex_run o.X h),
      bind_read (pubField_some e),
      bind_read (bigIntToHex_run o.Y h), bind_read (bigIntToHex_run o.Y h)]
    cases c with
    | false => rfl
    | true =>
      simp only [Bool.not_true, Bool.false_eq_true, if_false]
      exact bind_read (pubField_some e)

theorem formatM_heap (p : Ptr) (c : Bool) (h : Heap) : (formatM p c h).2 = h := by
  cases e : loadPub h p with
  | none => simp only [formatM]; rw [bind_read_panic (readPub_none e)]
  | some o => rw [format_ref e c]

theorem run_address (p : Ptr) (c : Bool) : (addressP H p c).run = addressM H p c := by
  simp only [addressP, run_bind, run_format, run_pubField, run_readNet, run_lift]
  funext h
  unfold addressM
  refine bind_congr' fun hexa h1 e1 => ?_
  have hh := formatM_heap p c h
  rw [e1] at hh
  simp only at hh
  subst hh
  refine bind_congr' fun bytes h2 e2 => ?_
  cases hb : hexDecode hexa <;> rw [hb] at e2 <;> cases e2
  cases e : loadPub h1 p with
  | none => rw [bind_read_panic (pubField_none e), bind_read_panic (readPub_none e)]
  | some o => rw [bind_read (pubField_some e), bind_read (readPub_some e)]

variable (E : EcdsaP)

theorem run_publicFromHex (hexa : GoString) (network : Ptr) :
    (publicFromHexP E hexa network).run = publicFromHexM E.toM hexa network := by
  simp only [publicFromHexP, run_bind, run_ite, run_newPub, run_updPub, run_newSetString, run_newInt, run_writeInt,
    run_bigSet, run_bigMod, run_readInt, run_lift, run_pure]
  rfl

/-- The curve package does not touch key objects. -/
structure EcdsaP.Objs (E : EcdsaP) : Prop where
  scalarMult : ∀ k p r h h', (E.scalarMult k p).run h = (.ok r, h') → ∀ q o, loadPriv h q = some o → loadPriv h' q = some o
  addPoints : ∀ p q r h h', (E.addPoints p q).run h = (.ok r, h') → ∀ q o, loadPub h q = some o → loadPub h' q = some o

theorem EcdsaP.objs {E : EcdsaP} (hE : E.toM.Frames) : E.Objs := by
  refine ⟨fun k p r h h' e q o ho => ?_, fun p q r h h' e q' o ho => ?_⟩
  · have := (hE.scalarMult h k p h (Grow.refl h)).1
    simp only [EcdsaP.toM, e] at this
    exact loadPriv_grow this ho
  · have := (hE.addPoints h p q h (Grow.refl h)).1
    simp only [EcdsaP.toM, e] at this
    exact loadPub_grow this ho

variable {E} (hE : E.toM.Frames)
include hE

theorem run_getPublicKey (p : Ptr) : (getPublicKeyP E p).run = getPublicKeyM E.toM p := by
  simp only [getPublicKeyP, run_bind, run_ite, run_privField, run_newPub, run_updPub, run_readCurve, run_pure]
  funext h
  unfold getPublicKeyM
  refine bind_congr' fun k h1 hk => ?_
  cases hk
  generalize hh : ({ h with pubs := h.pubs ++ [⟨none, none, none⟩] } : Heap) = h1
  cases e : loadPriv h1 p with
  | none => rw [bind_read_panic (privField_none e), bind_read_panic (readPriv_none e)]
  | some o =>
    rw [bind_read (privField_some e), bind_read (readPriv_some e)]
    refine bind_congr' fun c h2 hc => ?_
    cases hc
    refine bind_congr' fun r h3 hr => ?_
    have eo := (EcdsaP.objs hE).scalarMult _ _ _ _ _ hr _ _ e
    rcases r with ⟨⟨x, y⟩, valid⟩
    cases valid with
    | false => rfl
    | true =>
      simp only [Bool.not_true, Bool.false_eq_true, if_false]
      refine bind_congr' fun _ h4 h4e => ?_
      cases h4e
      refine bind_congr' fun _ h5 h5e => ?_
      cases h5e
      exact bind_read (privField_some (o := o) eo)

theorem run_addPublicKeys (p1 p2 : Ptr) (c : Bool) :
    (addPublicKeysP E p1 p2 c).run = addPublicKeysM E.toM p1 p2 c := by
  simp only [addPublicKeysP, run_bind, run_ite, run_pubField, run_loadNet, run_newPub, run_updPub, run_lift, run_pure]
  funext h
  unfold addPublicKeysM
  cases e1 : loadPub h p1 with
  | none => rw [bind_read_panic (pubField_none e1), bind_read_panic (readPub_none e1)]
  | some o1 =>
    rw [bind_read (pubField_some e1), bind_read (readPub_some e1)]
    cases e2 : loadPub h p2 with
    | none => rw [bind_read_panic (pubField_none e2), bind_read_panic (readPub_none e2)]
    | some o2 =>
      rw [bind_read (pubField_some e2), bind_read (readPub_some e2)]
      rw [bind_read (deepNet_run o1.Network h), bind_read (deepNet_run o1.Network h),
        bind_read (deepNet_run o2.Network h), bind_read (deepNet_run o2.Network h)]
      by_cases hn : loadNet h o1.Network ≠ loadNet h o2.Network
      · rw [if_pos hn, if_pos hn]
      · rw [if_neg hn, if_neg hn, bind_read (pubField_some e1), bind_read (pubField_some e1),
          bind_read (pubField_some e2), bind_read (pubField_some e2)]
        refine bind_congr' fun r h3 hr => ?_
        have eo := (EcdsaP.objs hE).addPoints _ _ _ _ _ hr _ _ e1
        rcases r with ⟨⟨x, y⟩, valid⟩
        cases valid with
        | false => rfl
        | true =>
          simp only [Bool.not_true, Bool.false_eq_true, if_false]
          refine bind_congr' fun k h4 h4e => ?_
          cases h4e
          refine bind_read (pubField_some (o := o1) ?_)
          have hg : Grow h3 { h3 with pubs := h3.pubs ++ [⟨none, none, none⟩] } :=
            ⟨List.prefix_refl _, rfl, List.prefix_refl _, List.prefix_append _ _, rfl⟩
          exact loadPub_grow hg eo

end Btc.Mem
