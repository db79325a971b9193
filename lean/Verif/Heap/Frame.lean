import Verif.Heap.Model

/-!
# Nothing reachable before a call is changed by it
-/

namespace Btc.Mem

/-- `h` contains everything `b` contains, unchanged: cells were only added. -/
structure Grow (b h : Heap) : Prop where
  ints : b.ints <+: h.ints
  nets : b.nets = h.nets
  privs : b.privs <+: h.privs
  pubs : b.pubs <+: h.pubs
  curve : b.curve = h.curve

theorem Grow.refl (h : Heap) : Grow h h := ⟨List.prefix_refl _, rfl, List.prefix_refl _, List.prefix_refl _, rfl⟩

theorem Grow.trans {a b c : Heap} (h1 : Grow a b) (h2 : Grow b c) : Grow a c :=
  ⟨h1.ints.trans h2.ints, h1.nets.trans h2.nets, h1.privs.trans h2.privs, h1.pubs.trans h2.pubs,
    h1.curve.trans h2.curve⟩

/-- The number behind `p` is not one of the numbers of `b`. -/
def FreshInt (b : Heap) (p : Ptr) : Prop := ∀ a, p = some a → b.ints.length ≤ a

/-- Runs of `m` from any extension of `b` extend `b`, also when they fail; results satisfy `Q`. -/
def Keeps {α : Type} (b : Heap) (m : HM α) (Q : α → Prop) : Prop :=
  ∀ h, Grow b h → Grow b (m h).2 ∧ ∀ a, (m h).1 = .ok a → Q a

theorem prefix_append {α : Type} {l l' : List α} (h : l <+: l') (x : α) : l <+: l' ++ [x] :=
  h.trans (List.prefix_append _ _)

theorem prefix_set {α : Type} {l l' : List α} (h : l <+: l') {i : Nat} (hi : l.length ≤ i) (x : α) :
    l <+: l'.set i x := by
  obtain ⟨t, rfl⟩ := h
  rw [List.set_append_right _ _ hi]
  exact List.prefix_append _ _

theorem prefix_modify {α : Type} {l l' : List α} (h : l <+: l') {i : Nat} (hi : l.length ≤ i) (f : α → α) :
    l <+: l'.modify i f := by
  obtain ⟨t, rfl⟩ := h
  refine ⟨t.modify (i - l.length) f, ?_⟩
  apply List.ext_getElem?
  intro j
  by_cases hj : j < l.length
  · have hij : i ≠ j := by omega
    rw [List.getElem?_append_left hj, List.getElem?_modify, List.getElem?_append_left hj]
    simp [hij]
  · have hij : (i - l.length = j - l.length) = (i = j) := by
      apply propext
      omega
    rw [List.getElem?_append_right (by omega), List.getElem?_modify, List.getElem?_modify,
      List.getElem?_append_right (by omega)]
    simp only [hij]

section
variable {α β : Type} {b : Heap}

theorem Keeps.bind {x : HM α} {f : α → HM β} {Q : α → Prop} {R : β → Prop} (hx : Keeps b x Q)
    (hf : ∀ a, Q a → Keeps b (f a) R) : Keeps b (x >>= f) R := by
  intro h hg
  obtain ⟨g1, q1⟩ := hx h hg
  have e : (x >>= f) h = match x h with
    | (.ok a, h') => f a h'
    | (.err e, h') => (.err e, h')
    | (.panic p, h') => (.panic p, h') := rfl
  rw [e]
  rcases hxh : x h with ⟨r, h'⟩
  rw [hxh] at g1 q1
  cases r with
  | ok a => exact hf a (q1 a rfl) h' g1
  | err e => exact ⟨g1, by simp⟩
  | panic p => exact ⟨g1, by simp⟩

theorem Keeps.onErr {x : HM α} {y : HM β} {f : α → HM β} {Q : α → Prop} {R : β → Prop} (hx : Keeps b x Q)
    (hy : Keeps b y R) (hf : ∀ a, Q a → Keeps b (f a) R) : Keeps b (Mem.onErr x y f) R := by
  intro h hg
  obtain ⟨g1, q1⟩ := hx h hg
  unfold Mem.onErr
  rcases hxh : x h with ⟨r, h'⟩
  rw [hxh] at g1 q1
  cases r with
  | ok a => exact hf a (q1 a rfl) h' g1
  | err e => exact hy h' g1
  | panic p => exact ⟨g1, by simp⟩

theorem Keeps.pure {a : α} {Q : α → Prop} (h : Q a) : Keeps b (Pure.pure a : HM α) Q := by
  intro h' hg
  refine ⟨hg, fun a' ha => ?_⟩
  cases ha
  exact h

theorem Keeps.lift (r : Res α) : Keeps b (Mem.lift r) fun _ => True := fun _ hg => ⟨hg, fun _ _ => trivial⟩

theorem Keeps.lift' {r : Res α} {Q : α → Prop} (h : ∀ a, r = .ok a → Q a) : Keeps b (Mem.lift r) Q :=
  fun _ hg => ⟨hg, h⟩

theorem Keeps.newInt (v : Int) : Keeps b (Mem.newInt v) (FreshInt b) := by
  intro h hg
  refine ⟨⟨prefix_append hg.ints v, hg.nets, hg.privs, hg.pubs, hg.curve⟩, fun p hp => ?_⟩
  cases hp
  intro a ha
  cases ha
  exact hg.ints.length_le

theorem Keeps.readInt (p : Ptr) : Keeps b (Mem.readInt p) fun _ => True := fun _ hg => ⟨hg, fun _ _ => trivial⟩
theorem Keeps.readNet (p : Ptr) : Keeps b (Mem.readNet p) fun _ => True := fun _ hg => ⟨hg, fun _ _ => trivial⟩
theorem Keeps.readPriv (p : Ptr) : Keeps b (Mem.readPriv p) fun _ => True := fun _ hg => ⟨hg, fun _ _ => trivial⟩
theorem Keeps.readPub (p : Ptr) : Keeps b (Mem.readPub p) fun _ => True := fun _ hg => ⟨hg, fun _ _ => trivial⟩
theorem Keeps.deepNet (p : Ptr) : Keeps b (Mem.deepNet p) fun _ => True := fun _ hg => ⟨hg, fun _ _ => trivial⟩
theorem Keeps.readCurve : Keeps b Mem.readCurve fun _ => True := fun _ hg => ⟨hg, fun _ _ => trivial⟩
theorem Keeps.bigIntToHex (p : Ptr) : Keeps b (Mem.bigIntToHexM p) fun _ => True :=
  fun _ hg => ⟨hg, fun _ _ => trivial⟩

theorem Keeps.writeInt {p : Ptr} (hp : FreshInt b p) (v : Int) : Keeps b (Mem.writeInt p v) fun _ => True := by
  intro h hg
  refine ⟨?_, fun _ _ => trivial⟩
  unfold Mem.writeInt
  cases p with
  | none => exact hg
  | some a =>
    simp only
    split
    · exact ⟨prefix_set hg.ints (hp a rfl) v, hg.nets, hg.privs, hg.pubs, hg.curve⟩
    · exact hg

theorem Keeps.newPriv : Keeps b Mem.newPriv fun a => b.privs.length ≤ a := by
  intro h hg
  refine ⟨⟨hg.ints, hg.nets, prefix_append hg.privs _, hg.pubs, hg.curve⟩, fun a ha => ?_⟩
  cases ha
  exact hg.privs.length_le

theorem Keeps.updPriv {a : Nat} (ha : b.privs.length ≤ a) (f : PrivObj → PrivObj) :
    Keeps b (Mem.updPriv a f) fun _ => True := by
  intro h hg
  exact ⟨⟨hg.ints, hg.nets, prefix_modify hg.privs ha f, hg.pubs, hg.curve⟩, fun _ _ => trivial⟩

theorem Keeps.newPub : Keeps b Mem.newPub fun a => b.pubs.length ≤ a := by
  intro h hg
  refine ⟨⟨hg.ints, hg.nets, hg.privs, prefix_append hg.pubs _, hg.curve⟩, fun a ha => ?_⟩
  cases ha
  exact hg.pubs.length_le

theorem Keeps.updPub {a : Nat} (ha : b.pubs.length ≤ a) (f : PubObj → PubObj) :
    Keeps b (Mem.updPub a f) fun _ => True := by
  intro h hg
  exact ⟨⟨hg.ints, hg.nets, hg.privs, prefix_modify hg.pubs ha f, hg.curve⟩, fun _ _ => trivial⟩

theorem Keeps.bigAdd {z : Ptr} (hz : FreshInt b z) (x y : Ptr) : Keeps b (Mem.bigAdd z x y) fun r => r = z :=
  .bind (.readInt _) fun _ _ => .bind (.readInt _) fun _ _ => .bind (.writeInt hz _) fun _ _ => .pure rfl

theorem Keeps.bigMul {z : Ptr} (hz : FreshInt b z) (x y : Ptr) : Keeps b (Mem.bigMul z x y) fun r => r = z :=
  .bind (.readInt _) fun _ _ => .bind (.readInt _) fun _ _ => .bind (.writeInt hz _) fun _ _ => .pure rfl

theorem Keeps.bigMod {z : Ptr} (hz : FreshInt b z) (x y : Ptr) : Keeps b (Mem.bigMod z x y) fun r => r = z := by
  refine .bind (.readInt _) fun _ _ => .bind (.readInt _) fun d _ => ?_
  by_cases hd : d = 0
  · simp only [hd, if_true]
    exact .lift' (by simp)
  · simp only [hd, if_false]
    exact .bind (.writeInt hz _) fun _ _ => .pure rfl

theorem Keeps.bigSet {z : Ptr} (hz : FreshInt b z) (x : Ptr) : Keeps b (Mem.bigSet z x) fun r => r = z :=
  .bind (.readInt _) fun _ _ => .bind (.writeInt hz _) fun _ _ => .pure rfl

theorem Keeps.newSetString (s : GoString) (base : Nat) : Keeps b (Mem.newSetString s base) (FreshInt b) := by
  refine .bind (.newInt 0) fun z hz => ?_
  cases bigSetString s base with
  | none => exact .pure (by intro a ha; cases ha)
  | some v => exact .bind (.writeInt hz v) fun _ _ => .pure hz

end

/-! ## The functions of the repository -/

/-- A pointer to a private key allocated after `b`, or nil. -/
def FreshPriv (b : Heap) (p : Ptr) : Prop := ∀ a, p = some a → b.privs.length ≤ a

/-- A pointer to a public key allocated after `b`, or nil. -/
def FreshPub (b : Heap) (p : Ptr) : Prop := ∀ a, p = some a → b.pubs.length ≤ a

/-- What is assumed of the memory behaviour of the curve package: it does not modify what its arguments point to,
nor anything else that existed before. -/
structure EcdsaM.Frames (E : EcdsaM) : Prop where
  getY : ∀ b x, Keeps b (E.getY x) fun _ => True
  multMod : ∀ b x y, Keeps b (E.multMod x y) fun _ => True
  scalarMult : ∀ b k p, Keeps b (E.scalarMult k p) fun _ => True
  addPoints : ∀ b p q, Keeps b (E.addPoints p q) fun _ => True

theorem freshPriv_some {b : Heap} {a : Nat} (h : b.privs.length ≤ a) : FreshPriv b (some a) := by
  intro x hx; cases hx; exact h

theorem freshPub_some {b : Heap} {a : Nat} (h : b.pubs.length ≤ a) : FreshPub b (some a) := by
  intro x hx; cases hx; exact h

variable (H : Hashes) (b : Heap)

theorem keeps_privateFromHex (hexa : GoString) (network : Ptr) :
    Keeps b (privateFromHexM H hexa network) (FreshPriv b) := by
  refine .bind .newPriv fun p hp => .bind (.newSetString _ _) fun key _ => .bind (.updPriv hp _) fun _ _ =>
    .bind (.updPriv hp _) fun _ _ => .bind (.readNet _) fun net _ => .bind (.lift _) fun _ _ =>
    .bind (.lift _) fun _ _ => .bind (.lift _) fun _ _ => .bind (.updPriv hp _) fun _ _ =>
    .bind (.updPriv hp _) fun _ _ => .pure (freshPriv_some hp)

theorem keeps_privateFromWIF (wif : GoString) (network : Ptr) :
    Keeps b (privateFromWIFM H wif network) (FreshPriv b) := by
  refine .bind (.lift _) fun valid _ => ?_
  cases valid with
  | false => exact .lift' (by simp)
  | true =>
    refine .bind (.lift _) fun _ _ => .bind (.lift _) fun _ _ => .bind (.lift _) fun _ _ =>
      .bind .newPriv fun p hp => .bind (.updPriv hp _) fun _ _ => .bind (.updPriv hp _) fun _ _ =>
      .bind (.newSetString _ _) fun key _ => .bind (.updPriv hp _) fun _ _ => .bind (.updPriv hp _) fun _ _ =>
      .pure (freshPriv_some hp)

theorem keeps_generateLoop (draw : Reader → Res (Nat × Reader)) (network : Ptr) :
    ∀ (fuel : Nat) (rd : Reader), Keeps b (generateLoopM H draw network fuel rd) fun r => FreshPriv b r.1 := by
  intro fuel
  induction fuel with
  | zero => intro rd; exact .lift' (by simp)
  | succ fuel ih =>
    intro rd
    refine .bind (Q := fun _ => True) ?_ fun r _ => .bind (.bigIntToHex _) fun hexa _ => ?_
    · exact .bind (.newSetString _ _) fun _ _ => .bind (.lift _) fun r _ => .bind (.newInt _) fun _ _ => .pure trivial
    split
    · exact ih r.2
    · refine .onErr (keeps_privateFromHex H b hexa network) (ih r.2) fun q hq => ?_
      cases q with
      | none => exact .lift' (by simp)
      | some a => exact .bind (.updPriv (hq a rfl) _) fun _ _ => .pure hq

theorem keeps_generate (rd : Reader) (network : Ptr) :
    Keeps b (generatePrivateKeyM H rd network) fun r => FreshPriv b r.1 :=
  keeps_generateLoop H b _ network _ rd

theorem keeps_addPrivateKeys (p1 p2 : Ptr) : Keeps b (addPrivateKeysM H p1 p2) (FreshPriv b) := by
  refine .bind (.readPriv _) fun o1 _ => .bind (.readPriv _) fun o2 _ => .bind (.deepNet _) fun n1 _ =>
    .bind (.deepNet _) fun n2 _ => ?_
  split
  · exact .lift' (by simp)
  · split
    · exact .lift' (by simp)
    · refine .bind (.newInt 0) fun z hz => .bind (.bigAdd hz _ _) fun z' hz' => ?_
      subst hz'
      refine .bind .readCurve fun c _ => .bind (.bigMod hz _ _) fun z'' hz'' => ?_
      exact .bind (.bigIntToHex _) fun hexa _ => keeps_privateFromHex H b hexa _

theorem keeps_multiplyPrivateKeys (p1 p2 : Ptr) : Keeps b (multiplyPrivateKeysM H p1 p2) (FreshPriv b) := by
  refine .bind (.readPriv _) fun o1 _ => .bind (.readPriv _) fun o2 _ => .bind (.deepNet _) fun n1 _ =>
    .bind (.deepNet _) fun n2 _ => ?_
  split
  · exact .lift' (by simp)
  · split
    · exact .lift' (by simp)
    · refine .bind (.newInt 0) fun z hz => .bind (.bigMul hz _ _) fun z' hz' => ?_
      subst hz'
      refine .bind .readCurve fun c _ => .bind (.bigMod hz _ _) fun z'' hz'' => ?_
      exact .bind (.bigIntToHex _) fun hexa _ => keeps_privateFromHex H b hexa _

variable (E : EcdsaM) (hE : E.Frames)
include hE

theorem keeps_publicFromHex (hexa : GoString) (network : Ptr) :
    Keeps b (publicFromHexM E hexa network) (FreshPub b) := by
  refine .bind .newPub fun p hp => .bind (.updPub hp _) fun _ _ => .bind (.lift _) fun pre _ => ?_
  split
  · exact .bind (.lift _) fun x _ => .bind (.lift _) fun y _ => .bind (.newSetString _ _) fun X _ =>
      .bind (.updPub hp _) fun _ _ => .bind (.newSetString _ _) fun Y _ => .bind (.updPub hp _) fun _ _ =>
      .pure (freshPub_some hp)
  · split
    · refine .bind (.lift _) fun x _ => .bind (.newSetString _ _) fun X _ => .bind (.updPub hp _) fun _ _ =>
        .bind (hE.getY b X) fun r _ => ?_
      rcases r with ⟨y, onCurve⟩
      cases onCurve with
      | false => exact .lift' (by simp)
      | true =>
        refine .bind (.newInt 0) fun parity hpar => .bind (.writeInt hpar _) fun _ _ => .bind (.newInt 0) fun yMod hy =>
          .bind (.bigSet hy _) fun yMod' hy' => ?_
        subst hy'
        refine .bind (.newInt 2) fun two _ => .bind (.bigMod hy _ _) fun yMod'' hy'' => ?_
        subst hy''
        refine .bind (.readInt _) fun m _ => .bind (.readInt _) fun par _ => ?_
        split
        · exact .bind (.newInt (-1)) fun mo _ => .bind (hE.multMod b y mo) fun y' _ => .bind (.updPub hp _) fun _ _ =>
            .pure (freshPub_some hp)
        · exact .bind (.updPub hp _) fun _ _ => .pure (freshPub_some hp)
    · exact .lift' (by simp)

theorem keeps_getPublicKey (p : Ptr) : Keeps b (getPublicKeyM E p) (FreshPub b) := by
  refine .bind .newPub fun k hk => .bind (.readPriv _) fun o _ => .bind .readCurve fun c _ =>
    .bind (hE.scalarMult b _ _) fun r _ => ?_
  rcases r with ⟨⟨x, y⟩, valid⟩
  cases valid with
  | false => exact .pure (by intro a ha; cases ha)
  | true =>
    exact .bind (.updPub hk _) fun _ _ => .bind (.updPub hk _) fun _ _ => .bind (.updPub hk _) fun _ _ =>
      .pure (freshPub_some hk)

theorem keeps_addPublicKeys (p1 p2 : Ptr) (c : Bool) : Keeps b (addPublicKeysM E p1 p2 c) (FreshPub b) := by
  refine .bind (.readPub _) fun o1 _ => .bind (.readPub _) fun o2 _ => .bind (.deepNet _) fun n1 _ =>
    .bind (.deepNet _) fun n2 _ => ?_
  split
  · exact .lift' (by simp)
  · refine .bind (hE.addPoints b _ _) fun r _ => ?_
    rcases r with ⟨⟨x, y⟩, onCurve⟩
    cases onCurve with
    | false => exact .lift' (by simp)
    | true => exact .bind .newPub fun k hk => .bind (.updPub hk _) fun _ _ => .pure (freshPub_some hk)

end Btc.Mem
