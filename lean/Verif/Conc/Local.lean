import Verif.Conc.Run

/-!
# Local programs

A program is *local* to a memory `b` if it behaves the same no matter where its new cells are placed, reads only cells
of `b` and its own new cells, and writes only to its own new cells. The relation `PRel` compares a program with itself
under two placements of its new cells; the functions of the repository are shown to be local.
-/

namespace Btc.Mem

/-- Placement of cells: position `a` of a list holds the address used in the other memory for address `a`. -/
structure Ren where
  ints : List Nat
  privs : List Nat
  pubs : List Nat

/-- More cells have been placed. -/
structure Ren.Le (r s : Ren) : Prop where
  ints : r.ints <+: s.ints
  privs : r.privs <+: s.privs
  pubs : r.pubs <+: s.pubs

theorem Ren.Le.refl (r : Ren) : r.Le r := ⟨List.prefix_refl _, List.prefix_refl _, List.prefix_refl _⟩

theorem Ren.Le.trans {r s t : Ren} (h1 : r.Le s) (h2 : s.Le t) : r.Le t :=
  ⟨h1.ints.trans h2.ints, h1.privs.trans h2.privs, h1.pubs.trans h2.pubs⟩

/-- The number at `x` in the other memory belongs to a new cell. -/
def Ren.addInt (r : Ren) (x : Nat) : Ren := { r with ints := r.ints ++ [x] }
/-- The same for a private key. -/
def Ren.addPriv (r : Ren) (x : Nat) : Ren := { r with privs := r.privs ++ [x] }
/-- The same for a public key. -/
def Ren.addPub (r : Ren) (x : Nat) : Ren := { r with pubs := r.pubs ++ [x] }

theorem Ren.le_addInt (r : Ren) (x : Nat) : r.Le (r.addInt x) :=
  ⟨List.prefix_append _ _, List.prefix_refl _, List.prefix_refl _⟩
theorem Ren.le_addPriv (r : Ren) (x : Nat) : r.Le (r.addPriv x) :=
  ⟨List.prefix_refl _, List.prefix_append _ _, List.prefix_refl _⟩
theorem Ren.le_addPub (r : Ren) (x : Nat) : r.Le (r.addPub x) :=
  ⟨List.prefix_refl _, List.prefix_refl _, List.prefix_append _ _⟩

/-- Pointers that correspond under a list of addresses. -/
def At (l : List Nat) : Ptr → Ptr → Prop
  | none, none => True
  | some a, some x => l[a]? = some x
  | _, _ => False

theorem at_mono {l l' : List Nat} (h : l <+: l') {p q : Ptr} (hp : At l p q) : At l' p q := by
  obtain ⟨t, rfl⟩ := h
  cases p <;> cases q <;> simp only [At] at hp ⊢
  rename_i a x
  rw [List.getElem?_append_left]
  · exact hp
  · exact (List.getElem?_eq_some_iff.mp hp).1

/-- Key objects that correspond. Networks are never allocated: their addresses are the same. -/
structure PrivRel (r : Ren) (o o' : PrivObj) : Prop where
  Key : At r.ints o.Key o'.Key
  Hex : o.Hex = o'.Hex
  WIF : o.WIF = o'.WIF
  Network : o.Network = o'.Network

/-- Public key objects that correspond. -/
structure PubRel (r : Ren) (o o' : PubObj) : Prop where
  X : At r.ints o.X o'.X
  Y : At r.ints o.Y o'.Y
  Network : o.Network = o'.Network

/-- Curve parameters that correspond. -/
structure CurveRel (r : Ren) (c c' : CurveObj) : Prop where
  A : At r.ints c.A c'.A
  B : At r.ints c.B c'.B
  GX : At r.ints c.GX c'.GX
  GY : At r.ints c.GY c'.GY
  P : At r.ints c.P c'.P
  N : At r.ints c.N c'.N
  H : At r.ints c.H c'.H

theorem PrivRel.mono {r s : Ren} (h : r.Le s) {o o' : PrivObj} (ho : PrivRel r o o') : PrivRel s o o' :=
  ⟨at_mono h.ints ho.Key, ho.Hex, ho.WIF, ho.Network⟩

theorem PubRel.mono {r s : Ren} (h : r.Le s) {o o' : PubObj} (ho : PubRel r o o') : PubRel s o o' :=
  ⟨at_mono h.ints ho.X, at_mono h.ints ho.Y, ho.Network⟩

theorem CurveRel.mono {r s : Ren} (h : r.Le s) {c c' : CurveObj} (hc : CurveRel r c c') : CurveRel s c c' :=
  ⟨at_mono h.ints hc.A, at_mono h.ints hc.B, at_mono h.ints hc.GX, at_mono h.ints hc.GY, at_mono h.ints hc.P,
    at_mono h.ints hc.N, at_mono h.ints hc.H⟩

/-- Results that correspond: related values, the same error, the same panic. -/
def ResRel {α β : Type} (R : α → β → Prop) : Res α → Res β → Prop
  | .ok a, .ok b => R a b
  | .err e, .err e' => e = e'
  | .panic p, .panic p' => p = p'
  | _, _ => False

/-- Two programs in lock step: the same kind of access each time, at corresponding addresses, with the same numbers
written; writes only to cells that are not in `b`; results related by `R`. -/
inductive PRel (b : Heap) {α β : Type} (R : Ren → α → β → Prop) : Ren → Prog α → Prog β → Prop
  | ret {r x y} : ResRel (R r) x y → PRel b R r (.ret x) (.ret y)
  | newIntS {r v k k'} : (∀ x, PRel b R (r.addInt x) (k r.ints.length) (k' x)) →
      PRel b R r (.newInt v k) (.newInt v k')
  | getInt {r a x k k'} : r.ints[a]? = some x → (∀ v, PRel b R r (k (some v)) (k' (some v))) →
      PRel b R r (.getInt a k) (.getInt x k')
  | setInt {r a x v k k'} : r.ints[a]? = some x → b.ints.length ≤ a → PRel b R r k k' →
      PRel b R r (.setInt a v k) (.setInt x v k')
  | getNet {r a k k'} : (∀ v, PRel b R r (k v) (k' v)) → PRel b R r (.getNet a k) (.getNet a k')
  | getCurve {r k k'} : (∀ c c', CurveRel r c c' → PRel b R r (k c) (k' c')) →
      PRel b R r (.getCurve k) (.getCurve k')
  | newPrivS {r k k'} : (∀ x, PRel b R (r.addPriv x) (k r.privs.length) (k' x)) →
      PRel b R r (.newPriv k) (.newPriv k')
  | getPriv {r a x k k'} : r.privs[a]? = some x →
      (∀ o o', PrivRel r o o' → PRel b R r (k (some o)) (k' (some o'))) →
      PRel b R r (.getPriv a k) (.getPriv x k')
  | updPrivS {r a x f f' k k'} : r.privs[a]? = some x → b.privs.length ≤ a →
      (∀ o o', PrivRel r o o' → PrivRel r (f o) (f' o')) → PRel b R r k k' →
      PRel b R r (.updPriv a f k) (.updPriv x f' k')
  | newPubS {r k k'} : (∀ x, PRel b R (r.addPub x) (k r.pubs.length) (k' x)) →
      PRel b R r (.newPub k) (.newPub k')
  | getPub {r a x k k'} : r.pubs[a]? = some x →
      (∀ o o', PubRel r o o' → PRel b R r (k (some o)) (k' (some o'))) →
      PRel b R r (.getPub a k) (.getPub x k')
  | updPubS {r a x f f' k k'} : r.pubs[a]? = some x → b.pubs.length ≤ a →
      (∀ o o', PubRel r o o' → PubRel r (f o) (f' o')) → PRel b R r k k' →
      PRel b R r (.updPub a f k) (.updPub x f' k')

/-- At least the cells of `b` have been placed. -/
structure Ren.Has (r : Ren) (b : Heap) : Prop where
  ints : b.ints.length ≤ r.ints.length
  privs : b.privs.length ≤ r.privs.length
  pubs : b.pubs.length ≤ r.pubs.length

theorem Ren.Has.mono {b : Heap} {r s : Ren} (h : r.Has b) (hs : r.Le s) : s.Has b :=
  ⟨h.ints.trans hs.ints.length_le, h.privs.trans hs.privs.length_le, h.pubs.trans hs.pubs.length_le⟩

namespace PRel

section
variable {α β γ δ : Type} {b : Heap} {r : Ren}

theorem next {R : Ren → α → β → Prop} {S : Ren → γ → δ → Prop} {p : Prog α} {q : Prog β} {f : α → Prog γ}
    {g : β → Prog δ} {er : GoError → Prog γ} {er2 : GoError → Prog δ} (hp : PRel b R r p q)
    (hf : ∀ s, r.Le s → ∀ x y, R s x y → PRel b S s (f x) (g y))
    (he : ∀ s, r.Le s → ∀ e, PRel b S s (er e) (er2 e)) :
    PRel b S r (p.next f er) (q.next g er2) := by
  induction hp with
  | @ret r x y h =>
    cases x <;> cases y <;> simp only [ResRel] at h
    · exact hf r (Ren.Le.refl r) _ _ h
    · subst h; exact he r (Ren.Le.refl r) _
    · subst h; exact .ret rfl
  | newIntS _ ih =>
    exact .newIntS fun x => ih x (fun s hs => hf s ((Ren.le_addInt _ x).trans hs))
      fun s hs => he s ((Ren.le_addInt _ x).trans hs)
  | getInt h1 _ ih => exact .getInt h1 fun v => ih v hf he
  | setInt h1 h2 _ ih => exact .setInt h1 h2 (ih hf he)
  | getNet _ ih => exact .getNet fun v => ih v hf he
  | getCurve _ ih => exact .getCurve fun c c' hc => ih c c' hc hf he
  | newPrivS _ ih =>
    exact .newPrivS fun x => ih x (fun s hs => hf s ((Ren.le_addPriv _ x).trans hs))
      fun s hs => he s ((Ren.le_addPriv _ x).trans hs)
  | getPriv h1 _ ih => exact .getPriv h1 fun o o' ho => ih o o' ho hf he
  | updPrivS h1 h2 h3 _ ih => exact .updPrivS h1 h2 h3 (ih hf he)
  | newPubS _ ih =>
    exact .newPubS fun x => ih x (fun s hs => hf s ((Ren.le_addPub _ x).trans hs))
      fun s hs => he s ((Ren.le_addPub _ x).trans hs)
  | getPub h1 _ ih => exact .getPub h1 fun o o' ho => ih o o' ho hf he
  | updPubS h1 h2 h3 _ ih => exact .updPubS h1 h2 h3 (ih hf he)

theorem bind {R : Ren → α → β → Prop} {S : Ren → γ → δ → Prop} {p : Prog α} {q : Prog β} {f : α → Prog γ}
    {g : β → Prog δ} (hp : PRel b R r p q) (hf : ∀ s, r.Le s → ∀ x y, R s x y → PRel b S s (f x) (g y)) :
    PRel b S r (p >>= f) (q >>= g) :=
  next hp hf fun _ _ _ => .ret rfl

theorem onErr {R : Ren → α → β → Prop} {S : Ren → γ → δ → Prop} {p : Prog α} {q : Prog β} {f : α → Prog γ}
    {g : β → Prog δ} {y : Prog γ} {y' : Prog δ} (hp : PRel b R r p q)
    (hy : ∀ s, r.Le s → PRel b S s y y')
    (hf : ∀ s, r.Le s → ∀ x y, R s x y → PRel b S s (f x) (g y)) :
    PRel b S r (onErrP p y f) (onErrP q y' g) :=
  next hp hf fun s hs _ => hy s hs

theorem pure {R : Ren → α → β → Prop} {x : α} {y : β} (h : R r x y) : PRel b R r (Pure.pure x) (Pure.pure y) := .ret h

/-- Values that do not contain addresses are equal. -/
def Same {α : Type} (_ : Ren) (x y : α) : Prop := x = y

theorem lift (x : Res α) : PRel b Same r (liftP x) (liftP x) := .ret (by cases x <;> rfl)

theorem err {R : Ren → α → β → Prop} (e : GoError) : PRel b R r (liftP (.err e)) (liftP (.err e)) := .ret rfl

theorem panic {R : Ren → α → β → Prop} (p : GoPanic) : PRel b R r (liftP (.panic p)) (liftP (.panic p)) := .ret rfl

theorem mono {R S : Ren → α → β → Prop} {p : Prog α} {q : Prog β} (hp : PRel b R r p q)
    (h : ∀ s, r.Le s → ∀ x y, R s x y → S s x y) : PRel b S r p q := by
  induction hp with
  | @ret r x y hx =>
    refine .ret ?_
    cases x <;> cases y <;> simp only [ResRel] at hx ⊢
    · exact h r (Ren.Le.refl r) _ _ hx
    · exact hx
    · exact hx
  | newIntS _ ih => exact .newIntS fun x => ih x fun s hs => h s ((Ren.le_addInt _ x).trans hs)
  | getInt h1 _ ih => exact .getInt h1 fun v => ih v h
  | setInt h1 h2 _ ih => exact .setInt h1 h2 (ih h)
  | getNet _ ih => exact .getNet fun v => ih v h
  | getCurve _ ih => exact .getCurve fun c c' hc => ih c c' hc h
  | newPrivS _ ih => exact .newPrivS fun x => ih x fun s hs => h s ((Ren.le_addPriv _ x).trans hs)
  | getPriv h1 _ ih => exact .getPriv h1 fun o o' ho => ih o o' ho h
  | updPrivS h1 h2 h3 _ ih => exact .updPrivS h1 h2 h3 (ih h)
  | newPubS _ ih => exact .newPubS fun x => ih x fun s hs => h s ((Ren.le_addPub _ x).trans hs)
  | getPub h1 _ ih => exact .getPub h1 fun o o' ho => ih o o' ho h
  | updPubS h1 h2 h3 _ ih => exact .updPubS h1 h2 h3 (ih h)

end

/-! ## Single operations -/

section
variable {b : Heap} {r : Ren}

/-- Pointers to corresponding numbers. -/
def IntP (r : Ren) (p q : Ptr) : Prop := At r.ints p q

/-- Pointers to corresponding numbers that are not in `b`. -/
def OwnInt (b : Heap) (r : Ren) (p q : Ptr) : Prop := At r.ints p q ∧ FreshInt b p

theorem newInt (hr : r.Has b) (v : Int) : PRel b (OwnInt b) r (newIntP v) (newIntP v) := by
  refine .newIntS fun x => .ret ⟨?_, ?_⟩
  · simp [At, Ren.addInt]
  · intro a ha
    cases ha
    exact hr.ints

theorem loadInt {p q : Ptr} (hp : At r.ints p q) : PRel b Same r (loadIntP p) (loadIntP q) := by
  cases p <;> cases q <;> simp only [At] at hp
  · exact .ret rfl
  · exact .getInt hp fun v => .ret rfl

theorem loadNet (p : Ptr) : PRel b Same r (loadNetP p) (loadNetP p) := by
  cases p with
  | none => exact .ret rfl
  | some a => exact .getNet fun v => .ret rfl

theorem readInt {p q : Ptr} (hp : At r.ints p q) : PRel b Same r (readIntP p) (readIntP q) :=
  .bind (.loadInt hp) fun s hs v v' hv => by rw [hv]; exact .lift _

theorem readNet (p : Ptr) : PRel b Same r (readNetP p) (readNetP p) :=
  .bind (.loadNet p) fun s hs v v' hv => by rw [hv]; exact .lift _

theorem privField {α : Type} {R : Ren → α → α → Prop} {p q : Ptr} (hp : At r.privs p q) (f : PrivObj → α)
    (hf : ∀ o o', PrivRel r o o' → R r (f o) (f o')) : PRel b R r (privFieldP p f) (privFieldP q f) := by
  cases p <;> cases q <;> simp only [At] at hp
  · exact .ret rfl
  · exact .getPriv hp fun o o' ho => .ret (hf o o' ho)

theorem pubField {α : Type} {R : Ren → α → α → Prop} {p q : Ptr} (hp : At r.pubs p q) (f : PubObj → α)
    (hf : ∀ o o', PubRel r o o' → R r (f o) (f o')) : PRel b R r (pubFieldP p f) (pubFieldP q f) := by
  cases p <;> cases q <;> simp only [At] at hp
  · exact .ret rfl
  · exact .getPub hp fun o o' ho => .ret (hf o o' ho)

theorem readCurve : PRel b CurveRel r readCurveP readCurveP := .getCurve fun _ _ hc => .ret hc

theorem writeInt {p q : Ptr} (hp : OwnInt b r p q) (v : Int) : PRel b Same r (writeIntP p v) (writeIntP q v) := by
  obtain ⟨hp, ho⟩ := hp
  cases p <;> cases q <;> simp only [At] at hp
  · exact .ret rfl
  · exact .setInt hp (ho _ rfl) (.ret rfl)

/-- Addresses of corresponding private keys that are not in `b`. -/
def OwnPriv (b : Heap) (r : Ren) (a x : Nat) : Prop := r.privs[a]? = some x ∧ b.privs.length ≤ a

/-- Addresses of corresponding public keys that are not in `b`. -/
def OwnPub (b : Heap) (r : Ren) (a x : Nat) : Prop := r.pubs[a]? = some x ∧ b.pubs.length ≤ a

theorem newPriv (hr : r.Has b) : PRel b (OwnPriv b) r newPrivP newPrivP :=
  .newPrivS fun x => .ret ⟨by simp [Ren.addPriv], hr.privs⟩

theorem newPub (hr : r.Has b) : PRel b (OwnPub b) r newPubP newPubP :=
  .newPubS fun x => .ret ⟨by simp [Ren.addPub], hr.pubs⟩

theorem updPriv {a x : Nat} (ha : OwnPriv b r a x) {f f' : PrivObj → PrivObj}
    (hf : ∀ o o', PrivRel r o o' → PrivRel r (f o) (f' o')) :
    PRel b Same r (updPrivP a f) (updPrivP x f') := .updPrivS ha.1 ha.2 hf (.ret rfl)

theorem updPub {a x : Nat} (ha : OwnPub b r a x) {f f' : PubObj → PubObj}
    (hf : ∀ o o', PubRel r o o' → PubRel r (f o) (f' o')) :
    PRel b Same r (updPubP a f) (updPubP x f') := .updPubS ha.1 ha.2 hf (.ret rfl)

theorem getElem?_mono {l l' : List Nat} (h : l <+: l') {a x : Nat} (ha : l[a]? = some x) : l'[a]? = some x :=
  at_mono (p := some a) (q := some x) h ha

theorem OwnPriv.mono {s : Ren} (h : r.Le s) {a x : Nat} (ha : OwnPriv b r a x) : OwnPriv b s a x :=
  ⟨getElem?_mono h.privs ha.1, ha.2⟩

theorem OwnPub.mono {s : Ren} (h : r.Le s) {a x : Nat} (ha : OwnPub b r a x) : OwnPub b s a x :=
  ⟨getElem?_mono h.pubs ha.1, ha.2⟩

theorem OwnInt.mono {s : Ren} (h : r.Le s) {p q : Ptr} (ha : OwnInt b r p q) : OwnInt b s p q :=
  ⟨at_mono h.ints ha.1, ha.2⟩

theorem binop {op : Int → Int → Int} {z z' x x' y y' : Ptr} (hz : OwnInt b r z z') (hx : At r.ints x x')
    (hy : At r.ints y y') : PRel b (OwnInt b) r
    (do let a ← readIntP x; let c ← readIntP y; writeIntP z (op a c); Pure.pure z)
    (do let a ← readIntP x'; let c ← readIntP y'; writeIntP z' (op a c); Pure.pure z') :=
  .bind (.readInt hx) fun s hs a a' ha => .bind (.readInt (at_mono hs.ints hy)) fun t ht c c' hc => by
    cases ha
    cases hc
    exact .bind (.writeInt (hz.mono (hs.trans ht)) _) fun u hu _ _ _ => .pure (hz.mono ((hs.trans ht).trans hu))

theorem bigMod {z z' x x' y y' : Ptr} (hz : OwnInt b r z z') (hx : At r.ints x x')
    (hy : At r.ints y y') : PRel b (OwnInt b) r (bigModP z x y) (bigModP z' x' y') :=
  .bind (.readInt hx) fun s hs a a' ha => .bind (.readInt (at_mono hs.ints hy)) fun t ht c c' hc => by
    cases ha
    cases hc
    split
    · exact .panic _
    · exact .bind (.writeInt (hz.mono (hs.trans ht)) _) fun u hu _ _ _ => .pure (hz.mono ((hs.trans ht).trans hu))

theorem bigSet {z z' x x' : Ptr} (hz : OwnInt b r z z') (hx : At r.ints x x') :
    PRel b (OwnInt b) r (bigSetP z x) (bigSetP z' x') :=
  .bind (.readInt hx) fun s hs a a' ha => by
    cases ha
    exact .bind (.writeInt (hz.mono hs) _) fun u hu _ _ _ => .pure (hz.mono (hs.trans hu))

theorem newSetString (hr : r.Has b) (t : GoString) (base : Nat) :
    PRel b (OwnInt b) r (newSetStringP t base) (newSetStringP t base) := by
  refine .bind (.newInt hr 0) fun s hs z z' hz => ?_
  cases bigSetString t base with
  | none => exact .pure ⟨trivial, by intro a ha; cases ha⟩
  | some v => exact .bind (.writeInt hz v) fun u hu _ _ _ => .pure (hz.mono hu)

theorem bigIntToHex {p q : Ptr} (hp : At r.ints p q) : PRel b Same r (bigIntToHexP p) (bigIntToHexP q) :=
  .bind (.loadInt hp) fun s hs v v' hv => by rw [hv]; exact .pure rfl

/-- Pointers to corresponding private keys. -/
def PrivP (r : Ren) (p q : Ptr) : Prop := At r.privs p q

/-- Pointers to corresponding private keys that are not in `b`. -/
def NewPrivP (b : Heap) (r : Ren) (p q : Ptr) : Prop := At r.privs p q ∧ FreshPriv b p

/-- Pointers to corresponding public keys. -/
def PubP (r : Ren) (p q : Ptr) : Prop := At r.pubs p q

end

/-! ## The functions of the repository -/

variable (H : Hashes) {b : Heap} {r : Ren}

/-- Setting fields to corresponding values keeps objects corresponding. -/
theorem setKey {p q : Ptr} (h : At r.ints p q) (o o' : PrivObj) (ho : PrivRel r o o') :
    PrivRel r { o with Key := p } { o' with Key := q } := ⟨h, ho.Hex, ho.WIF, ho.Network⟩
theorem setHex (t : GoString) (o o' : PrivObj) (ho : PrivRel r o o') :
    PrivRel r { o with Hex := t } { o' with Hex := t } := ⟨ho.Key, rfl, ho.WIF, ho.Network⟩
theorem setWIF (t : GoString) (o o' : PrivObj) (ho : PrivRel r o o') :
    PrivRel r { o with WIF := t } { o' with WIF := t } := ⟨ho.Key, ho.Hex, rfl, ho.Network⟩
theorem setNet (t : Ptr) (o o' : PrivObj) (ho : PrivRel r o o') :
    PrivRel r { o with Network := t } { o' with Network := t } := ⟨ho.Key, ho.Hex, ho.WIF, rfl⟩

theorem privateFromHex (hr : r.Has b) (hexa : GoString) (network : Ptr) :
    PRel b (NewPrivP b) r (privateFromHexP H hexa network) (privateFromHexP H hexa network) := by
  refine .bind (.newPriv hr) fun r1 l1 p p' hp => .bind (.newSetString (hr.mono l1) _ _) fun r2 l2 k k' hk => ?_
  refine .bind (.updPriv (hp.mono l2) (setKey hk.1)) fun r3 l3 _ _ _ => ?_
  refine .bind (.updPriv (hp.mono (l2.trans l3)) (setHex _)) fun r4 l4 _ _ _ => ?_
  refine .bind (.readNet _) fun r5 l5 net _ e => ?_
  cases e
  refine .bind (.lift _) fun r6 l6 hb _ e => ?_
  cases e
  refine .bind (.lift _) fun r7 l7 cs _ e => ?_
  cases e
  refine .bind (.lift _) fun r8 l8 hb2 _ e => ?_
  cases e
  have l := ((((((l2.trans l3).trans l4).trans l5).trans l6).trans l7).trans l8)
  refine .bind (.updPriv (hp.mono l) (setWIF _)) fun r9 l9 _ _ _ => ?_
  refine .bind (.updPriv (hp.mono (l.trans l9)) (setNet _)) fun r10 l10 _ _ _ => ?_
  have h10 := hp.mono ((l.trans l9).trans l10)
  exact .pure ⟨h10.1, freshPriv_some h10.2⟩

theorem privateFromWIF (hr : r.Has b) (wif : GoString) (network : Ptr) :
    PRel b (NewPrivP b) r (privateFromWIFP H wif network) (privateFromWIFP H wif network) := by
  refine .bind (.lift _) fun r1 l1 valid _ e => ?_
  cases e
  cases valid with
  | false => exact .err _
  | true =>
    refine .bind (.lift _) fun r2 l2 _ _ e => ?_
    cases e
    refine .bind (.lift _) fun r3 l3 _ _ e => ?_
    cases e
    refine .bind (.lift _) fun r4 l4 _ _ e => ?_
    cases e
    have hr4 := hr.mono (((l1.trans l2).trans l3).trans l4)
    refine .bind (.newPriv hr4) fun r5 l5 p p' hp => ?_
    refine .bind (.updPriv hp (setWIF _)) fun r6 l6 _ _ _ => ?_
    refine .bind (.updPriv (hp.mono l6) (setHex _)) fun r7 l7 _ _ _ => ?_
    have hr7 := hr4.mono ((l5.trans l6).trans l7)
    refine .bind (.newSetString hr7 _ _) fun r8 l8 k k' hk => ?_
    have l := (l6.trans l7).trans l8
    refine .bind (.updPriv (hp.mono l) (setKey hk.1)) fun r9 l9 _ _ _ => ?_
    refine .bind (.updPriv (hp.mono (l.trans l9)) (setNet _)) fun r10 l10 _ _ _ => ?_
    have h10 := hp.mono ((l.trans l9).trans l10)
    exact .pure ⟨h10.1, freshPriv_some h10.2⟩

/-- A new private key and equal unread random bytes. -/
def GenP (b : Heap) (r : Ren) (x y : Ptr × Reader) : Prop := NewPrivP b r x.1 y.1 ∧ x.2 = y.2

theorem generateLoop (draw : Reader → Res (Nat × Reader)) (network : Ptr) : ∀ (fuel : Nat) (rd : Reader) (r : Ren),
    r.Has b → PRel b (GenP b) r (generateLoopP H draw network fuel rd) (generateLoopP H draw network fuel rd) := by
  intro fuel
  induction fuel with
  | zero => intro rd r hr; exact .panic _
  | succ fuel ih =>
    intro rd r hr
    have hgen : PRel b (fun s x y => OwnInt b s x.1 y.1 ∧ x.2 = y.2) r (generateRandomBigIntP draw rd)
        (generateRandomBigIntP draw rd) := by
      refine .bind (.newSetString hr _ _) fun r1 l1 _ _ _ => .bind (.lift _) fun r2 l2 v v' e => ?_
      cases e
      exact .bind (.newInt (hr.mono (l1.trans l2)) _) fun r3 l3 z z' hz => .pure ⟨hz, rfl⟩
    refine .bind hgen fun r1 l1 x y hxy => ?_
    rcases x with ⟨key, rd'⟩
    rcases y with ⟨key', rd''⟩
    obtain ⟨hk, e⟩ := hxy
    simp only at hk e
    subst e
    refine .bind (.bigIntToHex hk.1) fun r2 l2 hexa _ e => ?_
    cases e
    have hr2 := hr.mono (l1.trans l2)
    split
    · exact ih _ _ hr2
    · refine .onErr (privateFromHex H hr2 hexa network) (fun s hs => ih _ _ (hr2.mono hs)) fun r3 l3 q q' hq => ?_
      obtain ⟨hq, hf⟩ := hq
      cases q <;> cases q' <;> simp only [At] at hq
      · exact .panic _
      · have ho : OwnPriv b r3 _ _ := ⟨hq, hf _ rfl⟩
        refine .bind (.updPriv ho (setKey (hk.mono (l2.trans l3)).1)) fun r4 l4 _ _ _ => ?_
        exact .pure ⟨⟨(ho.mono l4).1, hf⟩, rfl⟩

theorem generate (hr : r.Has b) (rd : Reader) (network : Ptr) :
    PRel b (GenP b) r (generatePrivateKeyP H rd network) (generatePrivateKeyP H rd network) := by
  unfold generatePrivateKeyP
  generalize generateRandomBigInt = draw
  exact generateLoop H draw network _ _ _ hr

theorem combine {opP : Ptr → Ptr → Ptr → Prog Ptr}
    (hop : ∀ (r : Ren) (z z' x x' y y' : Ptr), OwnInt b r z z' → At r.ints x x' → At r.ints y y' →
      PRel b (OwnInt b) r (opP z x y) (opP z' x' y'))
    (hr : r.Has b) {p1 p2 q1 q2 : Ptr} (h1 : At r.privs p1 q1) (h2 : At r.privs p2 q2) :
    let prog := fun p1 p2 : Ptr => (do
      let m1 ← privFieldP p1 (·.Network)
      let m2 ← privFieldP p2 (·.Network)
      let n1 ← loadNetP m1
      let n2 ← loadNetP m2
      if n1 ≠ n2 then liftP (.err .differentNetwork)
      else
        let w1 ← privFieldP p1 (·.WIF)
        let w2 ← privFieldP p2 (·.WIF)
        if H.toLower w1 = H.toLower w2 then liftP (.err .identicalKeys)
        else
          let pKey ← newIntP 0
          let k1 ← privFieldP p1 (·.Key)
          let k2 ← privFieldP p2 (·.Key)
          let pKey ← opP pKey k1 k2
          let curve ← readCurveP
          let pKey ← bigModP pKey pKey curve.N
          let hexa ← bigIntToHexP pKey
          let m ← privFieldP p1 (·.Network)
          privateFromHexP H hexa m : Prog Ptr)
    PRel b (NewPrivP b) r (prog p1 p2) (prog q1 q2) := by
  intro prog
  refine .bind (.privField (R := Same) h1 _ fun o o' ho => ho.Network) fun r1 l1 m1 _ e => ?_
  cases e
  refine .bind (.privField (R := Same) (at_mono l1.privs h2) _ fun o o' ho => ho.Network) fun r2 l2 m2 _ e => ?_
  cases e
  refine .bind (.loadNet _) fun r3 l3 n1 _ e => ?_
  cases e
  refine .bind (.loadNet _) fun r4 l4 n2 _ e => ?_
  cases e
  have l := ((l1.trans l2).trans l3).trans l4
  split
  · exact .err _
  · refine .bind (.privField (R := Same) (at_mono l.privs h1) _ fun o o' ho => ho.WIF) fun r5 l5 w1 _ e => ?_
    cases e
    have l := l.trans l5
    refine .bind (.privField (R := Same) (at_mono l.privs h2) _ fun o o' ho => ho.WIF) fun r6 l6 w2 _ e => ?_
    cases e
    have l := l.trans l6
    split
    · exact .err _
    · refine .bind (.newInt (hr.mono l) 0) fun r7 l7 z z' hz => ?_
      have l := l.trans l7
      refine .bind (.privField (R := IntP) (at_mono l.privs h1) _ fun o o' ho => ho.Key) fun r8 l8 k1 k1' hk1 => ?_
      have l := l.trans l8
      refine .bind (.privField (R := IntP) (at_mono l.privs h2) _ fun o o' ho => ho.Key) fun r9 l9 k2 k2' hk2 => ?_
      have l := l.trans l9
      refine .bind (hop _ _ _ _ _ _ _ (hz.mono (l8.trans l9)) (at_mono l9.ints hk1) hk2) fun r10 l10 z z' hz => ?_
      refine .bind .readCurve fun r11 l11 c c' hc => ?_
      have hz := hz.mono l11
      refine .bind (.bigMod hz hz.1 hc.N) fun r12 l12 z z' hz => ?_
      refine .bind (.bigIntToHex hz.1) fun r13 l13 hexa _ e => ?_
      cases e
      have l := (((l.trans l10).trans l11).trans l12).trans l13
      refine .bind (.privField (R := Same) (at_mono l.privs h1) _ fun o o' ho => ho.Network) fun r14 l14 m _ e => ?_
      cases e
      exact privateFromHex H (hr.mono (l.trans l14)) _ _

theorem addPrivateKeys (hr : r.Has b) {p1 p2 q1 q2 : Ptr} (h1 : At r.privs p1 q1) (h2 : At r.privs p2 q2) :
    PRel b (NewPrivP b) r (addPrivateKeysP H p1 p2) (addPrivateKeysP H q1 q2) :=
  combine H (opP := bigAddP) (fun _ _ _ _ _ _ _ hz hx hy => .binop hz hx hy) hr h1 h2

theorem multiplyPrivateKeys (hr : r.Has b) {p1 p2 q1 q2 : Ptr} (h1 : At r.privs p1 q1) (h2 : At r.privs p2 q2) :
    PRel b (NewPrivP b) r (multiplyPrivateKeysP H p1 p2) (multiplyPrivateKeysP H q1 q2) :=
  combine H (opP := bigMulP) (fun _ _ _ _ _ _ _ hz hx hy => .binop hz hx hy) hr h1 h2

theorem format {p q : Ptr} (hp : At r.pubs p q) (c : Bool) : PRel b Same r (formatP p c) (formatP q c) := by
  refine .bind (.pubField (R := IntP) hp _ fun o o' ho => ho.X) fun r1 l1 x x' hx => ?_
  refine .bind (.bigIntToHex hx) fun r2 l2 tx _ e => ?_
  cases e
  have l := l1.trans l2
  refine .bind (.pubField (R := IntP) (at_mono l.pubs hp) _ fun o o' ho => ho.Y) fun r3 l3 y y' hy => ?_
  refine .bind (.bigIntToHex hy) fun r4 l4 ty _ e => ?_
  cases e
  have l := (l.trans l3).trans l4
  cases c with
  | false => exact .lift _
  | true =>
    refine .bind (.pubField (R := IntP) (at_mono l.pubs hp) _ fun o o' ho => ho.Y) fun r5 l5 y y' hy => ?_
    refine .bind (.readInt hy) fun r6 l6 v _ e => ?_
    cases e
    split <;> exact .lift _

theorem address {p q : Ptr} (hp : At r.pubs p q) (c : Bool) : PRel b Same r (addressP H p c) (addressP H q c) := by
  refine .bind (format hp c) fun r1 l1 hexa _ e => ?_
  cases e
  refine .bind (.lift _) fun r2 l2 bytes _ e => ?_
  cases e
  have l := l1.trans l2
  refine .bind (.pubField (R := Same) (at_mono l.pubs hp) _ fun o o' ho => ho.Network) fun r3 l3 m _ e => ?_
  cases e
  refine .bind (.readNet _) fun r4 l4 net _ e => ?_
  cases e
  refine .bind (.lift _) fun r5 l5 _ _ e => ?_
  cases e
  refine .bind (.lift _) fun r6 l6 _ _ e => ?_
  cases e
  refine .bind (.lift _) fun r7 l7 _ _ e => ?_
  cases e
  exact .lift _

/-- Points with corresponding coordinates, and the same flag. -/
def PointP (r : Ren) (x y : (Ptr × Ptr) × Bool) : Prop := At r.ints x.1.1 y.1.1 ∧ At r.ints x.1.2 y.1.2 ∧ x.2 = y.2

end PRel

/-- What is assumed of the memory behaviour of the curve package when goroutines run at the same time: its methods
read numbers reachable from their arguments and the curve parameters, write only to numbers they allocated, and do not
depend on where those are placed. In particular there is no hidden shared state. -/
structure EcdsaP.Local (E : EcdsaP) : Prop where
  getY : ∀ b r x x', Ren.Has r b → At r.ints x x' →
    PRel b (fun s y y' => At s.ints y.1 y'.1 ∧ y.2 = y'.2) r (E.getY x) (E.getY x')
  multMod : ∀ b r x x' y y', Ren.Has r b → At r.ints x x' → At r.ints y y' →
    PRel b PRel.IntP r (E.multMod x y) (E.multMod x' y')
  scalarMult : ∀ b r k k' x x' y y', Ren.Has r b → At r.ints k k' → At r.ints x x' → At r.ints y y' →
    PRel b PRel.PointP r (E.scalarMult k (x, y)) (E.scalarMult k' (x', y'))
  addPoints : ∀ b r x x' y y' u u' v v', Ren.Has r b → At r.ints x x' → At r.ints y y' → At r.ints u u' →
    At r.ints v v' → PRel b PRel.PointP r (E.addPoints (x, y) (u, v)) (E.addPoints (x', y') (u', v'))

namespace PRel

variable {b : Heap} {r : Ren}

theorem setX {p q : Ptr} (h : At r.ints p q) (o o' : PubObj) (ho : PubRel r o o') :
    PubRel r { o with X := p } { o' with X := q } := ⟨h, ho.Y, ho.Network⟩
theorem setY {p q : Ptr} (h : At r.ints p q) (o o' : PubObj) (ho : PubRel r o o') :
    PubRel r { o with Y := p } { o' with Y := q } := ⟨ho.X, h, ho.Network⟩
theorem setPubNet (t : Ptr) (o o' : PubObj) (ho : PubRel r o o') :
    PubRel r { o with Network := t } { o' with Network := t } := ⟨ho.X, ho.Y, rfl⟩

variable {E : EcdsaP} (hE : E.Local)
include hE

theorem getPublicKey (hr : r.Has b) {p q : Ptr} (hp : At r.privs p q) :
    PRel b PubP r (getPublicKeyP E p) (getPublicKeyP E q) := by
  refine .bind (.newPub hr) fun r1 l1 k k' hk => ?_
  refine .bind (.privField (R := IntP) (at_mono l1.privs hp) _ fun o o' ho => ho.Key) fun r2 l2 key key' hkey => ?_
  refine .bind .readCurve fun r3 l3 c c' hc => ?_
  have l := (l1.trans l2).trans l3
  refine .bind (hE.scalarMult b r3 _ _ _ _ _ _ (hr.mono l) (at_mono l3.ints hkey) hc.GX hc.GY) fun r4 l4 u v huv => ?_
  rcases u with ⟨⟨x, y⟩, valid⟩
  rcases v with ⟨⟨x', y'⟩, valid'⟩
  obtain ⟨hx, hy, e⟩ := huv
  simp only at hx hy e
  subst e
  have l := l.trans l4
  have hk := hk.mono ((l2.trans l3).trans l4)
  cases valid with
  | false => exact .pure trivial
  | true =>
    refine .bind (.updPub hk (setX hx)) fun r5 l5 _ _ _ => ?_
    refine .bind (.updPub (hk.mono l5) (setY (at_mono l5.ints hy))) fun r6 l6 _ _ _ => ?_
    have l := (l.trans l5).trans l6
    refine .bind (.privField (R := Same) (at_mono l.privs hp) _ fun o o' ho => ho.Network) fun r7 l7 m _ e => ?_
    cases e
    have hk := hk.mono ((l5.trans l6).trans l7)
    refine .bind (.updPub hk (setPubNet _)) fun r8 l8 _ _ _ => ?_
    exact .pure (hk.mono l8).1

theorem addPublicKeys (hr : r.Has b) {p1 p2 q1 q2 : Ptr} (h1 : At r.pubs p1 q1) (h2 : At r.pubs p2 q2) (c : Bool) :
    PRel b PubP r (addPublicKeysP E p1 p2 c) (addPublicKeysP E q1 q2 c) := by
  refine .bind (.pubField (R := Same) h1 _ fun o o' ho => ho.Network) fun r1 l1 m1 _ e => ?_
  cases e
  refine .bind (.pubField (R := Same) (at_mono l1.pubs h2) _ fun o o' ho => ho.Network) fun r2 l2 m2 _ e => ?_
  cases e
  refine .bind (.loadNet _) fun r3 l3 n1 _ e => ?_
  cases e
  refine .bind (.loadNet _) fun r4 l4 n2 _ e => ?_
  cases e
  have l := ((l1.trans l2).trans l3).trans l4
  split
  · exact .err _
  · refine .bind (.pubField (R := IntP) (at_mono l.pubs h1) _ fun o o' ho => ho.X) fun r5 l5 x1 _ hx1 => ?_
    have l := l.trans l5
    refine .bind (.pubField (R := IntP) (at_mono l.pubs h1) _ fun o o' ho => ho.Y) fun r6 l6 y1 _ hy1 => ?_
    have l := l.trans l6
    refine .bind (.pubField (R := IntP) (at_mono l.pubs h2) _ fun o o' ho => ho.X) fun r7 l7 x2 _ hx2 => ?_
    have l := l.trans l7
    refine .bind (.pubField (R := IntP) (at_mono l.pubs h2) _ fun o o' ho => ho.Y) fun r8 l8 y2 _ hy2 => ?_
    have l := l.trans l8
    have l68 := (l6.trans l7).trans l8
    refine .bind (hE.addPoints b r8 _ _ _ _ _ _ _ _ (hr.mono l) (at_mono l68.ints hx1)
      (at_mono (l7.trans l8).ints hy1) (at_mono l8.ints hx2) hy2) fun r9 l9 u v huv => ?_
    rcases u with ⟨⟨x, y⟩, valid⟩
    rcases v with ⟨⟨x', y'⟩, valid'⟩
    obtain ⟨hx, hy, e⟩ := huv
    simp only at hx hy e
    subst e
    have l := l.trans l9
    cases valid with
    | false => exact .err _
    | true =>
      refine .bind (.newPub (hr.mono l)) fun r10 l10 k k' hk => ?_
      have l := l.trans l10
      refine .bind (.pubField (R := Same) (at_mono l.pubs h1) _ fun o o' ho => ho.Network) fun r11 l11 m _ e => ?_
      cases e
      have l' := l10.trans l11
      refine .bind (.updPub (hk.mono l11) fun o o' ho => ⟨at_mono l'.ints hx, at_mono l'.ints hy, rfl⟩)
        fun r12 l12 _ _ _ => ?_
      exact .pure (hk.mono (l11.trans l12)).1

theorem publicFromHex (hr : r.Has b) (hexa : GoString) (network : Ptr) :
    PRel b PubP r (publicFromHexP E hexa network) (publicFromHexP E hexa network) := by
  refine .bind (.newPub hr) fun r1 l1 p p' hp => .bind (.updPub hp (setPubNet _)) fun r2 l2 _ _ _ => ?_
  refine .bind (.lift _) fun r3 l3 pre _ e => ?_
  cases e
  have hr := hr.mono ((l1.trans l2).trans l3)
  have hp := hp.mono (l2.trans l3)
  split
  · refine .bind (.lift _) fun r4 l4 x _ e => ?_
    cases e
    refine .bind (.lift _) fun r5 l5 y _ e => ?_
    cases e
    have l := l4.trans l5
    refine .bind (.newSetString (hr.mono l) _ _) fun r6 l6 X X' hX => ?_
    have l := l.trans l6
    refine .bind (.updPub (hp.mono l) (setX hX.1)) fun r7 l7 _ _ _ => ?_
    have l := l.trans l7
    refine .bind (.newSetString (hr.mono l) _ _) fun r8 l8 Y Y' hY => ?_
    have l := l.trans l8
    refine .bind (.updPub (hp.mono l) (setY hY.1)) fun r9 l9 _ _ _ => ?_
    exact .pure (hp.mono (l.trans l9)).1
  · split
    · refine .bind (.lift _) fun r4 l4 x _ e => ?_
      cases e
      refine .bind (.newSetString (hr.mono l4) _ _) fun r5 l5 X X' hX => ?_
      have l := l4.trans l5
      refine .bind (.updPub (hp.mono l) (setX hX.1)) fun r6 l6 _ _ _ => ?_
      have l := l.trans l6
      refine .bind (hE.getY b r6 _ _ (hr.mono l) (hX.mono l6).1) fun r7 l7 u v huv => ?_
      rcases u with ⟨y, valid⟩
      rcases v with ⟨y', valid'⟩
      obtain ⟨hy, e⟩ := huv
      simp only at hy e
      subst e
      have l := l.trans l7
      cases valid with
      | false => exact .err _
      | true =>
        refine .bind (.newInt (hr.mono l) 0) fun r8 l8 par par' hpar => ?_
        refine .bind (.writeInt hpar _) fun r9 l9 _ _ _ => ?_
        have l := (l.trans l8).trans l9
        have hy := at_mono (l8.trans l9).ints hy
        refine .bind (.newInt (hr.mono l) 0) fun r10 l10 z z' hz => ?_
        have hy := at_mono l10.ints hy
        refine .bind (.bigSet hz hy) fun r11 l11 z z' hz => ?_
        have hy := at_mono l11.ints hy
        have l := (l.trans l10).trans l11
        refine .bind (.newInt (hr.mono l) 2) fun r12 l12 two two' htwo => ?_
        have hy := at_mono l12.ints hy
        refine .bind (.bigMod (hz.mono l12) hy htwo.1) fun r13 l13 z z' hz => ?_
        refine .bind (.readInt hz.1) fun r14 l14 m _ e => ?_
        cases e
        have lp := (((((l9.trans l10).trans l11).trans l12).trans l13).trans l14)
        refine .bind (.readInt (hpar.mono lp).1) fun r15 l15 pv _ e => ?_
        cases e
        have hy := at_mono ((l13.trans l14).trans l15).ints hy
        have l := (((l.trans l12).trans l13).trans l14).trans l15
        split
        · refine .bind (.newInt (hr.mono l) (-1)) fun r16 l16 mo mo' hmo => ?_
          have l := l.trans l16
          refine .bind (hE.multMod b r16 _ _ _ _ (hr.mono l) (at_mono l16.ints hy) hmo.1) fun r17 l17 y2 y2' hy2 => ?_
          have l := l.trans l17
          refine .bind (.updPub (hp.mono l) (setY hy2)) fun r18 l18 _ _ _ => ?_
          exact .pure (hp.mono (l.trans l18)).1
        · refine .bind (.updPub (hp.mono l) (setY hy)) fun r16 l16 _ _ _ => ?_
          exact .pure (hp.mono (l.trans l16)).1
    · exact .err _

end PRel

end Btc.Mem
