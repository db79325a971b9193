import Verif.Heap.Safe

/-!
# The numbers of the package variable do not leak into key objects
-/

namespace Btc.Mem

/-- Nil or an address from `k` on. -/
def Above (k : Nat) (p : Ptr) : Prop := ∀ a, p = some a → k ≤ a

theorem above_none (k : Nat) : Above k none := by intro a ha; cases ha

/-- No key object refers to one of the first `k` numbers. -/
structure Clear (k : Nat) (h : Heap) : Prop where
  privs : ∀ o ∈ h.privs, Above k o.Key
  pubs : ∀ o ∈ h.pubs, Above k o.X ∧ Above k o.Y

/-- `m` keeps the first `k` numbers out of key objects (also when it fails); results satisfy `Q`. -/
def Clears {α : Type} (k : Nat) (m : HM α) (Q : α → Prop) : Prop :=
  ∀ h, k ≤ h.ints.length → Clear k h →
    k ≤ (m h).2.ints.length ∧ Clear k (m h).2 ∧ ∀ a, (m h).1 = .ok a → Q a

section
variable {α β : Type} {k : Nat}

theorem Clears.bind {x : HM α} {f : α → HM β} {Q : α → Prop} {R : β → Prop} (hx : Clears k x Q)
    (hf : ∀ a, Q a → Clears k (f a) R) : Clears k (x >>= f) R := by
  intro h hk hc
  obtain ⟨k1, c1, q1⟩ := hx h hk hc
  rw [bind_run]
  rcases hxh : x h with ⟨r, h'⟩
  rw [hxh] at k1 c1 q1
  cases r with
  | ok a => exact hf a (q1 a rfl) h' k1 c1
  | err e => exact ⟨k1, c1, by simp⟩
  | panic p => exact ⟨k1, c1, by simp⟩

theorem Clears.onErr {x : HM α} {y : HM β} {f : α → HM β} {Q : α → Prop} {R : β → Prop} (hx : Clears k x Q)
    (hy : Clears k y R) (hf : ∀ a, Q a → Clears k (f a) R) : Clears k (Mem.onErr x y f) R := by
  intro h hk hc
  obtain ⟨k1, c1, q1⟩ := hx h hk hc
  unfold Mem.onErr
  rcases hxh : x h with ⟨r, h'⟩
  rw [hxh] at k1 c1 q1
  cases r with
  | ok a => exact hf a (q1 a rfl) h' k1 c1
  | err e => exact hy h' k1 c1
  | panic p => exact ⟨k1, c1, by simp⟩

theorem Clears.pure {a : α} {Q : α → Prop} (h : Q a) : Clears k (Pure.pure a : HM α) Q := by
  intro h' hk hc
  refine ⟨hk, hc, fun a' ha => ?_⟩
  cases ha
  exact h

/-- A computation that does not change the heap. -/
theorem Clears.read {m : HM α} (h : ∀ h, (m h).2 = h) : Clears k m fun _ => True := by
  intro h' hk hc
  rw [h]
  exact ⟨hk, hc, fun _ _ => trivial⟩

theorem Clears.lift (r : Res α) : Clears k (Mem.lift r) fun _ => True := Clears.read fun _ => rfl

theorem Clears.err (e : GoError) {Q : α → Prop} : Clears k (Mem.lift (.err e) : HM α) Q :=
  fun _ hk hc => ⟨hk, hc, by intro a ha; cases ha⟩

theorem Clears.panic (p : GoPanic) {Q : α → Prop} : Clears k (Mem.lift (.panic p) : HM α) Q :=
  fun _ hk hc => ⟨hk, hc, by intro a ha; cases ha⟩

theorem Clear.ints {h : Heap} (hc : Clear k h) (l : List Int) : Clear k { h with ints := l } := ⟨hc.privs, hc.pubs⟩

theorem Clears.newInt (v : Int) : Clears k (Mem.newInt v) (Above k) := by
  intro h hk hc
  refine ⟨by simp [Mem.newInt]; omega, hc.ints _, fun p hp => ?_⟩
  cases hp
  intro a ha
  cases ha
  exact hk

theorem Clears.writeInt (p : Ptr) (v : Int) : Clears k (Mem.writeInt p v) fun _ => True := by
  intro h hk hc
  unfold Mem.writeInt
  cases p with
  | none => exact ⟨hk, hc, fun _ _ => trivial⟩
  | some a =>
    simp only
    split
    · exact ⟨by simpa using hk, hc.ints _, fun _ _ => trivial⟩
    · exact ⟨hk, hc, fun _ _ => trivial⟩

theorem Clears.newPriv : Clears k Mem.newPriv fun _ => True := by
  intro h hk hc
  refine ⟨hk, ⟨fun o hm => ?_, hc.pubs⟩, fun _ _ => trivial⟩
  rcases List.mem_append.mp hm with hm | hm
  · exact hc.privs o hm
  · rw [List.mem_singleton.mp hm]; exact above_none _

theorem Clears.updPriv (a : Nat) {f : PrivObj → PrivObj} (hf : ∀ o, Above k o.Key → Above k (f o).Key) :
    Clears k (Mem.updPriv a f) fun _ => True := by
  intro h hk hc
  refine ⟨hk, ⟨fun o hm => ?_, hc.pubs⟩, fun _ _ => trivial⟩
  rcases mem_modify hm with hm | ⟨o', hm', rfl⟩
  · exact hc.privs o hm
  · exact hf _ (hc.privs o' hm')

theorem Clears.newPub : Clears k Mem.newPub fun _ => True := by
  intro h hk hc
  refine ⟨hk, ⟨hc.privs, fun o hm => ?_⟩, fun _ _ => trivial⟩
  rcases List.mem_append.mp hm with hm | hm
  · exact hc.pubs o hm
  · rw [List.mem_singleton.mp hm]; exact ⟨above_none _, above_none _⟩

theorem Clears.updPub (a : Nat) {f : PubObj → PubObj}
    (hf : ∀ o, Above k o.X → Above k o.Y → Above k (f o).X ∧ Above k (f o).Y) :
    Clears k (Mem.updPub a f) fun _ => True := by
  intro h hk hc
  refine ⟨hk, ⟨hc.privs, fun o hm => ?_⟩, fun _ _ => trivial⟩
  rcases mem_modify hm with hm | ⟨o', hm', rfl⟩
  · exact hc.pubs o hm
  · exact hf _ (hc.pubs o' hm').1 (hc.pubs o' hm').2

theorem Clears.bigAdd (z x y : Ptr) : Clears k (Mem.bigAdd z x y) fun _ => True :=
  .bind (.read fun _ => rfl) fun _ _ => .bind (.read fun _ => rfl) fun _ _ =>
    .bind (.writeInt _ _) fun _ _ => .pure trivial

theorem Clears.bigMul (z x y : Ptr) : Clears k (Mem.bigMul z x y) fun _ => True :=
  .bind (.read fun _ => rfl) fun _ _ => .bind (.read fun _ => rfl) fun _ _ =>
    .bind (.writeInt _ _) fun _ _ => .pure trivial

theorem Clears.bigMod (z x y : Ptr) : Clears k (Mem.bigMod z x y) fun _ => True := by
  refine .bind (.read fun _ => rfl) fun _ _ => .bind (.read fun _ => rfl) fun d _ => ?_
  split
  · exact .panic _
  · exact .bind (.writeInt _ _) fun _ _ => .pure trivial

theorem Clears.bigSet (z x : Ptr) : Clears k (Mem.bigSet z x) fun _ => True :=
  .bind (.read fun _ => rfl) fun _ _ => .bind (.writeInt _ _) fun _ _ => .pure trivial

theorem Clears.newSetString (s : GoString) (base : Nat) : Clears k (Mem.newSetString s base) (Above k) := by
  refine .bind (.newInt 0) fun z hz => ?_
  cases bigSetString s base with
  | none => exact .pure (above_none _)
  | some v => exact .bind (.writeInt z v) fun _ _ => .pure hz

end

/-! ## The functions of the repository -/

variable (H : Hashes) {k : Nat}

theorem clears_privateFromHex (hexa : GoString) (network : Ptr) :
    Clears k (privateFromHexM H hexa network) fun _ => True := by
  refine .bind .newPriv fun p _ => .bind (.newSetString _ _) fun key hk =>
    .bind (.updPriv p fun o _ => hk) fun _ _ => .bind (.updPriv p fun _ h => h) fun _ _ =>
    .bind (.read fun _ => rfl) fun net _ => .bind (.lift _) fun _ _ => .bind (.lift _) fun _ _ =>
    .bind (.lift _) fun _ _ => .bind (.updPriv p fun _ h => h) fun _ _ =>
    .bind (.updPriv p fun _ h => h) fun _ _ => .pure trivial

theorem clears_privateFromWIF (wif : GoString) (network : Ptr) :
    Clears k (privateFromWIFM H wif network) fun _ => True := by
  refine .bind (.lift _) fun valid _ => ?_
  cases valid with
  | false => exact .err _
  | true =>
    exact .bind (.lift _) fun _ _ => .bind (.lift _) fun _ _ => .bind (.lift _) fun _ _ =>
      .bind .newPriv fun p _ => .bind (.updPriv p fun _ h => h) fun _ _ =>
      .bind (.updPriv p fun _ h => h) fun _ _ => .bind (.newSetString _ _) fun key hk =>
      .bind (.updPriv p fun o _ => hk) fun _ _ => .bind (.updPriv p fun _ h => h) fun _ _ => .pure trivial

theorem clears_generateLoop (draw : Reader → Res (Nat × Reader)) (network : Ptr) :
    ∀ (fuel : Nat) (rd : Reader), Clears k (generateLoopM H draw network fuel rd) fun _ => True := by
  intro fuel
  induction fuel with
  | zero => intro rd; exact .panic _
  | succ fuel ih =>
    intro rd
    unfold generateLoopM generateRandomBigIntM
    rw [bind_assoc]
    refine .bind (.newSetString _ _) fun _ _ => ?_
    rw [bind_assoc]
    refine .bind (.lift _) fun r _ => ?_
    rw [bind_assoc]
    refine .bind (.newInt _) fun key hk => ?_
    rw [pure_bind]
    refine .bind (.read fun _ => rfl) fun hexa _ => ?_
    split
    · exact ih _
    · refine .onErr (clears_privateFromHex H _ _) (ih _) fun q _ => ?_
      cases q with
      | none => exact .panic _
      | some p => exact .bind (.updPriv p fun o _ => hk) fun _ _ => .pure trivial

theorem clears_generate (rd : Reader) (network : Ptr) :
    Clears k (generatePrivateKeyM H rd network) fun _ => True := by
  unfold generatePrivateKeyM
  generalize generateRandomBigInt = draw
  exact clears_generateLoop H draw network _ rd

theorem clears_addPrivateKeys (p1 p2 : Ptr) : Clears k (addPrivateKeysM H p1 p2) fun _ => True := by
  refine .bind (.read fun _ => rfl) fun o1 _ => .bind (.read fun _ => rfl) fun o2 _ =>
    .bind (.read fun _ => rfl) fun n1 _ => .bind (.read fun _ => rfl) fun n2 _ => ?_
  split
  · exact .err _
  · split
    · exact .err _
    · exact .bind (.newInt 0) fun z _ => .bind (.bigAdd _ _ _) fun _ _ =>
        .bind (.read fun _ => rfl) fun c _ => .bind (.bigMod _ _ _) fun _ _ =>
        .bind (.read fun _ => rfl) fun hexa _ => clears_privateFromHex H hexa _

theorem clears_multiplyPrivateKeys (p1 p2 : Ptr) : Clears k (multiplyPrivateKeysM H p1 p2) fun _ => True := by
  refine .bind (.read fun _ => rfl) fun o1 _ => .bind (.read fun _ => rfl) fun o2 _ =>
    .bind (.read fun _ => rfl) fun n1 _ => .bind (.read fun _ => rfl) fun n2 _ => ?_
  split
  · exact .err _
  · split
    · exact .err _
    · exact .bind (.newInt 0) fun z _ => .bind (.bigMul _ _ _) fun _ _ =>
        .bind (.read fun _ => rfl) fun c _ => .bind (.bigMod _ _ _) fun _ _ =>
        .bind (.read fun _ => rfl) fun hexa _ => clears_privateFromHex H hexa _

theorem clears_format (p : Ptr) (c : Bool) : Clears k (formatM p c) fun _ => True := by
  refine .bind (.read fun _ => rfl) fun o _ => .bind (.read fun _ => rfl) fun _ _ =>
    .bind (.read fun _ => rfl) fun _ _ => ?_
  cases c with
  | false => exact .lift _
  | true =>
    refine .bind (.read fun _ => rfl) fun y _ => ?_
    split <;> exact .lift _

theorem clears_address (p : Ptr) (c : Bool) : Clears k (addressM H p c) fun _ => True :=
  .bind (clears_format p c) fun _ _ => .bind (.lift _) fun _ _ => .bind (.read fun _ => rfl) fun _ _ =>
    .bind (.read fun _ => rfl) fun _ _ => .bind (.lift _) fun _ _ => .bind (.lift _) fun _ _ =>
    .bind (.lift _) fun _ _ => .lift _

/-- What is assumed in addition of the curve package: the numbers it returns are allocated by it, they are not its
arguments or other numbers that existed before. -/
structure EcdsaM.Fresh (E : EcdsaM) : Prop where
  getY : ∀ h x r, (E.getY x h).1 = .ok r → FreshInt h r.1
  multMod : ∀ h x y r, (E.multMod x y h).1 = .ok r → FreshInt h r
  scalarMult : ∀ h k p r, (E.scalarMult k p h).1 = .ok r → FreshInt h r.1.1 ∧ FreshInt h r.1.2
  addPoints : ∀ h p q r, (E.addPoints p q h).1 = .ok r → FreshInt h r.1.1 ∧ FreshInt h r.1.2

theorem AllocInts.clears {α : Type} {m : HM α} {P : α → Nat → Prop} {Q : α → Prop} (h : AllocInts m P)
    (hq : ∀ h a, k ≤ h.ints.length → (m h).1 = .ok a → Q a) : Clears k m Q := by
  intro h' hk hc
  obtain ⟨l, e, -⟩ := h h'
  refine ⟨?_, ?_, fun a ha => hq h' a hk ha⟩
  · rw [e]
    simp
    omega
  · rw [e]
    exact hc.ints _

theorem FreshInt.above {h : Heap} {p : Ptr} (hp : FreshInt h p) (hk : k ≤ h.ints.length) : Above k p :=
  fun a ha => le_trans hk (hp a ha)

variable {E : EcdsaM} (hE : E.Allocs) (hF : E.Fresh)
include hE hF

theorem clears_getY (x : Ptr) : Clears k (E.getY x) fun r => Above k r.1 := by
  obtain ⟨n, hn⟩ := exists_below x
  exact (hE.getY n x hn).clears fun h a hk ha => (hF.getY h x a ha).above hk

theorem clears_multMod (x y : Ptr) : Clears k (E.multMod x y) (Above k) := by
  obtain ⟨n, hn⟩ := exists_below x
  obtain ⟨n', hn'⟩ := exists_below y
  exact (hE.multMod (n + n') x y (hn.mono (by omega)) (hn'.mono (by omega))).clears
    fun h a hk ha => (hF.multMod h x y a ha).above hk

theorem clears_scalarMult (x : Ptr) (p : Ptr × Ptr) :
    Clears k (E.scalarMult x p) fun r => Above k r.1.1 ∧ Above k r.1.2 := by
  obtain ⟨n, hn⟩ := exists_below x
  obtain ⟨n₁, h₁⟩ := exists_below p.1
  obtain ⟨n₂, h₂⟩ := exists_below p.2
  exact (hE.scalarMult (n + n₁ + n₂) x p (hn.mono (by omega)) (h₁.mono (by omega)) (h₂.mono (by omega))).clears
    fun h a hk ha => ⟨(hF.scalarMult h x p a ha).1.above hk, (hF.scalarMult h x p a ha).2.above hk⟩

theorem clears_addPoints (p q : Ptr × Ptr) :
    Clears k (E.addPoints p q) fun r => Above k r.1.1 ∧ Above k r.1.2 := by
  obtain ⟨n₁, h₁⟩ := exists_below p.1
  obtain ⟨n₂, h₂⟩ := exists_below p.2
  obtain ⟨n₃, h₃⟩ := exists_below q.1
  obtain ⟨n₄, h₄⟩ := exists_below q.2
  exact (hE.addPoints (n₁ + n₂ + n₃ + n₄) p q (h₁.mono (by omega)) (h₂.mono (by omega)) (h₃.mono (by omega))
    (h₄.mono (by omega))).clears
    fun h a hk ha => ⟨(hF.addPoints h p q a ha).1.above hk, (hF.addPoints h p q a ha).2.above hk⟩

theorem clears_publicFromHex (hexa : GoString) (network : Ptr) :
    Clears k (publicFromHexM E hexa network) fun _ => True := by
  refine .bind .newPub fun p _ => .bind (.updPub p fun _ hx hy => ⟨hx, hy⟩) fun _ _ =>
    .bind (.lift _) fun pre _ => ?_
  split
  · exact .bind (.lift _) fun x _ => .bind (.lift _) fun y _ => .bind (.newSetString _ _) fun X hX =>
      .bind (.updPub p fun _ _ hy => ⟨hX, hy⟩) fun _ _ => .bind (.newSetString _ _) fun Y hY =>
      .bind (.updPub p fun _ hx _ => ⟨hx, hY⟩) fun _ _ => .pure trivial
  · split
    · refine .bind (.lift _) fun x _ => .bind (.newSetString _ _) fun X hX =>
        .bind (.updPub p fun _ _ hy => ⟨hX, hy⟩) fun _ _ => .bind (clears_getY hE hF X) fun r hr => ?_
      rcases r with ⟨y, onCurve⟩
      cases onCurve with
      | false => exact .err _
      | true =>
        refine .bind (.newInt 0) fun parity _ => .bind (.writeInt _ _) fun _ _ =>
          .bind (.newInt 0) fun yMod _ => .bind (.bigSet _ _) fun yMod' _ =>
          .bind (.newInt 2) fun two _ => .bind (.bigMod _ _ _) fun yMod'' _ =>
          .bind (.read fun _ => rfl) fun m _ => .bind (.read fun _ => rfl) fun par _ => ?_
        split
        · exact .bind (.newInt (-1)) fun mo _ => .bind (clears_multMod hE hF y mo) fun y' hy' =>
            .bind (.updPub p fun _ hx _ => ⟨hx, hy'⟩) fun _ _ => .pure trivial
        · exact .bind (.updPub p fun _ hx _ => ⟨hx, hr⟩) fun _ _ => .pure trivial
    · exact .err _

theorem clears_getPublicKey (p : Ptr) : Clears k (getPublicKeyM E p) fun _ => True := by
  refine .bind .newPub fun q _ => .bind (.read fun _ => rfl) fun o _ => .bind (.read fun _ => rfl) fun c _ =>
    .bind (clears_scalarMult hE hF o.Key (c.GX, c.GY)) fun r hr => ?_
  rcases r with ⟨⟨x, y⟩, valid⟩
  cases valid with
  | false => exact .pure trivial
  | true =>
    exact .bind (.updPub q fun _ _ hy => ⟨hr.1, hy⟩) fun _ _ => .bind (.updPub q fun _ hx _ => ⟨hx, hr.2⟩) fun _ _ =>
      .bind (.updPub q fun _ hx hy => ⟨hx, hy⟩) fun _ _ => .pure trivial

theorem clears_addPublicKeys (p1 p2 : Ptr) (c : Bool) : Clears k (addPublicKeysM E p1 p2 c) fun _ => True := by
  refine .bind (.read fun _ => rfl) fun o1 _ => .bind (.read fun _ => rfl) fun o2 _ =>
    .bind (.read fun _ => rfl) fun n1 _ => .bind (.read fun _ => rfl) fun n2 _ => ?_
  split
  · exact .err _
  · refine .bind (clears_addPoints hE hF (o1.X, o1.Y) (o2.X, o2.Y)) fun r hr => ?_
    rcases r with ⟨⟨x, y⟩, onCurve⟩
    cases onCurve with
    | false => exact .err _
    | true => exact .bind .newPub fun q _ => .bind (.updPub q fun _ _ _ => ⟨hr.1, hr.2⟩) fun _ _ => .pure trivial

omit hE hF

theorem alloc2_fresh (u v : Option Int) (b : Bool) (h : Heap) (r : (Ptr × Ptr) × Bool)
    (hr : ((do let x ← allocOpt u; let y ← allocOpt v; pure ((x, y), b) : HM ((Ptr × Ptr) × Bool)) h).1 = .ok r) :
    FreshInt h r.1.1 ∧ FreshInt h r.1.2 := by
  obtain ⟨x, l, e, -, -, hx⟩ := allocOpt_run u h
  obtain ⟨y, l', e', -, -, hy⟩ := allocOpt_run v { h with ints := h.ints ++ l }
  rw [bind_run, e] at hr
  simp only at hr
  rw [bind_run, e'] at hr
  cases hr
  refine ⟨hx, fun a ha => le_trans ?_ (hy a ha)⟩
  simp

theorem EcdsaM.ofValue_fresh (V : Ecdsa) : (EcdsaM.ofValue V).Fresh := by
  refine ⟨fun h x r hr => ?_, fun h x y r hr => ?_, fun h k p r hr => ?_, fun h p q r hr => ?_⟩
  · simp only [EcdsaM.ofValue, withHeap_bind] at hr
    cases hv : V.getY (curveValue h) (loadInt h x) with
    | ok v =>
      rw [hv] at hr
      obtain ⟨p, l, e, -, -, hf⟩ := allocOpt_run v.1 h
      simp only [bind_run, e] at hr
      cases hr
      exact hf
    | err e => rw [hv] at hr; cases hr
    | panic e => rw [hv] at hr; cases hr
  · simp only [EcdsaM.ofValue, withHeap_bind] at hr
    cases hv : (deref (loadInt h y) >>= fun k => V.multMod (curveValue h) (loadInt h x) k) with
    | ok v =>
      rw [hv] at hr
      obtain ⟨p, l, e, -, -, hf⟩ := allocOpt_run v h
      simp only [e] at hr
      cases hr
      exact hf
    | err e => rw [hv] at hr; cases hr
    | panic e => rw [hv] at hr; cases hr
  · simp only [EcdsaM.ofValue, withHeap_bind] at hr
    cases hv : V.scalarMult (curveValue h) (loadInt h k) ⟨loadInt h p.1, loadInt h p.2⟩ with
    | ok v => rw [hv] at hr; exact alloc2_fresh _ _ _ h r hr
    | err e => rw [hv] at hr; cases hr
    | panic e => rw [hv] at hr; cases hr
  · simp only [EcdsaM.ofValue, withHeap_bind] at hr
    cases hv : V.addPoints (curveValue h) ⟨loadInt h p.1, loadInt h p.2⟩ ⟨loadInt h q.1, loadInt h q.2⟩ with
    | ok v => rw [hv] at hr; exact alloc2_fresh _ _ _ h r hr
    | err e => rw [hv] at hr; cases hr
    | panic e => rw [hv] at hr; cases hr

end Btc.Mem
