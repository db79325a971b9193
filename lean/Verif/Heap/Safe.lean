import Verif.Heap.Refine

/-!
# Every pointer stays valid, and sequences of calls
-/

namespace Btc.Mem

/-- Nil or an address below `n`. -/
def Below (n : Nat) (p : Ptr) : Prop := ∀ a, p = some a → a < n

instance (n : Nat) (p : Ptr) : Decidable (Below n p) :=
  match p with
  | none => .isTrue (by intro a ha; cases ha)
  | some b => if h : b < n then .isTrue (by intro a ha; cases ha; exact h) else .isFalse fun hb => h (hb b rfl)

theorem Below.mono {n m : Nat} (h : n ≤ m) {p : Ptr} (hp : Below n p) : Below m p :=
  fun a ha => lt_of_lt_of_le (hp a ha) h

theorem below_none (n : Nat) : Below n none := by intro a ha; cases ha

/-- The numbers referred to by key objects and by the generator of the package variable exist. -/
structure Objs (h : Heap) : Prop where
  privs : ∀ o ∈ h.privs, Below h.ints.length o.Key
  pubs : ∀ o ∈ h.pubs, Below h.ints.length o.X ∧ Below h.ints.length o.Y
  gen : Below h.ints.length h.curve.GX ∧ Below h.ints.length h.curve.GY

/-- `m` keeps all pointers valid (also when it fails), given that at least `n` numbers exist. -/
def Safe {α : Type} (n : Nat) (m : HM α) (Q : α → Nat → Prop) : Prop :=
  ∀ h, n ≤ h.ints.length → Objs h →
    Objs (m h).2 ∧ h.ints.length ≤ (m h).2.ints.length ∧ ∀ a, (m h).1 = .ok a → Q a (m h).2.ints.length

section
variable {α β : Type} {n : Nat}

theorem Safe.bind {x : HM α} {f : α → HM β} {Q : α → Nat → Prop} {R : β → Nat → Prop} (hx : Safe n x Q)
    (hf : ∀ a m, n ≤ m → Q a m → Safe m (f a) R) : Safe n (x >>= f) R := by
  intro h hn ho
  obtain ⟨o1, l1, q1⟩ := hx h hn ho
  rw [bind_run]
  rcases hxh : x h with ⟨r, h'⟩
  rw [hxh] at o1 l1 q1
  cases r with
  | ok a =>
    obtain ⟨o2, l2, q2⟩ := hf a _ (le_trans hn l1) (q1 a rfl) h' le_rfl o1
    exact ⟨o2, le_trans l1 l2, q2⟩
  | err e => exact ⟨o1, l1, by simp⟩
  | panic p => exact ⟨o1, l1, by simp⟩

theorem Safe.onErr {x : HM α} {y : HM β} {f : α → HM β} {Q : α → Nat → Prop} {R : β → Nat → Prop}
    (hx : Safe n x Q) (hy : Safe n y R) (hf : ∀ a m, n ≤ m → Q a m → Safe m (f a) R) :
    Safe n (Mem.onErr x y f) R := by
  intro h hn ho
  obtain ⟨o1, l1, q1⟩ := hx h hn ho
  unfold Mem.onErr
  rcases hxh : x h with ⟨r, h'⟩
  rw [hxh] at o1 l1 q1
  cases r with
  | ok a =>
    obtain ⟨o2, l2, q2⟩ := hf a _ (le_trans hn l1) (q1 a rfl) h' le_rfl o1
    exact ⟨o2, le_trans l1 l2, q2⟩
  | err e =>
    obtain ⟨o2, l2, q2⟩ := hy h' (le_trans hn l1) o1
    exact ⟨o2, le_trans l1 l2, q2⟩
  | panic p => exact ⟨o1, l1, by simp⟩

theorem Safe.pure {a : α} {Q : α → Nat → Prop} (h : ∀ m, n ≤ m → Q a m) : Safe n (Pure.pure a : HM α) Q := by
  intro h' hn ho
  refine ⟨ho, le_rfl, fun a' ha => ?_⟩
  cases ha
  exact h _ hn

/-- A computation that does not change the heap. -/
theorem Safe.read {m : HM α} (h : ∀ h, (m h).2 = h) : Safe n m fun _ _ => True := by
  intro h' hn ho
  rw [h]
  exact ⟨ho, le_rfl, fun _ _ => trivial⟩

theorem Safe.lift (r : Res α) : Safe n (Mem.lift r) fun _ _ => True := Safe.read fun _ => rfl

theorem Safe.err (e : GoError) {Q : α → Nat → Prop} : Safe n (Mem.lift (.err e) : HM α) Q :=
  fun _ _ ho => ⟨ho, le_rfl, by intro a ha; cases ha⟩

theorem Safe.panic (p : GoPanic) {Q : α → Nat → Prop} : Safe n (Mem.lift (.panic p) : HM α) Q :=
  fun _ _ ho => ⟨ho, le_rfl, by intro a ha; cases ha⟩

theorem Objs.ints {h : Heap} (ho : Objs h) {l : List Int} (hl : h.ints.length ≤ l.length) :
    Objs { h with ints := l } :=
  ⟨fun o hm => (ho.privs o hm).mono hl, fun o hm => ⟨(ho.pubs o hm).1.mono hl, (ho.pubs o hm).2.mono hl⟩,
    ho.gen.1.mono hl, ho.gen.2.mono hl⟩

theorem Safe.newInt (v : Int) : Safe n (Mem.newInt v) fun p m => Below m p := by
  intro h hn ho
  refine ⟨ho.ints (by simp), by simp [Mem.newInt], fun p hp => ?_⟩
  cases hp
  intro a ha
  cases ha
  simp [Mem.newInt]

theorem Safe.writeInt (p : Ptr) (v : Int) : Safe n (Mem.writeInt p v) fun _ _ => True := by
  intro h hn ho
  unfold Mem.writeInt
  cases p with
  | none => exact ⟨ho, le_rfl, fun _ _ => trivial⟩
  | some a =>
    simp only
    split
    · exact ⟨ho.ints (by simp), by simp, fun _ _ => trivial⟩
    · exact ⟨ho, le_rfl, fun _ _ => trivial⟩

theorem Safe.newPriv : Safe n Mem.newPriv fun _ _ => True := by
  intro h hn ho
  refine ⟨⟨fun o hm => ?_, ho.pubs, ho.gen⟩, le_rfl, fun _ _ => trivial⟩
  rcases List.mem_append.mp hm with hm | hm
  · exact ho.privs o hm
  · rw [List.mem_singleton.mp hm]; exact below_none _

theorem mem_modify {α : Type} {l : List α} {a : Nat} {f : α → α} {o : α} (h : o ∈ l.modify a f) :
    o ∈ l ∨ ∃ o' ∈ l, o = f o' := by
  obtain ⟨j, hj⟩ := List.mem_iff_getElem?.mp h
  rw [List.getElem?_modify] at hj
  cases hl : l[j]? with
  | none => rw [hl] at hj; simp at hj
  | some x =>
    rw [hl] at hj
    have hx : x ∈ l := List.mem_iff_getElem?.mpr ⟨j, hl⟩
    by_cases e : a = j
    · simp [e] at hj
      exact .inr ⟨x, hx, hj.symm⟩
    · simp [e] at hj
      exact .inl (hj ▸ hx)

theorem Safe.updPriv (a : Nat) {f : PrivObj → PrivObj}
    (hf : ∀ m o, n ≤ m → Below m o.Key → Below m (f o).Key) : Safe n (Mem.updPriv a f) fun _ _ => True := by
  intro h hn ho
  refine ⟨⟨fun o hm => ?_, ho.pubs, ho.gen⟩, le_rfl, fun _ _ => trivial⟩
  rcases mem_modify hm with hm | ⟨o', hm', rfl⟩
  · exact ho.privs o hm
  · exact hf _ _ hn (ho.privs o' hm')

theorem Safe.newPub : Safe n Mem.newPub fun _ _ => True := by
  intro h hn ho
  refine ⟨⟨ho.privs, fun o hm => ?_, ho.gen⟩, le_rfl, fun _ _ => trivial⟩
  rcases List.mem_append.mp hm with hm | hm
  · exact ho.pubs o hm
  · rw [List.mem_singleton.mp hm]; exact ⟨below_none _, below_none _⟩

theorem Safe.updPub (a : Nat) {f : PubObj → PubObj}
    (hf : ∀ m o, n ≤ m → Below m o.X → Below m o.Y → Below m (f o).X ∧ Below m (f o).Y) :
    Safe n (Mem.updPub a f) fun _ _ => True := by
  intro h hn ho
  refine ⟨⟨ho.privs, fun o hm => ?_, ho.gen⟩, le_rfl, fun _ _ => trivial⟩
  rcases mem_modify hm with hm | ⟨o', hm', rfl⟩
  · exact ho.pubs o hm
  · exact hf _ _ hn (ho.pubs o' hm').1 (ho.pubs o' hm').2

theorem Safe.readPriv (p : Ptr) : Safe n (Mem.readPriv p) fun o m => Below m o.Key := by
  intro h hn ho
  refine ⟨ho, le_rfl, fun o hp => ?_⟩
  cases p with
  | none => cases hp
  | some a =>
    have hl : deref h.privs[a]? = .ok o := hp
    cases hg : h.privs[a]? with
    | none => rw [hg] at hl; cases hl
    | some o' =>
      rw [hg] at hl
      cases hl
      exact ho.privs o (List.mem_iff_getElem?.mpr ⟨a, hg⟩)

theorem Safe.readCurve : Safe n Mem.readCurve fun c m => Below m c.GX ∧ Below m c.GY := by
  intro h hn ho
  refine ⟨ho, le_rfl, fun c hc => ?_⟩
  cases hc
  exact ho.gen

theorem Safe.readPub (p : Ptr) : Safe n (Mem.readPub p) fun o m => Below m o.X ∧ Below m o.Y := by
  intro h hn ho
  refine ⟨ho, le_rfl, fun o hp => ?_⟩
  cases p with
  | none => cases hp
  | some a =>
    have hl : deref h.pubs[a]? = .ok o := hp
    cases hg : h.pubs[a]? with
    | none => rw [hg] at hl; cases hl
    | some o' =>
      rw [hg] at hl
      cases hl
      exact ho.pubs o (List.mem_iff_getElem?.mpr ⟨a, hg⟩)

theorem Safe.bigAdd (z x y : Ptr) : Safe n (Mem.bigAdd z x y) fun _ _ => True :=
  .bind (.read fun _ => rfl) fun _ _ _ _ => .bind (.read fun _ => rfl) fun _ _ _ _ =>
    .bind (.writeInt _ _) fun _ _ _ _ => .pure fun _ _ => trivial

theorem Safe.bigMul (z x y : Ptr) : Safe n (Mem.bigMul z x y) fun _ _ => True :=
  .bind (.read fun _ => rfl) fun _ _ _ _ => .bind (.read fun _ => rfl) fun _ _ _ _ =>
    .bind (.writeInt _ _) fun _ _ _ _ => .pure fun _ _ => trivial

theorem Safe.bigMod (z x y : Ptr) : Safe n (Mem.bigMod z x y) fun _ _ => True := by
  refine .bind (.read fun _ => rfl) fun _ _ _ _ => .bind (.read fun _ => rfl) fun d _ _ _ => ?_
  split
  · exact .panic _
  · exact .bind (.writeInt _ _) fun _ _ _ _ => .pure fun _ _ => trivial

theorem Safe.bigSet (z x : Ptr) : Safe n (Mem.bigSet z x) fun _ _ => True :=
  .bind (.read fun _ => rfl) fun _ _ _ _ => .bind (.writeInt _ _) fun _ _ _ _ => .pure fun _ _ => trivial

theorem Safe.newSetString (s : GoString) (base : Nat) : Safe n (Mem.newSetString s base) fun p m => Below m p := by
  refine .bind (.newInt 0) fun z m _ hz => ?_
  cases bigSetString s base with
  | none => exact .pure fun _ _ => below_none _
  | some v => exact .bind (.writeInt z v) fun _ m' hm _ => .pure fun m'' hm' => hz.mono (le_trans hm hm')

end

/-! ## The functions of the repository -/

variable (H : Hashes) {n : Nat}

theorem safe_privateFromHex (hexa : GoString) (network : Ptr) :
    Safe n (privateFromHexM H hexa network) fun _ _ => True := by
  refine .bind .newPriv fun p _ _ _ => .bind (.newSetString _ _) fun key m _ hk =>
    .bind (.updPriv p fun m' o hm _ => hk.mono hm) fun _ _ _ _ => .bind (.updPriv p fun _ _ _ h => h) fun _ _ _ _ =>
    .bind (.read fun _ => rfl) fun net _ _ _ => .bind (.lift _) fun _ _ _ _ => .bind (.lift _) fun _ _ _ _ =>
    .bind (.lift _) fun _ _ _ _ => .bind (.updPriv p fun _ _ _ h => h) fun _ _ _ _ =>
    .bind (.updPriv p fun _ _ _ h => h) fun _ _ _ _ => .pure fun _ _ => trivial

theorem safe_privateFromWIF (wif : GoString) (network : Ptr) :
    Safe n (privateFromWIFM H wif network) fun _ _ => True := by
  refine .bind (.lift _) fun valid _ _ _ => ?_
  cases valid with
  | false => exact .err _
  | true =>
    exact .bind (.lift _) fun _ _ _ _ => .bind (.lift _) fun _ _ _ _ => .bind (.lift _) fun _ _ _ _ =>
      .bind .newPriv fun p _ _ _ => .bind (.updPriv p fun _ _ _ h => h) fun _ _ _ _ =>
      .bind (.updPriv p fun _ _ _ h => h) fun _ _ _ _ => .bind (.newSetString _ _) fun key m _ hk =>
      .bind (.updPriv p fun m' o hm _ => hk.mono hm) fun _ _ _ _ => .bind (.updPriv p fun _ _ _ h => h) fun _ _ _ _ =>
      .pure fun _ _ => trivial

theorem safe_generateLoop (draw : Reader → Res (Nat × Reader)) (network : Ptr) :
    ∀ (fuel : Nat) (rd : Reader) (n : Nat), Safe n (generateLoopM H draw network fuel rd) fun _ _ => True := by
  intro fuel
  induction fuel with
  | zero => intro rd n; exact .panic _
  | succ fuel ih =>
    intro rd n
    unfold generateLoopM generateRandomBigIntM
    rw [bind_assoc]
    refine .bind (.newSetString _ _) fun _ _ _ _ => ?_
    rw [bind_assoc]
    refine .bind (.lift _) fun r _ _ _ => ?_
    rw [bind_assoc]
    refine .bind (.newInt _) fun key m _ hk => ?_
    rw [pure_bind]
    refine .bind (.read fun _ => rfl) fun hexa m2 hm2 _ => ?_
    split
    · exact ih _ _
    · refine .onErr (safe_privateFromHex H _ _) (ih _ _) fun q m3 hm3 _ => ?_
      cases q with
      | none => exact .panic _
      | some p =>
        exact .bind (.updPriv p fun m' o hm _ => hk.mono (le_trans hm2 (le_trans hm3 hm))) fun _ _ _ _ =>
          .pure fun _ _ => trivial

theorem safe_generate (rd : Reader) (network : Ptr) :
    Safe n (generatePrivateKeyM H rd network) fun _ _ => True := by
  unfold generatePrivateKeyM
  generalize generateRandomBigInt = draw
  exact safe_generateLoop H draw network _ rd n

theorem safe_addPrivateKeys (p1 p2 : Ptr) : Safe n (addPrivateKeysM H p1 p2) fun _ _ => True := by
  refine .bind (.readPriv _) fun o1 _ _ _ => .bind (.readPriv _) fun o2 _ _ _ =>
    .bind (.read fun _ => rfl) fun n1 _ _ _ => .bind (.read fun _ => rfl) fun n2 _ _ _ => ?_
  split
  · exact .err _
  · split
    · exact .err _
    · exact .bind (.newInt 0) fun z _ _ _ => .bind (.bigAdd _ _ _) fun _ _ _ _ =>
        .bind (.read fun _ => rfl) fun c _ _ _ => .bind (.bigMod _ _ _) fun _ _ _ _ =>
        .bind (.read fun _ => rfl) fun hexa _ _ _ => safe_privateFromHex H hexa _

theorem safe_multiplyPrivateKeys (p1 p2 : Ptr) : Safe n (multiplyPrivateKeysM H p1 p2) fun _ _ => True := by
  refine .bind (.readPriv _) fun o1 _ _ _ => .bind (.readPriv _) fun o2 _ _ _ =>
    .bind (.read fun _ => rfl) fun n1 _ _ _ => .bind (.read fun _ => rfl) fun n2 _ _ _ => ?_
  split
  · exact .err _
  · split
    · exact .err _
    · exact .bind (.newInt 0) fun z _ _ _ => .bind (.bigMul _ _ _) fun _ _ _ _ =>
        .bind (.read fun _ => rfl) fun c _ _ _ => .bind (.bigMod _ _ _) fun _ _ _ _ =>
        .bind (.read fun _ => rfl) fun hexa _ _ _ => safe_privateFromHex H hexa _

/-- `m` only allocates numbers, also when it fails; `Q` holds of its result. -/
def AllocInts {α : Type} (m : HM α) (Q : α → Nat → Prop) : Prop :=
  ∀ h, ∃ l, (m h).2 = { h with ints := h.ints ++ l } ∧ ∀ a, (m h).1 = .ok a → Q a (h.ints.length + l.length)

/-- What is assumed of the memory behaviour of the curve package (its source is not in the repository): its methods
allocate numbers, write to no number that existed before the call, and return pointers to numbers that exist. -/
structure EcdsaM.Allocs (E : EcdsaM) : Prop where
  getY : ∀ n x, Below n x → AllocInts (E.getY x) fun r m => n ≤ m → Below m r.1
  multMod : ∀ n x y, Below n x → Below n y → AllocInts (E.multMod x y) fun r m => n ≤ m → Below m r
  scalarMult : ∀ n k p, Below n k → Below n p.1 → Below n p.2 →
    AllocInts (E.scalarMult k p) fun r m => n ≤ m → Below m r.1.1 ∧ Below m r.1.2
  addPoints : ∀ n p q, Below n p.1 → Below n p.2 → Below n q.1 → Below n q.2 →
    AllocInts (E.addPoints p q) fun r m => n ≤ m → Below m r.1.1 ∧ Below m r.1.2

theorem AllocInts.safe {α : Type} {m : HM α} {n : Nat} {Q : α → Nat → Prop}
    (h : AllocInts m fun r k => n ≤ k → Q r k) : Safe n m Q := by
  intro h' hn ho
  obtain ⟨l, e, q⟩ := h h'
  rw [e]
  refine ⟨ho.ints (by simp), by simp, fun a ha => ?_⟩
  have := q a ha (by omega)
  simpa using this

theorem AllocInts.keeps {α : Type} {m : HM α} {Q : α → Nat → Prop} (h : AllocInts m Q) (b : Heap) :
    Keeps b m fun _ => True := by
  intro h' hg
  obtain ⟨l, e, -⟩ := h h'
  rw [e]
  exact ⟨⟨hg.ints.trans (List.prefix_append _ _), hg.nets, hg.privs, hg.pubs, hg.curve⟩, fun _ _ => trivial⟩

theorem exists_below (p : Ptr) : ∃ n, Below n p := by
  cases p with
  | none => exact ⟨0, below_none 0⟩
  | some a => exact ⟨a + 1, by intro b hb; cases hb; omega⟩

theorem EcdsaM.Allocs.frames {E : EcdsaM} (hE : E.Allocs) : E.Frames := by
  refine ⟨fun b x => ?_, fun b x y => ?_, fun b k p => ?_, fun b p q => ?_⟩
  · obtain ⟨n, hn⟩ := exists_below x
    exact (hE.getY n x hn).keeps b
  · obtain ⟨n, hn⟩ := exists_below x
    obtain ⟨n', hn'⟩ := exists_below y
    exact (hE.multMod (n + n') x y (hn.mono (by omega)) (hn'.mono (by omega))).keeps b
  · obtain ⟨n, hn⟩ := exists_below k
    obtain ⟨n₁, h₁⟩ := exists_below p.1
    obtain ⟨n₂, h₂⟩ := exists_below p.2
    exact (hE.scalarMult (n + n₁ + n₂) k p (hn.mono (by omega)) (h₁.mono (by omega)) (h₂.mono (by omega))).keeps b
  · obtain ⟨n₁, h₁⟩ := exists_below p.1
    obtain ⟨n₂, h₂⟩ := exists_below p.2
    obtain ⟨n₃, h₃⟩ := exists_below q.1
    obtain ⟨n₄, h₄⟩ := exists_below q.2
    exact (hE.addPoints (n₁ + n₂ + n₃ + n₄) p q (h₁.mono (by omega)) (h₂.mono (by omega)) (h₃.mono (by omega))
      (h₄.mono (by omega))).keeps b

variable {E : EcdsaM} (hE : E.Allocs)
include hE

theorem safe_publicFromHex (hexa : GoString) (network : Ptr) :
    Safe n (publicFromHexM E hexa network) fun _ _ => True := by
  refine .bind .newPub fun p _ _ _ => .bind (.updPub p fun _ _ _ hx hy => ⟨hx, hy⟩) fun _ _ _ _ =>
    .bind (.lift _) fun pre _ _ _ => ?_
  split
  · exact .bind (.lift _) fun x _ _ _ => .bind (.lift _) fun y _ _ _ => .bind (.newSetString _ _) fun X m _ hX =>
      .bind (.updPub p fun _ _ hm _ hy => ⟨hX.mono hm, hy⟩) fun _ _ _ _ => .bind (.newSetString _ _) fun Y m _ hY =>
      .bind (.updPub p fun _ _ hm hx _ => ⟨hx, hY.mono hm⟩) fun _ _ _ _ => .pure fun _ _ => trivial
  · split
    · refine .bind (.lift _) fun x _ _ _ => .bind (.newSetString _ _) fun X m _ hX =>
        .bind (.updPub p fun _ _ hm _ hy => ⟨hX.mono hm, hy⟩) fun _ m' hm' _ =>
        .bind (hE.getY m' X (hX.mono hm')).safe fun r m2 hm2 hr => ?_
      rcases r with ⟨y, onCurve⟩
      cases onCurve with
      | false => exact .err _
      | true =>
        refine .bind (.newInt 0) fun parity m3 hm3 _ => .bind (.writeInt _ _) fun _ m4 hm4 _ =>
          .bind (.newInt 0) fun yMod m5 hm5 _ => .bind (.bigSet _ _) fun yMod' m6 hm6 _ =>
          .bind (.newInt 2) fun two m7 hm7 _ => .bind (.bigMod _ _ _) fun yMod'' m8 hm8 _ =>
          .bind (.read fun _ => rfl) fun m m9 hm9 _ => .bind (.read fun _ => rfl) fun par m10 hm10 _ => ?_
        have hy : Below m10 y := hr.mono (by omega)
        split
        · exact .bind (.newInt (-1)) fun mo m11 hm11 hmo =>
            .bind (hE.multMod m11 y mo (hy.mono hm11) hmo).safe fun y' m12 _ hy' =>
            .bind (.updPub p fun _ _ hm hx _ => ⟨hx, hy'.mono hm⟩) fun _ _ _ _ => .pure fun _ _ => trivial
        · exact .bind (.updPub p fun _ _ hm hx _ => ⟨hx, hy.mono hm⟩) fun _ _ _ _ => .pure fun _ _ => trivial
    · exact .err _

theorem safe_getPublicKey (p : Ptr) : Safe n (getPublicKeyM E p) fun _ _ => True := by
  refine .bind .newPub fun k _ _ _ => .bind (.readPriv _) fun o m hm ho => .bind .readCurve fun c m' hm' hc =>
    .bind (hE.scalarMult m' o.Key (c.GX, c.GY) (ho.mono hm') hc.1 hc.2).safe fun r m2 _ hr => ?_
  rcases r with ⟨⟨x, y⟩, valid⟩
  cases valid with
  | false => exact .pure fun _ _ => trivial
  | true =>
    exact .bind (.updPub k fun _ _ hm _ hy => ⟨hr.1.mono hm, hy⟩) fun _ m3 hm3 _ =>
      .bind (.updPub k fun _ _ hm hx _ => ⟨hx, hr.2.mono (le_trans hm3 hm)⟩) fun _ _ _ _ =>
      .bind (.updPub k fun _ _ hm hx hy => ⟨hx, hy⟩) fun _ _ _ _ => .pure fun _ _ => trivial

theorem safe_addPublicKeys (p1 p2 : Ptr) (c : Bool) : Safe n (addPublicKeysM E p1 p2 c) fun _ _ => True := by
  refine .bind (.readPub _) fun o1 m hm h1 => .bind (.readPub _) fun o2 m' hm' h2 =>
    .bind (.read fun _ => rfl) fun n1 m2 hm2 _ => .bind (.read fun _ => rfl) fun n2 m3 hm3 _ => ?_
  split
  · exact .err _
  · refine .bind (hE.addPoints m3 (o1.X, o1.Y) (o2.X, o2.Y) (h1.1.mono (by omega)) (h1.2.mono (by omega))
      (h2.1.mono (by omega)) (h2.2.mono (by omega))).safe fun r m4 _ hr => ?_
    rcases r with ⟨⟨x, y⟩, onCurve⟩
    cases onCurve with
    | false => exact .err _
    | true =>
      exact .bind .newPub fun k m5 hm5 _ =>
        .bind (.updPub k fun _ _ hm _ _ => ⟨hr.1.mono (le_trans hm5 hm), hr.2.mono (le_trans hm5 hm)⟩)
          fun _ _ _ _ => .pure fun _ _ => trivial

omit hE

/-! ## An implementation of the curve package on the heap -/

/-- Allocate a number, if there is one. -/
def allocOpt : Option Int → HM Ptr
  | none => pure none
  | some v => newInt v

/-- Look at the heap without changing it. -/
def withHeap {α : Type} (f : Heap → Res α) : HM α := fun h => (f h, h)

/-- The methods on values, with every result allocated anew. -/
def EcdsaM.ofValue (V : Ecdsa) : EcdsaM where
  getY x := do
    let r ← withHeap fun h => V.getY (curveValue h) (loadInt h x)
    let y ← allocOpt r.1
    pure (y, r.2)
  multMod x y := do
    let r ← withHeap fun h => do
      let k ← deref (loadInt h y)
      V.multMod (curveValue h) (loadInt h x) k
    allocOpt r
  scalarMult k p := do
    let r ← withHeap fun h => V.scalarMult (curveValue h) (loadInt h k) ⟨loadInt h p.1, loadInt h p.2⟩
    let x ← allocOpt r.1.X
    let y ← allocOpt r.1.Y
    pure ((x, y), r.2)
  addPoints p q := do
    let r ← withHeap fun h =>
      V.addPoints (curveValue h) ⟨loadInt h p.1, loadInt h p.2⟩ ⟨loadInt h q.1, loadInt h q.2⟩
    let x ← allocOpt r.1.X
    let y ← allocOpt r.1.Y
    pure ((x, y), r.2)

theorem allocOpt_run (v : Option Int) (h : Heap) : ∃ p l, allocOpt v h = (.ok p, { h with ints := h.ints ++ l }) ∧
    loadInt { h with ints := h.ints ++ l } p = v ∧ Below (h.ints.length + l.length) p ∧ FreshInt h p := by
  cases v with
  | none => exact ⟨none, [], by simp [allocOpt, pure], rfl, below_none _, by intro a ha; cases ha⟩
  | some v =>
    exact ⟨some h.ints.length, [v], rfl, by simp [loadInt], by intro a ha; cases ha; simp,
      by intro a ha; cases ha; exact le_rfl⟩

/-- Run a read followed by a continuation. -/
theorem withHeap_bind {α β : Type} (f : Heap → Res α) (g : α → HM β) (h : Heap) : (withHeap f >>= g) h =
    match f h with
    | .ok a => g a h
    | .err e => (.err e, h)
    | .panic p => (.panic p, h) := by
  rw [bind_run, withHeap]
  cases f h <;> rfl

/-- Two allocations. -/
theorem alloc2_run (u v : Option Int) (b : Bool) (h : Heap) : ∃ x y l,
    (do let x ← allocOpt u; let y ← allocOpt v; pure ((x, y), b) : HM ((Ptr × Ptr) × Bool)) h
      = (.ok ((x, y), b), { h with ints := h.ints ++ l }) ∧
    loadInt { h with ints := h.ints ++ l } x = u ∧ loadInt { h with ints := h.ints ++ l } y = v ∧
    Below (h.ints.length + l.length) x ∧ Below (h.ints.length + l.length) y := by
  obtain ⟨x, l, e, lx, bx, -⟩ := allocOpt_run u h
  obtain ⟨y, l', e', ly, by', -⟩ := allocOpt_run v { h with ints := h.ints ++ l }
  refine ⟨x, y, l ++ l', ?_, ?_, ?_, bx.mono (by simp), ?_⟩
  · rw [bind_run, e]
    simp only
    rw [bind_run, e']
    simp [pure]
  · have hv : ValidInt { h with ints := h.ints ++ l } x := fun a ha => by simpa using bx a ha
    have := loadInt_grow (grow_ints { h with ints := h.ints ++ l } l') hv
    simp only [List.append_assoc] at this
    rw [this, lx]
  · simpa [List.append_assoc] using ly
  · intro a ha
    simpa [Nat.add_assoc] using by' a ha

theorem EcdsaM.ofValue_allocs (V : Ecdsa) : (EcdsaM.ofValue V).Allocs := by
  refine ⟨fun n x _ h => ?_, fun n x y _ _ h => ?_, fun n k p _ _ _ h => ?_, fun n p q _ _ _ _ h => ?_⟩
  · simp only [EcdsaM.ofValue, withHeap_bind]
    cases V.getY (curveValue h) (loadInt h x) with
    | ok r =>
      obtain ⟨p, l, e, -, hb, -⟩ := allocOpt_run r.1 h
      refine ⟨l, ?_, ?_⟩ <;> simp only [bind_run, e]
      · rfl
      · intro a ha _; cases ha; exact hb
    | err e => exact ⟨[], by simp, by simp⟩
    | panic e => exact ⟨[], by simp, by simp⟩
  · simp only [EcdsaM.ofValue, withHeap_bind]
    cases (deref (loadInt h y) >>= fun k => V.multMod (curveValue h) (loadInt h x) k) with
    | ok r =>
      obtain ⟨p, l, e, -, hb, -⟩ := allocOpt_run r h
      refine ⟨l, ?_, ?_⟩ <;> simp only [e]
      intro a ha _; cases ha; exact hb
    | err e => exact ⟨[], by simp, by simp⟩
    | panic e => exact ⟨[], by simp, by simp⟩
  · simp only [EcdsaM.ofValue, withHeap_bind]
    cases V.scalarMult (curveValue h) (loadInt h k) ⟨loadInt h p.1, loadInt h p.2⟩ with
    | ok r =>
      obtain ⟨x, y, l, e, -, -, hx, hy⟩ := alloc2_run r.1.X r.1.Y r.2 h
      refine ⟨l, ?_, ?_⟩ <;> simp only [e]
      intro a ha _; cases ha; exact ⟨hx, hy⟩
    | err e => exact ⟨[], by simp, by simp⟩
    | panic e => exact ⟨[], by simp, by simp⟩
  · simp only [EcdsaM.ofValue, withHeap_bind]
    cases V.addPoints (curveValue h) ⟨loadInt h p.1, loadInt h p.2⟩ ⟨loadInt h q.1, loadInt h q.2⟩ with
    | ok r =>
      obtain ⟨x, y, l, e, -, -, hx, hy⟩ := alloc2_run r.1.X r.1.Y r.2 h
      refine ⟨l, ?_, ?_⟩ <;> simp only [e]
      intro a ha _; cases ha; exact ⟨hx, hy⟩
    | err e => exact ⟨[], by simp, by simp⟩
    | panic e => exact ⟨[], by simp, by simp⟩

theorem valid_of_below {h : Heap} {l : List Int} {p : Ptr} (hp : Below (h.ints.length + l.length) p) :
    ValidInt { h with ints := h.ints ++ l } p := fun a ha => by simpa using hp a ha

theorem EcdsaM.ofValue_refines (V : Ecdsa) : (EcdsaM.ofValue V).Refines V := by
  refine ⟨fun h x hc _ => ?_, fun h x y k hc _ hk => ?_, fun h k x y hc _ _ _ => ?_,
    fun h x₁ y₁ x₂ y₂ hc _ _ _ _ => ?_⟩
  · unfold Ref
    simp only [EcdsaM.ofValue, withHeap_bind, hc.value]
    cases V.getY secp256k1 (loadInt h x) with
    | ok r =>
      obtain ⟨p, l, e, hl, hb, hf⟩ := allocOpt_run r.1 h
      refine ⟨(p, r.2), _, ?_, grow_ints h l, hl, valid_of_below hb, rfl, hf⟩
      simp only [bind_run, e]
      rfl
    | err e => rfl
    | panic e => rfl
  · unfold Ref
    simp only [EcdsaM.ofValue, withHeap_bind, hc.value, hk, deref_some, Res.bind_ok]
    cases V.multMod secp256k1 (loadInt h x) k with
    | ok r =>
      obtain ⟨p, l, e, hl, hb, hf⟩ := allocOpt_run r h
      exact ⟨p, _, e, grow_ints h l, hl, valid_of_below hb, hf⟩
    | err e => rfl
    | panic e => rfl
  · unfold Ref
    simp only [EcdsaM.ofValue, withHeap_bind, hc.value]
    cases V.scalarMult secp256k1 (loadInt h k) ⟨loadInt h x, loadInt h y⟩ with
    | ok r =>
      obtain ⟨x, y, l, e, lx, ly, hx, hy⟩ := alloc2_run r.1.X r.1.Y r.2 h
      exact ⟨((x, y), r.2), _, e, grow_ints h l, lx, ly, valid_of_below hx, valid_of_below hy, rfl⟩
    | err e => rfl
    | panic e => rfl
  · unfold Ref
    simp only [EcdsaM.ofValue, withHeap_bind, hc.value]
    cases V.addPoints secp256k1 ⟨loadInt h x₁, loadInt h y₁⟩ ⟨loadInt h x₂, loadInt h y₂⟩ with
    | ok r =>
      obtain ⟨x, y, l, e, lx, ly, hx, hy⟩ := alloc2_run r.1.X r.1.Y r.2 h
      exact ⟨((x, y), r.2), _, e, grow_ints h l, lx, ly, valid_of_below hx, valid_of_below hy, rfl⟩
    | err e => rfl
    | panic e => rfl

end Btc.Mem
