import Verif.Heap.Frame
import Verif.Proofs.Arith

/-!
# The pure model describes the code with pointers

Running a function on the heap gives the result of the pure model on the values behind the pointers.
-/

namespace Btc.Mem

/-- `m` run from `h` ends like `r`: same error, same panic, or results related by `Q` in the final heap. -/
def Ref {α β : Type} (h : Heap) (m : HM α) (r : Res β) (Q : α → β → Heap → Prop) : Prop :=
  match r with
  | .ok v => ∃ a h', m h = (.ok a, h') ∧ Q a v h'
  | .err e => (m h).1 = .err e
  | .panic p => (m h).1 = .panic p

section
variable {α β γ : Type}

theorem bind_run (x : HM α) (f : α → HM β) (h : Heap) : (x >>= f) h =
    match x h with
    | (.ok a, h') => f a h'
    | (.err e, h') => (.err e, h')
    | (.panic p, h') => (.panic p, h') := rfl

theorem bind_assoc (x : HM α) (f : α → HM β) (g : β → HM γ) : x >>= f >>= g = x >>= fun a => f a >>= g := by
  funext h
  simp only [bind_run]
  rcases x h with ⟨r, h'⟩
  cases r <;> rfl

theorem pure_bind (a : α) (f : α → HM β) : (pure a >>= f : HM β) = f a := rfl

theorem Ref.step {h h' : Heap} {x : HM α} {f : α → HM β} {r : Res γ} {R : β → γ → Heap → Prop} {a : α}
    (hx : x h = (.ok a, h')) (hf : Ref h' (f a) r R) : Ref h (x >>= f) r R := by
  unfold Ref at *
  simp only [bind_run, hx]
  exact hf

theorem Ref.same {δ : Type} {h : Heap} {x : HM α} {rx : Res α} {f : α → HM β} {g : α → Res δ}
    {R : β → δ → Heap → Prop} (hx : x h = (rx, h)) (hf : ∀ v, rx = .ok v → Ref h (f v) (g v) R) :
    Ref h (x >>= f) (rx >>= g) R := by
  cases rx with
  | ok v => exact Ref.step hx (hf v rfl)
  | err e => simp [Ref, bind_run, hx]
  | panic p => simp [Ref, bind_run, hx]

theorem Ref.bind {δ : Type} {h : Heap} {x : HM α} {rx : Res γ} {f : α → HM β} {g : γ → Res δ}
    {Q : α → γ → Heap → Prop} {R : β → δ → Heap → Prop} (hx : Ref h x rx Q)
    (hf : ∀ a v h', Q a v h' → Ref h' (f a) (g v) R) : Ref h (x >>= f) (rx >>= g) R := by
  cases rx with
  | ok v =>
    obtain ⟨a, h', h1, h2⟩ := hx
    exact Ref.step h1 (hf a v h' h2)
  | err e =>
    have hx : (x h).1 = .err e := hx
    rcases hxh : x h with ⟨r, h'⟩
    rw [hxh] at hx
    simp only at hx
    subst hx
    simp [Ref, bind_run, hxh]
  | panic p =>
    have hx : (x h).1 = .panic p := hx
    rcases hxh : x h with ⟨r, h'⟩
    rw [hxh] at hx
    simp only at hx
    subst hx
    simp [Ref, bind_run, hxh]

theorem Ref.done {h : Heap} {a : α} {v : β} {Q : α → β → Heap → Prop} (hq : Q a v h) :
    Ref h (pure a) (.ok v) Q := ⟨a, h, rfl, hq⟩

theorem Ref.lift {h : Heap} {r : Res α} : Ref h (Mem.lift r) r fun a v h' => a = v ∧ h' = h := by
  cases r with
  | ok v => exact ⟨v, h, rfl, rfl, rfl⟩
  | err e => rfl
  | panic p => rfl

theorem Ref.err {h : Heap} {e : GoError} {Q : α → β → Heap → Prop} : Ref h (Mem.lift (.err e)) (.err e) Q := rfl

theorem Ref.ite {h : Heap} {c : Prop} {i1 i2 : Decidable c} {x y : HM α} {rx ry : Res β}
    {Q : α → β → Heap → Prop} (ht : c → Ref h x rx Q) (hf : ¬c → Ref h y ry Q) :
    Ref h (@ite _ c i1 x y) (@ite _ c i2 rx ry) Q := by
  by_cases hc : c
  · rw [if_pos hc, if_pos hc]; exact ht hc
  · rw [if_neg hc, if_neg hc]; exact hf hc

theorem Ref.mono {h : Heap} {m : HM α} {r : Res β} {Q R : α → β → Heap → Prop} (hm : Ref h m r Q)
    (hqr : ∀ a v h', Q a v h' → R a v h') : Ref h m r R := by
  cases r with
  | ok v =>
    obtain ⟨a, h', h1, h2⟩ := hm
    exact ⟨a, h', h1, hqr a v h' h2⟩
  | err e => exact hm
  | panic p => exact hm

end

/-! ## Pointers that are not dangling -/

/-- Nil or the address of an existing number. (Go has no dangling pointers.) -/
def ValidInt (h : Heap) (p : Ptr) : Prop := ∀ a, p = some a → a < h.ints.length

theorem loadInt_grow {b h : Heap} (hg : Grow b h) {p : Ptr} (hp : ValidInt b p) : loadInt h p = loadInt b p := by
  cases p with
  | none => rfl
  | some a =>
    have ha := hp a rfl
    obtain ⟨t, ht⟩ := hg.ints
    simp only [loadInt, Option.bind_some]
    rw [← ht, List.getElem?_append_left ha]

theorem loadNet_grow {b h : Heap} (hg : Grow b h) (p : Ptr) : loadNet h p = loadNet b p := by
  simp only [loadNet, hg.nets]

theorem ValidInt.grow {b h : Heap} (hg : Grow b h) {p : Ptr} (hp : ValidInt b p) : ValidInt h p :=
  fun a ha => lt_of_lt_of_le (hp a ha) hg.ints.length_le

/-- The heap with numbers appended. -/
theorem grow_ints (h : Heap) (l : List Int) : Grow h { h with ints := h.ints ++ l } :=
  ⟨List.prefix_append _ _, rfl, List.prefix_refl _, List.prefix_refl _, rfl⟩

theorem modify_last {α : Type} (l : List α) (x : α) (f : α → α) : (l ++ [x]).modify l.length f = l ++ [f x] := by
  apply List.ext_getElem?
  intro j
  rw [List.getElem?_modify]
  rcases Nat.lt_trichotomy j l.length with hj | hj | hj
  · rw [List.getElem?_append_left hj, List.getElem?_append_left hj]
    have : l.length ≠ j := by omega
    simp [this]
  · subst hj
    simp
  · rw [List.getElem?_append_right (by omega), List.getElem?_append_right (by omega)]
    have : j - l.length ≠ 0 := by omega
    simp [this]

theorem newSetString_run (s : GoString) (base : Nat) (h : Heap) : ∃ q w,
    newSetString s base h = (.ok q, { h with ints := h.ints ++ [w] }) ∧
      loadInt { h with ints := h.ints ++ [w] } q = bigSetString s base ∧ (q = none ∨ q = some h.ints.length) := by
  unfold newSetString
  cases hs : bigSetString s base with
  | none => exact ⟨none, 0, by rfl, rfl, .inl rfl⟩
  | some v =>
    refine ⟨some h.ints.length, v, ?_, by simp [loadInt], .inr rfl⟩
    simp only [bind_run, newInt, writeInt]
    simp [pure]

theorem curve_N : secp256k1.N = some (Spec.n : Int) := by decide +kernel

/-! ## Results -/

/-- In `h'`, `a` is a new private key (with respect to `b`) whose value is `v`; it shares the network pointer and
nothing else with older objects; `b` is unchanged. -/
structure NewPriv (b : Heap) (network : Ptr) (a : Ptr) (v : PrivateKey) (h' : Heap) : Prop where
  grow : Grow b h'
  obj : ∃ o, loadPriv h' a = some o ∧ privValue h' o = v ∧ o.Network = network ∧ FreshInt b o.Key ∧ ValidInt h' o.Key
  fresh : FreshPriv b a

/-- In `h'`, `a` is a new public key (with respect to `b`) whose value is `v`; `b` is unchanged. -/
structure NewPub (b : Heap) (network : Ptr) (a : Ptr) (v : PublicKey) (h' : Heap) : Prop where
  grow : Grow b h'
  obj : ∃ o, loadPub h' a = some o ∧ pubValue h' o = v ∧ o.Network = network ∧ ValidInt h' o.X ∧ ValidInt h' o.Y
  fresh : FreshPub b a

theorem NewPriv.of_alloc {b h : Heap} (hg : Grow b h) {o : PrivObj} {w : Int} {v : PrivateKey}
    (hv : privValue { h with ints := h.ints ++ [w], privs := h.privs ++ [o] } o = v)
    (hk : o.Key = none ∨ o.Key = some h.ints.length) :
    NewPriv b o.Network (some h.privs.length) v { h with ints := h.ints ++ [w], privs := h.privs ++ [o] } := by
  refine ⟨⟨prefix_append hg.ints _, hg.nets, prefix_append hg.privs _, hg.pubs, hg.curve⟩,
    ⟨o, by simp [loadPriv], hv, rfl, ?_, ?_⟩, ?_⟩
  · intro x hx
    rcases hk with hk | hk
    · rw [hk] at hx; cases hx
    · rw [hk] at hx; cases hx; exact hg.ints.length_le
  · intro x hx
    rcases hk with hk | hk
    · rw [hk] at hx; cases hx
    · rw [hk] at hx; cases hx; simp
  · intro x hx
    cases hx
    exact hg.privs.length_le

/-! ## The functions of the repository -/

variable (H : Hashes)

theorem privateFromHex_ref {b h : Heap} (hg : Grow b h) (hexa : GoString) (network : Ptr) :
    Ref h (privateFromHexM H hexa network) (privateFromHex H hexa (loadNet h network)) (NewPriv b network) := by
  unfold privateFromHexM privateFromHex
  refine Ref.step (a := h.privs.length) rfl ?_
  obtain ⟨q, w, h1, h2, h3⟩ := newSetString_run hexa 16
    { h with privs := h.privs ++ [⟨none, [], [], none⟩] }
  refine Ref.step h1 ?_
  refine Ref.step rfl ?_
  refine Ref.step rfl ?_
  simp only [modify_last]
  refine Ref.same (rx := deref (loadNet h network)) rfl fun net _ => ?_
  refine Ref.same (rx := hexDecode _) rfl fun hexaB _ => ?_
  refine Ref.same (rx := slice _ _ _) rfl fun checksum _ => ?_
  refine Ref.same (rx := hexDecode _) rfl fun hexaB2 _ => ?_
  refine Ref.step rfl ?_
  refine Ref.step rfl ?_
  simp only [modify_last]
  refine Ref.done (NewPriv.of_alloc (o := ⟨q, hexa, _, network⟩) hg ?_ h3)
  simp only [privValue]
  congr 1

theorem privateFromWIF_ref {b h : Heap} (hg : Grow b h) (wif : GoString) (network : Ptr) :
    Ref h (privateFromWIFM H wif network) (privateFromWIF H wif (loadNet h network)) (NewPriv b network) := by
  unfold privateFromWIFM privateFromWIF
  refine Ref.same (rx := checkWIF H wif) rfl fun valid _ => ?_
  cases valid with
  | false => exact Ref.err
  | true =>
    simp only [Bool.not_true, Bool.false_eq_true, if_false]
    refine Ref.same (rx := base58Decode wif) rfl fun bytes _ => ?_
    refine Ref.same (rx := slice _ _ _) rfl fun hexa _ => ?_
    refine Ref.same (rx := slice _ _ _) rfl fun hexa _ => ?_
    refine Ref.step (a := h.privs.length) rfl ?_
    refine Ref.step rfl ?_
    refine Ref.step rfl ?_
    simp only [modify_last]
    obtain ⟨q, w, h1, h2, h3⟩ := newSetString_run hexa 16
      { h with privs := h.privs ++ [⟨none, hexa, wif, none⟩] }
    refine Ref.step h1 ?_
    refine Ref.step rfl ?_
    refine Ref.step rfl ?_
    simp only [modify_last]
    refine Ref.done (NewPriv.of_alloc (o := ⟨q, hexa, _, network⟩) hg ?_ h3)
    simp only [privValue]
    congr 1

/-- The arithmetic common to addition and multiplication. -/
theorem combine_ref {op : Int → Int → Int} {bigOp : Ptr → Ptr → Ptr → HM Ptr}
    (hop : ∀ z x y, bigOp z x y = (do
      let a ← readInt x
      let b ← readInt y
      writeInt z (op a b)
      pure z))
    {o1 o2 : PrivObj} {h : Heap} (hc : curveValue h = secp256k1) (hN : ValidInt h h.curve.N)
    (v1 : ValidInt h o1.Key) (v2 : ValidInt h o2.Key) :
    Ref h (do
      let pKey ← newInt 0
      let pKey ← bigOp pKey o1.Key o2.Key
      let curve ← readCurve
      let pKey ← bigMod pKey pKey curve.N
      let hexa ← bigIntToHexM pKey
      privateFromHexM H hexa o1.Network)
      (do
        let k1 ← deref (loadInt h o1.Key)
        let k2 ← deref (loadInt h o2.Key)
        let n ← deref secp256k1.N
        privateFromHex H (bigIntToHex (some (op k1 k2 % n))) (loadNet h o1.Network))
      (NewPriv h o1.Network) := by
  have hNv : loadInt h h.curve.N = some (Spec.n : Int) := by
    rw [← curve_N, ← hc]; rfl
  have hg := grow_ints h [0]
  refine Ref.step (a := some h.ints.length) rfl ?_
  rw [hop]
  simp only [bind_assoc, pure_bind]
  refine Ref.same (rx := deref (loadInt h o1.Key)) ?_ fun k1 _ => ?_
  · simp only [readInt, loadInt_grow hg v1]
  refine Ref.same (rx := deref (loadInt h o2.Key)) ?_ fun k2 _ => ?_
  · simp only [readInt, loadInt_grow hg v2]
  refine Ref.step (a := ()) (h' := { h with ints := h.ints ++ [op k1 k2] }) ?_ ?_
  · simp [writeInt]
  refine Ref.step (a := h.curve) rfl ?_
  rw [curve_N, deref_some, Res.bind_ok, bigMod]
  simp only [bind_assoc]
  refine Ref.step (a := op k1 k2) (h' := { h with ints := h.ints ++ [op k1 k2] }) ?_ ?_
  · simp [readInt, loadInt]
  refine Ref.step (a := (Spec.n : Int)) (h' := { h with ints := h.ints ++ [op k1 k2] }) ?_ ?_
  · simp only [readInt, loadInt_grow (grow_ints h [op k1 k2]) hN, hNv, deref_some]
  rw [if_neg (by decide)]
  simp only [bind_assoc, pure_bind]
  refine Ref.step (a := ()) (h' := { h with ints := h.ints ++ [op k1 k2 % (Spec.n : Int)] }) ?_ ?_
  · simp [writeInt]
  refine Ref.step (a := bigIntToHex (some (op k1 k2 % (Spec.n : Int))))
    (h' := { h with ints := h.ints ++ [op k1 k2 % (Spec.n : Int)] }) ?_ ?_
  · simp [bigIntToHexM, loadInt]
  exact privateFromHex_ref H (grow_ints h [op k1 k2 % (Spec.n : Int)]) _ o1.Network

theorem addPrivateKeys_ref {p1 p2 : Ptr} {o1 o2 : PrivObj} {h : Heap} (h1 : loadPriv h p1 = some o1)
    (h2 : loadPriv h p2 = some o2) (hc : curveValue h = secp256k1) (hN : ValidInt h h.curve.N)
    (v1 : ValidInt h o1.Key) (v2 : ValidInt h o2.Key) :
    Ref h (addPrivateKeysM H p1 p2) (addPrivateKeys H (privValue h o1) (privValue h o2))
      (NewPriv h o1.Network) := by
  unfold addPrivateKeysM addPrivateKeys
  refine Ref.step (a := o1) (h' := h) (by simp [readPriv, h1]) ?_
  refine Ref.step (a := o2) (h' := h) (by simp [readPriv, h2]) ?_
  refine Ref.step (a := loadNet h o1.Network) (h' := h) rfl ?_
  refine Ref.step (a := loadNet h o2.Network) (h' := h) rfl ?_
  refine Ref.ite (fun _ => Ref.err) fun _ => Ref.ite (fun _ => Ref.err) fun _ => ?_
  exact combine_ref H (op := fun a b => a + b) (bigOp := bigAdd) (fun _ _ _ => rfl) hc hN v1 v2

theorem multiplyPrivateKeys_ref {p1 p2 : Ptr} {o1 o2 : PrivObj} {h : Heap} (h1 : loadPriv h p1 = some o1)
    (h2 : loadPriv h p2 = some o2) (hc : curveValue h = secp256k1) (hN : ValidInt h h.curve.N)
    (v1 : ValidInt h o1.Key) (v2 : ValidInt h o2.Key) :
    Ref h (multiplyPrivateKeysM H p1 p2) (multiplyPrivateKeys H (privValue h o1) (privValue h o2))
      (NewPriv h o1.Network) := by
  unfold multiplyPrivateKeysM multiplyPrivateKeys
  refine Ref.step (a := o1) (h' := h) (by simp [readPriv, h1]) ?_
  refine Ref.step (a := o2) (h' := h) (by simp [readPriv, h2]) ?_
  refine Ref.step (a := loadNet h o1.Network) (h' := h) rfl ?_
  refine Ref.step (a := loadNet h o2.Network) (h' := h) rfl ?_
  refine Ref.ite (fun _ => Ref.err) fun _ => Ref.ite (fun _ => Ref.err) fun _ => ?_
  exact combine_ref H (op := fun a b => a * b) (bigOp := bigMul) (fun _ _ _ => rfl) hc hN v1 v2

theorem Ref.onErr {α β γ δ : Type} {h : Heap} {x : HM α} {rx : Res γ} {y : HM β} {f : α → HM β} {r : Res δ}
    {Q : α → γ → Heap → Prop} {R : β → δ → Heap → Prop} (hx : Ref h x rx Q)
    (hp : ∀ p, rx = .panic p → r = .panic p)
    (hy : ∀ e, rx = .err e → Ref (x h).2 y r R)
    (hf : ∀ a v h', rx = .ok v → Q a v h' → Ref h' (f a) r R) :
    Ref h (Mem.onErr x y f) r R := by
  cases rx with
  | ok v =>
    obtain ⟨a, h', h1, h2⟩ := hx
    have := hf a v h' rfl h2
    unfold Ref at *
    simp only [Mem.onErr, h1]
    exact this
  | err e =>
    have hx : (x h).1 = .err e := hx
    have hy := hy e rfl
    rcases hxh : x h with ⟨r, h'⟩
    rw [hxh] at hx hy
    simp only at hx hy
    subst hx
    unfold Ref at *
    simp only [Mem.onErr, hxh]
    exact hy
  | panic p =>
    have hx : (x h).1 = .panic p := hx
    rcases hxh : x h with ⟨r, h'⟩
    rw [hxh] at hx
    simp only at hx
    subst hx
    rw [hp p rfl]
    simp [Ref, Mem.onErr, hxh]

theorem generateLoop_ref (draw : Reader → Res (Nat × Reader)) (network : Ptr) (b : Heap) :
    ∀ (fuel : Nat) (rd : Reader) (h : Heap), Grow b h →
      Ref h (generateLoopM H draw network fuel rd) (generateLoop H draw (loadNet b network) fuel rd) fun r v h' =>
        NewPriv b network r.1 v.1 h' ∧ r.2 = v.2
  | 0, _, _, _ => rfl
  | fuel + 1, rd, h, hg => by
    unfold generateLoopM generateLoop generateRandomBigIntM
    simp only [bind_assoc, pure_bind]
    obtain ⟨q, w, h1, -, -⟩ := newSetString_run
      (asc "FFFFFFFFFFFFFFFFFFFFFFFFFFFFFFFEBAAEDCE6AF48A03BBFD25E8CD0364140") 16 h
    refine Ref.step h1 ?_
    have hg1 := hg.trans (grow_ints h [w])
    cases hd : draw rd with
    | err e => rfl
    | panic p => rfl
    | ok r =>
      obtain ⟨key, rd'⟩ := r
      refine Ref.step (a := (key, rd')) rfl ?_
      refine Ref.step (a := some (h.ints ++ [w]).length) rfl ?_
      have hg2 := hg1.trans (grow_ints _ [(key : Int)])
      simp only at hg2
      have hk : loadInt { h with ints := h.ints ++ [w] ++ [(key : Int)] } (some (h.ints ++ [w]).length)
          = some (key : Int) := by simp [loadInt]
      refine Ref.step (a := bigIntToHex (some (key : Int)))
        (h' := { h with ints := h.ints ++ [w] ++ [(key : Int)] }) ?_ ?_
      · simp only [bigIntToHexM, hk]
      refine Ref.ite (fun _ => generateLoop_ref draw network b fuel rd' _ hg2) fun _ => ?_
      have hn : loadNet b network = loadNet { h with ints := h.ints ++ [w] ++ [(key : Int)] } network :=
        (loadNet_grow hg2 network).symm
      have href := privateFromHex_ref H (Grow.refl { h with ints := h.ints ++ [w] ++ [(key : Int)] })
        (bigIntToHex (some (key : Int))) network
      rw [← hn] at href
      refine Ref.onErr (Q := NewPriv { h with ints := h.ints ++ [w] ++ [(key : Int)] } network) href ?_ ?_ ?_
      · intro p hp
        rw [hp]
      · intro e he
        rw [he]
        exact generateLoop_ref draw network b fuel rd' _ (keeps_privateFromHex H b _ _ _ hg2).1
      · rintro a v h' hok ⟨hg', ⟨o, ho, hv, hnet, -, -⟩, hfr⟩
        rw [hok]
        have hkv : ValidInt { h with ints := h.ints ++ [w] ++ [(key : Int)] } (some (h.ints ++ [w]).length) := by
          intro x hx; cases hx; simp
        have hk' := loadInt_grow hg' hkv
        rw [hk] at hk'
        cases a with
        | none => simp [loadPriv] at ho
        | some a =>
          refine ⟨(some a, rd'), { h' with privs := h'.privs.modify a fun o => { o with Key := some (h.ints ++ [w]).length } },
            rfl, ⟨?_, ⟨{ o with Key := some (h.ints ++ [w]).length }, ?_, ?_, hnet, ?_, ?_⟩, ?_⟩, rfl⟩
          · have hgb := hg2.trans hg'
            exact ⟨hgb.ints, hgb.nets, prefix_modify hgb.privs (le_trans hg2.privs.length_le (hfr a rfl)) _,
              hgb.pubs, hgb.curve⟩
          · simp only [loadPriv, Option.bind_some] at ho
            simp [loadPriv, ho]
          · rw [← hv]
            simp only [privValue]
            congr 1
          · intro x hx
            cases hx
            exact hg1.ints.length_le
          · exact hkv.grow hg'
          · intro x hx
            cases hx
            exact le_trans hg2.privs.length_le (hfr a rfl)

theorem generatePrivateKey_ref (rd : Reader) (network : Ptr) (h : Heap) :
    Ref h (generatePrivateKeyM H rd network) (generatePrivateKey H rd (loadNet h network)) fun r v h' =>
      NewPriv h network r.1 v.1 h' ∧ r.2 = v.2 := by
  unfold generatePrivateKeyM generatePrivateKey
  generalize generateRandomBigInt = draw
  exact generateLoop_ref H draw network h _ rd h (Grow.refl h)

/-! ## The dependency on the heap -/

/-- The package variable holds the parameters assigned by `init`. -/
structure CurveOK (h : Heap) : Prop where
  value : curveValue h = secp256k1
  A : ValidInt h h.curve.A
  B : ValidInt h h.curve.B
  GX : ValidInt h h.curve.GX
  GY : ValidInt h h.curve.GY
  P : ValidInt h h.curve.P
  N : ValidInt h h.curve.N
  H : ValidInt h h.curve.H

theorem CurveOK.grow {b h : Heap} (hc : CurveOK b) (hg : Grow b h) : CurveOK h := by
  have e := hg.curve
  refine ⟨?_, ?_, ?_, ?_, ?_, ?_, ?_, ?_⟩
  · rw [← hc.value]
    simp only [curveValue, ← e, loadInt_grow hg hc.A, loadInt_grow hg hc.B, loadInt_grow hg hc.GX,
      loadInt_grow hg hc.GY, loadInt_grow hg hc.P, loadInt_grow hg hc.N, loadInt_grow hg hc.H]
  · rw [← e]; exact hc.A.grow hg
  · rw [← e]; exact hc.B.grow hg
  · rw [← e]; exact hc.GX.grow hg
  · rw [← e]; exact hc.GY.grow hg
  · rw [← e]; exact hc.P.grow hg
  · rw [← e]; exact hc.N.grow hg
  · rw [← e]; exact hc.H.grow hg

/-- What is assumed of the curve package: the methods on the heap compute what the methods on values compute, leave
older cells alone and return valid pointers; `GetY` and `MultMod` return new numbers. -/
structure EcdsaM.Refines (E : EcdsaM) (V : Ecdsa) : Prop where
  getY : ∀ h x, CurveOK h → ValidInt h x →
    Ref h (E.getY x) (V.getY secp256k1 (loadInt h x)) fun r v h' =>
      Grow h h' ∧ loadInt h' r.1 = v.1 ∧ ValidInt h' r.1 ∧ r.2 = v.2 ∧ FreshInt h r.1
  multMod : ∀ h x y k, CurveOK h → ValidInt h x → loadInt h y = some k →
    Ref h (E.multMod x y) (V.multMod secp256k1 (loadInt h x) k) fun r v h' =>
      Grow h h' ∧ loadInt h' r = v ∧ ValidInt h' r ∧ FreshInt h r
  scalarMult : ∀ h k x y, CurveOK h → ValidInt h k → ValidInt h x → ValidInt h y →
    Ref h (E.scalarMult k (x, y)) (V.scalarMult secp256k1 (loadInt h k) ⟨loadInt h x, loadInt h y⟩) fun r v h' =>
      Grow h h' ∧ loadInt h' r.1.1 = v.1.X ∧ loadInt h' r.1.2 = v.1.Y ∧ ValidInt h' r.1.1 ∧ ValidInt h' r.1.2 ∧
        r.2 = v.2
  addPoints : ∀ h x₁ y₁ x₂ y₂, CurveOK h → ValidInt h x₁ → ValidInt h y₁ → ValidInt h x₂ → ValidInt h y₂ →
    Ref h (E.addPoints (x₁, y₁) (x₂, y₂))
      (V.addPoints secp256k1 ⟨loadInt h x₁, loadInt h y₁⟩ ⟨loadInt h x₂, loadInt h y₂⟩) fun r v h' =>
      Grow h h' ∧ loadInt h' r.1.1 = v.1.X ∧ loadInt h' r.1.2 = v.1.Y ∧ ValidInt h' r.1.1 ∧ ValidInt h' r.1.2 ∧
        r.2 = v.2

variable {E : EcdsaM} {V : Ecdsa}

/-- Assigning fields of an object created since `b`. -/
theorem Grow.updPub {b h : Heap} (hg : Grow b h) {a : Nat} (ha : b.pubs.length ≤ a) (f : PubObj → PubObj) :
    Grow b { h with pubs := h.pubs.modify a f } :=
  ⟨hg.ints, hg.nets, hg.privs, prefix_modify hg.pubs ha f, hg.curve⟩

theorem loadPub_grow {b h : Heap} (hg : Grow b h) {p : Ptr} {o : PubObj} (ho : loadPub b p = some o) :
    loadPub h p = some o := by
  cases p with
  | none => simp [loadPub] at ho
  | some a =>
    simp only [loadPub, Option.bind_some] at ho ⊢
    obtain ⟨t, ht⟩ := hg.pubs
    rw [← ht]
    rw [List.getElem?_append_left]
    · exact ho
    · exact (List.getElem?_eq_some_iff.mp ho).1

theorem loadPriv_grow {b h : Heap} (hg : Grow b h) {p : Ptr} {o : PrivObj} (ho : loadPriv b p = some o) :
    loadPriv h p = some o := by
  cases p with
  | none => simp [loadPriv] at ho
  | some a =>
    simp only [loadPriv, Option.bind_some] at ho ⊢
    obtain ⟨t, ht⟩ := hg.privs
    rw [← ht]
    rw [List.getElem?_append_left]
    · exact ho
    · exact (List.getElem?_eq_some_iff.mp ho).1

theorem loadPub_upd {h : Heap} {a : Nat} {o : PubObj} (ho : loadPub h (some a) = some o) (f : PubObj → PubObj) :
    loadPub { h with pubs := h.pubs.modify a f } (some a) = some (f o) := by
  simp only [loadPub, Option.bind_some] at ho ⊢
  simp [ho]

theorem getPublicKey_ref (hE : E.Refines V) {p : Ptr} {o : PrivObj} {h : Heap} (ho : loadPriv h p = some o)
    (hc : CurveOK h) (hk : ValidInt h o.Key) :
    Ref h (getPublicKeyM E p) (getPublicKey V (privValue h o)) fun a v h' =>
      match v with
      | none => a = none ∧ Grow h h'
      | some v => NewPub h o.Network a v h' := by
  unfold getPublicKeyM getPublicKey
  refine Ref.step (a := h.pubs.length) rfl ?_
  refine Ref.step (a := o) (h' := { h with pubs := h.pubs ++ [⟨none, none, none⟩] }) ?_ ?_
  · have : loadPriv { h with pubs := h.pubs ++ [⟨none, none, none⟩] } p = some o := ho
    simp [readPriv, this]
  refine Ref.step (a := h.curve) rfl ?_
  have hg : Grow h { h with pubs := h.pubs ++ [⟨none, none, none⟩] } :=
    ⟨List.prefix_refl _, rfl, List.prefix_refl _, List.prefix_append _ _, rfl⟩
  have hs := hE.scalarMult { h with pubs := h.pubs ++ [⟨none, none, none⟩] } o.Key h.curve.GX h.curve.GY
    (hc.grow hg) (hk.grow hg) (hc.GX.grow hg) (hc.GY.grow hg)
  have hG : secp256k1.G = ⟨loadInt h h.curve.GX, loadInt h h.curve.GY⟩ := by rw [← hc.value]; rfl
  rw [hG]
  refine Ref.bind (Q := _) hs ?_
  rintro ⟨⟨x, y⟩, valid⟩ ⟨R, valid'⟩ h' ⟨hg', hx, hy, vx, vy, hv⟩
  simp only at hx hy vx vy hv
  subst hv
  cases valid with
  | false => exact Ref.done ⟨rfl, hg.trans hg'⟩
  | true =>
    simp only [Bool.not_true, Bool.false_eq_true, if_false]
    have hl : loadPub h' (some h.pubs.length) = some ⟨none, none, none⟩ := loadPub_grow hg' (by simp [loadPub])
    have hg2 := hg.trans hg'
    refine Ref.step rfl ?_
    refine Ref.step rfl ?_
    refine Ref.step rfl ?_
    refine Ref.done ⟨?_, ⟨⟨x, y, o.Network⟩, ?_, ?_, rfl, vx, vy⟩, freshPub_some le_rfl⟩
    · exact ((hg2.updPub le_rfl _).updPub le_rfl _).updPub le_rfl _
    · exact loadPub_upd (loadPub_upd (loadPub_upd hl _) _) _
    · simp only [pubValue, privValue]
      rw [← hx, ← hy, ← loadNet_grow hg2]
      rfl

theorem addPublicKeys_ref (hE : E.Refines V) {p1 p2 : Ptr} {o1 o2 : PubObj} {h : Heap}
    (h1 : loadPub h p1 = some o1) (h2 : loadPub h p2 = some o2) (hc : CurveOK h) (vx1 : ValidInt h o1.X)
    (vy1 : ValidInt h o1.Y) (vx2 : ValidInt h o2.X) (vy2 : ValidInt h o2.Y) (c : Bool) :
    Ref h (addPublicKeysM E p1 p2 c) (addPublicKeys V (pubValue h o1) (pubValue h o2) c)
      (NewPub h o1.Network) := by
  unfold addPublicKeysM addPublicKeys
  refine Ref.step (a := o1) (h' := h) (by simp [readPub, h1]) ?_
  refine Ref.step (a := o2) (h' := h) (by simp [readPub, h2]) ?_
  refine Ref.step (a := loadNet h o1.Network) (h' := h) rfl ?_
  refine Ref.step (a := loadNet h o2.Network) (h' := h) rfl ?_
  refine Ref.ite (fun _ => Ref.err) fun _ => ?_
  refine Ref.bind (Q := _) (hE.addPoints h _ _ _ _ hc vx1 vy1 vx2 vy2) ?_
  rintro ⟨⟨x, y⟩, valid⟩ ⟨R, valid'⟩ h' ⟨hg', hx, hy, vx, vy, hv⟩
  simp only at hx hy vx vy hv
  subst hv
  cases valid with
  | false => exact Ref.err
  | true =>
    simp only [Bool.not_true, Bool.false_eq_true, if_false]
    refine Ref.step (a := h'.pubs.length) rfl ?_
    refine Ref.step rfl ?_
    simp only [modify_last]
    refine Ref.done ⟨?_, ⟨⟨x, y, o1.Network⟩, by simp [loadPub], ?_, rfl, vx, vy⟩, freshPub_some hg'.pubs.length_le⟩
    · exact ⟨hg'.ints, hg'.nets, hg'.privs, prefix_append hg'.pubs _, hg'.curve⟩
    · simp only [pubValue]
      rw [← hx, ← hy, ← loadNet_grow hg']
      rfl

theorem publicFromHex_ref (hE : E.Refines V) (hexa : GoString) (network : Ptr) {h : Heap} (hc : CurveOK h) :
    Ref h (publicFromHexM E hexa network) (publicFromHex V hexa (loadNet h network)) fun a v h' =>
      NewPub h network a v h' ∧ ∃ o, loadPub h' a = some o ∧ FreshInt h o.X ∧ FreshInt h o.Y := by
  unfold publicFromHexM publicFromHex
  refine Ref.step (a := h.pubs.length) rfl ?_
  refine Ref.step (a := ()) rfl ?_
  simp only [modify_last]
  refine Ref.same (rx := slice hexa 0 2) rfl fun pre _ => ?_
  refine Ref.ite (fun _ => ?_) fun _ => Ref.ite (fun _ => ?_) fun _ => Ref.err
  · refine Ref.same (rx := slice hexa 2 66) rfl fun x _ => ?_
    refine Ref.same (rx := slice hexa 66 130) rfl fun y _ => ?_
    obtain ⟨q, w, e1, l1, f1⟩ := newSetString_run x 16 { h with pubs := h.pubs ++ [⟨none, none, network⟩] }
    refine Ref.step e1 ?_
    refine Ref.step rfl ?_
    simp only [modify_last]
    obtain ⟨q2, w2, e2, l2, f2⟩ := newSetString_run y 16
      { h with ints := h.ints ++ [w], pubs := h.pubs ++ [⟨q, none, network⟩] }
    refine Ref.step e2 ?_
    refine Ref.step rfl ?_
    simp only [modify_last]
    have vq : ValidInt { h with ints := h.ints ++ [w] } q := by
      intro a ha
      rcases f1 with f1 | f1
      · rw [f1] at ha; cases ha
      · rw [f1] at ha; cases ha; simp
    have vq2 : ValidInt { h with ints := h.ints ++ [w] ++ [w2] } q2 := by
      intro a ha
      rcases f2 with f2 | f2
      · rw [f2] at ha; cases ha
      · rw [f2] at ha; cases ha; simp
    refine Ref.done ⟨⟨?_, ⟨⟨q, q2, network⟩, by simp [loadPub], ?_, rfl, ?_, vq2⟩, freshPub_some le_rfl⟩,
      ⟨q, q2, network⟩, by simp [loadPub], ?_, ?_⟩
    · exact ⟨prefix_append (List.prefix_append _ _) _, rfl, List.prefix_refl _, List.prefix_append _ _, rfl⟩
    · simp only [pubValue]
      congr 1
      rw [← l1]
      exact loadInt_grow (b := { h with ints := h.ints ++ [w] }) (h := { h with ints := h.ints ++ [w] ++ [w2] })
        (grow_ints _ _) vq
    · exact ValidInt.grow (b := { h with ints := h.ints ++ [w] }) (h := { h with ints := h.ints ++ [w] ++ [w2] })
        (grow_ints _ _) vq
    · intro a ha
      rcases f1 with f1 | f1
      · rw [f1] at ha; cases ha
      · rw [f1] at ha; cases ha; exact le_rfl
    · intro a ha
      rcases f2 with f2 | f2
      · rw [f2] at ha; cases ha
      · rw [f2] at ha; cases ha; simp
  · refine Ref.same (rx := slice hexa 2 66) rfl fun x _ => ?_
    obtain ⟨q, w, e1, l1, f1⟩ := newSetString_run x 16 { h with pubs := h.pubs ++ [⟨none, none, network⟩] }
    refine Ref.step e1 ?_
    refine Ref.step rfl ?_
    simp only [modify_last]
    have vq : ValidInt { h with ints := h.ints ++ [w], pubs := h.pubs ++ [⟨q, none, network⟩] } q := by
      intro a ha
      rcases f1 with f1 | f1
      · rw [f1] at ha; cases ha
      · rw [f1] at ha; cases ha; simp
    have hg1 : Grow h { h with ints := h.ints ++ [w], pubs := h.pubs ++ [⟨q, none, network⟩] } :=
      ⟨List.prefix_append _ _, rfl, List.prefix_refl _, List.prefix_append _ _, rfl⟩
    have l1' : loadInt { h with ints := h.ints ++ [w], pubs := h.pubs ++ [⟨q, none, network⟩] } q
        = bigSetString x 16 := l1
    have hy := hE.getY _ q (hc.grow hg1) vq
    rw [l1'] at hy
    refine Ref.bind (Q := _) hy ?_
    rintro ⟨y, onCurve⟩ ⟨Y, onCurve'⟩ h2 ⟨hg2, ly, vy, hv, fy⟩
    simp only at ly vy hv fy
    subst hv
    cases onCurve with
    | false => exact Ref.err
    | true =>
      simp only [Bool.not_true, Bool.false_eq_true, if_false]
      have hg := hg1.trans hg2
      have hl : loadPub h2 (some h.pubs.length) = some ⟨q, none, network⟩ := loadPub_grow hg2 (by simp [loadPub])
      generalize (if pre = asc "02" then (0 : Int) else 1) = par
      refine Ref.step (a := some h2.ints.length) rfl ?_
      refine Ref.step (a := ()) (h' := { h2 with ints := h2.ints ++ [par] }) (by simp [writeInt]) ?_
      refine Ref.step (a := some (h2.ints ++ [par]).length) rfl ?_
      simp only [bigSet, bind_assoc, pure_bind]
      refine Ref.same (rx := deref Y) ?_ fun yv hyv => ?_
      · have := loadInt_grow ((grow_ints h2 [par]).trans (grow_ints _ [0])) vy
        simp only at this
        simp only [readInt, this, ly]
      have ly' : loadInt h2 y = some yv := by
        rw [ly]
        cases Y with
        | none => cases hyv
        | some a => cases hyv; rfl
      have lyw : ∀ l, loadInt { h2 with ints := h2.ints ++ l } y = some yv := fun l => by
        rw [loadInt_grow (grow_ints h2 l) vy, ly']
      refine Ref.step (a := ()) (h' := { h2 with ints := h2.ints ++ [par, yv] }) (by simp [writeInt]) ?_
      refine Ref.step (a := some (h2.ints.length + 2)) (h' := { h2 with ints := h2.ints ++ [par, yv, 2] })
        (by simp [newInt]) ?_
      simp only [bigMod, bind_assoc]
      refine Ref.step (a := yv) (h' := { h2 with ints := h2.ints ++ [par, yv, 2] })
        (by simp only [readInt, lyw, deref_some]) ?_
      refine Ref.step (a := (2 : Int)) (h' := { h2 with ints := h2.ints ++ [par, yv, 2] })
        (by simp [readInt, loadInt]) ?_
      rw [if_neg (by decide)]
      simp only [bind_assoc, pure_bind]
      refine Ref.step (a := ()) (h' := { h2 with ints := h2.ints ++ [par, yv % 2, 2] }) (by simp [writeInt]) ?_
      refine Ref.step (a := yv % 2) (h' := { h2 with ints := h2.ints ++ [par, yv % 2, 2] })
        (by simp [readInt, loadInt]) ?_
      refine Ref.step (a := par) (h' := { h2 with ints := h2.ints ++ [par, yv % 2, 2] })
        (by simp [readInt, loadInt]) ?_
      have hfin : ∀ (h3 : Heap) (Y' : Ptr) (v : Option Int), Grow h2 h3 → ValidInt h3 Y' → loadInt h3 Y' = v →
          FreshInt h Y' → let h' := { h3 with pubs := h3.pubs.modify h.pubs.length fun o => { o with Y := Y' } }
          NewPub h network (some h.pubs.length) ⟨bigSetString x 16, v, loadNet h network⟩ h' ∧
            ∃ o, loadPub h' (some h.pubs.length) = some o ∧ FreshInt h o.X ∧ FreshInt h o.Y := by
        intro h3 Y' v hg3 vY lY fY
        refine ⟨⟨(hg.trans hg3).updPub le_rfl _, ⟨⟨q, Y', network⟩, ?_, ?_, rfl, ?_, vY⟩, freshPub_some le_rfl⟩,
          ⟨q, Y', network⟩, ?_, ?_, fY⟩
        · exact loadPub_upd (loadPub_grow hg3 hl) _
        · simp only [pubValue]
          congr 1
          · rw [← l1']
            exact loadInt_grow (hg2.trans hg3) vq
          · exact loadNet_grow (hg.trans hg3) network
        · exact vq.grow (hg2.trans hg3)
        · exact loadPub_upd (loadPub_grow hg3 hl) _
        · intro a ha
          rcases f1 with f1 | f1
          · rw [f1] at ha; cases ha
          · rw [f1] at ha; cases ha; exact le_rfl
      refine Ref.ite (fun _ => ?_) fun _ => ?_
      · refine Ref.step (a := some (h2.ints.length + 3)) (h' := { h2 with ints := h2.ints ++ [par, yv % 2, 2, -1] })
          (by simp [newInt]) ?_
        have hm := hE.multMod { h2 with ints := h2.ints ++ [par, yv % 2, 2, -1] } y (some (h2.ints.length + 3)) (-1)
          (hc.grow (hg.trans (grow_ints h2 _))) (vy.grow (grow_ints h2 _)) (by simp [loadInt])
        rw [lyw, ← ly', ly] at hm
        refine Ref.bind (Q := _) hm ?_
        rintro y' Y' h3 ⟨hg3, ly3, vy3, fy3⟩
        refine Ref.step (a := ()) rfl ?_
        exact Ref.done (hfin h3 y' Y' ((grow_ints h2 _).trans hg3) vy3 ly3 fun a ha =>
          le_trans (le_trans hg.ints.length_le (grow_ints h2 _).ints.length_le) (fy3 a ha))
      · refine Ref.step (a := ()) rfl ?_
        exact Ref.done (hfin _ y Y (grow_ints h2 _) (vy.grow (grow_ints h2 _)) (by rw [lyw, ← ly', ly]) fun a ha =>
          le_trans hg1.ints.length_le (fy a ha))

/-- `m` run from `h` gives `r` and leaves the heap as it is. -/
def Reads {α : Type} (h : Heap) (m : HM α) (r : Res α) : Prop := m h = (r, h)

theorem Reads.bind {α β : Type} {h : Heap} {x : HM α} {rx : Res α} {f : α → HM β} {g : α → Res β}
    (hx : Reads h x rx) (hf : ∀ a, Reads h (f a) (g a)) : Reads h (x >>= f) (rx >>= g) := by
  unfold Reads at *
  rw [bind_run, hx]
  cases rx with
  | ok a => exact hf a
  | err e => rfl
  | panic p => rfl

theorem Reads.step {α β : Type} {h : Heap} {x : HM α} {a : α} {f : α → HM β} {r : Res β}
    (hx : Reads h x (.ok a)) (hf : Reads h (f a) r) : Reads h (x >>= f) r := by
  unfold Reads at *
  rw [bind_run, hx]
  exact hf

theorem format_ref {p : Ptr} {o : PubObj} {h : Heap} (ho : loadPub h p = some o) (c : Bool) :
    Reads h (formatM p c) (format (pubValue h o) c) := by
  unfold formatM format
  refine .step (a := o) (by simp [Reads, readPub, ho]) ?_
  refine .step (a := bigIntToHex (loadInt h o.X)) rfl ?_
  refine .step (a := bigIntToHex (loadInt h o.Y)) rfl ?_
  cases c with
  | false => rfl
  | true =>
    simp only [Bool.not_true, Bool.false_eq_true, if_false]
    refine .bind (rx := deref (loadInt h o.Y)) rfl fun y => ?_
    split <;> rfl

theorem address_ref {p : Ptr} {o : PubObj} {h : Heap} (ho : loadPub h p = some o) (c : Bool) :
    Reads h (addressM H p c) (address H (pubValue h o) c) := by
  unfold addressM address
  refine .bind (format_ref ho c) fun hexa => ?_
  refine .bind (rx := hexDecode _) rfl fun bytes => ?_
  refine .step (a := o) (by simp [Reads, readPub, ho]) ?_
  refine .bind (rx := deref (loadNet h o.Network)) rfl fun net => ?_
  refine .bind (rx := hexDecode _) rfl fun bytes => ?_
  refine .bind (rx := slice _ _ _) rfl fun checksum => ?_
  exact .bind (rx := hexDecode _) rfl fun bytes => rfl

end Btc.Mem
