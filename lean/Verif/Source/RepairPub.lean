import Verif.Props.Curve
import Verif.Source.Pub
import Verif.Source.RepairKeys

/-!
# Runs of the repaired function for public keys
-/

namespace Btc.Source

open Mem Spec

/-- A call returned a new public key with these coordinates and this network. -/
def GavePub (st : State) (x y : Nat) (network : Ptr) (o : Out (List Value)) : Prop :=
  ∃ st' a ob, o = .ok [.pub (some a), .err none] st' ∧ Kept st st' ∧ st.heap.pubs.length ≤ a ∧ st'.heap.pubs[a]? = some ob ∧
    loadInt st'.heap ob.X = some (x : Int) ∧ loadInt st'.heap ob.Y = some (y : Int) ∧ ob.Network = network

/-- A call returned no public key but this error. -/
def GaveNoPub (st : State) (e : GoError) (o : Out (List Value)) : Prop :=
  ∃ st', o = .ok [.pub none, .err (some e)] st' ∧ Kept st st'

variable (H : Hashes) (E : EcdsaM)

theorem fixed_PublicFromHex_nil (n : Nat) (hexa : GoString) (st : State) :
    GaveNoPub st .differentNetwork (runFunc H E repaired (n + 1) 0 (id! "PublicFromHex") [.str hexa, .net none] st) := by
  rw [runFunc_succ H E repaired_PublicFromHex _ rfl]
  unfold rPublicFromHex
  go_run
  exact ⟨_, rfl, .refl _⟩

theorem fixed_PublicFromHex_not_hex (n : Nat) (hexa : GoString) (a : Nat) (e : GoError) (st : State) (h : hexDecode hexa = .err e) :
    GaveNoPub st e (runFunc H E repaired (n + 1) 0 (id! "PublicFromHex") [.str hexa, .net (some a)] st) := by
  rw [runFunc_succ H E repaired_PublicFromHex _ rfl]
  unfold rPublicFromHex
  go_run [h]
  exact ⟨_, rfl, .refl _⟩

theorem fixed_PublicFromHex_empty (n : Nat) (a : Nat) (st : State) :
    GaveNoPub st .unsupportedFormat (runFunc H E repaired (n + 1) 0 (id! "PublicFromHex") [.str [], .net (some a)] st) := by
  rw [runFunc_succ H E repaired_PublicFromHex _ rfl]
  unfold rPublicFromHex
  go_run [show hexDecode [] = .ok [] from rfl]
  exact ⟨_, rfl, .refl _⟩

theorem Kept.addPub (st : State) (ints : List Int) (ps : List PubObj) (hs : List HashObj)
    (hv : ∀ o ∈ ps, Below (st.heap.ints ++ ints).length o.X ∧ Below (st.heap.ints ++ ints).length o.Y := by below) :
    Kept st ⟨⟨st.heap.ints ++ ints, st.heap.nets, st.heap.privs, st.heap.pubs ++ ps, st.heap.curve⟩, hs, st.rd, st.log, st.vars⟩ :=
  ⟨⟨List.prefix_append _ _, rfl, List.prefix_refl _, List.prefix_append _ _, rfl⟩, rfl, rfl, rfl, fun ho => by
    simpa using ho.more (List.prefix_append _ _) (ps := []) (by simp) hv st.heap.nets⟩

theorem Kept.addPub0 (st : State) (ps : List PubObj) (hs : List HashObj)
    (hv : ∀ o ∈ ps, Below st.heap.ints.length o.X ∧ Below st.heap.ints.length o.Y := by below) :
    Kept st ⟨⟨st.heap.ints, st.heap.nets, st.heap.privs, st.heap.pubs ++ ps, st.heap.curve⟩, hs, st.rd, st.log, st.vars⟩ :=
  ⟨⟨List.prefix_refl _, rfl, List.prefix_refl _, List.prefix_append _ _, rfl⟩, rfl, rfl, rfl, fun ho => by
    simpa using ho.more (List.prefix_refl _) (ps := []) (by simp) hv st.heap.nets⟩

/-- The bytes can be those of a public key: 65 bytes beginning with 04, or 33 bytes beginning with 02 or 03. -/
def PubShape (ser : Bytes) : Prop :=
  (ser.length = 65 ∧ ser.head? = some 0x04) ∨ (ser.length = 33 ∧ (ser.head? = some 0x02 ∨ ser.head? = some 0x03))

theorem spells_pair {s t : GoString} {b b' : UInt8} {bs : Bytes} (h : Spells (s ++ t) (b :: bs)) (hs : Spells s [b']) : b = b' := by
  obtain ⟨b1, b2, h1, -, e⟩ := h.split (by rw [hs.length]; simp)
  obtain rfl := h1.unique hs
  exact (List.cons.inj e).1

theorem spells_02 : Spells (asc "02") [0x02] := hexDecode_eq_ok.1 (by decide +kernel)
theorem spells_03 : Spells (asc "03") [0x03] := hexDecode_eq_ok.1 (by decide +kernel)
theorem spells_04 : Spells (asc "04") [0x04] := hexDecode_eq_ok.1 (by decide +kernel)

theorem fixed_PublicFromHex_shape (n : Nat) (hexa : GoString) (ser : Bytes) (a : Nat) (st : State) (h : Spells hexa ser)
    (hs : ¬ PubShape ser) :
    GaveNoPub st .unsupportedFormat (runFunc H E repaired (n + 1) 0 (id! "PublicFromHex") [.str hexa, .net (some a)] st) := by
  cases h with
  | nil => exact fixed_PublicFromHex_empty H E n a st
  | @cons hi lo x y b s bs h1 h2 h3 h4 =>
    have hc := Spells.cons h1 h2 h3 h4
    have hd := hexDecode_of_spells hc
    have hl := h4.length
    have hb : ∀ t b', [hi, lo] = t → Spells t [b'] → b = b' := by
      rintro t b' rfl h
      exact spells_pair (s := [hi, lo]) hc h
    rw [runFunc_succ H E repaired_PublicFromHex _ rfl]
    unfold rPublicFromHex
    have hlen : ¬ (((hi :: lo :: s).length : Int) < 2) := by simp only [List.length_cons]; omega
    have e : slice (hi :: lo :: s) 0 2 = .ok [hi, lo] := slice_left (a := [hi, lo]) (b := s) rfl
    go_run [hd, hlen, e]
    by_cases c4 : [hi, lo] = asc "04"
    · have hne : ¬ (((hi :: lo :: s).length : Int) = 130) := by
        obtain rfl := hb _ _ c4 spells_04
        simp only [List.length_cons]
        intro h0
        exact hs (.inl ⟨by simp only [List.length_cons]; omega, rfl⟩)
      go_run [c4, hne]
      exact ⟨_, rfl, .addPub0 st _ _⟩
    by_cases c32 : [hi, lo] = asc "03" ∨ [hi, lo] = asc "02"
    case neg =>
      obtain ⟨c3, c2⟩ := not_or.mp c32
      go_run [c4, c3, c2]
      exact ⟨_, rfl, .addPub0 st _ _⟩
    have hne : ¬ (((hi :: lo :: s).length : Int) = 66) := by
      simp only [List.length_cons]
      intro h0
      refine hs (.inr ⟨by simp only [List.length_cons]; omega, ?_⟩)
      rcases c32 with c | c
      · obtain rfl := hb _ _ c spells_03
        exact .inr rfl
      · obtain rfl := hb _ _ c spells_02
        exact .inl rfl
    rcases c32 with c | c
    · go_run [c, hne]
      exact ⟨_, rfl, .addPub0 st _ _⟩
    · go_run [c, hne]
      exact ⟨_, rfl, .addPub0 st _ _⟩

/-- The number that a pointer leads to. -/
def numAt (l : List Int) (p : Ptr) : Option Int := p.bind fun a => l[a]?

section
variable {l : List Int} {p q : Ptr} {x y w : Int}

theorem numAt_below (h : numAt l p = some x) : Below l.length p := by
  rintro a rfl
  exact (List.getElem?_eq_some_iff.1 h).1

theorem numAt_more (h : numAt l p = some x) : numAt (l ++ [w]) p = some x := by
  cases p with
  | none => cases h
  | some a =>
    have h : l[a]? = some x := h
    change (l ++ [w])[a]? = some x
    rw [List.getElem?_append_left (List.getElem?_eq_some_iff.1 h).1, h]

theorem numAt_last : numAt (l ++ [w]) (some l.length) = some w := List.getElem?_concat_length

variable (ns : List Network) (ps : List PrivObj) (qs : List PubObj) (c : CurveObj)

theorem loadInt_numAt (h : numAt l p = some x) : loadInt ⟨l, ns, ps, qs, c⟩ p = some x := h

theorem mul_numAt (hx : numAt (l ++ [w]) p = some x) (hy : numAt (l ++ [w]) q = some y) :
    bigMul (some l.length) p q ⟨l ++ [w], ns, ps, qs, c⟩ = (.ok (some l.length), ⟨l ++ [x * y], ns, ps, qs, c⟩) := by
  unfold bigMul
  go_run [loadInt_numAt ns ps qs c hx, loadInt_numAt ns ps qs c hy]

theorem add_numAt (hx : numAt (l ++ [w]) p = some x) (hy : numAt (l ++ [w]) q = some y) :
    bigAdd (some l.length) p q ⟨l ++ [w], ns, ps, qs, c⟩ = (.ok (some l.length), ⟨l ++ [x + y], ns, ps, qs, c⟩) := by
  unfold bigAdd
  go_run [loadInt_numAt ns ps qs c hx, loadInt_numAt ns ps qs c hy]

theorem mod_numAt (hx : numAt (l ++ [w]) p = some x) (hy : numAt (l ++ [w]) q = some y) (h0 : y ≠ 0) :
    bigMod (some l.length) p q ⟨l ++ [w], ns, ps, qs, c⟩ = (.ok (some l.length), ⟨l ++ [x % y], ns, ps, qs, c⟩) := by
  unfold bigMod
  go_run [loadInt_numAt ns ps qs c hx, loadInt_numAt ns ps qs c hy, h0]

end

theorem Kept.addPub' (st : State) {l : List Int} (hl : st.heap.ints <+: l) (ps : List PubObj) (hs : List HashObj)
    (hv : ∀ o ∈ ps, Below l.length o.X ∧ Below l.length o.Y := by below) :
    Kept st ⟨⟨l, st.heap.nets, st.heap.privs, st.heap.pubs ++ ps, st.heap.curve⟩, hs, st.rd, st.log, st.vars⟩ :=
  ⟨⟨hl, rfl, List.prefix_refl _, List.prefix_append _ _, rfl⟩, rfl, rfl, rfl, fun ho => by
    simpa using ho.more hl (ps := []) (by simp) hv st.heap.nets⟩

/-- The equation of the curve, as the repaired text computes it. -/
theorem equation_iff (x y : Nat) : ((y : Int) * y % (Spec.p : Int) = ((x : Int) * x * x + 7) % (Spec.p : Int)) ↔
    y ^ 2 % Spec.p = (x ^ 3 + 7) % Spec.p := by
  rw [show (y : Int) * y % (Spec.p : Int) = ((y ^ 2 % Spec.p : Nat) : Int) by push_cast; rw [sq],
    show ((x : Int) * x * x + 7) % (Spec.p : Int) = (((x ^ 3 + 7) % Spec.p : Nat) : Int) by push_cast; rw [pow_succ, sq],
    Nat.cast_inj]

theorem fixed_PublicFromHex_full (n : Nat) (xs ys : GoString) (xb yb : Bytes) (a : Nat) (st : State) (hx : Spells xs xb)
    (hy : Spells ys yb) (lx : xb.length = 32) (ly : yb.length = 32)
    (hP : loadInt st.heap st.heap.curve.P = some (Spec.p : Int)) (hB : loadInt st.heap st.heap.curve.B = some 7) :
    (OnCurve (bigEndian xb) (bigEndian yb) ∧ GavePub st (bigEndian xb) (bigEndian yb) (some a)
      (runFunc H E repaired (n + 1) 0 (id! "PublicFromHex") [.str (asc "04" ++ xs ++ ys), .net (some a)] st)) ∨
    (¬ OnCurve (bigEndian xb) (bigEndian yb) ∧ GaveNoPub st .notOnSecp256k1
      (runFunc H E repaired (n + 1) 0 (id! "PublicFromHex") [.str (asc "04" ++ xs ++ ys), .net (some a)] st)) := by
  have hd := hexDecode_of_spells ((spells_04.append hx).append hy)
  have l2 : (asc "04").length = 2 := by decide +kernel
  have l64 : xs.length = 64 := by rw [hx.length, lx]
  have l64' : ys.length = 64 := by rw [hy.length, ly]
  have hlen : (((asc "04" ++ xs ++ ys).length : Nat) : Int) = 130 := by simp only [List.length_append]; omega
  have e1 : slice (asc "04" ++ xs ++ ys) 0 2 = .ok (asc "04") := by rw [List.append_assoc]; exact slice_left (by rw [l2]; rfl)
  have e2 : slice (asc "04" ++ xs ++ ys) 2 66 = .ok xs := slice_mid (m := 2) (n := 66) l2 (by rw [l64])
  have e3 : slice (asc "04" ++ xs ++ ys) 66 130 = .ok ys := slice_right (by rw [List.length_append, l64, l2]; rfl) hlen.symm
  have nx : xs ≠ [] := by rintro rfl; cases l64
  have ny : ys ≠ [] := by rintro rfl; cases l64'
  rw [runFunc_succ H E repaired_PublicFromHex _ rfl]
  unfold rPublicFromHex
  have hlen' : ¬ ((((asc "04" ++ xs ++ ys).length : Nat) : Int) < 2) := by omega
  go_run [hd, hlen', hlen, e1, e2, e3]
  rw [bigSetString_of_spells hx nx, bigSetString_of_spells hy ny]
  go_run [hP]
  generalize hX : bigEndian xb = X
  generalize hY : bigEndian yb = Y
  have aX : numAt (st.heap.ints ++ [(X : Int)] ++ [(Y : Int)]) (some st.heap.ints.length) = some (X : Int) := numAt_more numAt_last
  have aY : numAt (st.heap.ints ++ [(X : Int)] ++ [(Y : Int)]) (some (st.heap.ints ++ [(X : Int)]).length) = some (Y : Int) := numAt_last
  have aP : numAt (st.heap.ints ++ [(X : Int)] ++ [(Y : Int)]) st.heap.curve.P = some (Spec.p : Int) := numAt_more (numAt_more hP)
  have aB : numAt (st.heap.ints ++ [(X : Int)] ++ [(Y : Int)]) st.heap.curve.B = some 7 := numAt_more (numAt_more hB)
  have hpre : st.heap.ints <+: st.heap.ints ++ [(X : Int)] ++ [(Y : Int)] := by
    rw [List.append_assoc]
    exact List.prefix_append _ _
  revert aX aY aP aB hpre
  generalize some (st.heap.ints ++ [(X : Int)]).length = q
  generalize some st.heap.ints.length = r
  generalize st.heap.ints ++ [(X : Int)] ++ [(Y : Int)] = l
  intro aX aY aP aB hpre
  have hnew : Below (l.length + 2) r ∧ Below (l.length + 2) q :=
    ⟨(numAt_below aX).mono (by omega), (numAt_below aY).mono (by omega)⟩
  have hp0 : (Spec.p : Int) ≠ 0 := by decide +kernel
  go_run [mul_numAt (w := 0) _ _ _ _ (numAt_more aY) (numAt_more aY)]
  go_run [mod_numAt _ _ _ _ numAt_last (numAt_more aP) hp0]
  generalize hl : (Y : Int) * Y % (Spec.p : Int) = left
  go_run [mul_numAt (w := 0) _ _ _ _ (numAt_more (numAt_more aX)) (numAt_more (numAt_more aX))]
  go_run [mul_numAt _ _ _ _ numAt_last (numAt_more (numAt_more aX))]
  go_run [add_numAt _ _ _ _ numAt_last (numAt_more (numAt_more aB))]
  go_run [mod_numAt _ _ _ _ numAt_last (numAt_more (numAt_more aP)) hp0]
  generalize hr : ((X : Int) * X * X + 7) % (Spec.p : Int) = right
  have bX := loadInt_numAt (l := l ++ [left] ++ [right]) st.heap.nets st.heap.privs
    (st.heap.pubs ++ [⟨r, q, some a⟩]) st.heap.curve (numAt_more (numAt_more aX))
  have bY := loadInt_numAt (l := l ++ [left] ++ [right]) st.heap.nets st.heap.privs
    (st.heap.pubs ++ [⟨r, q, some a⟩]) st.heap.curve (numAt_more (numAt_more aY))
  have bP := loadInt_numAt (l := l ++ [left] ++ [right]) st.heap.nets st.heap.privs
    (st.heap.pubs ++ [⟨r, q, some a⟩]) st.heap.curve (numAt_more (numAt_more aP))
  have bl := loadInt_numAt (l := l ++ [left] ++ [right]) st.heap.nets st.heap.privs
    (st.heap.pubs ++ [⟨r, q, some a⟩]) st.heap.curve (numAt_more numAt_last)
  have br := loadInt_numAt (l := l ++ [left] ++ [right]) st.heap.nets st.heap.privs
    (st.heap.pubs ++ [⟨r, q, some a⟩]) st.heap.curve numAt_last
  have hpre' : st.heap.ints <+: l ++ [left] ++ [right] := (hpre.trans (List.prefix_append _ _)).trans (List.prefix_append _ _)
  have heq : left = right ↔ Y ^ 2 % Spec.p = (X ^ 3 + 7) % Spec.p := by rw [← hl, ← hr, equation_iff]
  go_run [bX, bP]
  by_cases h1 : (X : Int) < Spec.p
  case neg =>
    go_run [intCmp_neg, h1]
    exact .inr ⟨fun h => h1 (by have := h.1; omega), _, rfl, .addPub' st hpre' _ _ (by simpa using hnew)⟩
  go_run [intCmp_neg, h1, bY, bP]
  by_cases h2 : (Y : Int) < Spec.p
  case neg =>
    go_run [intCmp_neg, h2]
    exact .inr ⟨fun h => h2 (by have := h.2.1; omega), _, rfl, .addPub' st hpre' _ _ (by simpa using hnew)⟩
  go_run [intCmp_neg, h2, bl, br]
  by_cases h3 : left = right
  case neg =>
    go_run [intCmp_eq, h3]
    exact .inr ⟨fun h => h3 (heq.2 h.2.2), _, rfl, .addPub' st hpre' _ _ (by simpa using hnew)⟩
  go_run [intCmp_eq, h3]
  subst h3
  exact .inl ⟨⟨by omega, by omega, heq.1 rfl⟩, _, _, _, rfl, .addPub' st hpre' _ _ (by simpa using hnew), Nat.le_refl _, List.getElem?_concat_length, bX, bY, rfl⟩

theorem fixed_PublicFromHex_half (hE : E.IntOps) (n : Nat) (pre xs : GoString) (xb : Bytes) (a : Nat) (st : State)
    (h32 : pre = asc "03" ∨ pre = asc "02") (hx : Spells xs xb) (lx : xb.length = 32)
    (hP : loadInt st.heap st.heap.curve.P = some (Spec.p : Int)) :
    (bigEndian xb < Spec.p ∧ runFunc H E repaired (n + 1) 0 (id! "PublicFromHex") [.str (pre ++ xs), .net (some a)] st =
      Out.of (fun p => [.pub p, .err none]) (fun e => [.pub none, .err (some e)]) (publicFromHexM E (pre ++ xs) (some a) st.heap) st) ∨
    (¬ bigEndian xb < Spec.p ∧ GaveNoPub st .notOnSecp256k1
      (runFunc H E repaired (n + 1) 0 (id! "PublicFromHex") [.str (pre ++ xs), .net (some a)] st)) := by
  obtain ⟨b, hb⟩ : ∃ b, Spells pre [b] := by
    rcases h32 with rfl | rfl
    · exact ⟨_, spells_03⟩
    · exact ⟨_, spells_02⟩
  have hd := hexDecode_of_spells (hb.append hx)
  have l2 : pre.length = 2 := hb.length
  have l64 : xs.length = 64 := by rw [hx.length, lx]
  have hlen : (((pre ++ xs).length : Nat) : Int) = 66 := by simp only [List.length_append]; omega
  have hlen' : ¬ ((((pre ++ xs).length : Nat) : Int) < 2) := by omega
  have e1 : slice (pre ++ xs) 0 2 = .ok pre := slice_left (by rw [l2]; rfl)
  have e2 : slice (pre ++ xs) 2 66 = .ok xs := slice_right (by rw [l2]; rfl) hlen.symm
  have nx : xs ≠ [] := by rintro rfl; cases l64
  rw [runFunc_succ H E repaired_PublicFromHex _ rfl]
  unfold rPublicFromHex publicFromHexM
  go_run [hd, hlen', e1]
  have bX := loadInt_numAt (l := st.heap.ints ++ [(bigEndian xb : Int)]) st.heap.nets st.heap.privs
    (st.heap.pubs ++ [⟨some st.heap.ints.length, none, some a⟩]) st.heap.curve numAt_last
  have bP := loadInt_numAt (l := st.heap.ints ++ [(bigEndian xb : Int)]) st.heap.nets st.heap.privs
    (st.heap.pubs ++ [⟨some st.heap.ints.length, none, some a⟩]) st.heap.curve (numAt_more hP)
  rcases h32 with rfl | rfl
  all_goals
    go_run [hlen, e2, bigSetString_of_spells hx nx]
    go_run [bX, bP]
    by_cases h1 : ((bigEndian xb : Nat) : Int) < Spec.p
    case neg =>
      go_run [intCmp_neg, h1]
      exact .inr ⟨by omega, _, rfl, .addPub' st (List.prefix_append _ _) _ _⟩
    refine .inl ⟨by omega, ?_⟩
    go_run [intCmp_neg, h1]
    obtain ⟨l, ⟨⟨y, b⟩, e⟩ | ⟨p, e⟩⟩ := (hE.getY (some st.heap.ints.length)).cases
      ⟨st.heap.ints ++ [(bigEndian xb : Int)], st.heap.nets, st.heap.privs,
        st.heap.pubs ++ [⟨some st.heap.ints.length, none, some a⟩], st.heap.curve⟩
    case inr => go_run [e]
    cases b
    · go_run [e]
      rfl
    go_run [e]
    rcases e : bigSet _ _ _ with ⟨r, h'⟩
    obtain ⟨l2, rfl, hne⟩ := (intOp_set _ _).shape e
    clear e
    rcases r with m | e | p
    case err => exact (hne _ rfl).elim
    case panic => go_run
    go_run
    rcases e : bigMod _ _ _ _ with ⟨r, h'⟩
    obtain ⟨l3, rfl, hne⟩ := (intOp_mod _ _ _).shape e
    clear e
    rcases r with m | e | p
    case err => exact (hne _ rfl).elim
    case panic => go_run
    go_run
    rcases loadInt _ m with _ | a
    · go_run
    go_run
    rcases loadInt _ (some l.length) with _ | b
    · go_run
    go_run
    by_cases hab : a = b
    · go_run [intCmp_eq, hab]
      rfl
    go_run [intCmp_eq, hab]
    rcases e : E.multMod _ _ _ with ⟨r, h'⟩
    obtain ⟨l4, rfl, hne⟩ := (hE.multMod _ _).shape e
    clear e
    rcases r with m | e | p
    case err => exact (hne _ rfl).elim
    case panic => go_run
    go_run
    rfl

/-- Public keys of different networks, or with the same x, are not added. -/
theorem fixed_AddPublicKeys_refused (n : Nat) (p1 p2 : Ptr) (c : Bool) (o1 o2 : PubObj) (x1 x2 : Int) (st : State)
    (h1 : (p1.bind fun a => st.heap.pubs[a]?) = some o1) (h2 : (p2.bind fun a => st.heap.pubs[a]?) = some o2)
    (hx1 : loadInt st.heap o1.X = some x1) (hx2 : loadInt st.heap o2.X = some x2) :
    ((o1.Network.bind fun a => st.heap.nets[a]?) ≠ (o2.Network.bind fun a => st.heap.nets[a]?) →
      runFunc H E repaired (n + 1) 0 (id! "AddPublicKeys") [.pub p1, .pub p2, .bool c] st =
        .ok [.pub none, .err (some .differentNetwork)] st) ∧
    ((o1.Network.bind fun a => st.heap.nets[a]?) = (o2.Network.bind fun a => st.heap.nets[a]?) → x1 = x2 →
      runFunc H E repaired (n + 1) 0 (id! "AddPublicKeys") [.pub p1, .pub p2, .bool c] st =
        .ok [.pub none, .err (some .notOnCurve)] st) := by
  rw [runFunc_succ H E repaired_AddPublicKeys _ rfl]
  unfold rAddPublicKeys
  constructor
  · intro hn
    go_run [h1, h2, hn]
    rfl
  · rintro hn rfl
    have hz : intCmp x1 x1 = 0 := by simp [intCmp]
    go_run [h1, h2, hn, hx1, hx2, hz]
    rfl

/-- Otherwise they are added as in the repository. -/
theorem fixed_AddPublicKeys (hE : E.IntOps) (n : Nat) (p1 p2 : Ptr) (c : Bool) (o1 o2 : PubObj) (x1 x2 : Int) (st : State)
    (h1 : (p1.bind fun a => st.heap.pubs[a]?) = some o1) (h2 : (p2.bind fun a => st.heap.pubs[a]?) = some o2)
    (hx1 : loadInt st.heap o1.X = some x1) (hx2 : loadInt st.heap o2.X = some x2) (hx : x1 ≠ x2) :
    runFunc H E repaired (n + 1) 0 (id! "AddPublicKeys") [.pub p1, .pub p2, .bool c] st =
      Out.of (fun p => [.pub p, .err none]) (fun e => [.pub none, .err (some e)]) (addPublicKeysM E p1 p2 c st.heap) st := by
  rw [runFunc_succ H E repaired_AddPublicKeys _ rfl]
  unfold rAddPublicKeys addPublicKeysM
  go_run [h1, h2]
  by_cases hn : (o1.Network.bind fun a => st.heap.nets[a]?) = o2.Network.bind fun a => st.heap.nets[a]?
  case neg => go_run [hn]; rfl
  have hz : intCmp x1 x2 ≠ 0 := by
    rw [intCmp, if_neg hx]
    split <;> decide
  go_run [hn, h1, h2, hx1, hx2, hz]
  rcases e : E.addPoints _ _ _ with ⟨r, h'⟩
  obtain ⟨l, rfl, hne⟩ := (hE.addPoints _ _).shape e
  clear e
  rcases r with ⟨⟨x, y⟩, b⟩ | e | p
  case err => exact (hne _ rfl).elim
  case panic => go_run
  cases b
  · go_run
    rfl
  go_run [h1]
  rfl

end Btc.Source
