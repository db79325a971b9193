import Verif.Props.Serial
import Verif.Props.Address
import Verif.Props.Repair
import Verif.Props.Source
import Verif.Source.RepairPub
import Verif.Source.Session

/-!
# C129: which lines are at fault in the function that imports public keys

The text in `Verif/Source/Repair.lean` differs from the repository's in the lines marked there. For it the properties hold
that C31, C32, C61, C62 and C98 show to be violated in the repository.
-/

namespace Btc

open Spec Mem Source

/-- A public key in memory: a point of the curve, and a network. -/
structure PubAt (st : State) (p network : Ptr) (x y : Nat) : Prop where
  object : ∃ ob, (p.bind fun a => st.heap.pubs[a]?) = some ob ∧ loadInt st.heap ob.X = some (x : Int) ∧
    loadInt st.heap ob.Y = some (y : Int) ∧ ob.Network = network
  point : OnCurve x y

/-- The call returned a public key, in new memory, and changed nothing. -/
def NewPubKey (st : State) (network : Ptr) (x y : Nat) (o : Out (List Value)) : Prop :=
  ∃ st' a, o = .ok [.pub (some a), .err none] st' ∧ Kept st st' ∧ st.heap.pubs.length ≤ a ∧ PubAt st' (some a) network x y

/-- The text spells the bytes of the point, in the compressed or in the full form. -/
def PubText (hexa : GoString) (c : Bool) (x y : Nat) : Prop :=
  OnCurve x y ∧ ∃ ser, Spells hexa ser ∧ IsSerialized c x y ser

theorem load_valid {h : Heap} {p : Ptr} {v : Int} (hp : loadInt h p = some v) : ValidInt h p := by
  rintro a rfl
  exact (List.getElem?_eq_some_iff.1 (show h.ints[a]? = some v from hp)).1

/-- A text is the text of at most one point, in one form. -/
theorem pubText_unique {hexa : GoString} {c c' : Bool} {x y x' y' : Nat} (h : PubText hexa c x y) (h' : PubText hexa c' x' y') :
    c = c' ∧ x = x' ∧ y = y' := by
  obtain ⟨hp, ser, hs, xb, yb, lx, ly, rfl, rfl, e⟩ := h
  obtain ⟨hp', ser', hs', xb', yb', lx', ly', rfl, rfl, e'⟩ := h'
  obtain rfl := hs.unique hs'
  have hl := congrArg List.length e
  have hl' := congrArg List.length e'
  cases c <;> cases c' <;> simp only [Bool.false_eq_true, if_false, if_true, List.length_cons, List.length_append, lx, ly, lx', ly'] at hl hl'
  · simp only [Bool.false_eq_true, if_false, List.cons_append] at e e'
    obtain ⟨rfl, rfl⟩ := List.append_inj (List.cons.inj (e.symm.trans e')).2 (lx.trans lx'.symm)
    exact ⟨rfl, rfl, rfl⟩
  · omega
  · omega
  · simp only [if_true] at e e'
    obtain ⟨e1, rfl⟩ := List.cons.inj (e.symm.trans e')
    refine ⟨rfl, rfl, ?_⟩
    have hpar : bigEndian yb % 2 = bigEndian yb' % 2 := by
      split at e1 <;> split at e1
      · omega
      · cases e1
      · cases e1
      · omega
    have hodd := EC.p_odd
    have := hp.2.1
    rcases EC.same_x_y hp hp' with h | h
    · exact h
    · omega

/-- Two texts of one byte with digits only are the same. -/
theorem text_of_byte {s t : GoString} {b : UInt8} (hs : Spells s [b]) (ht : Spells t [b])
    (h : ∀ c ∈ t, c ∈ asc "0123456789") : s = t := by
  have key : ∀ c : UInt8, ∀ d ∈ asc "0123456789", hexVal c = hexVal d → c = d := by
    apply forall_byte
    decide +kernel
  have hm := sameDigits_of_spells hs ht
  clear hs ht
  induction t generalizing s with
  | nil => simpa using hm
  | cons d t ih =>
    cases s with
    | nil => cases hm
    | cons c s =>
      simp only [List.map_cons, List.cons.injEq] at hm
      rw [key c d (h d (by simp)) hm.1, ih (fun c hc => h c (by simp [hc])) hm.2]

section
variable (H : Hashes) (E : EcdsaM)

/-- C129. After `init`, the curve is known. -/
theorem C129_init (rd : Reader) : CurveOK (ready rd).heap := init_curveOK _

/-- C129. Public keys stay as they are in later states. -/
theorem C129_keys_stay {st st' : State} (hk : Kept st st') {p network : Ptr} {x y : Nat} (h : PubAt st p network x y) :
    PubAt st' p network x y := by
  obtain ⟨⟨ob, h1, h2, h3, h4⟩, hp⟩ := h
  exact ⟨⟨ob, loadPub_grow hk.heap h1, (loadInt_grow hk.heap (load_valid h2)).trans h2,
    (loadInt_grow hk.heap (load_valid h3)).trans h3, h4⟩, hp⟩

theorem gavePub_new {st : State} {network : Ptr} {x y : Nat} {o : Out (List Value)} (h : GavePub st x y network o)
    (hp : OnCurve x y) : NewPubKey st network x y o := by
  obtain ⟨st', a, ob, e, hk, ha, h1, h2, h3, h4⟩ := h
  exact ⟨st', a, e, hk, ha, ⟨ob, h1, h2, h3, h4⟩, hp⟩

theorem newPub_new {st : State} {network : Ptr} {x y : Nat} {a : Ptr} {net : Option Network} {h' : Heap}
    (h : NewPub st.heap network a ⟨some (x : Int), some (y : Int), net⟩ h') (hs : List HashObj) (ho : Objs st.heap → Objs h') :
    ∃ q, a = some q ∧ st.heap.pubs.length ≤ q ∧ Kept st { st with heap := h', hashes := hs } ∧
      (OnCurve x y → PubAt { st with heap := h', hashes := hs } a network x y) := by
  obtain ⟨hg, ⟨ob, h1, h2, h3, -⟩, hf⟩ := h
  have h4 := congrArg PublicKey.X h2
  have h5 := congrArg PublicKey.Y h2
  cases a with
  | none => cases h1
  | some q => exact ⟨q, rfl, hf q rfl, ⟨hg, rfl, rfl, rfl, ho⟩, fun hp => ⟨⟨ob, h1, h4, h5, h3⟩, hp⟩⟩

/-- C129. A nil network is refused. -/
theorem C129_nil_network (hexa : GoString) (st : State) :
    ∃ o, Ends H E repaired 0 (id! "PublicFromHex") [.str hexa, .net none] st o ∧ GaveNoPub st .differentNetwork o := by
  have h := fixed_PublicFromHex_nil H E 0 hexa st
  obtain ⟨st', e, -⟩ := id h
  exact ⟨_, .of e nofun, e ▸ h⟩

variable {E} {V : Ecdsa} (hE : Pkg E) (hV : E.Refines V) (hC : EcdsaContract V)
include hE hV hC

/-- Why a text is not imported as a public key. -/
inductive WhyNoPub (hexa : GoString) : GoError → Prop
  /-- It is not hexadecimal. -/
  | decode {e : GoError} : hexDecode hexa = .err e → WhyNoPub hexa e
  /-- It is, but the length or the first byte is wrong. -/
  | shape {ser : Bytes} : Spells hexa ser → ¬ PubShape ser → WhyNoPub hexa .unsupportedFormat
  /-- They are right, but the numbers are not those of a point. -/
  | point {ser : Bytes} : Spells hexa ser → PubShape ser → WhyNoPub hexa .notOnSecp256k1

/-- C129. The repaired `PublicFromHex` returns a key exactly for the texts of points of the curve, in either form. For
every other text it returns an error: for a text that is not hexadecimal that of the decoder, for a wrong length or first byte
"unsupported public key format", and otherwise "point is not on secp256k1 curve". It never panics. -/
theorem C129_import (st : State) (hc : CurveOK st.heap) (hexa : GoString) (network : Ptr) (hn : network ≠ none) :
    ∃ o, Ends H E repaired 0 (id! "PublicFromHex") [.str hexa, .net network] st o ∧
    ((∃ c x y, PubText hexa c x y ∧ NewPubKey st network x y o) ∨
      (¬ ∃ c x y, PubText hexa c x y) ∧ ∃ e, GaveNoPub st e o ∧ WhyNoPub hexa e) := by
  obtain ⟨a, rfl⟩ := Option.ne_none_iff_exists'.1 hn
  have hP : loadInt st.heap st.heap.curve.P = some (Spec.p : Int) := congrArg Curve.P hc.value
  have hB : loadInt st.heap st.heap.curve.B = some 7 := congrArg Curve.B hc.value
  have refuse : ∀ e, GaveNoPub st e (runFunc H E repaired 1 0 (id! "PublicFromHex") [.str hexa, .net (some a)] st) →
      (¬ ∃ c x y, PubText hexa c x y) → WhyNoPub hexa e →
      ∃ o, Ends H E repaired 0 (id! "PublicFromHex") [.str hexa, .net (some a)] st o ∧
    ((∃ c x y, PubText hexa c x y ∧ NewPubKey st (some a) x y o) ∨
      (¬ ∃ c x y, PubText hexa c x y) ∧ ∃ e, GaveNoPub st e o ∧ WhyNoPub hexa e) := by
    intro e h1 h2 h3
    obtain ⟨st', e1, -⟩ := id h1
    exact ⟨_, .of e1 nofun, .inr ⟨h2, e, e1 ▸ h1, h3⟩⟩
  rcases hd : hexDecode hexa with ser | e | p
  case panic => exact (hexDecode_ne_panic _ _ hd).elim
  case err =>
    have hno : ∀ ser, ¬ Spells hexa ser := by
      intro ser hs
      rw [hexDecode_of_spells hs] at hd
      cases hd
    refine refuse e (fixed_PublicFromHex_not_hex H E 0 hexa a e st hd) ?_ (.decode hd)
    rintro ⟨c, x, y, -, ser, hs, -⟩
    exact hno ser hs
  have hs := hexDecode_eq_ok.1 hd
  by_cases hsh : PubShape ser
  case neg =>
    refine refuse _ (fixed_PublicFromHex_shape H E 0 hexa ser a st hs hsh) ?_ (.shape hs hsh)
    · rintro ⟨c, x, y, -, ser', hs', xb, yb, lx, ly, -, -, rfl⟩
      obtain rfl := hs.unique hs'
      refine hsh ?_
      cases c
      · exact .inl ⟨by simp [lx, ly], rfl⟩
      · refine .inr ⟨by simp [lx], ?_⟩
        simp only [if_true, List.head?_cons]
        split <;> simp
  have errs : WhyNoPub hexa .notOnSecp256k1 := .point hs hsh
  rcases hsh with ⟨hl, hh⟩ | ⟨hl, hh⟩
  · obtain ⟨xb, yb, rfl, lx, ly⟩ : ∃ xb yb, ser = [0x04] ++ xb ++ yb ∧ xb.length = 32 ∧ yb.length = 32 := by
      cases ser with
      | nil => cases hh
      | cons b t =>
        cases hh
        simp only [List.length_cons] at hl
        exact ⟨t.take 32, t.drop 32, by simp, by simp; omega, by simp; omega⟩
    have hlen := hs.length
    simp only [List.length_append, lx, ly, List.length_singleton] at hlen
    obtain ⟨pre, xs, ys, rfl, l1, l2, l3⟩ : ∃ pre xs ys, hexa = pre ++ xs ++ ys ∧ pre.length = 2 ∧ xs.length = 64 ∧ ys.length = 64 :=
      ⟨hexa.take 2, (hexa.drop 2).take 64, (hexa.drop 2).drop 64, by rw [List.append_assoc, List.take_append_drop, List.take_append_drop], by simp; omega, by simp; omega,
        by simp; omega⟩
    obtain ⟨b12, b3, h12, h3, e⟩ := hs.split (by simp; omega)
    obtain ⟨b1, b2, h1, h2, rfl⟩ := h12.split (by omega)
    have k1 := h1.length
    have k2 := h2.length
    have k3 := h3.length
    obtain ⟨e12, rfl⟩ := List.append_inj e (by simp only [List.length_append, List.length_singleton]; omega)
    obtain ⟨rfl, rfl⟩ := List.append_inj e12 (by rw [List.length_singleton]; omega)
    obtain rfl : pre = asc "04" := text_of_byte h1 spells_04 (by decide +kernel)
    have he : ∀ x y c, PubText (asc "04" ++ xs ++ ys) c x y → OnCurve (bigEndian xb) (bigEndian yb) := by
      rintro x y c ⟨hp, ser', hs', xb', yb', lx', ly', rfl, rfl, e⟩
      obtain rfl := hs.unique hs'
      cases c
      · simp only [Bool.false_eq_true, if_false, List.cons_append, List.nil_append, List.cons.injEq, true_and] at e
        obtain ⟨rfl, rfl⟩ := List.append_inj e (lx.trans lx'.symm)
        exact hp
      · have := congrArg List.length e
        simp [lx, ly, lx'] at this
    rcases fixed_PublicFromHex_full H E 0 xs ys xb yb a st h2 h3 lx ly hP hB with ⟨hp, hg⟩ | ⟨hp, hg⟩
    · obtain ⟨st', q, ob, e, -⟩ := id hg
      exact ⟨_, .of e nofun, .inl ⟨false, _, _, ⟨hp, _, hs, xb, yb, lx, ly, rfl, rfl, by simp⟩, e ▸ gavePub_new hg hp⟩⟩
    · exact refuse _ hg (by rintro ⟨c, x, y, h⟩; exact hp (he _ _ _ h)) errs
  · obtain ⟨b, xb, rfl, lx, hb⟩ : ∃ b xb, ser = [b] ++ xb ∧ xb.length = 32 ∧ (b = 0x02 ∨ b = 0x03) := by
      cases ser with
      | nil => simp at hh
      | cons b t =>
        simp only [List.length_cons, List.head?_cons, Option.some.injEq] at hl hh
        exact ⟨b, t, rfl, by omega, hh⟩
    have hlen := hs.length
    simp only [List.length_append, lx, List.length_singleton] at hlen
    obtain ⟨pre, xs, rfl, l1, l2⟩ : ∃ pre xs, hexa = pre ++ xs ∧ pre.length = 2 ∧ xs.length = 64 :=
      ⟨hexa.take 2, hexa.drop 2, by simp, by simp; omega, by simp; omega⟩
    obtain ⟨b1, b2, h1, h2, e⟩ := hs.split (by omega)
    have k1 := h1.length
    obtain ⟨rfl, rfl⟩ := List.append_inj e (by rw [List.length_singleton]; omega)
    obtain ⟨par, hpar, hbp, h32⟩ : ∃ par : Fin 2, pre = Spec.parityPrefix par ∧ b = (if (par : Nat) % 2 = 0 then 0x02 else 0x03) ∧
        (pre = asc "03" ∨ pre = asc "02") := by
      rcases hb with rfl | rfl
      · obtain rfl : pre = asc "02" := text_of_byte h1 spells_02 (by decide +kernel)
        exact ⟨0, rfl, rfl, .inr rfl⟩
      · obtain rfl : pre = asc "03" := text_of_byte h1 spells_03 (by decide +kernel)
        exact ⟨1, rfl, rfl, .inl rfl⟩
    have hpl := par.isLt
    have he : ∀ x y c, PubText (pre ++ xs) c x y → OnCurve (bigEndian xb) y ∧ y % 2 = par := by
      rintro x y c ⟨hp, ser', hs', xb', yb', lx', ly', rfl, rfl, e⟩
      obtain rfl := hs.unique hs'
      cases c
      · have := congrArg List.length e
        simp [lx, ly', lx'] at this
      · simp only [if_true, List.cons_append, List.nil_append, List.cons.injEq] at e
        obtain ⟨e1, rfl⟩ := e
        refine ⟨hp, ?_⟩
        rw [hbp] at e1
        split at e1 <;> split at e1
        · omega
        · cases e1
        · cases e1
        · omega
    have hhex : ∀ c ∈ xs, IsHexDigit c := ((exists_spells_iff xs).1 ⟨_, h2⟩).1
    have hnum := hexNumber_of_spells h2
    rcases fixed_PublicFromHex_half H E hE.intOps 0 pre xs xb a st h32 h2 lx hP with ⟨hlt, hg⟩ | ⟨hlt, hg⟩
    · obtain ⟨c1, c2, c3⟩ := C30_decompression V hC par xs (loadNet st.heap (some a)) l2 hhex (by rw [hnum]; exact hlt)
      rw [hnum, ← hpar] at c1 c2
      rw [hnum] at c3
      have href := publicFromHex_ref hV (pre ++ xs) (some a) hc
      by_cases hy : ∃ y, OnCurve (bigEndian xb) y
      · obtain ⟨y, ⟨hy, hyp⟩, -⟩ := c3 hy
        rw [c1 y hy hyp] at href
        obtain ⟨q, h', e, hnew, -⟩ := href
        obtain ⟨q, rfl, hle, hk, hat⟩ := newPub_new hnew st.hashes
          fun ho => by simpa only [e] using (safe_publicFromHex hE.allocs (pre ++ xs) (some a) st.heap (Nat.zero_le _) ho).1
        rw [e] at hg
        refine ⟨_, .of hg nofun, .inl ⟨true, _, y, ⟨hy, _, hs, ?_⟩, _, q, rfl, hk, hle, hat hy⟩⟩
        obtain ⟨yb, -, lyb, hyb⟩ := hex64_spells (m := y) (hy.2.1.trans p_lt)
        refine ⟨xb, yb, lx, lyb, rfl, hyb, ?_⟩
        rw [hbp]
        simp only [if_true, List.cons_append, List.nil_append, List.cons.injEq, and_true, hyp]
        have : (par : Nat) % 2 = par := by omega
        rw [this]
      · rw [c2 (fun y h => hy ⟨y, h⟩)] at href
        have hkeep := keeps_publicFromHex st.heap E hE.allocs.frames (pre ++ xs) (some a) st.heap (.refl _)
        have href : (publicFromHexM E (pre ++ xs) (some a) st.heap).1 = .err .notOnSecp256k1 := href
        rcases hr : publicFromHexM E (pre ++ xs) (some a) st.heap with ⟨r, h'⟩
        rw [hr] at href hkeep hg
        obtain rfl : r = .err .notOnSecp256k1 := href
        refine refuse _ ⟨_, hg, hkeep.1, rfl, rfl, rfl, fun ho => by
          simpa only [hr] using (safe_publicFromHex hE.allocs (pre ++ xs) (some a) st.heap (Nat.zero_le _) ho).1⟩ ?_ errs
        rintro ⟨c, x, y, h⟩
        exact hy ⟨y, (he _ _ _ h).1⟩
    · refine refuse _ hg ?_ errs
      rintro ⟨c, x, y, h⟩
      exact hlt (he _ _ _ h).1.1

/-- C129. The public key of a private key is the point with this number, in new memory; nothing changes. -/
theorem C129_public_key (B : W.Point) (hB : HasCoords B gx gy) (st : State) (hc : CurveOK st.heap) {p network : Ptr}
    {hexa wif : GoString} {pre body : Bytes} {c : Bool} (hk : KeyAt H.sha256 st p network hexa wif pre body c) :
    ∃ (x y q : Nat) (st' : State), Ends H E repaired (id! "PrivateKey") (id! "GetPublicKey") [.priv p] st
        (.ok [.pub (some q), .bool true] st') ∧
      Kept st st' ∧ st.heap.pubs.length ≤ q ∧ HasCoords (bigEndian body • B) x y ∧ PubAt st' (some q) network x y := by
  obtain ⟨ob, h1, h2, -, -, h3⟩ := hk.object
  have hrun := run_GetPublicKey_in H hE.intOps repaired_GetPublicKey 0 p st
  have href := getPublicKey_ref hV (p := p) (o := ob) h1 hc (load_valid h2)
  obtain ⟨x, y, hxy, e⟩ := C33_public_key V hC B hB (privValue st.heap ob) (bigEndian body) h2 hk.low hk.high
  rw [e] at href
  obtain ⟨a, h', e', hnew⟩ := href
  obtain ⟨q, rfl, hle, hkept, hat⟩ := newPub_new (st := st) hnew st.hashes
    fun ho => by simpa only [e'] using (safe_getPublicKey hE.allocs p st.heap (Nat.zero_le _) ho).1
  rw [e'] at hrun
  refine ⟨x, y, q, _, .of hrun nofun, hkept, hle, hxy, ?_⟩
  rw [← h3]
  exact hat ((EC.onCurve_iff _ _).2 ⟨_, hxy⟩)

/-- C129. The sum of two public keys of one network with different x-coordinates is the sum of the points. -/
theorem C129_add (st : State) (hc : CurveOK st.heap) {p1 p2 nw1 nw2 : Ptr} {net : Network} {x1 y1 x2 y2 : Nat} {P Q : W.Point}
    (h1 : PubAt st p1 nw1 x1 y1) (h2 : PubAt st p2 nw2 x2 y2) (hn1 : NetAt st nw1 net) (hn2 : NetAt st nw2 net)
    (hP : HasCoords P x1 y1) (hQ : HasCoords Q x2 y2) (hne : x1 ≠ x2) (c : Bool) :
    ∃ (o : Out (List Value)) (x y : Nat), Ends H E repaired 0 (id! "AddPublicKeys") [.pub p1, .pub p2, .bool c] st o ∧
      HasCoords (P + Q) x y ∧ NewPubKey st nw1 x y o := by
  obtain ⟨o1, a1, a2, a3, rfl⟩ := h1.object
  obtain ⟨o2, b1, b2, b3, rfl⟩ := h2.object
  have hrun := fixed_AddPublicKeys H E hE.intOps 0 p1 p2 c o1 o2 x1 x2 st a1 b1 a2 b2 (fun h => hne (Int.ofNat_inj.1 h))
  have href := addPublicKeys_ref hV (p1 := p1) (p2 := p2) (o1 := o1) (o2 := o2) a1 b1 hc (load_valid a2) (load_valid a3)
    (load_valid b2) (load_valid b3) c
  obtain ⟨x, y, hxy, hp, e⟩ := C37_add_public_keys V hC P Q x1 y1 x2 y2 (some net) hP hQ hne
  have e1 : pubValue st.heap o1 = ⟨some (x1 : Int), some (y1 : Int), some net⟩ := by
    change PublicKey.mk (loadInt st.heap o1.X) (loadInt st.heap o1.Y) (loadNet st.heap o1.Network) = _
    rw [a2, a3]
    exact congrArg _ hn1
  have e2 : pubValue st.heap o2 = ⟨some (x2 : Int), some (y2 : Int), some net⟩ := by
    change PublicKey.mk (loadInt st.heap o2.X) (loadInt st.heap o2.Y) (loadNet st.heap o2.Network) = _
    rw [b2, b3]
    exact congrArg _ hn2
  rw [e1, e2, (e c).1] at href
  obtain ⟨a, h', e', hnew⟩ := href
  obtain ⟨q, rfl, hle, hkept, hat⟩ := newPub_new (st := st) hnew st.hashes
    fun ho => by simpa only [e'] using (safe_addPublicKeys hE.allocs p1 p2 c st.heap (Nat.zero_le _) ho).1
  rw [e'] at hrun
  exact ⟨_, x, y, .of hrun nofun, hxy, _, q, rfl, hkept, hle, hat hp⟩

omit hE hV hC

/-- C129. Public keys of different networks are not added; nor are public keys with the same x, whose sum is no other
point (in the repository it is whatever the curve package returns). -/
theorem C129_add_refused (st : State) {p1 p2 nw1 nw2 : Ptr} {net1 net2 : Network} {x1 y1 x2 y2 : Nat}
    (h1 : PubAt st p1 nw1 x1 y1) (h2 : PubAt st p2 nw2 x2 y2) (hn1 : NetAt st nw1 net1) (hn2 : NetAt st nw2 net2) (c : Bool) :
    (net1 ≠ net2 → Ends H E repaired 0 (id! "AddPublicKeys") [.pub p1, .pub p2, .bool c] st
      (.ok [.pub none, .err (some .differentNetwork)] st)) ∧
    (net1 = net2 → x1 = x2 → Ends H E repaired 0 (id! "AddPublicKeys") [.pub p1, .pub p2, .bool c] st
      (.ok [.pub none, .err (some .notOnCurve)] st)) := by
  obtain ⟨o1, a1, a2, -, rfl⟩ := h1.object
  obtain ⟨o2, b1, b2, -, rfl⟩ := h2.object
  obtain ⟨r1, r2⟩ := fixed_AddPublicKeys_refused H E 0 p1 p2 c o1 o2 x1 x2 st a1 b1 a2 b2
  rw [show (o1.Network.bind fun a => st.heap.nets[a]?) = some net1 from hn1,
    show (o2.Network.bind fun a => st.heap.nets[a]?) = some net2 from hn2] at r1 r2
  refine ⟨fun h => .of (r1 fun e => h (Option.some.inj e)) nofun, fun h hx => .of (r2 (congrArg some h) ?_) nofun⟩
  rw [hx]

/-- C129. `Format` returns the text of the point and changes nothing. -/
theorem C129_format (st : State) {p network : Ptr} {x y : Nat} (h : PubAt st p network x y) (c : Bool) :
    ∃ s, Ends H E repaired (id! "PublicKey") (id! "Format") [.pub p, .bool c] st (.ok [.str s] st) ∧ PubText s c x y := by
  obtain ⟨ob, h1, h2, h3, -⟩ := h.object
  have hrun := run_Format_in H (E := E) repaired_bigIntToHex repaired_Format 0 p c st
  have href : formatM p c st.heap = _ := format_ref (p := p) (o := ob) h1 c
  have e : pubValue st.heap ob = ⟨some (x : Int), some (y : Int), loadNet st.heap ob.Network⟩ := by
    change PublicKey.mk (loadInt st.heap ob.X) (loadInt st.heap ob.Y) (loadNet st.heap ob.Network) = _
    rw [h2, h3]
  obtain ⟨s, ser, e1, e2, e3⟩ := format_spells c (h.point.1.trans p_lt) (h.point.2.1.trans p_lt) (loadNet st.heap ob.Network)
  rw [href, e, e1] at hrun
  exact ⟨s, .of hrun nofun, h.point, ser, e2, e3⟩

/-- C129. `Address` returns the address of the point on the network of the key, if the prefix of the network is hexadecimal. -/
theorem C129_address (st : State) {p network : Ptr} {x y : Nat} {net : Network} {pre : Bytes} (h : PubAt st p network x y)
    (hn : NetAt st network net) (hp : Spells net.PubKeyHashPrefix pre) (c : Bool) :
    ∃ s ser st', Ends H E repaired (id! "PublicKey") (id! "Address") [.pub p, .bool c] st (.ok [.str s, .err none] st') ∧
      Kept st st' ∧ IsSerialized c x y ser ∧ IsBase58Check H.sha256 (pre ++ hash160 H.sha256 H.ripemd160 ser) s := by
  obtain ⟨ob, h1, h2, h3, rfl⟩ := h.object
  obtain ⟨hs, hrun⟩ := run_Address_in H (E := E) repaired_bigIntToHex repaired_Format repaired_Address 0 p c st
  have href : addressM H p c st.heap = _ := address_ref H (p := p) (o := ob) h1 c
  have e : pubValue st.heap ob = ⟨some (x : Int), some (y : Int), some net⟩ := by
    change PublicKey.mk (loadInt st.heap ob.X) (loadInt st.heap ob.Y) (loadNet st.heap ob.Network) = _
    rw [h2, h3]
    exact congrArg _ hn
  obtain ⟨ser, s, e1, e2, e3⟩ := C39_address_bytes H x y net pre c (h.point.1.trans p_lt) (h.point.2.1.trans p_lt) hp
  rw [href, e, e2] at hrun
  exact ⟨s, ser, _, .of hrun nofun, ⟨.refl _, rfl, rfl, rfl, id⟩, e1, e3⟩

/-- C129. If the prefix is not hexadecimal, `Address` returns an error. -/
theorem C129_no_address (st : State) {p network : Ptr} {x y : Nat} {net : Network} (h : PubAt st p network x y)
    (hn : NetAt st network net) (hp : ¬ ∃ pre, Spells net.PubKeyHashPrefix pre) (c : Bool) :
    ∃ ser e st', IsSerialized c x y ser ∧
      hexDecode (net.PubKeyHashPrefix ++ hexEncode (hash160 H.sha256 H.ripemd160 ser)) = .err e ∧
      Ends H E repaired (id! "PublicKey") (id! "Address") [.pub p, .bool c] st (.ok [.str [], .err (some e)] st') ∧
      Kept st st' := by
  obtain ⟨ob, h1, h2, h3, rfl⟩ := h.object
  obtain ⟨hs, hrun⟩ := run_Address_in H (E := E) repaired_bigIntToHex repaired_Format repaired_Address 0 p c st
  have href : addressM H p c st.heap = _ := address_ref H (p := p) (o := ob) h1 c
  have e : pubValue st.heap ob = ⟨some (x : Int), some (y : Int), some net⟩ := by
    change PublicKey.mk (loadInt st.heap ob.X) (loadInt st.heap ob.Y) (loadNet st.heap ob.Network) = _
    rw [h2, h3]
    exact congrArg _ hn
  have ho := C62_outcome_partial H (some (x : Int)) (some (y : Int)) (some net) c
  rw [href, e] at hrun
  rcases ha : address H ⟨some (x : Int), some (y : Int), some net⟩ c with a | er | pn
  · obtain ⟨-, nw, e1, e2⟩ := ho.2.1 ⟨a, ha⟩
    cases e1
    exact (hp ((exists_spells_iff _).2 e2)).elim
  · rw [ha] at hrun
    obtain ⟨s, ser, e1, e2, e3⟩ := format_spells c (x := x) (y := y) (h.point.1.trans p_lt) (h.point.2.1.trans p_lt) (some net)
    refine ⟨ser, er, _, e3, ?_, .of hrun nofun, .refl _, rfl, rfl, rfl, id⟩
    have e4 := hexDecode_eq_ok.2 e2
    rcases hd : hexDecode (net.PubKeyHashPrefix ++ hexEncode (H.ripemd160 (H.sha256 ser))) with b | d | q
    · obtain ⟨f1, f2⟩ := (exists_spells_iff _).1 ⟨b, hexDecode_eq_ok.1 hd⟩
      rw [List.length_append, length_hexEncode] at f2
      exact (hp ((exists_spells_iff _).2 ⟨fun d hd => f1 d (List.mem_append_left _ hd), by omega⟩)).elim
    · simp [address, e1, e4, hd] at ha
      exact hd.trans (by rw [ha])
    · exact (hexDecode_ne_panic _ _ hd).elim
  · rcases ho.1.1 ⟨pn, ha⟩ with ⟨-, h⟩ | ⟨-, h⟩ <;> cases h

include hE hV hC

/-- C129. What `Format` returns, the repaired `PublicFromHex` imports as the same point. -/
theorem C129_round_trip (st : State) (hc : CurveOK st.heap) {p network nw : Ptr} {x y : Nat} (h : PubAt st p network x y) (c : Bool)
    (hn : nw ≠ none) : ∃ s o, Ends H E repaired (id! "PublicKey") (id! "Format") [.pub p, .bool c] st (.ok [.str s] st) ∧
      Ends H E repaired 0 (id! "PublicFromHex") [.str s, .net nw] st o ∧ NewPubKey st nw x y o := by
  obtain ⟨s, h1, h2⟩ := C129_format H (E := E) st h c
  obtain ⟨o, h3, ⟨c', x', y', h4, h5⟩ | ⟨h4, -⟩⟩ := C129_import H hE hV hC st hc s nw hn
  · obtain ⟨-, rfl, rfl⟩ := pubText_unique h2 h4
    exact ⟨s, o, h1, h3, h5⟩
  · exact (h4 ⟨c, x, y, h2⟩).elim

/-- C129. In the repaired program, adding the public keys of two different private keys gives the public key of their sum, for all
keys whose sum is not zero: no case fails for the number of digits of the sum (C25), for a prefix or for a zero byte. -/
theorem C129_sum (st : State) (hc : CurveOK st.heap) {p1 p2 nw1 nw2 : Ptr} {net : Network} {t1 t2 w1 w2 : GoString}
    {pre b1 b2 : Bytes} {c1 c2 : Bool} (h1 : KeyAt H.sha256 st p1 nw1 t1 w1 pre b1 c1) (h2 : KeyAt H.sha256 st p2 nw2 t2 w2 pre b2 c2)
    (hn1 : NetAt st nw1 net) (hn2 : NetAt st nw2 net) (hp : Spells net.PrivKeyPrefix pre) (hne : bigEndian b1 ≠ bigEndian b2)
    (h0 : (bigEndian b1 + bigEndian b2) % Spec.n ≠ 0) (c : Bool) :
    ∃ (q1 q2 q3 p3 q4 x y : Nat) (st1 st2 st3 st4 st5 : State),
      Ends H E repaired (id! "PrivateKey") (id! "GetPublicKey") [.priv p1] st (.ok [.pub (some q1), .bool true] st1) ∧
      Ends H E repaired (id! "PrivateKey") (id! "GetPublicKey") [.priv p2] st1 (.ok [.pub (some q2), .bool true] st2) ∧
      Ends H E repaired 0 (id! "AddPublicKeys") [.pub (some q1), .pub (some q2), .bool c] st2 (.ok [.pub (some q3), .err none] st3) ∧
      Ends H E repaired 0 (id! "AddPrivateKeys") [.priv p1, .priv p2] st3 (.ok [.priv (some p3), .err none] st4) ∧
      Ends H E repaired (id! "PrivateKey") (id! "GetPublicKey") [.priv (some p3)] st4 (.ok [.pub (some q4), .bool true] st5) ∧
      PubAt st5 (some q3) nw1 x y ∧ PubAt st5 (some q4) nw1 x y := by
  obtain ⟨x1, y1, q1, st1, r1, k1, -, g1, a1⟩ := C129_public_key H hE hV hC EC.G EC.G_coords st hc h1
  have hc1 := hc.grow k1.heap
  obtain ⟨x2, y2, q2, st2, r2, k2, -, g2, a2⟩ := C129_public_key H hE hV hC EC.G EC.G_coords st1 hc1 (C127_keys_stay H k1 h2)
  have k12 := k1.trans k2
  have hc2 := hc.grow k12.heap
  have hx : x1 ≠ x2 := x_ne hne h1.high h2.high h0 g1 g2
  have net_stays : ∀ {s s' : State} {nw : Ptr}, Kept s s' → NetAt s nw net → NetAt s' nw net := by
    intro s s' nw hk h
    unfold NetAt at h ⊢
    rwa [← hk.heap.nets]
  obtain ⟨o3, x, y, r3, g3, st3, q3, rfl, k3, -, a3⟩ := C129_add H hE hV hC st2 hc2 (C129_keys_stay k2 a1) a2 (net_stays k12 hn1)
    (net_stays k12 hn2) g1 g2 hx c
  have k13 := k12.trans k3
  have hc3 := hc.grow k13.heap
  have hN3 : OrderKnown st3 := congrArg Curve.N hc3.value
  obtain ⟨o4, r4, ⟨-, body, wif, hb, st4, p3, rfl, k4, -, a4⟩ | ⟨rfl, -⟩ | ⟨-, hbad, -⟩⟩ := C127_add H E hN3 (C127_keys_stay H k13 h1)
    (C127_keys_stay H k13 h2) (net_stays k13 hn1) (net_stays k13 hn2) hp
  · have k14 := k13.trans k4
    obtain ⟨x', y', q4, st5, r5, k5, -, g5, a5⟩ := C129_public_key H hE hV hC EC.G EC.G_coords st4 (hc.grow k14.heap) a4
    rw [hb, smul_mod, add_nsmul] at g5
    obtain ⟨rfl, rfl⟩ := EC.coords_unique g5 g3
    exact ⟨q1, q2, q3, p3, q4, _, _, st1, st2, st3, st4, st5, r1, r2, r3, r4, r5, C129_keys_stay (k4.trans k5) a3, a5⟩
  · exact (hne (by rw [(C127_same_wif H h1 h2).1])).elim
  · exact (h0 hbad).elim

end

/-! ## Cases -/

open Samples

theorem twoKeys_curve : CurveOK twoKeys.heap :=
  (init_curveOK [MainNetwork, TestNetwork]).grow ⟨List.prefix_append _ _, rfl, List.nil_prefix, List.nil_prefix, rfl⟩

/-- The text of the base point, in the compressed form. -/
def baseText : GoString := asc "0279be667ef9dcbbac55a06295ce870b07029bfcdb2dce28d959f2815b16f81798"

-- the text of the base point is imported
example : ∃ o, Ends realHashes pkg repaired 0 (id! "PublicFromHex") [.str baseText, .net (some 0)] twoKeys o ∧
    NewPubKey twoKeys (some 0) gx gy o := by
  have ht : PubText baseText true gx gy := by
    obtain ⟨s, ser, e1, e2, e3⟩ := format_spells true (x := gx) (y := gy) (by decide +kernel) (by decide +kernel) none
    have e4 : format ⟨some (gx : Int), some (gy : Int), none⟩ true = .ok baseText := by decide +kernel
    cases e1.symm.trans e4
    exact ⟨C56_base_point.1, ser, e2, e3⟩
  obtain ⟨o, h1, ⟨c, x, y, h2, h3⟩ | ⟨h2, -⟩⟩ :=
    C129_import realHashes refPkg.1 refPkg.2.1 refPkg.2.2 twoKeys twoKeys_curve baseText (some 0) nofun
  · obtain ⟨-, rfl, rfl⟩ := pubText_unique ht h2
    exact ⟨o, h1, h3⟩
  · exact (h2 ⟨_, _, _, ht⟩).elim

-- the point (1, 1) is refused (the repository's text imports it), and so are "0", "04" and a text that is cut off (there: panics)
example : ∃ o, Ends realHashes pkg repaired 0 (id! "PublicFromHex")
    [.str (asc "04" ++ hexEncode (smallBody 1) ++ hexEncode (smallBody 1)), .net (some 0)] twoKeys o ∧
    GaveNoPub twoKeys .notOnSecp256k1 o := by
  rcases fixed_PublicFromHex_full realHashes pkg 0 _ _ _ _ 0 twoKeys (spells_hexEncode (smallBody 1)) (spells_hexEncode (smallBody 1))
    rfl rfl (congrArg Curve.P twoKeys_curve.value) (congrArg Curve.B twoKeys_curve.value) with ⟨h, -⟩ | ⟨-, h⟩
  · exfalso
    revert h
    unfold OnCurve
    decide +kernel
  · obtain ⟨st', e, -⟩ := id h
    exact ⟨_, .of e nofun, e ▸ h⟩

example (s : GoString) (hs : s ∈ [asc "0", asc "04", asc "0279be"]) :
    ∃ o e, Ends realHashes pkg repaired 0 (id! "PublicFromHex") [.str s, .net (some 0)] twoKeys o ∧ GaveNoPub twoKeys e o := by
  obtain ⟨o, h1, ⟨c, x, y, ⟨-, ser, h2, xb, yb, lx, ly, -, -, rfl⟩, -⟩ | ⟨-, e, h2, h4⟩⟩ :=
    C129_import realHashes refPkg.1 refPkg.2.1 refPkg.2.2 twoKeys twoKeys_curve s (some 0) nofun
  · exfalso
    have := h2.length
    have hl : ∀ s ∈ [asc "0", asc "04", asc "0279be"], s.length ≤ 6 := by decide +kernel
    have hl := hl s hs
    cases c <;> simp [lx, ly] at this <;> omega
  · exact ⟨o, e, h1, h2⟩

-- the address of the key 1, in both forms
example (c : Bool) : ∃ (q : Nat) (s : GoString) (ser : Bytes) (st1 st2 : State),
    Ends realHashes pkg repaired (id! "PrivateKey") (id! "GetPublicKey") [.priv (some 0)] twoKeys (.ok [.pub (some q), .bool true] st1) ∧
    Ends realHashes pkg repaired (id! "PublicKey") (id! "Address") [.pub (some q), .bool c] st1 (.ok [.str s, .err none] st2) ∧
    IsSerialized c gx gy ser ∧
    IsBase58Check realHashes.sha256 ([0x00] ++ hash160 realHashes.sha256 realHashes.ripemd160 ser) s := by
  obtain ⟨x, y, q, st1, h1, h2, h3, h4, h5⟩ :=
    C129_public_key realHashes refPkg.1 refPkg.2.1 refPkg.2.2 EC.G EC.G_coords twoKeys twoKeys_curve twoKeys_one
  rw [show bigEndian (smallBody 1) = 1 by decide +kernel, one_smul] at h4
  obtain ⟨rfl, rfl⟩ := EC.coords_unique h4 EC.G_coords
  obtain ⟨s, ser, st2, h6, -, h7, h8⟩ := C129_address realHashes (E := pkg) st1 h5 (net := MainNetwork) (pre := [0x00])
    (by have : NetAt twoKeys (some 0) MainNetwork := rfl
        unfold NetAt at this ⊢
        rwa [← h2.heap.nets])
    (hexDecode_eq_ok.1 (by decide +kernel)) c
  exact ⟨q, s, ser, st1, st2, h1, h6, h7, h8⟩

-- the sum of the public keys of 1 and 2 is the public key of 3 (in the repository's text, AddPrivateKeys returns an error here)
example := C129_sum realHashes refPkg.1 refPkg.2.1 refPkg.2.2 twoKeys twoKeys_curve twoKeys_one twoKeys_two rfl rfl main_prefix
  (by decide +kernel) (by decide +kernel) false

end Btc
