import Verif.Props.Results
import Verif.Props.Local
import Verif.Props.Expr

/-!
# C125: computations with keys, run on the text

A program makes keys, combines them, writes them out, reads them back and calls other functions in between. Only the number
or the point that a computation stands for matters to what is found at its end.
-/

namespace Btc

open Mem Source Spec

namespace Spec

/-- Specification: the WIF prefix of each of the program's own networks is one byte, as it is for the two networks of the
package. -/
def OneByte (nets : List Network) : Prop := ∀ nw ∈ nets, ∃ b, Spells nw.PrivKeyPrefix [b]

/-- Specification: in the state, the private key at the pointer is the result of a computation that stands for the number.
`hex`, `wif`, `generate`: a key that is read or drawn. `add`, `mul`: keys are combined. `later`: the program goes on in any
way. `congr`: numbers count modulo the group order. -/
inductive Worth (H : Hashes) (E : EcdsaM) (nets : List Network) : State → Ptr → Int → Prop
  | hex {st st' : State} {h : GoString} {net p : Ptr} : Session H E nets st → h ≠ [] →
      (Request.privateFromHex h net).Ends H E st (.ok [.priv p, .err none] st') → Worth H E nets st' p (hexNumber h)
  | wif {st st' : State} {w : GoString} {net p : Ptr} {b : UInt8} {body : Bytes} : Session H E nets st → body ≠ [] →
      IsBase58Check H.sha256 (b :: body) w → (Request.privateFromWIF w net).Ends H E st (.ok [.priv p, .err none] st') →
      Worth H E nets st' p (bigEndian body)
  | generate {st st' : State} {net p : Ptr} {j : Nat} : Session H E nets st → Suitable (drawn st.rd j) →
      (∀ i < j, ¬ Suitable (drawn st.rd i)) → (Request.generatePrivateKey net).Ends H E st (.ok [.priv p] st') →
      Worth H E nets st' p (drawn st.rd j)
  | add {st st' : State} {p q r : Ptr} {a b : Int} : Worth H E nets st p a → Worth H E nets st q b →
      (Request.addPrivateKeys p q).Ends H E st (.ok [.priv r, .err none] st') → Worth H E nets st' r (a + b)
  | mul {st st' : State} {p q r : Ptr} {a b : Int} : Worth H E nets st p a → Worth H E nets st q b →
      (Request.multiplyPrivateKeys p q).Ends H E st (.ok [.priv r, .err none] st') → Worth H E nets st' r (a * b)
  | later {st st' : State} {p : Ptr} {a : Int} : Worth H E nets st p a → Continues H E st st' → Worth H E nets st' p a
  | congr {st : State} {p : Ptr} {a b : Int} : Worth H E nets st p a → a % (Spec.n : Int) = b % (Spec.n : Int) →
      Worth H E nets st p b

/-- Specification: in the state, the public key at the pointer is the result of a computation that stands for the point.
`ofPriv`: the public key of a private key between 1 and n - 1. `read`: the text of a point is read. `add`: points that are
neither equal nor opposite are added. -/
inductive Stands (H : Hashes) (E : EcdsaM) (nets : List Network) (B : W.Point) : State → Ptr → W.Point → Prop
  | ofPriv {st st' : State} {p q : Ptr} {z : Int} {k : PrivateKey} {v : Nat} : Worth H E nets st p z → privAt st p = some k →
      k.Key = some (v : Int) → 1 ≤ v → v < Spec.n → (Request.getPublicKey p).Ends H E st (.ok [.pub q, .bool true] st') →
      Stands H E nets B st' q (z • B)
  | read {st st' : State} {s : GoString} {net q : Ptr} {P : W.Point} {x y : Nat} {c : Bool} {nw : Option Network} :
      Session H E nets st → HasCoords P x y → PublicText c ⟨some (x : Int), some (y : Int), nw⟩ s →
      (Request.publicFromHex s net).Ends H E st (.ok [.pub q, .err none] st') → Stands H E nets B st' q P
  | add {st st' : State} {p q r : Ptr} {P Q : W.Point} {c : Bool} : Stands H E nets B st p P → Stands H E nets B st q Q →
      P ≠ Q → P ≠ -Q → (Request.addPublicKeys p q c).Ends H E st (.ok [.pub r, .err none] st') →
      Stands H E nets B st' r (P + Q)
  | later {st st' : State} {q : Ptr} {P : W.Point} : Stands H E nets B st q P → Continues H E st st' →
      Stands H E nets B st' q P

/-- Specification: a private key that stands for the number: its number is the same modulo the group order, its text spells
its number, and its WIF is that of one byte and the bytes of the text. -/
def KeyFor (sha : Bytes → Bytes) (z : Int) (k : PrivateKey) : Prop :=
  ∃ (b : UInt8) (body : Bytes), body ≠ [] ∧ k.Key = some (bigEndian body : Int) ∧
    (bigEndian body : Int) % (Spec.n : Int) = z % (Spec.n : Int) ∧ Spells k.Hex body ∧ IsBase58Check sha (b :: body) k.WIF

end Spec

section
variable {H : Hashes} {E : EcdsaM} {V : Ecdsa} {nets : List Network} {B : W.Point} {st : State}

theorem Spec.Worth.session {p : Ptr} {z : Int} (h : Worth H E nets st p z) : Session H E nets st := by
  induction h with
  | hex hs _ h => exact hs.call _ h rfl
  | wif hs _ _ h => exact hs.call _ h rfl
  | generate hs _ _ h => exact hs.call _ h rfl
  | add _ _ h ih _ => exact ih.call _ h rfl
  | mul _ _ h ih _ => exact ih.call _ h rfl
  | later _ h ih => exact h.session ih
  | congr _ _ ih => exact ih

theorem Spec.Stands.session {q : Ptr} {P : W.Point} (h : Stands H E nets B st q P) : Session H E nets st := by
  induction h with
  | ofPriv hw _ _ _ _ h => exact hw.session.call _ h rfl
  | read hs _ _ h => exact hs.call _ h rfl
  | add _ _ _ _ h ih _ => exact ih.call _ h rfl
  | later _ h ih => exact h.session ih

theorem Source.Session.oneByte (hE : Pkg E) (hs : Session H E nets st) (hn : OneByte nets) {p : Ptr}
    {nw : Network} (h : loadNet st.heap p = some nw) : ∃ b, Spells nw.PrivKeyPrefix [b] := by
  have hg := (hs.sound hE).grow.nets
  have hm : nw ∈ st.heap.nets := by
    cases p with
    | none => cases h
    | some a => exact List.mem_iff_getElem?.mpr ⟨a, h⟩
  rw [← hg] at hm
  rcases List.mem_cons.1 hm with rfl | hm
  · exact ⟨0x80, hexDecode_eq_ok.1 (by decide +kernel)⟩
  rcases List.mem_cons.1 hm with rfl | hm
  · exact ⟨0xef, hexDecode_eq_ok.1 (by decide +kernel)⟩
  · exact hn nw hm

theorem keyFor_of_keyWith {sha : Bytes → Bytes} {v : Nat} {z : Int} {h : GoString} {nw : Network} {k : PrivateKey} {b : UInt8}
    (hb : Spells nw.PrivKeyPrefix [b]) (hk : KeyWith sha (some (v : Int)) h nw k) (hne : h ≠ []) (hv : hexNumber h = v)
    (hz : (v : Int) % (Spec.n : Int) = z % (Spec.n : Int)) : KeyFor sha z k := by
  obtain ⟨h1, rfl, h3, bytes, h4, h5⟩ := hk
  have hd := (exists_spells_iff _).1 ⟨_, h4⟩
  have hp := (exists_spells_iff _).1 ⟨_, hb⟩
  obtain ⟨body, hbody⟩ := (exists_spells_iff k.Hex).2 ⟨fun c hc => hd.1 c (by simp [hc]), by
    have := hd.2
    rw [List.length_append] at this
    have := hp.2
    omega⟩
  obtain rfl := h4.unique (hb.append hbody)
  have e := hexNumber_of_spells hbody
  rw [hv] at e
  subst e
  refine ⟨b, body, ?_, h1, hz, hbody, h5⟩
  rintro rfl
  cases hs : k.Hex with
  | nil => exact hne hs
  | cons c t => rw [hs] at hbody; cases hbody

/-- The network of a key in memory is one the program can name. -/
theorem privAt_network {p : Ptr} {k : PrivateKey} (h : privAt st p = some k) : ∃ net, loadNet st.heap net = k.Network := by
  unfold privAt at h
  cases ho : loadPriv st.heap p with
  | none => rw [ho] at h; cases h
  | some o =>
    rw [ho] at h
    obtain rfl : privValue st.heap o = k := Option.some.inj h
    exact ⟨_, rfl⟩

end

section
variable (H : Hashes) (E : EcdsaM) (V : Ecdsa) (hE : Pkg E) (hV : E.Refines V) (hC : EcdsaContract V) (nets : List Network)

include hE hV hC in
/-- C125. However a private key was computed, it stands for the number of the computation. -/
theorem C125_keys (hn : OneByte nets) (st : State) (p : Ptr) (z : Int) (h : Worth H E nets st p z) :
    ∃ k, privAt st p = some k ∧ KeyFor H.sha256 z k := by
  have key : ∀ {st st' : State} {r : Request} {p : Ptr}, Session H E nets st → Determined st r →
      ∀ {vs}, (vs = [.priv p, .err none] ∨ vs = [.priv p]) → r.Ends H E st (.ok vs st') →
      ∃ k, privAt st' p = some k ∧ ∃ lines, Result H EC.G st r (.priv k) st'.rd lines := by
    intro st st' r p hs hd vs hvs he
    obtain ⟨g, lines, h1, -, h2⟩ := C124_results H E V hE hV hC EC.G EC.G_coords nets st hs r hd vs st' he (by
      rcases hvs with rfl | rfl <;> intro v e h <;> cases h)
    have : (privAt st' p).map Answer.priv = some g := by rcases hvs with rfl | rfl <;> exact h1
    obtain ⟨k, hk, rfl⟩ := Option.map_eq_some_iff.1 this
    exact ⟨k, hk, lines, h2⟩
  have comb : ∀ {st : State} {f : Int → Int → Int} {p q : Ptr} {a b : Int} {k : PrivateKey}, Session H E nets st →
      (∀ a b c d : Int, a % (Spec.n : Int) = c % (Spec.n : Int) → b % (Spec.n : Int) = d % (Spec.n : Int) →
        f a b % (Spec.n : Int) = f c d % (Spec.n : Int)) →
      (∃ k, privAt st p = some k ∧ KeyFor H.sha256 a k) → (∃ k, privAt st q = some k ∧ KeyFor H.sha256 b k) →
      (∃ a b, privAt st p = some a ∧ privAt st q = some b ∧ Combined H.sha256 f a b k) → KeyFor H.sha256 (f a b) k := by
    rintro st f p q a b k hs hf ⟨ka, h1, b1, x1, n1, v1, m1, -⟩ ⟨kb, h2, b2, x2, n2, v2, m2, -⟩
      ⟨_, _, e1, e2, x, y, nw, r, s, g1, g2, g3, g4, g5, g6⟩
    cases h1.symm.trans e1
    cases h2.symm.trans e2
    cases v1.symm.trans g1
    cases v2.symm.trans g2
    obtain ⟨net, hnet⟩ := privAt_network h1
    obtain ⟨c, hc⟩ := hs.oneByte hE hn (hnet.trans g3)
    refine keyFor_of_keyWith hc g6 g5.2.1 g5.1 ?_
    rw [g4, Int.emod_emod_of_dvd _ (dvd_refl _)]
    exact hf _ _ _ _ m1 m2
  induction h with
  | hex hs hne h =>
    obtain ⟨k, hk, lines, -, -, nw, k', e, h1, h2⟩ := key hs (by exact trivial) (.inl rfl) h
    cases e
    rw [if_neg hne] at h2
    obtain ⟨b, hb⟩ := hs.oneByte hE hn h1
    exact ⟨k, hk, keyFor_of_keyWith hb h2 hne rfl rfl⟩
  | wif hs hne hw h =>
    obtain ⟨k, hk, lines, -, -, w0, body, k', e, h1, h2, h3, h4, -⟩ := key hs (by exact trivial) (.inl rfl) h
    cases e
    have hb := (List.append_inj' (hw.bytes_unique h1) (by rw [length_checksum, length_checksum])).1
    obtain ⟨rfl, rfl⟩ := List.cons.inj hb
    rw [if_neg hne] at h4
    exact ⟨k, hk, _, _, hne, h4, rfl, h3.1, h2 ▸ h1⟩
  | @generate st st' net p j hs h1 h2 h =>
    obtain ⟨k, hk, lines, -, nw, j', s, k', e, h3, -, -, h4, h5, h6, h7⟩ := key hs (by exact trivial) (.inr rfl) h
    cases e
    have ej : j' = j := by
      rcases lt_trichotomy j' j with hl | rfl | hl
      · exact (h2 _ hl h4).elim
      · rfl
      · exact (h5 _ hl h1).elim
    subst ej
    obtain ⟨b, hb⟩ := hs.oneByte hE hn h3
    exact ⟨k, hk, keyFor_of_keyWith hb h7 h6.2.1 h6.1 rfl⟩
  | add hp hq h ihp ihq =>
    obtain ⟨k, hk, lines, -, -, a, b, k', e, h1, h2, h3⟩ := key hp.session (by exact trivial) (.inl rfl) h
    cases e
    exact ⟨k, hk, comb hp.session (fun _ _ _ _ => add_emod) ihp ihq ⟨a, b, h1, h2, h3⟩⟩
  | mul hp hq h ihp ihq =>
    obtain ⟨k, hk, lines, -, -, a, b, k', e, h1, h2, h3⟩ := key hp.session (by exact trivial) (.inl rfl) h
    cases e
    exact ⟨k, hk, comb hp.session (fun _ _ _ _ => mul_emod) ihp ihq ⟨a, b, h1, h2, h3⟩⟩
  | later hp h ih =>
    obtain ⟨k, hk, h1⟩ := ih
    refine ⟨k, ?_, h1⟩
    rw [privAt_keep (hp.session.sound hE) (h.grow hE) (.inr (by rw [hk]; simp)), hk]
  | congr _ hz ih =>
    obtain ⟨k, hk, b, body, h1, h2, h3, h4⟩ := ih
    exact ⟨k, hk, b, body, h1, h2, h3.trans hz, h4⟩

/-- The text of a point, read. -/
theorem read_text (hC : EcdsaContract V) {P : W.Point} {x y : Nat} (hP : HasCoords P x y) {c : Bool} {nw : Option Network}
    {s : GoString} (hs : PublicText c ⟨some (x : Int), some (y : Int), nw⟩ s) (net : Option Network) :
    publicFromHex V s net = .ok ⟨some (x : Int), some (y : Int), net⟩ := by
  rw [publicText_iff] at hs
  have ho := EC.HasCoords_onCurve hP
  cases c with
  | true =>
    obtain ⟨s', h1, h2⟩ := C29_compressed_roundtrip V hC x y nw net ho
    cases hs.symm.trans h1
    exact h2
  | false =>
    obtain ⟨s', h1, h2⟩ := C28_uncompressed_roundtrip V x y nw net (lt_trans ho.1 p_lt) (lt_trans ho.2.1 p_lt)
    cases hs.symm.trans h1
    exact h2

theorem zsmul_congr {B : W.Point} (hB : HasCoords B gx gy) {v : Nat} {z : Int} (h : (v : Int) % (Spec.n : Int) = z % (Spec.n : Int)) :
    v • B = z • B := by
  obtain rfl := EC.coords_point hB EC.G_coords
  have e : z = (v : Int) + (Spec.n : Int) * (z / Spec.n - (v : Int) / Spec.n) := by
    have h1 := Int.emod_add_mul_ediv z Spec.n
    have h2 := Int.emod_add_mul_ediv (v : Int) Spec.n
    rw [mul_sub]
    omega
  rw [e, add_zsmul, mul_comm, mul_zsmul, natCast_zsmul, natCast_zsmul, EC.n_smul_G, zsmul_zero, add_zero]

include hE hV hC in
/-- C125. However a public key was computed, it has the coordinates of the point of the computation. -/
theorem C125_points (hn : OneByte nets) (B : W.Point) (hB : HasCoords B gx gy) (st : State) (q : Ptr) (P : W.Point)
    (h : Stands H E nets B st q P) :
    ∃ k x y, pubAt st q = some k ∧ HasCoords P x y ∧ k.X = some (x : Int) ∧ k.Y = some (y : Int) := by
  induction h with
  | @ofPriv st st' p q z k v hw hk hv h1 h2 h =>
    obtain ⟨k', e, b, body, -, v', hz, -⟩ := C125_keys H E V hE hV hC nets hn st p z hw
    cases hk.symm.trans e
    cases hv.symm.trans v'
    obtain ⟨g, lines, h3, -, -, -, a, v', x, y, h4, h5, h6, rfl⟩ := C124_results H E V hE hV hC B hB nets st hw.session
      (.getPublicKey p) (by
        intro k' hk'
        cases hk.symm.trans hk'
        exact ⟨_, hv, h1, h2⟩) _ st' h (by intro v e h; cases h)
    cases hk.symm.trans h4
    cases hv.symm.trans h5
    obtain ⟨k', hk', e⟩ := Option.map_eq_some_iff.1 (show (pubAt st' q).map Answer.pub = some _ from h3)
    cases e
    refine ⟨_, x, y, hk', ?_, rfl, rfl⟩
    rw [← zsmul_congr hB hz]
    exact h6
  | @read st st' s net q P x y c nw hs hP ht h =>
    obtain ⟨a, k, h1, h2, h3, -⟩ := ok_of_returns (text_publicFromHex H E V hE hV st (hs.intact hE) s net) h
      (by intro v e h; cases h) fun e _ => ⟨_, rfl⟩
    rw [read_text V hC hP ht] at h1
    cases h1
    cases h2
    exact ⟨_, x, y, new_pub h3, hP, rfl, rfl⟩
  | @add st st' p q r P Q c hp hq h1 h2 h ihp ihq =>
    obtain ⟨k1, x1, y1, a1, a2, a3, a4⟩ := ihp
    obtain ⟨k2, x2, y2, b1, b2, b3, b4⟩ := ihq
    have hx : x1 ≠ x2 := by
      rintro rfl
      rcases EC.same_x a2 b2 with h | h
      · exact h1 h
      · exact h2 h
    obtain ⟨g, lines, h3, -, -, -, a, b, P', Q', u1, w1, u2, w2, x, y, e1, e2, e3, e4, e5, e6, e7, e8, e9, rfl⟩ :=
      C124_results H E V hE hV hC B hB nets st hp.session (.addPublicKeys p q c) (by
        intro a b ha hb _
        cases a1.symm.trans ha
        cases b1.symm.trans hb
        exact ⟨x1, y1, x2, y2, a3, a4, b3, b4, EC.HasCoords_onCurve a2, EC.HasCoords_onCurve b2, hx⟩) _ st' h
        (by intro v e h; cases h)
    cases a1.symm.trans e1
    cases b1.symm.trans e2
    cases a3.symm.trans e3
    cases a4.symm.trans e4
    cases b3.symm.trans e5
    cases b4.symm.trans e6
    obtain rfl := EC.coords_point a2 e7
    obtain rfl := EC.coords_point b2 e8
    obtain ⟨k', hk', e⟩ := Option.map_eq_some_iff.1 (show (pubAt st' r).map Answer.pub = some _ from h3)
    cases e
    exact ⟨_, x, y, hk', e9, rfl, rfl⟩
  | later hp h ih =>
    obtain ⟨k, x, y, hk, h1⟩ := ih
    refine ⟨k, x, y, ?_, h1⟩
    rw [pubAt_keep (hp.session.sound hE) (h.grow hE) (.inr (by rw [hk]; simp)), hk]

include hE hV hC in
/-- C125. What is printed tells the point, and nothing else of how it was computed: `Format` prints its SEC 1 text, and
`Address` the address of its serialization under the prefix of the network. -/
theorem C125_texts (hn : OneByte nets) (B : W.Point) (hB : HasCoords B gx gy) (st : State) (q : Ptr) (P : W.Point)
    (h : Stands H E nets B st q P) (c : Bool) :
    ∃ k x y ser, pubAt st q = some k ∧ HasCoords P x y ∧ IsSerialized c x y ser ∧
      (∃ s st', (Request.format q c).Ends H E st (.ok [.str s] st') ∧ LowerHex s ser) ∧
      (∀ nw pre, k.Network = some nw → Spells nw.PubKeyHashPrefix pre →
        ∃ a st', (Request.address q c).Ends H E st (.ok [.str a, .err none] st') ∧
          IsBase58Check H.sha256 (pre ++ hash160 H.sha256 H.ripemd160 ser) a) := by
  obtain ⟨k, x, y, hk, hP, hx, hy⟩ := C125_points H E V hE hV hC nets hn B hB st q P h
  have lx := lt_trans hP.1 p_lt
  have ly := lt_trans hP.2.1 p_lt
  obtain ⟨s, ser, f1, f2, f3⟩ := format_spells c lx ly k.Network
  have ek : k = ⟨some (x : Int), some (y : Int), k.Network⟩ := by rw [← hx, ← hy]
  rcases pubAt_cases st q with ⟨-, e⟩ | ⟨o, ho, e⟩
  · cases e.symm.trans hk
  cases e.symm.trans hk
  refine ⟨_, x, y, ser, hk, hP, f3, ?_, ?_⟩
  · obtain ⟨a, st', h1, rfl, -⟩ := ends_ok (v := s) (by rw [ek]; exact f1) (C108_format H E hE st q o ho c) h.session
    refine ⟨_, st', h1, f2, ?_⟩
    cases c with
    | true =>
      rw [format_true] at f1
      cases f1
      intro d hd
      rcases List.mem_append.1 hd with hd | hd
      · revert hd
        split
        · exact (by decide +kernel : ∀ e ∈ asc "02", e ∈ asc "0123456789abcdef") d
        · exact (by decide +kernel : ∀ e ∈ asc "03", e ∈ asc "0123456789abcdef") d
      · exact hex64_mem d hd
    | false =>
      rw [format_false] at f1
      cases f1
      intro d hd
      rcases List.mem_append.1 hd with hd | hd
      · rcases List.mem_append.1 hd with hd | hd
        · exact (by decide +kernel : ∀ e ∈ asc "04", e ∈ asc "0123456789abcdef") d hd
        · exact hex64_mem d hd
      · exact hex64_mem d hd
  · intro nw pre h1 h2
    obtain ⟨ser', a, e1, e2, e3⟩ := C39_address_bytes H x y nw pre c lx ly h2
    obtain rfl := isSerialized_unique f3 e1
    obtain ⟨a', st', g1, rfl, -⟩ := ends_ok (v := a) (by rw [ek, h1]; exact e2) (C108_address H E hE st q o ho c) h.session
    exact ⟨_, st', g1, e3⟩

include hE hV hC in
/-- C125. The text of a public key that stands for a point, printed and read on any network, gives a public key that stands
for the same point. -/
theorem C125_read_back (hn : OneByte nets) (B : W.Point) (hB : HasCoords B gx gy) (st : State) (q : Ptr) (P : W.Point)
    (h : Stands H E nets B st q P) (c : Bool) (net : Ptr) :
    ∃ s st1 r st2, (Request.format q c).Ends H E st (.ok [.str s] st1) ∧
      (Request.publicFromHex s net).Ends H E st1 (.ok [.pub r, .err none] st2) ∧ Stands H E nets B st2 r P ∧
      ∃ k x y, HasCoords P x y ∧ pubAt st2 r = some k ∧ k.X = some (x : Int) ∧ k.Y = some (y : Int) ∧
        k.Network = loadNet st1.heap net := by
  obtain ⟨k, x, y, hk, hP, hx, hy⟩ := C125_points H E V hE hV hC nets hn B hB st q P h
  rcases pubAt_cases st q with ⟨-, e⟩ | ⟨o, ho, e⟩
  · cases e.symm.trans hk
  cases e.symm.trans hk
  have ek : pubValue st.heap o = ⟨some (x : Int), some (y : Int), (pubValue st.heap o).Network⟩ := by rw [← hx, ← hy]
  obtain ⟨s, ser, f1, -⟩ := format_spells c (lt_trans hP.1 p_lt) (lt_trans hP.2.1 p_lt) (pubValue st.heap o).Network
  obtain ⟨s', st1, h1, rfl, -, hs1⟩ := ends_ok (v := s) (by rw [ek]; exact f1) (C108_format H E hE st q o ho c) h.session
  have ht := (publicText_iff _ _ _).2 f1
  obtain ⟨r, st2, h2, h3, -⟩ := ends_ok (read_text V hC hP ht _) (text_publicFromHex H E V hE hV st1 (hs1.intact hE) s' net) hs1
  exact ⟨_, st1, r, st2, h1, h2, .read hs1 hP ht h2, _, x, y, hP, new_pub h3, rfl, rfl, rfl⟩

include hE hV hC in
/-- C125. The WIF of a private key that stands for a number passes the check, and reading it on any network gives a private
key with the same number and the same WIF, which stands for the same number. -/
theorem C125_wif_back (hn : OneByte nets) (st : State) (p : Ptr) (z : Int) (h : Worth H E nets st p z) (net : Ptr) :
    ∃ k, privAt st p = some k ∧ (∃ st', (Request.checkWIF k.WIF).Ends H E st (.ok [.bool true] st')) ∧
      ∃ r st1 k1, (Request.privateFromWIF k.WIF net).Ends H E st (.ok [.priv r, .err none] st1) ∧ Worth H E nets st1 r z ∧
        privAt st1 r = some k1 ∧ k1.Key = k.Key ∧ k1.WIF = k.WIF ∧ k1.Network = loadNet st.heap net := by
  obtain ⟨k, hk, b, body, h1, h2, h3, h4, h5⟩ := C125_keys H E V hE hV hC nets hn st p z h
  refine ⟨k, hk, ?_, ?_⟩
  · obtain ⟨a, st', e1, rfl, -⟩ := ends_ok ((C03_true_iff H k.WIF).2 ⟨_, h5⟩) (C108_checkWIF H E hE st k.WIF) h.session
    exact ⟨st', e1⟩
  · have hr : privateFromWIF H k.WIF (loadNet st.heap net) = .ok
        { WIF := k.WIF, Hex := hexEncode body, Key := bigSetString (hexEncode body) 16, Network := loadNet st.heap net } := by
      refine (privateFromWIF_eq_ok H).2 ⟨b, body, base58Decode_eq_ok.2 ⟨?_, h5⟩, rfl⟩
      rw [IsBase58.text_unique h5 (isBase58_encode _)]
      exact base58Encode_ne_nil (by simp)
    obtain ⟨r, st1, e1, e2, -⟩ := ends_ok hr (C108_privateFromWIF H E hE st k.WIF net) h.session
    have hs := spells_hexEncode body
    have hne : hexEncode body ≠ [] := by
      intro e
      rw [e] at hs
      cases hs
      exact h1 rfl
    refine ⟨r, st1, _, e1, .congr (.wif h.session h1 h5 e1) h3, new_priv e2, ?_, rfl, rfl⟩
    rw [h2]
    show bigSetString (hexEncode body) 16 = _
    rw [bigSetString_hex ((exists_spells_iff _).1 ⟨body, hs⟩).1, if_neg hne, hexNumber_of_spells hs]

include hE hV hC in
/-- C125. Two computations that stand for the same point, in whatever states and programs, print the same text; and the same
address, if the prefixes of the networks are equal. -/
theorem C125_same_texts (hn : OneByte nets) (B : W.Point) (hB : HasCoords B gx gy) (st st' : State) (q q' : Ptr) (P : W.Point)
    (h : Stands H E nets B st q P) (h' : Stands H E nets B st' q' P) (c : Bool) :
    (∀ s s' u u', (Request.format q c).Ends H E st (.ok [.str s] u) → (Request.format q' c).Ends H E st' (.ok [.str s'] u') →
      s = s') ∧
    ∀ k k' nw nw' a a' u u', pubAt st q = some k → pubAt st' q' = some k' → k.Network = some nw → k'.Network = some nw' →
      nw.PubKeyHashPrefix = nw'.PubKeyHashPrefix → (Request.address q c).Ends H E st (.ok [.str a, .err none] u) →
      (Request.address q' c).Ends H E st' (.ok [.str a', .err none] u') → a = a' := by
  obtain ⟨k, x, y, ser, k1, k2, k3, ⟨s, u, f1, f2⟩, k4⟩ := C125_texts H E V hE hV hC nets hn B hB st q P h c
  obtain ⟨k', x', y', ser', k1', k2', k3', ⟨s', u', f1', f2'⟩, k4'⟩ := C125_texts H E V hE hV hC nets hn B hB st' q' P h' c
  obtain ⟨rfl, rfl⟩ := EC.coords_unique k2 k2'
  obtain rfl := isSerialized_unique k3 k3'
  constructor
  · intro t t' w w' e e'
    cases f1.unique e
    cases f1'.unique e'
    rw [f2.eq, f2'.eq]
  · intro _ _ nw nw' a a' w w' e1 e2 e3 e4 e5 e6 e7
    cases k1.symm.trans e1
    cases k1'.symm.trans e2
    obtain ⟨g, lines, -, -, -, -, _, t, ser2, nw2, pre, -, g1, -, -, -, g2, g3, -⟩ := C124_results H E V hE hV hC B hB nets st h.session
      (.address q c) trivial _ w e6 (by intro v e h; cases h)
    cases k1.symm.trans g1
    cases e3.symm.trans g2
    obtain ⟨b, _, b1, b2⟩ := k4 nw pre e3 g3
    obtain ⟨b', _, b1', b2'⟩ := k4' nw' pre e4 (e5 ▸ g3)
    cases b1.unique e6
    cases b1'.unique e7
    exact b2.text_unique b2'

include hE hV hC in
/-- `GetPublicKey` of a key between 1 and n - 1. -/
theorem public_succeeds (B : W.Point) (hB : HasCoords B gx gy) {st : State} {p : Ptr} {z : Int} (h : Worth H E nets st p z)
    {k : PrivateKey} (hk : privAt st p = some k) {v : Nat} (hv : k.Key = some (v : Int)) (h1 : 1 ≤ v) (h2 : v < Spec.n) :
    ∃ q st' x y, (Request.getPublicKey p).Ends H E st (.ok [.pub q, .bool true] st') ∧ Stands H E nets B st' q (z • B) ∧
      pubAt st' q = some ⟨some x, some y, k.Network⟩ := by
  rcases privAt_cases st p with ⟨-, e⟩ | ⟨o, ho, e⟩
  · cases e.symm.trans hk
  cases e.symm.trans hk
  obtain ⟨x, y, -, e⟩ := C33_public_key V hC B hB _ v hv h1 h2
  obtain ⟨a, st', e1, e2, -⟩ := ends_ok e (text_getPublicKey H E V hE hV st (h.session.intact hE) p o ho) h.session
  have h4 := new_pub e2
  have ha : a.isSome = true := by
    cases a with
    | none => simp [pubAt, loadPub] at h4
    | some a => rfl
  rw [ha] at e1
  exact ⟨a, st', x, y, e1, .ofPriv h hk hv h1 h2 e1, h4⟩

include hE hV hC in
/-- C125. The public key of the sum of two private keys, and the sum of their public keys: both computations succeed and stand
for the same point. -/
theorem C125_sum (hn : OneByte nets) (B : W.Point) (hB : HasCoords B gx gy) (st st1 : State) (p q r : Ptr) (a b : Int)
    (hp : Worth H E nets st p a) (hq : Worth H E nets st q b) (k l : PrivateKey) (v w : Nat) (hk : privAt st p = some k)
    (hl : privAt st q = some l) (hv : k.Key = some (v : Int)) (hw : l.Key = some (w : Int)) (v1 : 1 ≤ v) (v2 : v < Spec.n)
    (w1 : 1 ≤ w) (w2 : w < Spec.n) (hne : v ≠ w) (h0 : v + w ≠ Spec.n)
    (h : (Request.addPrivateKeys p q).Ends H E st (.ok [.priv r, .err none] st1)) (c : Bool) :
    ∃ t st2 t1 st3 t2 st4 t3 st5, (Request.getPublicKey r).Ends H E st1 (.ok [.pub t, .bool true] st2) ∧
      (Request.getPublicKey p).Ends H E st2 (.ok [.pub t1, .bool true] st3) ∧
      (Request.getPublicKey q).Ends H E st3 (.ok [.pub t2, .bool true] st4) ∧
      (Request.addPublicKeys t1 t2 c).Ends H E st4 (.ok [.pub t3, .err none] st5) ∧
      Stands H E nets B st5 t ((a + b) • B) ∧ Stands H E nets B st5 t3 ((a + b) • B) := by
  have hr := Worth.add hp hq h
  have c1 : Continues H E st st1 := .call _ (.refl st) h rfl
  obtain ⟨g, lines, g1, -, -, -, k', l', m, rfl, e1, e2, x, y, nw, s, _, e3, e4, e5, e6, e7, e8⟩ :=
    C124_results H E V hE hV hC B hB nets st hp.session (.addPrivateKeys p q) (by exact trivial) _ st1 h (by intro v e h; cases h)
  cases hk.symm.trans e1
  cases hl.symm.trans e2
  cases hv.symm.trans e3
  cases hw.symm.trans e4
  have hnn : k.Network = l.Network := by
    by_contra hnn
    rcases privAt_cases st p with ⟨-, e⟩ | ⟨o, ho, e⟩
    · cases e.symm.trans hk
    rcases privAt_cases st q with ⟨-, e'⟩ | ⟨o', ho', e'⟩
    · cases e'.symm.trans hl
    cases e.symm.trans hk
    cases e'.symm.trans hl
    obtain ⟨_, z, hz, -⟩ := ok_of_returns (text_addPrivateKeys H E hE st (hp.session.intact hE) p q o o' ho ho') h
      (by intro v e h; cases h) fun e _ => ⟨_, rfl⟩
    rw [add_eq_combine] at hz
    obtain ⟨_, _, _, _, n1, n2, -⟩ := (combine_eq_ok H _).1 hz
    exact hnn (n1.trans n2.symm)
  obtain ⟨m', hm, e⟩ := Option.map_eq_some_iff.1 (show (privAt st1 r).map Answer.priv = some _ from g1)
  cases e
  have hs1 : 1 ≤ s ∧ s < Spec.n := by
    have e6' : s = (v + w) % Spec.n := by
      have e6 : (s : Int) = ((v : Int) + w) % (Spec.n : Int) := e6
      exact_mod_cast e6
    have hpos : 0 < Spec.n := by omega
    refine ⟨?_, e6' ▸ Nat.mod_lt _ hpos⟩
    rcases Nat.lt_or_ge (v + w) Spec.n with hlt | hge
    · rw [e6', Nat.mod_eq_of_lt hlt]
      omega
    · rw [e6', Nat.mod_eq_sub_mod hge, Nat.mod_eq_of_lt (by omega)]
      omega
  obtain ⟨t, st2, x0, y0, p1, p2, p3⟩ := public_succeeds H E V hE hV hC nets B hB hr hm e8.1 hs1.1 hs1.2
  have keep : ∀ {u u' : State} {p : Ptr} {k : PrivateKey}, Session H E nets u → Continues H E u u' → privAt u p = some k →
      privAt u' p = some k := fun hu hc hk => by
    rw [privAt_keep (hu.sound hE) (hc.grow hE) (.inr (by rw [hk]; simp)), hk]
  have c2 : Continues H E st st2 := .call _ c1 p1 rfl
  obtain ⟨t1, st3, x1, y1, q1, q2, q3⟩ := public_succeeds H E V hE hV hC nets B hB (hp.later c2) (keep hp.session c2 hk) hv v1 v2
  have c3 : Continues H E st st3 := .call _ c2 q1 rfl
  obtain ⟨t2, st4, x2, y2, r1, r2, r3⟩ := public_succeeds H E V hE hV hC nets B hB (hq.later c3) (keep hp.session c3 hl) hw w1 w2
  have c34 : Continues H E st3 st4 := .call _ (.refl st3) r1 rfl
  have q4 := q2.later c34
  obtain ⟨k1, z1, u1, a1, a2, a3, a4⟩ := C125_points H E V hE hV hC nets hn B hB st4 t1 _ q4
  obtain ⟨k2, z2, u2, b1, b2, b3, b4⟩ := C125_points H E V hE hV hC nets hn B hB st4 t2 _ r2
  have n1 : k1.Network = some nw := by
    rw [pubAt_keep (q2.session.sound hE) (c34.grow hE) (.inr (by rw [q3]; simp)), q3] at a1
    cases a1
    exact e5
  have n2 : k2.Network = some nw := by
    cases b1.symm.trans r3
    exact hnn.symm.trans e5
  have worth : ∀ {u : State} {p : Ptr} {z : Int} {k : PrivateKey} {v : Nat}, Worth H E nets u p z → privAt u p = some k →
      k.Key = some (v : Int) → v • B = z • B := by
    intro u p z k v hw hk hv
    obtain ⟨k', e, b, body, -, v', hz, -⟩ := C125_keys H E V hE hV hC nets hn u p z hw
    cases hk.symm.trans e
    cases hv.symm.trans v'
    exact zsmul_congr hB hz
  have ea := worth hp hk hv
  have eb := worth hq hl hw
  obtain rfl := EC.coords_point hB EC.G_coords
  have hx : z1 ≠ z2 := by
    rw [← ea] at a2
    rw [← eb] at b2
    refine x_ne hne v2 w2 ?_ a2 b2
    intro hz
    obtain ⟨d, hd⟩ := Nat.dvd_of_mod_eq_zero hz
    have : d = 1 := by
      have h2 : Spec.n * d < Spec.n * 2 := by omega
      have := Nat.lt_of_mul_lt_mul_left h2
      have : d ≠ 0 := by rintro rfl; omega
      omega
    subst this
    omega
  rcases pubAt_cases st4 t1 with ⟨-, e⟩ | ⟨o1, ho1, e⟩
  · cases e.symm.trans a1
  cases e.symm.trans a1
  rcases pubAt_cases st4 t2 with ⟨-, e'⟩ | ⟨o2, ho2, e'⟩
  · cases e'.symm.trans b1
  cases e'.symm.trans b1
  obtain ⟨x, y, hxy, -, hadd⟩ := C37_add_public_keys V hC _ _ z1 u1 z2 u2 (some nw) a2 b2 hx
  have f1 : pubValue st4.heap o1 = ⟨some (z1 : Int), some (u1 : Int), some nw⟩ := by rw [← a3, ← a4, ← n1]
  have f2 : pubValue st4.heap o2 = ⟨some (z2 : Int), some (u2 : Int), some nw⟩ := by rw [← b3, ← b4, ← n2]
  obtain ⟨t3, st5, d1, d2, -⟩ := ends_ok (by rw [f1, f2]; exact (hadd c).1)
    (text_addPublicKeys H E V hE hV st4 (r2.session.intact hE) t1 t2 o1 o2 ho1 ho2 c) r2.session
  refine ⟨t, st2, t1, st3, t2, st4, t3, st5, p1, q1, r1, d1,
    p2.later (.call _ (.call _ (.call _ (.refl st2) q1 rfl) r1 rfl) d1 rfl), ?_⟩
  rw [add_zsmul]
  refine .add q4 r2 ?_ ?_ d1
  · intro he
    rw [he] at a2
    exact hx (EC.coords_unique a2 b2).1
  · intro he
    rw [he] at a2
    exact hx (EC.coords_unique a2 (EC.neg_coords b2)).1

end

open Samples

/-- Two keys are read from text and added. -/
theorem Samples.twoKeys : ∃ st p q st1 r, Worth realHashes pkg [] st p (hexNumber hexA) ∧ Worth realHashes pkg [] st q (hexNumber hexB) ∧
    privAt st p = some keyA ∧ privAt st q = some keyB ∧
    (Request.addPrivateKeys p q).Ends realHashes pkg st (.ok [.priv r, .err none] st1) := by
  have kA : (match privateFromHex realHashes hexA (some MainNetwork) with | .ok k => decide (k = keyA) | _ => false) = true := by
    decide +kernel
  have kB : (match privateFromHex realHashes hexB (some MainNetwork) with | .ok k => decide (k = keyB) | _ => false) = true := by
    decide +kernel
  have kS : (match addPrivateKeys realHashes keyA keyB with | .ok _ => true | _ => false) = true := by decide +kernel
  replace kA : privateFromHex realHashes hexA (some MainNetwork) = .ok keyA := by
    revert kA
    split <;> simp_all
  replace kB : privateFromHex realHashes hexB (some MainNetwork) = .ok keyB := by
    revert kB
    split <;> simp_all
  obtain ⟨kS, eS⟩ : ∃ k, addPrivateKeys realHashes keyA keyB = .ok k := by
    revert kS
    split <;> simp_all
  have h0 := session_start realHashes pkg [] []
  obtain ⟨p, st1, e1, e2, -, h1⟩ := ends_ok (v := keyA) kA (C108_privateFromHex realHashes pkg refPkg.1 (started [] []) hexA (some 0)) h0
  obtain ⟨q, st2, e3, e4, -, h2⟩ := ends_ok (v := keyB) (by
      rw [loadNet_grow (Request.step refPkg.1 e1 rfl).grow]
      exact kB) (C108_privateFromHex realHashes pkg refPkg.1 st1 hexB (some 0)) h1
  have c : Continues realHashes pkg st1 st2 := .call _ (.refl st1) e3 rfl
  have hA : privAt st2 p = some keyA := by
    rw [privAt_keep (h1.sound refPkg.1) (c.grow refPkg.1) (.inr (by rw [new_priv e2]; simp)), new_priv e2]
  have hB : privAt st2 q = some keyB := new_priv e4
  rcases privAt_cases st2 p with ⟨-, e⟩ | ⟨o, ho, e⟩
  · cases e.symm.trans hA
  rcases privAt_cases st2 q with ⟨-, e'⟩ | ⟨o', ho', e'⟩
  · cases e'.symm.trans hB
  obtain ⟨r, st3, e5, -⟩ := ends_ok (v := kS) (by
      rw [Option.some.inj (e.symm.trans hA), Option.some.inj (e'.symm.trans hB)]
      exact eS) (text_addPrivateKeys realHashes pkg refPkg.1 st2 (h2.intact refPkg.1) p q o o' ho ho') h2
  exact ⟨st2, p, q, st3, r, (Worth.hex h0 (by decide +kernel) e1).later c, .hex h1 (by decide +kernel) e3, hA, hB, e5⟩

/-- C125: the two keys are read and added. The public key of the sum and the sum of the public keys print the same text, which
can be read back; the WIF of the first key passes the check. -/
example : ∃ (st : State) (t t' : Ptr) (P : W.Point) (s : GoString) (u u' : State), Stands realHashes pkg [] EC.G st t P ∧
    Stands realHashes pkg [] EC.G st t' P ∧ (Request.format t true).Ends realHashes pkg st (.ok [.str s] u) ∧
    (Request.format t' true).Ends realHashes pkg st (.ok [.str s] u') ∧
    (∃ r v, (Request.publicFromHex s (some 1)).Ends realHashes pkg u (.ok [.pub r, .err none] v)) ∧
    ∃ st0 st1, (Request.checkWIF keyA.WIF).Ends realHashes pkg st0 (.ok [.bool true] st1) := by
  have hn : OneByte [] := by simp [OneByte]
  obtain ⟨st, p, q, st1, r, hp, hq, hA, hB, h⟩ := twoKeys
  obtain ⟨t, st2, t1, st3, t2, st4, t3, st5, -, -, -, -, h1, h2⟩ := C125_sum realHashes pkg EC.ref refPkg.1 refPkg.2.1 refPkg.2.2 []
    hn EC.G EC.G_coords st st1 p q r _ _ hp hq keyA keyB
    0x8613DFD6C099751DCC4020EF6F9BCD3C00F4565A15B26979B4B93C045D0A5CEB 0xaef29c9770a9f6b9da86e37fc12a334eeffb02f967a55ba125deb77736ee3fc1
    hA hB rfl rfl (by decide +kernel) (by decide +kernel) (by decide +kernel) (by decide +kernel) (by decide +kernel)
    (by decide +kernel) h true
  obtain ⟨s, u, a, v, g1, g2, -⟩ := C125_read_back realHashes pkg EC.ref refPkg.1 refPkg.2.1 refPkg.2.2 [] hn EC.G EC.G_coords
    st5 t _ h1 true (some 1)
  obtain ⟨s', u', _, _, g1', -⟩ := C125_read_back realHashes pkg EC.ref refPkg.1 refPkg.2.1 refPkg.2.2 [] hn EC.G EC.G_coords
    st5 t3 _ h2 true (some 1)
  obtain rfl := (C125_same_texts realHashes pkg EC.ref refPkg.1 refPkg.2.1 refPkg.2.2 [] hn EC.G EC.G_coords st5 st5 t t3 _ h1 h2 true).1
    s s' u u' g1 g1'
  obtain ⟨k, hk, ⟨w, hw⟩, -⟩ := C125_wif_back realHashes pkg EC.ref refPkg.1 refPkg.2.1 refPkg.2.2 [] hn st p _ hp none
  cases hA.symm.trans hk
  exact ⟨st5, t, t3, _, s, u, u', h1, h2, g1, g1', ⟨a, v, g2⟩, st, w, hw⟩

end Btc
