import Verif.Props.RepairDiff

/-!
# C134: which calls succeed, with the repaired text and with the repository's

C132 compares the answers when a call succeeds with the repaired text. Here all calls are compared: `FixedAccepts` says which
calls succeed with the repaired text, `Overlooked` which calls succeed with the repository's text only, and `Lost` which
succeed with the repaired text only.
-/

namespace Btc

open Spec Mem Source

set_option linter.constructorNameAsVariable false

namespace Spec

/-- Specification: a call succeeds: it returns, and neither an error nor nil. -/
def Succeeds (ends : State → Out (List Value) → Prop) (st : State) : Prop :=
  ∃ vs st' g, ends st (.ok vs st') ∧ view st' vs = some g

/-- Specification: two private keys of one network with different WIFs, whose combination is not zero. -/
def Combines (f : Int → Int → Int) (st : State) (p q : Ptr) : Prop :=
  ∃ (a b : PrivateKey) (x y : Int), privAt st p = some a ∧ privAt st q = some b ∧ a.Key = some x ∧ b.Key = some y ∧
    a.Network = b.Network ∧ a.WIF ≠ b.WIF ∧ f x y % (Spec.n : Int) ≠ 0

/-- Specification: which calls succeed with the repaired text. -/
def FixedAccepts (H : Hashes) (st : State) : Request → Prop
  | .checkWIF _ => True
  | .privateFromWIF w network => ∃ net pre body c, NetAt st network net ∧ WifText H.sha256 net w pre body c
  | .privateFromHex h network => ∃ net pre body, NetAt st network net ∧ KeyText net h pre body
  | .generatePrivateKey network => (∃ net pre, NetAt st network net ∧ Spells net.PrivKeyPrefix pre) ∧
      ∃ body rest, FirstKey st.rd body rest
  | .addPrivateKeys p q => Combines (· + ·) st p q
  | .multiplyPrivateKeys p q => Combines (· * ·) st p q
  | .publicFromHex s network => network ≠ none ∧ ∃ c x y, PubText s c x y
  | .getPublicKey _ => True
  | .format _ _ => True
  | .address q _ => ∃ k net pre, pubAt st q = some k ∧ k.Network = some net ∧ Spells net.PubKeyHashPrefix pre
  | .addPublicKeys p q _ => ∃ a b, pubAt st p = some a ∧ pubAt st q = some b ∧ a.Network = b.Network ∧ a.X ≠ b.X
  | .newMnemonic words wl => ∃ c : Nat, 4 ≤ c ∧ c ≤ 8 ∧ words = 3 * c ∧ (wl.getD []).length = 2048 ∧ 4 * c ≤ st.rd.length
  | .newSeedFromMnemonic mn _ wl => IsPhrase H.sha256 (wl.getD []) mn

/-- Specification: which calls succeed with the repository's text and not with the repaired one. -/
def Overlooked (H : Hashes) (st : State) : Request → Prop
  | .privateFromWIF w network => (∃ v body, IsBase58Check H.sha256 (v :: body) w) ∧
      ¬ ∃ net pre body c, NetAt st network net ∧ WifText H.sha256 net w pre body c
  | .privateFromHex h network => ∃ net, NetAt st network net ∧ EvenHex (net.PrivKeyPrefix ++ h) ∧ ¬ ∃ pre body, KeyText net h pre body
  | .publicFromHex s network => ((s.take 2 = asc "04" ∧ 130 ≤ s.length) ∨
        (s.take 2 ∈ [asc "02", asc "03"] ∧ 66 ≤ s.length ∧ ∃ y, OnCurve (hexNumber ((s.drop 2).take 64)) y)) ∧
      ¬ (network ≠ none ∧ ∃ c x y, PubText s c x y)
  | .newMnemonic words wl => ∃ (c : Nat) (l : List GoString), 4 ≤ c ∧ c ≤ 8 ∧ words = 3 * c ∧ wl = some l ∧ l.length ≠ 2048 ∧
      4 * c ≤ st.rd.length ∧ ¬ PhraseCrash H.sha256 st.rd words l
  | .newSeedFromMnemonic mn _ wl => ∃ ws body ck, mn = phraseText ws ∧ SpellsBits (wl.getD []) ws (bytesBits (body ++ [ck])) ∧
      (H.sha256 body).take 1 = [ck] ∧ ws.length ≠ 24
  | _ => False

/-- Specification: the combination of the keys is written with an odd number of digits, or their WIFs differ in nothing but
case. -/
def LostCombination (toLower : GoString → GoString) (f : Int → Int → Int) (st : State) (p q : Ptr) : Prop :=
  ∃ (a b : PrivateKey) (x y : Int) (r : Nat) (s : GoString), privAt st p = some a ∧ privAt st q = some b ∧ a.Key = some x ∧
    b.Key = some y ∧ (r : Int) = f x y % (Spec.n : Int) ∧ IsMinimalHex r s ∧
    (s.length % 2 = 1 ∨ toLower a.WIF = toLower b.WIF)

/-- Specification: which calls succeed with the repaired text and not with the repository's. -/
def Lost (H : Hashes) (st : State) : Request → Prop
  | .checkWIF w => w ≠ [] ∧ ∃ bs, bs.length < 4 ∧ IsBase58 bs w
  | .generatePrivateKey network => (∃ net pre, NetAt st network net ∧ Spells net.PrivKeyPrefix pre) ∧
      (∃ body rest, FirstKey st.rd body rest) ∧ ¬ SuppliesKey st.rd
  | .addPrivateKeys p q => Combines (· + ·) st p q ∧ LostCombination H.toLower (· + ·) st p q
  | .multiplyPrivateKeys p q => Combines (· * ·) st p q ∧ LostCombination H.toLower (· * ·) st p q
  | .newMnemonic words wl => ∃ c : Nat, 4 ≤ c ∧ c ≤ 8 ∧ words = 3 * c ∧ (wl.getD []).length = 2048 ∧ 4 * c ≤ st.rd.length ∧
      bigEndian (H.sha256 ((st.rd.take (4 * c)).dropWhile (· == 0))) < 2 ^ (c - 1)
  | .newSeedFromMnemonic mn _ wl => ∃ ent ws, IsBip39 H.sha256 (wl.getD []) ent ws ∧ mn = phraseText ws ∧ ws.length ≠ 24
  | _ => False

end Spec

/-! ## The repaired text -/

section
variable {H : Hashes} {E : EcdsaM} {V : Ecdsa} (hE : Pkg E) (hV : E.Refines V) (hC : EcdsaContract V) {st : State}

theorem succeeds_iff {ends : State → Out (List Value) → Prop} {o : Out (List Value)} (hu : ∀ o', ends st o' → o' = o)
    (h : ends st o) : Succeeds ends st ↔ ∃ vs st' g, o = .ok vs st' ∧ view st' vs = some g := by
  constructor
  · rintro ⟨vs, st', g, h1, h2⟩
    exact ⟨vs, st', g, (hu _ h1).symm, h2⟩
  · rintro ⟨vs, st', g, rfl, h2⟩
    exact ⟨vs, st', g, h, h2⟩

theorem fixed_succeeds {r : Request} {vs : List Value} {st' : State} (h : r.EndsFixed H E st (.ok vs st')) :
    Succeeds (r.EndsFixed H E) st ↔ ∃ g, view st' vs = some g := by
  rw [succeeds_iff (ends := r.EndsFixed H E) (fun o' h' => Ends.unique h' h) h]
  constructor
  · rintro ⟨_, _, g, ⟨⟩, h⟩
    exact ⟨g, h⟩
  · rintro ⟨g, h⟩
    exact ⟨_, _, g, rfl, h⟩

theorem fixed_panics {r : Request} {pn : GoPanic} {st' : State} (h : r.EndsFixed H E st (.panic pn st')) :
    ¬ Succeeds (r.EndsFixed H E) st := by
  rintro ⟨vs, st1, g, h1, -⟩
  cases Ends.unique h h1

theorem view_key {st' : State} {a : Nat} {network : Ptr} {hexa wif : GoString} {pre body : Bytes} {c : Bool}
    (ha : KeyAt H.sha256 st' (some a) network hexa wif pre body c) : ∃ g, view st' [.priv (some a), .err none] = some g := by
  obtain ⟨ob, h1, -⟩ := ha.object
  exact ⟨.priv (privValue st'.heap ob), by
    change (privAt st' (some a)).map Answer.priv = _
    unfold privAt
    rw [show loadPriv st'.heap (some a) = some ob from h1]
    rfl⟩

theorem view_pub {st' : State} {a : Nat} {network : Ptr} {x y : Nat} (ha : PubAt st' (some a) network x y) :
    ∃ g, view st' [.pub (some a), .err none] = some g ∧ view st' [.pub (some a), .bool true] = some g := by
  obtain ⟨ob, h1, -⟩ := ha.object
  have e : (pubAt st' (some a)).map Answer.pub = some (.pub (pubValue st'.heap ob)) := by
    unfold pubAt
    rw [show loadPub st'.heap (some a) = some ob from h1]
    rfl
  exact ⟨_, e, e⟩

theorem no_view {st' : State} {vs : List Value} (h : view st' vs = none) : ¬ ∃ g, view st' vs = some g := by
  rintro ⟨g, h'⟩
  rw [h] at h'
  cases h'

include hE hV hC in
/-- The table for the repaired text. -/
theorem fixed_table {ps qs : List Ptr} (hs : Sound H st ps qs) (r : Request) (ht : Typed st ps qs r)
    (hwl : ∀ mn pa wl, r = .newSeedFromMnemonic mn pa wl → IsWordlist (wl.getD [])) :
    Succeeds (r.EndsFixed H E) st ↔ FixedAccepts H st r := by
  cases r with
  | checkWIF wif =>
    obtain ⟨b, st1, he, -⟩ := C127_check H E st wif
    rw [fixed_succeeds (r := .checkWIF wif) he]
    exact iff_of_true ⟨_, rfl⟩ trivial
  | privateFromWIF wif network =>
    rcases ht with rfl | ⟨net, hn⟩
    · obtain ⟨o, he, st1, rfl, -⟩ := (C127_nil_network H E st wif).2
      rw [fixed_succeeds (r := .privateFromWIF wif none) he]
      refine iff_of_false (no_view rfl) ?_
      rintro ⟨net, _, _, _, hn, -⟩
      cases hn
    obtain ⟨o, he, ⟨pre, body, c, hw, st1, a, rfl, hk, -, ha⟩ | ⟨hno, _, -, st1, rfl, -⟩⟩ := C127_import_wif H E st hs.order wif network net hn
    · rw [fixed_succeeds (r := .privateFromWIF wif network) he]
      exact iff_of_true (view_key ha) ⟨net, pre, body, c, hn, hw⟩
    · rw [fixed_succeeds (r := .privateFromWIF wif network) he]
      refine iff_of_false (no_view rfl) ?_
      rintro ⟨net', pre, body, c, hn', h⟩
      cases hn.symm.trans hn'
      exact hno ⟨pre, body, c, h⟩
  | privateFromHex hexa network =>
    rcases ht with rfl | ⟨net, hn⟩
    · obtain ⟨o, he, st1, rfl, -⟩ := (C127_nil_network H E st hexa).1
      rw [fixed_succeeds (r := .privateFromHex hexa none) he]
      refine iff_of_false (no_view rfl) ?_
      rintro ⟨net, _, _, hn, -⟩
      cases hn
    obtain ⟨o, he, ⟨pre, body, wif, hw, st1, a, rfl, hk, -, ha⟩ | ⟨hno, _, -, st1, rfl, -⟩⟩ := C127_import_hex H E st hs.order hexa network net hn
    · rw [fixed_succeeds (r := .privateFromHex hexa network) he]
      exact iff_of_true (view_key ha) ⟨net, pre, body, hn, hw⟩
    · rw [fixed_succeeds (r := .privateFromHex hexa network) he]
      refine iff_of_false (no_view rfl) ?_
      rintro ⟨net', pre, body, hn', h⟩
      cases hn.symm.trans hn'
      exact hno ⟨pre, body, h⟩
  | generatePrivateKey network =>
    rcases ht with rfl | ⟨net, hn⟩
    · rw [fixed_succeeds (r := .generatePrivateKey none) (C127_generate_no_network H E st none MainNetwork (.inl rfl))]
      refine iff_of_false (no_view rfl) ?_
      rintro ⟨⟨net, _, hn, -⟩, -⟩
      cases hn
    by_cases hp : ∃ pre, Spells net.PrivKeyPrefix pre
    case neg =>
      rw [fixed_succeeds (r := .generatePrivateKey network) (C127_generate_no_network H E st network net (.inr ⟨hn, hp⟩))]
      refine iff_of_false (no_view rfl) ?_
      rintro ⟨⟨net', pre, hn', h⟩, -⟩
      cases hn.symm.trans hn'
      exact hp ⟨pre, h⟩
    obtain ⟨pre, hp⟩ := hp
    obtain ⟨o, he, ⟨body, rest, wif, st1, a, hf, rfl, hk, -, ha⟩ | ⟨hf, st1, rfl, hk⟩⟩ := C127_generate H E st hs.order network net hn pre hp
    · rw [fixed_succeeds (r := .generatePrivateKey network) he]
      exact iff_of_true (view_key ha) ⟨⟨net, pre, hn, hp⟩, body, rest, hf⟩
    · exact iff_of_false (fixed_panics (r := .generatePrivateKey network) he) fun h => hf h.2
  | addPrivateKeys p q =>
    obtain ⟨nw1, net1, t1, w1, pre1, b1, c1, k1, n1, s1⟩ := hs.privs p ht.1
    obtain ⟨nw2, net2, t2, w2, pre2, b2, c2, k2, n2, s2⟩ := hs.privs q ht.2
    have comb : FixedAccepts H st (.addPrivateKeys p q) ↔ net1 = net2 ∧ w1 ≠ w2 ∧ (bigEndian b1 + bigEndian b2) % Spec.n ≠ 0 := by
      constructor
      · rintro ⟨a, b, x, y, ha, hb, hx, hy, h1, h2, h3⟩
        rw [k1.priv n1] at ha
        rw [k2.priv n2] at hb
        cases ha
        cases hb
        cases hx
        cases hy
        exact ⟨Option.some.inj h1, h2, fun e => h3 (by dsimp only; exact_mod_cast e)⟩
      · rintro ⟨h1, h2, h3⟩
        exact ⟨_, _, _, _, k1.priv n1, k2.priv n2, rfl, rfl, congrArg some h1, h2, fun e => h3 (by dsimp only at e; exact_mod_cast e)⟩
    rw [comb]
    by_cases hne : net1 = net2
    case neg =>
      rw [fixed_succeeds (r := .addPrivateKeys p q) (C127_other_networks H E k1 k2 n1 n2 hne).1]
      exact iff_of_false (no_view rfl) fun h => hne h.1
    subst hne
    obtain rfl := s1.unique s2
    obtain ⟨o, he, ⟨h1, body, wif, hb, st1, a, rfl, hk, -, ha⟩ | ⟨h1, st1, rfl, -⟩ | ⟨h1, h2, st1, rfl, -⟩⟩ := C127_add H E hs.order k1 k2 n1 n2 s1
    · rw [fixed_succeeds (r := .addPrivateKeys p q) he]
      refine iff_of_true (view_key ha) ⟨rfl, h1, ?_⟩
      rw [← hb]
      exact Nat.pos_iff_ne_zero.1 ha.low
    · rw [fixed_succeeds (r := .addPrivateKeys p q) he]
      exact iff_of_false (no_view rfl) fun h => h.2.1 h1
    · rw [fixed_succeeds (r := .addPrivateKeys p q) he]
      exact iff_of_false (no_view rfl) fun h => h.2.2 h2
  | multiplyPrivateKeys p q =>
    obtain ⟨nw1, net1, t1, w1, pre1, b1, c1, k1, n1, s1⟩ := hs.privs p ht.1
    obtain ⟨nw2, net2, t2, w2, pre2, b2, c2, k2, n2, s2⟩ := hs.privs q ht.2
    have comb : FixedAccepts H st (.multiplyPrivateKeys p q) ↔ net1 = net2 ∧ w1 ≠ w2 ∧ bigEndian b1 * bigEndian b2 % Spec.n ≠ 0 := by
      constructor
      · rintro ⟨a, b, x, y, ha, hb, hx, hy, h1, h2, h3⟩
        rw [k1.priv n1] at ha
        rw [k2.priv n2] at hb
        cases ha
        cases hb
        cases hx
        cases hy
        exact ⟨Option.some.inj h1, h2, fun e => h3 (by dsimp only; exact_mod_cast e)⟩
      · rintro ⟨h1, h2, h3⟩
        exact ⟨_, _, _, _, k1.priv n1, k2.priv n2, rfl, rfl, congrArg some h1, h2, fun e => h3 (by dsimp only at e; exact_mod_cast e)⟩
    rw [comb]
    by_cases hne : net1 = net2
    case neg =>
      rw [fixed_succeeds (r := .multiplyPrivateKeys p q) (C127_other_networks H E k1 k2 n1 n2 hne).2]
      exact iff_of_false (no_view rfl) fun h => hne h.1
    subst hne
    obtain rfl := s1.unique s2
    obtain ⟨o, he, ⟨h1, body, wif, hb, st1, a, rfl, hk, -, ha⟩ | ⟨h1, st1, rfl, -⟩⟩ := C127_multiply H E hs.order k1 k2 n1 n2 s1
    · rw [fixed_succeeds (r := .multiplyPrivateKeys p q) he]
      refine iff_of_true (view_key ha) ⟨rfl, h1, ?_⟩
      rw [← hb]
      exact Nat.pos_iff_ne_zero.1 ha.low
    · rw [fixed_succeeds (r := .multiplyPrivateKeys p q) he]
      exact iff_of_false (no_view rfl) fun h => h.2.1 h1
  | publicFromHex hexa network =>
    rcases ht with rfl | ⟨net, hn⟩
    · obtain ⟨o, he, st1, rfl, -⟩ := C129_nil_network H E hexa st
      rw [fixed_succeeds (r := .publicFromHex hexa none) he]
      exact iff_of_false (no_view rfl) fun h => h.1 rfl
    have hne : network ≠ none := by
      rintro rfl
      cases hn
    obtain ⟨o, he, ⟨c, x, y, hw, st1, a, rfl, hk, -, ha⟩ | ⟨hno, e, ⟨st1, rfl, -⟩, -⟩⟩ := C129_import H hE hV hC st hs.curve hexa network hne
    · rw [fixed_succeeds (r := .publicFromHex hexa network) he]
      obtain ⟨g, hg, -⟩ := view_pub ha
      exact iff_of_true ⟨g, hg⟩ ⟨hne, c, x, y, hw⟩
    · rw [fixed_succeeds (r := .publicFromHex hexa network) he]
      exact iff_of_false (no_view rfl) fun h => hno h.2
  | getPublicKey p =>
    obtain ⟨nw, net, t, w, pre, b, c, k, hn, -⟩ := hs.privs p ht
    obtain ⟨x, y, q, st1, he, hk, -, hxy, hq⟩ := C129_public_key H hE hV hC EC.G EC.G_coords st hs.curve k
    rw [fixed_succeeds (r := .getPublicKey p) he]
    obtain ⟨g, -, hg⟩ := view_pub hq
    exact iff_of_true ⟨g, hg⟩ trivial
  | format q c =>
    obtain ⟨nw, net, x, y, k, hn⟩ := hs.pubs q ht
    obtain ⟨s, he, -⟩ := C129_format H (E := E) st k c
    rw [fixed_succeeds (r := .format q c) he]
    exact iff_of_true ⟨_, rfl⟩ trivial
  | address q c =>
    obtain ⟨nw, net, x, y, k, hn⟩ := hs.pubs q ht
    by_cases hp : ∃ pre, Spells net.PubKeyHashPrefix pre
    · obtain ⟨pre, hp⟩ := hp
      obtain ⟨s, ser, st1, he, -⟩ := C129_address H (E := E) st k hn hp c
      rw [fixed_succeeds (r := .address q c) he]
      exact iff_of_true ⟨_, rfl⟩ ⟨_, net, pre, k.pub hn, rfl, hp⟩
    · obtain ⟨ser, e, st1, -, -, he, -⟩ := C129_no_address H (E := E) st k hn hp c
      rw [fixed_succeeds (r := .address q c) he]
      refine iff_of_false (no_view rfl) ?_
      rintro ⟨k', net', pre, h1, h2, h3⟩
      rw [k.pub hn] at h1
      cases h1
      cases h2
      exact hp ⟨pre, h3⟩
  | addPublicKeys p q c =>
    obtain ⟨nw1, net1, x1, y1, k1, n1⟩ := hs.pubs p ht.1
    obtain ⟨nw2, net2, x2, y2, k2, n2⟩ := hs.pubs q ht.2
    have href := C129_add_refused H (E := E) st k1 k2 n1 n2 c
    have hacc : FixedAccepts H st (.addPublicKeys p q c) ↔ net1 = net2 ∧ x1 ≠ x2 := by
      constructor
      · rintro ⟨a, b, ha, hb, h1, h2⟩
        rw [k1.pub n1] at ha
        rw [k2.pub n2] at hb
        cases ha
        cases hb
        exact ⟨Option.some.inj h1, fun e => h2 (by rw [e])⟩
      · rintro ⟨h1, h2⟩
        exact ⟨_, _, k1.pub n1, k2.pub n2, congrArg some h1, fun e => h2 (by simpa using e)⟩
    rw [hacc]
    by_cases hne : net1 = net2
    case neg =>
      rw [fixed_succeeds (r := .addPublicKeys p q c) (href.1 hne)]
      exact iff_of_false (no_view rfl) fun h => hne h.1
    by_cases hx : x1 = x2
    · rw [fixed_succeeds (r := .addPublicKeys p q c) (href.2 hne hx)]
      exact iff_of_false (no_view rfl) fun h => h.2 hx
    subst hne
    obtain ⟨P, hP⟩ := (EC.onCurve_iff _ _).1 k1.point
    obtain ⟨Q, hQ⟩ := (EC.onCurve_iff _ _).1 k2.point
    obtain ⟨o, x, y, he, hxy, st1, a, rfl, hk, -, ha⟩ := C129_add H hE hV hC st hs.curve k1 k2 n1 n2 hP hQ hx c
    rw [fixed_succeeds (r := .addPublicKeys p q c) he]
    obtain ⟨g, hg, -⟩ := view_pub ha
    exact iff_of_true ⟨g, hg⟩ ⟨rfl, hx⟩
  | newMnemonic words wl =>
    obtain ⟨o, he, ⟨c, ws, st1, c1, c2, hw, hl, hr, hb, rfl, hk⟩ | ⟨hno, st1, e, -, rfl, hk⟩⟩ := C128_generate H E words wl st
    · rw [fixed_succeeds (r := .newMnemonic words wl) he]
      exact iff_of_true ⟨_, rfl⟩ ⟨c, c1, c2, by rw [hw]; norm_cast, hl, hr⟩
    · rw [fixed_succeeds (r := .newMnemonic words wl) he]
      refine iff_of_false (no_view rfl) ?_
      rintro ⟨c, c1, c2, hw, hl, hr⟩
      exact hno ⟨c, c1, c2, by rw [hw]; norm_cast, hl, hr⟩
  | newSeedFromMnemonic mn pa wl =>
    obtain ⟨st1, e, he, hk, hi, -⟩ := C128_accept H E mn pa wl st
    rw [fixed_succeeds (r := .newSeedFromMnemonic mn pa wl) he]
    have hi := hi (hwl _ _ _ rfl)
    change _ ↔ IsPhrase H.sha256 (wl.getD []) mn
    rw [← hi]
    cases e with
    | none => exact iff_of_true ⟨_, rfl⟩ rfl
    | some e => exact iff_of_false (no_view rfl) nofun

/-! ## The repository's text -/

theorem Source.FirstKey.exists_of {rd : Bytes} (j : Nat) (h1 : 32 * (j + 1) ≤ rd.length) (h2 : 1 ≤ drawn rd j) (h3 : drawn rd j < Spec.n) :
    ∃ body rest, FirstKey rd body rest := by
  induction j generalizing rd with
  | zero =>
    refine ⟨rd.take 32, rd.drop 32, ?_⟩
    have := FirstKey.here (body := rd.take 32) (rest := rd.drop 32) (by rw [List.length_take]; omega) (by simpa [drawn] using h2)
      (by simpa [drawn] using h3)
    rwa [List.take_append_drop] at this
  | succ j ih =>
    have hd : drawn (rd.drop 32) j = drawn rd (j + 1) := by
      unfold drawn
      rw [List.drop_drop, show 32 + 32 * j = 32 * (j + 1) by omega]
    by_cases h0 : 1 ≤ bigEndian (rd.take 32) ∧ bigEndian (rd.take 32) < Spec.n
    · refine ⟨rd.take 32, rd.drop 32, ?_⟩
      have := FirstKey.here (body := rd.take 32) (rest := rd.drop 32) (by rw [List.length_take]; omega) h0.1 h0.2
      rwa [List.take_append_drop] at this
    · obtain ⟨body, rest, h⟩ := ih (rd := rd.drop 32) (by rw [List.length_drop]; omega) (hd ▸ h2) (hd ▸ h3)
      refine ⟨body, rest, ?_⟩
      have := FirstKey.later (block := rd.take 32) (by rw [List.length_take]; omega) h0 h
      rwa [List.take_append_drop] at this

theorem supplies_first {rd : Bytes} (h : SuppliesKey rd) : ∃ body rest, FirstKey rd body rest := by
  obtain ⟨j, h1, h2, h3⟩ := h
  exact FirstKey.exists_of j h1 (le_trans (by decide +kernel) h2) (lt_of_le_of_lt h3 (by decide +kernel))

include hE hV hC in
/-- The tables of C112 and C122 together. -/
theorem repo_table (hi : Intact st) (r : Request) (hd : Determined st r) :
    Succeeds (r.Ends H E) st ↔ ¬ Crashes H st r ∧ ∀ e, ¬ Fails H st r e := by
  rw [← crash_table H E V hE hV hC st hi r hd]
  simp only [← error_table H E V hE hV hC st hi r hd]
  constructor
  · rintro ⟨vs, st', g, h1, h2⟩
    constructor
    · rintro ⟨pn, st2, h⟩
      cases h1.unique h
    · rintro e ⟨v, st2, h⟩
      cases h1.unique h
      cases v <;> simp [view] at h2
  · rintro ⟨c1, c2⟩
    obtain ⟨o, st', h1, hu, ho, -⟩ := C109_ends H E hE r st
    cases o with
    | ok vs st1 =>
      have hn : ∀ v e, vs ≠ [v, .err (some e)] := by
        rintro v e rfl
        exact c2 e ⟨v, st1, h1⟩
      obtain ⟨g, lines, e1, -⟩ := result_table H E V hE hV hC EC.G EC.G_coords st hi r hd vs st1 h1 hn
      exact ⟨vs, st1, g, h1, e1⟩
    | panic p st1 => exact (c1 ⟨p, st1, h1⟩).elim
    | stuck => cases ho

theorem combine_repo {H : Hashes} {f : Int → Int → Int} {t1 t2 w1 w2 : GoString} {v1 v2 : Int} {net : Network} {pre : Bytes}
    (hp : Spells net.PrivKeyPrefix pre) :
    (¬ CombineCrash H.toLower ⟨some v1, t1, w1, some net⟩ ⟨some v2, t2, w2, some net⟩ ∧
      ∀ e, ¬ CombineFault H.toLower f ⟨some v1, t1, w1, some net⟩ ⟨some v2, t2, w2, some net⟩ e) ↔
      H.toLower w1 ≠ H.toLower w2 ∧ (fmtNat 16 (f v1 v2 % (Spec.n : Int)).toNat).length % 2 = 0 := by
  obtain ⟨r, hr⟩ : ∃ r : Nat, (r : Int) = f v1 v2 % (Spec.n : Int) :=
    ⟨(f v1 v2 % (Spec.n : Int)).toNat, Int.toNat_of_nonneg (Int.emod_nonneg _ (by decide +kernel))⟩
  have he : (f v1 v2 % (Spec.n : Int)).toNat = r := by rw [← hr]; rfl
  rw [he]
  have hm := isMinimalHex_fmtNat r
  have hdig : ∀ c ∈ fmtNat 16 r, IsHexDigit c := by
    intro c hc
    have all : ∀ c ∈ asc "0123456789abcdef", IsHexDigit c := by decide +kernel
    exact all c (hm.2.2.1 c hc)
  have hpre := (exists_spells_iff _).1 ⟨pre, hp⟩
  constructor
  · rintro ⟨-, h⟩
    have hlow : H.toLower w1 ≠ H.toLower w2 := fun e => h _ (.inr (.inl ⟨rfl, e, rfl⟩))
    refine ⟨hlow, ?_⟩
    by_contra hodd
    refine h .hexLength (.inr (.inr ⟨rfl, hlow, v1, v2, net, r, _, rfl, rfl, rfl, hr, hm, ?_, ?_⟩))
    · intro c hc
      rcases List.mem_append.1 hc with hc | hc
      · exact hpre.1 c hc
      · exact hdig c hc
    · rw [List.length_append]
      have := hpre.2
      omega
  · rintro ⟨h1, h2⟩
    obtain ⟨bs, hs⟩ := (exists_spells_iff (fmtNat 16 r)).2 ⟨hdig, h2⟩
    refine ⟨?_, ?_⟩
    · rintro ⟨-, -, h | h | h⟩ <;> cases h
    · rintro e (⟨h, -⟩ | ⟨-, h, -⟩ | ⟨-, -, x, y, nw, r', s, hx, hy, hn, hr', hms, hf⟩)
      · exact h rfl
      · exact h1 h
      · cases hx
        cases hy
        cases hn
        have : r' = r := by
          have := hr'.trans hr.symm
          exact_mod_cast this
        subst this
        obtain rfl := hms.unique hm
        exact no_fault_of_spells (hp.append hs) e hf

/-- Combining keys: the repository's text succeeds if the networks are the same, the WIFs differ in more than case and the
result has an even number of digits. -/
theorem combine_lost {f : Int → Int → Int} {p q nw1 nw2 : Ptr} {net1 net2 : Network} {t1 t2 w1 w2 : GoString} {pre1 pre2 b1 b2 : Bytes}
    {c1 c2 : Bool} (k1 : KeyAt H.sha256 st p nw1 t1 w1 pre1 b1 c1) (k2 : KeyAt H.sha256 st q nw2 t2 w2 pre2 b2 c2)
    (n1 : NetAt st nw1 net1) (n2 : NetAt st nw2 net2) (s1 : Spells net1.PrivKeyPrefix pre1) {rep : Prop}
    (hrep : rep ↔ ¬ (privAt st p = none ∨ privAt st q = none ∨
        ∃ a b, privAt st p = some a ∧ privAt st q = some b ∧ CombineCrash H.toLower a b) ∧
      ∀ e, ¬ ∃ a b, privAt st p = some a ∧ privAt st q = some b ∧ CombineFault H.toLower f a b e) :
    ¬ (rep ∧ ¬ Combines f st p q) ∧
    ((¬ rep ∧ Combines f st p q) ↔ Combines f st p q ∧ LostCombination H.toLower f st p q) := by
  have v1 := k1.priv n1
  have v2 := k2.priv n2
  have hc : Combines f st p q ↔ net1 = net2 ∧ w1 ≠ w2 ∧ f (bigEndian b1) (bigEndian b2) % (Spec.n : Int) ≠ 0 := by
    unfold Combines
    rw [v1, v2]
    constructor
    · rintro ⟨a, b, x, y, ha, hb, hx, hy, h1, h2, h3⟩
      cases ha
      cases hb
      cases hx
      cases hy
      exact ⟨Option.some.inj h1, h2, h3⟩
    · rintro ⟨h1, h2, h3⟩
      exact ⟨_, _, _, _, rfl, rfl, rfl, rfl, congrArg some h1, h2, h3⟩
  have hl : LostCombination H.toLower f st p q ↔
      (fmtNat 16 (f (bigEndian b1) (bigEndian b2) % (Spec.n : Int)).toNat).length % 2 = 1 ∨ H.toLower w1 = H.toLower w2 := by
    unfold LostCombination
    rw [v1, v2]
    constructor
    · rintro ⟨a, b, x, y, r, s, ha, hb, hx, hy, hr, hs, h⟩
      cases ha
      cases hb
      cases hx
      cases hy
      rw [← hr, Int.toNat_natCast, (isMinimalHex_fmtNat r).unique hs]
      exact h
    · intro h
      exact ⟨_, _, _, _, _, _, rfl, rfl, rfl, rfl, Int.toNat_of_nonneg (Int.emod_nonneg _ (by decide +kernel)), isMinimalHex_fmtNat _, h⟩
  have hr : rep ↔ net1 = net2 ∧ H.toLower w1 ≠ H.toLower w2 ∧
      (fmtNat 16 (f (bigEndian b1) (bigEndian b2) % (Spec.n : Int)).toNat).length % 2 = 0 := by
    rw [hrep, v1, v2]
    simp only [reduceCtorEq, Option.some.injEq, false_or, exists_and_left, exists_eq_left']
    by_cases hne : net1 = net2
    · subst hne
      rw [combine_repo s1]
      simp
    · refine iff_of_false ?_ fun h => hne h.1
      rintro ⟨-, h⟩
      exact h _ (.inl ⟨fun e => hne (Option.some.inj e), rfl⟩)
  rw [hr, hc, hl]
  constructor
  · rintro ⟨⟨h1, h2, h3⟩, h⟩
    refine h ⟨h1, fun e => h2 (by rw [e]), fun e => ?_⟩
    rw [e] at h3
    exact absurd h3 (by decide +kernel)
  · constructor
    · rintro ⟨h1, h2⟩
      refine ⟨h2, ?_⟩
      by_contra h3
      exact h1 ⟨h2.1, fun e => h3 (.inr e), by omega⟩
    · rintro ⟨h1, h2⟩
      refine ⟨?_, h1⟩
      rintro ⟨-, h3, h4⟩
      rcases h2 with h2 | h2
      · omega
      · exact h3 h2

theorem format_both (q : Ptr) (c : Bool) :
    Succeeds ((Request.format q c).Ends H E) st ↔ Succeeds ((Request.format q c).EndsFixed H E) st := by
  have h1 := run_Format_in H (E := E) repaired_bigIntToHex repaired_Format 0 q c st
  have h2 := run_Format_in H (E := E) find_bigIntToHex find_Format 0 q c st
  have hs : Out.exact (fun s => [.str s]) (formatM q c st.heap) st ≠ .stuck := by
    obtain ⟨r, e, hn⟩ := formatM_shape q c st.heap
    rw [e]
    rcases r with a | e' | p
    · nofun
    · exact (hn e' rfl).elim
    · nofun
  constructor
  · rintro ⟨vs, st', g, h, hv⟩
    exact ⟨vs, st', g, Ends.unique h (.of h2 hs) ▸ .of h1 hs, hv⟩
  · rintro ⟨vs, st', g, h, hv⟩
    exact ⟨vs, st', g, Ends.unique h (.of h1 hs) ▸ .of h2 hs, hv⟩

theorem address_both (q : Ptr) (c : Bool) :
    Succeeds ((Request.address q c).Ends H E) st ↔ Succeeds ((Request.address q c).EndsFixed H E) st := by
  obtain ⟨hs1, h1⟩ := run_Address_in H (E := E) repaired_bigIntToHex repaired_Format repaired_Address 0 q c st
  obtain ⟨hs2, h2⟩ := run_Address_in H (E := E) find_bigIntToHex find_Format find_Address 0 q c st
  rcases hg : addressM H q c st.heap with ⟨s | e | pn, h⟩ <;> rw [hg] at h1 h2
  · exact iff_of_true ⟨_, _, _, .of h2 nofun, rfl⟩ ⟨_, _, _, .of h1 nofun, rfl⟩
  · constructor
    · rintro ⟨vs, st', g, h, hv⟩
      cases Ends.unique h (.of h2 nofun)
      cases hv
    · rintro ⟨vs, st', g, h, hv⟩
      cases Ends.unique h (.of h1 nofun)
      cases hv
  · constructor
    · rintro ⟨vs, st', g, h, hv⟩
      cases Ends.unique h (.of h2 nofun)
    · rintro ⟨vs, st', g, h, hv⟩
      cases Ends.unique h (.of h1 nofun)

theorem Spec.SpellsFirst.spells {wl ws : List GoString} {bits : List Bool} (h : SpellsFirst wl ws bits) : SpellsBits wl ws bits := by
  induction h with
  | nil => exact .nil
  | cons h1 h2 h3 _ ih => exact .cons h1 (by rw [h3, List.getElem?_eq_getElem (List.idxOf_lt_length_iff.2 h2), List.getElem_idxOf]) ih

include hE hV hC in
/-- The repository's `NewSeedFromMnemonic` succeeds exactly for the texts of words that spell bytes, the last of which is the first
byte of the hash of the others. -/
theorem seed_repo (hi : Intact st) {mn pa : GoString} {wl : Option (List GoString)} (hwl : IsWordlist (wl.getD [])) :
    Succeeds ((Request.newSeedFromMnemonic mn pa wl).Ends H E) st ↔ ∃ ws body ck, mn = phraseText ws ∧
      SpellsBits (wl.getD []) ws (bytesBits (body ++ [ck])) ∧ (H.sha256 body).take 1 = [ck] := by
  constructor
  · rintro ⟨vs, st', g, h1, h2⟩
    have hno : ∀ v e, vs ≠ [v, .err (some e)] := by
      rintro v e rfl
      cases v <;> simp [view] at h2
    obtain ⟨g, lines, e1, e2, -, rfl, ws, body, ck, h3, h4, h5, h6, h8, h7⟩ :=
      result_table H E V hE hV hC EC.G EC.G_coords st hi (.newSeedFromMnemonic mn pa wl) hwl.size.le vs st' h1 hno
    exact ⟨ws, body, ck, h5, h6.spells, h8⟩
  · rintro ⟨ws, body, ck, rfl, hsp, hck⟩
    have hlen := hsp.length
    rw [length_bytesBits, List.length_append, List.length_singleton] at hlen
    have hne : ws ≠ [] := by
      rintro rfl
      simp at hlen
    have hmem : ∀ w ∈ ws, w ∈ wl.getD [] := fun w hw => hsp.mem w hw
    rw [repo_table hE hV hC hi (.newSeedFromMnemonic (phraseText ws) pa wl) hwl.size.le]
    constructor
    · rintro ⟨ws', h3, h4, -, h5⟩
      obtain rfl := words_of_text hwl hne hmem h3 (by rintro rfl; exact h5 rfl) h4
      omega
    · rintro e ⟨ws', h3, h4, h5, h6⟩
      obtain rfl := words_of_text hwl hne hmem h4 h3 h5
      rcases h6 with ⟨-, w, h6, h7⟩ | ⟨-, -, h6⟩ | ⟨-, body', ck', h6, h7⟩
      · exact h7 (hmem w h6)
      · omega
      · obtain ⟨h1, h2⟩ := List.append_inj' (bytesBits_inj (h6.unique (hsp.first hwl.nodup))) rfl
        subst h1
        cases h2
        exact h7 hck

include hE hV hC in
/-- Both tables of differences. -/
theorem differences {ps qs : List Ptr} (hi : Intact st) (hs : Sound H st ps qs) (r : Request) (ht : Typed st ps qs r)
    (hd : Determined st r) (hwl : ∀ mn pa wl, r = .newSeedFromMnemonic mn pa wl → IsWordlist (wl.getD [])) :
    (Succeeds (r.Ends H E) st ∧ ¬ Succeeds (r.EndsFixed H E) st ↔ Overlooked H st r) ∧
    (¬ Succeeds (r.Ends H E) st ∧ Succeeds (r.EndsFixed H E) st ↔ Lost H st r) := by
  have hf := fixed_table (E := E) hE hV hC hs r ht hwl
  have hrep := repo_table (H := H) hE hV hC hi r hd
  have both : (Succeeds (r.Ends H E) st ↔ Succeeds (r.EndsFixed H E) st) →
      ¬ (Succeeds (r.Ends H E) st ∧ ¬ Succeeds (r.EndsFixed H E) st) ∧
      ¬ (¬ Succeeds (r.Ends H E) st ∧ Succeeds (r.EndsFixed H E) st) := by
    intro h
    rw [h]
    exact ⟨fun h => h.2 h.1, fun h => h.1 h.2⟩
  cases r with
  | checkWIF w =>
    rw [hf, hrep]
    refine ⟨iff_of_false (fun h => h.2 trivial) (fun h => h), ?_⟩
    constructor
    · rintro ⟨h, -⟩
      by_contra hc
      exact h ⟨hc, fun _ h => h⟩
    · exact fun h => ⟨fun h' => h'.1 h, trivial⟩
  | privateFromWIF w network =>
    have key : Succeeds ((Request.privateFromWIF w network).Ends H E) st ↔ ∃ v body, IsBase58Check H.sha256 (v :: body) w := by
      rw [hrep]
      constructor
      · rintro ⟨h1, h2⟩
        have h2 := h2 .wifInvalid
        by_contra h3
        have h4 : ¬ ∃ payload, IsBase58Check H.sha256 payload w := by
          rintro ⟨payload, h⟩
          cases payload with
          | nil => exact h1 (.inr h)
          | cons v body => exact h3 ⟨v, body, h⟩
        refine h2 ⟨rfl, ?_, h4⟩
        by_contra h5
        push Not at h5
        exact h1 (.inl ⟨h5.1, h5.2⟩)
      · rintro ⟨v, body, hc⟩
        constructor
        · rintro (⟨-, bs, h1, h2⟩ | h)
          · have := congrArg List.length (h2.bytes_unique hc)
            rw [List.length_append, length_checksum] at this
            omega
          · cases check_unique H h hc
        · rintro e ⟨-, -, h⟩
          exact h ⟨_, hc⟩
    rw [hf, key]
    refine ⟨Iff.rfl, iff_of_false ?_ (fun h => h)⟩
    rintro ⟨h1, net, pre, body, c, hn, hw⟩
    have hne : body ≠ [] := by
      rintro rfl
      exact absurd hw.2.2.1 (by decide)
    cases hp : pre ++ body ++ markOf c with
    | nil => simp [hne] at hp
    | cons v l => exact h1 ⟨v, l, hp ▸ hw.2.1⟩
  | privateFromHex hexa network =>
    have key : Succeeds ((Request.privateFromHex hexa network).Ends H E) st ↔ ∃ net, NetAt st network net ∧ EvenHex (net.PrivKeyPrefix ++ hexa) := by
      rw [hrep]
      constructor
      · rintro ⟨h1, h2⟩
        obtain ⟨net, hn⟩ := Option.ne_none_iff_exists'.1 (show loadNet st.heap network ≠ none from h1)
        refine ⟨net, hn, ?_⟩
        cases hx : hexDecode (net.PrivKeyPrefix ++ hexa) with
        | ok bs => exact (exists_spells_iff _).1 ⟨bs, hexDecode_eq_ok.1 hx⟩
        | err e => exact (h2 e ⟨net, hn, (hexDecode_err_iff _ _).1 hx⟩).elim
        | panic p => exact absurd hx (hexDecode_ne_panic _ _)
      · rintro ⟨net, hn, h⟩
        have hnet : loadNet st.heap network = some net := hn
        constructor
        · intro (h : loadNet st.heap network = none)
          rw [hnet] at h
          cases h
        · rintro e ⟨nw, h1, h2⟩
          rw [hnet] at h1
          cases h1
          obtain ⟨bs, hb⟩ := (exists_spells_iff _).2 h
          exact no_fault_of_spells hb e h2
    rw [hf, key]
    constructor
    · constructor
      · rintro ⟨⟨net, hn, h⟩, h'⟩
        exact ⟨net, hn, h, fun ⟨pre, body, hk⟩ => h' ⟨net, pre, body, hn, hk⟩⟩
      · rintro ⟨net, hn, h, h'⟩
        refine ⟨⟨net, hn, h⟩, ?_⟩
        rintro ⟨net', pre, body, hn', hk⟩
        cases hn.symm.trans hn'
        exact h' ⟨pre, body, hk⟩
    · refine iff_of_false ?_ (fun h => h)
      rintro ⟨h, net, pre, body, hn, hk⟩
      exact h ⟨net, hn, (exists_spells_iff _).1 ⟨_, hk.1.append hk.2.1⟩⟩
  | generatePrivateKey network =>
    have key : Succeeds ((Request.generatePrivateKey network).Ends H E) st ↔
        (∃ net pre, NetAt st network net ∧ Spells net.PrivKeyPrefix pre) ∧ SuppliesKey st.rd := by
      rw [hrep]
      constructor
      · rintro ⟨h, -⟩
        obtain ⟨net, hn, h1, h2⟩ := not_not.1 h
        obtain ⟨pre, hp⟩ := (exists_spells_iff _).2 h1
        exact ⟨⟨net, pre, hn, hp⟩, h2⟩
      · rintro ⟨⟨net, pre, hn, hp⟩, h⟩
        exact ⟨not_not.2 ⟨net, hn, (exists_spells_iff _).1 ⟨pre, hp⟩, h⟩, fun _ h => h⟩
    rw [hf, key]
    constructor
    · refine iff_of_false ?_ (fun h => h)
      rintro ⟨⟨h1, h2⟩, h⟩
      exact h ⟨h1, supplies_first h2⟩
    · constructor
      · rintro ⟨h, h1, h2⟩
        exact ⟨h1, h2, fun h3 => h ⟨h1, h3⟩⟩
      · rintro ⟨h1, h2, h3⟩
        exact ⟨fun h => h3 h.2, h1, h2⟩
  | addPrivateKeys p q =>
    obtain ⟨nw1, net1, t1, w1, pre1, b1, c1, k1, n1, s1⟩ := hs.privs p ht.1
    obtain ⟨nw2, net2, t2, w2, pre2, b2, c2, k2, n2, s2⟩ := hs.privs q ht.2
    obtain ⟨h1, h2⟩ := combine_lost (f := (· + ·)) k1 k2 n1 n2 s1 hrep
    rw [hf]
    exact ⟨iff_of_false h1 fun h => h, h2⟩
  | multiplyPrivateKeys p q =>
    obtain ⟨nw1, net1, t1, w1, pre1, b1, c1, k1, n1, s1⟩ := hs.privs p ht.1
    obtain ⟨nw2, net2, t2, w2, pre2, b2, c2, k2, n2, s2⟩ := hs.privs q ht.2
    obtain ⟨h1, h2⟩ := combine_lost (f := (· * ·)) k1 k2 n1 n2 s1 hrep
    rw [hf]
    exact ⟨iff_of_false h1 fun h => h, h2⟩
  | publicFromHex s network =>
    have key : Succeeds ((Request.publicFromHex s network).Ends H E) st ↔ (s.take 2 = asc "04" ∧ 130 ≤ s.length) ∨
        (s.take 2 ∈ [asc "02", asc "03"] ∧ 66 ≤ s.length ∧ ∃ y, OnCurve (hexNumber ((s.drop 2).take 64)) y) := by
      have ne : asc "04" ∉ [asc "02", asc "03"] := by decide +kernel
      have sub : ∀ t, t ∈ [asc "02", asc "03", asc "04"] ↔ t = asc "04" ∨ t ∈ [asc "02", asc "03"] := by
        intro t
        simp only [List.mem_cons, List.not_mem_nil, or_false]
        tauto
      rw [hrep]
      constructor
      · rintro ⟨h1, h2⟩
        have h1 : ¬ (s.length < 2 ∨ (s.take 2 ∈ [asc "02", asc "03"] ∧ s.length < 66) ∨ (s.take 2 = asc "04" ∧ s.length < 130)) := h1
        have h3 : s.take 2 ∈ [asc "02", asc "03", asc "04"] := by
          by_contra h
          exact h2 .unsupportedFormat (.inl ⟨rfl, by omega, h⟩)
        rcases (sub _).1 h3 with h3 | h3
        · exact .inl ⟨h3, by by_contra h; exact h1 (.inr (.inr ⟨h3, by omega⟩))⟩
        · have h66 : 66 ≤ s.length := by by_contra h; exact h1 (.inr (.inl ⟨h3, by omega⟩))
          refine .inr ⟨h3, h66, ?_⟩
          by_contra h
          exact h2 .notOnSecp256k1 (.inr ⟨rfl, h3, h66, fun y hy => h ⟨y, hy⟩⟩)
      · rintro (⟨h1, h2⟩ | ⟨h1, h2, y, hy⟩)
        · constructor
          · rintro (h | ⟨h, -⟩ | ⟨-, h⟩)
            · omega
            · exact ne (h1 ▸ h)
            · omega
          · rintro e (⟨-, -, h⟩ | ⟨-, h, -⟩)
            · exact h ((sub _).2 (.inl h1))
            · exact ne (h1 ▸ h)
        · constructor
          · rintro (h | ⟨-, h⟩ | ⟨h, -⟩)
            · omega
            · omega
            · exact ne (h ▸ h1)
          · rintro e (⟨-, -, h⟩ | ⟨-, -, -, h⟩)
            · exact h ((sub _).2 (.inr h1))
            · exact h y hy
    refine ⟨by rw [hf, key]; exact Iff.rfl, iff_of_false ?_ fun h => h⟩
    rw [hf]
    rintro ⟨h, hne, c, x, y, hp⟩
    rcases ht with rfl | ⟨net, hn⟩
    · exact hne rfl
    · obtain ⟨vs, st', h1, h2, -⟩ := same_pubHex (H := H) hE hV hC hi hn hp
      exact h ⟨vs, st', _, h1, h2⟩
  | getPublicKey p =>
    obtain ⟨nw, net, t, w, pre, b, c, k, hn, -⟩ := hs.privs p ht
    obtain ⟨h1, h2⟩ := both (by
      rw [hf, hrep]
      refine iff_of_true ⟨?_, fun _ h => h⟩ trivial
      intro (h : privAt st p = none)
      rw [k.priv hn] at h
      cases h)
    exact ⟨iff_of_false h1 fun h => h, iff_of_false h2 fun h => h⟩
  | format q c =>
    obtain ⟨h1, h2⟩ := both (format_both q c)
    exact ⟨iff_of_false h1 fun h => h, iff_of_false h2 fun h => h⟩
  | address q c =>
    obtain ⟨h1, h2⟩ := both (address_both q c)
    exact ⟨iff_of_false h1 fun h => h, iff_of_false h2 fun h => h⟩
  | addPublicKeys p q c =>
    obtain ⟨nw1, net1, x1, y1, k1, n1⟩ := hs.pubs p ht.1
    obtain ⟨nw2, net2, x2, y2, k2, n2⟩ := hs.pubs q ht.2
    have v1 := k1.pub n1
    have v2 := k2.pub n2
    obtain ⟨h1, h2⟩ := both (by
      rw [hf, hrep]
      constructor
      · rintro ⟨-, h⟩
        refine ⟨_, _, v1, v2, ?_, ?_⟩
        · by_contra hne
          exact h _ ⟨_, _, v1, v2, hne, rfl⟩
        · by_contra hx
          by_cases hne : (some net1 : Option Network) = some net2
          · obtain ⟨x1', y1', x2', y2', a1, -, a2, -, -, -, a3⟩ := hd _ _ v1 v2 hne
            have a1 : some (x1 : Int) = some (x1' : Int) := a1
            have a2 : some (x2 : Int) = some (x2' : Int) := a2
            have hx : some (x1 : Int) = some (x2 : Int) := hx
            rw [a1, a2] at hx
            exact a3 (by simpa using hx)
          · exact h _ ⟨_, _, v1, v2, hne, rfl⟩
      · rintro ⟨a, b, ha, hb, h1, -⟩
        constructor
        · rintro (h | h)
          · rw [v1] at h
            cases h
          · rw [v2] at h
            cases h
        · rintro e ⟨a', b', ha', hb', h, -⟩
          cases ha.symm.trans ha'
          cases hb.symm.trans hb'
          exact h h1)
    exact ⟨iff_of_false h1 fun h => h, iff_of_false h2 fun h => h⟩
  | newMnemonic words wl =>
    have key : Succeeds ((Request.newMnemonic words wl).Ends H E) st ↔ ∃ (c : Nat) (l : List GoString), 4 ≤ c ∧ c ≤ 8 ∧ words = 3 * c ∧
        wl = some l ∧ 4 * c ≤ st.rd.length ∧ ¬ PhraseCrash H.sha256 st.rd words l := by
      rw [hrep]
      constructor
      · rintro ⟨h1, h2⟩
        cases wl with
        | none => exact (h2 _ (.inl ⟨rfl, rfl⟩)).elim
        | some l =>
          by_cases hw : ∃ c : Nat, 4 ≤ c ∧ c ≤ 8 ∧ words = 3 * c
          · obtain ⟨c, c1, c2, c3⟩ := hw
            refine ⟨c, l, c1, c2, c3, rfl, ?_, fun h => h1 ⟨l, rfl, h⟩⟩
            by_contra hl
            exact h2 .randRead (.inr ⟨nofun, .inr ⟨c, c1, c2, c3, by omega, rfl⟩⟩)
          · exact (h2 _ (.inr ⟨nofun, .inl ⟨fun c c1 c2 c3 => hw ⟨c, c1, c2, c3⟩, rfl⟩⟩)).elim
      · rintro ⟨c, l, c1, c2, c3, rfl, c4, c5⟩
        constructor
        · rintro ⟨l', h, h'⟩
          cases h
          exact c5 h'
        · rintro e (⟨h, -⟩ | ⟨-, ⟨h, -⟩ | ⟨c', -, -, h1, h2, -⟩⟩)
          · cases h
          · exact h c c1 c2 c3
          · omega
    rw [hf, key]
    constructor
    · constructor
      · rintro ⟨⟨c, l, c1, c2, c3, rfl, c4, c5⟩, h⟩
        exact ⟨c, l, c1, c2, c3, rfl, fun hl => h ⟨c, c1, c2, c3, hl, c4⟩, c4, c5⟩
      · rintro ⟨c, l, c1, c2, c3, rfl, hl, c4, c5⟩
        refine ⟨⟨c, l, c1, c2, c3, rfl, c4, c5⟩, ?_⟩
        rintro ⟨-, -, -, -, h, -⟩
        exact hl h
    · constructor
      · rintro ⟨h, c, c1, c2, c3, hl, c4⟩
        refine ⟨c, c1, c2, c3, hl, c4, ?_⟩
        cases wl with
        | none => cases hl
        | some l =>
          have hc : PhraseCrash H.sha256 st.rd words l := by
            by_contra hc
            exact h ⟨c, l, c1, c2, c3, rfl, c4, hc⟩
          obtain ⟨c', -, -, h3, -, h | ⟨j, hj, h⟩⟩ := hc
          all_goals obtain rfl : c' = c := by omega
          · exact h
          · have : lookedUp H.sha256 (st.rd.take (4 * c')) c' j < 2 ^ 11 :=
              (bitsNumber_lt _).trans_le (Nat.pow_le_pow_right (by omega) (by rw [List.length_take]; omega))
            have hl : l.length = 2048 := hl
            omega
      · rintro ⟨c, c1, c2, c3, hl, c4, h⟩
        refine ⟨?_, c, c1, c2, c3, hl, c4⟩
        rintro ⟨c', l, -, -, -, -, -, h'⟩
        exact h' ⟨c, c1, c2, c3, c4, .inl h⟩
  | newSeedFromMnemonic mn pa wl =>
    have hw := hwl _ _ _ rfl
    rw [hf, seed_repo hE hV hC hi hw]
    have whole : ∀ {ws body ck}, SpellsBits (wl.getD []) ws (bytesBits (body ++ [ck])) → ws ≠ [] ∧ (∀ w ∈ ws, w ∈ wl.getD []) ∧
        11 * ws.length = 8 * (body.length + 1) := by
      intro ws body ck h
      have hlen := h.length
      rw [length_bytesBits, List.length_append, List.length_singleton] at hlen
      refine ⟨?_, fun w hw => h.mem w hw, by omega⟩
      rintro rfl
      simp at hlen
    have phrase : ∀ {ent ws}, IsBip39 H.sha256 (wl.getD []) ent ws → ws ≠ [] ∧ (∀ w ∈ ws, w ∈ wl.getD []) ∧
        (ws.length = 24 ∨ ws.length % 8 ≠ 0) := by
      intro ent ws h
      have := bip39_words h
      refine ⟨?_, fun w hw => h.2.mem w hw, by omega⟩
      rintro rfl
      simp only [List.length_nil] at this
      omega
    have same : ∀ {ws ws' : List GoString}, ws ≠ [] → (∀ w ∈ ws, w ∈ wl.getD []) → ws' ≠ [] → (∀ w ∈ ws', w ∈ wl.getD []) →
        phraseText ws' = phraseText ws → ws' = ws :=
      fun h1 h2 h3 h4 h => words_of_text hw h1 h2 (fun w hx => hw.noSpace w (h4 w hx)) h3 h
    have take8 : ∀ b : Bytes, (bytesBits (H.sha256 b)).take 8 = bytesBits ((H.sha256 b).take 1) := by
      intro b
      have hl := H.sha_len b
      match hh : H.sha256 b, hl with
      | x :: xs, _ => rfl
    have long : ∀ {ws body ck}, SpellsBits (wl.getD []) ws (bytesBits (body ++ [ck])) → (H.sha256 body).take 1 = [ck] → ws.length = 24 →
        IsBip39 H.sha256 (wl.getD []) body ws := by
      intro ws body ck h1 h2 h3
      have hb : body.length = 32 := by
        have := (whole h1).2.2
        omega
      refine ⟨by rw [hb]; decide, ?_⟩
      rwa [hb, take8, h2, ← bytesBits_append]
    constructor
    · constructor
      · rintro ⟨⟨ws, body, ck, rfl, h1, h2⟩, h⟩
        exact ⟨ws, body, ck, rfl, h1, h2, fun h3 => h ⟨body, ws, long h1 h2 h3, rfl⟩⟩
      · rintro ⟨ws, body, ck, rfl, h1, h2, h3⟩
        refine ⟨⟨ws, body, ck, rfl, h1, h2⟩, ?_⟩
        rintro ⟨ent, ws', h4, h5⟩
        obtain ⟨a1, a2, a3⟩ := whole h1
        obtain ⟨b1, b2, b3⟩ := phrase h4
        obtain rfl := same b1 b2 a1 a2 h5
        omega
    · constructor
      · rintro ⟨h, ent, ws, h1, rfl⟩
        refine ⟨ent, ws, h1, rfl, fun h3 => h ?_⟩
        have hb : ent.length = 32 := by
          have := bip39_words h1
          omega
        obtain ⟨ck, hck⟩ : ∃ ck, (H.sha256 ent).take 1 = [ck] := by
          have := H.sha_len ent
          rcases hs : H.sha256 ent with _ | ⟨c, l⟩
          · rw [hs] at this
            cases this
          · exact ⟨c, rfl⟩
        refine ⟨ws, ent, ck, rfl, ?_, hck⟩
        have := h1.2
        rwa [hb, take8, hck, ← bytesBits_append] at this
      · rintro ⟨ent, ws, h1, rfl, h3⟩
        refine ⟨?_, ent, ws, h1, rfl⟩
        rintro ⟨ws', body, ck, h4, h5, -⟩
        obtain ⟨a1, a2, a3⟩ := whole h5
        obtain ⟨b1, b2, b3⟩ := phrase h1
        obtain rfl := same a1 a2 b1 b2 h4
        omega

end

section
variable {H : Hashes} {E : EcdsaM} {V : Ecdsa} (hE : Pkg E) (hV : E.Refines V) (hC : EcdsaContract V) {nets : List Network} {st : State}
  {ps qs : List Ptr} (hr : FixedRun H E nets st ps qs)
include hE hV hC hr

/-- C134. Suppose a program has used the repaired text in any way. Its next call succeeds exactly if the table says so. -/
theorem C134_fixed_table (r : Request) (ht : Typed st ps qs r)
    (hwl : ∀ mn pa wl, r = .newSeedFromMnemonic mn pa wl → IsWordlist (wl.getD [])) :
    Succeeds (r.EndsFixed H E) st ↔ FixedAccepts H st r :=
  fixed_table hE hV hC (hr.sound hE hV hC) r ht hwl

/-- C134. The calls that succeed with the repository's text, and not with the repaired one, are these. -/
theorem C134_overlooked (r : Request) (ht : Typed st ps qs r) (hd : Determined st r)
    (hwl : ∀ mn pa wl, r = .newSeedFromMnemonic mn pa wl → IsWordlist (wl.getD [])) :
    Succeeds (r.Ends H E) st ∧ ¬ Succeeds (r.EndsFixed H E) st ↔ Overlooked H st r :=
  (differences hE hV hC (hr.intact hE hV hC) (hr.sound hE hV hC) r ht hd hwl).1

/-- C134. The calls that succeed with the repaired text, and not with the repository's, are these. -/
theorem C134_lost (r : Request) (ht : Typed st ps qs r) (hd : Determined st r)
    (hwl : ∀ mn pa wl, r = .newSeedFromMnemonic mn pa wl → IsWordlist (wl.getD [])) :
    ¬ Succeeds (r.Ends H E) st ∧ Succeeds (r.EndsFixed H E) st ↔ Lost H st r :=
  (differences hE hV hC (hr.intact hE hV hC) (hr.sound hE hV hC) r ht hd hwl).2

end

/-! ## Cases -/

open Samples

/-- C134: the empty text is overlooked: the repository's `PrivateFromHex` takes it for a key. -/
example (rd : Reader) : Succeeds ((Request.privateFromHex [] (some 0)).Ends realHashes pkg) (ready rd) ∧
    ¬ Succeeds ((Request.privateFromHex [] (some 0)).EndsFixed realHashes pkg) (ready rd) := by
  obtain ⟨h1, -, h3, -⟩ := C127_init realHashes pkg rd
  have r0 : FixedRun realHashes pkg [] (ready rd) [] [] := .start (nets := []) h1
  refine (C134_overlooked refPkg.1 refPkg.2.1 refPkg.2.2 r0 (.privateFromHex [] (some 0)) (.inr ⟨_, h3⟩) trivial nofun).2
    ⟨MainNetwork, h3, (exists_spells_iff _).1 ⟨[0x80], by rw [List.append_nil]; exact main_prefix⟩, ?_⟩
  rintro ⟨pre, body, ht⟩
  have h1 := ht.2.1.length
  have h2 := ht.2.2.1
  simp only [List.length_nil] at h1
  omega

/-- C134: the text "1" and the sum of the keys 1 and 2 are lost. -/
example (rd : Reader) : ∃ st a b, FixedRun realHashes pkg [] st [some a, some b] [] ∧
    (¬ Succeeds ((Request.checkWIF (asc "1")).Ends realHashes pkg) st ∧ Succeeds ((Request.checkWIF (asc "1")).EndsFixed realHashes pkg) st) ∧
    ¬ Succeeds ((Request.addPrivateKeys (some a) (some b)).Ends realHashes pkg) st ∧
    Succeeds ((Request.addPrivateKeys (some a) (some b)).EndsFixed realHashes pkg) st := by
  obtain ⟨st, a, b, h, hn, ⟨w1, k1⟩, w2, k2⟩ := fixed_case rd
  refine ⟨st, a, b, h, (C134_lost refPkg.1 refPkg.2.1 refPkg.2.2 h (.checkWIF (asc "1")) trivial trivial nofun).2 ⟨by decide +kernel, [0], by decide, ?_⟩,
    (C134_lost refPkg.1 refPkg.2.1 refPkg.2.2 h (.addPrivateKeys (some a) (some b)) ⟨by simp, by simp⟩ trivial nofun).2
      ⟨⟨_, _, _, _, k1.priv hn, k2.priv hn, rfl, rfl, rfl, ?_, ?_⟩, _, _, _, _, 3, asc "3", k1.priv hn, k2.priv hn, rfl, rfl, ?_, ?_, .inl ?_⟩⟩
  · exact (isBase58_iff_encode _ _).2 (by decide +kernel)
  · rintro rfl
    exact absurd (C127_same_wif realHashes k1 k2).1 (by decide)
  · decide +kernel
  · decide +kernel
  · exact isMinimalHex_fmtNat 3
  · decide +kernel

/-- C134: a BIP-39 phrase of twelve words is lost. -/
example (rd : Reader) :
    ¬ Succeeds ((Request.newSeedFromMnemonic (phraseText abandonAbout) [] (some EnglishWordlist)).Ends realHashes pkg) (ready rd) ∧
    Succeeds ((Request.newSeedFromMnemonic (phraseText abandonAbout) [] (some EnglishWordlist)).EndsFixed realHashes pkg) (ready rd) := by
  obtain ⟨h1, -⟩ := C127_init realHashes pkg rd
  have r0 : FixedRun realHashes pkg [] (ready rd) [] [] := .start (nets := []) h1
  refine (C134_lost refPkg.1 refPkg.2.1 refPkg.2.2 r0 (.newSeedFromMnemonic (phraseText abandonAbout) [] (some EnglishWordlist)) trivial
    english.size.le ?_).2 ⟨_, abandonAbout, abandonAbout_bip39, rfl, by decide +kernel⟩
  rintro _ _ _ ⟨⟩
  exact english

/-- C134: with the repaired text both keys have a public key, and their product is a key. -/
example (rd : Reader) : ∃ st a b, FixedRun realHashes pkg [] st [some a, some b] [] ∧
    Succeeds ((Request.getPublicKey (some a)).EndsFixed realHashes pkg) st ∧
    Succeeds ((Request.multiplyPrivateKeys (some a) (some b)).EndsFixed realHashes pkg) st ∧
    ¬ Succeeds ((Request.addPrivateKeys (some a) (some a)).EndsFixed realHashes pkg) st := by
  obtain ⟨st, a, b, h, hn, ⟨w1, k1⟩, w2, k2⟩ := fixed_case rd
  refine ⟨st, a, b, h, (C134_fixed_table refPkg.1 refPkg.2.1 refPkg.2.2 h (.getPublicKey (some a)) (by exact List.mem_cons_self) nofun).2 trivial,
    (C134_fixed_table refPkg.1 refPkg.2.1 refPkg.2.2 h (.multiplyPrivateKeys (some a) (some b)) ⟨by simp, by simp⟩ nofun).2
      ⟨_, _, _, _, k1.priv hn, k2.priv hn, rfl, rfl, rfl, ?_, ?_⟩, ?_⟩
  · rintro rfl
    exact absurd (C127_same_wif realHashes k1 k2).1 (by decide)
  · decide +kernel
  · rw [C134_fixed_table refPkg.1 refPkg.2.1 refPkg.2.2 h (.addPrivateKeys (some a) (some a)) ⟨by simp, by simp⟩ nofun]
    rintro ⟨x, y, _, _, h1, h2, -, -, -, h3, -⟩
    cases h1.symm.trans h2
    exact h3 rfl

end Btc
