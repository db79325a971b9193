import Verif.Props.RepairSuccess
import Verif.Props.Local

/-!
# C139: what the repaired text returns

A table says what a successful call of the repaired text (Verif/Source/Repair.lean) returns and which random bytes it leaves. With
the table of C134, which says which calls succeed, it describes the repaired functions on values.
-/

namespace Btc

open Mem Source Spec

namespace Spec

/-- Specification: `k` is the private key of the number that the 32 bytes `body` write, with the text `hexa`, of the network `net`,
and with the uncompressed standard WIF. -/
def KeyOf (sha : Bytes → Bytes) (net : Network) (hexa : GoString) (body : Bytes) (k : PrivateKey) : Prop :=
  ∃ pre, Spells net.PrivKeyPrefix pre ∧ body.length = 32 ∧ IsBase58Check sha (pre ++ body) k.WIF ∧
    k.Key = some (bigEndian body : Int) ∧ k.Hex = hexa ∧ k.Network = some net

/-- Specification: `k` is the key made of the keys at `p` and `q` by `f`, modulo the order of the curve. -/
def MadeOf (sha : Bytes → Bytes) (f : Int → Int → Int) (st : State) (p q : Ptr) (k : PrivateKey) : Prop :=
  ∃ (a b : PrivateKey) (x y : Int) (net : Network) (body : Bytes), privAt st p = some a ∧ privAt st q = some b ∧ a.Key = some x ∧
    b.Key = some y ∧ a.Network = some net ∧ (bigEndian body : Int) = f x y % (Spec.n : Int) ∧ KeyOf sha net (hexEncode body) body k

/-- Specification: the table. A successful call of the repaired text returns `g` and leaves the random bytes `rd`. Where nothing was
repaired that shows in the result, the line is that of C124. -/
def FixedResult (H : Hashes) (st : State) : Request → Answer → Reader → Prop
  | .privateFromWIF w network, g, rd => rd = st.rd ∧ ∃ net pre body c, NetAt st network net ∧ WifText H.sha256 net w pre body c ∧
      g = .priv ⟨some (bigEndian body : Int), hexEncode body, w, some net⟩
  | .privateFromHex h network, g, rd => rd = st.rd ∧ ∃ net body k, NetAt st network net ∧ Spells h body ∧ g = .priv k ∧
      KeyOf H.sha256 net h body k
  | .generatePrivateKey network, g, rd => ∃ net body k, NetAt st network net ∧ FirstKey st.rd body rd ∧ g = .priv k ∧
      KeyOf H.sha256 net (hexEncode body) body k
  | .addPrivateKeys p q, g, rd => rd = st.rd ∧ ∃ k, g = .priv k ∧ MadeOf H.sha256 (· + ·) st p q k
  | .multiplyPrivateKeys p q, g, rd => rd = st.rd ∧ ∃ k, g = .priv k ∧ MadeOf H.sha256 (· * ·) st p q k
  | .publicFromHex s network, g, rd => rd = st.rd ∧ ∃ net c x y, NetAt st network net ∧ PubText s c x y ∧
      g = .pub ⟨some (x : Int), some (y : Int), some net⟩
  | .newMnemonic words wl, g, rd => ∃ (c : Nat) (ws : List GoString), words = 3 * c ∧ rd = st.rd.drop (4 * c) ∧
      IsBip39 H.sha256 (wl.getD []) (st.rd.take (4 * c)) ws ∧ g = .str (phraseText ws)
  | .newSeedFromMnemonic _ _ _, g, rd => rd = st.rd ∧ g = .nothing
  | r, g, rd => Result H EC.G st r g rd []

end Spec

theorem Spec.KeyOf.unique {sha : Bytes → Bytes} {net : Network} {hexa : GoString} {body : Bytes} {k k' : PrivateKey}
    (h : KeyOf sha net hexa body k) (h' : KeyOf sha net hexa body k') : k = k' := by
  obtain ⟨pre, h1, -, h3, h4, h5, h6⟩ := h
  obtain ⟨pre', h1', -, h3', h4', h5', h6'⟩ := h'
  obtain rfl := h1.unique h1'
  cases k
  cases k'
  simp only at *
  rw [h4, h4', h5, h5', h6, h6', h3.text_unique h3']

theorem Spec.MadeOf.unique {sha : Bytes → Bytes} {f : Int → Int → Int} {st : State} {p q : Ptr} {k k' : PrivateKey}
    (h : MadeOf sha f st p q k) (h' : MadeOf sha f st p q k') : k = k' := by
  obtain ⟨a, b, x, y, net, body, h1, h2, h3, h4, h5, h6, h7⟩ := h
  obtain ⟨a', b', x', y', net', body', h1', h2', h3', h4', h5', h6', h7'⟩ := h'
  cases h1.symm.trans h1'
  cases h2.symm.trans h2'
  cases h3.symm.trans h3'
  cases h4.symm.trans h4'
  cases h5.symm.trans h5'
  have e : bigEndian body = bigEndian body' := Int.ofNat_inj.1 (h6.trans h6'.symm)
  have l1 : body.length = 32 := h7.choose_spec.2.1
  have l2 : body'.length = 32 := h7'.choose_spec.2.1
  obtain rfl : body = body' := hexEncode_inj (by rw [← hex64_body l1, e, hex64_body l2])
  exact h7.unique h7'

/-- C139: the table leaves no choice. -/
theorem C139_unique (H : Hashes) (st : State) (r : Request) (g g' : Spec.Answer) (rd rd' : Reader) (h : FixedResult H st r g rd)
    (h' : FixedResult H st r g' rd') : g = g' ∧ rd = rd' := by
  have table : ∀ {r : Request}, Result H EC.G st r g rd [] → Result H EC.G st r g' rd' [] → g = g' ∧ rd = rd' := fun h h' =>
    ⟨(C124_unique H EC.G st _ _ _ _ _ _ _ h h').1, (C124_unique H EC.G st _ _ _ _ _ _ _ h h').2.1⟩
  cases r with
  | privateFromWIF w network =>
    obtain ⟨rfl, net, pre, body, c, hn, hw, rfl⟩ := h
    obtain ⟨rfl, net', pre', body', c', hn', hw', rfl⟩ := h'
    cases hn.symm.trans hn'
    obtain rfl := hw'.1.unique hw.1
    have e := check_unique H hw'.2.1 hw.2.1
    rw [List.append_assoc, List.append_assoc] at e
    obtain ⟨rfl, -⟩ := List.append_inj (List.append_cancel_left e) (hw'.2.2.1.trans hw.2.2.1.symm)
    exact ⟨rfl, rfl⟩
  | privateFromHex h0 network =>
    obtain ⟨rfl, net, body, k, hn, hw, rfl, hk⟩ := h
    obtain ⟨rfl, net', body', k', hn', hw', rfl, hk'⟩ := h'
    cases hn.symm.trans hn'
    obtain rfl := hw.unique hw'
    exact ⟨congrArg _ (hk.unique hk'), rfl⟩
  | generatePrivateKey network =>
    obtain ⟨net, body, k, hn, hf, rfl, hk⟩ := h
    obtain ⟨net', body', k', hn', hf', rfl, hk'⟩ := h'
    cases hn.symm.trans hn'
    obtain ⟨rfl, rfl⟩ := hf.unique hf'
    exact ⟨congrArg _ (hk.unique hk'), rfl⟩
  | addPrivateKeys p q =>
    obtain ⟨rfl, k, rfl, hk⟩ := h
    obtain ⟨rfl, k', rfl, hk'⟩ := h'
    exact ⟨congrArg _ (hk.unique hk'), rfl⟩
  | multiplyPrivateKeys p q =>
    obtain ⟨rfl, k, rfl, hk⟩ := h
    obtain ⟨rfl, k', rfl, hk'⟩ := h'
    exact ⟨congrArg _ (hk.unique hk'), rfl⟩
  | publicFromHex s network =>
    obtain ⟨rfl, net, c, x, y, hn, hw, rfl⟩ := h
    obtain ⟨rfl, net', c', x', y', hn', hw', rfl⟩ := h'
    cases hn.symm.trans hn'
    obtain ⟨-, rfl, rfl⟩ := pubText_unique hw hw'
    exact ⟨rfl, rfl⟩
  | newMnemonic words wl =>
    obtain ⟨c, ws, h1, rfl, h2, rfl⟩ := h
    obtain ⟨c', ws', h1', rfl, h2', rfl⟩ := h'
    obtain rfl : c = c' := by omega
    obtain rfl := h2.2.words_unique h2'.2
    exact ⟨rfl, rfl⟩
  | newSeedFromMnemonic mn pa wl =>
    obtain ⟨rfl, rfl⟩ := h
    obtain ⟨rfl, rfl⟩ := h'
    exact ⟨rfl, rfl⟩
  | checkWIF w => exact table (r := .checkWIF w) h h'
  | getPublicKey p => exact table (r := .getPublicKey p) h h'
  | format p c => exact table (r := .format p c) h h'
  | address p c => exact table (r := .address p c) h h'
  | addPublicKeys p q c => exact table (r := .addPublicKeys p q c) h h'

section
variable {H : Hashes} {E : EcdsaM} {V : Ecdsa} (hE : Pkg E) (hV : E.Refines V) (hC : EcdsaContract V) {nets : List Network} {st : State}
  {ps qs : List Ptr} (hr : FixedRun H E nets st ps qs)
include hE hV hC hr

/-- C139: a call of the repaired text that succeeds returns what the table says. -/
theorem C139_result (r : Request) (ht : Typed st ps qs r) (vs : List Value) (st' : State) (g : Spec.Answer)
    (he : r.EndsFixed H E st (.ok vs st')) (hv : view st' vs = some g) : FixedResult H st r g st'.rd := by
  have hs := hr.sound hE hV hC
  have hi := hr.intact hE hV hC
  have key : ∀ {a : Nat} {network : Ptr} {net : Network} {hexa wif : GoString} {pre body : Bytes} {c : Bool} {rd : Reader},
      Kept { st with rd := rd } st' → KeyAt H.sha256 st' (some a) network hexa wif pre body c → NetAt st network net →
      privAt st' (some a) = some ⟨some (bigEndian body : Int), hexa, wif, some net⟩ :=
    fun hk ha hn => ha.priv (hn.kept hk)
  have pub : ∀ {a : Nat} {network : Ptr} {net : Network} {x y : Nat}, Kept st st' → PubAt st' (some a) network x y →
      NetAt st network net → pubAt st' (some a) = some ⟨some (x : Int), some (y : Int), some net⟩ :=
    fun hk ha hn => ha.pub (hn.kept (rd := st.rd) hk)
  have new : ∀ {a : Nat} {network : Ptr} {net : Network} {hexa wif : GoString} {pre body : Bytes},
      KeyAt H.sha256 st' (some a) network hexa wif pre body false → Spells net.PrivKeyPrefix pre →
      KeyOf H.sha256 net hexa body ⟨some (bigEndian body : Int), hexa, wif, some net⟩ := by
    intro a network net hexa wif pre body ha hp
    have hw := ha.wif
    rw [show markOf false = [] from rfl, List.append_nil] at hw
    exact ⟨pre, hp, ha.length, hw, rfl, rfl, rfl⟩
  have table : ∀ {r : Request} {log : Log}, Determined st r → Answers H E r st g st'.rd log →
      ∃ lines, Result H EC.G st r g st'.rd lines := by
    rintro r log hd ⟨vs1, st1, h1, h2, h3, -⟩
    obtain ⟨g', lines, e1, -, e2⟩ := result_table H E V hE hV hC EC.G EC.G_coords st hi r hd vs1 st1 h1 (by
      rintro v e rfl
      cases v <;> simp [view] at h2)
    cases h2.symm.trans e1
    rw [h3] at e2
    exact ⟨lines, e2⟩
  cases r with
  | checkWIF wif =>
    obtain ⟨b, st1, he', hk, hb⟩ := C127_check H E st wif
    cases Ends.unique he he'
    cases hv
    exact ⟨hk.rd, rfl, b, rfl, hb⟩
  | privateFromWIF wif network =>
    rcases ht with rfl | ⟨net, hn⟩
    · obtain ⟨o, he', st1, rfl, -⟩ := (C127_nil_network H E st wif).2
      cases Ends.unique he he'
      cases hv
    obtain ⟨o, he', ⟨pre, body, c, hw, st1, a, rfl, hk, -, ha⟩ | ⟨-, _, -, st1, rfl, -⟩⟩ := C127_import_wif H E st hs.order wif network net hn
    · cases Ends.unique he he'
      have hv : (privAt st' (some a)).map Spec.Answer.priv = some g := hv
      rw [key (rd := st.rd) hk ha hn] at hv
      cases hv
      exact ⟨hk.rd, net, pre, body, c, hn, hw, rfl⟩
    · cases Ends.unique he he'
      cases hv
  | privateFromHex hexa network =>
    rcases ht with rfl | ⟨net, hn⟩
    · obtain ⟨o, he', st1, rfl, -⟩ := (C127_nil_network H E st hexa).1
      cases Ends.unique he he'
      cases hv
    obtain ⟨o, he', ⟨pre, body, wif, hw, st1, a, rfl, hk, -, ha⟩ | ⟨-, _, -, st1, rfl, -⟩⟩ := C127_import_hex H E st hs.order hexa network net hn
    · cases Ends.unique he he'
      have hv : (privAt st' (some a)).map Spec.Answer.priv = some g := hv
      rw [key (rd := st.rd) hk ha hn] at hv
      cases hv
      exact ⟨hk.rd, net, body, _, hn, hw.2.1, rfl, new ha hw.1⟩
    · cases Ends.unique he he'
      cases hv
  | generatePrivateKey network =>
    rcases ht with rfl | ⟨net, hn⟩
    · cases Ends.unique he (C127_generate_no_network H E st none MainNetwork (.inl rfl))
      cases hv
    by_cases hp : ∃ pre, Spells net.PrivKeyPrefix pre
    case neg =>
      cases Ends.unique he (C127_generate_no_network H E st network net (.inr ⟨hn, hp⟩))
      cases hv
    obtain ⟨pre, hp⟩ := hp
    obtain ⟨o, he', ⟨body, rest, wif, st1, a, hf, rfl, hk, -, ha⟩ | ⟨hf, st1, rfl, hk⟩⟩ := C127_generate H E st hs.order network net hn pre hp
    · cases Ends.unique he he'
      have hv : (privAt st' (some a)).map Spec.Answer.priv = some g := hv
      rw [key hk ha hn] at hv
      cases hv
      have hrd : st'.rd = rest := hk.rd
      rw [hrd]
      exact ⟨net, body, _, hn, hf, rfl, new ha hp⟩
    · cases Ends.unique he he'
  | addPrivateKeys p q =>
    obtain ⟨nw1, net1, t1, w1, pre1, b1, c1, k1, n1, s1⟩ := hs.privs p ht.1
    obtain ⟨nw2, net2, t2, w2, pre2, b2, c2, k2, n2, s2⟩ := hs.privs q ht.2
    by_cases hne : net1 = net2
    case neg =>
      cases Ends.unique he (C127_other_networks H E k1 k2 n1 n2 hne).1
      cases hv
    subst hne
    obtain rfl := s1.unique s2
    obtain ⟨o, he', ⟨-, body, wif, hb, st1, a, rfl, hk, -, ha⟩ | ⟨-, st1, rfl, -⟩ | ⟨-, -, st1, rfl, -⟩⟩ := C127_add H E hs.order k1 k2 n1 n2 s1
    · cases Ends.unique he he'
      have hv : (privAt st' (some a)).map Spec.Answer.priv = some g := hv
      rw [key (rd := st.rd) hk ha n1] at hv
      cases hv
      exact ⟨hk.rd, _, rfl, _, _, _, _, net1, body, k1.priv n1, k2.priv n2, rfl, rfl, rfl, by rw [hb]; push_cast; rfl, new ha s1⟩
    · cases Ends.unique he he'
      cases hv
    · cases Ends.unique he he'
      cases hv
  | multiplyPrivateKeys p q =>
    obtain ⟨nw1, net1, t1, w1, pre1, b1, c1, k1, n1, s1⟩ := hs.privs p ht.1
    obtain ⟨nw2, net2, t2, w2, pre2, b2, c2, k2, n2, s2⟩ := hs.privs q ht.2
    by_cases hne : net1 = net2
    case neg =>
      cases Ends.unique he (C127_other_networks H E k1 k2 n1 n2 hne).2
      cases hv
    subst hne
    obtain rfl := s1.unique s2
    obtain ⟨o, he', ⟨-, body, wif, hb, st1, a, rfl, hk, -, ha⟩ | ⟨-, st1, rfl, -⟩⟩ := C127_multiply H E hs.order k1 k2 n1 n2 s1
    · cases Ends.unique he he'
      have hv : (privAt st' (some a)).map Spec.Answer.priv = some g := hv
      rw [key (rd := st.rd) hk ha n1] at hv
      cases hv
      exact ⟨hk.rd, _, rfl, _, _, _, _, net1, body, k1.priv n1, k2.priv n2, rfl, rfl, rfl, by rw [hb]; push_cast; rfl, new ha s1⟩
    · cases Ends.unique he he'
      cases hv
  | publicFromHex hexa network =>
    rcases ht with rfl | ⟨net, hn⟩
    · obtain ⟨o, he', st1, rfl, -⟩ := C129_nil_network H E hexa st
      cases Ends.unique he he'
      cases hv
    have hne : network ≠ none := by
      rintro rfl
      cases hn
    obtain ⟨o, he', ⟨c, x, y, hw, st1, a, rfl, hk, -, ha⟩ | ⟨-, e, ⟨st1, rfl, -⟩, -⟩⟩ := C129_import H hE hV hC st hs.curve hexa network hne
    · cases Ends.unique he he'
      have hv : (pubAt st' (some a)).map Spec.Answer.pub = some g := hv
      rw [pub hk ha hn] at hv
      cases hv
      exact ⟨hk.rd, net, c, x, y, hn, hw, rfl⟩
    · cases Ends.unique he he'
      cases hv
  | getPublicKey p =>
    obtain ⟨nw, net, t, w, pre, b, c, k, hn, -⟩ := hs.privs p ht
    obtain ⟨x, y, q, st1, he', hk, -, hxy, hq⟩ := C129_public_key H hE hV hC EC.G EC.G_coords st hs.curve k
    cases Ends.unique he he'
    have hv : (pubAt st' (some q)).map Spec.Answer.pub = some g := hv
    rw [pub hk hq hn] at hv
    cases hv
    exact ⟨hk.rd, rfl, _, bigEndian b, x, y, k.priv hn, rfl, hxy, rfl⟩
  | format q c =>
    obtain ⟨lines, h1, rfl, h2⟩ := table (r := .format q c) trivial (same_format he hv)
    exact ⟨h1, rfl, h2⟩
  | address q c =>
    obtain ⟨lines, h1, rfl, h2⟩ := table (r := .address q c) trivial (same_address he hv)
    exact ⟨h1, rfl, h2⟩
  | addPublicKeys p q c =>
    obtain ⟨nw1, net1, x1, y1, k1, n1⟩ := hs.pubs p ht.1
    obtain ⟨nw2, net2, x2, y2, k2, n2⟩ := hs.pubs q ht.2
    have href := C129_add_refused H (E := E) st k1 k2 n1 n2 c
    by_cases hne : net1 = net2
    case neg =>
      cases Ends.unique he (href.1 hne)
      cases hv
    by_cases hx : x1 = x2
    · cases Ends.unique he (href.2 hne hx)
      cases hv
    subst hne
    obtain ⟨P, hP⟩ := (EC.onCurve_iff _ _).1 k1.point
    obtain ⟨Q, hQ⟩ := (EC.onCurve_iff _ _).1 k2.point
    obtain ⟨o, x, y, he', hxy, st1, a, rfl, hk, -, ha⟩ := C129_add H hE hV hC st hs.curve k1 k2 n1 n2 hP hQ hx c
    cases Ends.unique he he'
    have hv : (pubAt st' (some a)).map Spec.Answer.pub = some g := hv
    rw [pub hk ha n1] at hv
    cases hv
    exact ⟨hk.rd, rfl, _, _, P, Q, x1, y1, x2, y2, x, y, k1.pub n1, k2.pub n2, rfl, rfl, rfl, rfl, hP, hQ, hxy, rfl⟩
  | newMnemonic words wl =>
    obtain ⟨o, he', ⟨c, ws, st1, c1, c2, hw, -, hl, hb, rfl, hk⟩ | ⟨-, st1, e, -, rfl, hk⟩⟩ := C128_generate H E words wl st
    · cases Ends.unique he he'
      cases hv
      exact ⟨c, ws, by omega, hk.rd, hb, rfl⟩
    · cases Ends.unique he he'
      cases hv
  | newSeedFromMnemonic mn pa wl =>
    obtain ⟨st1, e, he', hk, -⟩ := C128_accept H E mn pa wl st
    cases Ends.unique he he'
    refine ⟨hk.rd, ?_⟩
    cases e with
    | none => cases hv; rfl
    | some e => cases hv

/-- C139: the two tables say exactly what the calls that succeed do. -/
theorem C139_exact (r : Request) (ht : Typed st ps qs r)
    (hwl : ∀ mn pa wl, r = .newSeedFromMnemonic mn pa wl → IsWordlist (wl.getD [])) (g : Spec.Answer) (rd : Reader) :
    (∃ vs st', r.EndsFixed H E st (.ok vs st') ∧ view st' vs = some g ∧ st'.rd = rd) ↔ FixedAccepts H st r ∧ FixedResult H st r g rd := by
  rw [← C134_fixed_table hE hV hC hr r ht hwl]
  constructor
  · rintro ⟨vs, st', h1, h2, rfl⟩
    exact ⟨⟨vs, st', g, h1, h2⟩, C139_result hE hV hC hr r ht vs st' g h1 h2⟩
  · rintro ⟨⟨vs, st', g', h1, h2⟩, h3⟩
    obtain ⟨rfl, rfl⟩ := C139_unique H st r _ _ _ _ h3 (C139_result hE hV hC hr r ht vs st' g' h1 h2)
    exact ⟨vs, st', h1, h2, rfl⟩

end

/-- Two calls that ask the same have the same line in both tables. -/
theorem fixed_lines {H : Hashes} {st st' : State} {r r' : Request} (hq : question st r = question st' r') (hrd : Draws r → st.rd = st'.rd)
    {g : Spec.Answer} {rd : Reader} (ha : FixedAccepts H st r) (hf : FixedResult H st r g rd) :
    ∃ rd', FixedAccepts H st' r' ∧ FixedResult H st' r' g rd' ∧ (Draws r → rd' = rd) := by
  have one : ∀ {network network' : Ptr} {net : Network}, loadNet st.heap network = loadNet st'.heap network' → NetAt st network net →
      NetAt st' network' net := fun e h => e.symm.trans h
  have made : ∀ {f : Int → Int → Int} {p q p' q' : Ptr} {k : PrivateKey}, privAt st p = privAt st' p' → privAt st q = privAt st' q' →
      Combines f st p q → MadeOf H.sha256 f st p q k → Combines f st' p' q' ∧ MadeOf H.sha256 f st' p' q' k := by
    intro f p q p' q' k e1 e2 h1 h2
    unfold Combines MadeOf at *
    rw [e1, e2] at h1 h2
    exact ⟨h1, h2⟩
  cases r with
  | checkWIF w =>
    cases r' with
    | checkWIF w' =>
      cases hq
      obtain ⟨-, h⟩ := hf
      exact ⟨st'.rd, trivial, ⟨rfl, h⟩, False.elim⟩
    | _ => cases hq
  | privateFromWIF w network =>
    cases r' with
    | privateFromWIF w' network' =>
      obtain ⟨rfl, e⟩ := Question.privateFromWIF.inj hq
      obtain ⟨-, net, pre, body, c, hn, hw, rfl⟩ := hf
      exact ⟨st'.rd, ⟨net, pre, body, c, one e hn, hw⟩, ⟨rfl, net, pre, body, c, one e hn, hw, rfl⟩, False.elim⟩
    | _ => cases hq
  | privateFromHex h network =>
    cases r' with
    | privateFromHex h' network' =>
      obtain ⟨rfl, e⟩ := Question.privateFromHex.inj hq
      obtain ⟨net0, pre, body0, hn0, ht⟩ := ha
      obtain ⟨-, net, body, k, hn, hw, rfl, hk⟩ := hf
      exact ⟨st'.rd, ⟨net0, pre, body0, one e hn0, ht⟩, ⟨rfl, net, body, k, one e hn, hw, rfl, hk⟩, False.elim⟩
    | _ => cases hq
  | generatePrivateKey network =>
    cases r' with
    | generatePrivateKey network' =>
      have e := Question.generatePrivateKey.inj hq
      obtain ⟨⟨net0, pre, hn0, ht⟩, h0⟩ := ha
      obtain ⟨net, body, k, hn, hw, rfl, hk⟩ := hf
      rw [hrd trivial] at h0 hw
      exact ⟨rd, ⟨⟨net0, pre, one e hn0, ht⟩, h0⟩, ⟨net, body, k, one e hn, hw, rfl, hk⟩, fun _ => rfl⟩
    | _ => cases hq
  | addPrivateKeys p q =>
    cases r' with
    | addPrivateKeys p' q' =>
      obtain ⟨e1, e2⟩ := Question.addPrivateKeys.inj hq
      obtain ⟨-, k, rfl, hk⟩ := hf
      exact ⟨st'.rd, (made e1 e2 ha hk).1, ⟨rfl, k, rfl, (made e1 e2 ha hk).2⟩, False.elim⟩
    | _ => cases hq
  | multiplyPrivateKeys p q =>
    cases r' with
    | multiplyPrivateKeys p' q' =>
      obtain ⟨e1, e2⟩ := Question.multiplyPrivateKeys.inj hq
      obtain ⟨-, k, rfl, hk⟩ := hf
      exact ⟨st'.rd, (made e1 e2 ha hk).1, ⟨rfl, k, rfl, (made e1 e2 ha hk).2⟩, False.elim⟩
    | _ => cases hq
  | publicFromHex s network =>
    cases r' with
    | publicFromHex s' network' =>
      obtain ⟨rfl, e⟩ := Question.publicFromHex.inj hq
      obtain ⟨-, net, c, x, y, hn, hw, rfl⟩ := hf
      have hn' := one e hn
      refine ⟨st'.rd, ⟨?_, c, x, y, hw⟩, ⟨rfl, net, c, x, y, hn', hw, rfl⟩, False.elim⟩
      rintro rfl
      cases hn'
    | _ => cases hq
  | getPublicKey p =>
    cases r' with
    | getPublicKey p' =>
      have e := Question.getPublicKey.inj hq
      obtain ⟨-, h, k, v, x, y, hp, hk⟩ := hf
      exact ⟨st'.rd, trivial, ⟨rfl, h, k, v, x, y, e.symm.trans hp, hk⟩, False.elim⟩
    | _ => cases hq
  | format p c =>
    cases r' with
    | format p' c' =>
      obtain ⟨e, rfl⟩ := Question.format.inj hq
      obtain ⟨-, h, k, s, hp, hk⟩ := hf
      exact ⟨st'.rd, trivial, ⟨rfl, h, k, s, e.symm.trans hp, hk⟩, False.elim⟩
    | _ => cases hq
  | address p c =>
    cases r' with
    | address p' c' =>
      obtain ⟨e, rfl⟩ := Question.address.inj hq
      obtain ⟨k0, net, pre, hp0, hk0⟩ := ha
      obtain ⟨-, h, k, s, ser, nw, pr, a, hp, hk⟩ := hf
      exact ⟨st'.rd, ⟨k0, net, pre, e.symm.trans hp0, hk0⟩, ⟨rfl, h, k, s, ser, nw, pr, a, e.symm.trans hp, hk⟩, False.elim⟩
    | _ => cases hq
  | addPublicKeys p q c =>
    cases r' with
    | addPublicKeys p' q' c' =>
      obtain ⟨e1, e2, rfl⟩ := Question.addPublicKeys.inj hq
      obtain ⟨a, b, h1, h2, h3⟩ := ha
      obtain ⟨-, h, a', b', P, Q, x1, y1, x2, y2, x, y, h1', h2', hk⟩ := hf
      exact ⟨st'.rd, ⟨a, b, e1.symm.trans h1, e2.symm.trans h2, h3⟩,
        ⟨rfl, h, a', b', P, Q, x1, y1, x2, y2, x, y, e1.symm.trans h1', e2.symm.trans h2', hk⟩, False.elim⟩
    | _ => cases hq
  | newMnemonic words wl =>
    cases r' with
    | newMnemonic words' wl' =>
      cases hq
      unfold FixedAccepts at ha
      unfold FixedResult at hf
      rw [hrd trivial] at ha hf
      exact ⟨rd, ha, hf, fun _ => rfl⟩
    | _ => cases hq
  | newSeedFromMnemonic mn pa wl =>
    cases r' with
    | newSeedFromMnemonic mn' pa' wl' =>
      cases hq
      exact ⟨st'.rd, ha, ⟨rfl, hf.2⟩, False.elim⟩
    | _ => cases hq

/-- C139: calls of the repaired text that ask the same give the same answer. The two calls may belong to two runs, with two lists of
networks and two versions of the curve package; where the call draws, it also leaves the same random bytes. -/
theorem C139_same {H : Hashes} {E E' : EcdsaM} {V V' : Ecdsa} (hE : Pkg E) (hV : E.Refines V) (hC : EcdsaContract V) (hE' : Pkg E')
    (hV' : E'.Refines V') (hC' : EcdsaContract V') {nets nets' : List Network} {st st' : State} {ps qs ps' qs' : List Ptr}
    (hr : FixedRun H E nets st ps qs) (hr' : FixedRun H E' nets' st' ps' qs') (r r' : Request) (ht : Typed st ps qs r)
    (ht' : Typed st' ps' qs' r') (hwl : ∀ mn pa wl, r = .newSeedFromMnemonic mn pa wl → IsWordlist (wl.getD []))
    (hq : question st r = question st' r') (hrd : Draws r → st.rd = st'.rd) (vs : List Value) (s : State) (g : Spec.Answer)
    (he : r.EndsFixed H E st (.ok vs s)) (hv : view s vs = some g) :
    ∃ vs' s', r'.EndsFixed H E' st' (.ok vs' s') ∧ view s' vs' = some g ∧ (Draws r → s'.rd = s.rd) := by
  obtain ⟨ha, hf⟩ := (C139_exact hE hV hC hr r ht hwl g s.rd).1 ⟨vs, s, he, hv, rfl⟩
  obtain ⟨rd', ha', hf', hd⟩ := fixed_lines hq hrd ha hf
  obtain ⟨vs', s', h1, h2, rfl⟩ := (C139_exact hE' hV' hC' hr' r' ht' (by
    rintro mn pa wl rfl
    cases r with
    | newSeedFromMnemonic mn' pa' wl' =>
      cases hq
      exact hwl _ _ _ rfl
    | _ => cases hq) g rd').2 ⟨ha', hf'⟩
  exact ⟨vs', s', h1, h2, hd⟩

/-! ## Cases -/

open Samples

/-- C139: the product of the keys 1 and 2 is the key 2, written with 64 digits. -/
example (rd : Reader) : ∃ st a b, FixedRun realHashes pkg [] st [some a, some b] [] ∧
    ∃ vs s k, (Request.multiplyPrivateKeys (some a) (some b)).EndsFixed realHashes pkg st (.ok vs s) ∧ view s vs = some (.priv k) ∧
      k.Key = some 2 ∧ k.Hex = hexEncode (smallBody 2) ∧ s.rd = st.rd := by
  obtain ⟨st, a, b, h, hn, ⟨w1, k1⟩, w2, k2⟩ := fixed_case rd
  obtain ⟨vs, s, g, he, hv⟩ :=
    (C134_fixed_table refPkg.1 refPkg.2.1 refPkg.2.2 h (.multiplyPrivateKeys (some a) (some b)) ⟨by simp, by simp⟩ nofun).2
      ⟨_, _, _, _, k1.priv hn, k2.priv hn, rfl, rfl, rfl, by
        rintro rfl
        exact absurd (C127_same_wif realHashes k1 k2).1 (by decide), by decide +kernel⟩
  obtain ⟨hrd, k, rfl, hk⟩ := C139_result refPkg.1 refPkg.2.1 refPkg.2.2 h (.multiplyPrivateKeys (some a) (some b)) ⟨by simp, by simp⟩ vs s g he hv
  refine ⟨st, a, b, h, vs, s, k, he, hv, ?_⟩
  obtain ⟨x, y, m, n, net, body, h1, h2, h3, h4, -, h5, pre, -, hl, -, h6, h7, -⟩ := hk
  cases h1.symm.trans (k1.priv hn)
  cases h2.symm.trans (k2.priv hn)
  cases h3
  cases h4
  have e : bigEndian body = bigEndian (smallBody 2) := by
    have : (bigEndian body : Int) = (bigEndian (smallBody 2) : Int) := h5.trans (by decide +kernel)
    exact_mod_cast this
  have e' : hexEncode body = hexEncode (smallBody 2) := by rw [← hex64_body hl, e, hex64_body k2.length]
  exact ⟨by rw [h6, e]; decide +kernel, by rw [h7, e'], hrd⟩

/-- C139: the same text imported twice in one run, before and after another key, gives the same key. -/
example (rd : Reader) : ∃ st a b, FixedRun realHashes pkg [] st [some a, some b] [] ∧
    ∃ vs s vs' s' g, (Request.privateFromHex (hexEncode (smallBody 1)) (some 0)).EndsFixed realHashes pkg (ready rd) (.ok vs s) ∧
      view s vs = some g ∧ (Request.privateFromHex (hexEncode (smallBody 1)) (some 0)).EndsFixed realHashes pkg st (.ok vs' s') ∧
      view s' vs' = some g := by
  obtain ⟨st, a, b, h, hn, -⟩ := fixed_case rd
  obtain ⟨h1, -, h3, -⟩ := C127_init realHashes pkg rd
  have r0 : FixedRun realHashes pkg [] (ready rd) [] [] := .start (nets := []) h1
  have t1 : KeyText MainNetwork (hexEncode (smallBody 1)) [0x80] (smallBody 1) := ⟨main_prefix, spells_hexEncode _, by decide +kernel⟩
  obtain ⟨vs, s, g, he, hv⟩ := (C134_fixed_table refPkg.1 refPkg.2.1 refPkg.2.2 r0 (.privateFromHex (hexEncode (smallBody 1)) (some 0))
    (.inr ⟨_, h3⟩) nofun).2 ⟨_, _, _, h3, t1⟩
  obtain ⟨vs', s', he', hv', -⟩ := C139_same refPkg.1 refPkg.2.1 refPkg.2.2 refPkg.1 refPkg.2.1 refPkg.2.2 r0 h
    (.privateFromHex (hexEncode (smallBody 1)) (some 0)) (.privateFromHex (hexEncode (smallBody 1)) (some 0)) (.inr ⟨_, h3⟩) (.inr ⟨_, hn⟩) nofun
    (congrArg (Question.privateFromHex _) (h3.trans hn.symm)) False.elim vs s g he hv
  exact ⟨st, a, b, h, vs, s, vs', s', g, he, hv, he', hv'⟩

end Btc
