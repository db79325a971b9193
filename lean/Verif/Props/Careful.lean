import Verif.Props.Crash

/-!
# C113: programs that check their inputs, on the text

A program that holds only keys returned by the package and checks what the package does not check. No call crashes; all
private keys it holds are valid and consistent, and all public keys are points of the curve.
-/

namespace Btc

open Mem Source Spec

namespace Spec

/-- Specification: a private key in order. Its number is between 1 and n - 1, its text spells the number, and its WIF is
the Base58Check text of some prefix and the bytes of the text. -/
def ValidPriv (sha : Bytes → Bytes) (k : PrivateKey) : Prop :=
  ∃ (nw : Network) (pre body : Bytes), k.Network = some nw ∧ 1 ≤ bigEndian body ∧ bigEndian body < Spec.n ∧
    k.Key = some (bigEndian body : Int) ∧ Spells k.Hex body ∧ IsBase58Check sha (pre ++ body) k.WIF

/-- Specification: a public key in order: a point of the curve. -/
def ValidPub (k : PublicKey) : Prop :=
  ∃ (nw : Network) (x y : Nat), k.Network = some nw ∧ OnCurve x y ∧ k.X = some (x : Int) ∧ k.Y = some (y : Int)

/-- Specification: what a careful program checks before a call. `ps` and `qs` are the private and public keys it holds. -/
def Careful (sha : Bytes → Bytes) (st : State) (ps qs : List Ptr) : Request → Prop
  | .checkWIF w => 6 ≤ w.length
  | .privateFromWIF w net => 7 ≤ w.length ∧ (∃ nw, loadNet st.heap net = some nw) ∧
      ∀ v body, IsBase58Check sha (v :: body) w → 1 ≤ bigEndian body ∧ bigEndian body < Spec.n
  | .privateFromHex h net => (∃ nw, loadNet st.heap net = some nw) ∧
      ∀ body, Spells h body → 1 ≤ bigEndian body ∧ bigEndian body < Spec.n
  | .generatePrivateKey net => (∃ nw, loadNet st.heap net = some nw) ∧ SuppliesKey st.rd
  | .addPrivateKeys p q => p ∈ ps ∧ q ∈ ps
  | .multiplyPrivateKeys p q => p ∈ ps ∧ q ∈ ps
  | .publicFromHex s net => (∃ nw, loadNet st.heap net = some nw) ∧ 2 ≤ s.length ∧
      (s.take 2 ∈ [asc "02", asc "03"] → 66 ≤ s.length ∧ (∀ c ∈ (s.drop 2).take 64, IsHexDigit c) ∧
        hexNumber ((s.drop 2).take 64) < Spec.p) ∧
      (s.take 2 = asc "04" → 130 ≤ s.length ∧ (∀ c ∈ (s.drop 2).take 128, IsHexDigit c) ∧
        OnCurve (hexNumber ((s.drop 2).take 64)) (hexNumber ((s.drop 66).take 64)))
  | .getPublicKey p => p ∈ ps
  | .format p _ => p ∈ qs
  | .address p _ => p ∈ qs
  | .addPublicKeys p q _ => p ∈ qs ∧ q ∈ qs ∧ ∀ a b, pubAt st p = some a → pubAt st q = some b → a.X ≠ b.X
  | .newMnemonic words wl => ∀ l, wl = some l → 2048 ≤ l.length ∧
      ∀ c : Nat, 4 ≤ c → c ≤ 8 → words = 3 * c → 4 * c ≤ st.rd.length →
        2 ^ (c - 1) ≤ bigEndian (sha ((st.rd.take (4 * c)).dropWhile (· == 0)))
  | .newSeedFromMnemonic mn _ wl => (wl.getD []).length ≤ 2048 ∧
      ∀ ws, (∀ w ∈ ws, (32 : UInt8) ∉ w) → phraseText ws = mn → ws.length % 4 = 0 ∨ ∃ w ∈ ws, w ∉ wl.getD []

/-- Specification: the private keys among returned values. -/
def returnedPrivs : List Value → List Ptr
  | .priv (some a) :: vs => some a :: returnedPrivs vs
  | _ :: vs => returnedPrivs vs
  | [] => []

/-- Specification: the public keys among returned values. -/
def returnedPubs : List Value → List Ptr
  | .pub (some a) :: vs => some a :: returnedPubs vs
  | _ :: vs => returnedPubs vs
  | [] => []

end Spec

/-- The states a careful program reaches, with the private and public keys it holds. -/
inductive CarefulRun (H : Hashes) (E : EcdsaM) (nets : List Network) : State → List Ptr → List Ptr → Prop
  | start {rd : Reader} {st : State} : Ends H E program 0 (id! "init") [] (before program rd) (.ok [] st) →
      CarefulRun H E nets { st with heap := { st.heap with nets := st.heap.nets ++ nets } } [] []
  | call {st st' : State} {ps qs : List Ptr} {vs : List Value} (r : Request) : CarefulRun H E nets st ps qs →
      Careful H.sha256 st ps qs r → r.Ends H E st (.ok vs st') →
      CarefulRun H E nets st' (ps ++ returnedPrivs vs) (qs ++ returnedPubs vs)

/-! ## Short texts -/

theorem length_base58 {bs : Bytes} {w : GoString} (h : IsBase58 bs w) (hl : bs.length ≤ 4) :
    w.length ≤ bs.length + 2 := by
  rw [h.text_eq, base58Encode]
  have hc := congrArg List.length (canon (b := 256) (by omega) (map_toNat_lt bs))
  change (List.replicate (leadingZeros (bs.map UInt8.toNat)) 0 ++ toBE 256 (bytesToNat bs)).length = _ at hc
  rw [List.length_append, List.length_replicate, List.length_map] at hc
  have hn := (length_toBE_le_iff (b := 256) (by omega) (bytesToNat bs)).1 (le_refl _)
  have hk : (toBE 58 (bytesToNat bs)).length ≤ (toBE 256 (bytesToNat bs)).length + 2 := by
    rw [length_toBE_le_iff (by omega)]
    refine lt_of_lt_of_le hn ?_
    generalize (toBE 256 (bytesToNat bs)).length = t at hc
    have ht : t ≤ 4 := by omega
    interval_cases t <;> norm_num
  rw [List.length_map, List.length_append, List.length_replicate]
  omega

/-! ## Values -/

theorem validPriv_of_hex {H : Hashes} {nw : Network} (hp : EvenHex nw.PrivKeyPrefix) {h : GoString} {k : PrivateKey}
    (hk : privateFromHex H h (some nw) = .ok k) (hv : ∀ body, Spells h body → 1 ≤ bigEndian body ∧ bigEndian body < Spec.n) :
    ValidPriv H.sha256 k := by
  obtain ⟨pre, hpre⟩ := (exists_spells_iff _).2 hp
  obtain ⟨body, h1, h2, h3⟩ := C01_wif_bytes H h nw k pre hpre hk
  obtain ⟨-, e1, e2, -⟩ := C01_wif_is_base58check H h nw k hk
  have hb := hv body h1
  have hne : h ≠ [] := by
    rintro rfl
    cases h1
    exact absurd hb.1 (by decide)
  exact ⟨nw, pre, body, e2, hb.1, hb.2, h3 hne, by rw [e1]; exact h1, h2⟩

theorem validPriv_of_number {H : Hashes} {nw : Network} (hp : EvenHex nw.PrivKeyPrefix) {h : GoString} {k : PrivateKey}
    (hk : privateFromHex H h (some nw) = .ok k) {z : Int} (hz : k.Key = some z) (h1 : 1 ≤ z) (h2 : z < Spec.n) :
    ValidPriv H.sha256 k := by
  obtain ⟨pre, hpre⟩ := (exists_spells_iff _).2 hp
  obtain ⟨body, b1, -, b3⟩ := C01_wif_bytes H h nw k pre hpre hk
  refine validPriv_of_hex hp hk fun body' b' => ?_
  obtain rfl := b1.unique b'
  by_cases hne : h = []
  · subst hne
    obtain ⟨-, -, -, e⟩ := C01_wif_is_base58check H [] nw k hk
    rw [if_pos rfl, hz] at e
    cases e
  · have e := b3 hne
    rw [hz] at e
    cases e
    omega

theorem combined_hex {H : Hashes} {a b k : PrivateKey} (h : addPrivateKeys H a b = .ok k ∨ multiplyPrivateKeys H a b = .ok k) :
    ∃ t, privateFromHex H t a.Network = .ok k := by
  rcases h with h | h
  · unfold addPrivateKeys at h
    split at h
    · cases h
    split at h
    · cases h
    simp only [Res.bind_eq_ok] at h
    obtain ⟨_, _, _, _, _, _, h⟩ := h
    exact ⟨_, h⟩
  · unfold multiplyPrivateKeys at h
    split at h
    · cases h
    split at h
    · cases h
    simp only [Res.bind_eq_ok] at h
    obtain ⟨_, _, _, _, _, _, h⟩ := h
    exact ⟨_, h⟩

theorem validPriv_combined {H : Hashes} {a b k : PrivateKey} {nw : Network} (hn : a.Network = some nw) (hp : EvenHex nw.PrivKeyPrefix)
    (h : addPrivateKeys H a b = .ok k ∨ multiplyPrivateKeys H a b = .ok k) : ValidPriv H.sha256 k := by
  obtain ⟨pre, hpre⟩ := (exists_spells_iff _).2 hp
  obtain ⟨z, z1, z2, z3⟩ := C21_never_zero H a b k nw pre hpre hn h
  obtain ⟨t, ht⟩ := combined_hex h
  rw [hn] at ht
  exact validPriv_of_number hp ht z1 z2 (by omega)

theorem validPriv_of_wif {H : Hashes} {nw : Network} {w : GoString} {k : PrivateKey} (hk : privateFromWIF H w (some nw) = .ok k)
    (hv : ∀ v body, IsBase58Check H.sha256 (v :: body) w → 1 ≤ bigEndian body ∧ bigEndian body < Spec.n) :
    ValidPriv H.sha256 k := by
  obtain ⟨v, body, hd, rfl⟩ := (privateFromWIF_eq_ok H).1 hk
  have hw : IsBase58Check H.sha256 (v :: body) w := (base58Decode_eq_ok.1 hd).2
  have hb := hv v body hw
  have hs := spells_hexEncode body
  have hne : hexEncode body ≠ [] := by
    intro e
    rw [e] at hs
    cases hs
    exact absurd hb.1 (by decide)
  refine ⟨nw, [v], body, rfl, hb.1, hb.2, ?_, hs, hw⟩
  show bigSetString (hexEncode body) 16 = _
  rw [bigSetString_hex ((exists_spells_iff _).1 ⟨body, hs⟩).1, if_neg hne, hexNumber_of_spells hs]

theorem validPub_of_hex {V : Ecdsa} (hC : EcdsaContract V) {s : GoString} {nw : Network} {k : PublicKey}
    (hk : publicFromHex V s (some nw) = .ok k) (h2 : 2 ≤ s.length)
    (hc : s.take 2 ∈ [asc "02", asc "03"] → 66 ≤ s.length ∧ (∀ c ∈ (s.drop 2).take 64, IsHexDigit c) ∧
      hexNumber ((s.drop 2).take 64) < Spec.p)
    (hu : s.take 2 = asc "04" → 130 ≤ s.length ∧ (∀ c ∈ (s.drop 2).take 128, IsHexDigit c) ∧
      OnCurve (hexNumber ((s.drop 2).take 64)) (hexNumber ((s.drop 66).take 64))) : ValidPub k := by
  obtain ⟨k1, k2, k3, k4⟩ := C32_outcomes_partial V s (some nw)
  by_cases h4 : s.take 2 = asc "04"
  · obtain ⟨hl, hh, ho⟩ := hu h4
    have e1 : (s.drop 2).take 128 = (s.drop 2).take 64 ++ (s.drop 66).take 64 := by
      rw [show 128 = 64 + 64 by omega, List.take_add, List.drop_drop]
    have es : s = asc "04" ++ (s.drop 2).take 64 ++ (s.drop 66).take 64 ++ s.drop 130 := by
      rw [List.append_assoc (asc "04"), ← e1, ← h4, ← List.take_add, List.take_append_drop]
    rw [e1] at hh
    have := (C31_uncompressed_unchecked_partial V ((s.drop 2).take 64) ((s.drop 66).take 64) (s.drop 130) (some nw)
      (by simp; omega) (by simp; omega)).1 (fun c hc => hh c (List.mem_append_left _ hc)) (fun c hc => hh c (List.mem_append_right _ hc))
    rw [← es, hk] at this
    cases this
    exact ⟨nw, _, _, rfl, ho, rfl, rfl⟩
  by_cases h23 : s.take 2 ∈ [asc "02", asc "03"]
  · obtain ⟨hl, hh, hx⟩ := hc h23
    rw [(k3 h23).2 hl] at hk
    have hxl : ((s.drop 2).take 64).length = 64 := by simp; omega
    have hs : s.take 66 = s.take 2 ++ (s.drop 2).take 64 := by
      rw [show 66 = 2 + 64 by omega, List.take_add]
    obtain ⟨par, hpar⟩ : ∃ par : Fin 2, s.take 2 = Spec.parityPrefix par := by
      rcases List.mem_cons.1 h23 with h | h
      · exact ⟨0, h.trans (by decide +kernel)⟩
      · exact ⟨1, (List.mem_singleton.1 h).trans (by decide +kernel)⟩
    obtain ⟨c1, c2, c3⟩ := C30_decompression V hC par _ (some nw) hxl hh hx
    rw [hs, hpar] at hk
    by_cases hy : ∃ y, OnCurve (hexNumber ((s.drop 2).take 64)) y
    · obtain ⟨y, ⟨y1, y2⟩, -⟩ := c3 hy
      rw [c1 y y1 y2] at hk
      cases hk
      exact ⟨nw, _, _, rfl, y1, rfl, rfl⟩
    · push Not at hy
      rw [c2 hy] at hk
      cases hk
  · have hx : s.take 2 ∉ [asc "02", asc "03", asc "04"] := by
      intro h
      rcases List.mem_cons.1 h with h | h
      · exact h23 (by rw [h]; exact List.mem_cons_self)
      rcases List.mem_cons.1 h with h | h
      · exact h23 (by rw [h]; exact List.mem_cons_of_mem _ List.mem_cons_self)
      · exact h4 (List.mem_singleton.1 h)
    rw [k2 h2 hx] at hk
    cases hk

/-! ## The invariant -/

section
variable {H : Hashes} {E : EcdsaM} {V : Ecdsa} {nets : List Network} {st : State}

/-- What holds of a careful program: a session in which all keys it holds are in order. -/
structure InOrder (H : Hashes) (E : EcdsaM) (nets : List Network) (st : State) (ps qs : List Ptr) : Prop where
  session : Session H E nets st
  privs : ∀ p ∈ ps, ∃ k, privAt st p = some k ∧ ValidPriv H.sha256 k
  pubs : ∀ q ∈ qs, ∃ k, pubAt st q = some k ∧ ValidPub k

theorem privAt_later {st' : State} (hu : Unchanged st.heap st'.heap) {p : Ptr} {k : PrivateKey} (h : privAt st p = some k)
    {v : Int} {nw : Network} (hk : k.Key = some v) (hn : k.Network = some nw) : privAt st' p = some k := by
  unfold privAt at h ⊢
  cases ho : loadPriv st.heap p with
  | none => rw [ho] at h; cases h
  | some o =>
    rw [ho] at h
    obtain rfl : privValue st.heap o = k := Option.some.inj h
    rw [hu.priv p o ho]
    have e1 := hu.int _ _ hk
    have e2 := hu.net _ _ hn
    simp only [privValue] at hk hn
    simp only [Option.map_some, privValue, Option.some.injEq, PrivateKey.mk.injEq, true_and]
    exact ⟨e1.trans hk.symm, e2.trans hn.symm⟩

theorem pubAt_later {st' : State} (hu : Unchanged st.heap st'.heap) {p : Ptr} {k : PublicKey} (h : pubAt st p = some k)
    {x y : Int} {nw : Network} (hx : k.X = some x) (hy : k.Y = some y) (hn : k.Network = some nw) : pubAt st' p = some k := by
  unfold pubAt at h ⊢
  cases ho : loadPub st.heap p with
  | none => rw [ho] at h; cases h
  | some o =>
    rw [ho] at h
    obtain rfl : pubValue st.heap o = k := Option.some.inj h
    rw [hu.pub p o ho]
    have e1 := hu.int _ _ hx
    have e2 := hu.int _ _ hy
    have e3 := hu.net _ _ hn
    simp only [pubValue] at hx hy hn
    simp only [Option.map_some, pubValue, Option.some.injEq, PublicKey.mk.injEq]
    exact ⟨e1.trans hx.symm, e2.trans hy.symm, e3.trans hn.symm⟩

theorem Source.Session.prefixes (hE : Pkg E) (hs : Session H E nets st) (hn : ∀ nw ∈ nets, EvenHex nw.PrivKeyPrefix) {p : Ptr}
    {nw : Network} (h : loadNet st.heap p = some nw) : EvenHex nw.PrivKeyPrefix := by
  have hg := (hs.sound hE).grow.nets
  have hm : nw ∈ st.heap.nets := by
    cases p with
    | none => cases h
    | some a => exact List.mem_iff_getElem?.mpr ⟨a, h⟩
  rw [← hg] at hm
  rcases List.mem_cons.1 hm with rfl | hm
  · unfold EvenHex IsHexDigit; decide +kernel
  rcases List.mem_cons.1 hm with rfl | hm
  · unfold EvenHex IsHexDigit; decide +kernel
  · exact hn nw hm

theorem new_priv {st' : State} {net a : Ptr} {v : PrivateKey} (h : NewPriv st.heap net a v st'.heap) : privAt st' a = some v := by
  obtain ⟨o, h1, h2, -⟩ := h.obj
  simp [privAt, h1, h2]

theorem new_pub {st' : State} {net a : Ptr} {v : PublicKey} (h : NewPub st.heap net a v st'.heap) : pubAt st' a = some v := by
  obtain ⟨o, h1, h2, -⟩ := h.obj
  simp [pubAt, h1, h2]

/-- No careful call crashes. -/
theorem InOrder.safe (hE : Pkg E) (hV : E.Refines V) (hC : EcdsaContract V) (hn : ∀ nw ∈ nets, EvenHex nw.PrivKeyPrefix)
    {ps qs : List Ptr} (hi : InOrder H E nets st ps qs) {r : Request} (hr : Careful H.sha256 st ps qs r) :
    ∃ vs st', r.Ends H E st (.ok vs st') := by
  have hd : Determined st r := by
    cases r with
    | publicFromHex s net => exact fun h _ => (hr.2.2.1 h).2
    | getPublicKey p =>
      obtain ⟨k, h1, nw, pre, body, -, h2, h3, h4, -⟩ := hi.privs p hr
      intro k' h'
      rw [h1] at h'
      cases h'
      exact ⟨_, h4, h2, h3⟩
    | addPublicKeys p q c =>
      intro a b ha hb _
      have hne := hr.2.2 a b ha hb
      obtain ⟨k, h1, nw, x, y, -, h2, h3, h4⟩ := hi.pubs p hr.1
      obtain ⟨k', h1', nw', x', y', -, h2', h3', h4'⟩ := hi.pubs q hr.2.1
      rw [ha] at h1
      rw [hb] at h1'
      cases h1
      cases h1'
      refine ⟨x, y, x', y', h3, h4, h3', h4', h2, h2', ?_⟩
      rintro rfl
      exact hne (h3.trans h3'.symm)
    | newSeedFromMnemonic mn pa wl => exact hr.1
    | _ => trivial
  have hno : ¬ Crashes H st r := by
    cases r with
    | checkWIF w =>
      rintro ⟨-, bs, h1, h2⟩
      have := length_base58 h2 (by omega)
      have : 6 ≤ w.length := hr
      omega
    | privateFromWIF w net =>
      have hl : 7 ≤ w.length := hr.1
      rintro (⟨-, bs, h1, h2⟩ | h)
      · have := length_base58 h2 (by omega)
        omega
      · have h4 : ([] ++ checksum H.sha256 []).length ≤ 4 := by simp [checksum]
        have := length_base58 h h4
        omega
    | privateFromHex h net =>
      obtain ⟨⟨nw, h1⟩, -⟩ := hr
      intro h
      rw [show loadNet st.heap net = none from h] at h1
      cases h1
    | generatePrivateKey net =>
      obtain ⟨⟨nw, h1⟩, h2⟩ := hr
      exact fun h => h ⟨nw, h1, hi.session.prefixes hE hn h1, h2⟩
    | addPrivateKeys p q =>
      obtain ⟨k, h1, nw, pre, body, h2, -, -, h4, -⟩ := hi.privs p hr.1
      obtain ⟨k', h1', nw', pre', body', h2', -, -, h4', -⟩ := hi.privs q hr.2
      rintro (h | h | ⟨a, b, ha, hb, -, -, h⟩)
      · rw [h1] at h; cases h
      · rw [h1'] at h; cases h
      · rw [h1] at ha
        rw [h1'] at hb
        cases ha
        cases hb
        rcases h with h | h | h
        · rw [h4] at h; cases h
        · rw [h4'] at h; cases h
        · rw [h2] at h; cases h
    | multiplyPrivateKeys p q =>
      obtain ⟨k, h1, nw, pre, body, h2, -, -, h4, -⟩ := hi.privs p hr.1
      obtain ⟨k', h1', nw', pre', body', h2', -, -, h4', -⟩ := hi.privs q hr.2
      rintro (h | h | ⟨a, b, ha, hb, -, -, h⟩)
      · rw [h1] at h; cases h
      · rw [h1'] at h; cases h
      · rw [h1] at ha
        rw [h1'] at hb
        cases ha
        cases hb
        rcases h with h | h | h
        · rw [h4] at h; cases h
        · rw [h4'] at h; cases h
        · rw [h2] at h; cases h
    | publicFromHex s net =>
      obtain ⟨-, h2, h3, h4⟩ := hr
      rintro (h | ⟨ha, h⟩ | ⟨ha, h⟩)
      · omega
      · have := (h3 ha).1; omega
      · have := (h4 ha).1; omega
    | getPublicKey p =>
      obtain ⟨k, h1, -⟩ := hi.privs p hr
      intro h
      rw [show privAt st p = none from h] at h1
      cases h1
    | format p c =>
      obtain ⟨k, h1, nw, x, y, -, -, -, h4⟩ := hi.pubs p hr
      rintro (h | ⟨k', h, -, h'⟩)
      · rw [h] at h1; cases h1
      · rw [h] at h1; cases h1; rw [h4] at h'; cases h'
    | address p c =>
      obtain ⟨k, h1, nw, x, y, h3, -, -, h4⟩ := hi.pubs p hr
      rintro (h | ⟨k', h, ⟨-, h'⟩ | ⟨-, h'⟩⟩)
      · rw [h] at h1; cases h1
      · rw [h] at h1; cases h1; rw [h4] at h'; cases h'
      · rw [h] at h1; cases h1; rw [h3] at h'; cases h'
    | addPublicKeys p q c =>
      obtain ⟨k, h1, -⟩ := hi.pubs p hr.1
      obtain ⟨k', h1', -⟩ := hi.pubs q hr.2.1
      rintro (h | h)
      · rw [h] at h1; cases h1
      · rw [h] at h1'; cases h1'
    | newMnemonic words wl =>
      rintro ⟨l, rfl, c, c1, c2, c3, c4, h⟩
      obtain ⟨hl, hh⟩ := hr l rfl
      rcases h with h | ⟨j, -, h⟩
      · have := hh c c1 c2 c3 c4
        omega
      · have hb : lookedUp H.sha256 (st.rd.take (4 * c)) c j < 2 ^ 11 := by
          unfold lookedUp
          exact lt_of_lt_of_le (bitsNumber_lt _) (Nat.pow_le_pow_right (by omega) (List.length_take_le _ _))
        omega
    | newSeedFromMnemonic mn pa wl =>
      rintro ⟨ws, h1, h2, h3, h4⟩
      rcases hr.2 ws h1 h2 with h | ⟨w, hw, h⟩
      · exact h4 h
      · exact h (h3 w hw)
  obtain ⟨o, st', h1, -, h3, -⟩ := C109_ends H E hE r st
  cases o with
  | ok vs s => exact ⟨vs, s, h1⟩
  | panic pn s => exact (hno ((C112_crash_table H E V hE hV hC nets st hi.session r hd).1 ⟨pn, s, h1⟩)).elim
  | stuck => cases h3

/-- What is known of the keys a call returns. -/
structure GoodResults (H : Hashes) (st' : State) (vs : List Value) : Prop where
  privs : ∀ p ∈ returnedPrivs vs, ∃ k, privAt st' p = some k ∧ ValidPriv H.sha256 k
  pubs : ∀ q ∈ returnedPubs vs, ∃ k, pubAt st' q = some k ∧ ValidPub k

theorem GoodResults.none {st' : State} {vs : List Value} (h1 : returnedPrivs vs = []) (h2 : returnedPubs vs = []) :
    GoodResults H st' vs := by
  constructor
  · rw [h1]; intro p hp; cases hp
  · rw [h2]; intro p hp; cases hp

theorem GoodResults.priv {st' : State} {a : Ptr} {rest : List Value} {v : PrivateKey} (h : privAt st' a = some v)
    (hv : ValidPriv H.sha256 v) (h1 : returnedPrivs rest = []) (h2 : returnedPubs rest = []) :
    GoodResults H st' (.priv a :: rest) := by
  cases a with
  | none => cases h
  | some a =>
    constructor
    · show ∀ p ∈ some a :: returnedPrivs rest, _
      rw [h1]
      intro p hp
      rw [List.mem_singleton.1 hp]
      exact ⟨v, h, hv⟩
    · show ∀ p ∈ returnedPubs rest, _
      rw [h2]
      intro p hp
      cases hp

theorem GoodResults.pub {st' : State} {a : Ptr} {rest : List Value} {v : PublicKey} (h : pubAt st' a = some v)
    (hv : ValidPub v) (h1 : returnedPrivs rest = []) (h2 : returnedPubs rest = []) :
    GoodResults H st' (.pub a :: rest) := by
  cases a with
  | none => cases h
  | some a =>
    constructor
    · show ∀ p ∈ returnedPrivs rest, _
      rw [h1]
      intro p hp
      cases hp
    · show ∀ p ∈ some a :: returnedPubs rest, _
      rw [h2]
      intro p hp
      rw [List.mem_singleton.1 hp]
      exact ⟨v, h, hv⟩

theorem good_priv {r : Request} {net : Ptr} {x : Res PrivateKey} {vs : List Value} {st' : State}
    (h : ∃ o, r.Ends H E st o ∧ Returns st privResult privError (NewPriv st.heap net) x o)
    (he : r.Ends H E st (.ok vs st')) (hx : ∀ k, x = .ok k → ValidPriv H.sha256 k) : GoodResults H st' vs := by
  obtain ⟨o, h1, h2⟩ := h
  obtain rfl := he.unique h1
  cases x with
  | ok k =>
    obtain ⟨a, s, e, h3, -⟩ := h2
    cases e
    exact .priv (new_priv h3) (hx k rfl) rfl rfl
  | err e => obtain ⟨s, e, -⟩ := h2; cases e; exact .none rfl rfl
  | panic p => obtain ⟨s, e, -⟩ := h2; cases e

theorem good_pub {r : Request} {net : Ptr} {x : Res PublicKey} {vs : List Value} {st' : State}
    (h : ∃ o, r.Ends H E st o ∧ Returns st pubResult pubError (NewPub st.heap net) x o)
    (he : r.Ends H E st (.ok vs st')) (hx : ∀ k, x = .ok k → ValidPub k) : GoodResults H st' vs := by
  obtain ⟨o, h1, h2⟩ := h
  obtain rfl := he.unique h1
  cases x with
  | ok k =>
    obtain ⟨a, s, e, h3, -⟩ := h2
    cases e
    exact .pub (new_pub h3) (hx k rfl) rfl rfl
  | err e => obtain ⟨s, e, -⟩ := h2; cases e; exact .none rfl rfl
  | panic p => obtain ⟨s, e, -⟩ := h2; cases e

attribute [local irreducible] generateRandomBigInt in
/-- A careful call returns keys in order. -/
theorem InOrder.results (hE : Pkg E) (hV : E.Refines V) (hC : EcdsaContract V) (hn : ∀ nw ∈ nets, EvenHex nw.PrivKeyPrefix)
    {ps qs : List Ptr} (hi : InOrder H E nets st ps qs) {r : Request} (hr : Careful H.sha256 st ps qs r) {vs : List Value}
    {st' : State} (he : r.Ends H E st (.ok vs st')) : GoodResults H st' vs := by
  have hs := hi.session
  cases r with
  | checkWIF w =>
    obtain ⟨o, h1, h2⟩ := C108_checkWIF H E hE st w
    obtain rfl := he.unique h1
    cases hx : checkWIF H w with
    | ok b => rw [hx] at h2; obtain ⟨a, s, e, -⟩ := h2; cases e; exact .none rfl rfl
    | err e => rw [hx] at h2; obtain ⟨s, e, -⟩ := h2; cases e; exact .none rfl rfl
    | panic p => rw [hx] at h2; obtain ⟨s, e, -⟩ := h2; cases e
  | privateFromWIF w net =>
    obtain ⟨-, ⟨nw, hnw⟩, hv⟩ := hr
    refine good_priv (C108_privateFromWIF H E hE st w net) he fun k hk => ?_
    rw [hnw] at hk
    exact validPriv_of_wif hk hv
  | privateFromHex h net =>
    obtain ⟨⟨nw, hnw⟩, hv⟩ := hr
    refine good_priv (C108_privateFromHex H E hE st h net) he fun k hk => ?_
    rw [hnw] at hk
    exact validPriv_of_hex (hs.prefixes hE hn hnw) hk hv
  | generatePrivateKey net =>
    obtain ⟨⟨nw, hnw⟩, -⟩ := hr
    obtain ⟨o, h1, h2⟩ := C108_generatePrivateKey H E hE st net
    obtain rfl := he.unique h1
    rw [hnw] at h2
    rcases hg : generatePrivateKey H st.rd (some nw) with ⟨v, rd⟩ | e | p <;> rw [hg] at h2
    · obtain ⟨a, s, e, h3, -⟩ := h2
      cases e
      obtain ⟨z, z1, z2, z3, -, -, z4, -, -⟩ := C14_generated_valid H _ _ nw v hg
      have hz : 1 ≤ z := le_trans (Nat.one_le_pow _ _ (by decide)) z2
      have hz' : z < Spec.n := lt_of_le_of_lt z3 (by decide +kernel)
      refine .priv (new_priv h3) (validPriv_of_number (hs.prefixes hE hn hnw) z4 z1 ?_ ?_) rfl rfl
      · exact_mod_cast hz
      · exact_mod_cast hz'
    · exact h2.elim
    · obtain ⟨s, e, -⟩ := h2; cases e
  | addPrivateKeys p q =>
    obtain ⟨k, h1, nw, pre, body, h2, -⟩ := hi.privs p hr.1
    obtain ⟨k', h1', -⟩ := hi.privs q hr.2
    obtain ⟨o, ho, rfl⟩ := Option.map_eq_some_iff.1 h1
    obtain ⟨o', ho', rfl⟩ := Option.map_eq_some_iff.1 h1'
    exact good_priv (C108_addPrivateKeys H E hE nets st hs p q o o' ho ho') he fun k hk =>
      validPriv_combined h2 (hs.prefixes hE hn h2) (.inl hk)
  | multiplyPrivateKeys p q =>
    obtain ⟨k, h1, nw, pre, body, h2, -⟩ := hi.privs p hr.1
    obtain ⟨k', h1', -⟩ := hi.privs q hr.2
    obtain ⟨o, ho, rfl⟩ := Option.map_eq_some_iff.1 h1
    obtain ⟨o', ho', rfl⟩ := Option.map_eq_some_iff.1 h1'
    exact good_priv (C108_multiplyPrivateKeys H E hE nets st hs p q o o' ho ho') he fun k hk =>
      validPriv_combined h2 (hs.prefixes hE hn h2) (.inr hk)
  | publicFromHex s net =>
    obtain ⟨⟨nw, hnw⟩, h2, h3, h4⟩ := hr
    refine good_pub (C108_publicFromHex H E V hE hV nets st hs s net) he fun k hk => ?_
    rw [hnw] at hk
    exact validPub_of_hex hC hk h2 h3 h4
  | getPublicKey p =>
    obtain ⟨k, h1, nw, pre, body, h2, h3, h4, h5, -⟩ := hi.privs p hr
    obtain ⟨o, ho, rfl⟩ := Option.map_eq_some_iff.1 h1
    obtain ⟨x, y, hc, e⟩ := C33_public_key V hC EC.G EC.G_coords _ _ h5 h3 h4
    obtain ⟨q, s, g1, g2, -⟩ := ends_ok e (C108_getPublicKey H E V hE hV nets st hs p o ho) hs
    cases he.unique g1
    refine .pub (new_pub g2) ⟨nw, x, y, h2, EC.HasCoords_onCurve hc, rfl, rfl⟩ rfl rfl
  | format p c =>
    obtain ⟨k, h1, -⟩ := hi.pubs p hr
    obtain ⟨o, ho, rfl⟩ := Option.map_eq_some_iff.1 h1
    obtain ⟨o', g1, g2⟩ := C108_format H E hE st p o ho c
    obtain rfl := he.unique g1
    rcases hx : format (pubValue st.heap o) c with v | e | pn <;> rw [hx] at g2
    · obtain ⟨a, s, e, -⟩ := g2; cases e; exact .none rfl rfl
    · obtain ⟨s, e, -⟩ := g2; cases e; exact .none rfl rfl
    · obtain ⟨s, e, -⟩ := g2; cases e
  | address p c =>
    obtain ⟨k, h1, -⟩ := hi.pubs p hr
    obtain ⟨o, ho, rfl⟩ := Option.map_eq_some_iff.1 h1
    obtain ⟨o', g1, g2⟩ := C108_address H E hE st p o ho c
    obtain rfl := he.unique g1
    rcases hx : address H (pubValue st.heap o) c with v | e | pn <;> rw [hx] at g2
    · obtain ⟨a, s, e, -⟩ := g2; cases e; exact .none rfl rfl
    · obtain ⟨s, e, -⟩ := g2; cases e; exact .none rfl rfl
    · obtain ⟨s, e, -⟩ := g2; cases e
  | addPublicKeys p q c =>
    obtain ⟨k, h1, nw, x, y, h2, h3, h4, h5⟩ := hi.pubs p hr.1
    obtain ⟨k', h1', nw', x', y', h2', h3', h4', h5'⟩ := hi.pubs q hr.2.1
    have hne := hr.2.2 k k' h1 h1'
    obtain ⟨o, ho, rfl⟩ := Option.map_eq_some_iff.1 h1
    obtain ⟨o', ho', rfl⟩ := Option.map_eq_some_iff.1 h1'
    refine good_pub (C108_addPublicKeys H E V hE hV nets st hs p q o o' ho ho' c) he fun k hk => ?_
    by_cases hnet : (pubValue st.heap o).Network = (pubValue st.heap o').Network
    · obtain ⟨P, hP⟩ := (EC.onCurve_iff _ _).1 h3
      obtain ⟨Q, hQ⟩ := (EC.onCurve_iff _ _).1 h3'
      have hxx : x ≠ x' := by
        rintro rfl
        exact hne (h4.trans h4'.symm)
      obtain ⟨x₃, y₃, -, ho3, e⟩ := C37_add_public_keys V hC P Q x y x' y' (some nw) hP hQ hxx
      have e1 : pubValue st.heap o = ⟨some (x : Int), some (y : Int), some nw⟩ := by rw [← h4, ← h5, ← h2]
      have e2 : pubValue st.heap o' = ⟨some (x' : Int), some (y' : Int), some nw⟩ := by rw [← h4', ← h5', ← h2, hnet]
      rw [e2, e1, (e c).1] at hk
      cases hk
      exact ⟨nw, x₃, y₃, rfl, ho3, rfl, rfl⟩
    · rw [(C24_public_networks V _ _ c).1 hnet] at hk
      cases hk
  | newMnemonic words wl =>
    obtain ⟨o, h1, h2⟩ := C108_newMnemonic H E st words wl
    obtain rfl := he.unique h1
    rcases hg : newMnemonic H st.rd words wl with ⟨v, rd⟩ | e | p <;> rw [hg] at h2
    · obtain ⟨s, e, -⟩ := h2; cases e; exact .none rfl rfl
    · obtain ⟨s, e, -⟩ := h2; cases e; exact .none rfl rfl
    · obtain ⟨s, e, -⟩ := h2; cases e
  | newSeedFromMnemonic mn pa wl =>
    obtain ⟨o, h1, h2⟩ := C108_newSeedFromMnemonic H E st mn pa wl
    obtain rfl := he.unique h1
    rcases hg : newSeedFromMnemonic H mn pa wl with ⟨(_ | b) | e | p, log⟩ <;> rw [hg] at h2
    · obtain ⟨s, e, -⟩ := h2; cases e; exact .none rfl rfl
    · obtain ⟨s, e, -⟩ := h2; cases e; exact .none rfl rfl
    · obtain ⟨s, e, -⟩ := h2; cases e; exact .none rfl rfl
    · obtain ⟨s, e, -⟩ := h2; cases e

theorem CarefulRun.inOrder (hE : Pkg E) (hV : E.Refines V) (hC : EcdsaContract V) (hn : ∀ nw ∈ nets, EvenHex nw.PrivKeyPrefix)
    {ps qs : List Ptr} (h : CarefulRun H E nets st ps qs) : InOrder H E nets st ps qs := by
  induction h with
  | start h => exact ⟨.start h, (fun p hp => by cases hp), (fun p hp => by cases hp)⟩
  | @call st st' ps qs vs r _ hr he ih =>
    have hg := ih.results hE hV hC hn hr he
    obtain ⟨o, s, h1, -, h3, hu, -⟩ := C109_ends H E hE r st
    obtain rfl := he.unique h1
    cases h3
    refine ⟨ih.session.call r he rfl, fun p hp => ?_, fun p hp => ?_⟩
    · rcases List.mem_append.1 hp with hp | hp
      · obtain ⟨k, k1, k2⟩ := ih.privs p hp
        refine ⟨k, ?_, k2⟩
        obtain ⟨nw, pre, body, k3, -, -, k4, -⟩ := k2
        exact privAt_later hu k1 k4 k3
      · exact hg.privs p hp
    · rcases List.mem_append.1 hp with hp | hp
      · obtain ⟨k, k1, k2⟩ := ih.pubs p hp
        refine ⟨k, ?_, k2⟩
        obtain ⟨nw, x, y, k3, -, k4, k5⟩ := k2
        exact pubAt_later hu k1 k4 k5 k3
      · exact hg.pubs p hp

end

section
variable (H : Hashes) (E : EcdsaM) (V : Ecdsa) (hE : Pkg E) (hV : E.Refines V) (hC : EcdsaContract V) (nets : List Network)
  (hn : ∀ nw ∈ nets, EvenHex nw.PrivKeyPrefix) (st : State) (ps qs : List Ptr) (hr : CarefulRun H E nets st ps qs)
include hE hV hC hn hr

/-- C113: all keys a careful program holds are in order, however long it runs. -/
theorem C113_keys_in_order : (∀ p ∈ ps, ∃ k, privAt st p = some k ∧ ValidPriv H.sha256 k) ∧
    ∀ q ∈ qs, ∃ k, pubAt st q = some k ∧ ValidPub k :=
  ⟨(hr.inOrder hE hV hC hn).privs, (hr.inOrder hE hV hC hn).pubs⟩

/-- C113: no call of a careful program crashes. -/
theorem C113_no_crash (r : Request) (hc : Careful H.sha256 st ps qs r) :
    (∃ vs st', r.Ends H E st (.ok vs st')) ∧ ¬ ∃ pn st', r.Ends H E st (.panic pn st') := by
  obtain ⟨vs, st', h⟩ := (hr.inOrder hE hV hC hn).safe hE hV hC hn hc
  refine ⟨⟨vs, st', h⟩, ?_⟩
  rintro ⟨pn, s, h'⟩
  cases h.unique h'

/-- C113: from every private key it holds, a careful program obtains a public key, which it then holds. -/
theorem C113_public_key (p : Ptr) (hp : p ∈ ps) : ∃ q st1,
    (Request.getPublicKey p).Ends H E st (.ok [.pub (some q), .bool true] st1) ∧ CarefulRun H E nets st1 ps (qs ++ [some q]) := by
  obtain ⟨⟨vs, st1, h1⟩, -⟩ := C113_no_crash H E V hE hV hC nets hn st ps qs hr (.getPublicKey p) hp
  have hi := hr.inOrder hE hV hC hn
  obtain ⟨k, k1, nw, pre, body, k2, k3, k4, k5, -⟩ := hi.privs p hp
  obtain ⟨o, ho, rfl⟩ := Option.map_eq_some_iff.1 k1
  obtain ⟨x, y, hc, e⟩ := C33_public_key V hC EC.G EC.G_coords _ _ k5 k3 k4
  obtain ⟨q, s, g1, g2, -⟩ := ends_ok e (C108_getPublicKey H E V hE hV nets st hi.session p o ho) hi.session
  cases h1.unique g1
  have hc := hr.call (.getPublicKey p) hp h1
  cases q with
  | none => have := new_pub g2; cases this
  | some q =>
    have hc' : CarefulRun H E nets st1 (ps ++ []) (qs ++ [some q]) := hc
    rw [List.append_nil] at hc'
    exact ⟨q, st1, h1, hc'⟩

/-- C113: on a network with a one-byte prefix the public key has the address of the private key. -/
theorem C113_address (B : W.Point) (hB : HasCoords B gx gy) (p : Ptr) (hp : p ∈ ps) (c : Bool) (b : UInt8)
    (hb : ∀ k nw, privAt st p = some k → k.Network = some nw → Spells nw.PubKeyHashPrefix [b]) :
    ∃ (k : PrivateKey) (v : Nat) (q : Ptr) (st1 : State) (a : GoString) (st2 : State),
      privAt st p = some k ∧ k.Key = some (v : Int) ∧
      (Request.getPublicKey p).Ends H E st (.ok [.pub q, .bool true] st1) ∧
      (Request.address q c).Ends H E st1 (.ok [.str a, .err none] st2) ∧ IsAddressOf H B b c v a := by
  have hi := hr.inOrder hE hV hC hn
  obtain ⟨k, k1, nw, pre, body, k2, k3, k4, k5, -⟩ := hi.privs p hp
  have hb' := hb k nw k1 k2
  obtain ⟨o, ho, rfl⟩ := Option.map_eq_some_iff.1 k1
  obtain ⟨q, st1, a, st2, g1, g2, g3, -⟩ := text_chain hE hV hC hi.session hB hb' ho k5 k2 k3 k4 c
  exact ⟨_, _, q, st1, a, st2, k1, k5, g1, g2, g3⟩

end

/-! ## A careful program -/

namespace Samples

theorem careful_start (H : Hashes) (E : EcdsaM) (rd : Reader) : CarefulRun H E [] (started rd []) [] [] :=
  .start (ends_init rd)

/-- A careful program that has imported a private key. -/
theorem careful_one (rd : Reader) : ∃ st a, CarefulRun realHashes pkg [] st [some a] [] ∧
    privAt st (some a) = some keyA := by
  obtain ⟨p, st', h1, h2, -⟩ := ends_ok (v := keyA) (x := privateFromHex realHashes hexA (loadNet (started rd []).heap (some 0)))
    fromHexA (C108_privateFromHex realHashes pkg refPkg.1 (started rd []) hexA (some 0)) (session_start realHashes pkg rd [])
  have hc : Careful realHashes.sha256 (started rd []) [] [] (.privateFromHex hexA (some 0)) := by
    refine ⟨⟨MainNetwork, rfl⟩, fun body hb => ?_⟩
    rw [← hexNumber_of_spells hb]
    constructor <;> decide +kernel
  have hr := (careful_start realHashes pkg rd).call _ hc h1
  cases p with
  | none => have := new_priv h2; cases this
  | some a => exact ⟨st', a, hr, new_priv h2⟩

end Samples

open Samples

/-- C113: the program holds a key in order, obtains its public key, and no further careful call crashes. -/
example : ∃ (st : State) (a b : Nat), CarefulRun realHashes pkg [] st [some a] [some b] ∧
    (∃ k, pubAt st (some b) = some k ∧ ValidPub k) ∧
    ¬ ∃ pn st', (Request.address (some b) true).Ends realHashes pkg st (.panic pn st') := by
  obtain ⟨st, a, h, -⟩ := careful_one []
  obtain ⟨q, st1, -, h1⟩ := C113_public_key realHashes pkg EC.ref refPkg.1 refPkg.2.1 refPkg.2.2 [] (by simp) st _ _ h (some a)
    (List.mem_singleton.2 rfl)
  exact ⟨st1, a, q, h1, (C113_keys_in_order realHashes pkg EC.ref refPkg.1 refPkg.2.1 refPkg.2.2 [] (by simp) st1 _ _ h1).2 _
    (List.mem_singleton.2 rfl), (C113_no_crash realHashes pkg EC.ref refPkg.1 refPkg.2.1 refPkg.2.2 [] (by simp) st1 _ _ h1
      (.address (some q) true) (List.mem_singleton.2 rfl)).2⟩

/-- C113: its address. -/
example (rd : Reader) : ∃ st p q a st1 st2, (Request.getPublicKey p).Ends realHashes pkg st (.ok [.pub q, .bool true] st1) ∧
    (Request.address q true).Ends realHashes pkg st1 (.ok [.str a, .err none] st2) ∧
    IsAddressOf realHashes EC.G 0x00 true 0x8613DFD6C099751DCC4020EF6F9BCD3C00F4565A15B26979B4B93C045D0A5CEB a := by
  obtain ⟨st, p, h, hk⟩ := careful_one rd
  obtain ⟨k, v, q, st1, a, st2, h1, h2, h3, h4, h5⟩ := C113_address realHashes pkg EC.ref refPkg.1 refPkg.2.1 refPkg.2.2 [] (by simp)
    st _ _ h EC.G EC.G_coords (some p) (List.mem_singleton.2 rfl) true 0x00 (by
      intro k nw h1 h2
      rw [hk] at h1
      cases h1
      cases h2
      exact mainPrefix)
  rw [hk] at h1
  cases h1
  have e : v = 0x8613DFD6C099751DCC4020EF6F9BCD3C00F4565A15B26979B4B93C045D0A5CEB := (Int.ofNat.inj (Option.some.inj h2)).symm
  subst e
  exact ⟨st, _, q, a, st1, st2, h3, h4, h5⟩

end Btc
