import Verif.Props.Address
import Verif.Props.Wif

/-!
# C65 – C68, C74, C75: what can be imported, and what the texts identify
-/

namespace Btc

open Spec

theorem mainPriv : Spells MainNetwork.PrivKeyPrefix [0x80] := hexDecode_eq_ok.1 (by decide +kernel)
theorem testPriv : Spells TestNetwork.PrivKeyPrefix [0xEF] := hexDecode_eq_ok.1 (by decide +kernel)

/-! ## C65 -/

/-- C65, what remains true: an imported key is never negative, it is bounded by the length of its text, and it is
nil exactly when the text carries no digit at all. Missing: the range check `1 ≤ key < n`. -/
theorem C65_import_range_partial (H : Hashes) (net : Option Network) (k : PrivateKey) :
    (∀ h, privateFromHex H h net = .ok k → (k.Key = none ↔ h = []) ∧
      ∀ z, k.Key = some z → 0 ≤ z ∧ z < 16 ^ h.length) ∧
    (∀ w, privateFromWIF H w net = .ok k → (k.Key = none ↔ k.Hex = []) ∧
      ∀ z, k.Key = some z → 0 ≤ z ∧ z < 16 ^ k.Hex.length) := by
  have key : ∀ h : GoString, (∀ c ∈ h, IsHexDigit c) → k.Key = bigSetString h 16 →
      (k.Key = none ↔ h = []) ∧ ∀ z, k.Key = some z → 0 ≤ z ∧ z < 16 ^ h.length := by
    intro h hh hk
    rw [bigSetString_hex hh] at hk
    by_cases hne : h = []
    · simp [hk, hne]
    · rw [if_neg hne] at hk
      refine ⟨by simp [hk, hne], fun z hz => ?_⟩
      rw [hk] at hz
      cases hz
      refine ⟨by omega, ?_⟩
      have : hexNumber h < 16 ^ h.length := by
        have := Nat.ofDigits_lt_base_pow_length (b := 16) (l := h.reverse.map fun c => (hexVal c).getD 0) (by omega) (by
          intro d hd
          obtain ⟨c, hc, rfl⟩ := List.mem_map.1 hd
          have : ∀ c : UInt8, (hexVal c).getD 0 < 16 := by
            apply forall_byte
            decide +kernel
          exact this c)
        simpa [hexNumber] using this
      exact_mod_cast this
  constructor
  · intro h hk
    obtain ⟨nw, bs, rfl, hs, rfl⟩ := (privateFromHex_eq_ok H).1 hk
    exact key h (isHexDigit_right hs) rfl
  · intro w hk
    obtain ⟨v, body, hd, rfl⟩ := (privateFromWIF_eq_ok H).1 hk
    refine key _ (fun c hc => ?_) rfl
    exact ((exists_spells_iff _).1 ⟨body, spells_hexEncode body⟩).1 c hc

/-- C65: a text of 66 digits gives a number below 16^66, here not a valid scalar. -/
example : ∃ k, privateFromHex realHashes (List.replicate 66 102) (some MainNetwork) = .ok k ∧
    ∀ z, k.Key = some z → 0 ≤ z ∧ z < 16 ^ 66 := by
  obtain ⟨k, hk⟩ := (C02_accepts_iff realHashes (List.replicate 66 102) MainNetwork).2 (by decide +kernel)
  exact ⟨k, hk, ((C65_import_range_partial realHashes _ k).1 _ hk).2⟩

/-- C65 (violated). Every natural number is imported as a key, from its hex and from its WIF. -/
theorem C65_everything_imported (H : Hashes) (m : Nat) :
    ∃ h k, privateFromHex H h (some MainNetwork) = .ok k ∧ k.Key = some (m : Int) ∧
      ∃ k2, privateFromWIF H k.WIF (some MainNetwork) = .ok k2 ∧ k2.Key = some (m : Int) := by
  let body : Bytes := 0 :: natToBytes m
  have hs : Spells (hexEncode body) body := spells_hexEncode body
  have hne : hexEncode body ≠ [] := by simp [body, hexEncode]
  have hval : bigSetString (hexEncode body) 16 = some (m : Int) := by
    rw [bigSetString_hex ((exists_spells_iff _).1 ⟨body, hs⟩).1, if_neg hne, hexNumber_of_spells hs]
    congr 2
    have : bigEndian body = bytesToNat body := (bigEndian_eq body)
    rw [this]
    show ofBE 256 (0 :: (natToBytes m).map UInt8.toNat) = m
    have := bytesToNat_natToBytes m
    simpa [ofBE, bytesToNat] using this
  have hk := privateFromHex_of_spells H (net := MainNetwork) (mainPriv.append hs)
  refine ⟨_, _, hk, hval, ?_⟩
  obtain ⟨k2, h2, h3, -⟩ := C05_hex_wif_roundtrip H _ _ _ _ (some MainNetwork) mainPriv hne hk
  exact ⟨k2, h2, h3.trans hval⟩

/-- C65 (violated). In particular 0 and the group order are accepted, although they are not valid keys. -/
theorem C65_valid_scalars_violated (H : Hashes) :
    ¬ ∀ (h : GoString) (k : PrivateKey), privateFromHex H h (some MainNetwork) = .ok k →
      ∃ v : Nat, k.Key = some (v : Int) ∧ 1 ≤ v ∧ v < Spec.n := by
  intro hall
  obtain ⟨h, k, hk, hv, -⟩ := C65_everything_imported H Spec.n
  obtain ⟨v, h1, -, h3⟩ := hall h k hk
  rw [hv] at h1
  simp only [Option.some.injEq, Nat.cast_inj] at h1
  omega

example : ∃ k, privateFromHex realHashes (asc "00") (some MainNetwork) = .ok k ∧ k.Key = some 0 :=
  ⟨_, privateFromHex_of_spells realHashes
    (hexDecode_eq_ok.1 (by decide +kernel : hexDecode (MainNetwork.PrivKeyPrefix ++ asc "00") = .ok [0x80, 0])),
    by decide +kernel⟩

/-! ## C66 -/

/-- C66 (violated). The key 1 has two WIFs on the same network: its text may be padded with zeros. -/
theorem C66_unique_wif_violated (H : Hashes) :
    ∃ k1 k2, privateFromHex H (asc "01") (some MainNetwork) = .ok k1 ∧
      privateFromHex H (asc "0001") (some MainNetwork) = .ok k2 ∧ k1.Key = k2.Key ∧ k1.WIF ≠ k2.WIF := by
  have s1 : Spells (asc "01") [1] := hexDecode_eq_ok.1 (by decide +kernel)
  have s2 : Spells (asc "0001") [0, 1] := hexDecode_eq_ok.1 (by decide +kernel)
  have h1 := privateFromHex_of_spells H (net := MainNetwork) (mainPriv.append s1)
  have h2 := privateFromHex_of_spells H (net := MainNetwork) (mainPriv.append s2)
  have hv : bigSetString (asc "01") 16 = bigSetString (asc "0001") 16 := by decide +kernel
  refine ⟨_, _, h1, h2, hv, fun hw => ?_⟩
  have := ((C07_wif_injective H _ _ _ _ _ _ h1 h2 rfl).1 hw).2
  revert this
  decide +kernel

/-- C66, what remains true: for texts of the same length (in particular the standard 64 digits) key and WIF
determine each other. Missing: texts of different lengths. -/
theorem C66_unique_wif_partial (H : Hashes) (h1 h2 : GoString) (net : Network) (k1 k2 : PrivateKey)
    (hk1 : privateFromHex H h1 (some net) = .ok k1) (hk2 : privateFromHex H h2 (some net) = .ok k2)
    (hl : h1.length = h2.length) : k1.Key = k2.Key ↔ k1.WIF = k2.WIF := by
  refine ⟨fun hkey => ?_, C07_equal_wif_equal_key H h1 h2 net net k1 k2 hk1 hk2 rfl⟩
  rw [C07_wif_injective H h1 h2 net net k1 k2 hk1 hk2 rfl]
  refine ⟨rfl, ?_⟩
  have e1 := (C01_wif_is_base58check H h1 net k1 hk1).2.2.2
  have e2 := (C01_wif_is_base58check H h2 net k2 hk2).2.2.2
  obtain ⟨_, b1, _, s1, _⟩ := (privateFromHex_eq_ok H).1 hk1
  obtain ⟨_, b2, _, s2, _⟩ := (privateFromHex_eq_ok H).1 hk2
  have d1 := isHexDigit_right s1
  have d2 := isHexDigit_right s2
  by_cases h0 : h1 = []
  · subst h0
    have : h2 = [] := List.length_eq_zero_iff.1 hl.symm
    rw [this]
  · have h0' : h2 ≠ [] := by
      rintro rfl
      exact h0 (List.length_eq_zero_iff.1 hl)
    rw [if_neg h0] at e1
    rw [if_neg h0'] at e2
    rw [e1, e2] at hkey
    simp only [Option.some.injEq, Nat.cast_inj] at hkey
    have hlt : ∀ c : UInt8, (hexVal c).getD 0 < 16 := by
      apply forall_byte
      decide +kernel
    have := Nat.ofDigits_inj_of_len_eq (b := 16) (by omega) (L1 := h1.reverse.map fun c => (hexVal c).getD 0)
      (L2 := h2.reverse.map fun c => (hexVal c).getD 0) (by simpa using hl)
      (fun d hd => by obtain ⟨c, _, rfl⟩ := List.mem_map.1 hd; exact hlt c)
      (fun d hd => by obtain ⟨c, _, rfl⟩ := List.mem_map.1 hd; exact hlt c) hkey
    rw [List.map_reverse, List.map_reverse, List.reverse_inj] at this
    apply List.ext_getElem
    · simpa using hl
    · intro i i1 i2
      simp only [List.length_map] at i1 i2
      have hi := List.getElem_of_eq this (i := i) (by simpa using i1)
      simp only [List.getElem_map] at hi ⊢
      have g1 : (hexVal h1[i]).isSome := d1 _ (List.getElem_mem i1)
      have g2 : (hexVal h2[i]).isSome := d2 _ (List.getElem_mem i2)
      obtain ⟨u, hu⟩ := Option.isSome_iff_exists.1 g1
      obtain ⟨v, hv⟩ := Option.isSome_iff_exists.1 g2
      rw [hu, hv] at hi ⊢
      simpa using hi

example : Samples.keyA.Key ≠ Samples.keyB.Key ∧ Samples.keyA.WIF ≠ Samples.keyB.WIF := by
  have h : Samples.keyA.Key ≠ Samples.keyB.Key := by decide +kernel
  exact ⟨h, fun hw => h ((C66_unique_wif_partial realHashes _ _ _ _ _ Samples.fromHexA Samples.fromHexB
    (by decide +kernel)).2 hw)⟩

/-! ## C67 -/

/-- C67. Two WIFs with the same version byte that are imported with the same hex text are the same WIF. -/
theorem C67_import_injective (H : Hashes) (w1 w2 : GoString) (net1 net2 : Option Network) (k1 k2 : PrivateKey)
    (v : UInt8) (r1 r2 : Bytes) (h1 : IsBase58 (v :: r1) w1) (h2 : IsBase58 (v :: r2) w2)
    (hk1 : privateFromWIF H w1 net1 = .ok k1) (hk2 : privateFromWIF H w2 net2 = .ok k2) :
    w1 = w2 ↔ k1.Hex = k2.Hex := by
  obtain ⟨v1, b1, d1, rfl⟩ := (privateFromWIF_eq_ok H).1 hk1
  obtain ⟨v2, b2, d2, rfl⟩ := (privateFromWIF_eq_ok H).1 hk2
  have i1 := (base58Decode_eq_ok.1 d1).2
  have i2 := (base58Decode_eq_ok.1 d2).2
  have e1 := h1.bytes_unique i1
  have e2 := h2.bytes_unique i2
  simp only [List.cons_append, List.cons.injEq] at e1 e2
  obtain ⟨rfl, e1⟩ := e1
  obtain ⟨rfl, e2⟩ := e2
  constructor
  · rintro rfl
    have := i1.bytes_unique i2
    have := List.append_inj' this (by simp [length_checksum])
    simp only [List.cons.injEq, true_and] at this
    show hexEncode b1 = hexEncode b2
    rw [this.1]
  · intro hh
    have hh : hexEncode b1 = hexEncode b2 := hh
    have : b1 = b2 := (spells_hexEncode b1).unique (hh ▸ spells_hexEncode b2)
    subst this
    exact i1.text_unique i2

/-! ## C68 -/

/-- C68. A text with a character outside the Base58 alphabet (a space, a line break, `0`, `O`, `I`, `l`, …) or an
empty text never passes the check and is never imported; both calls return normally. -/
theorem C68_foreign_characters (H : Hashes) (w : GoString) (net : Option Network)
    (h : w = [] ∨ ∃ c ∈ w, c ∉ alphabet58) :
    checkWIF H w = .ok false ∧ privateFromWIF H w net = .err .wifInvalid :=
  ⟨C03_undecodable H w h, (C09_import_requires_check H w net).2 (C03_undecodable H w h)⟩

-- a valid WIF with a line break at its end
example : checkWIF realHashes (Samples.wifA ++ [10]) = .ok false :=
  (C68_foreign_characters realHashes _ none (.inr ⟨10, by simp, by decide⟩)).1

/-! ## C74 -/

/-- C74. The four kinds of texts (private keys and addresses, on the main and on the test network) never coincide,
whatever the keys. -/
theorem C74_kinds_disjoint (H : Hashes) (h h' : GoString) (k k' : PrivateKey) (x y x' y' : Nat) (c c' : Bool)
    (a a' : GoString) (hx : x < 2 ^ 256) (hy : y < 2 ^ 256) (hx' : x' < 2 ^ 256) (hy' : y' < 2 ^ 256)
    (hk : privateFromHex H h (some MainNetwork) = .ok k) (hk' : privateFromHex H h' (some TestNetwork) = .ok k')
    (ha : address H ⟨some x, some y, some MainNetwork⟩ c = .ok a)
    (ha' : address H ⟨some x', some y', some TestNetwork⟩ c' = .ok a') :
    [k.WIF, k'.WIF, a, a'].Nodup := by
  obtain ⟨b1, -, w1, -⟩ := C01_wif_bytes H h MainNetwork k _ mainPriv hk
  obtain ⟨b2, -, w2, -⟩ := C01_wif_bytes H h' TestNetwork k' _ testPriv hk'
  obtain ⟨s3, a3, -, e3, w3⟩ := C39_address_bytes H x y MainNetwork _ c hx hy mainPrefix
  obtain ⟨s4, a4, -, e4, w4⟩ := C39_address_bytes H x' y' TestNetwork _ c' hx' hy' testPrefix
  rw [ha] at e3
  rw [ha'] at e4
  cases e3
  cases e4
  have key : ∀ {u v : UInt8} {p q : Bytes} {s t : GoString}, IsBase58Check H.sha256 ([u] ++ p) s →
      IsBase58Check H.sha256 ([v] ++ q) t → u ≠ v → s ≠ t := by
    rintro u v p q s _ hs ht huv rfl
    have := Spec.IsBase58.bytes_unique hs ht
    simp only [List.cons_append, List.nil_append, List.cons.injEq] at this
    exact huv this.1
  simp only [List.nodup_cons, List.mem_cons, List.not_mem_nil, or_false, not_or, not_false_eq_true,
    List.nodup_nil, and_true]
  exact ⟨⟨key w1 w2 (by decide), key w1 w3 (by decide), key w1 w4 (by decide)⟩,
    ⟨key w2 w3 (by decide), key w2 w4 (by decide)⟩, key w3 w4 (by decide)⟩

example : privateFromHex realHashes Samples.hexA (some MainNetwork) = .ok Samples.keyA ∧
    privateFromHex realHashes Samples.hexT (some TestNetwork) = .ok Samples.keyT ∧
    address realHashes Samples.pubA false = .ok (asc "1BBu2rgpgcqRhWg3E4zhLkYvjA5BGqT4Ue") :=
  ⟨Samples.fromHexA, Samples.fromHexT, Samples.addressA⟩

/-! ## C75 -/

/-- C75, what remains true: re-importing a WIF drops exactly one byte of prefix and key, whatever the network. So
the key comes back exactly for networks with a one-byte prefix. Missing: the other networks. -/
theorem C75_roundtrip_partial (H : Hashes) (h : GoString) (net : Network) (net2 : Option Network) (k : PrivateKey)
    (pre body : Bytes) (hp : Spells net.PrivKeyPrefix pre) (hb : Spells h body)
    (hk : privateFromHex H h (some net) = .ok k) :
    (pre ++ body = [] → ∃ p, privateFromWIF H k.WIF net2 = .panic p) ∧
    (pre ++ body ≠ [] → ∃ k2, privateFromWIF H k.WIF net2 = .ok k2 ∧ Spells k2.Hex (pre ++ body).tail) ∧
    (pre.length = 1 → ∃ k2, privateFromWIF H k.WIF net2 = .ok k2 ∧ Spells k2.Hex body) := by
  obtain ⟨nw, bs, e, hs, rfl⟩ := (privateFromHex_eq_ok H).1 hk
  cases e
  have : bs = pre ++ body := hs.unique (hp.append hb)
  subst this
  have main : ∀ (v : UInt8) (rest : Bytes), pre ++ body = v :: rest →
      ∃ k2, privateFromWIF H (base58Encode (pre ++ body ++ checksum H.sha256 (pre ++ body))) net2 = .ok k2 ∧
        Spells k2.Hex rest := by
    intro v rest hvr
    refine ⟨_, privateFromWIF_long H (v := v) (body := rest) ?_, spells_hexEncode rest⟩
    rw [hvr]
    exact base58Decode_encode (by simp)
  refine ⟨fun h0 => ⟨_, privateFromWIF_empty H ?_⟩, fun h0 => ?_, fun h1 => ?_⟩
  · rw [h0, List.nil_append]
    refine base58Decode_encode fun he => ?_
    have := length_checksum H []
    rw [he] at this
    simp at this
  · obtain ⟨v, rest, hvr⟩ := List.exists_cons_of_ne_nil h0
    have := main v rest hvr
    rw [hvr, List.tail_cons, ← hvr]
    exact this
  · obtain ⟨v, rfl⟩ := List.length_eq_one_iff.1 h1
    exact main v body rfl

/-- C75: on a network with a prefix of two bytes the second one comes back as part of the key. -/
example : ∃ k k2, privateFromHex realHashes (asc "07") (some ⟨asc "8001", asc "00"⟩) = .ok k ∧
    privateFromWIF realHashes k.WIF none = .ok k2 ∧ Spells k2.Hex [0x01, 0x07] := by
  obtain ⟨k, hk⟩ := (C02_accepts_iff realHashes (asc "07") ⟨asc "8001", asc "00"⟩).2 (by decide +kernel)
  obtain ⟨k2, h1, h2⟩ := (C75_roundtrip_partial realHashes _ ⟨asc "8001", asc "00"⟩ none k [0x80, 0x01] [0x07]
    (hexDecode_eq_ok.1 (by decide +kernel)) (hexDecode_eq_ok.1 (by decide +kernel)) hk).2.1 (by simp)
  exact ⟨k, k2, hk, h1, h2⟩

/-- C75 (violated). On a network with a two-byte prefix a key does not survive the round trip. -/
theorem C75_roundtrip_violated (H : Hashes) :
    ¬ ∀ (h : GoString) (net : Network) (k : PrivateKey), privateFromHex H h (some net) = .ok k →
      ∃ k2, privateFromWIF H k.WIF (some net) = .ok k2 ∧ k2.Key = k.Key := by
  intro hall
  have hp : Spells (asc "0488") [4, 0x88] := hexDecode_eq_ok.1 (by decide +kernel)
  have hb : Spells (asc "02") [2] := hexDecode_eq_ok.1 (by decide +kernel)
  have hk := privateFromHex_of_spells H (net := ⟨asc "0488", asc "00"⟩) (hp.append hb)
  obtain ⟨k2, h2, h3⟩ := hall _ _ _ hk
  have h2' := privateFromWIF_long H (network := some ⟨asc "0488", asc "00"⟩) (v := 4) (body := [0x88, 2])
    (base58Decode_encode (by simp))
  have h2'' := h2.symm.trans h2'
  simp only [Res.ok.injEq] at h2''
  rw [h2''] at h3
  have h3 : bigSetString (hexEncode [136, 2]) 16 = bigSetString (asc "02") 16 := h3
  revert h3
  decide +kernel

end Btc
