import Verif.Proofs.Shape
import Verif.Props.Samples

/-!
# C01–C13: WIF encoding, import and validation of private keys
-/

namespace Btc

open Spec

/-! ## Helper lemmas about texts with the same digits -/

theorem sameDigits_of_spells {s t : GoString} {bs : Bytes} (hs : Spells s bs) (ht : Spells t bs) :
    s.map hexVal = t.map hexVal := by
  rw [← (isLowerHexOf_hexEncode hs).2.1, (isLowerHexOf_hexEncode ht).2.1]

theorem isHexDigit_of_sameDigits {s t : GoString} (h : s.map hexVal = t.map hexVal)
    (hs : ∀ c ∈ s, IsHexDigit c) : ∀ c ∈ t, IsHexDigit c := by
  intro c hc
  have : hexVal c ∈ s.map hexVal := by rw [h]; exact List.mem_map_of_mem hc
  obtain ⟨d, hd, hdc⟩ := List.mem_map.1 this
  have := hs d hd
  unfold IsHexDigit at *
  rwa [← hdc]

theorem spells_of_sameDigits {s t : GoString} {bs : Bytes} (h : s.map hexVal = t.map hexVal)
    (hs : Spells s bs) : Spells t bs := by
  induction hs generalizing t with
  | nil =>
    have : t = [] := by simpa using h.symm
    subst this; exact .nil
  | @cons hi lo x y b s bs h1 h2 h3 _ ih =>
    match t, h with
    | [], h => simp at h
    | [a], h => simp at h
    | a :: c :: t, h =>
      simp only [List.map_cons, List.cons.injEq] at h
      exact .cons (h.1 ▸ h1) (h.2.1 ▸ h2) h3 (ih h.2.2)

theorem hexNumber_of_sameDigits {s t : GoString} (h : s.map hexVal = t.map hexVal) :
    hexNumber s = hexNumber t := by
  have e : ∀ u : GoString, u.reverse.map (fun c => (hexVal c).getD 0) =
      ((u.map hexVal).map fun o => o.getD 0).reverse := by
    intro u; simp [List.map_reverse]
  unfold hexNumber
  rw [e, e, h]

/-! ## C01 -/

/-- C01. What a successful `PrivateFromHex` returns, for every text, network and hash. -/
theorem C01_wif_is_base58check (H : Hashes) (h : GoString) (net : Network) (k : PrivateKey)
    (hk : privateFromHex H h (some net) = .ok k) :
    (∃ payload, Spells (net.PrivKeyPrefix ++ h) payload ∧ IsBase58Check H.sha256 payload k.WIF) ∧
      k.Hex = h ∧ k.Network = some net ∧
      k.Key = (if h = [] then none else some (hexNumber h : Int)) := by
  obtain ⟨net', bs, he, hs, rfl⟩ := (privateFromHex_eq_ok H).1 hk
  cases he
  exact ⟨⟨bs, hs, isBase58_encode _⟩, rfl, rfl, bigSetString_hex (isHexDigit_right hs)⟩

/-- C01 for the usual case of a prefix that is itself a byte string in hexadecimal (both networks of the library):
the WIF is Base58Check of prefix bytes followed by key bytes, and the key is their big-endian value. -/
theorem C01_wif_bytes (H : Hashes) (h : GoString) (net : Network) (k : PrivateKey) (pre : Bytes)
    (hp : Spells net.PrivKeyPrefix pre) (hk : privateFromHex H h (some net) = .ok k) :
    ∃ body, Spells h body ∧ IsBase58Check H.sha256 (pre ++ body) k.WIF ∧
      (h ≠ [] → k.Key = some (bigEndian body : Int)) := by
  obtain ⟨⟨payload, hs, hw⟩, _, _, hkey⟩ := C01_wif_is_base58check H h net k hk
  obtain ⟨b1, b2, h1, h2, rfl⟩ := hs.split (by rw [hp.length]; omega)
  obtain rfl := h1.unique hp
  refine ⟨b2, h2, hw, fun hne => ?_⟩
  rw [hkey, if_neg hne, hexNumber_of_spells h2]

example : privateFromHex realHashes Samples.hexA (some MainNetwork) = .ok Samples.keyA ∧
    Spells MainNetwork.PrivKeyPrefix [0x80] :=
  ⟨Samples.fromHexA, hexDecode_eq_ok.1 (by decide +kernel)⟩

/-! ## C02 -/

/-- C02. `PrivateFromHex` accepts exactly the even-length hexadecimal texts (prefix included). -/
theorem C02_accepts_iff (H : Hashes) (h : GoString) (net : Network) :
    (∃ k, privateFromHex H h (some net) = .ok k) ↔
      (∀ c ∈ net.PrivKeyPrefix ++ h, IsHexDigit c) ∧ (net.PrivKeyPrefix ++ h).length % 2 = 0 := by
  rw [← exists_spells_iff]
  constructor
  · rintro ⟨k, hk⟩
    obtain ⟨net', bs, he, hs, rfl⟩ := (privateFromHex_eq_ok H).1 hk
    cases he
    exact ⟨bs, hs⟩
  · rintro ⟨bs, hs⟩
    exact ⟨_, privateFromHex_of_spells H hs⟩

/-- A failing decode reports the first bad character, or the length if all characters are good. -/
theorem hexDecode_bad : ∀ (s : GoString),
    (∀ pre c post, s = pre ++ c :: post → (∀ x ∈ pre, IsHexDigit x) → ¬ IsHexDigit c →
      hexDecode s = .err (.hexInvalidByte c)) ∧
    ((∀ c ∈ s, IsHexDigit c) → s.length % 2 = 1 → hexDecode s = .err .hexLength) := by
  have hnone : ∀ {c : UInt8}, ¬ IsHexDigit c → fromHexChar c = none := by
    intro c hc
    rw [← hexVal_eq_fromHexChar]
    simpa [IsHexDigit] using hc
  have hsome : ∀ {c : UInt8}, IsHexDigit c → ∃ x, fromHexChar c = some x := by
    intro c hc
    rw [← hexVal_eq_fromHexChar]
    exact Option.isSome_iff_exists.1 hc
  apply list_two_step
  · refine ⟨?_, by simp⟩
    intro pre c post h
    simp at h
  · intro a
    refine ⟨?_, ?_⟩
    · intro pre c post h hp hc
      cases pre with
      | nil =>
        simp only [List.nil_append, List.cons.injEq] at h
        obtain ⟨rfl, _⟩ := h
        simp [hexDecode, hnone hc]
      | cons p pre => simp at h
    · intro h _
      obtain ⟨x, hx⟩ := hsome (h a (by simp))
      simp [hexDecode, hx]
  · intro a b rest ih
    refine ⟨?_, ?_⟩
    · intro pre c post h hp hc
      match pre, h with
      | [], h =>
        simp only [List.nil_append, List.cons.injEq] at h
        obtain ⟨rfl, _⟩ := h
        simp [hexDecode, hnone hc]
      | [p], h =>
        simp only [List.cons_append, List.nil_append, List.cons.injEq] at h
        obtain ⟨rfl, rfl, _⟩ := h
        obtain ⟨x, hx⟩ := hsome (hp a (by simp))
        simp [hexDecode, hx, hnone hc]
      | p :: q :: pre, h =>
        simp only [List.cons_append, List.cons.injEq] at h
        obtain ⟨rfl, rfl, h⟩ := h
        obtain ⟨x, hx⟩ := hsome (hp a (by simp))
        obtain ⟨y, hy⟩ := hsome (hp b (by simp))
        simp [hexDecode, hx, hy, ih.1 pre c post h (fun z hz => hp z (by simp [hz])) hc]
    · intro h hl
      obtain ⟨x, hx⟩ := hsome (h a (by simp))
      obtain ⟨y, hy⟩ := hsome (h b (by simp))
      have := ih.2 (fun z hz => h z (by simp [hz])) (by simp only [List.length_cons] at hl; omega)
      simp [hexDecode, hx, hy, this]

/-- C02. A bad character is reported as an error naming the first bad character. -/
theorem C02_bad_character (H : Hashes) (h : GoString) (net : Network) (pre post : GoString) (c : UInt8)
    (hsplit : net.PrivKeyPrefix ++ h = pre ++ c :: post) (hpre : ∀ x ∈ pre, IsHexDigit x)
    (hc : ¬ IsHexDigit c) : privateFromHex H h (some net) = .err (.hexInvalidByte c) :=
  privateFromHex_of_err H ((hexDecode_bad _).1 pre c post hsplit hpre hc)

/-- C02. An odd number of hexadecimal digits is reported as a length error. -/
theorem C02_bad_length (H : Hashes) (h : GoString) (net : Network)
    (hd : ∀ c ∈ net.PrivKeyPrefix ++ h, IsHexDigit c) (hl : (net.PrivKeyPrefix ++ h).length % 2 = 1) :
    privateFromHex H h (some net) = .err .hexLength :=
  privateFromHex_of_err H ((hexDecode_bad _).2 hd hl)

/-- C02. Never a panic with a network; always a panic without one. -/
theorem C02_no_panic (H : Hashes) (h : GoString) (net : Network) (p : GoPanic) :
    privateFromHex H h (some net) ≠ .panic p ∧ privateFromHex H h none = .panic .nilDeref := by
  refine ⟨?_, rfl⟩
  cases hd : hexDecode (net.PrivKeyPrefix ++ h) with
  | ok bs => simp [privateFromHex_of_spells H (hexDecode_eq_ok.1 hd)]
  | err e => simp [privateFromHex_of_err H hd]
  | panic q => exact absurd hd (hexDecode_ne_panic _ _)

-- private_key_test.go:77-80: one digit missing, one digit too many
example : privateFromHex realHashes
    (asc "8613DFD6C099751DCC4020EF6F9BCD3C00F4565A15B26979B4B93C045D0A5CE") (some MainNetwork) =
    .err .hexLength := by decide +kernel
example : privateFromHex realHashes (asc "86x3") (some MainNetwork) = .err (.hexInvalidByte 120) := by
  decide +kernel

/-! ## C03 -/

/-- C03. `CheckWIF` is true exactly on Base58Check texts. -/
theorem C03_true_iff (H : Hashes) (w : GoString) :
    checkWIF H w = .ok true ↔ ∃ payload, IsBase58Check H.sha256 payload w := by
  rw [checkWIF_eq_true]
  constructor
  · rintro ⟨payload, h⟩
    exact ⟨payload, (base58Decode_eq_ok.1 h).2⟩
  · rintro ⟨payload, h⟩
    refine ⟨payload, base58Decode_of_isBase58 h ?_⟩
    rw [h.text_eq]
    apply base58Encode_ne_nil
    intro h0
    have := congrArg List.length h0
    simp [length_checksum] at this

/-- C03. The verdict on a text that decodes to a payload followed by four bytes. -/
theorem C03_decoded (H : Hashes) (w : GoString) (payload cs : Bytes) (hl : cs.length = 4)
    (h : IsBase58 (payload ++ cs) w) :
    checkWIF H w = .ok (decide (cs = (H.sha256 (H.sha256 payload)).take 4)) := by
  refine checkWIF_long H (base58Decode_of_isBase58 h ?_) hl
  rw [h.text_eq]
  apply base58Encode_ne_nil
  intro h0
  have := congrArg List.length h0
  simp [hl] at this

/-- C03. Texts that are empty or use a character outside the alphabet are rejected. -/
theorem C03_undecodable (H : Hashes) (w : GoString) (h : w = [] ∨ ∃ c ∈ w, c ∉ alphabet58) :
    checkWIF H w = .ok false := by
  rcases h with rfl | h
  · exact checkWIF_of_decode_err H rfl
  · apply checkWIF_of_decode_err H (e := .base58Digit)
    have : w ≠ [] := by rintro rfl; simp at h
    simp [base58Decode, this, mapM_b58Digit_of_not_mem h]

/-- C03. Every text is of exactly one of the kinds treated above or decodes to fewer than four bytes (C04). -/
theorem C03_exhaustive (w : GoString) :
    (w = [] ∨ ∃ c ∈ w, c ∉ alphabet58) ∨
      (∃ payload cs, cs.length = 4 ∧ IsBase58 (payload ++ cs) w) ∨
      (w ≠ [] ∧ ∃ bs, bs.length < 4 ∧ IsBase58 bs w) := by
  by_cases h1 : w = []
  · exact .inl (.inl h1)
  by_cases h2 : ∀ c ∈ w, c ∈ alphabet58
  · obtain ⟨bs, hb⟩ := exists_isBase58 h2
    by_cases hl : bs.length < 4
    · exact .inr (.inr ⟨h1, bs, hl, hb⟩)
    · obtain ⟨p, c, rfl, hc⟩ := split_last4 (Nat.le_of_not_lt hl)
      exact .inr (.inl ⟨p, c, hc, hb⟩)
  · push Not at h2
    exact .inl (.inr h2)

example : checkWIF realHashes Samples.wifA = .ok true := Samples.checkA
example : checkWIF realHashes (asc "5JE6ctXTzE8JK5Qaw1FUtR9kNiYsyBicuwdR2jn982sfn9BL2K") = .ok false :=
  Samples.checkBad
example : checkWIF realHashes (asc "0OIl") = .ok false := by decide +kernel

/-! ## C04 -/

/-- C04 is false: validating the one-character text "1" crashes, whatever the hash. -/
theorem C04_violated (H : Hashes) :
    ¬ (∀ w, ∀ p, checkWIF H w ≠ .panic p) ∧ ¬ (∀ w net, ∀ p, privateFromWIF H w net ≠ .panic p) := by
  have h1 : checkWIF H (asc "1") = .panic .sliceBounds :=
    checkWIF_short H (bs := [0]) (by decide +kernel) (by decide)
  exact ⟨fun h => h _ _ h1, fun h => h _ none _ (privateFromWIF_of_panic H h1)⟩

/-- C04, what holds: `CheckWIF` crashes exactly on non-empty texts that decode to fewer than four bytes. -/
theorem C04_checkWIF_panics_iff_partial (H : Hashes) (w : GoString) :
    (∃ p, checkWIF H w = .panic p) ↔ w ≠ [] ∧ ∃ bs, bs.length < 4 ∧ IsBase58 bs w := by
  constructor
  · rintro ⟨p, hp⟩
    rcases C03_exhaustive w with h | ⟨a, b, hb, h⟩ | h
    · simp [C03_undecodable H w h] at hp
    · simp [C03_decoded H w a b hb h] at hp
    · exact h
  · rintro ⟨h1, bs, hl, hb⟩
    exact ⟨_, checkWIF_short H (base58Decode_of_isBase58 hb h1) hl⟩

/-- C04, what holds: `PrivateFromWIF` crashes exactly on those and on the Base58Check text of the empty payload. -/
theorem C04_privateFromWIF_panics_iff_partial (H : Hashes) (w : GoString) (net : Option Network) :
    (∃ p, privateFromWIF H w net = .panic p) ↔
      (w ≠ [] ∧ ∃ bs, bs.length < 4 ∧ IsBase58 bs w) ∨ IsBase58Check H.sha256 [] w := by
  rw [← C04_checkWIF_panics_iff_partial H w]
  constructor
  · rintro ⟨p, hp⟩
    cases hc : checkWIF H w with
    | err e => exact absurd hc (checkWIF_ne_err H w e)
    | panic q => exact .inl ⟨q, rfl⟩
    | ok b =>
      cases b with
      | false => simp [privateFromWIF_of_false H hc] at hp
      | true =>
        obtain ⟨payload, hd⟩ := (checkWIF_eq_true H).1 hc
        cases payload with
        | nil => exact .inr (base58Decode_eq_ok.1 hd).2
        | cons v body => simp [privateFromWIF_long H hd] at hp
  · rintro (⟨p, hp⟩ | h)
    · exact ⟨p, privateFromWIF_of_panic H hp⟩
    · obtain ⟨payload, hd⟩ := (checkWIF_eq_true H).1 ((C03_true_iff H w).2 ⟨[], h⟩)
      have := h.bytes_unique (base58Decode_eq_ok.1 hd).2
      simp only [List.nil_append] at this
      exact ⟨_, privateFromWIF_empty H (this ▸ hd)⟩

-- the text "3QJmnh" passes the check and crashes the import
example : checkWIF realHashes (asc "3QJmnh") = .ok true := by decide +kernel
example : privateFromWIF realHashes (asc "3QJmnh") (some MainNetwork) = .panic .sliceBounds := by
  decide +kernel

/-! ## C05, C06, C07, C43 -/

/-- C05. Exporting to WIF and importing gives the key back. -/
theorem C05_hex_wif_roundtrip (H : Hashes) (h : GoString) (net : Network) (k : PrivateKey) (v : UInt8)
    (net2 : Option Network) (hp : Spells net.PrivKeyPrefix [v]) (hne : h ≠ [])
    (hk : privateFromHex H h (some net) = .ok k) :
    ∃ k2, privateFromWIF H k.WIF net2 = .ok k2 ∧ k2.Key = k.Key ∧ k2.Key ≠ none ∧ k2.WIF = k.WIF ∧
      IsLowerHexOf h k2.Hex ∧ k2.Network = net2 := by
  obtain ⟨body, hb, hw, hkey⟩ := C01_wif_bytes H h net k [v] hp hk
  have hd : base58Decode k.WIF = .ok (v :: body ++ checksum H.sha256 (v :: body)) := by
    apply base58Decode_of_isBase58 hw
    rw [hw.text_eq]
    apply base58Encode_ne_nil
    simp
  have hx : hexEncode body ≠ [] := by
    intro h0
    have h1 := congrArg List.length h0
    have h2 := hb.length
    simp only [length_hexEncode, List.length_nil] at h1
    exact hne (List.length_eq_zero_iff.1 (by omega))
  refine ⟨_, privateFromWIF_long H hd, ?_, ?_, rfl, isLowerHexOf_hexEncode hb, rfl⟩
  · rw [hkey hne]
    exact bigSetString_of_spells (spells_hexEncode body) hx
  · rw [bigSetString_of_spells (spells_hexEncode body) hx]
    simp

example : privateFromHex realHashes Samples.hexA (some MainNetwork) = .ok Samples.keyA ∧
    Spells MainNetwork.PrivKeyPrefix [0x80] ∧ Samples.hexA ≠ [] :=
  ⟨Samples.fromHexA, hexDecode_eq_ok.1 (by decide +kernel), by decide +kernel⟩

/-- C06. Importing a WIF on its own network and exporting gives the text back. -/
theorem C06_wif_hex_roundtrip (H : Hashes) (w : GoString) (net : Network) (k : PrivateKey) (v : UInt8)
    (rest : Bytes) (hv : IsBase58 (v :: rest) w) (hp : Spells net.PrivKeyPrefix [v])
    (hk : privateFromWIF H w (some net) = .ok k) :
    privateFromHex H k.Hex (some net) = .ok k ∧ k.WIF = w := by
  obtain ⟨v', body, hd, rfl⟩ := (privateFromWIF_eq_ok H).1 hk
  have hb := (base58Decode_eq_ok.1 hd).2
  have he := hv.bytes_unique hb
  simp only [List.cons_append, List.cons.injEq] at he
  obtain ⟨rfl, he⟩ := he
  refine ⟨?_, rfl⟩
  rw [privateFromHex_of_spells H (hp.append (spells_hexEncode body))]
  congr 1
  simp only [PrivateKey.mk.injEq, true_and, and_true]
  rw [hb.text_eq]
  rfl

example : privateFromWIF realHashes Samples.wifB (some MainNetwork) = .ok Samples.keyB := Samples.fromWifB
example : ∃ rest, IsBase58 (0x80 :: rest) Samples.wifB := by
  obtain ⟨v, body, h, _⟩ := (privateFromWIF_eq_ok _).1 Samples.fromWifB
  have h2 : ∀ bs, base58Decode Samples.wifB = .ok bs → bs.head? = some 0x80 := by
    have : (match base58Decode Samples.wifB with | .ok bs => bs.head? | _ => none) = some 0x80 := by
      decide +kernel
    intro bs hbs
    rwa [hbs] at this
  have := h2 _ h
  simp only [List.cons_append, List.head?_cons, Option.some.injEq] at this
  subst this
  exact ⟨_, (base58Decode_eq_ok.1 h).2⟩

/-- C07. On prefixes of equal length, two WIFs coincide exactly when prefix and key have the same digits. -/
theorem C07_wif_injective (H : Hashes) (h1 h2 : GoString) (net1 net2 : Network) (k1 k2 : PrivateKey)
    (hk1 : privateFromHex H h1 (some net1) = .ok k1) (hk2 : privateFromHex H h2 (some net2) = .ok k2)
    (hl : net1.PrivKeyPrefix.length = net2.PrivKeyPrefix.length) :
    k1.WIF = k2.WIF ↔
      net1.PrivKeyPrefix.map hexVal = net2.PrivKeyPrefix.map hexVal ∧ h1.map hexVal = h2.map hexVal := by
  obtain ⟨n1, b1, e1, s1, rfl⟩ := (privateFromHex_eq_ok H).1 hk1
  obtain ⟨n2, b2, e2, s2, rfl⟩ := (privateFromHex_eq_ok H).1 hk2
  cases e1; cases e2
  constructor
  · intro hw
    have hw := base58Encode_inj hw
    have : b1 = b2 := (List.append_inj' hw (by simp [length_checksum])).1
    subst this
    have := sameDigits_of_spells s1 s2
    simp only [List.map_append] at this
    exact List.append_inj this (by simpa using hl)
  · rintro ⟨hp, hh⟩
    have : Spells (net2.PrivKeyPrefix ++ h2) b1 := by
      apply spells_of_sameDigits _ s1
      simp [hp, hh]
    rw [this.unique s2]

/-- C07. Equal WIFs mean equal keys. -/
theorem C07_equal_wif_equal_key (H : Hashes) (h1 h2 : GoString) (net1 net2 : Network) (k1 k2 : PrivateKey)
    (hk1 : privateFromHex H h1 (some net1) = .ok k1) (hk2 : privateFromHex H h2 (some net2) = .ok k2)
    (hl : net1.PrivKeyPrefix.length = net2.PrivKeyPrefix.length) (hw : k1.WIF = k2.WIF) : k1.Key = k2.Key := by
  have hd := ((C07_wif_injective H h1 h2 net1 net2 k1 k2 hk1 hk2 hl).1 hw).2
  rw [(C01_wif_is_base58check H h1 net1 k1 hk1).2.2.2, (C01_wif_is_base58check H h2 net2 k2 hk2).2.2.2,
    hexNumber_of_sameDigits hd]
  have : h1 = [] ↔ h2 = [] := by
    have := congrArg List.length hd
    simp only [List.length_map] at this
    rw [← List.length_eq_zero_iff, ← List.length_eq_zero_iff, this]
  simp [this]

example : privateFromHex realHashes Samples.hexA (some MainNetwork) = .ok Samples.keyA ∧
    privateFromHex realHashes Samples.hexB (some MainNetwork) = .ok Samples.keyB ∧
    Samples.keyA.WIF ≠ Samples.keyB.WIF := ⟨Samples.fromHexA, Samples.fromHexB, by decide +kernel⟩

/-- C43 (private keys). Letter case of the hexadecimal text does not matter, except that `Hex` repeats it. -/
theorem C43_privateFromHex_case (H : Hashes) (h1 h2 : GoString) (net : Network) (k1 : PrivateKey)
    (hd : h1.map hexVal = h2.map hexVal) (hk1 : privateFromHex H h1 (some net) = .ok k1) :
    privateFromHex H h2 (some net) = .ok { k1 with Hex := h2 } := by
  obtain ⟨n1, b1, e1, s1, rfl⟩ := (privateFromHex_eq_ok H).1 hk1
  cases e1
  have s2 : Spells (net.PrivKeyPrefix ++ h2) b1 := by
    apply spells_of_sameDigits _ s1
    simp [hd]
  rw [privateFromHex_of_spells H s2, bigSetString_hex (isHexDigit_right s1),
    bigSetString_hex (isHexDigit_right s2), hexNumber_of_sameDigits hd]
  have : h1 = [] ↔ h2 = [] := by
    have := congrArg List.length hd
    simp only [List.length_map] at this
    rw [← List.length_eq_zero_iff, ← List.length_eq_zero_iff, this]
  simp [this]

example : Samples.hexA ≠ asciiLower Samples.hexA ∧ Samples.hexA.map hexVal = (asciiLower Samples.hexA).map hexVal := by
  decide +kernel

/-! ## C09, C10 -/

/-- C09. Only texts with a valid checksum are imported. -/
theorem C09_import_requires_check (H : Hashes) (w : GoString) (net : Option Network) :
    (∀ k, privateFromWIF H w net = .ok k → checkWIF H w = .ok true) ∧
      (checkWIF H w = .ok false → privateFromWIF H w net = .err .wifInvalid) := by
  refine ⟨?_, privateFromWIF_of_false H⟩
  intro k hk
  obtain ⟨v, body, hd, _⟩ := (privateFromWIF_eq_ok H).1 hk
  exact (checkWIF_eq_true H).2 ⟨v :: body, hd⟩

/-- C09. The verdict does not depend on the network. -/
theorem C09_verdict_independent (H : Hashes) (w : GoString) (net1 net2 : Option Network) :
    privateFromWIF H w net2 = (privateFromWIF H w net1 >>= fun k => .ok { k with Network := net2 }) := by
  cases hc : checkWIF H w with
  | err e => exact absurd hc (checkWIF_ne_err H w e)
  | panic q => simp [privateFromWIF_of_panic H hc]
  | ok b =>
    cases b with
    | false => simp [privateFromWIF_of_false H hc]
    | true =>
      obtain ⟨payload, hd⟩ := (checkWIF_eq_true H).1 hc
      cases payload with
      | nil => simp [privateFromWIF_empty H hd]
      | cons v body => simp [privateFromWIF_long H hd]

example : privateFromWIF realHashes (asc "5JE6ctXTzE8JK5Qaw1FUtR9kNiYsyBicuwdR2jn982sfn9BL2K") none =
    .err .wifInvalid := (C09_import_requires_check _ _ _).2 Samples.checkBad

/-- C10. Two accepted texts with the same payload are the same text. -/
theorem C10_checksum_tamper (H : Hashes) (w1 w2 : GoString) (payload c1 c2 : Bytes)
    (hl1 : c1.length = 4) (hl2 : c2.length = 4) (h1 : IsBase58 (payload ++ c1) w1)
    (h2 : IsBase58 (payload ++ c2) w2) (ok1 : checkWIF H w1 = .ok true) (hne : w1 ≠ w2) :
    checkWIF H w2 = .ok false := by
  rw [C03_decoded H w1 payload c1 hl1 h1] at ok1
  simp only [Res.ok.injEq, decide_eq_true_eq] at ok1
  rw [C03_decoded H w2 payload c2 hl2 h2]
  simp only [Res.ok.injEq, decide_eq_false_iff_not]
  intro hc
  rw [← ok1] at hc
  subst hc
  exact hne (h1.text_unique h2)

-- the sample key with one checksum bit flipped
example : ∃ payload c1 c2 w2, c1.length = 4 ∧ c2.length = 4 ∧ IsBase58 (payload ++ c1) Samples.wifA ∧
    IsBase58 (payload ++ c2) w2 ∧ checkWIF realHashes Samples.wifA = .ok true ∧ Samples.wifA ≠ w2 := by
  have hd : base58Decode Samples.wifA = .ok
      ((match base58Decode Samples.wifA with | .ok bs => bs | _ => []).take 33 ++
       (match base58Decode Samples.wifA with | .ok bs => bs | _ => []).drop 33) := by decide +kernel
  refine ⟨_, _, [0, 0, 0, 0], _, ?_, rfl, (base58Decode_eq_ok.1 hd).2, isBase58_encode _, Samples.checkA, ?_⟩
  · decide +kernel
  · decide +kernel

/-! ## C11 -/

/-- C11. Shape of the WIF of every 64-digit key. -/
theorem C11_wif_shape (H : Hashes) (h : GoString) (hd : ∀ c ∈ h, IsHexDigit c) (hl : h.length = 64) :
    (∃ k rest, privateFromHex H h (some MainNetwork) = .ok k ∧ k.WIF = 53 :: rest ∧ rest.length = 50) ∧
    (∃ k rest, privateFromHex H h (some TestNetwork) = .ok k ∧ k.WIF = 57 :: rest ∧ rest.length = 50) := by
  obtain ⟨body, hb⟩ := (exists_spells_iff h).2 ⟨hd, by omega⟩
  have hbl : body.length = 32 := by have := hb.length; omega
  have hm : Spells MainNetwork.PrivKeyPrefix [0x80] := hexDecode_eq_ok.1 (by decide +kernel)
  have ht : Spells TestNetwork.PrivKeyPrefix [0xEF] := hexDecode_eq_ok.1 (by decide +kernel)
  constructor
  · have hp := privateFromHex_of_spells H (hm.append hb)
    obtain ⟨rest, h1, h2⟩ := base58_head (bs := body ++ checksum H.sha256 ([0x80] ++ body)) (v := 0x80)
      (d := 4) (k := 50) (m := 36) (by decide) (by simp [hbl, length_checksum]) (by decide) (by decide)
      (by decide +kernel) (by decide +kernel)
    exact ⟨_, rest, hp, h1, h2⟩
  · have hp := privateFromHex_of_spells H (ht.append hb)
    obtain ⟨rest, h1, h2⟩ := base58_head (bs := body ++ checksum H.sha256 ([0xEF] ++ body)) (v := 0xEF)
      (d := 8) (k := 50) (m := 36) (by decide) (by simp [hbl, length_checksum]) (by decide) (by decide)
      (by decide +kernel) (by decide +kernel)
    exact ⟨_, rest, hp, h1, h2⟩

instance (c : UInt8) : Decidable (IsHexDigit c) := inferInstanceAs (Decidable (_ = true))

example : (∀ c ∈ Samples.hexT, IsHexDigit c) ∧ Samples.hexT.length = 64 ∧ Samples.wifT.length = 51 := by
  decide +kernel

/-! ## C12, C13 -/

/-- C12, what the code does: a compressed-key WIF is imported as the number 256·k + 1. -/
theorem C12_compressed_import_partial (H : Hashes) (kb : Bytes) (w : GoString) (net : Option Network)
    (hw : IsBase58Check H.sha256 (0x80 :: kb ++ [1]) w) :
    ∃ k, privateFromWIF H w net = .ok k ∧ k.Key = some (256 * bigEndian kb + 1 : Int) ∧
      Spells k.Hex (kb ++ [1]) := by
  have hne : w ≠ [] := by
    rw [hw.text_eq]
    apply base58Encode_ne_nil
    simp
  have hd := base58Decode_of_isBase58 hw hne
  rw [List.cons_append] at hd
  refine ⟨_, privateFromWIF_long (v := 0x80) (body := kb ++ [1]) H hd, ?_, spells_hexEncode _⟩
  rw [bigSetString_of_spells (spells_hexEncode _)]
  · rw [bigEndian_eq, bigEndian_eq, bytesToNat_append]
    simp [bytesToNat, ofBE]
    ring
  · intro h0
    have := congrArg List.length h0
    simp at this

/-- C12 is false for every hash function. -/
theorem C12_violated (H : Hashes) :
    ¬ ∀ (kb : Bytes) (w : GoString) (net : Option Network), kb.length = 32 →
      IsBase58Check H.sha256 (0x80 :: kb ++ [1]) w →
      ∃ k, privateFromWIF H w net = .ok k ∧ k.Key = some (bigEndian kb : Int) := by
  intro h
  have hw := isBase58_encode
    ((0x80 :: List.replicate 32 1 ++ [1]) ++ checksum H.sha256 (0x80 :: List.replicate 32 1 ++ [1]))
  obtain ⟨k, h1, h2⟩ := h (List.replicate 32 1) _ none (by simp) hw
  obtain ⟨k', h1', h2', _⟩ := C12_compressed_import_partial H (List.replicate 32 1) _ none hw
  rw [h1] at h1'
  cases h1'
  rw [h2] at h2'
  simp only [Option.some.injEq] at h2'
  omega

-- the well-known compressed WIF of the private key 1 is imported as 257
example : (match privateFromWIF realHashes (asc "KwDiBf89QgGbjEhKnhXJuH7LrciVrZi3qYjgd9M7rFU73sVHnoWn")
    (some MainNetwork) with | .ok k => k.Key | _ => none) = some 257 := by decide +kernel

/-- C13, what the code does: the version byte never matters. Success, key and hexadecimal text are the same for
every network, and any Base58Check text with at least one payload byte is accepted. -/
theorem C13_version_ignored_partial (H : Hashes) (w : GoString) (v : UInt8) (body : Bytes)
    (net : Option Network) (hw : IsBase58Check H.sha256 (v :: body) w) :
    ∃ k, privateFromWIF H w net = .ok k ∧ Spells k.Hex body ∧ k.Network = net ∧
      (body ≠ [] → k.Key = some (bigEndian body : Int)) ∧ (body = [] → k.Key = none) := by
  have hne : w ≠ [] := by
    rw [hw.text_eq]
    apply base58Encode_ne_nil
    simp
  have hd := base58Decode_of_isBase58 hw hne
  refine ⟨_, privateFromWIF_long H hd, spells_hexEncode _, rfl, ?_, ?_⟩
  · intro hb
    apply bigSetString_of_spells (spells_hexEncode _)
    intro h0
    have := congrArg List.length h0
    simp only [length_hexEncode, List.length_nil] at this
    exact hb (List.length_eq_zero_iff.1 (by omega))
  · rintro rfl
    rfl

/-- C13 is false for every hash function: a main-network WIF is accepted on the test network. -/
theorem C13_violated (H : Hashes) :
    ¬ ∀ (w : GoString) (net : Network) (v : UInt8) (rest : Bytes), IsBase58 (v :: rest) w →
      ¬ Spells net.PrivKeyPrefix [v] → ∀ k, privateFromWIF H w (some net) ≠ .ok k := by
  intro h
  have hw := isBase58_encode
    ((0x80 :: List.replicate 32 1) ++ checksum H.sha256 (0x80 :: List.replicate 32 1))
  obtain ⟨k, h1, _⟩ := C13_version_ignored_partial H _ 0x80 (List.replicate 32 1) (some TestNetwork) hw
  refine h _ TestNetwork 0x80 _ hw ?_ k h1
  intro hs
  have h2 : Spells TestNetwork.PrivKeyPrefix [0xEF] := hexDecode_eq_ok.1 (by decide +kernel)
  have := hs.unique h2
  revert this
  decide

-- the sample main-network key imported "on the test network"
example : (match privateFromWIF realHashes Samples.wifA (some TestNetwork) with
    | .ok k => k.Key | _ => none) = Samples.keyA.Key := by decide +kernel

end Btc
