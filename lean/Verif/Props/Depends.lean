import Verif.Props.Keys
import Verif.Props.PhraseCount

/-!
# C96, C98–C100: what results depend on, nil networks, how many texts pass the check, any correct curve package
-/

namespace Btc

open Spec

/-! ## C96 -/

/-- C96. Sums and products of keys depend only on the networks, the WIFs and the numbers modulo n of the arguments;
the `Hex` fields have no influence. -/
theorem C96_arithmetic_inputs (H : Hashes) (a a' b b' : PrivateKey) (ka ka' kb kb' : Int)
    (h1 : a.Key = some ka) (h1' : a'.Key = some ka') (h2 : b.Key = some kb) (h2' : b'.Key = some kb')
    (ea : ka % (Spec.n : Int) = ka' % (Spec.n : Int)) (eb : kb % (Spec.n : Int) = kb' % (Spec.n : Int))
    (na : a.Network = a'.Network) (nb : b.Network = b'.Network) (wa : a.WIF = a'.WIF) (wb : b.WIF = b'.WIF) :
    addPrivateKeys H a b = addPrivateKeys H a' b' ∧ multiplyPrivateKeys H a b = multiplyPrivateKeys H a' b' := by
  have e1 : (ka + kb) % (Spec.n : Int) = (ka' + kb') % (Spec.n : Int) := by
    rw [Int.add_emod, ea, eb, ← Int.add_emod]
  have e2 : (ka * kb) % (Spec.n : Int) = (ka' * kb') % (Spec.n : Int) := by
    rw [Int.mul_emod, ea, eb, ← Int.mul_emod]
  constructor
  · simp only [addPrivateKeys, na, nb, wa, wb, h1, h1', h2, h2', secp256k1_N, deref, Res.bind_ok, e1]
  · simp only [multiplyPrivateKeys, na, nb, wa, wb, h1, h1', h2, h2', secp256k1_N, deref, Res.bind_ok, e2]

/-- C96. The public key depends only on number and network, not on the texts of the private key. -/
theorem C96_public_key_inputs (E : Ecdsa) (a a' : PrivateKey) (hk : a.Key = a'.Key) (hn : a.Network = a'.Network) :
    getPublicKey E a = getPublicKey E a' := by
  simp only [getPublicKey, hk, hn]

/-- C96. The network has influence on `PrivateFromHex` only through the private-key prefix. -/
theorem C96_hex_inputs (H : Hashes) (h : GoString) (net net' : Network) (k : PrivateKey)
    (hp : net.PrivKeyPrefix = net'.PrivKeyPrefix) (hk : privateFromHex H h (some net) = .ok k) :
    privateFromHex H h (some net') = .ok { k with Network := some net' } := by
  obtain ⟨n1, bs, x1, s1, rfl⟩ := (privateFromHex_eq_ok H).1 hk
  cases x1
  rw [hp] at s1
  exact privateFromHex_of_spells H s1

/-- C96. The network has no influence on `PrivateFromWIF` but is stored in the key. -/
theorem C96_wif_inputs (H : Hashes) (w : GoString) (net net' : Option Network) (k : PrivateKey)
    (hk : privateFromWIF H w net = .ok k) : privateFromWIF H w net' = .ok { k with Network := net' } := by
  obtain ⟨w0, body, h1, rfl⟩ := (privateFromWIF_eq_ok H).1 hk
  exact (privateFromWIF_eq_ok H).2 ⟨w0, body, h1, rfl⟩

/-- C96. An address depends on the network only through the address prefix. -/
theorem C96_address_inputs (H : Hashes) (x y : Option Int) (net net' : Network) (c : Bool)
    (hp : net.PubKeyHashPrefix = net'.PubKeyHashPrefix) :
    address H ⟨x, y, some net⟩ c = address H ⟨x, y, some net'⟩ c := by
  simp only [address, format, deref, hp, Res.bind_ok]

/-- C96. `AddPublicKeys` does not look at its last argument. -/
theorem C96_flag_unused (E : Ecdsa) (P Q : PublicKey) (c c' : Bool) :
    addPublicKeys E P Q c = addPublicKeys E P Q c' := rfl

/-- C96: networks that differ in the other prefix only; a WIF on either network; the same point on either network. -/
example : (∃ k, privateFromHex realHashes Samples.hexA (some ⟨asc "80", asc "05"⟩) = .ok k ∧ k.WIF = Samples.wifA) ∧
    privateFromWIF realHashes Samples.wifB (some TestNetwork) = .ok { Samples.keyB with Network := some TestNetwork } ∧
    address realHashes { Samples.pubA with Network := some ⟨asc "EF", asc "00"⟩ } false =
      .ok (asc "1BBu2rgpgcqRhWg3E4zhLkYvjA5BGqT4Ue") :=
  ⟨⟨_, C96_hex_inputs realHashes _ MainNetwork ⟨asc "80", asc "05"⟩ _ (by decide +kernel) Samples.fromHexA, rfl⟩,
    C96_wif_inputs realHashes _ _ _ _ Samples.fromWifB,
    (C96_address_inputs realHashes _ _ ⟨asc "EF", asc "00"⟩ MainNetwork _ (by decide +kernel)).trans Samples.addressA⟩

/-- The sample key with another text in `Hex` and n added to its number. -/
example : addPrivateKeys realHashes Samples.keyA Samples.keyB =
    addPrivateKeys realHashes { Samples.keyA with Hex := asc "xyz", Key := Samples.keyA.Key.map (· + (Spec.n : Int)) }
      Samples.keyB := by
  obtain ⟨ka, h1⟩ : ∃ ka, Samples.keyA.Key = some ka := Option.isSome_iff_exists.1 (by decide +kernel)
  obtain ⟨kb, h2⟩ : ∃ kb, Samples.keyB.Key = some kb := Option.isSome_iff_exists.1 (by decide +kernel)
  exact (C96_arithmetic_inputs realHashes Samples.keyA
    { Samples.keyA with Hex := asc "xyz", Key := Samples.keyA.Key.map (· + (Spec.n : Int)) } Samples.keyB Samples.keyB ka (ka + (Spec.n : Int)) kb kb h1 (by simp [h1]) h2 h2 (by simp) rfl
    rfl rfl rfl rfl).1

/-! ## C98 -/

/-- C98 is false: `PrivateFromHex` and `GeneratePrivateKey` crash on a nil network, and `PrivateFromWIF` accepts it and
returns a key whose address cannot be computed without a crash. -/
theorem C98_nil_network_violated (H : Hashes) :
    (∀ h, privateFromHex H h none = .panic .nilDeref) ∧
    (∀ w net k, privateFromWIF H w net = .ok k → ∃ k', privateFromWIF H w none = .ok k' ∧ k'.Network = none) ∧
    (∀ x y c s bs, format ⟨x, y, none⟩ c = .ok s → hexDecode s = .ok bs → address H ⟨x, y, none⟩ c = .panic .nilDeref) := by
  refine ⟨fun h => privateFromHex_none H h, fun w net k hk => ?_, fun x y c s bs hs hb => ?_⟩
  · exact ⟨_, C96_wif_inputs H w net none k hk, rfl⟩
  · simp [address, hs, hb, deref]

/-- C98, what holds: no function returns a key on a nil network by itself; keys without a network come only from
`PrivateFromWIF` and `PublicFromHex` called with nil, and `AddPrivateKeys` and `MultiplyPrivateKeys` never return one. -/
theorem C98_no_nil_results_partial (H : Hashes) (k : PrivateKey)
    (hk : (∃ h net, privateFromHex H h net = .ok k) ∨ (∃ rd rd' net, generatePrivateKey H rd net = .ok (k, rd')) ∨
      (∃ a b, addPrivateKeys H a b = .ok k ∨ multiplyPrivateKeys H a b = .ok k)) :
    k.Network ≠ none := by
  have hex : ∀ h net k, privateFromHex H h net = .ok k → k.Network ≠ none := by
    intro h net k hk
    obtain ⟨n1, bs, rfl, s1, rfl⟩ := (privateFromHex_eq_ok H).1 hk
    simp
  rcases hk with ⟨h, net, hk⟩ | ⟨rd, rd', net, hk⟩ | ⟨a, b, hk⟩
  · exact hex _ _ _ hk
  · obtain ⟨v, -, -, -, -, h, -⟩ := generate_ok H net _ rd le_rfl k rd' hk
    exact hex _ _ _ h
  · rcases hk with hk | hk
    · obtain ⟨_, _, net, _, -, -, -, -, -, -, rfl⟩ := (combine_eq_ok H _).1 (add_eq_combine H ▸ hk)
      simp
    · obtain ⟨_, _, net, _, -, -, -, -, -, -, rfl⟩ := (combine_eq_ok H _).1 (mul_eq_combine H ▸ hk)
      simp

/-- The WIF of the sample key imported without a network; adding two such keys crashes. -/
example : (∃ k, privateFromWIF realHashes Samples.wifA none = .ok k ∧ k.Network = none) ∧
    addPrivateKeys realHashes { Samples.keyA with Network := none } { Samples.keyB with Network := none } =
      .panic .nilDeref := by
  have h : privateFromWIF realHashes Samples.wifA none = .ok { Samples.keyA with Network := none, Hex := asciiLower Samples.hexA } := by
    decide +kernel
  exact ⟨⟨_, h, rfl⟩, by decide +kernel⟩

/-! ## C99 -/

/-- C99. There are `256^N` Base58 texts of `N` bytes. -/
theorem C99_text_count (N : Nat) : {w : GoString | ∃ bs : Bytes, bs.length = N ∧ IsBase58 bs w}.ncard = 256 ^ N := by
  have e : {w : GoString | ∃ bs : Bytes, bs.length = N ∧ IsBase58 bs w} = base58Encode '' {bs | bs.length = N} := by
    ext w
    simp only [Set.mem_ofPred_eq, Set.mem_image, isBase58_iff_encode, eq_comm]
  rw [e, Set.ncard_image_of_injective _ (fun _ _ h => base58Encode_inj h), ncard_length]

/-- C99. Of the Base58 texts of `N` bytes exactly `256^(N - 4)` pass the check, one in `2^32`, for every hash
function. -/
theorem C99_passing_count (H : Hashes) (N : Nat) (hN : 4 ≤ N) :
    {w : GoString | (∃ bs : Bytes, bs.length = N ∧ IsBase58 bs w) ∧ checkWIF H w = .ok true}.ncard = 256 ^ (N - 4) ∧
    {w : GoString | (∃ bs : Bytes, bs.length = N ∧ IsBase58 bs w) ∧ checkWIF H w = .ok true}.ncard * 2 ^ 32 =
      {w : GoString | ∃ bs : Bytes, bs.length = N ∧ IsBase58 bs w}.ncard := by
  have hcl : ∀ b : Bytes, (checksum H.sha256 b).length = 4 := fun b => by simp [checksum, H.sha_len]
  have e : {w : GoString | (∃ bs : Bytes, bs.length = N ∧ IsBase58 bs w) ∧ checkWIF H w = .ok true} =
      (fun b : Bytes => base58Encode (b ++ checksum H.sha256 b)) '' {b | b.length = N - 4} := by
    ext w
    simp only [Set.mem_ofPred_eq, Set.mem_image, C03_true_iff, IsBase58Check]
    constructor
    · rintro ⟨⟨bs, hl, hb⟩, payload, hp⟩
      have := congrArg List.length (hb.bytes_unique hp)
      rw [List.length_append, hcl] at this
      exact ⟨payload, by omega, ((isBase58_iff_encode _ _).1 hp).symm⟩
    · rintro ⟨b, hb, rfl⟩
      exact ⟨⟨_, by rw [List.length_append, hcl]; omega, isBase58_encode _⟩, b, isBase58_encode _⟩
  have h1 : {w : GoString | (∃ bs : Bytes, bs.length = N ∧ IsBase58 bs w) ∧ checkWIF H w = .ok true}.ncard =
      256 ^ (N - 4) := by
    rw [e, Set.ncard_image_of_injective, ncard_length]
    intro a b h
    exact (List.append_inj' (base58Encode_inj h) ((hcl a).trans (hcl b).symm)).1
  refine ⟨h1, ?_⟩
  rw [h1, C99_text_count, show (2 : Nat) ^ 32 = 256 ^ 4 by norm_num, ← pow_add, Nat.sub_add_cancel hN]

/-- Texts of the length of a WIF, 37 bytes: `256^33` pass. The sample WIF is one of them. -/
example : {w : GoString | (∃ bs : Bytes, bs.length = 37 ∧ IsBase58 bs w) ∧ checkWIF realHashes w = .ok true}.ncard =
    256 ^ 33 ∧ checkWIF realHashes Samples.wifA = .ok true :=
  ⟨(C99_passing_count realHashes 37 (by decide)).1, Samples.checkA⟩

/-! ## C100 -/

/-- C100. All curve packages that meet the contract give the same public key. -/
theorem C100_public_key (E E' : Ecdsa) (hE : EcdsaContract E) (hE' : EcdsaContract E') (key : PrivateKey) (k : Nat)
    (hk : key.Key = some (k : Int)) (h1 : 1 ≤ k) (h2 : k < Spec.n) : getPublicKey E key = getPublicKey E' key := by
  obtain ⟨x, y, hc, hr⟩ := C33_public_key E hE EC.G EC.G_coords key k hk h1 h2
  obtain ⟨x', y', hc', hr'⟩ := C33_public_key E' hE' EC.G EC.G_coords key k hk h1 h2
  obtain ⟨rfl, rfl⟩ := EC.coords_unique hc hc'
  rw [hr, hr']

/-- C100. And the same imported public key, or the same error, for every compressed text with reduced X, whatever
follows it. -/
theorem C100_compressed (E E' : Ecdsa) (hE : EcdsaContract E) (hE' : EcdsaContract E') (par : Fin 2) (xs t : GoString)
    (net : Option Network) (hl : xs.length = 64) (hh : ∀ c ∈ xs, IsHexDigit c) (hx : hexNumber xs < Spec.p) :
    publicFromHex E (Spec.parityPrefix par ++ xs ++ t) net = publicFromHex E' (Spec.parityPrefix par ++ xs ++ t) net := by
  have hne : xs ≠ [] := by rintro rfl; simp at hl
  have e : ∀ E : Ecdsa, publicFromHex E (Spec.parityPrefix par ++ xs ++ t) net =
      decompress E ((par : Nat) : Int) (some (hexNumber xs : Int)) net := by
    intro E
    have h2 := publicFromHex_even E (xs := xs) t net hl
    have h3 := publicFromHex_odd E (xs := xs) t net hl
    rw [bigSetString_hex hh, if_neg hne] at h2 h3
    match par with
    | 0 => exact h2
    | 1 => exact h3
  rw [e, e]
  by_cases hy : ∃ y, OnCurve (hexNumber xs) y
  · obtain ⟨y, ⟨hy, hp⟩, -⟩ := (C30_decompression E hE par xs net hl hh hx).2.2 hy
    rw [decompress_ok E hE net hy hp, decompress_ok E' hE' net hy hp]
  · push Not at hy
    rw [decompress_err E hE net _ hx hy, decompress_err E' hE' net _ hx hy]

/-- C100. Texts that do not begin with 02 or 03 never reach the curve package. -/
theorem C100_other_texts (E E' : Ecdsa) (h : GoString) (net : Option Network)
    (h2 : h.take 2 ≠ asc "02") (h3 : h.take 2 ≠ asc "03") : publicFromHex E h net = publicFromHex E' h net := by
  by_cases hl : 2 ≤ h.length
  · have hs : slice h 0 2 = .ok (h.take 2) := slice_zero hl
    simp only [publicFromHex, hs, Res.bind_ok, h2, h3, or_self, if_false]
  · have hs : ∃ p, slice h 0 2 = .panic p := by
      refine ⟨.sliceBounds, ?_⟩
      simp only [slice]
      rw [if_neg]
      omega
    obtain ⟨p, hs⟩ := hs
    simp [publicFromHex, hs]

/-- C100. And the same sum of public keys, or the same error. -/
theorem C100_add (E E' : Ecdsa) (hE : EcdsaContract E) (hE' : EcdsaContract E') (net net' : Option Network) (c c' : Bool)
    (x y x' y' : Nat) (h : OnCurve x y) (h' : OnCurve x' y') (hne : x ≠ x') :
    addPublicKeys E ⟨some (x : Int), some (y : Int), net⟩ ⟨some (x' : Int), some (y' : Int), net'⟩ c =
      addPublicKeys E' ⟨some (x : Int), some (y : Int), net⟩ ⟨some (x' : Int), some (y' : Int), net'⟩ c' := by
  by_cases hn : net = net'
  · subst hn
    obtain ⟨P, hP⟩ := (EC.onCurve_iff _ _).1 h
    obtain ⟨Q, hQ⟩ := (EC.onCurve_iff _ _).1 h'
    obtain ⟨u, v, hc, -, hr⟩ := C37_add_public_keys E hE P Q x y x' y' net hP hQ hne
    obtain ⟨u', v', hc', -, hr'⟩ := C37_add_public_keys E' hE' P Q x y x' y' net hP hQ hne
    obtain ⟨rfl, rfl⟩ := EC.coords_unique hc hc'
    rw [(hr c).1, (hr' c').1]
  · simp [addPublicKeys, hn]

/-- A second package: `GetY` returns the other square root. -/
def Samples.otherRoot : Ecdsa :=
  { EC.ref with
    getY := fun c X =>
      match EC.ref.getY c X with
      | .ok (some y, true) => .ok (some ((Spec.p : Int) - y), true)
      | r => r }

theorem Samples.otherRoot_contract : EcdsaContract Samples.otherRoot where
  getY_some := by
    intro c x y hc h
    obtain ⟨y', h', hr⟩ := EC.ref_contract.getY_some c x y hc h
    obtain ⟨P, hP⟩ := (EC.onCurve_iff _ _).1 h'
    refine ⟨Spec.p - y', (EC.onCurve_iff _ _).2 ⟨_, EC.neg_coords hP⟩, ?_⟩
    have := h'.2.1
    simp only [Samples.otherRoot, hr, Nat.cast_sub this.le]
  getY_none := by
    intro c x hc hx h
    obtain ⟨r, hr⟩ := EC.ref_contract.getY_none c x hc hx h
    exact ⟨r, by simp [Samples.otherRoot, hr]⟩
  multMod := EC.ref_contract.multMod
  addPoints := EC.ref_contract.addPoints
  scalarMult := EC.ref_contract.scalarMult

/-- The two packages differ for x = 1, and import the same key. -/
example : (EC.ref.getY secp256k1 (some 1) ≠ Samples.otherRoot.getY secp256k1 (some 1)) ∧
    publicFromHex EC.ref (asc "020000000000000000000000000000000000000000000000000000000000000001") none =
      publicFromHex Samples.otherRoot (asc "020000000000000000000000000000000000000000000000000000000000000001") none := by
  refine ⟨by decide +kernel, ?_⟩
  have := C100_compressed EC.ref Samples.otherRoot EC.ref_contract Samples.otherRoot_contract 0
    (asc "0000000000000000000000000000000000000000000000000000000000000001") [] none (by decide)
    (by unfold IsHexDigit; decide +kernel) (by decide +kernel)
  exact this

end Btc
