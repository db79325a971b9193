import Verif.Proofs.Pub
import Verif.Proofs.Shape
import Verif.Props.Samples

/-!
# C39 – C42: addresses
-/

namespace Btc

open Spec

/-! ## C39 -/

/-- C39. An address is Base58Check of the prefix and the hash of the serialized key. -/
theorem C39_address_bytes (H : Hashes) (x y : Nat) (net : Network) (pre : Bytes) (c : Bool) (hx : x < 2 ^ 256)
    (hy : y < 2 ^ 256) (hp : Spells net.PubKeyHashPrefix pre) :
    ∃ ser a, IsSerialized c x y ser ∧ address H ⟨some x, some y, some net⟩ c = .ok a ∧
      IsBase58Check H.sha256 (pre ++ hash160 H.sha256 H.ripemd160 ser) a := by
  obtain ⟨s, ser, hf, hs, hser⟩ := format_spells c hx hy (some net)
  exact ⟨ser, _, hser, address_of_spells H hf hs rfl hp, isBase58_encode _⟩

/-- The serialization is determined by the coordinates. -/
theorem C39_serialization_unique (c : Bool) (x y : Nat) (s t : Bytes) (hs : IsSerialized c x y s)
    (ht : IsSerialized c x y t) : s = t := isSerialized_unique hs ht

theorem mainPrefix : Spells MainNetwork.PubKeyHashPrefix [0x00] := hexDecode_eq_ok.1 (by decide +kernel)
theorem testPrefix : Spells TestNetwork.PubKeyHashPrefix [0x6F] := hexDecode_eq_ok.1 (by decide +kernel)

/-- C39. On the two networks an address always exists. -/
theorem C39_address_never_fails (H : Hashes) (x y : Nat) (net : Network) (c : Bool) (hx : x < 2 ^ 256)
    (hy : y < 2 ^ 256) (hn : net = MainNetwork ∨ net = TestNetwork) :
    ∃ a, address H ⟨some x, some y, some net⟩ c = .ok a := by
  rcases hn with rfl | rfl
  · obtain ⟨_, a, _, h, _⟩ := C39_address_bytes H x y _ _ c hx hy mainPrefix
    exact ⟨a, h⟩
  · obtain ⟨_, a, _, h, _⟩ := C39_address_bytes H x y _ _ c hx hy testPrefix
    exact ⟨a, h⟩

/-- public_key_test.go:20,106: public key of `Samples.keyA`. -/
def Samples.pubA : PublicKey where
  X := some 0x0017FDA2210BFCBCC11D7E8845883D8A5C60A72DE7EA840A4D20A9E92681F673
  Y := some 0xBE823236512B1E28DA42AA7446C39EB70B562C24CC299F0978ECD7C8F37C22A6
  Network := some MainNetwork

/-- C39 for a test vector (public_key_test.go:106): the address commits to the serialised key. -/
example : ∃ ser, IsSerialized true 0x0017FDA2210BFCBCC11D7E8845883D8A5C60A72DE7EA840A4D20A9E92681F673
      0xBE823236512B1E28DA42AA7446C39EB70B562C24CC299F0978ECD7C8F37C22A6 ser ∧
    address realHashes Samples.pubA true = .ok (asc "1C9HJdNdBPHu8ChhCZx4coCkY5bZYnUP2B") ∧
    IsBase58Check realHashes.sha256 ([0x00] ++ hash160 realHashes.sha256 realHashes.ripemd160 ser)
      (asc "1C9HJdNdBPHu8ChhCZx4coCkY5bZYnUP2B") := by
  have ha : address realHashes Samples.pubA true = .ok (asc "1C9HJdNdBPHu8ChhCZx4coCkY5bZYnUP2B") := by decide +kernel
  obtain ⟨ser, a, h1, h2, h3⟩ := C39_address_bytes realHashes
    0x0017FDA2210BFCBCC11D7E8845883D8A5C60A72DE7EA840A4D20A9E92681F673
    0xBE823236512B1E28DA42AA7446C39EB70B562C24CC299F0978ECD7C8F37C22A6 MainNetwork [0x00] true (by decide +kernel)
    (by decide +kernel) mainPrefix
  cases h2.symm.trans ha
  exact ⟨ser, h1, ha, h3⟩

/-- C39: the serialisation of the point (1, 2), and there is no other. -/
example : IsSerialized true 1 2 (0x02 :: (List.replicate 31 0 ++ [0x01])) ∧
    ∀ s, IsSerialized true 1 2 s → s = 0x02 :: (List.replicate 31 0 ++ [0x01]) := by
  have h : IsSerialized true 1 2 (0x02 :: (List.replicate 31 0 ++ [0x01])) :=
    ⟨List.replicate 31 0 ++ [0x01], List.replicate 31 0 ++ [0x02], by decide +kernel⟩
  exact ⟨h, fun s hs => C39_serialization_unique _ _ _ _ _ hs h⟩

/-- C39: a point off the curve has an address too. -/
example : ∃ a, address realHashes ⟨some (1 : Nat), some (2 : Nat), some TestNetwork⟩ false = .ok a :=
  C39_address_never_fails realHashes 1 2 TestNetwork false (by decide) (by decide) (.inr rfl)

/-! ## C40 -/

theorem address_bytes_unique (H : Hashes) {x y : Nat} {net : Network} {pre : Bytes} {c : Bool} {a : GoString}
    (hx : x < 2 ^ 256) (hy : y < 2 ^ 256) (hp : Spells net.PubKeyHashPrefix pre)
    (ha : address H ⟨some x, some y, some net⟩ c = .ok a) :
    ∃ ser, IsSerialized c x y ser ∧
      a = base58Encode ((pre ++ hash160 H.sha256 H.ripemd160 ser) ++
        checksum H.sha256 (pre ++ hash160 H.sha256 H.ripemd160 ser)) := by
  obtain ⟨ser, a', hs, ha', hb⟩ := C39_address_bytes H x y net pre c hx hy hp
  rw [ha] at ha'
  cases ha'
  exact ⟨ser, hs, hb.text_eq⟩

/-- Bounds on the length of the Base58 text of 25 bytes starting with a zero byte. -/
theorem length_base58_zero (bs : Bytes) (hl : bs.length = 24) :
    25 ≤ (base58Encode (0 :: bs)).length ∧ (base58Encode (0 :: bs)).length ≤ 34 ∧
    (bs.head? ≠ some 0 → 33 ≤ (base58Encode (0 :: bs)).length) ∧ (base58Encode (0 :: bs)).head? = some 49 := by
  have hds : ∀ d ∈ ((0 :: bs).map UInt8.toNat), d < 256 := map_toNat_lt _
  have hz : leadingZeros ((0 :: bs).map UInt8.toNat) = leadingZeros (bs.map UInt8.toNat) + 1 := by
    rw [List.map_cons]; exact leadingZeros_cons_zero _
  have hc := congrArg List.length (canon (b := 256) (by omega) hds)
  have hlen := length_base58Encode (0 :: bs)
  rw [List.length_append, List.length_replicate, List.length_map, List.length_cons, hl] at hc
  have hV : ofBE 256 ((0 :: bs).map UInt8.toNat) = bytesToNat (0 :: bs) := rfl
  rw [hV] at hc
  generalize bytesToNat (0 :: bs) = V at hc hlen
  refine ⟨?_, ?_, ?_, ?_⟩
  · rw [hlen]
    rw [hz] at hc ⊢
    generalize leadingZeros (bs.map UInt8.toNat) = z at hc ⊢
    by_cases h25 : 24 ≤ z
    · omega
    have h1 : 256 ^ (23 - z) ≤ V := (lt_length_toBE_iff (by omega) V).1 (by omega)
    have h2 : 58 ^ (23 - z) ≤ V := le_trans (Nat.pow_le_pow_left (by omega) _) h1
    have := (lt_length_toBE_iff (b := 58) (by omega) V).2 h2
    omega
  · rw [hlen]
    rw [hz] at hc ⊢
    generalize leadingZeros (bs.map UInt8.toNat) = z at hc ⊢
    have hz24 : z ≤ 24 := by omega
    have h1 : V < 256 ^ (24 - z) := (length_toBE_le_iff (by omega) V).1 (by omega)
    have h2 : ∀ z ≤ 24, 256 ^ (24 - z) ≤ 58 ^ (33 - z) := by decide +kernel
    have := (length_toBE_le_iff (b := 58) (by omega) V).2 (lt_of_lt_of_le h1 (h2 z hz24))
    omega
  · intro hh
    rw [hlen]
    have hz0 : leadingZeros (bs.map UInt8.toNat) = 0 := by
      cases bs with
      | nil => simp at hl
      | cons b bs =>
        rw [List.map_cons]
        apply leadingZeros_cons_pos
        intro h0
        exact hh (by simp [UInt8.toNat_inj.1 (show b.toNat = (0 : UInt8).toNat by simpa using h0)])
    rw [hz, hz0] at hc ⊢
    have h1 : 256 ^ 23 ≤ V := (lt_length_toBE_iff (by omega) V).1 (by omega)
    have := (lt_length_toBE_iff (b := 58) (k := 31) (by omega) V).2 (le_trans (by decide +kernel) h1)
    omega
  · rw [base58Encode, hz, List.replicate_succ]
    rfl

/-- The Base58 text of 25 bytes starting with 0x6F. -/
theorem shape_base58_6F (bs : Bytes) (hl : bs.length = 24) :
    (base58Encode (0x6F :: bs)).length = 34 ∧
    ((base58Encode (0x6F :: bs)).head? = some 109 ∨ (base58Encode (0x6F :: bs)).head? = some 110) := by
  have hb := bytesToNat_lt bs
  rw [hl] at hb
  have hn : bytesToNat (0x6F :: bs) = 111 * 256 ^ 24 + bytesToNat bs := by
    rw [bytesToNat_cons, hl]; rfl
  have hlow : 44 * 58 ^ 33 ≤ 111 * 256 ^ 24 := by decide +kernel
  have hhigh : 112 * 256 ^ 24 ≤ 46 * 58 ^ 33 := by decide +kernel
  have e2 : (44 + 1) * 58 ^ 33 = 44 * 58 ^ 33 + 58 ^ 33 := by decide +kernel
  have henc : ∀ d rest, toBE 58 (bytesToNat (0x6F :: bs)) = d :: rest →
      base58Encode (0x6F :: bs) = b58Char d :: rest.map b58Char := by
    intro d rest h
    rw [base58Encode, List.map_cons, leadingZeros_cons_pos (by decide), h]
    simp
  by_cases hc : bytesToNat (0x6F :: bs) < (44 + 1) * 58 ^ 33
  · obtain ⟨rest, hr, hrl⟩ := toBE_head (b := 58) (k := 33) (d := 44) (by omega) (by omega)
      (by rw [hn]; exact le_trans hlow (Nat.le_add_right _ _)) hc (by omega)
    rw [henc _ _ hr]
    refine ⟨by simp [hrl], .inl ?_⟩
    rw [List.head?_cons]
    decide +kernel
  · obtain ⟨rest, hr, hrl⟩ := toBE_head (b := 58) (k := 33) (d := 45) (by omega) (by omega)
      (not_lt.1 hc) (lt_of_lt_of_le (by
        rw [hn]
        calc 111 * 256 ^ 24 + bytesToNat bs < 111 * 256 ^ 24 + 256 ^ 24 := Nat.add_lt_add_left hb _
          _ = 112 * 256 ^ 24 := by ring) hhigh) (by omega)
    rw [henc _ _ hr]
    refine ⟨by simp [hrl], .inr ?_⟩
    rw [List.head?_cons]
    decide +kernel

/-- C40. Addresses of the main network. -/
theorem C40_main_shape (H : Hashes) (x y : Nat) (c : Bool) (a : GoString) (hx : x < 2 ^ 256) (hy : y < 2 ^ 256)
    (ha : address H ⟨some x, some y, some MainNetwork⟩ c = .ok a) :
    a.head? = some 49 ∧ 25 ≤ a.length ∧ a.length ≤ 34 ∧
    (∀ ser, IsSerialized c x y ser → (hash160 H.sha256 H.ripemd160 ser).head? ≠ some 0 →
      a.length = 33 ∨ a.length = 34) := by
  obtain ⟨ser, hs, rfl⟩ := address_bytes_unique H hx hy mainPrefix ha
  have hl : (hash160 H.sha256 H.ripemd160 ser ++
      checksum H.sha256 ([0x00] ++ hash160 H.sha256 H.ripemd160 ser)).length = 24 := by
    rw [List.length_append, length_checksum, hash160, H.rip_len]
  obtain ⟨h1, h2, h3, h4⟩ := length_base58_zero _ hl
  have e : ([0x00] ++ hash160 H.sha256 H.ripemd160 ser) ++
      checksum H.sha256 ([0x00] ++ hash160 H.sha256 H.ripemd160 ser) =
      0 :: (hash160 H.sha256 H.ripemd160 ser ++ checksum H.sha256 ([0x00] ++ hash160 H.sha256 H.ripemd160 ser)) := rfl
  rw [e]
  refine ⟨h4, h1, h2, ?_⟩
  intro ser' hs' hh
  rw [isSerialized_unique hs' hs] at hh
  have := h3 (by
    rw [List.head?_append_of_ne_nil]
    · exact hh
    · intro h0
      have := H.rip_len (H.sha256 ser)
      rw [hash160] at h0
      simp [h0] at this)
  omega

/-- C40. Addresses of the test network. -/
theorem C40_test_shape (H : Hashes) (x y : Nat) (c : Bool) (a : GoString) (hx : x < 2 ^ 256) (hy : y < 2 ^ 256)
    (ha : address H ⟨some x, some y, some TestNetwork⟩ c = .ok a) :
    a.length = 34 ∧ (a.head? = some 109 ∨ a.head? = some 110) := by
  obtain ⟨ser, hs, rfl⟩ := address_bytes_unique H hx hy testPrefix ha
  have hl : (hash160 H.sha256 H.ripemd160 ser ++
      checksum H.sha256 ([0x6F] ++ hash160 H.sha256 H.ripemd160 ser)).length = 24 := by
    rw [List.length_append, length_checksum, hash160, H.rip_len]
  exact shape_base58_6F _ hl

/-- Characters of C40: '1', 'm', 'n'. -/
example : asc "1mn" = [49, 109, 110] := by decide +kernel

/-- C40: the test vector on both networks. -/
example : (asc "1C9HJdNdBPHu8ChhCZx4coCkY5bZYnUP2B").length ≤ 34 ∧
    (asc "mrfEbgTbzQj9uKBJv8vSSiR5Q5CGUPcbXC").length = 34 := by
  have h1 : address realHashes ⟨some (0x0017FDA2210BFCBCC11D7E8845883D8A5C60A72DE7EA840A4D20A9E92681F673 : Nat),
      some (0xBE823236512B1E28DA42AA7446C39EB70B562C24CC299F0978ECD7C8F37C22A6 : Nat), some MainNetwork⟩ true =
      .ok (asc "1C9HJdNdBPHu8ChhCZx4coCkY5bZYnUP2B") := by decide +kernel
  have h2 : address realHashes ⟨some (0x0017FDA2210BFCBCC11D7E8845883D8A5C60A72DE7EA840A4D20A9E92681F673 : Nat),
      some (0xBE823236512B1E28DA42AA7446C39EB70B562C24CC299F0978ECD7C8F37C22A6 : Nat), some TestNetwork⟩ true =
      .ok (asc "mrfEbgTbzQj9uKBJv8vSSiR5Q5CGUPcbXC") := by decide +kernel
  exact ⟨(C40_main_shape realHashes _ _ _ _ (by decide +kernel) (by decide +kernel) h1).2.2.1,
    (C40_test_shape realHashes _ _ _ _ (by decide +kernel) (by decide +kernel) h2).1⟩

/-! ## C41 -/

/-- C41. Two addresses are equal exactly when prefix byte and key hash are. -/
theorem C41_collision (H : Hashes) (x y x' y' : Nat) (net net' : Network) (c c' : Bool) (v v' : UInt8)
    (a a' : GoString) (ser ser' : Bytes)
    (hx : x < 2 ^ 256) (hy : y < 2 ^ 256) (hx' : x' < 2 ^ 256) (hy' : y' < 2 ^ 256)
    (hp : Spells net.PubKeyHashPrefix [v]) (hp' : Spells net'.PubKeyHashPrefix [v'])
    (hs : IsSerialized c x y ser) (hs' : IsSerialized c' x' y' ser')
    (ha : address H ⟨some x, some y, some net⟩ c = .ok a)
    (ha' : address H ⟨some x', some y', some net'⟩ c' = .ok a') :
    a = a' ↔ v = v' ∧ hash160 H.sha256 H.ripemd160 ser = hash160 H.sha256 H.ripemd160 ser' := by
  obtain ⟨s, h, rfl⟩ := address_bytes_unique H hx hy hp ha
  obtain ⟨s', h', rfl⟩ := address_bytes_unique H hx' hy' hp' ha'
  rw [isSerialized_unique h hs, isSerialized_unique h' hs']
  constructor
  · intro he
    have h1 := base58Encode_inj he
    have h2 := (List.append_inj h1 (by simp [hash160, H.rip_len])).1
    simpa using h2
  · rintro ⟨rfl, hh⟩
    rw [hh]

/-- C41: the two points (1, 2) and (1, 4) have the same compressed address, the points (1, 2) and (1, 3) do not unless
the hash function collides. -/
example (a a' a'' : GoString) (h : address realHashes ⟨some (1 : Nat), some (2 : Nat), some MainNetwork⟩ true = .ok a)
    (h' : address realHashes ⟨some (1 : Nat), some (4 : Nat), some MainNetwork⟩ true = .ok a')
    (h'' : address realHashes ⟨some (1 : Nat), some (3 : Nat), some MainNetwork⟩ true = .ok a'') : a = a' ∧ a ≠ a'' := by
  have hs : IsSerialized true 1 2 (0x02 :: (List.replicate 31 0 ++ [0x01])) :=
    ⟨List.replicate 31 0 ++ [0x01], List.replicate 31 0 ++ [0x02], by decide +kernel⟩
  have hs' : IsSerialized true 1 4 (0x02 :: (List.replicate 31 0 ++ [0x01])) :=
    ⟨List.replicate 31 0 ++ [0x01], List.replicate 31 0 ++ [0x04], by decide +kernel⟩
  have hs'' : IsSerialized true 1 3 (0x03 :: (List.replicate 31 0 ++ [0x01])) :=
    ⟨List.replicate 31 0 ++ [0x01], List.replicate 31 0 ++ [0x03], by decide +kernel⟩
  refine ⟨(C41_collision realHashes _ _ _ _ _ _ _ _ _ _ _ _ _ _ (by decide) (by decide) (by decide) (by decide) mainPrefix
    mainPrefix hs hs' h h').2 ⟨rfl, rfl⟩, fun e => ?_⟩
  have := ((C41_collision realHashes _ _ _ _ _ _ _ _ _ _ _ _ _ _ (by decide) (by decide) (by decide) (by decide) mainPrefix
    mainPrefix hs hs'' h h'').1 e).2
  revert this
  decide +kernel

/-! ## C42 -/

/-- C42 (what holds instead). Every address with a one-byte prefix passes `CheckWIF` and is imported by
`PrivateFromWIF` as a private key, the number in its key hash. -/
theorem C42_address_imported_partial (H : Hashes) (x y : Nat) (net : Network) (net2 : Option Network) (c : Bool)
    (v : UInt8) (a : GoString) (ser : Bytes) (hx : x < 2 ^ 256) (hy : y < 2 ^ 256)
    (hp : Spells net.PubKeyHashPrefix [v]) (hs : IsSerialized c x y ser)
    (ha : address H ⟨some x, some y, some net⟩ c = .ok a) :
    checkWIF H a = .ok true ∧ ∃ k, privateFromWIF H a net2 = .ok k ∧
      k.Key = some (bigEndian (hash160 H.sha256 H.ripemd160 ser) : Int) ∧ k.Network = net2 := by
  obtain ⟨s, h, rfl⟩ := address_bytes_unique H hx hy hp ha
  rw [isSerialized_unique h hs]
  have hd := base58Decode_encode (bs := ([v] ++ hash160 H.sha256 H.ripemd160 ser) ++
    checksum H.sha256 ([v] ++ hash160 H.sha256 H.ripemd160 ser)) (by simp)
  refine ⟨(checkWIF_eq_true H).2 ⟨_, hd⟩, _, privateFromWIF_long H hd, ?_, rfl⟩
  apply bigSetString_of_spells (spells_hexEncode _)
  intro h0
  have := congrArg List.length h0
  simp [hash160, H.rip_len] at this

theorem Samples.addressA :
    address realHashes Samples.pubA false = .ok (asc "1BBu2rgpgcqRhWg3E4zhLkYvjA5BGqT4Ue") := by decide +kernel

/-- C42 is violated: the address of a test vector of the repository is imported as a private key. -/
theorem C42_address_rejected_violated :
    ¬ ∀ (pub : PublicKey) (c : Bool) (a : GoString) (net : Option Network) (k : PrivateKey),
      address realHashes pub c = .ok a → privateFromWIF realHashes a net ≠ .ok k := by
  intro h
  obtain ⟨k, hk⟩ : ∃ k, privateFromWIF realHashes (asc "1BBu2rgpgcqRhWg3E4zhLkYvjA5BGqT4Ue") none = .ok k := by
    obtain ⟨ser, a, hs, ha, _⟩ := C39_address_bytes realHashes
      0x0017FDA2210BFCBCC11D7E8845883D8A5C60A72DE7EA840A4D20A9E92681F673
      0xBE823236512B1E28DA42AA7446C39EB70B562C24CC299F0978ECD7C8F37C22A6 MainNetwork _ false (by decide +kernel)
      (by decide +kernel) mainPrefix
    obtain ⟨_, k, hk, _⟩ := C42_address_imported_partial realHashes _ _ MainNetwork none false 0x00 a ser
      (by decide +kernel) (by decide +kernel) mainPrefix hs ha
    have : a = asc "1BBu2rgpgcqRhWg3E4zhLkYvjA5BGqT4Ue" := by
      have := ha.symm.trans Samples.addressA
      simpa using this
    exact ⟨k, this ▸ hk⟩
  exact h _ _ _ _ k Samples.addressA hk

end Btc
