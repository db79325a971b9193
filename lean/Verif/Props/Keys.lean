import Verif.Props.Address
import Verif.Props.Curve
import Verif.Props.Generate

/-!
# C58 – C60: keys and points, end to end
-/

namespace Btc

open Spec

/-! ## C58 -/

/-- C58. Every point of the curve is the public key of exactly one valid private key. -/
theorem C58_bijection (E : Ecdsa) (hE : EcdsaContract E) (x y : Nat) (h : OnCurve x y) :
    ∃! k : Nat, 1 ≤ k ∧ k < Spec.n ∧ ∀ key : PrivateKey, key.Key = some (k : Int) →
      getPublicKey E key = .ok (some ⟨some (x : Int), some (y : Int), key.Network⟩) := by
  obtain ⟨P, hP⟩ := (EC.onCurve_iff x y).1 h
  obtain ⟨k, hk, rfl⟩ := EC.exists_smul_G P
  have hk0 : 1 ≤ k := by
    rcases Nat.eq_zero_or_pos k with rfl | h0
    · obtain ⟨_, _, _, h0⟩ := hP
      simp at h0
    · exact h0
  refine ⟨k, ⟨hk0, hk, fun key hkey => ?_⟩, ?_⟩
  · obtain ⟨x', y', hc, hr⟩ := C33_public_key E hE EC.G EC.G_coords key k hkey hk0 hk
    obtain ⟨rfl, rfl⟩ := EC.coords_unique hP hc
    exact hr
  · rintro m ⟨hm1, hm2, hm⟩
    let key : PrivateKey := ⟨some (m : Int), [], [], none⟩
    obtain ⟨x', y', hc, hr⟩ := C33_public_key E hE EC.G EC.G_coords key m rfl hm1 hm2
    rw [hm key rfl] at hr
    simp only [Res.ok.injEq, Option.some.injEq, PublicKey.mk.injEq, Nat.cast_inj] at hr
    obtain ⟨rfl, rfl, _⟩ := hr
    exact smul_inj_lt hm2 hk (EC.coords_point hc hP)

-- (1, y) is a point although nobody knows its private key
example : ∃! k : Nat, 1 ≤ k ∧ k < Spec.n ∧ ∀ key : PrivateKey, key.Key = some (k : Int) →
    getPublicKey EC.ref key = .ok (some ⟨some ((1 : Nat) : Int),
      some ((29896722852569046015560700294576055776214335159245303116488692907525646231534 : Nat) : Int),
      key.Network⟩) :=
  C58_bijection EC.ref EC.ref_contract _ _ ⟨by decide +kernel, by decide +kernel, by decide +kernel⟩

/-! ## C59 -/

/-- C59. Whatever `GeneratePrivateKey` returns on a network with a WIF prefix of one byte and an address prefix of whole
bytes can be re-imported from its WIF and its hex, has a public key on the curve, and that key survives both serializations and has both addresses. -/
theorem C59_any_network (E : Ecdsa) (hE : EcdsaContract E) (H : Hashes) (B : W.Point)
    (hB : HasCoords B gx gy) (rd rd' : Reader) (net : Network) (b : UInt8) (pre : Bytes)
    (hb : Spells net.PrivKeyPrefix [b]) (hp : Spells net.PubKeyHashPrefix pre)
    (k : PrivateKey) (h : generatePrivateKey H rd (some net) = .ok (k, rd')) :
    checkWIF H k.WIF = .ok true ∧ privateFromWIF H k.WIF (some net) = .ok k ∧
    privateFromHex H k.Hex (some net) = .ok k ∧
    ∃ v x y : Nat, k.Key = some (v : Int) ∧ 1 ≤ v ∧ v < Spec.n ∧ HasCoords (v • B) x y ∧
      getPublicKey E k = .ok (some ⟨some (x : Int), some (y : Int), some net⟩) ∧
      ∀ c : Bool, ∃ s a, format ⟨some (x : Int), some (y : Int), some net⟩ c = .ok s ∧
        publicFromHex E s (some net) = .ok ⟨some (x : Int), some (y : Int), some net⟩ ∧
        address H ⟨some (x : Int), some (y : Int), some net⟩ c = .ok a := by
  obtain ⟨v, hkey, hlo, hhi, hlen, hmin, hfrom, hnet, -⟩ := C14_generated_valid H rd rd' net k h
  have hnn : 2 ≤ Spec.n := by decide +kernel
  have hv1 : 1 ≤ v := le_trans (Nat.one_le_pow _ _ (by omega)) hlo
  have hv2 : v < Spec.n := by omega
  have hne : k.Hex ≠ [] := by
    intro h0
    rw [h0] at hlen
    simp at hlen
  obtain ⟨k2, hw, hk2, -, hwif, hlow, hnet2⟩ := C05_hex_wif_roundtrip H k.Hex net k b (some net) hb hne hfrom
  have hhex : k2.Hex = k.Hex := by
    apply C27_fixed_unique 64 v
    · refine ⟨by rw [hlow.1, hlen], ?_, hlow.2.2⟩
      rw [hexNumber_of_sameDigits hlow.2.1]
      exact hmin.1
    · exact ⟨hlen, hmin.1, hmin.2.2.1⟩
  have e : k2 = k := by
    cases k2
    cases k
    simp_all
  rw [e] at hw
  obtain ⟨x, y, hc, hpub⟩ := C33_public_key E hE B hB k v hkey hv1 hv2
  rw [hnet] at hpub
  have hon : OnCurve x y := (EC.onCurve_iff x y).2 ⟨_, hc⟩
  have hx : x < 2 ^ 256 := lt_trans hon.1 p_lt
  have hy : y < 2 ^ 256 := lt_trans hon.2.1 p_lt
  refine ⟨check_fromHex H hfrom, hw, hfrom, v, x, y, hkey, hv1, hv2, hc, hpub, fun c => ?_⟩
  obtain ⟨-, a, -, ha, -⟩ := C39_address_bytes H x y net pre c hx hy hp
  cases c with
  | false =>
    obtain ⟨s, hs, hr⟩ := C28_uncompressed_roundtrip E x y (some net) (some net) hx hy
    exact ⟨s, a, hs, hr, ha⟩
  | true =>
    obtain ⟨s, hs, hr⟩ := C29_compressed_roundtrip E hE x y (some net) (some net) hon
    exact ⟨s, a, hs, hr, ha⟩

/-- C59. Whatever `GeneratePrivateKey` returns on one of the two networks can be re-imported from its WIF and its
hex, has a public key on the curve, and that key survives both serializations and has both addresses. -/
theorem C59_generated_key_usable (E : Ecdsa) (hE : EcdsaContract E) (H : Hashes) (B : W.Point)
    (hB : HasCoords B gx gy) (rd rd' : Reader) (net : Network) (hn : net = MainNetwork ∨ net = TestNetwork)
    (k : PrivateKey) (h : generatePrivateKey H rd (some net) = .ok (k, rd')) :
    checkWIF H k.WIF = .ok true ∧ privateFromWIF H k.WIF (some net) = .ok k ∧
    privateFromHex H k.Hex (some net) = .ok k ∧
    ∃ v x y : Nat, k.Key = some (v : Int) ∧ 1 ≤ v ∧ v < Spec.n ∧ HasCoords (v • B) x y ∧
      getPublicKey E k = .ok (some ⟨some (x : Int), some (y : Int), some net⟩) ∧
      ∀ c : Bool, ∃ s a, format ⟨some (x : Int), some (y : Int), some net⟩ c = .ok s ∧
        publicFromHex E s (some net) = .ok ⟨some (x : Int), some (y : Int), some net⟩ ∧
        address H ⟨some (x : Int), some (y : Int), some net⟩ c = .ok a := by
  rcases hn with rfl | rfl
  · exact C59_any_network E hE H B hB rd rd' _ 0x80 [0] (hexDecode_eq_ok.1 (by decide +kernel))
      (hexDecode_eq_ok.1 (by decide +kernel)) k h
  · exact C59_any_network E hE H B hB rd rd' _ 0xEF [0x6F] (hexDecode_eq_ok.1 (by decide +kernel))
      (hexDecode_eq_ok.1 (by decide +kernel)) k h

-- a random source for which a key is returned
example : ∃ k, generatePrivateKey realHashes (List.replicate 32 0x11) (some MainNetwork) = .ok (k, []) := by
  obtain ⟨k, hk, -⟩ := (C15_block realHashes (List.replicate 32 0x11) [] (by simp)).1
    ⟨by decide +kernel, by decide +kernel⟩
  exact ⟨k, by simpa using hk⟩

-- another network: WIF prefix b0, address prefix 30
example (k : PrivateKey) (rd rd' : Reader) := C59_any_network EC.ref EC.ref_contract realHashes EC.G EC.G_coords rd rd'
  ⟨asc "b0", asc "30"⟩ 0xB0 [0x30] (hexDecode_eq_ok.1 (by decide +kernel)) (hexDecode_eq_ok.1 (by decide +kernel)) k

/-! ## C60 -/

/-- C60. Adding public keys is associative wherever all four additions are of points with different X. -/
theorem C60_add_assoc (E : Ecdsa) (hE : EcdsaContract E) (P Q R : W.Point) (x₁ y₁ x₂ y₂ x₃ y₃ : Nat)
    (net : Option Network) (c : Bool) (hP : HasCoords P x₁ y₁) (hQ : HasCoords Q x₂ y₂) (hR : HasCoords R x₃ y₃)
    (h12 : x₁ ≠ x₂) (h23 : x₂ ≠ x₃) (S T : PublicKey)
    (hS : addPublicKeys E ⟨some (x₁ : Int), some (y₁ : Int), net⟩ ⟨some (x₂ : Int), some (y₂ : Int), net⟩ c = .ok S)
    (hT : addPublicKeys E ⟨some (x₂ : Int), some (y₂ : Int), net⟩ ⟨some (x₃ : Int), some (y₃ : Int), net⟩ c = .ok T)
    (hS3 : S.X ≠ some (x₃ : Int)) (h1T : T.X ≠ some (x₁ : Int)) :
    ∃ U, addPublicKeys E S ⟨some (x₃ : Int), some (y₃ : Int), net⟩ c = .ok U ∧
      addPublicKeys E ⟨some (x₁ : Int), some (y₁ : Int), net⟩ T c = .ok U := by
  obtain ⟨u, v, hS', -, e⟩ := C37_add_public_keys E hE P Q x₁ y₁ x₂ y₂ net hP hQ h12
  rw [(e c).1] at hS
  cases hS
  obtain ⟨u', v', hT', -, e'⟩ := C37_add_public_keys E hE Q R x₂ y₂ x₃ y₃ net hQ hR h23
  rw [(e' c).1] at hT
  cases hT
  have n1 : u ≠ x₃ := fun h => hS3 (by rw [h])
  have n2 : x₁ ≠ u' := fun h => h1T (by rw [h])
  obtain ⟨a, b, hl, -, el⟩ := C37_add_public_keys E hE (P + Q) R u v x₃ y₃ net hS' hR n1
  obtain ⟨a', b', hr, -, er⟩ := C37_add_public_keys E hE P (Q + R) x₁ y₁ u' v' net hP hT' n2
  rw [add_assoc] at hl
  obtain ⟨rfl, rfl⟩ := EC.coords_unique hl hr
  exact ⟨_, (el c).1, (er c).1⟩

/-- C60. A summand is determined by the sum and the other summand. -/
theorem C60_cancel (E : Ecdsa) (hE : EcdsaContract E) (P Q R : W.Point) (x₁ y₁ x₂ y₂ x₃ y₃ : Nat)
    (net : Option Network) (c : Bool) (hP : HasCoords P x₁ y₁) (hQ : HasCoords Q x₂ y₂) (hR : HasCoords R x₃ y₃)
    (h12 : x₁ ≠ x₂) (h13 : x₁ ≠ x₃) :
    addPublicKeys E ⟨some (x₁ : Int), some (y₁ : Int), net⟩ ⟨some (x₂ : Int), some (y₂ : Int), net⟩ c =
      addPublicKeys E ⟨some (x₁ : Int), some (y₁ : Int), net⟩ ⟨some (x₃ : Int), some (y₃ : Int), net⟩ c ↔
    x₂ = x₃ ∧ y₂ = y₃ := by
  constructor
  · intro h
    obtain ⟨u, v, hS, -, e⟩ := C37_add_public_keys E hE P Q x₁ y₁ x₂ y₂ net hP hQ h12
    obtain ⟨u', v', hT, -, e'⟩ := C37_add_public_keys E hE P R x₁ y₁ x₃ y₃ net hP hR h13
    rw [(e c).1, (e' c).1] at h
    simp only [Res.ok.injEq, PublicKey.mk.injEq, Option.some.injEq, Nat.cast_inj, and_true] at h
    obtain ⟨rfl, rfl⟩ := h
    have := EC.coords_point hS hT
    rw [add_right_inj] at this
    rw [this] at hQ
    exact EC.coords_unique hQ hR
  · rintro ⟨rfl, rfl⟩
    rfl

-- the points G, 2G, 4G have different x-coordinates, and so have the partial sums 3G, 4G and 6G, G
example : ∃ x₂ x₄ x₃ x₆ : Int,
    (∃ y, EC.ref.scalarMult secp256k1 (some 2) secp256k1.G = .ok (⟨some x₂, some y⟩, true)) ∧
    (∃ y, EC.ref.scalarMult secp256k1 (some 4) secp256k1.G = .ok (⟨some x₄, some y⟩, true)) ∧
    (∃ y, EC.ref.scalarMult secp256k1 (some 3) secp256k1.G = .ok (⟨some x₃, some y⟩, true)) ∧
    (∃ y, EC.ref.scalarMult secp256k1 (some 6) secp256k1.G = .ok (⟨some x₆, some y⟩, true)) ∧
    [(Spec.gx : Int), x₂, x₄, x₃, x₆].Nodup := by
  refine ⟨0xC6047F9441ED7D6D3045406E95C07CD85C778E4B8CEF3CA7ABAC09B95C709EE5,
    0xE493DBF1C10D80F3581E4904930B1404CC6C13900EE0758474FA94ABE8C4CD13,
    0xF9308A019258C31049344F85F89D5229B531C845836F99B08601F113BCE036F9,
    0xFFF97BD5755EEEA420453A14355235D382F6472F8568A18B2F057A1460297556, ?_, ?_, ?_, ?_, by decide +kernel⟩
  · exact ⟨0x1AE168FEA63DC339A3C58419466CEAEEF7F632653266D0E1236431A950CFE52A, by decide +kernel⟩
  · exact ⟨0x51ED993EA0D455B75642E2098EA51448D967AE33BFBDFE40CFE97BDC47739922, by decide +kernel⟩
  · exact ⟨0x388F7B0F632DE8140FE337E62A37F3566500A99934C2231B6CB9FD7584B8E672, by decide +kernel⟩
  · exact ⟨0xAE12777AACFBB620F3BE96017F45C560DE80F0F6518FE4A03C870C36B075F297, by decide +kernel⟩

end Btc
