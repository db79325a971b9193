import Verif.Props.Keys
import Mathlib.Analysis.SpecificLimits.Basic
import Verif.Props.Count

/-!
# C92–C94: from the text of a key to its address; key generation ends
-/

namespace Btc

open Spec

namespace Spec

/-- Specification: `a` is the pay-to-public-key-hash address, with version byte `v`, of the private key `k`, for the
generator `B` and the chosen serialization. -/
def IsAddressOf (H : Hashes) (B : W.Point) (v : UInt8) (compressed : Bool) (k : Nat) (a : GoString) : Prop :=
  ∃ x y ser, HasCoords (k • B) x y ∧ IsSerialized compressed x y ser ∧
    IsBase58Check H.sha256 (v :: hash160 H.sha256 H.ripemd160 ser) a

end Spec

/-- The address of a key object, through the public key. -/
theorem chain (E : Ecdsa) (hE : EcdsaContract E) (H : Hashes) (B : W.Point) (hB : HasCoords B gx gy) (net : Network)
    (v : UInt8) (hv : Spells net.PubKeyHashPrefix [v]) (key : PrivateKey) (k : Nat) (hk : key.Key = some (k : Int))
    (hn : key.Network = some net) (h1 : 1 ≤ k) (h2 : k < Spec.n) (c : Bool) :
    ∃ P a, getPublicKey E key = .ok (some P) ∧ address H P c = .ok a ∧ IsAddressOf H B v c k a := by
  obtain ⟨x, y, hc, hr⟩ := C33_public_key E hE B hB key k hk h1 h2
  have hp : p < 2 ^ 256 := by decide +kernel
  obtain ⟨ser, a, hs, ha, hb⟩ := C39_address_bytes H x y net [v] c (lt_trans hc.1 hp) (lt_trans hc.2.1 hp) hv
  rw [hn] at hr
  exact ⟨_, a, hr, ha, x, y, ser, hc, hs, hb⟩

/-- C92. From a hexadecimal text (of any length and case) to the address: the three calls succeed and give exactly the
address Bitcoin defines for the number written in the text. -/
theorem C92_address_of_hex (E : Ecdsa) (hE : EcdsaContract E) (H : Hashes) (B : W.Point) (hB : HasCoords B gx gy)
    (net : Network) (v : UInt8) (pre : Bytes) (hv : Spells net.PubKeyHashPrefix [v]) (hpre : Spells net.PrivKeyPrefix pre)
    (h : GoString) (body : Bytes) (hs : Spells h body) (h1 : 1 ≤ bigEndian body) (h2 : bigEndian body < Spec.n)
    (c : Bool) :
    ∃ key P a, privateFromHex H h (some net) = .ok key ∧ getPublicKey E key = .ok (some P) ∧
      address H P c = .ok a ∧ IsAddressOf H B v c (bigEndian body) a := by
  have hk := privateFromHex_of_spells H (net := net) (hpre.append hs)
  obtain ⟨body', hs', -, hb⟩ := C01_wif_bytes H h net _ pre hpre hk
  obtain rfl := hs.unique hs'
  have hne : h ≠ [] := by
    rintro rfl
    cases hs
    exact absurd h1 (by decide)
  obtain ⟨P, a, e1, e2, e3⟩ := chain E hE H B hB net v hv _ (bigEndian body) (hb hne) rfl h1 h2 c
  exact ⟨_, P, a, hk, e1, e2, e3⟩

/-- The private key 1, written "01", and the compressed address of the generator. -/
example : ∃ key P a, privateFromHex realHashes (asc "01") (some MainNetwork) = .ok key ∧
    getPublicKey EC.ref key = .ok (some P) ∧ address realHashes P true = .ok a ∧
    IsAddressOf realHashes EC.G 0x00 true 1 a :=
  C92_address_of_hex EC.ref EC.ref_contract realHashes EC.G EC.G_coords MainNetwork 0x00 [0x80] mainPrefix
    (hexDecode_eq_ok.1 (by decide +kernel)) (asc "01") [1] (hexDecode_eq_ok.1 (by decide +kernel)) (by decide)
    (by decide +kernel) true

/-- The same calls evaluated. -/
example : (do
      let key ← privateFromHex realHashes (asc "01") (some MainNetwork)
      address realHashes (← deref (← getPublicKey EC.ref key)) true) =
    .ok (asc "1BgGZ9tcN4rm9KBzDn7KprQz87SZ26SAMH") := by decide +kernel

/-- C92. The same from a WIF: Base58Check of any version byte followed by the key. -/
theorem C92_address_of_wif (E : Ecdsa) (hE : EcdsaContract E) (H : Hashes) (B : W.Point) (hB : HasCoords B gx gy)
    (net : Network) (v : UInt8) (hv : Spells net.PubKeyHashPrefix [v]) (w : GoString) (w0 : UInt8) (body : Bytes)
    (hw : IsBase58Check H.sha256 (w0 :: body) w) (h1 : 1 ≤ bigEndian body) (h2 : bigEndian body < Spec.n) (c : Bool) :
    ∃ key P a, privateFromWIF H w (some net) = .ok key ∧ getPublicKey E key = .ok (some P) ∧
      address H P c = .ok a ∧ IsAddressOf H B v c (bigEndian body) a := by
  have hk : privateFromWIF H w (some net) = .ok
      { WIF := w, Hex := hexEncode body, Key := bigSetString (hexEncode body) 16, Network := some net } := by
    refine (privateFromWIF_eq_ok H).2 ⟨w0, body, base58Decode_eq_ok.2 ⟨?_, hw⟩, rfl⟩
    rw [IsBase58.text_unique hw (isBase58_encode _)]
    exact base58Encode_ne_nil (by simp)
  have hs := spells_hexEncode body
  have hne : hexEncode body ≠ [] := by
    intro e
    rw [e] at hs
    cases hs
    exact absurd h1 (by decide)
  have hkey : bigSetString (hexEncode body) 16 = some ((bigEndian body : Nat) : Int) := by
    rw [bigSetString_hex ((exists_spells_iff _).1 ⟨body, hs⟩).1, if_neg hne, hexNumber_of_spells hs]
  obtain ⟨P, a, e1, e2, e3⟩ := chain E hE H B hB net v hv
    { WIF := w, Hex := hexEncode body, Key := bigSetString (hexEncode body) 16, Network := some net }
    (bigEndian body) hkey rfl h1 h2 c
  exact ⟨_, P, a, hk, e1, e2, e3⟩

/-- The sample WIF: its bytes are the version 0x80 and the key. -/
example : ∃ key P a, privateFromWIF realHashes Samples.wifA (some MainNetwork) = .ok key ∧
    getPublicKey EC.ref key = .ok (some P) ∧ address realHashes P false = .ok a ∧
    IsAddressOf realHashes EC.G 0x00 false
      (bigEndian [134, 19, 223, 214, 192, 153, 117, 29, 204, 64, 32, 239, 111, 155, 205, 60, 0, 244, 86, 90, 21, 178, 105,
        121, 180, 185, 60, 4, 93, 10, 92, 235]) a :=
  C92_address_of_wif EC.ref EC.ref_contract realHashes EC.G EC.G_coords MainNetwork 0x00 mainPrefix Samples.wifA
    0x80 _ ((isBase58_iff_encode _ _).2 (by decide +kernel)) (by decide +kernel) (by decide +kernel) false

/-- C92. The specification determines the address. -/
theorem C92_address_unique (H : Hashes) (B : W.Point) (v : UInt8) (c : Bool) (k : Nat) (a b : GoString)
    (ha : IsAddressOf H B v c k a) (hb : IsAddressOf H B v c k b) : a = b := by
  obtain ⟨x, y, ser, h1, h2, h3⟩ := ha
  obtain ⟨x', y', ser', h1', h2', h3'⟩ := hb
  obtain ⟨rfl, rfl⟩ := EC.coords_unique h1 h1'
  obtain rfl := isSerialized_unique h2 h2'
  exact h3.text_unique h3'

/-! ## C93 -/

theorem serialized_inj {c c' : Bool} {x y x' y' : Nat} {s : Bytes} (h : IsSerialized c x y s)
    (h' : IsSerialized c' x' y' s) : c = c' ∧ x = x' ∧ y % 2 = y' % 2 ∧ (c = false → y = y') := by
  obtain ⟨xb, yb, lx, ly, rfl, rfl, rfl⟩ := h
  obtain ⟨xb', yb', lx', ly', rfl, rfl, e⟩ := h'
  have hl := congrArg List.length e
  cases c <;> cases c'
  · simp only [Bool.false_eq_true, if_false, List.cons_append, List.cons.injEq, true_and] at e
    obtain ⟨rfl, rfl⟩ := List.append_inj e (lx.trans lx'.symm)
    exact ⟨rfl, rfl, rfl, fun _ => rfl⟩
  · simp [lx, ly, lx'] at hl
  · simp [lx, lx', ly'] at hl
  · simp only [if_true, List.cons.injEq] at e
    obtain ⟨e1, rfl⟩ := e
    refine ⟨rfl, rfl, ?_, by simp⟩
    split at e1 <;> split at e1 <;> first | omega | exact absurd e1 (by decide)

/-- C93. Two different private keys, or one key in its two forms, have the same address only if two different
serialized points have the same hash. The two points are exhibited. -/
theorem C93_collision (H : Hashes) (B : W.Point) (hB : HasCoords B gx gy) (v v' : UInt8) (c c' : Bool) (k k' : Nat)
    (a : GoString) (h1 : k < Spec.n) (h2 : k' < Spec.n) (hne : ¬ (k = k' ∧ c = c'))
    (ha : IsAddressOf H B v c k a) (hb : IsAddressOf H B v' c' k' a) :
    v = v' ∧ ∃ x y x' y' ser ser', HasCoords (k • B) x y ∧ HasCoords (k' • B) x' y' ∧ IsSerialized c x y ser ∧
      IsSerialized c' x' y' ser' ∧ ser ≠ ser' ∧
      hash160 H.sha256 H.ripemd160 ser = hash160 H.sha256 H.ripemd160 ser' := by
  obtain ⟨x, y, ser, c1, s1, b1⟩ := ha
  obtain ⟨x', y', ser', c2, s2, b2⟩ := hb
  have e := b1.bytes_unique b2
  have hl : (v :: hash160 H.sha256 H.ripemd160 ser).length = (v' :: hash160 H.sha256 H.ripemd160 ser').length := by
    simp [hash160, H.rip_len]
  obtain ⟨e1, -⟩ := List.append_inj e hl
  simp only [List.cons.injEq] at e1
  refine ⟨e1.1, x, y, x', y', ser, ser', c1, c2, s1, s2, ?_, e1.2⟩
  rintro rfl
  apply hne
  obtain ⟨rfl, rfl, h3, h4⟩ := serialized_inj s1 s2
  obtain rfl : B = EC.G := EC.coords_point hB EC.G_coords
  refine ⟨smul_inj_lt h1 h2 ?_, rfl⟩
  rcases EC.same_x_y ((EC.onCurve_iff _ _).2 ⟨_, c1⟩) ((EC.onCurve_iff _ _).2 ⟨_, c2⟩) with rfl | hy
  · exact EC.coords_point c1 c2
  · have := EC.p_odd
    omega

/-- The hypotheses are met: with a hash that is constant, the keys 1 and 2 share an address. -/
example : ∃ (H : Hashes) (a : GoString), IsAddressOf H EC.G 0x00 true 1 a ∧ IsAddressOf H EC.G 0x00 true 2 a := by
  let H : Hashes := ⟨fun _ => List.replicate 32 0, fun _ => List.replicate 20 0, id, by simp, by simp⟩
  have hp : Spells MainNetwork.PrivKeyPrefix [0x80] := hexDecode_eq_ok.1 (by decide +kernel)
  obtain ⟨-, -, a, -, -, -, x, y, ser, h1, h2, h3⟩ := C92_address_of_hex EC.ref EC.ref_contract H EC.G EC.G_coords
    MainNetwork 0x00 [0x80] mainPrefix hp (asc "01") [1] (hexDecode_eq_ok.1 (by decide +kernel)) (by decide)
    (by decide +kernel) true
  obtain ⟨-, -, b, -, -, -, x', y', ser', h1', h2', h3'⟩ := C92_address_of_hex EC.ref EC.ref_contract H EC.G EC.G_coords
    MainNetwork 0x00 [0x80] mainPrefix hp (asc "02") [2] (hexDecode_eq_ok.1 (by decide +kernel)) (by decide)
    (by decide +kernel) true
  exact ⟨H, a, ⟨x, y, ser, h1, h2, h3⟩, x', y', ser', h1', h2', h3⟩

/-! ## C94 -/

/-- C94. The proportion of streams of `m` blocks on which `GeneratePrivateKey` finds no key tends to zero: with
uniformly random bytes it returns with probability one. -/
theorem C94_generation_ends (H : Hashes) (net : Network)
    (hnet : (∀ c ∈ net.PrivKeyPrefix, IsHexDigit c) ∧ net.PrivKeyPrefix.length % 2 = 0) :
    Filter.Tendsto (fun m : Nat =>
      (({rd : Reader | rd.length = 32 * m ∧ ¬ ∃ k rd', generatePrivateKey H rd (some net) = .ok (k, rd')}.ncard : ℝ) /
        ({rd : Reader | rd.length = 32 * m}.ncard : ℝ))) Filter.atTop (nhds 0) := by
  have e : ∀ m : Nat,
      (({rd : Reader | rd.length = 32 * m ∧ ¬ ∃ k rd', generatePrivateKey H rd (some net) = .ok (k, rd')}.ncard : ℝ) /
        ({rd : Reader | rd.length = 32 * m}.ncard : ℝ)) =
      (((2 ^ 256 - (Spec.n - 1 - 16 ^ 63) : Nat) : ℝ) / ((256 ^ 32 : Nat) : ℝ)) ^ m := by
    intro m
    rw [C84_retry_count H net hnet m, ncard_length, pow_mul, div_pow]
    push_cast
    rfl
  simp only [e]
  apply tendsto_pow_atTop_nhds_zero_of_lt_one
  · positivity
  · rw [div_lt_one (by positivity)]
    exact_mod_cast (by decide +kernel : 2 ^ 256 - (Spec.n - 1 - 16 ^ 63) < 256 ^ 32)

/-- C94. How fast: of the streams of `m` blocks, at most one in `15 ^ m` yields no key. -/
theorem C94_failure_bound (H : Hashes) (net : Network)
    (hnet : (∀ c ∈ net.PrivKeyPrefix, IsHexDigit c) ∧ net.PrivKeyPrefix.length % 2 = 0) (m : Nat) :
    15 ^ m * {rd : Reader | rd.length = 32 * m ∧
        ¬ ∃ k rd', generatePrivateKey H rd (some net) = .ok (k, rd')}.ncard ≤
      {rd : Reader | rd.length = 32 * m}.ncard := by
  rw [C84_retry_count H net hnet m, ncard_length, ← mul_pow, pow_mul]
  exact Nat.pow_le_pow_left (by decide +kernel) m

/-- Eight blocks: fewer than one stream in two thousand million yields nothing. -/
example : 2000000000 < 15 ^ 8 ∧ 15 ^ 8 * {rd : Reader | rd.length = 32 * 8 ∧
      ¬ ∃ k rd', generatePrivateKey realHashes rd (some MainNetwork) = .ok (k, rd')}.ncard ≤
    {rd : Reader | rd.length = 32 * 8}.ncard :=
  ⟨by decide, C94_failure_bound realHashes MainNetwork ⟨by unfold IsHexDigit; decide +kernel, by decide⟩ 8⟩

end Btc
