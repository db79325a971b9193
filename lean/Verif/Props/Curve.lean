import Verif.Curve.Ref
import Verif.Props.Arith
import Verif.Props.PublicKey
import Verif.Proofs.Rand

/-!
# C29, C30, C33 – C38, C56: public keys and the curve

`E` is any implementation of the curve package that meets `Spec.EcdsaContract`; the samples use the reference
implementation, which does (`EC.ref_contract`).
-/

namespace Btc

open Spec

/-! ## C56 -/

/-- C56. The record of btc.go carries the published parameters. -/
theorem C56_parameters : IsSecp256k1 secp256k1 := by
  refine ⟨?_, ?_, ?_, ?_, ?_, ?_⟩ <;> decide +kernel

/-- C56. Both moduli are prime. -/
theorem C56_primes : Spec.p.Prime ∧ Spec.n.Prime := ⟨EC.prime_p, EC.prime_n⟩

/-- C56. The base point lies on the curve and has order exactly n. -/
theorem C56_base_point :
    OnCurve gx gy ∧ ∀ B : W.Point, HasCoords B gx gy → addOrderOf B = Spec.n := by
  refine ⟨EC.G_onCurve, fun B hB => ?_⟩
  rw [EC.coords_point hB EC.G_coords]
  exact EC.order_G

/-- C56. The curve has n points, so the cofactor of btc.go, 1, is right. -/
theorem C56_cofactor : Nat.card W.Point = Spec.n := EC.card_points

/-- C56. The random numbers drawn for keys are below n - 1. -/
theorem C56_sampling_bound (rd rd' : Reader) (v : Nat) (h : generateRandomBigInt rd = .ok (v, rd')) :
    v < Spec.n - 1 := by
  rcases generateRandomBigInt_spec rd.length rd le_rfl with ⟨v', rd'', h', hv, _⟩ | h'
  · rw [h] at h'
    cases h'
    exact hv
  · rw [h] at h'
    cases h'

/-- C56: a block of ones is too large; the next one is taken. -/
example : ∃ v rd', generateRandomBigInt (List.replicate 32 0xFF ++ List.replicate 40 0x11) = .ok (v, rd') ∧ v < Spec.n - 1 := by
  have h : generateRandomBigInt (List.replicate 32 0xFF ++ List.replicate 40 0x11) =
      .ok (0x1111111111111111111111111111111111111111111111111111111111111111, List.replicate 8 0x11) := by decide +kernel
  exact ⟨_, _, h, C56_sampling_bound _ _ _ h⟩

/-! ## C33, C34 -/

/-- C33. The public key is the multiple of the base point. -/
theorem C33_public_key (E : Ecdsa) (hE : EcdsaContract E) (B : W.Point) (hB : HasCoords B gx gy)
    (key : PrivateKey) (k : Nat) (hk : key.Key = some (k : Int)) (h1 : 1 ≤ k) (h2 : k < Spec.n) :
    ∃ x y : Nat, HasCoords (k • B) x y ∧
      getPublicKey E key = .ok (some ⟨some (x : Int), some (y : Int), key.Network⟩) := by
  obtain ⟨x, y, hc, hr⟩ := hE.scalarMult secp256k1 B k C56_parameters hB h1 h2
  refine ⟨x, y, hc, ?_⟩
  rw [← hk] at hr
  simp [getPublicKey, hr]

example : getPublicKey EC.ref Samples.keyA =
    .ok (some ⟨some 0x0017FDA2210BFCBCC11D7E8845883D8A5C60A72DE7EA840A4D20A9E92681F673,
      some 0xBE823236512B1E28DA42AA7446C39EB70B562C24CC299F0978ECD7C8F37C22A6, some MainNetwork⟩) := by
  decide +kernel

theorem public_key_of (E : Ecdsa) (hE : EcdsaContract E) {key : PrivateKey} {k : Nat} {P : PublicKey}
    (hk : key.Key = some (k : Int)) (h1 : 1 ≤ k) (h2 : k < Spec.n) (h : getPublicKey E key = .ok (some P)) :
    ∃ x y : Nat, HasCoords (k • EC.G) x y ∧ P = ⟨some (x : Int), some (y : Int), key.Network⟩ := by
  obtain ⟨x, y, hc, hr⟩ := C33_public_key E hE EC.G EC.G_coords key k hk h1 h2
  rw [h] at hr
  simp only [Res.ok.injEq, Option.some.injEq] at hr
  exact ⟨x, y, hc, hr⟩

theorem smul_inj_lt {a b : Nat} (ha : a < Spec.n) (hb : b < Spec.n) (h : a • EC.G = b • EC.G) : a = b := by
  have := EC.smul_G_inj h
  rwa [Nat.ModEq, Nat.mod_eq_of_lt ha, Nat.mod_eq_of_lt hb] at this

/-- C34. Different private keys have different public keys. -/
theorem C34_injective (E : Ecdsa) (hE : EcdsaContract E) (a b : PrivateKey) (ka kb : Nat) (A B : PublicKey)
    (ha : a.Key = some (ka : Int)) (hb : b.Key = some (kb : Int)) (ha1 : 1 ≤ ka) (ha2 : ka < Spec.n)
    (hb1 : 1 ≤ kb) (hb2 : kb < Spec.n) (hA : getPublicKey E a = .ok (some A)) (hB : getPublicKey E b = .ok (some B))
    (hX : A.X = B.X) (hY : A.Y = B.Y) : ka = kb := by
  obtain ⟨x, y, hc, rfl⟩ := public_key_of E hE ha ha1 ha2 hA
  obtain ⟨x', y', hc', rfl⟩ := public_key_of E hE hb hb1 hb2 hB
  simp only [Option.some.injEq, Nat.cast_inj] at hX hY
  subst hX hY
  exact smul_inj_lt ha2 hb2 (EC.coords_point hc hc')

/-- C34: two keys of the same number have the same public key, the two sample keys do not. -/
example (A B : PublicKey) (hA : getPublicKey EC.ref Samples.keyA = .ok (some A))
    (hB : getPublicKey EC.ref Samples.keyB = .ok (some B)) : ¬ (A.X = B.X ∧ A.Y = B.Y) := by
  rintro ⟨hX, hY⟩
  exact absurd (C34_injective EC.ref EC.ref_contract Samples.keyA Samples.keyB
    0x8613DFD6C099751DCC4020EF6F9BCD3C00F4565A15B26979B4B93C045D0A5CEB
    0xaef29c9770a9f6b9da86e37fc12a334eeffb02f967a55ba125deb77736ee3fc1 A B rfl rfl (by decide +kernel) (by decide +kernel)
    (by decide +kernel) (by decide +kernel) hA hB hX hY) (by decide +kernel)

/-! ## C37 -/

/-- C37. Adding public keys adds the points; order and the last argument are irrelevant. -/
theorem C37_add_public_keys (E : Ecdsa) (hE : EcdsaContract E) (P Q : W.Point) (x₁ y₁ x₂ y₂ : Nat)
    (net : Option Network) (hP : HasCoords P x₁ y₁) (hQ : HasCoords Q x₂ y₂) (hne : x₁ ≠ x₂) :
    ∃ x y : Nat, HasCoords (P + Q) x y ∧ OnCurve x y ∧ ∀ c : Bool,
      addPublicKeys E ⟨some (x₁ : Int), some (y₁ : Int), net⟩ ⟨some (x₂ : Int), some (y₂ : Int), net⟩ c =
        .ok ⟨some (x : Int), some (y : Int), net⟩ ∧
      addPublicKeys E ⟨some (x₂ : Int), some (y₂ : Int), net⟩ ⟨some (x₁ : Int), some (y₁ : Int), net⟩ c =
        .ok ⟨some (x : Int), some (y : Int), net⟩ := by
  obtain ⟨x, y, hc, hr⟩ := hE.addPoints secp256k1 P Q x₁ y₁ x₂ y₂ C56_parameters hP hQ hne
  obtain ⟨x', y', hc', hr'⟩ := hE.addPoints secp256k1 Q P x₂ y₂ x₁ y₁ C56_parameters hQ hP hne.symm
  rw [add_comm] at hc'
  obtain ⟨rfl, rfl⟩ := EC.coords_unique hc hc'
  refine ⟨x, y, hc, (EC.onCurve_iff x y).2 ⟨_, hc⟩, fun c => ⟨?_, ?_⟩⟩
  · simp [addPublicKeys, hr]
  · simp [addPublicKeys, hr']

/-- C37: the generator and its double are added to its triple. -/
example : ∃ x₂ y₂ x y : Nat, HasCoords (2 • EC.G) x₂ y₂ ∧ HasCoords (EC.G + 2 • EC.G) x y ∧
    addPublicKeys EC.ref ⟨some (gx : Int), some (gy : Int), some MainNetwork⟩
      ⟨some (x₂ : Int), some (y₂ : Int), some MainNetwork⟩ true = .ok ⟨some (x : Int), some (y : Int), some MainNetwork⟩ := by
  obtain ⟨x₂, y₂, h2, -⟩ := C33_public_key EC.ref EC.ref_contract EC.G EC.G_coords ⟨some 2, [], [], none⟩ 2 rfl (by decide)
    (by decide +kernel)
  have hne : gx ≠ x₂ := by
    rintro rfl
    have h : getPublicKey EC.ref ⟨some 2, [], [], none⟩ = .ok (some
        ⟨some 0xC6047F9441ED7D6D3045406E95C07CD85C778E4B8CEF3CA7ABAC09B95C709EE5,
          some 0x1AE168FEA63DC339A3C58419466CEAEEF7F632653266D0E1236431A950CFE52A, none⟩) := by decide +kernel
    obtain ⟨x, y, h1, e⟩ := C33_public_key EC.ref EC.ref_contract EC.G EC.G_coords ⟨some 2, [], [], none⟩ 2 rfl (by decide)
      (by decide +kernel)
    obtain ⟨rfl, rfl⟩ := EC.coords_unique h1 h2
    rw [h] at e
    simp only [Res.ok.injEq, Option.some.injEq, PublicKey.mk.injEq] at e
    exact absurd e.1 (by decide +kernel)
  obtain ⟨x, y, h3, -, h4⟩ := C37_add_public_keys EC.ref EC.ref_contract _ _ _ _ _ _ (some MainNetwork) EC.G_coords h2 hne
  exact ⟨x₂, y₂, x, y, h2, h3, (h4 true).1⟩

/-! ## C35, C36 -/

theorem smul_mod (k : Nat) : (k % Spec.n) • EC.G = k • EC.G := by
  conv_rhs => rw [← Nat.mod_add_div k Spec.n, add_nsmul, mul_comm, mul_nsmul', EC.n_smul_G, nsmul_zero, add_zero]

/-- The two multiples have different x-coordinates. -/
theorem x_ne {a b x y x' y' : Nat} (hab : a ≠ b) (ha : a < Spec.n) (hb : b < Spec.n) (h0 : (a + b) % Spec.n ≠ 0)
    (hc : HasCoords (a • EC.G) x y) (hc' : HasCoords (b • EC.G) x' y') : x ≠ x' := by
  rintro rfl
  rcases EC.same_x hc hc' with h | h
  · exact hab (smul_inj_lt ha hb h)
  · have : (a + b) • EC.G = 0 := by rw [add_nsmul, h, neg_add_cancel]
    rw [EC.smul_G_eq_zero] at this
    exact h0 (Nat.mod_eq_zero_of_dvd this)

/-- C35. The public key of a sum is the sum of the public keys. -/
theorem C35_add_homomorphism (E : Ecdsa) (hE : EcdsaContract E) (H : Hashes) (a b s : PrivateKey) (ka kb : Nat)
    (net : Network) (pre : Bytes) (c : Bool) (hp : Spells net.PrivKeyPrefix pre) (hn : a.Network = some net)
    (ha : a.Key = some (ka : Int)) (hb : b.Key = some (kb : Int)) (ha1 : 1 ≤ ka) (ha2 : ka < Spec.n)
    (hb1 : 1 ≤ kb) (hb2 : kb < Spec.n) (hne : ka ≠ kb) (hs : addPrivateKeys H a b = .ok s) :
    ∃ A B S : PublicKey, getPublicKey E a = .ok (some A) ∧ getPublicKey E b = .ok (some B) ∧
      getPublicKey E s = .ok (some S) ∧ addPublicKeys E A B c = .ok S := by
  obtain ⟨ka', kb', r, h1, h2, hnn, hr, hkey⟩ := C18_add_mod_n H a b s hs
  have e1 : ka' = (ka : Int) := by rw [ha] at h1; simpa using h1.symm
  have e2 : kb' = (kb : Int) := by rw [hb] at h2; simpa using h2.symm
  subst e1 e2
  have er : r = (ka + kb) % Spec.n := by exact_mod_cast hr
  obtain ⟨z, hz, hz1, hz2⟩ := C21_never_zero H a b s net pre hp hn (.inl hs)
  have hzr : z = (r : Int) := by rw [hkey.1] at hz; simpa using hz.symm
  subst hzr
  have hr1 : 1 ≤ r := by exact_mod_cast hz1
  have hr2 : r < Spec.n := by omega
  obtain ⟨x, y, hc, hA⟩ := C33_public_key E hE EC.G EC.G_coords a ka ha ha1 ha2
  obtain ⟨x', y', hc', hB⟩ := C33_public_key E hE EC.G EC.G_coords b kb hb hb1 hb2
  obtain ⟨x'', y'', hc'', hS⟩ := C33_public_key E hE EC.G EC.G_coords s r hkey.1 hr1 hr2
  have hx := x_ne hne ha2 hb2 (by omega) hc hc'
  obtain ⟨u, v, huv, _, hadd⟩ := C37_add_public_keys E hE _ _ _ _ _ _ a.Network hc hc' hx
  rw [er, smul_mod, add_nsmul] at hc''
  obtain ⟨rfl, rfl⟩ := EC.coords_unique huv hc''
  refine ⟨_, _, _, hA, hB, hS, ?_⟩
  rw [← hnn, hkey.2.2.1]
  exact (hadd c).1

-- the two sample keys satisfy the hypotheses (their sum wraps around n)
example : ∃ A B S : PublicKey, ∃ s, addPrivateKeys realHashes Samples.keyA Samples.keyB = .ok s ∧
    getPublicKey EC.ref Samples.keyA = .ok (some A) ∧ getPublicKey EC.ref Samples.keyB = .ok (some B) ∧
    getPublicKey EC.ref s = .ok (some S) ∧ addPublicKeys EC.ref A B false = .ok S := by
  obtain ⟨s, hs, _⟩ := Samples.addAB
  obtain ⟨A, B, S, h⟩ := C35_add_homomorphism EC.ref EC.ref_contract realHashes Samples.keyA Samples.keyB s
    0x8613DFD6C099751DCC4020EF6F9BCD3C00F4565A15B26979B4B93C045D0A5CEB
    0xaef29c9770a9f6b9da86e37fc12a334eeffb02f967a55ba125deb77736ee3fc1 MainNetwork [0x80] false
    (hexDecode_eq_ok.1 (by decide +kernel)) rfl rfl rfl (by decide +kernel) (by decide +kernel) (by decide +kernel)
    (by decide +kernel) (by decide +kernel) hs
  exact ⟨A, B, S, s, hs, h⟩

/-- C36. The public key of a product is a multiple of either public key. -/
theorem C36_mul_homomorphism (E : Ecdsa) (hE : EcdsaContract E) (H : Hashes) (a b s : PrivateKey) (ka kb : Nat)
    (ha : a.Key = some (ka : Int)) (hb : b.Key = some (kb : Int)) (ha1 : 1 ≤ ka) (ha2 : ka < Spec.n)
    (hb1 : 1 ≤ kb) (hb2 : kb < Spec.n) (hs : multiplyPrivateKeys H a b = .ok s) :
    ∃ (P Q R : W.Point) (xa ya xb yb xs ys : Nat),
      getPublicKey E a = .ok (some ⟨some (xa : Int), some (ya : Int), a.Network⟩) ∧ HasCoords P xa ya ∧
      getPublicKey E b = .ok (some ⟨some (xb : Int), some (yb : Int), b.Network⟩) ∧ HasCoords Q xb yb ∧
      getPublicKey E s = .ok (some ⟨some (xs : Int), some (ys : Int), a.Network⟩) ∧ HasCoords R xs ys ∧
      R = ka • Q ∧ R = kb • P := by
  obtain ⟨ka', kb', r, h1, h2, hnn, hr, hkey⟩ := C19_mul_mod_n H a b s hs
  have e1 : ka' = (ka : Int) := by rw [ha] at h1; simpa using h1.symm
  have e2 : kb' = (kb : Int) := by rw [hb] at h2; simpa using h2.symm
  subst e1 e2
  have er : r = (ka * kb) % Spec.n := by exact_mod_cast hr
  have hr0 : r ≠ 0 := by
    intro h0
    rw [h0] at er
    have hd : Spec.n ∣ ka * kb := Nat.dvd_of_mod_eq_zero er.symm
    rcases EC.prime_n.dvd_mul.1 hd with h | h
    · exact Nat.not_dvd_of_pos_of_lt ha1 ha2 h
    · exact Nat.not_dvd_of_pos_of_lt hb1 hb2 h
  have hr2 : r < Spec.n := by rw [er]; exact Nat.mod_lt _ EC.prime_n.pos
  obtain ⟨x, y, hc, hA⟩ := C33_public_key E hE EC.G EC.G_coords a ka ha ha1 ha2
  obtain ⟨x', y', hc', hB⟩ := C33_public_key E hE EC.G EC.G_coords b kb hb hb1 hb2
  obtain ⟨x'', y'', hc'', hS⟩ := C33_public_key E hE EC.G EC.G_coords s r hkey.1 (Nat.pos_of_ne_zero hr0) hr2
  rw [hkey.2.2.1] at hS
  refine ⟨_, _, _, x, y, x', y', x'', y'', hA, hc, hB, hc', hS, hc'', ?_, ?_⟩
  · rw [er, smul_mod, mul_comm, mul_nsmul]
  · rw [er, smul_mod, mul_nsmul]

example : ∃ s, multiplyPrivateKeys realHashes Samples.keyA Samples.keyB = .ok s := Samples.mulAB

/-! ## C38 -/

/-- C38. Opposite keys share X, and their compressed forms differ exactly in the prefix. -/
theorem C38_negation (E : Ecdsa) (hE : EcdsaContract E) (a b : PrivateKey) (k : Nat)
    (ha : a.Key = some (k : Int)) (hb : b.Key = some ((Spec.n - k : Nat) : Int)) (h1 : 1 ≤ k) (h2 : k < Spec.n) :
    ∃ (x y y' : Nat) (xs : GoString),
      getPublicKey E a = .ok (some ⟨some (x : Int), some (y : Int), a.Network⟩) ∧
      getPublicKey E b = .ok (some ⟨some (x : Int), some (y' : Int), b.Network⟩) ∧ y + y' = Spec.p ∧
      ((format ⟨some (x : Int), some (y : Int), a.Network⟩ true = .ok (asc "02" ++ xs) ∧
        format ⟨some (x : Int), some (y' : Int), b.Network⟩ true = .ok (asc "03" ++ xs)) ∨
       (format ⟨some (x : Int), some (y : Int), a.Network⟩ true = .ok (asc "03" ++ xs) ∧
        format ⟨some (x : Int), some (y' : Int), b.Network⟩ true = .ok (asc "02" ++ xs))) := by
  obtain ⟨x, y, hc, hA⟩ := C33_public_key E hE EC.G EC.G_coords a k ha h1 h2
  obtain ⟨x', y', hc', hB⟩ := C33_public_key E hE EC.G EC.G_coords b (Spec.n - k) hb (by omega) (by omega)
  have hneg : (Spec.n - k) • EC.G = -(k • EC.G) := by
    rw [eq_neg_iff_add_eq_zero, ← add_nsmul, Nat.sub_add_cancel (le_of_lt h2), EC.n_smul_G]
  rw [hneg] at hc'
  obtain ⟨rfl, rfl⟩ := EC.coords_unique (EC.neg_coords hc) hc'
  have hy := hc.2.1
  have hodd := EC.p_odd
  refine ⟨x, y, Spec.p - y, hex64 x, hA, hB, by omega, ?_⟩
  rw [format_true, format_true]
  by_cases hy2 : y % 2 = 0
  · left
    have : ¬ (Spec.p - y) % 2 = 0 := by omega
    rw [if_pos hy2, if_neg this]
    exact ⟨rfl, rfl⟩
  · right
    have : (Spec.p - y) % 2 = 0 := by omega
    rw [if_neg hy2, if_pos this]
    exact ⟨rfl, rfl⟩

/-- C38: the keys 1 and n-1. -/
example : ∃ (x y y' : Nat),
    getPublicKey EC.ref ⟨some 1, [], [], none⟩ = .ok (some ⟨some (x : Int), some (y : Int), none⟩) ∧
    getPublicKey EC.ref ⟨some ((Spec.n - 1 : Nat) : Int), [], [], none⟩ = .ok (some ⟨some (x : Int), some (y' : Int), none⟩) ∧
    y + y' = Spec.p := by
  obtain ⟨x, y, y', -, h1, h2, h3, -⟩ := C38_negation EC.ref EC.ref_contract ⟨some 1, [], [], none⟩
    ⟨some ((Spec.n - 1 : Nat) : Int), [], [], none⟩ 1 rfl rfl (by decide) (by decide +kernel)
  exact ⟨x, y, y', h1, h2, h3⟩

/-! ## C29, C30 -/

theorem p_lt : Spec.p < 2 ^ 256 := by decide +kernel

theorem decompress_ok (E : Ecdsa) (hE : EcdsaContract E) (net : Option Network) {x y par : Nat} (h : OnCurve x y)
    (hpar : y % 2 = par) :
    decompress E (par : Int) (some (x : Int)) net = .ok ⟨some (x : Int), some (y : Int), net⟩ := by
  obtain ⟨y', h', hr⟩ := hE.getY_some secp256k1 x y C56_parameters h
  have hy0 := EC.y_ne_zero h
  have hlt := h.2.1
  have hlt' := h'.2.1
  have hodd := EC.p_odd
  simp only [decompress, hr, Res.bind_ok, deref_some, Bool.not_true, Bool.false_eq_true, if_false]
  rcases EC.same_x_y h h' with rfl | hs
  · have : ¬ ((y : Int) % 2 ≠ (par : Int)) := by omega
    rw [if_neg this]
  · have : ((y' : Int) % 2 ≠ (par : Int)) := by omega
    rw [if_pos this, hE.multMod secp256k1 y' (-1) C56_parameters hlt', Res.bind_ok]
    have e : ((y' : Int) * -1) % (Spec.p : Int) = (y : Int) := by
      have : (y' : Int) * -1 = (y : Int) + (Spec.p : Int) * (-1) := by
        have : (y : Int) + y' = Spec.p := by exact_mod_cast hs
        omega
      rw [this, Int.add_mul_emod_self_left]
      exact Int.emod_eq_of_lt (by omega) (by exact_mod_cast hlt)
    rw [e]

theorem decompress_err (E : Ecdsa) (hE : EcdsaContract E) (net : Option Network) (par : Int) {x : Nat} (hx : x < Spec.p)
    (h : ∀ y, ¬ OnCurve x y) : decompress E par (some (x : Int)) net = .err .notOnSecp256k1 := by
  obtain ⟨r, hr⟩ := hE.getY_none secp256k1 x C56_parameters hx h
  simp [decompress, hr]

/-- C29. Compressed keys survive a round trip. -/
theorem C29_compressed_roundtrip (E : Ecdsa) (hE : EcdsaContract E) (x y : Nat) (net net2 : Option Network)
    (h : OnCurve x y) :
    ∃ s, format ⟨some (x : Int), some (y : Int), net⟩ true = .ok s ∧
      publicFromHex E s net2 = .ok ⟨some (x : Int), some (y : Int), net2⟩ := by
  have hx : x < 2 ^ 256 := lt_trans h.1 p_lt
  refine ⟨_, format_true x y net, ?_⟩
  by_cases hy : y % 2 = 0
  · rw [if_pos hy]
    have := publicFromHex_even E (xs := hex64 x) [] net2 (length_hex64 hx)
    rw [List.append_nil, bigSetString_hex64 hx] at this
    rw [this]
    exact decompress_ok E hE net2 (par := 0) h hy
  · rw [if_neg hy]
    have := publicFromHex_odd E (xs := hex64 x) [] net2 (length_hex64 hx)
    rw [List.append_nil, bigSetString_hex64 hx] at this
    rw [this]
    exact decompress_ok E hE net2 (par := 1) h (by omega)

/-- C29: the generator. -/
example : OnCurve gx gy ∧ publicFromHex EC.ref
    (asc "0279be667ef9dcbbac55a06295ce870b07029bfcdb2dce28d959f2815b16f81798") none =
      .ok ⟨some (gx : Int), some (gy : Int), none⟩ := by
  obtain ⟨s, h1, h2⟩ := C29_compressed_roundtrip EC.ref EC.ref_contract gx gy none none C56_base_point.1
  have h3 : format ⟨some (gx : Int), some (gy : Int), none⟩ true =
      .ok (asc "0279be667ef9dcbbac55a06295ce870b07029bfcdb2dce28d959f2815b16f81798") := by decide +kernel
  cases h1.symm.trans h3
  exact ⟨C56_base_point.1, h2⟩

/-- The prefix of a compressed key with this parity of Y. -/
def Spec.parityPrefix (par : Fin 2) : GoString := if par = 0 then asc "02" else asc "03"

/-- C30. Decompression returns the one right point, or the error. -/
theorem C30_decompression (E : Ecdsa) (hE : EcdsaContract E) (par : Fin 2) (xs : GoString) (net : Option Network)
    (hl : xs.length = 64) (hh : ∀ c ∈ xs, IsHexDigit c) (hx : hexNumber xs < Spec.p) :
    (∀ y, OnCurve (hexNumber xs) y → y % 2 = par →
      publicFromHex E (Spec.parityPrefix par ++ xs) net = .ok ⟨some (hexNumber xs : Int), some (y : Int), net⟩) ∧
    ((∀ y, ¬ OnCurve (hexNumber xs) y) →
      publicFromHex E (Spec.parityPrefix par ++ xs) net = .err .notOnSecp256k1) ∧
    ((∃ y, OnCurve (hexNumber xs) y) → ∃! y, OnCurve (hexNumber xs) y ∧ y % 2 = par) := by
  have hne : xs ≠ [] := by rintro rfl; simp at hl
  have e : publicFromHex E (Spec.parityPrefix par ++ xs) net =
      decompress E ((par : Nat) : Int) (some (hexNumber xs : Int)) net := by
    have h2 := publicFromHex_even E (xs := xs) [] net hl
    have h3 := publicFromHex_odd E (xs := xs) [] net hl
    rw [List.append_nil, bigSetString_hex hh, if_neg hne] at h2 h3
    match par with
    | 0 => exact h2
    | 1 => exact h3
  refine ⟨fun y hy hp => ?_, fun hno => ?_, ?_⟩
  · rw [e]
    exact decompress_ok E hE net hy hp
  · rw [e]
    exact decompress_err E hE net _ hx hno
  · rintro ⟨y, hy⟩
    have hodd := EC.p_odd
    have hlt := hy.2.1
    have hpar := par.isLt
    have huniq : ∀ u v, OnCurve (hexNumber xs) u → OnCurve (hexNumber xs) v → u % 2 = par → v % 2 = par → u = v := by
      intro u v hu hv h1 h2
      rcases EC.same_x_y hu hv with h | h
      · exact h
      · omega
    by_cases hp : y % 2 = par
    · exact ⟨y, ⟨hy, hp⟩, fun z hz => huniq z y hz.1 hy hz.2 hp⟩
    · obtain ⟨P, hP⟩ := (EC.onCurve_iff _ _).1 hy
      have hn : OnCurve (hexNumber xs) (Spec.p - y) := (EC.onCurve_iff _ _).2 ⟨_, EC.neg_coords hP⟩
      have hp' : (Spec.p - y) % 2 = par := by omega
      exact ⟨_, ⟨hn, hp'⟩, fun z hz => huniq z _ hz.1 hn hz.2 hp'⟩

-- both outcomes occur: x = 1 is on the curve, x = 5 is not
example : OnCurve 1 29896722852569046015560700294576055776214335159245303116488692907525646231534 ∧
    publicFromHex EC.ref (asc "020000000000000000000000000000000000000000000000000000000000000005") none =
      .err .notOnSecp256k1 := by
  refine ⟨⟨by decide +kernel, by decide +kernel, by decide +kernel⟩, by decide +kernel⟩

end Btc
