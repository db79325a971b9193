import Verif.Proofs.Arith
import Verif.Props.Wif

/-!
# C18–C26: arithmetic on private keys
-/

namespace Btc

open Spec

/-- The result of an arithmetic call is the key of the number `r`: same number, shortest hexadecimal text, and the
WIF that `PrivateFromHex` gives that text on the network. -/
def Spec.IsKeyOf (H : Hashes) (r : Nat) (network : Option Network) (k : PrivateKey) : Prop :=
  k.Key = some (r : Int) ∧ IsMinimalHex r k.Hex ∧ k.Network = network ∧
    privateFromHex H k.Hex network = .ok k ∧
    ∃ net payload, network = some net ∧ Spells (net.PrivKeyPrefix ++ k.Hex) payload ∧
      IsBase58Check H.sha256 payload k.WIF

theorem combine_isKeyOf (H : Hashes) (op : Int → Int → Int) {a b k : PrivateKey}
    (hk : combine H op a b = .ok k) :
    ∃ ka kb, a.Key = some ka ∧ b.Key = some kb ∧ a.Network = b.Network ∧
      IsKeyOf H (residue (op ka kb)) a.Network k := by
  obtain ⟨k1, k2, net, bs, e1, e2, hw, h1, h2, hs, rfl⟩ := (combine_eq_ok H op).1 hk
  refine ⟨k1, k2, h1, h2, e1.trans e2.symm, ?_, isMinimalHex_fmtNat _, e1.symm, ?_, net, bs, e1, hs,
    isBase58_encode _⟩
  · rw [residue_cast]
  · rw [e1, privateFromHex_of_spells H hs, bigSetString_fmtNat16, residue_cast]

/-! ## C18, C19 -/

/-- C18. A successful addition returns the key of the sum modulo the group order. -/
theorem C18_add_mod_n (H : Hashes) (a b k : PrivateKey) (hk : addPrivateKeys H a b = .ok k) :
    ∃ (ka kb : Int) (r : Nat), a.Key = some ka ∧ b.Key = some kb ∧ a.Network = b.Network ∧
      (r : Int) = (ka + kb) % (Spec.n : Int) ∧ IsKeyOf H r a.Network k := by
  obtain ⟨ka, kb, h1, h2, hn, h⟩ := combine_isKeyOf H _ (add_eq_combine H ▸ hk)
  exact ⟨ka, kb, _, h1, h2, hn, residue_cast _, h⟩

/-- C19. A successful multiplication returns the key of the product modulo the group order. -/
theorem C19_mul_mod_n (H : Hashes) (a b k : PrivateKey) (hk : multiplyPrivateKeys H a b = .ok k) :
    ∃ (ka kb : Int) (r : Nat), a.Key = some ka ∧ b.Key = some kb ∧ a.Network = b.Network ∧
      (r : Int) = (ka * kb) % (Spec.n : Int) ∧ IsKeyOf H r a.Network k := by
  obtain ⟨ka, kb, h1, h2, hn, h⟩ := combine_isKeyOf H _ (mul_eq_combine H ▸ hk)
  exact ⟨ka, kb, _, h1, h2, hn, residue_cast _, h⟩

-- The two sample keys: the sum wraps around the group order
theorem Samples.addAB : ∃ k, addPrivateKeys realHashes Samples.keyA Samples.keyB = .ok k ∧
    k.Hex = asc "35067c6e31436bd7a6c7046f30c6008c36407c6cce0f24df1ac594eec3c25b6b" := by
  have h : (match addPrivateKeys realHashes Samples.keyA Samples.keyB with | .ok k => some k.Hex | _ => none) =
      some (asc "35067c6e31436bd7a6c7046f30c6008c36407c6cce0f24df1ac594eec3c25b6b") := by decide +kernel
  revert h
  cases addPrivateKeys realHashes Samples.keyA Samples.keyB <;> simp

theorem Samples.mulAB : ∃ k, multiplyPrivateKeys realHashes Samples.keyA Samples.keyB = .ok k := by
  have h : (match multiplyPrivateKeys realHashes Samples.keyA Samples.keyB with
      | .ok _ => true | _ => false) = true := by decide +kernel
  revert h
  cases multiplyPrivateKeys realHashes Samples.keyA Samples.keyB <;> simp

/-! ## C20 -/

/-- The exact outcome of both operations on non-nil keys of one network with a hexadecimal byte prefix. -/
theorem combine_outcome (H : Hashes) (op : Int → Int → Int) {a b : PrivateKey} {ka kb : Int} {net : Network}
    {pre : Bytes} (hp : Spells net.PrivKeyPrefix pre) (ha : a.Network = some net) (hb : b.Network = some net)
    (h1 : a.Key = some ka) (h2 : b.Key = some kb) (hw : H.toLower a.WIF ≠ H.toLower b.WIF) :
    ((∃ k, combine H op a b = .ok k) ↔
      residue (op ka kb) ≠ 0 ∧ (Nat.digits 16 (residue (op ka kb))).length % 2 = 0) ∧
    (¬ (∃ k, combine H op a b = .ok k) → combine H op a b = .err .hexLength) := by
  rw [combine_eq H op (ha.trans hb.symm) hw h1 h2, ha]
  have hpre := (exists_spells_iff _).1 ⟨pre, hp⟩
  have hall : ∀ c ∈ net.PrivKeyPrefix ++ fmtNat 16 (residue (op ka kb)), IsHexDigit c := by
    intro c hc
    rcases List.mem_append.1 hc with hc | hc
    · exact hpre.1 c hc
    · exact fmtNat16_isHex c hc
  have hiff := C02_accepts_iff H (fmtNat 16 (residue (op ka kb))) net
  have hlen : (net.PrivKeyPrefix ++ fmtNat 16 (residue (op ka kb))).length % 2 =
      (fmtNat 16 (residue (op ka kb))).length % 2 := by
    rw [List.length_append]; omega
  constructor
  · rw [hiff, hlen]
    by_cases h0 : residue (op ka kb) = 0
    · simp [h0, fmtNat]
    · rw [length_fmtNat h0]
      exact ⟨fun h => ⟨h0, h.2⟩, fun h => ⟨hall, h.2⟩⟩
  · intro hno
    apply C02_bad_length H _ _ hall
    rw [hiff] at hno
    have : ¬ (net.PrivKeyPrefix ++ fmtNat 16 (residue (op ka kb))).length % 2 = 0 := fun h => hno ⟨hall, h⟩
    omega

/-- C20, what holds for addition: success exactly when the sum mod n is non-zero with an even number of
hexadecimal digits; otherwise a length error. -/
theorem C20_add_succeeds_iff_partial (H : Hashes) (a b : PrivateKey) (ka kb : Int) (net : Network) (pre : Bytes)
    (hp : Spells net.PrivKeyPrefix pre) (ha : a.Network = some net) (hb : b.Network = some net)
    (h1 : a.Key = some ka) (h2 : b.Key = some kb) (hw : H.toLower a.WIF ≠ H.toLower b.WIF) :
    ((∃ k, addPrivateKeys H a b = .ok k) ↔
      ∃ r : Nat, (r : Int) = (ka + kb) % (Spec.n : Int) ∧ r ≠ 0 ∧ (Nat.digits 16 r).length % 2 = 0) ∧
    (¬ (∃ k, addPrivateKeys H a b = .ok k) → addPrivateKeys H a b = .err .hexLength) := by
  have h := combine_outcome H (· + ·) hp ha hb h1 h2 hw
  refine ⟨?_, h.2⟩
  rw [add_eq_combine, h.1]
  constructor
  · intro h; exact ⟨_, residue_cast _, h⟩
  · rintro ⟨r, hr, h⟩
    rw [← residue_cast] at hr
    obtain rfl : r = residue (ka + kb) := by exact_mod_cast hr
    exact h

/-- C20, what holds for multiplication. -/
theorem C20_mul_succeeds_iff_partial (H : Hashes) (a b : PrivateKey) (ka kb : Int) (net : Network) (pre : Bytes)
    (hp : Spells net.PrivKeyPrefix pre) (ha : a.Network = some net) (hb : b.Network = some net)
    (h1 : a.Key = some ka) (h2 : b.Key = some kb) (hw : H.toLower a.WIF ≠ H.toLower b.WIF) :
    ((∃ k, multiplyPrivateKeys H a b = .ok k) ↔
      ∃ r : Nat, (r : Int) = (ka * kb) % (Spec.n : Int) ∧ r ≠ 0 ∧ (Nat.digits 16 r).length % 2 = 0) ∧
    (¬ (∃ k, multiplyPrivateKeys H a b = .ok k) → multiplyPrivateKeys H a b = .err .hexLength) := by
  have h := combine_outcome H (· * ·) hp ha hb h1 h2 hw
  refine ⟨?_, h.2⟩
  rw [mul_eq_combine, h.1]
  constructor
  · intro h; exact ⟨_, residue_cast _, h⟩
  · rintro ⟨r, hr, h⟩
    rw [← residue_cast] at hr
    obtain rfl : r = residue (ka * kb) := by exact_mod_cast hr
    exact h

example : Spells MainNetwork.PrivKeyPrefix [0x80] ∧ Samples.keyA.Network = some MainNetwork ∧
    Samples.keyB.Network = some MainNetwork ∧ realHashes.toLower Samples.keyA.WIF ≠ realHashes.toLower Samples.keyB.WIF :=
  ⟨hexDecode_eq_ok.1 (by decide +kernel), rfl, rfl, by decide +kernel⟩

/-- 64-digit text of 2. -/
def Samples.hex2 : GoString := asc "0000000000000000000000000000000000000000000000000000000000000002"
/-- 64-digit text of 3. -/
def Samples.hex3 : GoString := asc "0000000000000000000000000000000000000000000000000000000000000003"
/-- 64-digit text of 14. -/
def Samples.hex14 : GoString := asc "000000000000000000000000000000000000000000000000000000000000000e"

/-- A failing pair, for every hash function. -/
theorem combine_odd_fails (H : Hashes) (op : Int → Int → Int) (h1 h2 : GoString) (m1 m2 : Nat) (a b : PrivateKey)
    (ha : privateFromHex H h1 (some MainNetwork) = .ok a) (hb : privateFromHex H h2 (some MainNetwork) = .ok b)
    (e1 : bigSetString h1 16 = some (m1 : Int)) (e2 : bigSetString h2 16 = some (m2 : Int))
    (hodd : ¬ (Nat.digits 16 (residue (op m1 m2))).length % 2 = 0) :
    ∀ k, combine H op a b ≠ .ok k := by
  intro k hk
  obtain ⟨n1, b1, x1, s1, rfl⟩ := (privateFromHex_eq_ok H).1 ha
  obtain ⟨n2, b2, x2, s2, rfl⟩ := (privateFromHex_eq_ok H).1 hb
  cases x1; cases x2
  by_cases hw : H.toLower (base58Encode (b1 ++ checksum H.sha256 b1)) =
      H.toLower (base58Encode (b2 ++ checksum H.sha256 b2))
  · simp [combine, hw] at hk
  · have hp : Spells MainNetwork.PrivKeyPrefix [0x80] := hexDecode_eq_ok.1 (by decide +kernel)
    have := (combine_outcome H op hp (a := ⟨_, h1, _, _⟩) (b := ⟨_, h2, _, _⟩) rfl rfl e1 e2 hw).1.1 ⟨k, hk⟩
    exact hodd this.2

/-- C20 is false for addition and for multiplication, for every hash function: the keys 2 and 3 (as 64-digit
texts) can be neither added nor multiplied. -/
theorem C20_violated (H : Hashes) :
    (¬ ∀ (h1 h2 : GoString) (a b : PrivateKey) (ka kb : Nat), h1.length = 64 → h2.length = 64 →
      privateFromHex H h1 (some MainNetwork) = .ok a → privateFromHex H h2 (some MainNetwork) = .ok b →
      a.Key = some (ka : Int) → b.Key = some (kb : Int) → 0 < ka → ka < Spec.n → 0 < kb → kb < Spec.n →
      ka ≠ kb → (ka + kb) % Spec.n ≠ 0 → ∃ k, addPrivateKeys H a b = .ok k) ∧
    (¬ ∀ (h1 h2 : GoString) (a b : PrivateKey) (ka kb : Nat), h1.length = 64 → h2.length = 64 →
      privateFromHex H h1 (some MainNetwork) = .ok a → privateFromHex H h2 (some MainNetwork) = .ok b →
      a.Key = some (ka : Int) → b.Key = some (kb : Int) → 0 < ka → ka < Spec.n → 0 < kb → kb < Spec.n →
      ka ≠ kb → (ka * kb) % Spec.n ≠ 0 → ∃ k, multiplyPrivateKeys H a b = .ok k) := by
  obtain ⟨⟨a, _, ha, _⟩, _⟩ := C11_wif_shape H Samples.hex2 (by decide +kernel) (by decide +kernel)
  obtain ⟨⟨b, _, hb, _⟩, _⟩ := C11_wif_shape H Samples.hex3 (by decide +kernel) (by decide +kernel)
  have e1 : bigSetString Samples.hex2 16 = some ((2 : Nat) : Int) := by decide +kernel
  have e2 : bigSetString Samples.hex3 16 = some ((3 : Nat) : Int) := by decide +kernel
  have ka : a.Key = some ((2 : Nat) : Int) := by
    obtain ⟨_, _, x, _, rfl⟩ := (privateFromHex_eq_ok H).1 ha; exact e1
  have kb : b.Key = some ((3 : Nat) : Int) := by
    obtain ⟨_, _, x, _, rfl⟩ := (privateFromHex_eq_ok H).1 hb; exact e2
  constructor
  · intro h
    obtain ⟨k, hk⟩ := h _ _ a b 2 3 (by decide +kernel) (by decide +kernel) ha hb ka kb
      (by decide) (by decide +kernel) (by decide) (by decide +kernel) (by decide) (by decide +kernel)
    exact combine_odd_fails H (· + ·) _ _ 2 3 a b ha hb e1 e2 (by decide +kernel) k hk
  · intro h
    obtain ⟨k, hk⟩ := h _ _ a b 2 3 (by decide +kernel) (by decide +kernel) ha hb ka kb
      (by decide) (by decide +kernel) (by decide) (by decide +kernel) (by decide) (by decide +kernel)
    exact combine_odd_fails H (· * ·) _ _ 2 3 a b ha hb e1 e2 (by decide +kernel) k hk

/-! ## C21 -/

theorem combine_range (H : Hashes) (op : Int → Int → Int) {a b k : PrivateKey} {net : Network} {pre : Bytes}
    (hp : Spells net.PrivKeyPrefix pre) (ha : a.Network = some net) (hk : combine H op a b = .ok k) :
    ∃ z : Int, k.Key = some z ∧ 1 ≤ z ∧ z ≤ (Spec.n : Int) - 1 := by
  obtain ⟨k1, k2, net', bs, e1, e2, hw, h1, h2, hs, rfl⟩ := (combine_eq_ok H op).1 hk
  have h := ((combine_outcome H op hp ha (by rw [e2, ← e1, ha]) h1 h2 hw).1.1 ⟨_, hk⟩).1
  have hlt := residue_lt (op k1 k2)
  refine ⟨_, rfl, ?_, ?_⟩ <;> rw [← residue_cast] <;> omega

/-- C21. Sums and products are never the zero key and always a valid scalar. -/
theorem C21_never_zero (H : Hashes) (a b k : PrivateKey) (net : Network) (pre : Bytes)
    (hp : Spells net.PrivKeyPrefix pre) (ha : a.Network = some net)
    (hk : addPrivateKeys H a b = .ok k ∨ multiplyPrivateKeys H a b = .ok k) :
    ∃ z : Int, k.Key = some z ∧ 1 ≤ z ∧ z ≤ (Spec.n : Int) - 1 := by
  rcases hk with hk | hk
  · exact combine_range H _ hp ha (add_eq_combine H ▸ hk)
  · exact combine_range H _ hp ha (mul_eq_combine H ▸ hk)

example : ∃ k, (addPrivateKeys realHashes Samples.keyA Samples.keyB = .ok k ∨
    multiplyPrivateKeys realHashes Samples.keyA Samples.keyB = .ok k) ∧
    Spells MainNetwork.PrivKeyPrefix [0x80] := by
  obtain ⟨k, hk, _⟩ := Samples.addAB
  exact ⟨k, .inl hk, hexDecode_eq_ok.1 (by decide +kernel)⟩

/-! ## C22, C23 -/

/-- C22. Addition does not depend on the order of the arguments: same key, same error or same crash. -/
theorem C22_add_comm (H : Hashes) (a b : PrivateKey) : addPrivateKeys H a b = addPrivateKeys H b a :=
  combine_comm H (· + ·) Int.add_comm a b

/-- C22. Multiplication does not depend on the order of the arguments. -/
theorem C22_mul_comm (H : Hashes) (a b : PrivateKey) :
    multiplyPrivateKeys H a b = multiplyPrivateKeys H b a :=
  combine_comm H (· * ·) Int.mul_comm a b

example : ∃ k, addPrivateKeys realHashes Samples.keyB Samples.keyA = .ok k := by
  obtain ⟨k, hk, _⟩ := Samples.addAB
  exact ⟨k, by rw [C22_add_comm]; exact hk⟩

/-- The result is determined by the residue and the network. -/
theorem isKeyOf_unique (H : Hashes) (op op' : Int → Int → Int) {a b c d k k' : PrivateKey}
    (hk : combine H op a b = .ok k) (hk' : combine H op' c d = .ok k') (hn : a.Network = c.Network)
    (hkey : k.Key = k'.Key) : k = k' := by
  obtain ⟨k1, k2, net, bs, e1, e2, hw, h1, h2, hs, rfl⟩ := (combine_eq_ok H op).1 hk
  obtain ⟨k1', k2', net', bs', e1', e2', hw', h1', h2', hs', rfl⟩ := (combine_eq_ok H op').1 hk'
  have hnet : net = net' := by rw [e1, e1'] at hn; simpa using hn
  subst hnet
  simp only [Option.some.injEq] at hkey
  have hr : residue (op k1 k2) = residue (op' k1' k2') := by
    have h := hkey
    rw [← residue_cast, ← residue_cast] at h
    exact_mod_cast h
  rw [hr] at hs
  rw [hs.unique hs', hr, hkey]

/-- C23. Addition is associative: the whole keys agree. -/
theorem C23_add_assoc (H : Hashes) (a b c ab bc l r : PrivateKey) (h1 : addPrivateKeys H a b = .ok ab)
    (h2 : addPrivateKeys H ab c = .ok l) (h3 : addPrivateKeys H b c = .ok bc)
    (h4 : addPrivateKeys H a bc = .ok r) : l = r := by
  rw [add_eq_combine] at h1 h2 h3 h4
  obtain ⟨ka, kb, a1, a2, n1, i1⟩ := combine_isKeyOf H _ h1
  obtain ⟨kab, kc, b1, b2, n2, i2⟩ := combine_isKeyOf H _ h2
  obtain ⟨kb', kc', c1, c2, n3, i3⟩ := combine_isKeyOf H _ h3
  obtain ⟨ka', kbc, d1, d2, n4, i4⟩ := combine_isKeyOf H _ h4
  have e1 := b1.symm.trans i1.1
  have e2 := d2.symm.trans i3.1
  have e3 := c1.symm.trans a2
  have e4 := c2.symm.trans b2
  have e5 := d1.symm.trans a1
  simp only [Option.some.injEq] at e1 e2 e3 e4 e5
  subst e1 e2 e3 e4 e5
  refine isKeyOf_unique H _ _ h2 h4 i1.2.2.1 ?_
  rw [i2.1, i4.1]
  simp only [residue_cast, Int.emod_add_emod, Int.add_emod_emod]
  ring_nf

/-- C23. Multiplication is associative: the whole keys agree. -/
theorem C23_mul_assoc (H : Hashes) (a b c ab bc l r : PrivateKey) (h1 : multiplyPrivateKeys H a b = .ok ab)
    (h2 : multiplyPrivateKeys H ab c = .ok l) (h3 : multiplyPrivateKeys H b c = .ok bc)
    (h4 : multiplyPrivateKeys H a bc = .ok r) : l = r := by
  rw [mul_eq_combine] at h1 h2 h3 h4
  obtain ⟨ka, kb, a1, a2, n1, i1⟩ := combine_isKeyOf H _ h1
  obtain ⟨kab, kc, b1, b2, n2, i2⟩ := combine_isKeyOf H _ h2
  obtain ⟨kb', kc', c1, c2, n3, i3⟩ := combine_isKeyOf H _ h3
  obtain ⟨ka', kbc, d1, d2, n4, i4⟩ := combine_isKeyOf H _ h4
  have e1 := b1.symm.trans i1.1
  have e2 := d2.symm.trans i3.1
  have e3 := c1.symm.trans a2
  have e4 := c2.symm.trans b2
  have e5 := d1.symm.trans a1
  simp only [Option.some.injEq] at e1 e2 e3 e4 e5
  subst e1 e2 e3 e4 e5
  refine isKeyOf_unique H _ _ h2 h4 i1.2.2.1 ?_
  rw [i2.1, i4.1]
  simp only [residue_cast]
  rw [Int.mul_emod, Int.emod_emod, ← Int.mul_emod, Int.mul_emod _ (_ % _), Int.emod_emod, ← Int.mul_emod,
    Int.mul_assoc]

/-- C23. Multiplication distributes over addition: the whole keys agree. -/
theorem C23_distrib (H : Hashes) (a b c bc ab ac l r : PrivateKey) (h1 : addPrivateKeys H b c = .ok bc)
    (h2 : multiplyPrivateKeys H a bc = .ok l) (h3 : multiplyPrivateKeys H a b = .ok ab)
    (h4 : multiplyPrivateKeys H a c = .ok ac) (h5 : addPrivateKeys H ab ac = .ok r) : l = r := by
  rw [add_eq_combine] at h1 h5
  rw [mul_eq_combine] at h2 h3 h4
  obtain ⟨kb, kc, a1, a2, n1, i1⟩ := combine_isKeyOf H _ h1
  obtain ⟨ka, kbc, b1, b2, n2, i2⟩ := combine_isKeyOf H _ h2
  obtain ⟨ka', kb', c1, c2, n3, i3⟩ := combine_isKeyOf H _ h3
  obtain ⟨ka'', kc', d1, d2, n4, i4⟩ := combine_isKeyOf H _ h4
  obtain ⟨kab, kac, f1, f2, n5, i5⟩ := combine_isKeyOf H _ h5
  have e1 := b2.symm.trans i1.1
  have e2 := c1.symm.trans b1
  have e3 := c2.symm.trans a1
  have e4 := d1.symm.trans b1
  have e5 := d2.symm.trans a2
  have e6 := f1.symm.trans i3.1
  have e7 := f2.symm.trans i4.1
  simp only [Option.some.injEq] at e1 e2 e3 e4 e5 e6 e7
  subst e1 e2 e3 e4 e5 e6 e7
  refine isKeyOf_unique H _ _ h2 h5 i3.2.2.1.symm ?_
  rw [i2.1, i5.1]
  simp only [residue_cast]
  rw [Int.mul_emod, Int.emod_emod, ← Int.mul_emod, ← Int.add_emod, Int.mul_add]

/-- private_key_test.go:49. -/
def Samples.keyC : PrivateKey where
  Key := some 0x42EE9BFFA29658554203A7D82456B4CBB9286ABE8D781D6C94C080260A9F24D6
  Hex := asc "42EE9BFFA29658554203A7D82456B4CBB9286ABE8D781D6C94C080260A9F24D6"
  WIF := asc "5JKmGh5KasctVb3o9p1eNZmgqgRNvAUTmVBs9aca5VJHHMFtMgc"
  Network := some MainNetwork

-- all four calls of the associativity theorem succeed on the sample keys
example : (match (do
    let ab ← addPrivateKeys realHashes Samples.keyA Samples.keyB
    let l ← addPrivateKeys realHashes ab Samples.keyC
    let bc ← addPrivateKeys realHashes Samples.keyB Samples.keyC
    let r ← addPrivateKeys realHashes Samples.keyA bc
    Res.ok (decide (l = r))) with | .ok b => b | _ => false) = true := by decide +kernel
example : (match (do
    let ab ← multiplyPrivateKeys realHashes Samples.keyA Samples.keyB
    let l ← multiplyPrivateKeys realHashes ab Samples.keyC
    let bc ← multiplyPrivateKeys realHashes Samples.keyB Samples.keyC
    let r ← multiplyPrivateKeys realHashes Samples.keyA bc
    Res.ok (decide (l = r))) with | .ok b => b | _ => false) = true := by decide +kernel
example : (match (do
    let bc ← addPrivateKeys realHashes Samples.keyB Samples.keyC
    let l ← multiplyPrivateKeys realHashes Samples.keyA bc
    let ab ← multiplyPrivateKeys realHashes Samples.keyA Samples.keyB
    let ac ← multiplyPrivateKeys realHashes Samples.keyA Samples.keyC
    let r ← addPrivateKeys realHashes ab ac
    Res.ok (decide (l = r))) with | .ok b => b | _ => false) = true := by decide +kernel

/-! ## C24 (private keys) -/

/-- C24. Keys of different networks are refused, and results carry the common network. -/
theorem C24_private_networks (H : Hashes) (a b : PrivateKey) :
    (a.Network ≠ b.Network → addPrivateKeys H a b = .err .differentNetwork ∧
      multiplyPrivateKeys H a b = .err .differentNetwork) ∧
    (∀ k, addPrivateKeys H a b = .ok k ∨ multiplyPrivateKeys H a b = .ok k →
      k.Network = a.Network ∧ k.Network = b.Network) := by
  constructor
  · intro h
    simp [addPrivateKeys, multiplyPrivateKeys, h]
  · rintro k (hk | hk)
    · obtain ⟨_, _, _, _, hn, hi⟩ := combine_isKeyOf H _ (add_eq_combine H ▸ hk)
      exact ⟨hi.2.2.1, hi.2.2.1.trans hn⟩
    · obtain ⟨_, _, _, _, hn, hi⟩ := combine_isKeyOf H _ (mul_eq_combine H ▸ hk)
      exact ⟨hi.2.2.1, hi.2.2.1.trans hn⟩

example : Samples.keyA.Network ≠ Samples.keyT.Network := by decide +kernel

/-! ## C25 -/

/-- private_key_test.go:126, a WIF of the test-suite. -/
def Samples.wifLow : GoString := asc "5Jw5VXRjdyojUobJQ96Psr8zmXZKHsjYgpLXf536ozN6uLZpNDD"
/-- A different valid WIF that differs from it only in the case of letters. -/
def Samples.wifHigh : GoString := asc "5JW5VXRjdYoJuoBJQ96psr8zmXZkHsJYGPLxf536ozn6ULZPNdd"

/-- C25 is false: two different, valid, standard keys of one network are refused as identical. -/
theorem C25_violated :
    ¬ ∀ (w1 w2 : GoString) (a b : PrivateKey), privateFromWIF realHashes w1 (some MainNetwork) = .ok a →
      privateFromWIF realHashes w2 (some MainNetwork) = .ok b →
      addPrivateKeys realHashes a b = .err .identicalKeys → a.Key = b.Key := by
  intro h
  have key : (do
      let a ← privateFromWIF realHashes Samples.wifLow (some MainNetwork)
      let b ← privateFromWIF realHashes Samples.wifHigh (some MainNetwork)
      Res.ok (decide (addPrivateKeys realHashes a b = Res.err .identicalKeys ∧
        multiplyPrivateKeys realHashes a b = Res.err .identicalKeys ∧ a.Key ≠ b.Key))) = .ok true := by
    decide +kernel
  simp only [Res.bind_eq_ok, Res.ok.injEq, decide_eq_true_eq] at key
  obtain ⟨a, ha, b, hb, h1, _, h2⟩ := key
  exact h2 (h _ _ a b ha hb h1)

/-- C25, what holds: the 'identical' error is returned exactly when the networks agree and the WIFs agree up to
the case of letters; in particular always when the WIFs are equal. -/
theorem C25_identical_iff_partial (H : Hashes) (a b : PrivateKey) :
    (addPrivateKeys H a b = .err .identicalKeys ↔ a.Network = b.Network ∧ H.toLower a.WIF = H.toLower b.WIF) ∧
    (multiplyPrivateKeys H a b = .err .identicalKeys ↔
      a.Network = b.Network ∧ H.toLower a.WIF = H.toLower b.WIF) := by
  have main : ∀ op, combine H op a b = .err .identicalKeys ↔
      a.Network = b.Network ∧ H.toLower a.WIF = H.toLower b.WIF := by
    intro op
    constructor
    · intro h
      have hn : a.Network = b.Network := by
        by_contra hn; simp [combine, hn] at h
      refine ⟨hn, ?_⟩
      by_contra hw
      cases h1 : a.Key with
      | none => simp [combine, hn, hw, h1] at h
      | some k1 =>
        cases h2 : b.Key with
        | none => simp [combine, hn, hw, h1, h2] at h
        | some k2 =>
          rw [combine_eq H op hn hw h1 h2] at h
          cases hnet : a.Network with
          | none => rw [hnet, privateFromHex_none] at h; simp at h
          | some net =>
            rw [hnet] at h
            cases hd : hexDecode (net.PrivKeyPrefix ++ fmtNat 16 (residue (op k1 k2))) with
            | ok bs => simp [privateFromHex_of_spells H (hexDecode_eq_ok.1 hd)] at h
            | panic q => exact absurd hd (hexDecode_ne_panic _ _)
            | err e =>
              rw [privateFromHex_of_err H hd] at h
              simp only [Res.err.injEq] at h
              subst h
              exact hexDecode_ne_identical _ hd
    · rintro ⟨h1, h2⟩
      simp [combine, h1, h2]
  exact ⟨main _, main _⟩
where
  /-- hexadecimal decoding never reports that error -/
  hexDecode_ne_identical : ∀ s : GoString, hexDecode s ≠ .err .identicalKeys := by
    apply list_two_step
    · simp [hexDecode]
    · intro a
      cases ha : fromHexChar a <;> simp [hexDecode, ha]
    · intro a b rest ih
      cases hx : fromHexChar a with
      | none => simp [hexDecode, hx]
      | some x =>
        cases hy : fromHexChar b with
        | none => simp [hexDecode, hx, hy]
        | some y =>
          simp only [hexDecode, hx, hy]
          cases hr : hexDecode rest with
          | err q => rw [hr] at ih; simpa using ih
          | _ => simp

example : addPrivateKeys realHashes Samples.keyA Samples.keyA = .err .identicalKeys :=
  ((C25_identical_iff_partial realHashes Samples.keyA Samples.keyA).1).2 ⟨rfl, rfl⟩

namespace Spec

/-- Specification: the same letter up to ASCII case. -/
def SameLetter (c d : UInt8) : Prop :=
  c = d ∨ (asc "ABCDEFGHIJKLMNOPQRSTUVWXYZ").idxOf? c = (asc "abcdefghijklmnopqrstuvwxyz").idxOf? d ∧
      c ∈ asc "ABCDEFGHIJKLMNOPQRSTUVWXYZ" ∨
    (asc "ABCDEFGHIJKLMNOPQRSTUVWXYZ").idxOf? d = (asc "abcdefghijklmnopqrstuvwxyz").idxOf? c ∧
      d ∈ asc "ABCDEFGHIJKLMNOPQRSTUVWXYZ"

instance (c d : UInt8) : Decidable (SameLetter c d) := inferInstanceAs (Decidable (_ ∨ _))

end Spec

theorem lowerByte_eq_iff : ∀ c d : UInt8, c < 128 → d < 128 → (lowerByte c = lowerByte d ↔ SameLetter c d) := by
  have h : ∀ c d : Fin 128, lowerByte (UInt8.ofNat c) = lowerByte (UInt8.ofNat d) ↔
      SameLetter (UInt8.ofNat c) (UInt8.ofNat d) := by decide +kernel
  intro c d hc hd
  have := h ⟨c.toNat, hc⟩ ⟨d.toNat, hd⟩
  simpa using this

/-- C25, what holds for keys whose WIFs are ASCII texts: they are refused as identical exactly when they have the same
network and the WIFs agree letter by letter up to case. -/
theorem C25_ascii_partial (H : Hashes) (a b : PrivateKey) (ha : ∀ c ∈ a.WIF, c < 128) (hb : ∀ c ∈ b.WIF, c < 128) :
    (addPrivateKeys H a b = .err .identicalKeys ↔ a.Network = b.Network ∧ List.Forall₂ SameLetter a.WIF b.WIF) ∧
    (multiplyPrivateKeys H a b = .err .identicalKeys ↔
      a.Network = b.Network ∧ List.Forall₂ SameLetter a.WIF b.WIF) := by
  have e : H.toLower a.WIF = H.toLower b.WIF ↔ List.Forall₂ SameLetter a.WIF b.WIF := by
    have h1 : a.WIF.all (· < 128) = true := by simpa using ha
    have h2 : b.WIF.all (· < 128) = true := by simpa using hb
    rw [Hashes.toLower, Hashes.toLower, if_pos h1, if_pos h2, asciiLower, asciiLower]
    clear h1 h2
    generalize a.WIF = u at *
    generalize b.WIF = v at *
    induction u generalizing v with
    | nil => cases v <;> simp
    | cons c u ih =>
      cases v with
      | nil => simp
      | cons d v =>
        simp only [List.mem_cons, forall_eq_or_imp] at ha hb
        simp only [List.map_cons, List.cons.injEq, List.forall₂_cons, lowerByte_eq_iff c d ha.1 hb.1, ih ha.2 v hb.2]
  rw [← e]
  exact C25_identical_iff_partial H a b

/-- C25. Every key the package returns has an ASCII WIF. -/
theorem C25_ascii_keys (H : Hashes) (k : PrivateKey)
    (hk : (∃ h net, privateFromHex H h net = .ok k) ∨ (∃ w net, privateFromWIF H w net = .ok k)) :
    ∀ c ∈ k.WIF, c < 128 := by
  have h58 : ∀ c ∈ alphabet58, c < 128 := by decide +kernel
  rcases hk with ⟨h, net, hk⟩ | ⟨w, net, hk⟩
  · obtain ⟨n1, b1, -, -, rfl⟩ := (privateFromHex_eq_ok H).1 hk
    exact fun c hc => h58 c (((isBase58_iff _ _).1 (isBase58_encode _)).1 c hc)
  · obtain ⟨w0, body, hd, rfl⟩ := (privateFromWIF_eq_ok H).1 hk
    exact fun c hc => h58 c (((isBase58_iff _ _).1 (base58Decode_eq_ok.1 hd).2).1 c hc)

example : (∀ c ∈ Samples.wifLow, c < 128) ∧ (∀ c ∈ Samples.wifHigh, c < 128) ∧ Samples.wifLow ≠ Samples.wifHigh ∧
    List.Forall₂ SameLetter Samples.wifLow Samples.wifHigh := by decide +kernel

/-! ## C26 -/

theorem length_base58_le {bs : Bytes} {k : Nat} (h0 : leadingZeros (bs.map UInt8.toNat) = 0)
    (h : bytesToNat bs < 58 ^ k) : (base58Encode bs).length ≤ k := by
  rw [length_base58Encode, h0, Nat.zero_add, length_toBE_le_iff (by omega)]
  exact h

/-- C26, what holds: on the library's networks the result is a standard 51-character WIF exactly when the result is
at least 16^63. -/
theorem C26_standard_iff_partial (H : Hashes) (a b k : PrivateKey) (net : Network)
    (hnet : net = MainNetwork ∨ net = TestNetwork) (ha : a.Network = some net)
    (hk : addPrivateKeys H a b = .ok k ∨ multiplyPrivateKeys H a b = .ok k) :
    k.WIF.length = 51 ↔ ∃ r : Nat, k.Key = some (r : Int) ∧ 16 ^ 63 ≤ r := by
  have main : ∀ op, combine H op a b = .ok k →
      (k.WIF.length = 51 ↔ ∃ r : Nat, k.Key = some (r : Int) ∧ 16 ^ 63 ≤ r) := by
    intro op hk
    obtain ⟨k1, k2, net', bs, e1, e2, hw, h1, h2, hs, rfl⟩ := (combine_eq_ok H op).1 hk
    obtain rfl : net = net' := by rw [ha] at e1; simpa using e1
    set r := residue (op k1 k2) with hr
    have hrn : r < Spec.n := residue_lt _
    have hr64 : r < 16 ^ 64 := lt_trans hrn (by decide +kernel)
    have hlen : (fmtNat 16 r).length ≤ 64 := (length_fmtNat_le_iff (by omega) (by omega)).2 hr64
    have hkey : (∃ r' : Nat, some (op k1 k2 % (Spec.n : Int)) = some (r' : Int) ∧ 16 ^ 63 ≤ r') ↔
        16 ^ 63 ≤ r := by
      rw [← residue_cast, ← hr]
      constructor
      · rintro ⟨r', he, h⟩
        have : r = r' := by simpa using he
        omega
      · intro h; exact ⟨r, rfl, h⟩
    rw [hkey]
    -- the prefix is one byte
    obtain ⟨v, hv, hvne, hv2⟩ : ∃ v : UInt8, Spells net.PrivKeyPrefix [v] ∧ v ≠ 0 ∧ v.toNat ≤ 239 := by
      rcases hnet with rfl | rfl
      · exact ⟨0x80, hexDecode_eq_ok.1 (by decide +kernel), by decide, by decide⟩
      · exact ⟨0xEF, hexDecode_eq_ok.1 (by decide +kernel), by decide, by decide⟩
    obtain ⟨b1, body, s1, s2, rfl⟩ := hs.split (by rw [hv.length]; simp)
    obtain rfl := s1.unique hv
    have hbl := s2.length
    constructor
    · intro h51
      by_contra hlt
      have h63 : (fmtNat 16 r).length ≤ 63 := (length_fmtNat_le_iff (by omega) (by omega)).2 (by omega)
      have hb31 : body.length ≤ 31 := by omega
      have hvn : v.toNat ≠ 0 := fun h' => hvne (UInt8.toNat_inj.1 (by simpa using h'))
      have hcl := length_checksum H ([v] ++ body)
      have hbound : bytesToNat ([v] ++ body ++ checksum H.sha256 ([v] ++ body)) < 58 ^ 50 := by
        have e : [v] ++ body ++ checksum H.sha256 ([v] ++ body) = v :: (body ++ checksum H.sha256 ([v] ++ body)) := by
          simp
        rw [e, bytesToNat_cons]
        have hl2 : (body ++ checksum H.sha256 ([v] ++ body)).length ≤ 35 := by
          rw [List.length_append, hcl]; omega
        have hb2 := bytesToNat_lt (body ++ checksum H.sha256 ([v] ++ body))
        have hpow : 256 ^ (body ++ checksum H.sha256 ([v] ++ body)).length ≤ 256 ^ 35 :=
          Nat.pow_le_pow_right (by omega) hl2
        have hm : v.toNat * 256 ^ (body ++ checksum H.sha256 ([v] ++ body)).length ≤ 239 * 256 ^ 35 :=
          Nat.mul_le_mul hv2 hpow
        have : 239 * 256 ^ 35 + 256 ^ 35 < 58 ^ 50 := by decide +kernel
        omega
      have := length_base58_le (bs := [v] ++ body ++ checksum H.sha256 ([v] ++ body)) (k := 50)
        (by simp [leadingZeros_cons_pos hvn]) hbound
      have h51' : (base58Encode ([v] ++ body ++ checksum H.sha256 ([v] ++ body))).length = 51 := h51
      omega
    · intro hge
      have h64 : (fmtNat 16 r).length = 64 := by
        by_contra hne
        have : (fmtNat 16 r).length ≤ 63 := by omega
        have := (length_fmtNat_le_iff (b := 16) (by omega) (by omega)).1 this
        omega
      have hsh := C11_wif_shape H (fmtNat 16 r) fmtNat16_isHex h64
      have hp := privateFromHex_of_spells H hs
      rcases hnet with rfl | rfl
      · obtain ⟨⟨k', rest, hk', hw', hl'⟩, _⟩ := hsh
        rw [hp] at hk'
        simp only [Res.ok.injEq] at hk'
        have : base58Encode ([v] ++ body ++ checksum H.sha256 ([v] ++ body)) = 53 :: rest := by
          rw [← hw', ← hk']
        change (base58Encode _).length = 51
        rw [this]
        simp [hl']
      · obtain ⟨_, ⟨k', rest, hk', hw', hl'⟩⟩ := hsh
        rw [hp] at hk'
        simp only [Res.ok.injEq] at hk'
        have : base58Encode ([v] ++ body ++ checksum H.sha256 ([v] ++ body)) = 57 :: rest := by
          rw [← hw', ← hk']
        change (base58Encode _).length = 51
        rw [this]
        simp [hl']
  rcases hk with hk | hk
  · exact main _ (add_eq_combine H ▸ hk)
  · exact main _ (mul_eq_combine H ▸ hk)

/-- C26 is false: adding the standard keys 2 and 14 gives a nine-character WIF. -/
theorem C26_violated :
    ¬ ∀ (h1 h2 : GoString) (a b k : PrivateKey), h1.length = 64 → h2.length = 64 →
      privateFromHex realHashes h1 (some MainNetwork) = .ok a →
      privateFromHex realHashes h2 (some MainNetwork) = .ok b →
      addPrivateKeys realHashes a b = .ok k → k.WIF.length = 51 := by
  intro h
  have key : (do
      let a ← privateFromHex realHashes Samples.hex2 (some MainNetwork)
      let b ← privateFromHex realHashes Samples.hex14 (some MainNetwork)
      let k ← addPrivateKeys realHashes a b
      Res.ok (decide (k.WIF.length = 9 ∧ k.Hex = asc "10"))) = .ok true := by
    decide +kernel
  simp only [Res.bind_eq_ok, Res.ok.injEq, decide_eq_true_eq] at key
  obtain ⟨a, ha, b, hb, k, hk, h9, _⟩ := key
  have := h _ _ a b k (by decide +kernel) (by decide +kernel) ha hb hk
  omega

end Btc
