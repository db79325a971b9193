import Mathlib.RingTheory.Int.Basic
import Verif.Curve.Prime
import Verif.Props.Arith

/-!
# C72, C73, C79: cancellation, crashes and inverses in the arithmetic of private keys
-/

namespace Btc

open Spec

/-! ## C72 -/

theorem residue_eq_iff (x y : Int) : residue x = residue y ↔ x % (Spec.n : Int) = y % (Spec.n : Int) := by
  rw [← residue_cast, ← residue_cast]
  exact Int.ofNat_inj.symm

theorem combine_key (H : Hashes) (op : Int → Int → Int) {a b c k : PrivateKey} (h1 : combine H op a b = .ok k)
    (h2 : combine H op a c = .ok k) :
    ∃ ka kb kc, a.Key = some ka ∧ b.Key = some kb ∧ c.Key = some kc ∧
      op ka kb % (Spec.n : Int) = op ka kc % (Spec.n : Int) := by
  obtain ⟨ka, kb, ha, hb, -, hk⟩ := combine_isKeyOf H op h1
  obtain ⟨ka', kc, ha', hc, -, hk'⟩ := combine_isKeyOf H op h2
  rw [ha] at ha'
  cases ha'
  refine ⟨ka, kb, kc, ha, hb, hc, ?_⟩
  rw [← residue_eq_iff]
  have := hk.1.symm.trans hk'.1
  simpa using this

/-- C72. If `a + b` and `a + c` are the same key, `b` and `c` are equal modulo n. -/
theorem C72_add_cancel (H : Hashes) (a b c k : PrivateKey) (h1 : addPrivateKeys H a b = .ok k)
    (h2 : addPrivateKeys H a c = .ok k) :
    ∃ kb kc : Int, b.Key = some kb ∧ c.Key = some kc ∧ kb % (Spec.n : Int) = kc % (Spec.n : Int) := by
  obtain ⟨ka, kb, kc, -, hb, hc, h⟩ := combine_key H (· + ·) h1 h2
  refine ⟨kb, kc, hb, hc, ?_⟩
  have : ka + kb ≡ ka + kc [ZMOD (Spec.n : Int)] := h
  exact Int.ModEq.add_left_cancel' ka this

/-- C72. If `a · b` and `a · c` are the same key and `a` is not a multiple of n, `b` and `c` are equal modulo n. -/
theorem C72_mul_cancel (H : Hashes) (a b c k : PrivateKey) (ka : Int) (ha : a.Key = some ka)
    (hka : ka % (Spec.n : Int) ≠ 0) (h1 : multiplyPrivateKeys H a b = .ok k) (h2 : multiplyPrivateKeys H a c = .ok k) :
    ∃ kb kc : Int, b.Key = some kb ∧ c.Key = some kc ∧ kb % (Spec.n : Int) = kc % (Spec.n : Int) := by
  obtain ⟨ka', kb, kc, ha', hb, hc, h⟩ := combine_key H (· * ·) h1 h2
  rw [ha] at ha'
  cases ha'
  refine ⟨kb, kc, hb, hc, ?_⟩
  have hd : (Spec.n : Int) ∣ ka * (kb - kc) := by
    have e : (ka * kb - ka * kc) % (Spec.n : Int) = 0 := Int.emod_eq_emod_iff_emod_sub_eq_zero.1 h
    rw [mul_sub]
    exact Int.dvd_of_emod_eq_zero e
  have hp : Prime (Spec.n : Int) := Int.prime_iff_natAbs_prime.2 (by rw [Int.natAbs_natCast]; exact EC.prime_n)
  rcases hp.dvd_or_dvd hd with h' | h'
  · exact absurd (Int.emod_eq_zero_of_dvd h') hka
  · exact Int.emod_eq_emod_iff_emod_sub_eq_zero.2 (Int.emod_eq_zero_of_dvd h')

/-- C72: of two keys with the same product with `keyA`, one being `keyB`, the other has the number of `keyB` modulo n. -/
example (c : PrivateKey) (h : multiplyPrivateKeys realHashes Samples.keyA c = multiplyPrivateKeys realHashes Samples.keyA Samples.keyB) :
    ∃ kc : Int, c.Key = some kc ∧
      kc % (Spec.n : Int) = 0xaef29c9770a9f6b9da86e37fc12a334eeffb02f967a55ba125deb77736ee3fc1 := by
  obtain ⟨k, hk⟩ := Samples.mulAB
  obtain ⟨kb, kc, h1, h2, h3⟩ := C72_mul_cancel realHashes Samples.keyA Samples.keyB c k _ rfl (by decide +kernel) hk (h.trans hk)
  cases h1
  exact ⟨kc, h2, h3.symm.trans (by decide +kernel)⟩

-- keys that satisfy the hypotheses of the first
example : ∃ k, addPrivateKeys realHashes Samples.keyA Samples.keyB = .ok k := by
  obtain ⟨k, h, -⟩ := Samples.addAB
  exact ⟨k, h⟩

/-! ## C73 -/

theorem combine_panic_iff (H : Hashes) (op : Int → Int → Int) (a b : PrivateKey) :
    (∃ p, combine H op a b = .panic p) ↔ a.Network = b.Network ∧ H.toLower a.WIF ≠ H.toLower b.WIF ∧
      (a.Key = none ∨ b.Key = none ∨ a.Network = none) := by
  by_cases hn : a.Network = b.Network
  · by_cases hw : H.toLower a.WIF = H.toLower b.WIF
    · simp [combine, hn, hw]
    · cases ha : a.Key with
      | none => simp [combine, hn, hw, ha, deref]
      | some ka =>
        cases hb : b.Key with
        | none => simp [combine, hn, hw, ha, hb, deref]
        | some kb =>
          rw [combine_eq H op hn hw ha hb]
          cases hnet : a.Network with
          | none =>
            have hn' : b.Network = none := by rw [← hn, hnet]
            simp [privateFromHex_none, hw, hn']
          | some net =>
            have hn' : b.Network = some net := by rw [← hn, hnet]
            have := fun p => (C02_no_panic H (fmtNat 16 (residue (op ka kb))) net p).1
            simp [this, hn', hw]
  · simp [combine, hn]

/-- C73, what remains true: the exact inputs on which the two functions crash: same network, different WIFs, and a
nil key or a nil network. Missing: errors instead of crashes there. -/
theorem C73_crash_iff_partial (H : Hashes) (a b : PrivateKey) :
    ((∃ p, addPrivateKeys H a b = .panic p) ↔ a.Network = b.Network ∧ H.toLower a.WIF ≠ H.toLower b.WIF ∧
      (a.Key = none ∨ b.Key = none ∨ a.Network = none)) ∧
    ((∃ p, multiplyPrivateKeys H a b = .panic p) ↔ a.Network = b.Network ∧ H.toLower a.WIF ≠ H.toLower b.WIF ∧
      (a.Key = none ∨ b.Key = none ∨ a.Network = none)) :=
  ⟨combine_panic_iff H (· + ·) a b, combine_panic_iff H (· * ·) a b⟩

/-- C73: two keys without network, or one without number, crash; the sample keys do not. -/
example : (∃ p, addPrivateKeys realHashes { Samples.keyA with Key := none } Samples.keyB = .panic p) ∧
    ¬ ∃ p, multiplyPrivateKeys realHashes Samples.keyA Samples.keyB = .panic p := by
  refine ⟨(C73_crash_iff_partial realHashes _ _).1.2 ⟨rfl, by decide +kernel, .inl rfl⟩, fun h => ?_⟩
  obtain ⟨-, -, h⟩ := (C73_crash_iff_partial realHashes _ _).2.1 h
  simp [Samples.keyA, Samples.keyB] at h

/-- C73 (violated). Two keys that `PrivateFromHex` returned without an error crash both functions: the first was
made from the empty text. -/
theorem C73_imported_keys_violated :
    ∃ a b, privateFromHex realHashes [] (some MainNetwork) = .ok a ∧
      privateFromHex realHashes Samples.hexA (some MainNetwork) = .ok b ∧
      addPrivateKeys realHashes a b = .panic .nilDeref ∧ multiplyPrivateKeys realHashes a b = .panic .nilDeref := by
  have h : privateFromHex realHashes [] (some MainNetwork) = .ok ⟨none, [], asc "FXjQL6s", some MainNetwork⟩ := by
    decide +kernel
  exact ⟨_, _, h, Samples.fromHexA, by decide +kernel, by decide +kernel⟩

/-! ## C79 -/

theorem combine_ge (H : Hashes) (op : Int → Int → Int) {a b k : PrivateKey} {net : Network} {pre : Bytes}
    (hp : Spells net.PrivKeyPrefix pre) (ha : a.Network = some net) (hk : combine H op a b = .ok k) :
    ∃ r : Nat, k.Key = some (r : Int) ∧ 16 ≤ r := by
  obtain ⟨ka, kb, h1, h2, hn, hkey⟩ := combine_isKeyOf H op hk
  have hw : H.toLower a.WIF ≠ H.toLower b.WIF := by
    obtain ⟨_, _, _, _, _, _, hw, _⟩ := (combine_eq_ok H op).1 hk
    exact hw
  obtain ⟨h0, heven⟩ := (combine_outcome H op hp ha (hn ▸ ha) h1 h2 hw).1.1 ⟨k, hk⟩
  refine ⟨_, hkey.1, ?_⟩
  by_contra hlt
  have hr : residue (op ka kb) < 16 := by omega
  rw [Nat.digits_of_lt 16 _ h0 hr] at heven
  simp at heven

/-- C79, what remains true: no result is ever below 16. Missing: in particular the product of a key and its inverse,
which is 1, and all other results with an odd number of hex digits. -/
theorem C79_result_at_least_16_partial (H : Hashes) (a b k : PrivateKey) (net : Network) (pre : Bytes)
    (hp : Spells net.PrivKeyPrefix pre) (ha : a.Network = some net)
    (hk : addPrivateKeys H a b = .ok k ∨ multiplyPrivateKeys H a b = .ok k) :
    ∃ r : Nat, k.Key = some (r : Int) ∧ 16 ≤ r := by
  rcases hk with hk | hk
  · exact combine_ge H (· + ·) hp ha hk
  · exact combine_ge H (· * ·) hp ha hk

/-- C79: the sum of the sample keys. -/
example : ∃ k r, addPrivateKeys realHashes Samples.keyA Samples.keyB = .ok k ∧ k.Key = some ((r : Nat) : Int) ∧ 16 ≤ r := by
  obtain ⟨k, hk, -⟩ := Samples.addAB
  obtain ⟨r, h1, h2⟩ := C79_result_at_least_16_partial realHashes _ _ k MainNetwork [0x80] (hexDecode_eq_ok.1 (by decide +kernel))
    rfl (.inl hk)
  exact ⟨k, r, hk, h1, h2⟩

/-- C79 (violated). A key times its inverse modulo n is never the key 1: it is always an error. -/
theorem C79_inverse_fails (H : Hashes) (a b : PrivateKey) (ka kb : Int) (net : Network) (pre : Bytes)
    (hp : Spells net.PrivKeyPrefix pre) (ha : a.Network = some net) (hb : b.Network = some net)
    (h1 : a.Key = some ka) (h2 : b.Key = some kb) (hw : H.toLower a.WIF ≠ H.toLower b.WIF)
    (hinv : ka * kb % (Spec.n : Int) = 1) : multiplyPrivateKeys H a b = .err .hexLength := by
  refine (C20_mul_succeeds_iff_partial H a b ka kb net pre hp ha hb h1 h2 hw).2 ?_
  rintro ⟨k, hk⟩
  obtain ⟨r, hr, h16⟩ := C79_result_at_least_16_partial H a b k net pre hp ha (.inr hk)
  obtain ⟨ka', kb', r', e1, e2, -, e3, e4⟩ := C19_mul_mod_n H a b k hk
  rw [h1] at e1
  rw [h2] at e2
  cases e1
  cases e2
  rw [e4.1] at hr
  simp only [Option.some.injEq, Nat.cast_inj] at hr
  omega

/-- C79 (violated). Concrete keys: 2 and its inverse (n + 1) / 2. -/
theorem C79_inverse_violated :
    ∃ a b, privateFromHex realHashes Samples.hex2 (some MainNetwork) = .ok a ∧
      privateFromHex realHashes (asc "7fffffffffffffffffffffffffffffff5d576e7357a4501ddfe92f46681b20a1")
        (some MainNetwork) = .ok b ∧ a.Key = some 2 ∧ b.Key = some ((Spec.n : Int) / 2 + 1) ∧
      multiplyPrivateKeys realHashes a b = .err .hexLength := by
  have h1 : privateFromHex realHashes Samples.hex2 (some MainNetwork) =
      .ok ⟨some 2, Samples.hex2, asc "5HpHagT65TZzG1PH3CSu63k8DbpvD8s5ip4nEB3kEsreAvUcVfH", some MainNetwork⟩ := by
    decide +kernel
  have h2 : privateFromHex realHashes (asc "7fffffffffffffffffffffffffffffff5d576e7357a4501ddfe92f46681b20a1")
      (some MainNetwork) = .ok ⟨some 0x7fffffffffffffffffffffffffffffff5d576e7357a4501ddfe92f46681b20a1,
        asc "7fffffffffffffffffffffffffffffff5d576e7357a4501ddfe92f46681b20a1",
        asc "5JnfAoB71AubpvB8VVFu4i3UQixKmUf8PGyLipY2tZM9XnR8Kfm", some MainNetwork⟩ := by
    decide +kernel
  refine ⟨_, _, h1, h2, rfl, by decide +kernel, ?_⟩
  decide +kernel

end Btc
