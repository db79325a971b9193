import Mathlib.NumberTheory.LucasPrimality
import Mathlib.Tactic.NormNum.Prime
import Mathlib.Tactic.Ring
import Verif.Spec.Params
import Verif.Crypto.Sha256

/-!
# The two primes of secp256k1 (Pratt certificates, checked by the kernel)
-/

namespace Btc.EC

open Btc.Sha256 (force)

theorem force_eq {α : Type} (n : Nat) (k : Nat → α) : force n k = k n := by
  cases n <;> rfl

/-- `acc * b ^ e mod m` for `e < 2 ^ fuel`, by squaring. -/
def powAux (m : Nat) : Nat → Nat → Nat → Nat → Nat
  | 0, _, _, acc => acc
  | f + 1, b, e, acc =>
    force (b * b % m) fun b2 => force (e / 2) fun e2 =>
      match e % 2 with
      | 0 => powAux m f b2 e2 acc
      | _ => force (acc * b % m) fun acc2 => powAux m f b2 e2 acc2

/-- `b ^ e mod m` for `e < 2 ^ 256`. -/
def powMod (b e m : Nat) : Nat := powAux m 256 b e (1 % m)

theorem powAux_eq (m : Nat) : ∀ (f b e acc : Nat), e < 2 ^ f → acc < m →
    powAux m f b e acc = acc * b ^ e % m := by
  intro f
  induction f with
  | zero =>
    intro b e acc he ha
    have : e = 0 := by simpa using he
    subst this
    simp [powAux, Nat.mod_eq_of_lt ha]
  | succ f ih =>
    intro b e acc he ha
    have he2 : e / 2 < 2 ^ f := by rw [pow_succ] at he; omega
    have hm : 0 < m := by omega
    have hsq : ∀ a k : Nat, a * (b * b % m) ^ k % m = a * b ^ (2 * k) % m := by
      intro a k
      rw [Nat.mul_mod, ← Nat.pow_mod, ← Nat.mul_mod, pow_mul, pow_two]
    simp only [powAux, force_eq]
    rcases Nat.mod_two_eq_zero_or_one e with h | h
    · rw [h]
      simp only
      rw [ih _ _ _ he2 ha, hsq]
      congr 3
      omega
    · rw [h]
      simp only
      rw [ih _ _ _ he2 (Nat.mod_lt _ hm), hsq, Nat.mod_mul_mod]
      have : b ^ e = b * b ^ (2 * (e / 2)) := by
        conv_lhs => rw [show e = 2 * (e / 2) + 1 by omega, pow_succ]
        ring
      rw [this, mul_assoc]

theorem powMod_eq {b e m : Nat} (he : e < 2 ^ 256) (hm : 1 < m) : powMod b e m = b ^ e % m := by
  rw [powMod, powAux_eq m _ _ _ _ he (Nat.mod_lt _ (by omega)), Nat.mod_eq_of_lt hm, one_mul]

theorem cast_pow_eq_one_iff {a e m : Nat} (he : e < 2 ^ 256) (hm : 1 < m) :
    (a : ZMod m) ^ e = 1 ↔ powMod a e m = 1 := by
  rw [powMod_eq he hm, ← Nat.cast_pow]
  have : (1 : ZMod m) = ((1 : Nat) : ZMod m) := by simp
  rw [this, ZMod.natCast_eq_natCast_iff, Nat.ModEq, Nat.mod_eq_of_lt hm]

/-- Pratt certificate: a primitive root and the factors of `m - 1`. -/
theorem pratt (m a : Nat) (fs : List Nat) (hfs : ∀ r ∈ fs, r.Prime) (hm : 1 < m) (hm2 : m < 2 ^ 256)
    (hprod : fs.prod = m - 1) (h1 : powMod a (m - 1) m = 1)
    (h2 : ∀ r ∈ fs, powMod a ((m - 1) / r) m ≠ 1) : m.Prime := by
  have hlt : ∀ r, (m - 1) / r < 2 ^ 256 := fun r =>
    lt_of_le_of_lt (Nat.div_le_self _ _) (lt_of_le_of_lt (Nat.sub_le _ _) hm2)
  refine lucas_primality m (a : ZMod m) ((cast_pow_eq_one_iff (lt_of_le_of_lt (Nat.sub_le _ _) hm2) hm).2 h1) ?_
  intro q hq hdvd
  rw [← hprod] at hdvd
  obtain ⟨r, hr, hqr⟩ := (Nat.prime_iff.1 hq).dvd_prod_iff.1 hdvd
  have : q = r := (Nat.prime_dvd_prime_iff_eq hq (hfs r hr)).1 hqr
  subst this
  rw [Ne, cast_pow_eq_one_iff (hlt q) hm]
  exact h2 q hr

theorem prime_1206781 : Nat.Prime 1206781 := by
  refine pratt _ 10 [2, 2, 3, 5, 20113] ?_ (by decide +kernel) (by decide +kernel) (by decide +kernel) (by decide +kernel) (by decide +kernel)
  simp only [List.mem_cons, List.not_mem_nil, or_false, forall_eq_or_imp, forall_eq]
  exact ⟨by norm_num, by norm_num, by norm_num, by norm_num, by norm_num⟩

theorem prime_1627771 : Nat.Prime 1627771 := by
  refine pratt _ 3 [2, 3, 5, 29, 1871] ?_ (by decide +kernel) (by decide +kernel) (by decide +kernel) (by decide +kernel) (by decide +kernel)
  simp only [List.mem_cons, List.not_mem_nil, or_false, forall_eq_or_imp, forall_eq]
  exact ⟨by norm_num, by norm_num, by norm_num, by norm_num, by norm_num⟩

theorem prime_4681609 : Nat.Prime 4681609 := by
  refine pratt _ 23 [2, 2, 2, 3, 97, 2011] ?_ (by decide +kernel) (by decide +kernel) (by decide +kernel) (by decide +kernel) (by decide +kernel)
  simp only [List.mem_cons, List.not_mem_nil, or_false, forall_eq_or_imp, forall_eq]
  exact ⟨by norm_num, by norm_num, by norm_num, by norm_num, by norm_num, by norm_num⟩

theorem prime_7240687 : Nat.Prime 7240687 := by
  refine pratt _ 3 [2, 3, 1206781] ?_ (by decide +kernel) (by decide +kernel) (by decide +kernel) (by decide +kernel) (by decide +kernel)
  simp only [List.mem_cons, List.not_mem_nil, or_false, forall_eq_or_imp, forall_eq]
  exact ⟨by norm_num, by norm_num, prime_1206781⟩

theorem prime_13331831 : Nat.Prime 13331831 := by
  refine pratt _ 13 [2, 5, 971, 1373] ?_ (by decide +kernel) (by decide +kernel) (by decide +kernel) (by decide +kernel) (by decide +kernel)
  simp only [List.mem_cons, List.not_mem_nil, or_false, forall_eq_or_imp, forall_eq]
  exact ⟨by norm_num, by norm_num, by norm_num, by norm_num⟩

theorem prime_44706919 : Nat.Prime 44706919 := by
  refine pratt _ 6 [2, 3, 797, 9349] ?_ (by decide +kernel) (by decide +kernel) (by decide +kernel) (by decide +kernel) (by decide +kernel)
  simp only [List.mem_cons, List.not_mem_nil, or_false, forall_eq_or_imp, forall_eq]
  exact ⟨by norm_num, by norm_num, by norm_num, by norm_num⟩

theorem prime_107590001 : Nat.Prime 107590001 := by
  refine pratt _ 3 [2, 2, 2, 2, 5, 5, 5, 5, 7, 29, 53] ?_ (by decide +kernel) (by decide +kernel) (by decide +kernel) (by decide +kernel) (by decide +kernel)
  simp only [List.mem_cons, List.not_mem_nil, or_false, forall_eq_or_imp, forall_eq]
  exact ⟨by norm_num, by norm_num, by norm_num, by norm_num, by norm_num, by norm_num, by norm_num, by norm_num, by norm_num, by norm_num, by norm_num⟩

theorem prime_545358713 : Nat.Prime 545358713 := by
  refine pratt _ 5 [2, 2, 2, 41, 59, 28181] ?_ (by decide +kernel) (by decide +kernel) (by decide +kernel) (by decide +kernel) (by decide +kernel)
  simp only [List.mem_cons, List.not_mem_nil, or_false, forall_eq_or_imp, forall_eq]
  exact ⟨by norm_num, by norm_num, by norm_num, by norm_num, by norm_num, by norm_num⟩

theorem prime_297159362677 : Nat.Prime 297159362677 := by
  refine pratt _ 2 [2, 2, 3, 3, 11, 461, 1627771] ?_ (by decide +kernel) (by decide +kernel) (by decide +kernel) (by decide +kernel) (by decide +kernel)
  simp only [List.mem_cons, List.not_mem_nil, or_false, forall_eq_or_imp, forall_eq]
  exact ⟨by norm_num, by norm_num, by norm_num, by norm_num, by norm_num, by norm_num, prime_1627771⟩

theorem prime_107361793816595537 : Nat.Prime 107361793816595537 := by
  refine pratt _ 3 [2, 2, 2, 2, 16699, 85831, 4681609] ?_ (by decide +kernel) (by decide +kernel) (by decide +kernel) (by decide +kernel) (by decide +kernel)
  simp only [List.mem_cons, List.not_mem_nil, or_false, forall_eq_or_imp, forall_eq]
  exact ⟨by norm_num, by norm_num, by norm_num, by norm_num, by norm_num, by norm_num, prime_4681609⟩

theorem prime_173378833005251801 : Nat.Prime 173378833005251801 := by
  refine pratt _ 6 [2, 2, 2, 5, 5, 2621, 24809, 13331831] ?_ (by decide +kernel) (by decide +kernel) (by decide +kernel) (by decide +kernel) (by decide +kernel)
  simp only [List.mem_cons, List.not_mem_nil, or_false, forall_eq_or_imp, forall_eq]
  exact ⟨by norm_num, by norm_num, by norm_num, by norm_num, by norm_num, by norm_num, by norm_num, prime_13331831⟩

theorem prime_174723607534414371449 : Nat.Prime 174723607534414371449 := by
  refine pratt _ 3 [2, 2, 2, 17, 59, 4051, 120233, 44706919] ?_ (by decide +kernel) (by decide +kernel) (by decide +kernel) (by decide +kernel) (by decide +kernel)
  simp only [List.mem_cons, List.not_mem_nil, or_false, forall_eq_or_imp, forall_eq]
  exact ⟨by norm_num, by norm_num, by norm_num, by norm_num, by norm_num, by norm_num, by norm_num, prime_44706919⟩

theorem prime_22149492674086928081353 : Nat.Prime 22149492674086928081353 := by
  refine pratt _ 5 [2, 2, 2, 3, 5323, 173378833005251801] ?_ (by decide +kernel) (by decide +kernel) (by decide +kernel) (by decide +kernel) (by decide +kernel)
  simp only [List.mem_cons, List.not_mem_nil, or_false, forall_eq_or_imp, forall_eq]
  exact ⟨by norm_num, by norm_num, by norm_num, by norm_num, by norm_num, prime_173378833005251801⟩

theorem prime_132896956044521568488119 : Nat.Prime 132896956044521568488119 := by
  refine pratt _ 6 [2, 3, 22149492674086928081353] ?_ (by decide +kernel) (by decide +kernel) (by decide +kernel) (by decide +kernel) (by decide +kernel)
  simp only [List.mem_cons, List.not_mem_nil, or_false, forall_eq_or_imp, forall_eq]
  exact ⟨by norm_num, by norm_num, prime_22149492674086928081353⟩

theorem prime_29047611873442575647497758179 : Nat.Prime 29047611873442575647497758179 := by
  refine pratt _ 2 [2, 293, 305873, 545358713, 297159362677] ?_ (by decide +kernel) (by decide +kernel) (by decide +kernel) (by decide +kernel) (by decide +kernel)
  simp only [List.mem_cons, List.not_mem_nil, or_false, forall_eq_or_imp, forall_eq]
  exact ⟨by norm_num, by norm_num, by norm_num, prime_545358713, prime_297159362677⟩

theorem prime_341948486974166000522343609283189 : Nat.Prime 341948486974166000522343609283189 := by
  refine pratt _ 2 [2, 2, 3, 3, 3, 109, 29047611873442575647497758179] ?_ (by decide +kernel) (by decide +kernel) (by decide +kernel) (by decide +kernel) (by decide +kernel)
  simp only [List.mem_cons, List.not_mem_nil, or_false, forall_eq_or_imp, forall_eq]
  exact ⟨by norm_num, by norm_num, by norm_num, by norm_num, by norm_num, by norm_num, prime_29047611873442575647497758179⟩

theorem prime_255515944373312847190720520512484175977 : Nat.Prime 255515944373312847190720520512484175977 := by
  refine pratt _ 3 [2, 2, 2, 7, 7, 11, 1627, 2657, 4423, 41201, 96557, 7240687, 107590001] ?_ (by decide +kernel) (by decide +kernel) (by decide +kernel) (by decide +kernel) (by decide +kernel)
  simp only [List.mem_cons, List.not_mem_nil, or_false, forall_eq_or_imp, forall_eq]
  exact ⟨by norm_num, by norm_num, by norm_num, by norm_num, by norm_num, by norm_num, by norm_num, by norm_num, by norm_num, by norm_num, by norm_num, prime_7240687, prime_107590001⟩

theorem prime_205115282021455665897114700593932402728804164701536103180137503955397371 : Nat.Prime 205115282021455665897114700593932402728804164701536103180137503955397371 := by
  refine pratt _ 10 [2, 3, 5, 29, 29, 31, 7723, 132896956044521568488119, 255515944373312847190720520512484175977] ?_ (by decide +kernel) (by decide +kernel) (by decide +kernel) (by decide +kernel) (by decide +kernel)
  simp only [List.mem_cons, List.not_mem_nil, or_false, forall_eq_or_imp, forall_eq]
  exact ⟨by norm_num, by norm_num, by norm_num, by norm_num, by norm_num, by norm_num, by norm_num, prime_132896956044521568488119, prime_255515944373312847190720520512484175977⟩

theorem prime_n : Nat.Prime Spec.n := by
  refine pratt _ 7 [2, 2, 2, 2, 2, 2, 3, 149, 631, 107361793816595537, 174723607534414371449, 341948486974166000522343609283189] ?_ (by decide +kernel) (by decide +kernel) (by decide +kernel) (by decide +kernel) (by decide +kernel)
  simp only [List.mem_cons, List.not_mem_nil, or_false, forall_eq_or_imp, forall_eq]
  exact ⟨by norm_num, by norm_num, by norm_num, by norm_num, by norm_num, by norm_num, by norm_num, by norm_num, by norm_num, prime_107361793816595537, prime_174723607534414371449, prime_341948486974166000522343609283189⟩

theorem prime_p : Nat.Prime Spec.p := by
  refine pratt _ 3 [2, 3, 7, 13441, 205115282021455665897114700593932402728804164701536103180137503955397371] ?_ (by decide +kernel) (by decide +kernel) (by decide +kernel) (by decide +kernel) (by decide +kernel)
  simp only [List.mem_cons, List.not_mem_nil, or_false, forall_eq_or_imp, forall_eq]
  exact ⟨by norm_num, by norm_num, by norm_num, by norm_num, prime_205115282021455665897114700593932402728804164701536103180137503955397371⟩

instance : Fact (Nat.Prime Spec.p) := ⟨prime_p⟩
instance : Fact (Nat.Prime Spec.n) := ⟨prime_n⟩

end Btc.EC
