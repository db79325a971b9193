import Mathlib.GroupTheory.Perm.Cycle.Type
import Mathlib.GroupTheory.SpecificGroups.Cyclic
import Verif.Curve.Jacobian

/-!
# The curve has exactly n points

Elementary: at most `2p + 1 < 3n` points, `n` divides the number, and there is no point of order two.
-/

namespace Btc.EC

open Spec WeierstrassCurve.Affine

/-- Compressed form of a point: x and the parity of y. -/
def squeeze : W.Point → Option (F × Bool)
  | .zero => none
  | .some x y _ => some (x, decide (y.val % 2 = 0))

theorem squeeze_inj : Function.Injective squeeze := by
  intro P Q h
  by_cases hP : P = 0
  · subst hP
    cases Q with
    | zero => rfl
    | some x y hn => simp [squeeze] at h
  · by_cases hQ : Q = 0
    · subst hQ
      cases P with
      | zero => rfl
      | some x y hn => simp [squeeze] at h
    · obtain ⟨x, y, hc⟩ := exists_coords hP
      obtain ⟨x', y', hc'⟩ := exists_coords hQ
      have hs : ∀ {R : W.Point} {a b : Nat}, HasCoords R a b → squeeze R = some ((a : F), decide (b % 2 = 0)) := by
        rintro R a b ⟨_, hb, _, rfl⟩
        simp only [squeeze, ZMod.val_natCast, Nat.mod_eq_of_lt hb]
      rw [hs hc, hs hc', Option.some.injEq, Prod.mk.injEq, decide_eq_decide] at h
      obtain rfl := cast_inj hc.1 hc'.1 h.1
      rcases same_x_y ((onCurve_iff _ _).2 ⟨_, hc⟩) ((onCurve_iff _ _).2 ⟨_, hc'⟩) with rfl | hy
      · exact coords_point hc hc'
      · have := p_odd
        omega

instance : Finite W.Point := Finite.of_injective _ squeeze_inj

theorem card_le : Nat.card W.Point ≤ 2 * p + 1 := by
  have h := Nat.card_le_card_of_injective _ squeeze_inj
  rw [Finite.card_option, Nat.card_prod, Nat.card_eq_fintype_card (α := Bool), Nat.card_zmod, Fintype.card_bool] at h
  omega

theorem no_order_two (P : W.Point) : addOrderOf P ≠ 2 := by
  intro h
  have h2 : 2 • P = 0 := by rw [← h]; exact addOrderOf_nsmul_eq_zero P
  have hP : P ≠ 0 := by
    rintro rfl
    simp at h
  obtain ⟨x, y, hc⟩ := exists_coords hP
  have he : P = -P := by
    rw [two_nsmul] at h2
    exact eq_neg_of_add_eq_zero_left h2
  have hn := neg_coords hc
  rw [← he] at hn
  have := (coords_unique hc hn).2
  have := p_odd
  have := hc.2.1
  omega

/-- The number of points is n: the cofactor is 1. -/
theorem card_points : Nat.card W.Point = n := by
  obtain ⟨m, hm⟩ : n ∣ Nat.card W.Point := by
    rw [← order_G]
    exact addOrderOf_dvd_natCard G
  have h3 : 2 * p + 1 < n * 3 := by decide +kernel
  have hle := card_le
  have hpos : 0 < Nat.card W.Point := Nat.card_pos
  have hm3 : m < 3 := by
    by_contra hc
    have : n * 3 ≤ n * m := Nat.mul_le_mul_left _ (by omega)
    omega
  have hm0 : m ≠ 0 := by
    rintro rfl
    omega
  have hm2 : m ≠ 2 := by
    rintro rfl
    have : Fact (Nat.Prime 2) := ⟨Nat.prime_two⟩
    obtain ⟨P, hP⟩ := exists_prime_addOrderOf_dvd_card' (G := W.Point) 2 (by rw [hm]; exact Dvd.intro_left _ rfl)
    exact no_order_two P hP
  have : m = 1 := by omega
  rw [hm, this, mul_one]

/-- Every point is a multiple of the base point. -/
theorem exists_smul_G (P : W.Point) : ∃ k, k < n ∧ P = k • G := by
  have h : P ∈ AddSubgroup.zmultiples G := by
    have : AddSubgroup.zmultiples G = ⊤ := by
      apply AddSubgroup.eq_top_of_card_eq
      rw [Nat.card_zmultiples, order_G, card_points]
    rw [this]
    exact AddSubgroup.mem_top P
  rw [mem_zmultiples_iff_mem_range_addOrderOf, order_G] at h
  obtain ⟨k, hk, rfl⟩ := Finset.mem_image.1 h
  exact ⟨k, Finset.mem_range.1 hk, rfl⟩

end Btc.EC
