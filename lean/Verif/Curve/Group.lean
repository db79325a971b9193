import Mathlib.GroupTheory.OrderOfElement
import Mathlib.FieldTheory.Finite.Basic
import Verif.Spec.Curve

/-!
# Facts about the curve
-/

namespace Btc.EC

open Spec WeierstrassCurve.Affine

theorem cast_ne_zero {a : Nat} (h0 : 0 < a) (h : a < p) : (a : F) ≠ 0 := by
  rw [Ne, ZMod.natCast_eq_zero_iff]
  exact Nat.not_dvd_of_pos_of_lt h0 h

theorem cast_inj {a b : Nat} (ha : a < p) (hb : b < p) (h : (a : F) = (b : F)) : a = b := by
  rw [ZMod.natCast_eq_natCast_iff', Nat.mod_eq_of_lt ha, Nat.mod_eq_of_lt hb] at h
  exact h

theorem big_p : 100000 < p := by decide +kernel

theorem two_ne : (2 : F) ≠ 0 := by
  have := cast_ne_zero (a := 2) (by omega) (lt_trans (by omega) big_p)
  simpa using this

theorem three_ne : (3 : F) ≠ 0 := by
  have := cast_ne_zero (a := 3) (by omega) (lt_trans (by omega) big_p)
  simpa using this

theorem seven_ne : (7 : F) ≠ 0 := by
  have := cast_ne_zero (a := 7) (by omega) (lt_trans (by omega) big_p)
  simpa using this

theorem equation_iff_sq (x y : F) : W.Equation x y ↔ y ^ 2 = x ^ 3 + 7 := by
  rw [equation_iff]
  simp [W]

theorem nonsingular_iff_sq (x y : F) : W.Nonsingular x y ↔ y ^ 2 = x ^ 3 + 7 := by
  rw [← equation_iff_sq, ← equation_iff_nonsingular_of_Δ_ne_zero]
  have h : W.Δ = -((21168 : Nat) : F) := by
    simp only [WeierstrassCurve.Δ, WeierstrassCurve.b₂, WeierstrassCurve.b₄, WeierstrassCurve.b₆,
      WeierstrassCurve.b₈, W]
    push_cast
    ring
  rw [h, neg_ne_zero]
  exact cast_ne_zero (by omega) (lt_trans (by omega) big_p)

theorem negY_eq (x y : F) : W.negY x y = -y := by simp [negY, W]

theorem cast_eq_iff (x y : Nat) : ((y : F) ^ 2 = (x : F) ^ 3 + 7) ↔ y ^ 2 % p = (x ^ 3 + 7) % p := by
  rw [← ZMod.natCast_eq_natCast_iff']
  push_cast
  rfl

/-- Numbers on the curve are coordinates of a point. -/
theorem onCurve_iff (x y : Nat) : OnCurve x y ↔ ∃ P, HasCoords P x y := by
  constructor
  · rintro ⟨hx, hy, h⟩
    exact ⟨.some (x : F) (y : F) ((nonsingular_iff_sq _ _).2 ((cast_eq_iff x y).2 h)), hx, hy, _, rfl⟩
  · rintro ⟨P, hx, hy, h, _⟩
    exact ⟨hx, hy, (cast_eq_iff x y).1 ((nonsingular_iff_sq _ _).1 h)⟩

theorem HasCoords_onCurve {P : W.Point} {x y : Nat} (h : HasCoords P x y) : OnCurve x y :=
  (onCurve_iff x y).2 ⟨P, h⟩

/-- Coordinates determine the point. -/
theorem coords_point {P Q : W.Point} {x y : Nat} (hP : HasCoords P x y) (hQ : HasCoords Q x y) : P = Q := by
  obtain ⟨_, _, _, rfl⟩ := hP
  obtain ⟨_, _, _, rfl⟩ := hQ
  rfl

/-- A point determines its coordinates. -/
theorem coords_unique {P : W.Point} {x y x' y' : Nat} (h : HasCoords P x y) (h' : HasCoords P x' y') :
    x = x' ∧ y = y' := by
  obtain ⟨hx, hy, _, rfl⟩ := h
  obtain ⟨hx', hy', _, he⟩ := h'
  rw [Point.some.injEq] at he
  exact ⟨cast_inj hx hx' he.1, cast_inj hy hy' he.2⟩

/-- Every point but the one at infinity has coordinates. -/
theorem exists_coords {P : W.Point} (h : P ≠ 0) : ∃ x y, HasCoords P x y := by
  cases P with
  | zero => exact absurd rfl h
  | some x y hxy =>
    refine ⟨x.val, y.val, ZMod.val_lt x, ZMod.val_lt y, ?_, ?_⟩
    · rw [ZMod.natCast_zmod_val, ZMod.natCast_zmod_val]; exact hxy
    · simp only [ZMod.natCast_zmod_val]

theorem coords_ne_zero {P : W.Point} {x y : Nat} (h : HasCoords P x y) : P ≠ 0 := by
  obtain ⟨_, _, _, rfl⟩ := h
  exact Point.some_ne_zero _

/-! ## No point of order two -/

/-- -7 is not a cube. -/
theorem cube_ne (x : F) : x ^ 3 + 7 ≠ 0 := by
  intro h
  have hx3 : x ^ 3 = -7 := eq_neg_of_add_eq_zero_left h
  have hx : x ≠ 0 := by
    rintro rfl
    apply seven_ne
    simpa using h
  have h1 : x ^ (p - 1) = 1 := ZMod.pow_card_sub_one_eq_one hx
  have e : p - 1 = 3 * ((p - 1) / 3) := by decide +kernel
  rw [e, pow_mul, hx3] at h1
  have c7 : (-7 : F) = ((p - 7 : Nat) : F) := by
    rw [Nat.cast_sub (le_of_lt (lt_trans (by omega) big_p)), ZMod.natCast_self]
    simp
  rw [c7, cast_pow_eq_one_iff (by decide +kernel) (by decide +kernel)] at h1
  revert h1
  decide +kernel

/-- No point of the curve has y = 0. -/
theorem y_ne_zero {x y : Nat} (h : OnCurve x y) : y ≠ 0 := by
  rintro rfl
  have := (cast_eq_iff x 0).2 h.2.2
  apply cube_ne (x : F)
  rw [← this]
  simp

theorem point_y_ne {x y : F} (h : W.Nonsingular x y) : y ≠ 0 := by
  rintro rfl
  apply cube_ne x
  rw [← (nonsingular_iff_sq _ _).1 h]
  simp

theorem p_odd : p % 2 = 1 := by decide +kernel

/-- The coordinates of the negated point. -/
theorem neg_coords {P : W.Point} {x y : Nat} (h : HasCoords P x y) : HasCoords (-P) x (p - y) := by
  have hy0 := y_ne_zero ((onCurve_iff x y).2 ⟨P, h⟩)
  obtain ⟨hx, hy, hn, rfl⟩ := h
  have e : ((p - y : Nat) : F) = -(y : F) := by
    rw [Nat.cast_sub (le_of_lt hy), ZMod.natCast_self, zero_sub]
  refine ⟨hx, by omega, ?_, ?_⟩
  · rw [e, nonsingular_iff_sq, neg_sq]
    exact (nonsingular_iff_sq _ _).1 hn
  · rw [Point.neg_some]
    simp only [negY_eq, e]

/-- Two points with the same x-coordinate are equal or opposite. -/
theorem same_x {P Q : W.Point} {x y y' : Nat} (hP : HasCoords P x y) (hQ : HasCoords Q x y') :
    P = Q ∨ P = -Q := by
  obtain ⟨_, _, hn, rfl⟩ := hP
  obtain ⟨_, _, hn', rfl⟩ := hQ
  exact Point.X_eq_iff.1 rfl

/-- Two y-coordinates over one x are equal or add up to p. -/
theorem same_x_y {x y y' : Nat} (h : OnCurve x y) (h' : OnCurve x y') : y = y' ∨ y + y' = p := by
  obtain ⟨P, hP⟩ := (onCurve_iff x y).1 h
  obtain ⟨Q, hQ⟩ := (onCurve_iff x y').1 h'
  rcases same_x hP hQ with rfl | rfl
  · exact .inl (coords_unique hP hQ).2
  · have := (coords_unique hP (neg_coords hQ)).2
    have := h'.2.1
    omega

/-! ## The base point -/

theorem G_onCurve : OnCurve gx gy := by
  refine ⟨by decide +kernel, by decide +kernel, by decide +kernel⟩

/-- The base point. -/
def G : W.Point :=
  .some (gx : F) (gy : F) ((nonsingular_iff_sq _ _).2 ((cast_eq_iff gx gy).2 G_onCurve.2.2))

theorem G_coords : HasCoords G gx gy := ⟨G_onCurve.1, G_onCurve.2.1, _, rfl⟩

theorem G_ne_zero : G ≠ 0 := coords_ne_zero G_coords

end Btc.EC
