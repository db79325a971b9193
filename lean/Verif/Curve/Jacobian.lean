import Mathlib.Tactic.FieldSimp
import Mathlib.Tactic.LinearCombination
import Verif.Curve.Group

/-!
# An executable implementation of the group law, proved correct

Jacobian coordinates: `(X, Y, Z)` stands for `(X/Z², Y/Z³)`, and for the point at infinity if `Z = 0`.
Used to evaluate test vectors in the kernel, to compute the order of the base point, and to show that the
contract assumed of the curve package is satisfiable.
-/

namespace Btc.EC

open Spec WeierstrassCurve.Affine
open Btc.Sha256 (force)

/-- Jacobian coordinates, numbers modulo `p`. -/
structure Jac where
  X : Nat
  Y : Nat
  Z : Nat
  deriving DecidableEq, Repr

/-- The field prime as a literal. -/
def q : Nat := 0xFFFFFFFFFFFFFFFFFFFFFFFFFFFFFFFFFFFFFFFFFFFFFFFFFFFFFFFEFFFFFC2F

theorem q_eq : q = p := by decide +kernel

/-- Difference modulo `p`. -/
def subq (a b : Nat) : Nat := (a + (q - b)) % q

/-- Doubling. -/
def dbl (A : Jac) : Jac :=
  force (A.Y * A.Y % q) fun yy =>
  force (4 * A.X * yy % q) fun s =>
  force (3 * A.X * A.X % q) fun m =>
  force (subq (m * m) (2 * s % q)) fun x =>
  force (subq (m * subq s x) (8 * yy * yy % q)) fun y =>
  force (2 * A.Y * A.Z % q) fun z => ⟨x, y, z⟩

/-- Addition of an affine point. -/
def addAff (A : Jac) (x2 y2 : Nat) : Jac :=
  match A.Z with
  | 0 => ⟨x2, y2, 1⟩
  | _ =>
    force (A.Z * A.Z % q) fun zz =>
    force (subq (x2 * zz) A.X) fun h =>
    force (subq (y2 * zz * A.Z) A.Y) fun r =>
    match h, r with
    | 0, 0 => dbl A
    | 0, _ => ⟨1, 1, 0⟩
    | _, _ =>
      force (h * h % q) fun hh =>
      force (h * hh % q) fun hhh =>
      force (A.X * hh % q) fun v =>
      force (subq (r * r) ((hhh + 2 * v) % q)) fun x =>
      force (subq (r * subq v x) (A.Y * hhh % q)) fun y =>
      force (A.Z * h % q) fun z => ⟨x, y, z⟩

/-- `k` times an affine point, for `k < 2 ^ fuel`. -/
def mul (x y : Nat) : Nat → Nat → Jac
  | 0, _ => ⟨1, 1, 0⟩
  | f + 1, k =>
    match k with
    | 0 => ⟨1, 1, 0⟩
    | _ =>
      match k % 2 with
      | 0 => dbl (mul x y f (k / 2))
      | _ => addAff (dbl (mul x y f (k / 2))) x y

/-- Inverse modulo `p`. -/
def invq (a : Nat) : Nat := powMod a (q - 2) q

/-- Affine coordinates. -/
def toAff (A : Jac) : Option (Nat × Nat) :=
  match A.Z with
  | 0 => none
  | _ =>
    force (invq A.Z) fun i =>
    force (i * i % q) fun ii =>
    force (A.X * ii % q) fun x =>
    force (A.Y * ii * i % q) fun y => some (x, y)

/-! ## Correctness -/

theorem cast_mod (a : Nat) : ((a % q : Nat) : F) = (a : F) := by
  rw [q_eq]; exact ZMod.natCast_mod a p

theorem q_pos : 0 < q := by decide +kernel

theorem mod_lt (a : Nat) : a % q < p := by rw [← q_eq]; exact Nat.mod_lt _ q_pos

theorem subq_lt (a b : Nat) : subq a b < p := mod_lt _

theorem cast_subq (a : Nat) {b : Nat} (h : b < p) : ((subq a b : Nat) : F) = (a : F) - (b : F) := by
  rw [subq, cast_mod, Nat.cast_add, Nat.cast_sub (by rw [q_eq]; exact le_of_lt h), q_eq, ZMod.natCast_self]
  ring

theorem cast_eq_zero {a : Nat} (h : a < p) : (a : F) = 0 ↔ a = 0 := by
  constructor
  · intro h0
    by_contra hne
    exact cast_ne_zero (Nat.pos_of_ne_zero hne) h h0
  · rintro rfl; simp

/-- The triple stands for the point. -/
def Rep (A : Jac) (P : W.Point) : Prop :=
  A.X < p ∧ A.Y < p ∧ A.Z < p ∧
    ((A.Z = 0 ∧ P = 0) ∨
     (A.Z ≠ 0 ∧ ∃ (x y : F) (h : W.Nonsingular x y), P = .some x y h ∧ (A.X : F) = x * (A.Z : F) ^ 2 ∧
        (A.Y : F) = y * (A.Z : F) ^ 3))

theorem one_lt_p : 1 < p := lt_trans (by omega) big_p

theorem rep_inf : Rep ⟨1, 1, 0⟩ 0 := ⟨one_lt_p, one_lt_p, lt_trans Nat.zero_lt_one one_lt_p, .inl ⟨rfl, rfl⟩⟩

theorem dbl_eq (A : Jac) : dbl A =
    ⟨subq (3 * A.X * A.X % q * (3 * A.X * A.X % q)) (2 * (4 * A.X * (A.Y * A.Y % q) % q) % q),
     subq (3 * A.X * A.X % q * subq (4 * A.X * (A.Y * A.Y % q) % q)
        (subq (3 * A.X * A.X % q * (3 * A.X * A.X % q)) (2 * (4 * A.X * (A.Y * A.Y % q) % q) % q)))
        (8 * (A.Y * A.Y % q) * (A.Y * A.Y % q) % q),
     2 * A.Y * A.Z % q⟩ := by
  simp only [dbl, force_eq]

theorem point_some_congr {x y x' y' : F} {h : W.Nonsingular x y} (hx : x = x') (hy : y = y') :
    ∃ h' : W.Nonsingular x' y', Point.some x y h = Point.some x' y' h' := by
  subst hx hy
  exact ⟨h, rfl⟩

theorem rep_dbl {A : Jac} {P : W.Point} (h : Rep A P) : Rep (dbl A) (P + P) := by
  obtain ⟨hX, hY, hZ, h⟩ := h
  rw [dbl_eq]
  refine ⟨subq_lt _ _, subq_lt _ _, mod_lt _, ?_⟩
  rcases h with ⟨hz, rfl⟩ | ⟨hz, x, y, hn, rfl, ex, ey⟩
  · left
    refine ⟨?_, by simp⟩
    simp only [hz, Nat.mul_zero, Nat.zero_mod]
  · right
    have hzF : (A.Z : F) ≠ 0 := fun h0 => hz ((cast_eq_zero hZ).1 h0)
    have hy : y ≠ 0 := point_y_ne hn
    have h2y : (2 : F) * y ≠ 0 := mul_ne_zero two_ne hy
    have hne : y ≠ W.negY x y := by
      rw [negY_eq]
      intro he
      apply h2y
      linear_combination he
    have hZ' : ((2 * A.Y * A.Z % q : Nat) : F) = 2 * y * (A.Z : F) ^ 4 := by
      rw [cast_mod]
      push_cast
      rw [ey]
      ring
    constructor
    · intro h0
      have h0' : ((2 * A.Y * A.Z % q : Nat) : F) = 0 :=
        (congrArg (fun k : Nat => (k : F)) h0).trans Nat.cast_zero
      rw [hZ'] at h0'
      exact mul_ne_zero h2y (pow_ne_zero 4 hzF) h0'
    · rw [Point.add_self_of_Y_ne hne]
      refine ⟨_, _, _, rfl, ?_⟩
      have hsl : W.slope x x y y * (2 * y) = 3 * x ^ 2 := by
        rw [slope_of_Y_ne rfl hne, negY_eq]
        have : y - -y = 2 * y := by ring
        rw [this, div_mul_cancel₀ _ h2y]
        simp [W]
      generalize W.slope x x y y = l at hsl
      have eX : ((subq (3 * A.X * A.X % q * (3 * A.X * A.X % q))
          (2 * (4 * A.X * (A.Y * A.Y % q) % q) % q) : Nat) : F) =
          W.addX x x l * (2 * y * (A.Z : F) ^ 4) ^ 2 := by
        rw [cast_subq _ (mod_lt _)]
        simp only [Nat.cast_mul, cast_mod, ex, ey, addX, W]
        push_cast
        linear_combination (-(A.Z : F) ^ 8 * (3 * x ^ 2 + 2 * y * l)) * hsl
      simp only [hZ']
      refine ⟨eX, ?_⟩
      rw [cast_subq _ (mod_lt _), Nat.cast_mul, cast_subq _ (subq_lt _ _), eX]
      simp only [Nat.cast_mul, cast_mod, ex, ey, addX, addY, negAddY, negY, W]
      push_cast
      linear_combination (-4 * x * y ^ 2 * (A.Z : F) ^ 12 + (l ^ 2 - 2 * x) * 4 * y ^ 2 * (A.Z : F) ^ 12) * hsl

theorem rep_addAff {A : Jac} {P Q : W.Point} {x2 y2 : Nat} (h : Rep A P) (hQ : HasCoords Q x2 y2) :
    Rep (addAff A x2 y2) (P + Q) := by
  have h' := h
  obtain ⟨hX, hY, hZ, h⟩ := h
  obtain ⟨hx2, hy2, hn2, rfl⟩ := hQ
  obtain ⟨X, Y, Z⟩ := A
  rcases Z with _ | Z
  · rcases h with ⟨_, rfl⟩ | ⟨h0, _⟩
    · refine ⟨hx2, hy2, one_lt_p, .inr ⟨by simp [addAff], _, _, hn2, by simp, ?_⟩⟩
      simp [addAff]
    · exact absurd rfl h0
  · rcases h with ⟨h0, _⟩ | ⟨_, x, y, hn, rfl, ex, ey⟩
    · exact absurd h0 (by simp)
    have hzF : ((Z + 1 : Nat) : F) ≠ 0 := cast_ne_zero (by omega) hZ
    simp only at ex ey hX hY hZ
    simp only [addAff, force_eq]
    have eH : ((subq (x2 * ((Z + 1) * (Z + 1) % q)) X : Nat) : F) = ((x2 : F) - x) * ((Z + 1 : Nat) : F) ^ 2 := by
      rw [cast_subq _ hX, Nat.cast_mul, cast_mod, ex, Nat.cast_mul]
      ring
    have eR : ((subq (y2 * ((Z + 1) * (Z + 1) % q) * (Z + 1)) Y : Nat) : F) =
        ((y2 : F) - y) * ((Z + 1 : Nat) : F) ^ 3 := by
      rw [cast_subq _ hY, Nat.cast_mul, Nat.cast_mul, cast_mod, ey, Nat.cast_mul]
      ring
    have lH := subq_lt (x2 * ((Z + 1) * (Z + 1) % q)) X
    have lR := subq_lt (y2 * ((Z + 1) * (Z + 1) % q) * (Z + 1)) Y
    generalize subq (x2 * ((Z + 1) * (Z + 1) % q)) X = H at eH lH
    generalize subq (y2 * ((Z + 1) * (Z + 1) % q) * (Z + 1)) Y = R at eR lR
    generalize hz : ((Z + 1 : Nat) : F) = z at *
    have hHx : H = 0 ↔ (x2 : F) = x := by
      rw [← cast_eq_zero lH, eH, mul_eq_zero, or_iff_left (pow_ne_zero 2 hzF), sub_eq_zero]
    have hRy : R = 0 ↔ (y2 : F) = y := by
      rw [← cast_eq_zero lR, eR, mul_eq_zero, or_iff_left (pow_ne_zero 3 hzF), sub_eq_zero]
    rcases H with _ | H
    · have hx := hHx.1 rfl
      rcases R with _ | R
      · have hy := hRy.1 rfl
        obtain ⟨_, e⟩ := point_some_congr (h := hn2) hx hy
        rw [e]
        exact rep_dbl h'
      · have hy : (y2 : F) ≠ y := fun e => absurd (hRy.2 e) (by simp)
        have : y = W.negY x (y2 : F) := by
          rcases Y_eq_of_X_eq hn2.1 hn.1 hx with e | e
          · exact absurd e hy
          · rw [e, negY_eq, negY_eq, neg_neg]
        rw [Point.add_of_Y_eq hx.symm (by rw [hx]; exact this)]
        exact rep_inf
    · have hx : x ≠ (x2 : F) := fun e => absurd (hHx.2 e.symm) (by simp)
      rw [Point.add_of_X_ne hx]
      refine ⟨subq_lt _ _, subq_lt _ _, mod_lt _, .inr ⟨?_, _, _, _, rfl, ?_⟩⟩
      · intro h0
        have h0' : (((Z + 1) * (H + 1) % q : Nat) : F) = 0 :=
          (congrArg (fun k : Nat => (k : F)) h0).trans Nat.cast_zero
        rw [cast_mod, Nat.cast_mul, eH, hz] at h0'
        exact mul_ne_zero hzF (mul_ne_zero (sub_ne_zero.2 hx.symm) (pow_ne_zero 2 hzF)) h0'
      · have hsl : W.slope x (x2 : F) y (y2 : F) * (x - x2) = y - y2 := by
          rw [slope_of_X_ne hx, div_mul_cancel₀ _ (sub_ne_zero.2 hx)]
        generalize W.slope x (x2 : F) y (y2 : F) = l at hsl
        have eR' : ((R : Nat) : F) = l * (x2 - x) * z ^ 3 := by
          rw [eR]
          linear_combination z ^ 3 * hsl
        have eZ : (((Z + 1) * (H + 1) % q : Nat) : F) = (x2 - x) * z ^ 3 := by
          rw [cast_mod, Nat.cast_mul, eH, hz]
          ring
        have eX : ((subq (R * R) (((H + 1) * ((H + 1) * (H + 1) % q) % q +
            2 * (X * ((H + 1) * (H + 1) % q) % q)) % q) : Nat) : F) =
            W.addX x x2 l * ((x2 - x) * z ^ 3) ^ 2 := by
          rw [cast_subq _ (mod_lt _)]
          simp only [Nat.cast_mul, Nat.cast_add, cast_mod, eH, eR', ex, addX, W, Nat.cast_ofNat]
          ring
        simp only [eZ]
        refine ⟨eX, ?_⟩
        rw [cast_subq _ (mod_lt _), Nat.cast_mul, cast_subq _ (subq_lt _ _), eX]
        simp only [Nat.cast_mul, cast_mod, eH, eR', ex, ey, addX, addY, negAddY, negY, W]
        ring

theorem rep_mul {Q : W.Point} {x y : Nat} (hQ : HasCoords Q x y) :
    ∀ (f k : Nat), k < 2 ^ f → Rep (mul x y f k) (k • Q) := by
  intro f
  induction f with
  | zero =>
    intro k hk
    have : k = 0 := by simpa using hk
    subst this
    simpa [mul] using rep_inf
  | succ f ih =>
    intro k hk
    rcases k with _ | k
    · simpa [mul] using rep_inf
    · have hk2 : (k + 1) / 2 < 2 ^ f := by rw [pow_succ] at hk; omega
      have hd := rep_dbl (ih _ hk2)
      rw [← two_nsmul, ← mul_nsmul'] at hd
      rcases Nat.mod_two_eq_zero_or_one (k + 1) with h | h
      · have e : (k + 1) = 2 * ((k + 1) / 2) := by omega
        simp only [mul, h]
        rw [e]
        convert hd using 3
        omega
      · have e : (k + 1) • Q = (2 * ((k + 1) / 2)) • Q + Q := by
          rw [← succ_nsmul]
          congr 1
          omega
        simp only [mul, h]
        rw [e]
        exact rep_addAff hd hQ

theorem invq_mul {a : Nat} (h0 : (a : F) ≠ 0) : (invq a : F) = (a : F)⁻¹ := by
  rw [invq, powMod_eq (by decide +kernel) (by decide +kernel), cast_mod, Nat.cast_pow]
  have h1 : (a : F) ^ (p - 1) = 1 := ZMod.pow_card_sub_one_eq_one h0
  have e : p - 1 = (q - 2) + 1 := by decide +kernel
  rw [e, pow_succ] at h1
  exact eq_inv_of_mul_eq_one_left h1

theorem toAff_some {A : Jac} {P : W.Point} (h : Rep A P) (hP : P ≠ 0) :
    ∃ x y, toAff A = some (x, y) ∧ HasCoords P x y := by
  obtain ⟨hX, hY, hZ, h⟩ := h
  rcases h with ⟨_, h0⟩ | ⟨hz, x, y, hn, rfl, ex, ey⟩
  · exact absurd h0 hP
  · obtain ⟨X, Y, Z⟩ := A
    simp only at *
    rcases Z with _ | Z
    · exact absurd rfl hz
    have hzF : ((Z + 1 : Nat) : F) ≠ 0 := cast_ne_zero (by omega) hZ
    simp only [toAff, force_eq]
    refine ⟨_, _, rfl, mod_lt _, mod_lt _, ?_⟩
    apply point_some_congr
    · rw [cast_mod, Nat.cast_mul, cast_mod, Nat.cast_mul, invq_mul hzF, ex]
      field_simp
    · rw [cast_mod, Nat.cast_mul, Nat.cast_mul, cast_mod, Nat.cast_mul, invq_mul hzF, ey]
      field_simp

theorem toAff_none {A : Jac} {P : W.Point} (h : Rep A P) (hP : P = 0) : toAff A = none := by
  obtain ⟨_, _, _, h⟩ := h
  rcases h with ⟨h0, _⟩ | ⟨_, x, y, hn, rfl, _⟩
  · obtain ⟨X, Y, Z⟩ := A
    simp only at h0
    subst h0
    rfl
  · exact absurd hP (Point.some_ne_zero _)

/-! ## The order of the base point -/

theorem order_compute : (mul gx gy 256 n).Z = 0 := by decide +kernel

/-- n • G = 0. -/
theorem n_smul_G : n • G = 0 := by
  obtain ⟨_, _, _, h⟩ := rep_mul G_coords 256 n (by decide +kernel)
  rcases h with ⟨_, h⟩ | ⟨h, _⟩
  · exact h
  · exact absurd order_compute h

/-- The order of the base point is exactly n. -/
theorem order_G : addOrderOf G = n := addOrderOf_eq_prime n_smul_G G_ne_zero

theorem smul_G_eq_zero (k : Nat) : k • G = 0 ↔ n ∣ k := by
  rw [← order_G, addOrderOf_dvd_iff_nsmul_eq_zero]

theorem smul_G_inj {a b : Nat} (h : a • G = b • G) : a ≡ b [MOD n] := by
  rw [← order_G]
  exact nsmul_eq_nsmul_iff_modEq.1 h

end Btc.EC
