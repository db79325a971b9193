import Verif.Curve.Card

/-!
# A reference implementation of the curve package

Shows that `EcdsaContract` can be met (so theorems assuming it are not vacuous) and lets the test vectors of
the repository be evaluated in the kernel. It is not a model of `github.com/aureleoules/ecdsa`.
-/

namespace Btc.EC

open Spec WeierstrassCurve.Affine
open Btc.Sha256 (force)

/-- Square root modulo `p` (which is 3 modulo 4), if there is one. -/
def sqrtq (a : Nat) : Option Nat :=
  force (powMod a ((q + 1) / 4) q) fun y => if y * y % q = a % q then some y else none

/-- `Option`-free result of a group operation. -/
def outcome (A : Jac) : Res (Btc.Point × Bool) :=
  match toAff A with
  | none => .ok (⟨none, none⟩, false)
  | some (x, y) => .ok (⟨some (x : Int), some (y : Int)⟩, true)

/-- The reference implementation (for secp256k1 only; the curve argument is not used). -/
def ref : Ecdsa where
  getY _ x :=
    match x with
    | none => .panic .nilDeref
    | some x =>
      match sqrtq (x.toNat * x.toNat * x.toNat + 7) with
      | none => .ok (none, false)
      | some y => .ok (some (y : Int), true)
  multMod _ a b :=
    match a with
    | none => .panic .nilDeref
    | some a => .ok (some (a * b % (q : Int)))
  scalarMult _ k P :=
    match k, P.X, P.Y with
    | some k, some x, some y => outcome (mul x.toNat y.toNat 256 k.toNat)
    | _, _, _ => .panic .nilDeref
  addPoints _ P Q :=
    match P.X, P.Y, Q.X, Q.Y with
    | some x₁, some y₁, some x₂, some y₂ => outcome (addAff ⟨x₁.toNat, y₁.toNat, 1⟩ x₂.toNat y₂.toNat)
    | _, _, _, _ => .panic .nilDeref

theorem sqrtq_lt {a y : Nat} (h : sqrtq a = some y) : y < p := by
  rw [sqrtq, force_eq] at h
  split at h
  · cases h
    rw [powMod_eq (by decide +kernel) (by decide +kernel)]
    exact mod_lt _
  · simp at h

theorem sqrtq_sq {a y : Nat} (h : sqrtq a = some y) : y ^ 2 % p = a % p := by
  rw [sqrtq, force_eq] at h
  split at h
  · rename_i h1
    cases h
    rw [pow_two, ← q_eq]
    exact h1
  · simp at h

theorem sqrtq_none {a : Nat} (h : sqrtq a = none) (z : Nat) : z ^ 2 % p ≠ a % p := by
  intro hz
  rw [sqrtq, force_eq] at h
  split at h
  · simp at h
  rename_i h1
  apply h1
  rw [q_eq, ← ZMod.natCast_eq_natCast_iff', Nat.cast_mul, powMod_eq (by decide +kernel) (by decide +kernel),
    ZMod.natCast_mod, Nat.cast_pow]
  have ha : (a : F) = (z : F) ^ 2 := by
    rw [← Nat.cast_pow, ZMod.natCast_eq_natCast_iff', hz]
  rw [ha]
  by_cases h0 : (z : F) = 0
  · rw [h0]
    have : (p + 1) / 4 ≠ 0 := by decide +kernel
    simp [this]
  · rw [← pow_mul, ← pow_add]
    have e : 2 * ((p + 1) / 4) + 2 * ((p + 1) / 4) = (p - 1) + 2 := by decide +kernel
    rw [e, pow_add, ZMod.pow_card_sub_one_eq_one h0, one_mul]

theorem outcome_some {A : Jac} {P : W.Point} (h : Rep A P) (hP : P ≠ 0) :
    ∃ x y, HasCoords P x y ∧ outcome A = .ok (⟨some (x : Int), some (y : Int)⟩, true) := by
  obtain ⟨x, y, ha, hc⟩ := toAff_some h hP
  exact ⟨x, y, hc, by simp [outcome, ha]⟩

/-- The contract can be met. -/
theorem ref_contract : EcdsaContract ref where
  getY_some := by
    rintro c x y _ ⟨hx, hy, hxy⟩
    simp only [ref, Int.toNat_natCast]
    have e : x * x * x + 7 = x ^ 3 + 7 := by ring
    rw [e]
    cases hs : sqrtq (x ^ 3 + 7) with
    | none => exact absurd hxy (sqrtq_none hs y)
    | some y' => exact ⟨y', ⟨hx, sqrtq_lt hs, sqrtq_sq hs⟩, rfl⟩
  getY_none := by
    intro c x _ hx hno
    simp only [ref, Int.toNat_natCast]
    have e : x * x * x + 7 = x ^ 3 + 7 := by ring
    rw [e]
    cases hs : sqrtq (x ^ 3 + 7) with
    | none => exact ⟨_, rfl⟩
    | some y' => exact absurd ⟨hx, sqrtq_lt hs, sqrtq_sq hs⟩ (hno y')
  multMod := by
    intro c a b _ _
    simp only [ref, q_eq]
  addPoints := by
    intro c P Q x₁ y₁ x₂ y₂ _ hP hQ hne
    simp only [ref, Int.toNat_natCast]
    apply outcome_some
    · refine rep_addAff ?_ hQ
      obtain ⟨hx, hy, hn, rfl⟩ := hP
      exact ⟨hx, hy, one_lt_p, .inr ⟨by simp, _, _, hn, rfl, by simp, by simp⟩⟩
    · obtain ⟨hx, hy, hn, rfl⟩ := hP
      obtain ⟨hx', hy', hn', rfl⟩ := hQ
      rw [Point.add_of_X_ne (fun h => hne (cast_inj hx hx' h))]
      exact Point.some_ne_zero _
  scalarMult := by
    intro c B k hc hB hk1 hk2
    rw [hc.2.2.2.2.2]
    simp only [ref, Int.toNat_natCast]
    apply outcome_some
    · exact rep_mul hB 256 k (lt_trans hk2 (by decide +kernel))
    · obtain rfl : B = G := coords_point hB G_coords
      rw [Ne, smul_G_eq_zero]
      exact Nat.not_dvd_of_pos_of_lt hk1 hk2

end Btc.EC
