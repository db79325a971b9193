import Mathlib.AlgebraicGeometry.EllipticCurve.Affine.Point
import Verif.Curve.Prime
import Verif.Model.Types

/-!
# Specification of secp256k1 and of the curve package

The group is Mathlib's group of points of a Weierstrass curve; nothing here refers to the model of the code
except the type of the methods (`Ecdsa`).
-/

namespace Btc.Spec

/-- The field of `p` elements. -/
abbrev F := ZMod p

/-- The curve y² = x³ + 7 (SEC 2, section 2.4.1). -/
def W : WeierstrassCurve.Affine F := { a₁ := 0, a₂ := 0, a₃ := 0, a₄ := 0, a₆ := 7 }

/-- The affine point `P` has the coordinates `x`, `y`, reduced modulo `p`. -/
def HasCoords (P : W.Point) (x y : Nat) : Prop :=
  x < p ∧ y < p ∧ ∃ h : W.Nonsingular (x : F) (y : F), P = .some (x : F) (y : F) h

/-- `(x, y)` satisfies the equation of the curve modulo `p` and is reduced. -/
def OnCurve (x y : Nat) : Prop := x < p ∧ y < p ∧ y ^ 2 % p = (x ^ 3 + 7) % p

/-- The curve record handed to the package carries the parameters of secp256k1. -/
def IsSecp256k1 (c : Curve) : Prop :=
  c.A = some 0 ∧ c.B = some 7 ∧ c.P = some (p : Int) ∧ c.N = some (n : Int) ∧ c.H = some 1 ∧
    c.G = ⟨some (gx : Int), some (gy : Int)⟩

/-- All that is assumed of `github.com/aureleoules/ecdsa` (not part of the repository). Nothing is assumed
about points off the curve, nil arguments, unreduced coordinates, doubling or the point at infinity. -/
structure EcdsaContract (E : Ecdsa) : Prop where
  /-- `GetY` finds a square root if there is one. -/
  getY_some : ∀ (c : Curve) (x y : Nat), IsSecp256k1 c → OnCurve x y →
    ∃ y', OnCurve x y' ∧ E.getY c (some (x : Int)) = .ok (some (y' : Int), true)
  /-- `GetY` reports failure if there is none. -/
  getY_none : ∀ (c : Curve) (x : Nat), IsSecp256k1 c → x < p → (∀ y, ¬ OnCurve x y) →
    ∃ r, E.getY c (some (x : Int)) = .ok (r, false)
  /-- `MultMod` multiplies modulo `p`, with a non-negative result. -/
  multMod : ∀ (c : Curve) (a : Nat) (b : Int), IsSecp256k1 c → a < p →
    E.multMod c (some (a : Int)) b = .ok (some ((a : Int) * b % (p : Int)))
  /-- `AddPoints` adds two points of the curve with different x-coordinates. -/
  addPoints : ∀ (c : Curve) (P Q : W.Point) (x₁ y₁ x₂ y₂ : Nat), IsSecp256k1 c →
    HasCoords P x₁ y₁ → HasCoords Q x₂ y₂ → x₁ ≠ x₂ →
    ∃ x y, HasCoords (P + Q) x y ∧
      E.addPoints c ⟨some (x₁ : Int), some (y₁ : Int)⟩ ⟨some (x₂ : Int), some (y₂ : Int)⟩ =
        .ok (⟨some (x : Int), some (y : Int)⟩, true)
  /-- `ScalarMult` multiplies the base point by a number between 1 and n - 1. -/
  scalarMult : ∀ (c : Curve) (G : W.Point) (k : Nat), IsSecp256k1 c → HasCoords G gx gy → 1 ≤ k → k < n →
    ∃ x y, HasCoords (k • G) x y ∧
      E.scalarMult c (some (k : Int)) c.G = .ok (⟨some (x : Int), some (y : Int)⟩, true)

end Btc.Spec
