import Verif.Proofs.Fmt
import Verif.Proofs.Shape
import Verif.Spec.Params

/-!
# Lemmas for key arithmetic
-/

namespace Btc

open Spec

theorem secp256k1_N : secp256k1.N = some (Spec.n : Int) := by decide +kernel

theorem n_pos : (0 : Int) < (Spec.n : Int) := by decide +kernel

/-- The common part of the two arithmetic functions. -/
def combine (H : Hashes) (op : Int → Int → Int) (p1 p2 : PrivateKey) : Res PrivateKey :=
  if p1.Network ≠ p2.Network then .err .differentNetwork
  else if H.toLower p1.WIF = H.toLower p2.WIF then .err .identicalKeys
  else do
    let k1 ← deref p1.Key
    let k2 ← deref p2.Key
    let n ← deref secp256k1.N
    privateFromHex H (bigIntToHex (some (op k1 k2 % n))) p1.Network

theorem add_eq_combine (H : Hashes) : addPrivateKeys H = combine H (· + ·) := rfl
theorem mul_eq_combine (H : Hashes) : multiplyPrivateKeys H = combine H (· * ·) := rfl

/-- The residue, as a natural number. -/
def residue (z : Int) : Nat := (z % (Spec.n : Int)).toNat

theorem residue_cast (z : Int) : (residue z : Int) = z % (Spec.n : Int) :=
  Int.toNat_of_nonneg (Int.emod_nonneg _ (by have := n_pos; omega))

theorem residue_lt (z : Int) : residue z < Spec.n := by
  have h1 := residue_cast z
  have h2 := Int.emod_lt_of_pos z n_pos
  omega

theorem combine_eq (H : Hashes) (op : Int → Int → Int) {p1 p2 : PrivateKey} {k1 k2 : Int}
    (hn : p1.Network = p2.Network) (hw : H.toLower p1.WIF ≠ H.toLower p2.WIF) (h1 : p1.Key = some k1)
    (h2 : p2.Key = some k2) :
    combine H op p1 p2 = privateFromHex H (fmtNat 16 (residue (op k1 k2))) p1.Network := by
  have e : bigIntToHex (some (op k1 k2 % (Spec.n : Int))) = fmtNat 16 (residue (op k1 k2)) := by
    rw [← residue_cast, bigIntToHex, fmtBig_nat]
  simp only [combine, ne_eq, hn, not_true, if_false, hw, h1, h2, deref_some, Res.bind_ok, secp256k1_N, e]

theorem combine_eq_ok (H : Hashes) (op : Int → Int → Int) {p1 p2 k : PrivateKey} :
    combine H op p1 p2 = .ok k ↔
      ∃ k1 k2 net bs, p1.Network = some net ∧ p2.Network = some net ∧
        H.toLower p1.WIF ≠ H.toLower p2.WIF ∧ p1.Key = some k1 ∧ p2.Key = some k2 ∧
        Spells (net.PrivKeyPrefix ++ fmtNat 16 (residue (op k1 k2))) bs ∧
        k = { Key := some (op k1 k2 % (Spec.n : Int)), Hex := fmtNat 16 (residue (op k1 k2)),
              WIF := base58Encode (bs ++ checksum H.sha256 bs), Network := some net } := by
  constructor
  · intro h
    have hn : p1.Network = p2.Network := by
      by_contra hn; simp [combine, hn] at h
    have hw : H.toLower p1.WIF ≠ H.toLower p2.WIF := by
      intro hw; simp [combine, hn, hw] at h
    cases h1 : p1.Key with
    | none => simp [combine, hn, hw, h1] at h
    | some k1 =>
      cases h2 : p2.Key with
      | none => simp [combine, hn, hw, h1, h2] at h
      | some k2 =>
        rw [combine_eq H op hn hw h1 h2] at h
        obtain ⟨net, bs, e, hs, rfl⟩ := (privateFromHex_eq_ok H).1 h
        refine ⟨k1, k2, net, bs, e, hn ▸ e, hw, rfl, rfl, hs, ?_⟩
        rw [bigSetString_fmtNat16, residue_cast]
  · rintro ⟨k1, k2, net, bs, e1, e2, hw, h1, h2, hs, rfl⟩
    rw [combine_eq H op (e1.trans e2.symm) hw h1 h2, e1, privateFromHex_of_spells H hs,
      bigSetString_fmtNat16, residue_cast]

theorem combine_comm (H : Hashes) (op : Int → Int → Int) (hop : ∀ x y, op x y = op y x)
    (p1 p2 : PrivateKey) : combine H op p1 p2 = combine H op p2 p1 := by
  by_cases hn : p1.Network = p2.Network
  · by_cases hw : H.toLower p1.WIF = H.toLower p2.WIF
    · simp [combine, hn, hw]
    · cases h1 : p1.Key with
      | none =>
        cases h2 : p2.Key with
        | none => simp [combine, hn, hw, Ne.symm hw, h1, h2]
        | some k2 => simp [combine, hn, hw, Ne.symm hw, h1, h2]
      | some k1 =>
        cases h2 : p2.Key with
        | none => simp [combine, hn, hw, Ne.symm hw, h1, h2]
        | some k2 =>
          rw [combine_eq H op hn hw h1 h2, combine_eq H op hn.symm (Ne.symm hw) h2 h1, hop, hn]
  · have hn' : ¬ p2.Network = p1.Network := fun h => hn h.symm
    simp [combine, hn, hn']

end Btc
