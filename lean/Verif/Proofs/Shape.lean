import Verif.Proofs.Wif

/-!
# Length and first character of Base58 texts
-/

namespace Btc

open Spec

/-- The leading digit of a number. -/
theorem toBE_head {b k d n : Nat} (hb : 1 < b) (hd : d ≠ 0) (h1 : d * b ^ k ≤ n)
    (h2 : n < (d + 1) * b ^ k) (hdb : d < b) :
    ∃ rest, toBE b n = d :: rest ∧ rest.length = k := by
  have hpow : 0 < b ^ k := Nat.pow_pos (by omega)
  have hlow : b ^ k ≤ n := le_trans (by nlinarith [Nat.pos_of_ne_zero hd]) h1
  have hhigh : n < b ^ (k + 1) := by
    refine lt_of_lt_of_le h2 ?_
    rw [pow_succ, Nat.mul_comm (b ^ k)]
    exact Nat.mul_le_mul_right _ hdb
  have hlen := length_toBE_eq hb hlow hhigh
  cases hl : toBE b n with
  | nil => simp [hl] at hlen
  | cons e rest =>
    have hr : rest.length = k := by simpa [hl] using hlen
    have hlt : ∀ x ∈ rest, x < b := fun x hx => toBE_lt (n := n) hb (by rw [hl]; simp [hx])
    have hv : n = e * b ^ k + ofBE b rest := by
      have := ofBE_toBE b n
      rw [hl, ofBE_cons, hr] at this
      exact this.symm
    have hrest : ofBE b rest < b ^ k := by
      have := ofBE_lt hb hlt
      rwa [hr] at this
    have he : e = d := by
      apply Nat.le_antisymm
      · by_contra hc
        have : (d + 1) * b ^ k ≤ e * b ^ k := Nat.mul_le_mul_right _ (by omega)
        omega
      · by_contra hc
        have : (e + 1) * b ^ k ≤ d * b ^ k := Nat.mul_le_mul_right _ (by omega)
        have : (e + 1) * b ^ k = e * b ^ k + b ^ k := by ring
        omega
    exact ⟨rest, by rw [he], hr⟩

/-- Shape of the Base58 text of bytes whose first byte is not zero. -/
theorem base58_head {bs : Bytes} {v : UInt8} {d k m : Nat} (hv : v ≠ 0) (hl : bs.length = m)
    (hd : d ≠ 0) (hd58 : d < 58) (h1 : d * 58 ^ k ≤ v.toNat * 256 ^ m)
    (h2 : (v.toNat + 1) * 256 ^ m ≤ (d + 1) * 58 ^ k) :
    ∃ rest, base58Encode (v :: bs) = b58Char d :: rest ∧ rest.length = k := by
  have hvn : v.toNat ≠ 0 := fun h' => hv (UInt8.toNat_inj.1 (by simpa using h'))
  have hb := bytesToNat_lt bs
  rw [hl] at hb
  have hn : bytesToNat (v :: bs) = v.toNat * 256 ^ m + bytesToNat bs := by rw [bytesToNat_cons, hl]
  have e : (v.toNat + 1) * 256 ^ m = v.toNat * 256 ^ m + 256 ^ m := by ring
  obtain ⟨rest, hr, hrl⟩ := toBE_head (b := 58) (k := k) (d := d) (n := bytesToNat (v :: bs)) (by omega) hd
    (by omega) (by omega) hd58
  refine ⟨rest.map b58Char, ?_, by simpa using hrl⟩
  rw [base58Encode, List.map_cons, leadingZeros_cons_pos hvn, hr]
  simp

end Btc
