import Mathlib.Data.Set.Card
import Mathlib.Data.Set.Card.Arithmetic
import Verif.Proofs.Fmt

/-!
# Counting byte strings
-/

namespace Btc

open Spec

/-- Every number below `256^k` is written by exactly `k` bytes. -/
theorem exists_bytes_of_lt {k v : Nat} (h : v < 256 ^ k) : ∃ bs : Bytes, bs.length = k ∧ bytesToNat bs = v := by
  refine ⟨(fixBE 256 k v).map UInt8.ofNat, ?_, ?_⟩
  · rw [List.length_map, length_fixBE (by omega) h]
  · rw [bytesToNat, map_toNat_map_ofNat (fun d hd => fixBE_lt (by omega) hd), ofBE_fixBE]

/-- Counting byte strings of one length is counting the numbers they write. -/
theorem ncard_bytes (k : Nat) (p : Nat → Prop) [DecidablePred p] :
    {bs : Bytes | bs.length = k ∧ p (bytesToNat bs)}.ncard = ((Finset.range (256 ^ k)).filter p).card := by
  rw [← Set.ncard_coe_finset]
  have hinj : Set.InjOn bytesToNat {bs : Bytes | bs.length = k ∧ p (bytesToNat bs)} :=
    fun a ha b hb e => bytesToNat_inj (ha.1.trans hb.1.symm) e
  rw [← hinj.ncard_image]
  congr 1
  ext v
  simp only [Set.mem_image, Set.mem_ofPred_eq, Finset.coe_filter, Finset.mem_range]
  constructor
  · rintro ⟨bs, ⟨h1, h2⟩, rfl⟩
    exact ⟨h1 ▸ bytesToNat_lt bs, h2⟩
  · rintro ⟨h1, h2⟩
    obtain ⟨bs, h3, rfl⟩ := exists_bytes_of_lt h1
    exact ⟨bs, ⟨h3, h2⟩, rfl⟩

/-- Byte strings whose value lies outside an interval. -/
theorem ncard_outside (k lo hi : Nat) (h : hi < 256 ^ k) :
    {bs : Bytes | bs.length = k ∧ ¬ (lo ≤ bytesToNat bs ∧ bytesToNat bs ≤ hi)}.ncard = 256 ^ k - (hi + 1 - lo) := by
  rw [ncard_bytes k fun v => ¬ (lo ≤ v ∧ v ≤ hi)]
  have hc := Finset.card_filter_add_card_filter_not (s := Finset.range (256 ^ k)) fun v => lo ≤ v ∧ v ≤ hi
  have hi' : (Finset.range (256 ^ k)).filter (fun v => lo ≤ v ∧ v ≤ hi) = Finset.Icc lo hi := by
    ext v
    simp only [Finset.mem_filter, Finset.mem_range, Finset.mem_Icc]
    exact ⟨fun h => h.2, fun h' => ⟨by omega, h'⟩⟩
  rw [hi', Nat.card_Icc, Finset.card_range] at hc
  omega

/-- There are `256^k` byte strings of length `k`. -/
theorem ncard_length (k : Nat) : {bs : Bytes | bs.length = k}.ncard = 256 ^ k := by
  have := ncard_bytes k fun _ => True
  simpa using this

theorem finite_length (k : Nat) : {bs : Bytes | bs.length = k}.Finite :=
  Set.finite_of_ncard_pos (by rw [ncard_length]; positivity)

/-- Byte strings that start with one of a set of strings of equal length and continue with one of another set. -/
theorem ncard_append {k : Nat} {A B : Set Bytes} (hA : ∀ a ∈ A, a.length = k) :
    {bs : Bytes | ∃ a ∈ A, ∃ b ∈ B, bs = a ++ b}.ncard = A.ncard * B.ncard := by
  have hinj : Set.InjOn (fun p : Bytes × Bytes => p.1 ++ p.2) (A ×ˢ B) := by
    rintro ⟨a, b⟩ ⟨ha, hb⟩ ⟨a', b'⟩ ⟨ha', hb'⟩ e
    have := List.append_inj (show a ++ b = a' ++ b' from e) ((hA a ha).trans (hA a' ha').symm)
    rw [this.1, this.2]
  rw [← Set.ncard_prod, ← hinj.ncard_image]
  congr 1
  ext bs
  simp only [Set.mem_ofPred_eq, Set.mem_image, Set.mem_prod, Prod.exists]
  constructor
  · rintro ⟨a, ha, b, hb, rfl⟩
    exact ⟨a, b, ⟨ha, hb⟩, rfl⟩
  · rintro ⟨a, b, ⟨ha, hb⟩, rfl⟩
    exact ⟨a, ha, b, hb, rfl⟩

end Btc
