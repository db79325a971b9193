import Verif.Model.Types
import Verif.Proofs.Base58
import Verif.Spec.Params

/-!
# Slices, and reading and printing numbers
-/

namespace Btc

open Spec

theorem slice_ok {α : Type} {s : List α} {lo hi : Nat} (h1 : lo ≤ hi) (h2 : hi ≤ s.length) :
    slice s (lo : Int) (hi : Int) = .ok ((s.drop lo).take (hi - lo)) := by
  have h : ((0 : Int) ≤ lo ∧ (lo : Int) ≤ hi ∧ (hi : Int) ≤ s.length) := by omega
  have e : ((hi : Int) - lo).toNat = hi - lo := by omega
  simp [slice, h, e]

theorem slice_panic {α : Type} {s : List α} {lo hi : Int} (h : ¬ (0 ≤ lo ∧ lo ≤ hi ∧ hi ≤ s.length)) :
    slice s lo hi = .panic .sliceBounds := by
  simp [slice, h]

theorem slice_zero {α : Type} {s : List α} {hi : Nat} (h : hi ≤ s.length) :
    slice s 0 (hi : Int) = .ok (s.take hi) := by
  have := slice_ok (s := s) (lo := 0) (Nat.zero_le hi) h
  simpa using this

theorem slice_to_end {α : Type} {s : List α} {lo : Nat} (h : lo ≤ s.length) :
    slice s (lo : Int) (s.length : Int) = .ok (s.drop lo) := by
  rw [slice_ok h (le_refl _), List.take_of_length_le (by simp)]

theorem length_checksum (H : Hashes) (bs : Bytes) : (checksum H.sha256 bs).length = 4 := by
  simp [checksum, H.sha_len]

theorem slice_doubleHash (H : Hashes) (bs : Bytes) :
    slice (hexEncode (H.sha256 (H.sha256 bs))) 0 8 = .ok (hexEncode (checksum H.sha256 bs)) := by
  have := slice_zero (s := hexEncode (H.sha256 (H.sha256 bs))) (hi := 8) (by simp [H.sha_len])
  rw [show ((8 : Nat) : Int) = 8 from rfl] at this
  rw [this, checksum, ← hexEncode_take]

theorem hexNumber_of_mapM {s : GoString} (h : ∀ c ∈ s, IsHexDigit c) :
    s.mapM (digitOf 16) = some (s.map fun c => (hexVal c).getD 0) := by
  induction s with
  | nil => rfl
  | cons c s ih =>
    obtain ⟨x, hx⟩ := Option.isSome_iff_exists.1 (h c (by simp))
    have hx' := hx
    rw [hexVal_eq_fromHexChar, ← digitOf16_eq_fromHexChar] at hx'
    simp [List.mapM_cons, hx', hx, ih (fun x hx => h x (by simp [hx]))]

theorem not_sign_of_isHexDigit {c : UInt8} (h : IsHexDigit c) : c ≠ 43 ∧ c ≠ 45 := by
  constructor <;> (rintro rfl; revert h; unfold IsHexDigit; decide +kernel)

/-- `SetString(h, 16)` on a text of hexadecimal digits. -/
theorem bigSetString_hex {h : GoString} (hh : ∀ c ∈ h, IsHexDigit c) :
    bigSetString h 16 = if h = [] then none else some (hexNumber h : Int) := by
  cases h with
  | nil => rfl
  | cons c cs =>
    have hc := not_sign_of_isHexDigit (hh c (by simp))
    have h1 := hexNumber_of_mapM hh
    have h2 : ofBE 16 ((c :: cs).map fun c => (hexVal c).getD 0) = hexNumber (c :: cs) := by
      rw [ofBE_eq_ofDigits, hexNumber, List.map_reverse]
    simp only [bigSetString, hc.1, hc.2, if_false, parseNat, h1]
    simpa using h2

theorem hexNumber_of_spells {s : GoString} {bs : Bytes} (h : Spells s bs) : hexNumber s = bigEndian bs := by
  by_cases hne : s = []
  · subst hne; cases h; rfl
  · have h1 := bigSetString_of_spells h hne
    rw [bigSetString_hex ((exists_spells_iff s).1 ⟨bs, h⟩).1, if_neg hne] at h1
    simpa using h1

theorem isHexDigit_right {s t : GoString} {bs : Bytes} (h : Spells (s ++ t) bs) : ∀ c ∈ t, IsHexDigit c :=
  fun c hc => ((exists_spells_iff _).1 ⟨bs, h⟩).1 c (by simp [hc])

theorem fmtBig_nat (b m : Nat) : fmtBig b (some (m : Int)) = fmtNat b m := by
  have : ¬ ((m : Int) < 0) := by omega
  simp [fmtBig, this]

theorem fmtBig_nonneg {b : Nat} {z : Int} (hz : 0 ≤ z) : fmtBig b (some z) = fmtNat b z.toNat := by
  obtain ⟨m, rfl⟩ := Int.eq_ofNat_of_zero_le hz
  simpa using fmtBig_nat b m

theorem fmtNat16_mem {m : Nat} : ∀ c ∈ fmtNat 16 m, c ∈ asc "0123456789abcdef" := by
  intro c hc
  rw [fmtNat_eq_digits] at hc
  obtain ⟨d, hd, rfl⟩ := List.mem_map.1 hc
  exact digitChar_mem (fmtDigits_lt (by omega) hd)

theorem isHexDigit_of_lower {c : UInt8} (h : c ∈ asc "0123456789abcdef") : IsHexDigit c := by
  unfold IsHexDigit hexVal
  simp [h]

theorem fmtNat16_isHex {m : Nat} : ∀ c ∈ fmtNat 16 m, IsHexDigit c :=
  fun c hc => isHexDigit_of_lower (fmtNat16_mem c hc)

theorem bigSetString_fmtNat16 (m : Nat) : bigSetString (fmtNat 16 m) 16 = some (m : Int) :=
  bigSetString_fmtNat (by omega) (by omega) m

theorem hexNumber_fmtNat (m : Nat) : hexNumber (fmtNat 16 m) = m := by
  have h := bigSetString_hex (fmtNat16_isHex (m := m))
  rw [bigSetString_fmtNat16, if_neg (fmtNat_ne_nil _ _)] at h
  simpa using h.symm

theorem isMinimalHex_fmtNat (m : Nat) : IsMinimalHex m (fmtNat 16 m) := by
  refine ⟨hexNumber_fmtNat m, fmtNat_ne_nil _ _, fmtNat16_mem, ?_⟩
  intro hh
  by_cases hm : m = 0
  · simp [fmtNat, hm]
  · exfalso
    rw [fmtNat_eq _ _ hm] at hh
    have hne : toBE 16 m ≠ [] := fun h' => hm (toBE_eq_nil.1 h')
    obtain ⟨d, ds, hd⟩ := List.exists_cons_of_ne_nil hne
    have hz := leadingZeros_toBE 16 m
    rw [hd] at hh hz
    simp only [List.map_cons, List.head?_cons, Option.some.injEq] at hh
    have hlt : d < 16 := toBE_lt (n := m) (by omega) (by rw [hd]; simp)
    have h0 : d = 0 := digitChar_inj (by omega) (by omega) (hh.trans (by rfl : (48 : UInt8) = digitChar 0))
    subst h0
    simp [leadingZeros_cons_zero] at hz

/-- Number of digits of the printed form. -/
theorem length_fmtNat {b m : Nat} (hm : m ≠ 0) : (fmtNat b m).length = (Nat.digits b m).length := by
  rw [fmtNat_eq _ _ hm, List.length_map, toBE, List.length_reverse]

end Btc
