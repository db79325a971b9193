import Verif.Go.Base58
import Mathlib.Tactic.IntervalCases

/-!
# Lemmas about positional numerals
-/

namespace Btc

theorem ofBE_eq_ofDigits (b : Nat) (ds : List Nat) : ofBE b ds = Nat.ofDigits b ds.reverse := by
  unfold ofBE
  rw [List.foldl_eq_foldr_reverse, Nat.ofDigits_eq_foldr]
  congr 1
  funext x y
  simp [Nat.mul_comm, Nat.add_comm]

@[simp] theorem ofBE_nil (b : Nat) : ofBE b [] = 0 := rfl

theorem ofBE_append (b : Nat) (xs ys : List Nat) :
    ofBE b (xs ++ ys) = ofBE b xs * b ^ ys.length + ofBE b ys := by
  simp only [ofBE_eq_ofDigits, List.reverse_append, Nat.ofDigits_append, List.length_reverse]
  ring

theorem ofBE_cons (b x : Nat) (ys : List Nat) :
    ofBE b (x :: ys) = x * b ^ ys.length + ofBE b ys := by
  have := ofBE_append b [x] ys
  simpa [ofBE] using this

theorem ofBE_replicate_zero (b k : Nat) : ofBE b (List.replicate k 0) = 0 := by
  simp [ofBE_eq_ofDigits, Nat.ofDigits_replicate_zero]

theorem ofBE_toBE (b n : Nat) : ofBE b (toBE b n) = n := by
  simp [ofBE_eq_ofDigits, toBE, Nat.ofDigits_digits]

theorem ofBE_lt {b : Nat} (hb : 1 < b) {ds : List Nat} (h : ∀ d ∈ ds, d < b) :
    ofBE b ds < b ^ ds.length := by
  rw [ofBE_eq_ofDigits]
  have := Nat.ofDigits_lt_base_pow_length (l := ds.reverse) hb (by simpa using h)
  simpa using this

theorem toBE_lt {b n d : Nat} (hb : 1 < b) (h : d ∈ toBE b n) : d < b := by
  unfold toBE at h
  exact Nat.digits_lt_base hb (List.mem_reverse.1 h)

@[simp] theorem toBE_zero (b : Nat) : toBE b 0 = [] := by simp [toBE]

theorem toBE_eq_nil {b n : Nat} : toBE b n = [] ↔ n = 0 := by
  simp [toBE, Nat.digits_eq_nil_iff_eq_zero]

theorem length_toBE_le_iff {b k : Nat} (hb : 1 < b) (n : Nat) :
    (toBE b n).length ≤ k ↔ n < b ^ k := by
  simp [toBE, Nat.digits_length_le_iff hb]

theorem lt_length_toBE_iff {b k : Nat} (hb : 1 < b) (n : Nat) :
    k < (toBE b n).length ↔ b ^ k ≤ n := by
  simp [toBE, Nat.lt_digits_length_iff hb]

/-- Length of the minimal numeral of a number between two powers. -/
theorem length_toBE_eq {b k n : Nat} (hb : 1 < b) (h1 : b ^ k ≤ n) (h2 : n < b ^ (k + 1)) :
    (toBE b n).length = k + 1 := by
  have := (lt_length_toBE_iff hb n).2 h1
  have := (length_toBE_le_iff hb n).2 h2
  omega

theorem leadingZeros_cons_zero (ds : List Nat) : leadingZeros (0 :: ds) = leadingZeros ds + 1 := by
  simp [leadingZeros]

theorem leadingZeros_cons_pos {d : Nat} (h : d ≠ 0) (ds : List Nat) : leadingZeros (d :: ds) = 0 := by
  simp [leadingZeros, h]

theorem leadingZeros_toBE (b n : Nat) : leadingZeros (toBE b n) = 0 := by
  by_cases h : n = 0
  · simp [h, leadingZeros]
  · have hne : toBE b n ≠ [] := fun h' => h (toBE_eq_nil.1 h')
    obtain ⟨d, ds, hd⟩ := List.exists_cons_of_ne_nil hne
    rw [hd]
    apply leadingZeros_cons_pos
    have h1 := Nat.getLast_digit_ne_zero b h
    have h2 : b.digits n = ds.reverse ++ [d] := by
      have := congrArg List.reverse hd
      simpa [toBE] using this
    simpa [h2] using h1

/-- The number of leading zeros of a padded numeral. -/
theorem leadingZeros_pad (k b n : Nat) :
    leadingZeros (List.replicate k 0 ++ toBE b n) = k := by
  induction k with
  | zero => simp [leadingZeros_toBE]
  | succ k ih => simp [List.replicate_succ, leadingZeros_cons_zero, ih]

theorem toBE_ofBE_of_head_ne {b d : Nat} {ds : List Nat} (hb : 1 < b) (hd : d ≠ 0)
    (h : ∀ x ∈ d :: ds, x < b) : toBE b (ofBE b (d :: ds)) = d :: ds := by
  rw [ofBE_eq_ofDigits, toBE, Nat.digits_ofDigits b hb, List.reverse_reverse]
  · intro l hl
    exact h l (by simpa [or_comm] using hl)
  · intro hne
    rw [List.getLast_reverse]
    simpa using hd

/-- Every digit list is its leading zeros followed by the minimal numeral of its value. -/
theorem canon {b : Nat} (hb : 1 < b) {ds : List Nat} (h : ∀ d ∈ ds, d < b) :
    List.replicate (leadingZeros ds) 0 ++ toBE b (ofBE b ds) = ds := by
  induction ds with
  | nil => simp [leadingZeros]
  | cons d ds ih =>
    by_cases hd : d = 0
    · subst hd
      rw [leadingZeros_cons_zero, ofBE_cons, List.replicate_succ]
      simp only [Nat.zero_mul, Nat.zero_add, List.cons_append]
      rw [ih (fun x hx => h x (List.mem_cons_of_mem _ hx))]
    · rw [leadingZeros_cons_pos hd, toBE_ofBE_of_head_ne hb hd h]
      simp

/-- Digit lists of the same length and value are equal. -/
theorem ofBE_inj {b : Nat} (hb : 1 < b) {xs ys : List Nat} (hx : ∀ d ∈ xs, d < b)
    (hy : ∀ d ∈ ys, d < b) (hl : xs.length = ys.length) (h : ofBE b xs = ofBE b ys) : xs = ys := by
  rw [ofBE_eq_ofDigits, ofBE_eq_ofDigits] at h
  have := Nat.ofDigits_inj_of_len_eq hb (L1 := xs.reverse) (L2 := ys.reverse) (by simpa using hl)
    (by simpa using hx) (by simpa using hy) h
  simpa using congrArg List.reverse this

/-- The `k`-digit numeral of a number below `b^k`. -/
def fixBE (b k n : Nat) : List Nat := List.replicate (k - (toBE b n).length) 0 ++ toBE b n

theorem ofBE_fixBE (b k n : Nat) : ofBE b (fixBE b k n) = n := by
  simp [fixBE, ofBE_append, ofBE_replicate_zero, ofBE_toBE]

theorem length_fixBE {b k n : Nat} (hb : 1 < b) (h : n < b ^ k) : (fixBE b k n).length = k := by
  have := (length_toBE_le_iff hb n).2 h
  simp [fixBE]
  omega

theorem fixBE_lt {b k n d : Nat} (hb : 1 < b) (h : d ∈ fixBE b k n) : d < b := by
  simp only [fixBE, List.mem_append, List.mem_replicate] at h
  rcases h with ⟨_, rfl⟩ | h
  · omega
  · exact toBE_lt hb h

theorem fixBE_ofBE {b : Nat} (hb : 1 < b) {ds : List Nat} (h : ∀ d ∈ ds, d < b) :
    fixBE b ds.length (ofBE b ds) = ds := by
  apply ofBE_inj hb (fun d hd => fixBE_lt hb hd) h
  · exact length_fixBE hb (ofBE_lt hb h)
  · exact ofBE_fixBE ..

theorem fixBE_inj {b k m n : Nat} (h : fixBE b k m = fixBE b k n) : m = n := by
  have := congrArg (ofBE b) h
  simpa [ofBE_fixBE] using this

/-! ## Bytes -/

theorem map_toNat_lt (bs : Bytes) : ∀ d ∈ bs.map UInt8.toNat, d < 256 := by
  intro d hd
  obtain ⟨c, _, rfl⟩ := List.mem_map.1 hd
  exact c.toNat_lt

theorem bytes_map_toNat_inj {xs ys : Bytes} (h : xs.map UInt8.toNat = ys.map UInt8.toNat) : xs = ys :=
  List.map_injective_iff.2 (fun _ _ h => UInt8.toNat_inj.1 h) h

theorem toNat_ofNat_of_lt {n : Nat} (h : n < 256) : (UInt8.ofNat n).toNat = n := by
  simp [UInt8.toNat_ofNat']
  omega

theorem map_toNat_map_ofNat {ds : List Nat} (h : ∀ d ∈ ds, d < 256) :
    (ds.map UInt8.ofNat).map UInt8.toNat = ds := by
  rw [List.map_map]
  conv_rhs => rw [← List.map_id ds]
  apply List.map_congr_left
  intro d hd
  simp only [Function.comp, id]
  exact toNat_ofNat_of_lt (h d hd)

theorem map_ofNat_map_toNat (bs : Bytes) : (bs.map UInt8.toNat).map UInt8.ofNat = bs := by
  rw [List.map_map]
  conv_rhs => rw [← List.map_id bs]
  apply List.map_congr_left
  intro d _
  simp

theorem bytesToNat_lt (bs : Bytes) : bytesToNat bs < 256 ^ bs.length := by
  have := ofBE_lt (b := 256) (by omega) (map_toNat_lt bs)
  simpa [bytesToNat] using this

theorem bytesToNat_append (xs ys : Bytes) :
    bytesToNat (xs ++ ys) = bytesToNat xs * 256 ^ ys.length + bytesToNat ys := by
  simp [bytesToNat, ofBE_append]

theorem bytesToNat_cons (x : UInt8) (ys : Bytes) :
    bytesToNat (x :: ys) = x.toNat * 256 ^ ys.length + bytesToNat ys := by
  simp [bytesToNat, ofBE_cons]

theorem bytesToNat_inj {xs ys : Bytes} (hl : xs.length = ys.length)
    (h : bytesToNat xs = bytesToNat ys) : xs = ys :=
  bytes_map_toNat_inj (ofBE_inj (by omega) (map_toNat_lt xs) (map_toNat_lt ys) (by simpa using hl) h)

theorem bytesToNat_natToBytes (n : Nat) : bytesToNat (natToBytes n) = n := by
  unfold bytesToNat natToBytes
  rw [map_toNat_map_ofNat (fun d hd => toBE_lt (by omega) hd), ofBE_toBE]

theorem natToBytes_inj {m n : Nat} (h : natToBytes m = natToBytes n) : m = n := by
  rw [← bytesToNat_natToBytes m, h, bytesToNat_natToBytes]

end Btc
