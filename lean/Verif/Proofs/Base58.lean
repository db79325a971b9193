import Verif.Proofs.Hex

/-!
# Lemmas about Base58

The specification relation `IsBase58` is a bijection between byte strings and texts over the alphabet, and the
modelled encoder and decoder compute it.
-/

namespace Btc

open Spec

theorem alphabet58_eq : alphabet58 = b58Alphabet := rfl

theorem alphabet58_length : alphabet58.length = 58 := by decide +kernel

theorem alphabet58_nodup : alphabet58.Nodup := by decide +kernel

theorem idxOf_lt_of_mem {c : UInt8} (h : c ∈ alphabet58) : alphabet58.idxOf c < 58 := by
  have := List.idxOf_lt_length_of_mem h
  rwa [alphabet58_length] at this

theorem b58Char_idxOf {c : UInt8} (h : c ∈ alphabet58) : b58Char (alphabet58.idxOf c) = c := by
  have hl := List.idxOf_lt_length_of_mem h
  unfold b58Char
  simp [← alphabet58_eq, List.getD, List.getElem?_eq_getElem hl]

theorem idxOf_b58Char {d : Nat} (h : d < 58) : alphabet58.idxOf (b58Char d) = d := by
  have key : ∀ d, d < 58 → alphabet58.idxOf (b58Char d) = d := by decide +kernel
  exact key d h

theorem b58Char_mem {d : Nat} (h : d < 58) : b58Char d ∈ alphabet58 := by
  have key : ∀ d, d < 58 → b58Char d ∈ alphabet58 := by decide +kernel
  exact key d h

theorem idxOf_eq_zero_iff (c : UInt8) : alphabet58.idxOf c = 0 ↔ c = 49 := by
  revert c
  apply forall_byte
  decide +kernel

theorem b58Digit_of_mem {c : UInt8} (h : c ∈ alphabet58) : b58Digit c = some (alphabet58.idxOf c) := by
  simp [b58Digit, ← alphabet58_eq, idxOf_lt_of_mem h]

theorem b58Digit_of_not_mem {c : UInt8} (h : c ∉ alphabet58) : b58Digit c = none := by
  have : alphabet58.idxOf c = alphabet58.length := List.idxOf_eq_length_iff.2 h
  simp [b58Digit, ← alphabet58_eq, this, alphabet58_length]

/-- Digits of a text. -/
def digits58 (s : GoString) : List Nat := s.map alphabet58.idxOf

theorem value58_eq (s : GoString) : value58 s = ofBE 58 (digits58 s) := by
  simp [value58, ofBE_eq_ofDigits, digits58, List.map_reverse]

theorem leadingOnes_eq (s : GoString) :
    (s.takeWhile (· == 49)).length = leadingZeros (digits58 s) := by
  unfold leadingZeros digits58
  rw [List.takeWhile_map, List.length_map]
  congr 2
  funext c
  have := idxOf_eq_zero_iff c
  by_cases h : c = 49 <;> simp_all

theorem leadingZeroBytes_eq (bs : Bytes) :
    (bs.takeWhile (· == 0)).length = leadingZeros (bs.map UInt8.toNat) := by
  unfold leadingZeros
  rw [List.takeWhile_map, List.length_map]
  congr 2
  funext c
  by_cases h : c = 0
  · simp [h]
  · have : c.toNat ≠ 0 := fun h' => h (UInt8.toNat_inj.1 (by simpa using h'))
    simp [h, this]

theorem digits58_lt {s : GoString} (h : ∀ c ∈ s, c ∈ alphabet58) : ∀ d ∈ digits58 s, d < 58 := by
  intro d hd
  obtain ⟨c, hc, rfl⟩ := List.mem_map.1 hd
  exact idxOf_lt_of_mem (h c hc)

theorem map_b58Char_digits58 {s : GoString} (h : ∀ c ∈ s, c ∈ alphabet58) :
    (digits58 s).map b58Char = s := by
  unfold digits58
  rw [List.map_map]
  conv_rhs => rw [← List.map_id s]
  apply List.map_congr_left
  intro c hc
  exact b58Char_idxOf (h c hc)

theorem digits58_map_b58Char {ds : List Nat} (h : ∀ d ∈ ds, d < 58) : digits58 (ds.map b58Char) = ds := by
  unfold digits58
  rw [List.map_map]
  conv_rhs => rw [← List.map_id ds]
  apply List.map_congr_left
  intro d hd
  exact idxOf_b58Char (h d hd)

/-- The specification relation in terms of digit lists. -/
theorem isBase58_iff (bs : Bytes) (s : GoString) :
    IsBase58 bs s ↔ (∀ c ∈ s, c ∈ alphabet58) ∧ ofBE 58 (digits58 s) = bytesToNat bs ∧
      leadingZeros (digits58 s) = leadingZeros (bs.map UInt8.toNat) := by
  unfold IsBase58
  rw [value58_eq, bigEndian_eq, leadingOnes_eq, leadingZeroBytes_eq]

theorem encDigits_lt (k n : Nat) : ∀ d ∈ List.replicate k 0 ++ toBE 58 n, d < 58 := by
  intro d hd
  rcases List.mem_append.1 hd with h | h
  · rw [(List.mem_replicate.1 h).2]; omega
  · exact toBE_lt (by omega) h

theorem isBase58_encode (bs : Bytes) : IsBase58 bs (base58Encode bs) := by
  rw [isBase58_iff]
  have hlt := encDigits_lt (leadingZeros (bs.map UInt8.toNat)) (bytesToNat bs)
  refine ⟨?_, ?_, ?_⟩
  · intro c hc
    obtain ⟨d, hd, rfl⟩ := List.mem_map.1 hc
    exact b58Char_mem (hlt d hd)
  · rw [base58Encode, digits58_map_b58Char hlt, ofBE_append, ofBE_replicate_zero, ofBE_toBE]
    simp
  · rw [base58Encode, digits58_map_b58Char hlt, leadingZeros_pad]

theorem Spec.IsBase58.text_eq {bs : Bytes} {s : GoString} (h : IsBase58 bs s) : s = base58Encode bs := by
  rw [isBase58_iff] at h
  obtain ⟨h1, h2, h3⟩ := h
  rw [base58Encode, ← h2, ← h3, canon (by omega) (digits58_lt h1), map_b58Char_digits58 h1]

theorem isBase58_iff_encode (bs : Bytes) (s : GoString) : IsBase58 bs s ↔ s = base58Encode bs :=
  ⟨Spec.IsBase58.text_eq, fun h => h ▸ isBase58_encode bs⟩

theorem Spec.IsBase58.bytes_eq {bs : Bytes} {s : GoString} (h : IsBase58 bs s) :
    bs = (List.replicate (leadingZeros (digits58 s)) 0 ++ toBE 256 (ofBE 58 (digits58 s))).map UInt8.ofNat := by
  rw [isBase58_iff] at h
  obtain ⟨_, h2, h3⟩ := h
  rw [h2, h3, bytesToNat, canon (by omega) (map_toNat_lt bs), map_ofNat_map_toNat]

/-- The Base58 text determines the bytes. -/
theorem Spec.IsBase58.bytes_unique {bs cs : Bytes} {s : GoString} (h : IsBase58 bs s) (h' : IsBase58 cs s) :
    bs = cs := h.bytes_eq.trans h'.bytes_eq.symm

/-- The bytes determine the Base58 text. -/
theorem Spec.IsBase58.text_unique {bs : Bytes} {s t : GoString} (h : IsBase58 bs s) (h' : IsBase58 bs t) :
    s = t := h.text_eq.trans h'.text_eq.symm

theorem base58Encode_inj {bs cs : Bytes} (h : base58Encode bs = base58Encode cs) : bs = cs :=
  (isBase58_encode bs).bytes_unique (h ▸ isBase58_encode cs)

/-- Every text over the alphabet is the Base58 text of some bytes. -/
theorem exists_isBase58 {s : GoString} (h : ∀ c ∈ s, c ∈ alphabet58) : ∃ bs, IsBase58 bs s := by
  let ds := List.replicate (leadingZeros (digits58 s)) 0 ++ toBE 256 (ofBE 58 (digits58 s))
  have hlt : ∀ d ∈ ds, d < 256 := by
    intro d hd
    rcases List.mem_append.1 hd with h | h
    · rw [(List.mem_replicate.1 h).2]; omega
    · exact toBE_lt (by omega) h
  refine ⟨ds.map UInt8.ofNat, (isBase58_iff _ _).2 ⟨h, ?_, ?_⟩⟩
  · rw [bytesToNat, map_toNat_map_ofNat hlt, ofBE_append, ofBE_replicate_zero, ofBE_toBE]
    simp
  · rw [map_toNat_map_ofNat hlt, leadingZeros_pad]

theorem mapM_b58Digit_of_mem {s : GoString} (h : ∀ c ∈ s, c ∈ alphabet58) :
    s.mapM b58Digit = some (digits58 s) := by
  induction s with
  | nil => rfl
  | cons c s ih =>
    simp only [List.mapM_cons, b58Digit_of_mem (h c (by simp)), ih (fun x hx => h x (by simp [hx]))]
    rfl

theorem mapM_b58Digit_of_not_mem {s : GoString} (h : ∃ c ∈ s, c ∉ alphabet58) :
    s.mapM b58Digit = none := by
  induction s with
  | nil => simp at h
  | cons c s ih =>
    by_cases hc : c ∈ alphabet58
    · have : ∃ c ∈ s, c ∉ alphabet58 := by
        obtain ⟨x, hx, hx'⟩ := h
        rcases List.mem_cons.1 hx with rfl | hx
        · exact absurd hc hx'
        · exact ⟨x, hx, hx'⟩
      simp [List.mapM_cons, ih this]
    · simp [List.mapM_cons, b58Digit_of_not_mem hc]

theorem base58Decode_of_isBase58 {s : GoString} {bs : Bytes} (h : IsBase58 bs s) (hne : s ≠ []) :
    base58Decode s = .ok bs := by
  simp only [base58Decode, hne, if_false, mapM_b58Digit_of_mem h.1]
  rw [← h.bytes_eq]

theorem base58Decode_eq_ok {s : GoString} {bs : Bytes} :
    base58Decode s = .ok bs ↔ s ≠ [] ∧ IsBase58 bs s := by
  constructor
  · intro h
    by_cases hs : s = []
    · simp [base58Decode, hs] at h
    refine ⟨hs, ?_⟩
    by_cases ha : ∀ c ∈ s, c ∈ alphabet58
    · obtain ⟨cs, hcs⟩ := exists_isBase58 ha
      rw [base58Decode_of_isBase58 hcs hs] at h
      simp only [Res.ok.injEq] at h
      exact h ▸ hcs
    · push Not at ha
      simp [base58Decode, hs, mapM_b58Digit_of_not_mem ha] at h
  · rintro ⟨h1, h2⟩
    exact base58Decode_of_isBase58 h2 h1

theorem base58Decode_ne_panic (s : GoString) (p : GoPanic) : base58Decode s ≠ .panic p := by
  unfold base58Decode
  split
  · simp
  · split <;> simp

theorem base58Encode_ne_nil {bs : Bytes} (h : bs ≠ []) : base58Encode bs ≠ [] := by
  intro h'
  have h1 := isBase58_encode bs
  have h2 : IsBase58 [] (base58Encode bs) := by rw [h']; exact isBase58_encode []
  exact h (h1.bytes_unique h2)

theorem base58Decode_encode {bs : Bytes} (h : bs ≠ []) : base58Decode (base58Encode bs) = .ok bs :=
  base58Decode_of_isBase58 (isBase58_encode bs) (base58Encode_ne_nil h)

/-- Number of characters of a Base58 text. -/
theorem length_base58Encode (bs : Bytes) :
    (base58Encode bs).length = leadingZeros (bs.map UInt8.toNat) + (toBE 58 (bytesToNat bs)).length := by
  simp [base58Encode]

end Btc
