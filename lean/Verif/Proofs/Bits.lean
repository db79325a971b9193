import Verif.Proofs.Fmt
import Verif.Spec.Mnemonic

/-!
# Bits, their characters, and words spelling them
-/

namespace Btc

open Spec

/-- The character of a bit. -/
def bitChar (b : Bool) : UInt8 := digitChar b.toNat

theorem map_bitChar (bs : List Bool) : bs.map bitChar = (bs.map Bool.toNat).map digitChar := by
  simp [bitChar, Function.comp_def]

theorem bitsNumber_eq (bs : List Bool) : bitsNumber bs = ofBE 2 (bs.map Bool.toNat) := by
  simp [bitsNumber, ofBE_eq_ofDigits, List.map_reverse]

theorem map_toNat_lt_two (bs : List Bool) : ∀ d ∈ bs.map Bool.toNat, d < 2 := by
  intro d hd
  obtain ⟨b, _, rfl⟩ := List.mem_map.1 hd
  cases b <;> decide

theorem bools_map_toNat_inj {xs ys : List Bool} (h : xs.map Bool.toNat = ys.map Bool.toNat) : xs = ys :=
  List.map_injective_iff.2 (fun a b h => by revert h; cases a <;> cases b <;> decide) h

theorem bitChar_inj {a b : Bool} (h : bitChar a = bitChar b) : a = b := by
  revert h; cases a <;> cases b <;> decide

theorem map_bitChar_inj {xs ys : List Bool} (h : xs.map bitChar = ys.map bitChar) : xs = ys :=
  List.map_injective_iff.2 (fun _ _ => bitChar_inj) h

theorem bitsNumber_lt (bs : List Bool) : bitsNumber bs < 2 ^ bs.length := by
  have := ofBE_lt (b := 2) (by omega) (map_toNat_lt_two bs)
  simpa [bitsNumber_eq] using this

theorem bitsNumber_inj {xs ys : List Bool} (hl : xs.length = ys.length) (h : bitsNumber xs = bitsNumber ys) :
    xs = ys := by
  rw [bitsNumber_eq, bitsNumber_eq] at h
  exact bools_map_toNat_inj (ofBE_inj (by omega) (map_toNat_lt_two _) (map_toNat_lt_two _) (by simpa using hl) h)

theorem bitsNumber_append (xs ys : List Bool) :
    bitsNumber (xs ++ ys) = bitsNumber xs * 2 ^ ys.length + bitsNumber ys := by
  simp [bitsNumber_eq, ofBE_append]

/-- Every number below `2^k` has `k` bits. -/
theorem exists_bits {k m : Nat} (h : m < 2 ^ k) : ∃ bs : List Bool, bs.length = k ∧ bitsNumber bs = m := by
  refine ⟨(fixBE 2 k m).map (fun d => d == 1), by simp [length_fixBE (by omega) h], ?_⟩
  rw [bitsNumber_eq, List.map_map]
  conv_rhs => rw [← ofBE_fixBE 2 k m]
  congr 1
  conv_rhs => rw [← List.map_id (fixBE 2 k m)]
  apply List.map_congr_left
  intro d hd
  have : d < 2 := fixBE_lt (by omega) hd
  interval_cases d <;> rfl

theorem padZeros_bits {bs : List Bool} (h : bs ≠ []) :
    padZeros bs.length (fmtNat 2 (bitsNumber bs)) = bs.map bitChar := by
  rw [padZeros_fmtNat _ (List.length_pos_iff.2 h), map_bitChar, bitsNumber_eq]
  have := fixBE_ofBE (b := 2) (by omega) (map_toNat_lt_two bs)
  rw [List.length_map] at this
  rw [this]

theorem bigSetString_bits {bs : List Bool} (h : bs ≠ []) :
    bigSetString (bs.map bitChar) 2 = some (bitsNumber bs : Int) := by
  rw [map_bitChar, bigSetString_map_digitChar (by omega) (by simpa using h) (map_toNat_lt_two bs), bitsNumber_eq]

/-! ## Bytes -/

@[simp] theorem length_byteBits (b : UInt8) : (byteBits b).length = 8 := rfl

@[simp] theorem length_bytesBits (bs : Bytes) : (bytesBits bs).length = 8 * bs.length := by
  induction bs with
  | nil => rfl
  | cons b bs ih =>
    have : bytesBits (b :: bs) = byteBits b ++ bytesBits bs := rfl
    rw [this, List.length_append, ih, length_byteBits, List.length_cons]
    omega

theorem bytesBits_append (xs ys : Bytes) : bytesBits (xs ++ ys) = bytesBits xs ++ bytesBits ys := by
  simp [bytesBits]

theorem bitsNumber_byteBits (b : UInt8) : bitsNumber (byteBits b) = b.toNat := by
  revert b
  apply forall_byte
  decide +kernel

theorem bitsNumber_bytesBits (bs : Bytes) : bitsNumber (bytesBits bs) = bytesToNat bs := by
  induction bs with
  | nil => rfl
  | cons b bs ih =>
    have : bytesBits (b :: bs) = byteBits b ++ bytesBits bs := rfl
    rw [this, bitsNumber_append, ih, bytesToNat_cons, bitsNumber_byteBits, length_bytesBits, pow_mul]
    norm_num

theorem bytesBits_inj {xs ys : Bytes} (h : bytesBits xs = bytesBits ys) : xs = ys := by
  have hl := congrArg List.length h
  have hn := congrArg bitsNumber h
  rw [length_bytesBits, length_bytesBits] at hl
  rw [bitsNumber_bytesBits, bitsNumber_bytesBits] at hn
  exact bytesToNat_inj (by omega) hn

/-- Bits in a multiple of eight are the bits of bytes. -/
theorem exists_bytes {bits : List Bool} {k : Nat} (h : bits.length = 8 * k) :
    ∃ bs : Bytes, bs.length = k ∧ bytesBits bs = bits := by
  have hlt := bitsNumber_lt bits
  rw [h, pow_mul, show 2 ^ 8 = 256 from rfl] at hlt
  refine ⟨(fixBE 256 k (bitsNumber bits)).map UInt8.ofNat, ?_, ?_⟩
  · rw [List.length_map, length_fixBE (by omega) hlt]
  · apply bitsNumber_inj
    · rw [length_bytesBits, List.length_map, length_fixBE (by omega) hlt, h]
    · rw [bitsNumber_bytesBits, bytesToNat, map_toNat_map_ofNat (fun d hd => fixBE_lt (by omega) hd), ofBE_fixBE]

/-! ## Words -/

theorem Spec.SpellsBits.length {wl ws : List GoString} {bits : List Bool} (h : SpellsBits wl ws bits) :
    bits.length = 11 * ws.length := by
  induction h with
  | nil => rfl
  | cons h1 _ _ ih => rw [List.length_append, h1, ih, List.length_cons]; omega

theorem Spec.SpellsBits.mem {wl ws : List GoString} {bits : List Bool} (h : SpellsBits wl ws bits) :
    ∀ w ∈ ws, w ∈ wl := by
  induction h with
  | nil => simp
  | cons _ h2 _ ih =>
    intro w hw
    rcases List.mem_cons.1 hw with rfl | hw
    · exact List.mem_of_getElem? h2
    · exact ih w hw

/-- Bits determine the words. -/
theorem Spec.SpellsBits.words_unique {wl ws ws' : List GoString} {bits : List Bool} (h : SpellsBits wl ws bits)
    (h' : SpellsBits wl ws' bits) : ws = ws' := by
  induction h generalizing ws' with
  | nil =>
    have := h'.length
    simpa [eq_comm] using this
  | @cons w ws group bits h1 h2 _ ih =>
    generalize he : group ++ bits = all at h'
    cases h' with
    | nil =>
      have := congrArg List.length he
      rw [List.length_append, h1] at this
      simp at this
    | cons h3 h4 h5 =>
      obtain ⟨rfl, rfl⟩ := List.append_inj he (by omega)
      rw [h2] at h4
      cases h4
      rw [ih h5]

/-- With a duplicate-free list the words determine the bits. -/
theorem Spec.SpellsBits.bits_unique {wl ws : List GoString} {bits bits' : List Bool} (hn : wl.Nodup)
    (h : SpellsBits wl ws bits) (h' : SpellsBits wl ws bits') : bits = bits' := by
  induction h generalizing bits' with
  | nil => cases h'; rfl
  | cons h1 h2 _ ih =>
    cases h' with
    | cons h3 h4 h5 =>
      rw [ih h5]
      congr 1
      apply bitsNumber_inj (by omega)
      have hl := (List.getElem?_eq_some_iff.1 h2).1
      exact (List.getElem?_inj hl hn).1 (h2.trans h4.symm)

/-- Eleven bits always name a word of a list of at least 2048 words. -/
theorem exists_word {wl : List GoString} (h : 2048 ≤ wl.length) {group : List Bool} (hg : group.length = 11) :
    ∃ w, wl[bitsNumber group]? = some w := by
  have := bitsNumber_lt group
  rw [hg] at this
  exact ⟨wl[bitsNumber group]'(by omega), List.getElem?_eq_getElem _⟩

/-- Bits in a multiple of eleven are spelled by words. -/
theorem exists_words {wl : List GoString} (h : 2048 ≤ wl.length) :
    ∀ (k : Nat) (bits : List Bool), bits.length = 11 * k → ∃ ws, ws.length = k ∧ SpellsBits wl ws bits := by
  intro k
  induction k with
  | zero => intro bits hb; exact ⟨[], rfl, by rw [List.length_eq_zero_iff.1 hb]; exact .nil⟩
  | succ k ih =>
    intro bits hb
    obtain ⟨w, hw⟩ := exists_word h (group := bits.take 11) (by simp; omega)
    obtain ⟨ws, hl, hs⟩ := ih (bits.drop 11) (by simp; omega)
    refine ⟨w :: ws, by simp [hl], ?_⟩
    have := SpellsBits.cons (by simp; omega) hw hs
    rwa [List.take_append_drop] at this

/-! ## Text of phrases -/

theorem joinSpace_eq (ws : List GoString) : joinSpace ws = phraseText ws := by
  induction ws with
  | nil => rfl
  | cons w ws ih =>
    cases ws with
    | nil => simp [joinSpace, phraseText, List.intercalate]
    | cons v vs =>
      rw [joinSpace, ih]
      · simp [phraseText, List.intercalate]
      · simp

theorem splitSpace_ne_nil (s : GoString) : splitSpace s ≠ [] := by
  cases s with
  | nil => simp [splitSpace]
  | cons c cs =>
    rw [splitSpace]
    split
    · simp
    · split <;> simp

theorem joinSpace_splitSpace (s : GoString) : joinSpace (splitSpace s) = s := by
  induction s with
  | nil => rfl
  | cons c cs ih =>
    rw [splitSpace]
    split
    · rename_i hc
      subst hc
      cases hs : splitSpace cs with
      | nil => exact absurd hs (splitSpace_ne_nil cs)
      | cons v vs =>
        rw [hs] at ih
        simp [joinSpace, ih]
    · split
      · rename_i hs; exact absurd hs (splitSpace_ne_nil cs)
      · rename_i v vs hs
        rw [hs] at ih
        cases vs with
        | nil => simpa [joinSpace] using ih
        | cons u us => simpa [joinSpace] using ih

theorem splitSpace_word {w : GoString} (h : (32 : UInt8) ∉ w) : splitSpace w = [w] := by
  induction w with
  | nil => rfl
  | cons c cs ih =>
    simp only [List.mem_cons, not_or] at h
    rw [splitSpace, if_neg (fun e => h.1 e.symm), ih h.2]

theorem splitSpace_append {w : GoString} (h : (32 : UInt8) ∉ w) (rest : GoString) :
    splitSpace (w ++ 32 :: rest) = w :: splitSpace rest := by
  induction w with
  | nil => simp [splitSpace]
  | cons c cs ih =>
    simp only [List.mem_cons, not_or] at h
    rw [List.cons_append, splitSpace, if_neg (fun e => h.1 e.symm), ih h.2]

theorem splitSpace_joinSpace {ws : List GoString} (hne : ws ≠ []) (h : ∀ w ∈ ws, (32 : UInt8) ∉ w) :
    splitSpace (joinSpace ws) = ws := by
  induction ws with
  | nil => exact absurd rfl hne
  | cons w ws ih =>
    cases ws with
    | nil => exact splitSpace_word (h w (by simp))
    | cons v vs =>
      rw [joinSpace, splitSpace_append (h w (by simp)), ih (by simp) (fun u hu => h u (by simp [hu]))]
      simp

theorem splitSpace_phraseText {ws : List GoString} (hne : ws ≠ []) (h : ∀ w ∈ ws, (32 : UInt8) ∉ w) :
    splitSpace (phraseText ws) = ws := by rw [← joinSpace_eq, splitSpace_joinSpace hne h]

theorem phraseText_splitSpace (s : GoString) : phraseText (splitSpace s) = s := by
  rw [← joinSpace_eq, joinSpace_splitSpace]

/-- The pieces of a split contain no spaces. -/
theorem splitSpace_noSpace (s : GoString) : ∀ w ∈ splitSpace s, (32 : UInt8) ∉ w := by
  induction s with
  | nil => simp [splitSpace]
  | cons c cs ih =>
    rw [splitSpace]
    split
    · simpa using ih
    · rename_i hc
      split
      · rename_i hs; exact absurd hs (splitSpace_ne_nil cs)
      · rename_i v vs hs
        rw [hs] at ih
        simp only [List.mem_cons, forall_eq_or_imp, not_or] at ih ⊢
        exact ⟨⟨fun e => hc e.symm, ih.1⟩, ih.2⟩

end Btc
