import Verif.Proofs.Num
import Verif.Spec.Encoding

/-!
# Lemmas about hexadecimal and binary text
-/

namespace Btc

open Spec

/-- A statement about all bytes, from the 256 cases. -/
theorem forall_byte {P : UInt8 → Prop} (h : ∀ n, n < 256 → P (UInt8.ofNat n)) (c : UInt8) : P c := by
  have := h c.toNat c.toNat_lt
  simpa using this

theorem bigEndian_eq (bs : Bytes) : bigEndian bs = bytesToNat bs := by
  simp [bigEndian, bytesToNat, ofBE_eq_ofDigits, List.map_reverse]

theorem hexVal_eq_fromHexChar (c : UInt8) : hexVal c = fromHexChar c := by
  revert c
  apply forall_byte
  decide +kernel

theorem digitOf16_eq_fromHexChar (c : UInt8) : digitOf 16 c = fromHexChar c := by
  revert c
  apply forall_byte
  decide +kernel

theorem hexVal_lt {c : UInt8} {x : Nat} (h : hexVal c = some x) : x < 16 := by
  have key : ∀ c : UInt8, ∀ x ∈ hexVal c, x < 16 := by
    apply forall_byte
    decide +kernel
  exact key c x h

theorem digitOf_digitChar {b d : Nat} (hb : b ≤ 36) (h : d < b) : digitOf b (digitChar d) = some d := by
  have key : ∀ d, d < 36 → digitVal (digitChar d) = some d := by decide +kernel
  simp [digitOf, key d (by omega), h]

theorem hexVal_digitChar {d : Nat} (h : d < 16) : hexVal (digitChar d) = some d := by
  rw [hexVal_eq_fromHexChar, ← digitOf16_eq_fromHexChar, digitOf_digitChar (by omega) h]

theorem digitChar_mem {d : Nat} (h : d < 16) : digitChar d ∈ asc "0123456789abcdef" := by
  have key : ∀ d, d < 16 → digitChar d ∈ asc "0123456789abcdef" := by decide +kernel
  exact key d h

theorem digitChar_inj {d e : Nat} (hd : d < 36) (he : e < 36) (h : digitChar d = digitChar e) : d = e := by
  have h1 := digitOf_digitChar (le_refl 36) hd
  have h2 := digitOf_digitChar (le_refl 36) he
  rw [h] at h1
  simpa [h1] using h2

theorem map_digitChar_inj {xs ys : List Nat} (hx : ∀ d ∈ xs, d < 36) (hy : ∀ d ∈ ys, d < 36)
    (h : xs.map digitChar = ys.map digitChar) : xs = ys := by
  induction xs generalizing ys with
  | nil => simpa using h.symm
  | cons x xs ih =>
    cases ys with
    | nil => simp at h
    | cons y ys =>
      simp only [List.map_cons, List.cons.injEq] at h
      rw [digitChar_inj (hx x (by simp)) (hy y (by simp)) h.1,
        ih (fun d hd => hx d (by simp [hd])) (fun d hd => hy d (by simp [hd])) h.2]

/-! ## hex.DecodeString -/

theorem hexDecode_of_spells {s : GoString} {bs : Bytes} (h : Spells s bs) : hexDecode s = .ok bs := by
  induction h with
  | nil => rfl
  | @cons hi lo x y b s bs h1 h2 h3 _ ih =>
    rw [hexVal_eq_fromHexChar] at h1 h2
    simp only [hexDecode, h1, h2, ih]
    congr 2
    apply UInt8.toNat_inj.1
    have := hexVal_lt (by rw [hexVal_eq_fromHexChar]; exact h1)
    have := hexVal_lt (by rw [hexVal_eq_fromHexChar]; exact h2)
    rw [toNat_ofNat_of_lt (by omega), h3]
    omega

/-- Two-step induction on lists. -/
theorem list_two_step {α : Type} {P : List α → Prop} (h0 : P []) (h1 : ∀ a, P [a])
    (h2 : ∀ a b l, P l → P (a :: b :: l)) : ∀ l, P l
  | [] => h0
  | [a] => h1 a
  | a :: b :: l => h2 a b l (list_two_step h0 h1 h2 l)

theorem spells_of_hexDecode : ∀ (s : GoString) {bs : Bytes}, hexDecode s = .ok bs → Spells s bs := by
  apply list_two_step
  · intro bs h; simp [hexDecode] at h; subst h; exact .nil
  · intro a bs h
    cases ha : fromHexChar a <;> simp [hexDecode, ha] at h
  · intro a b rest ih bs h
    cases hx : fromHexChar a with
    | none => simp [hexDecode, hx] at h
    | some x =>
      cases hy : fromHexChar b with
      | none => simp [hexDecode, hx, hy] at h
      | some y =>
        simp only [hexDecode, hx, hy] at h
        cases hr : hexDecode rest with
        | ok bs' =>
          rw [hr] at h
          simp only [Res.ok.injEq] at h
          subst h
          have h1 : hexVal a = some x := by rw [hexVal_eq_fromHexChar]; exact hx
          have h2 : hexVal b = some y := by rw [hexVal_eq_fromHexChar]; exact hy
          refine .cons h1 h2 ?_ (ih hr)
          have := hexVal_lt h1
          have := hexVal_lt h2
          rw [toNat_ofNat_of_lt (by omega)]
          omega
        | err e => simp [hr] at h
        | panic p => simp [hr] at h

theorem hexDecode_eq_ok {s : GoString} {bs : Bytes} : hexDecode s = .ok bs ↔ Spells s bs :=
  ⟨spells_of_hexDecode s, hexDecode_of_spells⟩

theorem hexDecode_ne_panic : ∀ (s : GoString) (p : GoPanic), hexDecode s ≠ .panic p := by
  apply list_two_step
  · simp [hexDecode]
  · intro a p
    cases ha : fromHexChar a <;> simp [hexDecode, ha]
  · intro a b rest ih p
    cases hx : fromHexChar a with
    | none => simp [hexDecode, hx]
    | some x =>
      cases hy : fromHexChar b with
      | none => simp [hexDecode, hx, hy]
      | some y =>
        simp only [hexDecode, hx, hy]
        cases hr : hexDecode rest with
        | panic q => exact absurd hr (ih q)
        | _ => simp

/-- A text spells some bytes iff it has even length and only hexadecimal digits. -/
theorem exists_spells_iff (s : GoString) :
    (∃ bs, Spells s bs) ↔ (∀ c ∈ s, IsHexDigit c) ∧ s.length % 2 = 0 := by
  constructor
  · rintro ⟨bs, h⟩
    induction h with
    | nil => simp
    | cons h1 h2 _ _ ih =>
      refine ⟨?_, by have := ih.2; simp only [List.length_cons]; omega⟩
      intro c hc
      simp only [List.mem_cons] at hc
      rcases hc with rfl | rfl | hc
      · simp [IsHexDigit, h1]
      · simp [IsHexDigit, h2]
      · exact ih.1 c hc
  · rintro ⟨h1, h2⟩
    revert h1 h2
    refine list_two_step (P := fun s => (∀ c ∈ s, IsHexDigit c) → s.length % 2 = 0 → ∃ bs, Spells s bs)
      ?_ ?_ ?_ s
    · exact fun _ _ => ⟨[], .nil⟩
    · intro a _ h2; simp at h2
    · intro a b rest ih h1 h2
      obtain ⟨bs, hbs⟩ := ih (fun c hc => h1 c (by simp [hc]))
        (by simp only [List.length_cons] at h2; omega)
      obtain ⟨x, hx⟩ := Option.isSome_iff_exists.1 (h1 a (by simp))
      obtain ⟨y, hy⟩ := Option.isSome_iff_exists.1 (h1 b (by simp))
      have := hexVal_lt hx
      have := hexVal_lt hy
      exact ⟨UInt8.ofNat (16 * x + y) :: bs, .cons hx hy (toNat_ofNat_of_lt (by omega)) hbs⟩

theorem Spec.Spells.length {s : GoString} {bs : Bytes} (h : Spells s bs) : s.length = 2 * bs.length := by
  induction h with
  | nil => rfl
  | cons _ _ _ _ ih => simp [ih]; omega

theorem Spec.Spells.unique {s : GoString} {bs bs' : Bytes} (h : Spells s bs) (h' : Spells s bs') : bs = bs' := by
  have h1 := hexDecode_of_spells h
  rw [hexDecode_of_spells h'] at h1
  simpa using h1.symm

theorem Spec.Spells.append {s t : GoString} {bs cs : Bytes} (h : Spells s bs) (h' : Spells t cs) :
    Spells (s ++ t) (bs ++ cs) := by
  induction h with
  | nil => simpa
  | cons h1 h2 h3 _ ih => exact .cons h1 h2 h3 ih

/-- If a concatenation spells bytes and the first part has even length, both parts do. -/
theorem Spec.Spells.split {s t : GoString} {bs : Bytes} (h : Spells (s ++ t) bs) (he : s.length % 2 = 0) :
    ∃ b1 b2, Spells s b1 ∧ Spells t b2 ∧ bs = b1 ++ b2 := by
  have hs := (exists_spells_iff (s ++ t)).1 ⟨bs, h⟩
  obtain ⟨b1, h1⟩ := (exists_spells_iff s).2 ⟨fun c hc => hs.1 c (by simp [hc]), he⟩
  obtain ⟨b2, h2⟩ := (exists_spells_iff t).2
    ⟨fun c hc => hs.1 c (by simp [hc]), by have := hs.2; simp at this; omega⟩
  exact ⟨b1, b2, h1, h2, h.unique (h1.append h2)⟩

theorem spells_hexEncode (bs : Bytes) : Spells (hexEncode bs) bs := by
  induction bs with
  | nil => exact .nil
  | cons b bs ih =>
    have hb := b.toNat_lt
    refine Spells.cons (x := b.toNat / 16) (y := b.toNat % 16) ?_ ?_ ?_ ih
    · exact hexVal_digitChar (by omega)
    · exact hexVal_digitChar (by omega)
    · omega

@[simp] theorem hexDecode_hexEncode (bs : Bytes) : hexDecode (hexEncode bs) = .ok bs :=
  hexDecode_of_spells (spells_hexEncode bs)

@[simp] theorem length_hexEncode (bs : Bytes) : (hexEncode bs).length = 2 * bs.length :=
  (spells_hexEncode bs).length

@[simp] theorem hexEncode_nil : hexEncode [] = [] := rfl

theorem hexEncode_append (xs ys : Bytes) : hexEncode (xs ++ ys) = hexEncode xs ++ hexEncode ys := by
  simp [hexEncode]

theorem hexEncode_inj {xs ys : Bytes} (h : hexEncode xs = hexEncode ys) : xs = ys := by
  have h1 := hexDecode_hexEncode xs
  rw [h, hexDecode_hexEncode] at h1
  simpa using h1.symm

theorem hexEncode_take (bs : Bytes) (k : Nat) : (hexEncode bs).take (2 * k) = hexEncode (bs.take k) := by
  rcases Nat.lt_or_ge bs.length k with h | h
  · rw [List.take_of_length_le (by simp; omega), List.take_of_length_le (by omega)]
  · conv_lhs => rw [← List.take_append_drop k bs, hexEncode_append]
    rw [List.take_left' (by simp; omega)]

theorem hexEncode_drop (bs : Bytes) (k : Nat) : (hexEncode bs).drop (2 * k) = hexEncode (bs.drop k) := by
  rcases Nat.lt_or_ge bs.length k with h | h
  · rw [List.drop_of_length_le (by simp; omega), List.drop_of_length_le (by omega)]; rfl
  · conv_lhs => rw [← List.take_append_drop k bs, hexEncode_append]
    rw [List.drop_left' (by simp; omega)]

theorem hexEncode_mem_lower {bs : Bytes} : ∀ c ∈ hexEncode bs, c ∈ asc "0123456789abcdef" := by
  intro c hc
  simp only [hexEncode, List.mem_flatMap, List.mem_cons, List.not_mem_nil, or_false] at hc
  obtain ⟨b, _, rfl | rfl⟩ := hc
  · exact digitChar_mem (by have := b.toNat_lt; omega)
  · exact digitChar_mem (by omega)

/-- `hexEncode` of the bytes a text spells is the lower-case form of that text. -/
theorem isLowerHexOf_hexEncode {s : GoString} {bs : Bytes} (h : Spells s bs) :
    IsLowerHexOf s (hexEncode bs) := by
  refine ⟨by simp [h.length], ?_, hexEncode_mem_lower⟩
  induction h with
  | nil => rfl
  | @cons hi lo x y b s bs h1 h2 h3 _ ih =>
    have hx := hexVal_lt h1
    have hy := hexVal_lt h2
    have e1 : b.toNat / 16 = x := by omega
    have e2 : b.toNat % 16 = y := by omega
    have : hexEncode (b :: bs) = digitChar x :: digitChar y :: hexEncode bs := by
      simp [hexEncode, e1, e2]
    rw [this]
    simp [ih, hexVal_digitChar hx, hexVal_digitChar hy, h1, h2]

/-! ## big.Int.SetString -/

theorem mapM_digitOf {b : Nat} (hb : b ≤ 36) {ds : List Nat} (h : ∀ d ∈ ds, d < b) :
    (ds.map digitChar).mapM (digitOf b) = some ds := by
  induction ds with
  | nil => rfl
  | cons d ds ih =>
    simp only [List.map_cons, List.mapM_cons, digitOf_digitChar hb (h d (by simp)),
      ih (fun x hx => h x (by simp [hx]))]
    rfl

theorem digitChar_ne_sign {d : Nat} (h : d < 36) : digitChar d ≠ 43 ∧ digitChar d ≠ 45 := by
  have key : ∀ d, d < 36 → digitChar d ≠ 43 ∧ digitChar d ≠ 45 := by decide +kernel
  exact key d h

theorem bigSetString_map_digitChar {b : Nat} (hb : b ≤ 36) {ds : List Nat} (hne : ds ≠ [])
    (h : ∀ d ∈ ds, d < b) : bigSetString (ds.map digitChar) b = some (ofBE b ds : Int) := by
  cases ds with
  | nil => exact absurd rfl hne
  | cons d ds =>
    have hd := digitChar_ne_sign (d := d) (by have := h d (by simp); omega)
    have := mapM_digitOf hb h
    simp only [List.map_cons] at this ⊢
    simp [bigSetString, hd.1, hd.2, parseNat, this]

theorem fmtNat_eq (b n : Nat) (hn : n ≠ 0) : fmtNat b n = (toBE b n).map digitChar := by
  simp [fmtNat, hn]

/-- Digits of the printed form. -/
def fmtDigits (b n : Nat) : List Nat := if n = 0 then [0] else toBE b n

theorem fmtNat_eq_digits (b n : Nat) : fmtNat b n = (fmtDigits b n).map digitChar := by
  unfold fmtNat fmtDigits
  split <;> rfl

theorem fmtDigits_ne_nil (b n : Nat) : fmtDigits b n ≠ [] := by
  unfold fmtDigits
  split
  · simp
  · rename_i h; exact fun h' => h (toBE_eq_nil.1 h')

theorem fmtDigits_lt {b n d : Nat} (hb : 1 < b) (h : d ∈ fmtDigits b n) : d < b := by
  unfold fmtDigits at h
  split at h
  · simp at h; omega
  · exact toBE_lt hb h

theorem ofBE_fmtDigits (b n : Nat) : ofBE b (fmtDigits b n) = n := by
  unfold fmtDigits
  split
  · rename_i h; simp [h, ofBE]
  · exact ofBE_toBE b n

theorem bigSetString_fmtNat {b : Nat} (h1 : 1 < b) (h2 : b ≤ 36) (n : Nat) :
    bigSetString (fmtNat b n) b = some (n : Int) := by
  rw [fmtNat_eq_digits, bigSetString_map_digitChar h2 (fmtDigits_ne_nil b n)
    (fun d hd => fmtDigits_lt h1 hd), ofBE_fmtDigits]

/-- Zero-padding the printed form gives the fixed-width numeral. -/
theorem padZeros_fmtNat {b k : Nat} (n : Nat) (hk : 0 < k) :
    padZeros k (fmtNat b n) = (fixBE b k n).map digitChar := by
  unfold padZeros fixBE
  by_cases hn : n = 0
  · subst hn
    obtain ⟨k, rfl⟩ : ∃ j, k = j + 1 := ⟨k - 1, by omega⟩
    have h0 : digitChar 0 = 48 := rfl
    simp [fmtNat, List.replicate_succ', h0]
  · have h0 : digitChar 0 = 48 := rfl
    simp [fmtNat_eq b n hn, h0]

theorem bigSetString_padZeros {b k : Nat} (h1 : 1 < b) (h2 : b ≤ 36) (n : Nat) (hk : 0 < k) :
    bigSetString (padZeros k (fmtNat b n)) b = some (n : Int) := by
  rw [padZeros_fmtNat n hk, bigSetString_map_digitChar h2 _ (fun d hd => fixBE_lt h1 hd), ofBE_fixBE]
  intro h
  have := congrArg List.length h
  simp only [fixBE, List.length_append, List.length_replicate, List.length_nil] at this
  omega

/-- Length of the printed form. -/
theorem length_fmtNat_le_iff {b k n : Nat} (hb : 1 < b) (hk : 0 < k) :
    (fmtNat b n).length ≤ k ↔ n < b ^ k := by
  by_cases hn : n = 0
  · subst hn
    have : 0 < b ^ k := Nat.pow_pos (by omega)
    simp [fmtNat, this]; omega
  · rw [fmtNat_eq b n hn, List.length_map, length_toBE_le_iff hb]

theorem fmtNat_ne_nil (b n : Nat) : fmtNat b n ≠ [] := by
  rw [fmtNat_eq_digits]
  simpa using fmtDigits_ne_nil b n

/-- The hexadecimal text of bytes parses back to their big-endian value. -/
theorem bigSetString_of_spells {s : GoString} {bs : Bytes} (h : Spells s bs) (hne : s ≠ []) :
    bigSetString s 16 = some (bigEndian bs : Int) := by
  have key : s.mapM (digitOf 16) = some ((bs.map UInt8.toNat).flatMap fun b => [b / 16, b % 16]) := by
    clear hne
    induction h with
    | nil => rfl
    | @cons hi lo x y b s bs h1 h2 h3 _ ih =>
      have hx := hexVal_lt h1
      have hy := hexVal_lt h2
      rw [hexVal_eq_fromHexChar, ← digitOf16_eq_fromHexChar] at h1 h2
      have e1 : b.toNat / 16 = x := by omega
      have e2 : b.toNat % 16 = y := by omega
      simp [List.mapM_cons, h1, h2, ih, e1, e2]
  have hval : ofBE 16 ((bs.map UInt8.toNat).flatMap fun b => [b / 16, b % 16]) = bytesToNat bs := by
    clear key h hne
    induction bs with
    | nil => rfl
    | cons b bs ih =>
      have hl : ((bs.map UInt8.toNat).flatMap fun b => [b / 16, b % 16]).length = 2 * bs.length := by
        clear ih
        induction bs with
        | nil => rfl
        | cons b bs ih =>
          simp only [List.map_cons, List.flatMap_cons, List.length_append, List.length_cons,
            List.length_nil, ih]
          omega
      simp only [List.map_cons, List.flatMap_cons]
      rw [ofBE_append, ih, hl, bytesToNat_cons, pow_mul]
      have : ofBE 16 [b.toNat / 16, b.toNat % 16] = b.toNat := by
        simp [ofBE]; omega
      rw [this]
      norm_num
  cases s with
  | nil => exact absurd rfl hne
  | cons c cs =>
    have hc : c ≠ 43 ∧ c ≠ 45 := by
      have h1 : IsHexDigit c := ((exists_spells_iff _).1 ⟨bs, h⟩).1 c (by simp)
      constructor <;> (rintro rfl; revert h1; unfold IsHexDigit; decide +kernel)
    simp [bigSetString, hc.1, hc.2, parseNat, key, hval, bigEndian_eq]

end Btc
