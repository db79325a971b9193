import Verif.Props.Address

/-!
# C61, C62: `Format` and `Address` on arbitrary public keys (nil, negative and over-long coordinates)
-/

namespace Btc

open Spec

/-- The text of one coordinate, as `Format` writes it (public_key.go:80-89). -/
def coordText (X : Option Int) : GoString := padZeros 64 (bigIntToHex X)

theorem coordText_nat (x : Nat) : coordText (some (x : Int)) = hex64 x := pad64 x

theorem length_coordText_ge (X : Option Int) : 64 ≤ (coordText X).length := by
  simp only [coordText, padZeros, List.length_append, List.length_replicate]
  omega

theorem length_coordText (x : Nat) : (coordText (some (x : Int))).length = max 64 (Nat.digits 16 x).length := by
  have hf : bigIntToHex (some (x : Int)) = fmtNat 16 x := fmtBig_nat 16 x
  simp only [coordText, padZeros, List.length_append, List.length_replicate, hf]
  by_cases hx : x = 0
  · subst hx
    decide
  · rw [length_fmtNat hx]
    omega

theorem coordText_hex_iff (X : Option Int) : (∀ c ∈ coordText X, IsHexDigit c) ↔ ∃ x : Nat, X = some (x : Int) := by
  constructor
  · intro h
    cases X with
    | none =>
      exfalso
      have := h 60 (by decide)
      revert this
      unfold IsHexDigit
      decide +kernel
    | some z =>
      by_cases hz : z < 0
      · exfalso
        have := h 45 (by simp [coordText, padZeros, bigIntToHex, fmtBig, hz])
        revert this
        unfold IsHexDigit
        decide +kernel
      · exact ⟨z.toNat, by rw [Int.toNat_of_nonneg (by omega)]⟩
  · rintro ⟨x, rfl⟩
    rw [coordText_nat]
    exact hex64_isHex

theorem coordText_standard_iff (X : Option Int) :
    ((coordText X).length = 64 ∧ ∀ c ∈ coordText X, IsHexDigit c) ↔ ∃ x : Nat, X = some (x : Int) ∧ x < 2 ^ 256 := by
  rw [coordText_hex_iff]
  constructor
  · rintro ⟨hl, x, rfl⟩
    refine ⟨x, rfl, ?_⟩
    rw [length_coordText] at hl
    have h64 : (Nat.digits 16 x).length ≤ 64 := by omega
    rw [show (2 : Nat) ^ 256 = 16 ^ 64 from by decide +kernel]
    rcases Nat.lt_or_ge x (16 ^ 64) with h | h
    · exact h
    · have h2 : x < 16 ^ (Nat.digits 16 x).length := Nat.lt_base_pow_length_digits (by omega)
      exact absurd (lt_of_lt_of_le h2 (Nat.pow_le_pow_right (by omega) h64)) (by omega)
  · rintro ⟨x, rfl, hx⟩
    rw [coordText_nat]
    exact ⟨length_hex64 hx, x, rfl⟩

theorem format_uncompressed (X Y : Option Int) (net : Option Network) :
    format ⟨X, Y, net⟩ false = .ok (asc "04" ++ coordText X ++ coordText Y) := rfl

theorem format_compressed_nil (X : Option Int) (net : Option Network) :
    format ⟨X, none, net⟩ true = .panic .nilDeref := rfl

theorem format_compressed (X : Option Int) (y : Int) (net : Option Network) :
    format ⟨X, some y, net⟩ true = .ok ((if y % 2 = 0 then asc "02" else asc "03") ++ coordText X) := by
  simp only [format, coordText, Bool.not_true, Bool.false_eq_true, if_false, deref_some, Res.bind_ok]
  split <;> rfl

/-! ## C61 -/

/-- C61 (violated). `Format` returns text that is no serialization: with a nil, a negative and an over-long
coordinate. -/
theorem C61_standard_violated :
    (∃ s, format ⟨none, some 1, none⟩ true = .ok s ∧ s.length = 66 ∧ ¬ ∀ c ∈ s, IsHexDigit c) ∧
    (∃ s, format ⟨some (-255), some 1, none⟩ false = .ok s ∧ s.length = 130 ∧ ¬ ∀ c ∈ s, IsHexDigit c) ∧
    (∃ s, format ⟨some (2 ^ 256), some 1, none⟩ true = .ok s ∧ s.length = 67) := by
  refine ⟨⟨_, rfl, by decide +kernel, fun h => ?_⟩, ⟨_, rfl, by decide +kernel, fun h => ?_⟩,
    ⟨_, rfl, by decide +kernel⟩⟩
  · have := h 60 (by decide +kernel)
    revert this
    unfold IsHexDigit
    decide +kernel
  · have := h 45 (by decide +kernel)
    revert this
    unfold IsHexDigit
    decide +kernel

/-- C61, what remains true: the exact condition. Uncompressed output always exists and is standard (130 hex digits)
exactly when both coordinates are numbers of at most 256 bits. Compressed output crashes exactly on a nil Y, and is
standard (66 hex digits) exactly when X is such a number. Missing: rejection of the other keys. -/
theorem C61_standard_iff_partial (X Y : Option Int) (net : Option Network) :
    (∃ s, format ⟨X, Y, net⟩ false = .ok s ∧ ((s.length = 130 ∧ ∀ c ∈ s, IsHexDigit c) ↔
      ∃ x y : Nat, X = some (x : Int) ∧ Y = some (y : Int) ∧ x < 2 ^ 256 ∧ y < 2 ^ 256)) ∧
    ((∃ p, format ⟨X, Y, net⟩ true = .panic p) ↔ Y = none) ∧
    (∀ s, format ⟨X, Y, net⟩ true = .ok s → ((s.length = 66 ∧ ∀ c ∈ s, IsHexDigit c) ↔
      ∃ x : Nat, X = some (x : Int) ∧ x < 2 ^ 256)) := by
  have h04 : ∀ c ∈ asc "04", IsHexDigit c := by unfold IsHexDigit; decide +kernel
  have h02 : ∀ c ∈ asc "02", IsHexDigit c := by unfold IsHexDigit; decide +kernel
  have h03 : ∀ c ∈ asc "03", IsHexDigit c := by unfold IsHexDigit; decide +kernel
  refine ⟨⟨_, format_uncompressed X Y net, ?_⟩, ?_, ?_⟩
  · have gx := length_coordText_ge X
    have gy := length_coordText_ge Y
    have l2 : (asc "04").length = 2 := rfl
    constructor
    · rintro ⟨hl, hh⟩
      rw [List.length_append, List.length_append, l2] at hl
      obtain ⟨x, hx, hx'⟩ := (coordText_standard_iff X).1 ⟨by omega, fun c hc => hh c (by simp [hc])⟩
      obtain ⟨y, hy, hy'⟩ := (coordText_standard_iff Y).1 ⟨by omega, fun c hc => hh c (by simp [hc])⟩
      exact ⟨x, y, hx, hy, hx', hy'⟩
    · rintro ⟨x, y, hx, hy, hx', hy'⟩
      obtain ⟨lx, tx⟩ := (coordText_standard_iff X).2 ⟨x, hx, hx'⟩
      obtain ⟨ly, ty⟩ := (coordText_standard_iff Y).2 ⟨y, hy, hy'⟩
      refine ⟨by rw [List.length_append, List.length_append, l2, lx, ly], fun c hc => ?_⟩
      rcases List.mem_append.1 hc with hc | hc
      · rcases List.mem_append.1 hc with hc | hc
        · exact h04 c hc
        · exact tx c hc
      · exact ty c hc
  · cases Y with
    | none => simp [format_compressed_nil]
    | some y => simp [format_compressed]
  · intro s hs
    cases Y with
    | none => simp [format_compressed_nil] at hs
    | some y =>
      rw [format_compressed] at hs
      cases hs
      have l2 : (if y % 2 = 0 then asc "02" else asc "03").length = 2 := by split <;> rfl
      have hp : ∀ c ∈ (if y % 2 = 0 then asc "02" else asc "03"), IsHexDigit c := by
        split
        · exact h02
        · exact h03
      rw [← coordText_standard_iff, List.length_append, l2]
      constructor
      · rintro ⟨hl, hh⟩
        exact ⟨by omega, fun c hc => hh c (List.mem_append_right _ hc)⟩
      · rintro ⟨hl, hh⟩
        refine ⟨by omega, fun c hc => ?_⟩
        rcases List.mem_append.1 hc with hc | hc
        · exact hp c hc
        · exact hh c hc

/-- C61: the point (5, 3), off the curve, is written in full; a negative X is not. -/
example : (∃ s, format ⟨some 5, some 3, none⟩ false = .ok s ∧ s.length = 130 ∧ ∀ c ∈ s, IsHexDigit c) ∧
    (∀ s, format ⟨some (-5), some 3, none⟩ true = .ok s → ¬ (s.length = 66 ∧ ∀ c ∈ s, IsHexDigit c)) ∧
    ∃ p, format ⟨some 5, none, none⟩ true = .panic p := by
  obtain ⟨⟨s, h1, h2⟩, -, -⟩ := C61_standard_iff_partial (some 5) (some 3) none
  refine ⟨⟨s, h1, h2.2 ⟨5, 3, rfl, rfl, by decide, by decide⟩⟩, fun s hs h => ?_,
    (C61_standard_iff_partial (some 5) none none).2.1.2 rfl⟩
  obtain ⟨x, hx, -⟩ := ((C61_standard_iff_partial (some (-5)) (some 3) none).2.2 s hs).1 h
  exact absurd (Option.some.inj hx) (by omega)

/-! ## C62 -/

/-- The coordinates can be written as bytes at all: numbers, with an even number of digits. -/
def Spec.Writable (c : Bool) (X Y : Option Int) : Prop :=
  ∃ x : Nat, X = some (x : Int) ∧
    if c then Y ≠ none ∧ max 64 (Nat.digits 16 x).length % 2 = 0
    else ∃ y : Nat, Y = some (y : Int) ∧ (max 64 (Nat.digits 16 x).length + max 64 (Nat.digits 16 y).length) % 2 = 0

theorem format_spells_iff (c : Bool) (X Y : Option Int) (net : Option Network) :
    (∃ s bs, format ⟨X, Y, net⟩ c = .ok s ∧ Spells s bs) ↔ Spec.Writable c X Y := by
  have h04 : ∀ c ∈ asc "04", IsHexDigit c := by unfold IsHexDigit; decide +kernel
  have h02 : ∀ c ∈ asc "02", IsHexDigit c := by unfold IsHexDigit; decide +kernel
  have h03 : ∀ c ∈ asc "03", IsHexDigit c := by unfold IsHexDigit; decide +kernel
  cases c with
  | false =>
    simp only [format_uncompressed, Res.ok.injEq, exists_and_left, exists_eq_left', exists_spells_iff, Spec.Writable,
      Bool.false_eq_true, if_false, List.length_append]
    have l2 : (asc "04").length = 2 := rfl
    constructor
    · rintro ⟨hh, hl⟩
      obtain ⟨x, rfl⟩ := (coordText_hex_iff X).1 fun c hc => hh c (by simp [hc])
      obtain ⟨y, rfl⟩ := (coordText_hex_iff Y).1 fun c hc => hh c (by simp [hc])
      rw [length_coordText, length_coordText, l2] at hl
      exact ⟨x, rfl, y, rfl, by omega⟩
    · rintro ⟨x, rfl, y, rfl, h⟩
      rw [length_coordText, length_coordText, l2]
      refine ⟨fun c hc => ?_, by omega⟩
      rcases List.mem_append.1 hc with hc | hc
      · rcases List.mem_append.1 hc with hc | hc
        · exact h04 c hc
        · exact (coordText_hex_iff _).2 ⟨x, rfl⟩ c hc
      · exact (coordText_hex_iff _).2 ⟨y, rfl⟩ c hc
  | true =>
    cases Y with
    | none => simp [format_compressed_nil, Spec.Writable]
    | some y =>
      simp only [format_compressed, Res.ok.injEq, exists_and_left, exists_eq_left', exists_spells_iff, Spec.Writable,
        if_true, List.length_append]
      have l2 : (if y % 2 = 0 then asc "02" else asc "03").length = 2 := by split <;> rfl
      have hp : ∀ c ∈ (if y % 2 = 0 then asc "02" else asc "03"), IsHexDigit c := by
        split
        · exact h02
        · exact h03
      rw [l2]
      constructor
      · rintro ⟨hh, hl⟩
        obtain ⟨x, rfl⟩ := (coordText_hex_iff X).1 fun c hc => hh c (List.mem_append_right _ hc)
        rw [length_coordText] at hl
        exact ⟨x, rfl, by simp, by omega⟩
      · rintro ⟨x, rfl, -, h⟩
        rw [length_coordText]
        refine ⟨fun c hc => ?_, by omega⟩
        rcases List.mem_append.1 hc with hc | hc
        · exact hp c hc
        · exact (coordText_hex_iff _).2 ⟨x, rfl⟩ c hc

theorem hexDecode_err {s : GoString} (h : ¬ ∃ bs, Spells s bs) : ∃ e, hexDecode s = .err e := by
  cases hd : hexDecode s with
  | ok bs => exact absurd ⟨bs, hexDecode_eq_ok.1 hd⟩ h
  | err e => exact ⟨e, rfl⟩
  | panic p => exact absurd hd (hexDecode_ne_panic s p)

/-- C62, what remains true: the exact outcome of `Address` on every key. It crashes exactly on a nil Y (compressed)
or, if the coordinates can be written, on a nil network; it returns an address exactly if the coordinates can be
written and the network's prefix is an even number of hex digits; it returns an error in all other cases. Missing:
errors instead of crashes, and rejection of coordinates that are no field elements. -/
theorem C62_outcome_partial (H : Hashes) (X Y : Option Int) (net : Option Network) (c : Bool) :
    ((∃ p, address H ⟨X, Y, net⟩ c = .panic p) ↔ (c = true ∧ Y = none) ∨ (Spec.Writable c X Y ∧ net = none)) ∧
    ((∃ a, address H ⟨X, Y, net⟩ c = .ok a) ↔ Spec.Writable c X Y ∧
      ∃ nw, net = some nw ∧ (∀ d ∈ nw.PubKeyHashPrefix, IsHexDigit d) ∧ nw.PubKeyHashPrefix.length % 2 = 0) := by
  by_cases hw : Spec.Writable c X Y
  · obtain ⟨s, bs, hf, hs⟩ := (format_spells_iff c X Y net).2 hw
    have hY : ¬ (c = true ∧ Y = none) := by
      rintro ⟨rfl, rfl⟩
      simp [format_compressed_nil] at hf
    cases net with
    | none =>
      have : address H ⟨X, Y, none⟩ c = .panic .nilDeref := by
        simp [address, hf, hexDecode_eq_ok.2 hs]
      simp [this, hw]
    | some nw =>
      by_cases hp : (∀ d ∈ nw.PubKeyHashPrefix, IsHexDigit d) ∧ nw.PubKeyHashPrefix.length % 2 = 0
      · obtain ⟨pre, hpre⟩ := (exists_spells_iff _).2 hp
        have := address_of_spells H hf hs rfl hpre
        rw [this]
        simp [hY, hw, hp.2]
        exact hp.1
      · have hbad : ¬ ∃ b, Spells (nw.PubKeyHashPrefix ++ hexEncode (H.ripemd160 (H.sha256 bs))) b := by
          rw [exists_spells_iff]
          rintro ⟨h1, h2⟩
          apply hp
          refine ⟨fun d hd => h1 d (List.mem_append_left _ hd), ?_⟩
          rw [List.length_append] at h2
          have : (hexEncode (H.ripemd160 (H.sha256 bs))).length = 40 := by simp [H.rip_len]
          omega
        obtain ⟨e, he⟩ := hexDecode_err hbad
        have : address H ⟨X, Y, some nw⟩ c = .err e := by
          simp [address, hf, hexDecode_eq_ok.2 hs, he]
        rw [this]
        simp only [reduceCtorEq, exists_false, false_iff, Option.some.injEq, exists_eq_left', and_false, or_false, hw,
          true_and]
        exact ⟨hY, hp⟩
  · have hno : ∀ s, format ⟨X, Y, net⟩ c = .ok s → ¬ ∃ bs, Spells s bs := fun s h1 ⟨bs, h2⟩ =>
      hw ((format_spells_iff c X Y net).1 ⟨s, bs, h1, h2⟩)
    by_cases hY : c = true ∧ Y = none
    · obtain ⟨rfl, rfl⟩ := hY
      have : address H ⟨X, none, net⟩ true = .panic .nilDeref := rfl
      rw [this]
      simp [hw]
    · have hok : ∃ s, format ⟨X, Y, net⟩ c = .ok s := by
        cases c with
        | false => exact ⟨_, format_uncompressed X Y net⟩
        | true =>
          cases Y with
          | none => exact absurd ⟨rfl, rfl⟩ hY
          | some y => exact ⟨_, format_compressed X y net⟩
      obtain ⟨s, hs⟩ := hok
      obtain ⟨e, he⟩ := hexDecode_err (hno s hs)
      have : address H ⟨X, Y, net⟩ c = .err e := by simp [address, hs, he]
      rw [this]
      simp [hw]
      exact fun h => fun h2 => hY ⟨h, h2⟩

/-- C62: a crash, and an address of a point off the curve. -/
example : (∃ p, address realHashes ⟨some 5, none, some MainNetwork⟩ true = .panic p) ∧
    (∃ a, address realHashes ⟨some 5, some 3, some MainNetwork⟩ true = .ok a) ∧
    ¬ ∃ a, address realHashes ⟨some 5, some 3, some ⟨asc "80", asc "0"⟩⟩ true = .ok a := by
  refine ⟨(C62_outcome_partial _ _ _ _ _).1.2 (.inl ⟨rfl, rfl⟩),
    (C62_outcome_partial _ _ _ _ _).2.2 ⟨⟨5, rfl, by simp, by norm_num⟩, MainNetwork, rfl, isHexDigit_right (s := []) mainPrefix, by decide +kernel⟩, fun h => ?_⟩
  obtain ⟨-, nw, e, -, h2⟩ := (C62_outcome_partial _ _ _ _ _).2.1 h
  cases e
  exact absurd h2 (by decide +kernel)

/-- C62 (violated). `Address` crashes on a key without a network, and on a key without Y; and it returns addresses
for coordinates that are no field elements (here X has 264 bits). -/
theorem C62_never_crashes_violated (H : Hashes) :
    (∃ p, address H ⟨some 1, some 1, none⟩ true = .panic p) ∧
    (∃ p, address H ⟨some 1, none, some MainNetwork⟩ true = .panic p) ∧
    (∃ a, address H ⟨some 0x800000000000000000000000000000000000000000000000000000000000000000,
      some 1, some MainNetwork⟩ true = .ok a) := by
  refine ⟨(C62_outcome_partial H _ _ _ _).1.2 (.inr ⟨⟨1, rfl, by simp, by decide +kernel⟩, rfl⟩),
    (C62_outcome_partial H _ _ _ _).1.2 (.inl ⟨rfl, rfl⟩),
    (C62_outcome_partial H _ _ _ _).2.2 ⟨⟨0x800000000000000000000000000000000000000000000000000000000000000000, rfl, by simp, by decide +kernel⟩, _, rfl, ?_, rfl⟩⟩
  unfold IsHexDigit
  decide +kernel

end Btc
