import Verif.Proofs.Pub
import Verif.Props.Wif

/-!
# C27, C28, C31, C32, C24 and C43 (public keys)

None of these needs anything of the curve arithmetic: `E` is arbitrary.
-/

namespace Btc

open Spec

/-! ## C27 -/

/-- C27. Layout of a serialized key. -/
theorem C27_format_layout (x y : Nat) (net : Option Network) (hx : x < 2 ^ 256) (hy : y < 2 ^ 256) :
    ∃ xs ys, IsHexFixed 64 x xs ∧ IsHexFixed 64 y ys ∧
      format ⟨some x, some y, net⟩ false = .ok (asc "04" ++ xs ++ ys) ∧
      (asc "04" ++ xs ++ ys).length = 130 ∧
      format ⟨some x, some y, net⟩ true = .ok ((if y % 2 = 0 then asc "02" else asc "03") ++ xs) ∧
      ((if y % 2 = 0 then asc "02" else asc "03") ++ xs).length = 66 := by
  refine ⟨_, _, isHexFixed_hex64 hx, isHexFixed_hex64 hy, format_false x y net, ?_, format_true x y net, ?_⟩
  · rw [List.length_append, List.length_append, length_hex64 hx, length_hex64 hy]; rfl
  · rw [List.length_append, length_hex64 hx]
    split <;> rfl

/-- The 64-digit text is determined by the number. -/
theorem C27_fixed_unique (w m : Nat) (s t : GoString) (hs : IsHexFixed w m s) (ht : IsHexFixed w m t) : s = t := by
  have key : ∀ u : GoString, (∀ c ∈ u, c ∈ asc "0123456789abcdef") →
      u = (u.map fun c => (hexVal c).getD 0).map digitChar := by
    intro u hu
    rw [List.map_map]
    conv_lhs => rw [← List.map_id u]
    apply List.map_congr_left
    intro c hc
    have h := hu c hc
    revert h
    apply forall_byte (P := fun c => c ∈ asc "0123456789abcdef" → id c = (digitChar ∘ fun c => (hexVal c).getD 0) c)
    decide +kernel
  have hlt : ∀ u : GoString, ∀ d ∈ u.map (fun c => (hexVal c).getD 0), d < 16 := by
    intro u d hd
    obtain ⟨c, _, rfl⟩ := List.mem_map.1 hd
    cases h : hexVal c with
    | none => simp
    | some x => simpa using hexVal_lt h
  have hv : ∀ u : GoString, hexNumber u = ofBE 16 (u.map fun c => (hexVal c).getD 0) := by
    intro u
    rw [hexNumber, ofBE_eq_ofDigits, List.map_reverse]
  rw [key s hs.2.2, key t ht.2.2]
  congr 1
  apply ofBE_inj (b := 16) (by omega) (hlt s) (hlt t)
  · simp [hs.1, ht.1]
  · rw [← hv, ← hv, hs.2.1, ht.2.1]

-- coordinates with leading zeros (the point 7·G has none; this one is not on the curve, which Format ignores)
example : format ⟨some 0xabc, some 0x5, none⟩ true =
    .ok (asc "030000000000000000000000000000000000000000000000000000000000000abc") := by decide +kernel

/-! ## C28 -/

/-- C28. Uncompressed keys survive a round trip, whatever the curve code does. -/
theorem C28_uncompressed_roundtrip (E : Ecdsa) (x y : Nat) (net net2 : Option Network) (hx : x < 2 ^ 256)
    (hy : y < 2 ^ 256) :
    ∃ s, format ⟨some x, some y, net⟩ false = .ok s ∧
      publicFromHex E s net2 = .ok ⟨some x, some y, net2⟩ := by
  refine ⟨_, format_false x y net, ?_⟩
  have h := publicFromHex_uncompressed E (xs := hex64 x) (ys := hex64 y) [] net2 (length_hex64 hx) (length_hex64 hy)
  rw [List.append_nil, bigSetString_hex64 hx, bigSetString_hex64 hy] at h
  exact h

theorem hex64_inj {x y : Nat} (hx : x < 2 ^ 256) (hy : y < 2 ^ 256) (h : hex64 x = hex64 y) : x = y := by
  rw [← hexNumber_hex64 hx, h, hexNumber_hex64 hy]

/-- C28. `Format` is injective on coordinates below 2^256 (compressed: up to the parity of Y). -/
theorem C28_format_injective (x y x' y' : Nat) (net net' : Option Network) (hx : x < 2 ^ 256) (hy : y < 2 ^ 256)
    (hx' : x' < 2 ^ 256) (hy' : y' < 2 ^ 256) :
    (format ⟨some x, some y, net⟩ false = format ⟨some x', some y', net'⟩ false ↔ x = x' ∧ y = y') ∧
    (format ⟨some x, some y, net⟩ true = format ⟨some x', some y', net'⟩ true ↔ x = x' ∧ y % 2 = y' % 2) := by
  constructor
  · rw [format_false, format_false, Res.ok.injEq]
    constructor
    · intro h
      rw [List.append_assoc, List.append_assoc] at h
      have h1 := List.append_cancel_left h
      obtain ⟨h2, h3⟩ := List.append_inj h1 (by rw [length_hex64 hx, length_hex64 hx'])
      exact ⟨hex64_inj hx hx' h2, hex64_inj hy hy' h3⟩
    · rintro ⟨rfl, rfl⟩; rfl
  · rw [format_true, format_true, Res.ok.injEq]
    have hn : asc "02" ≠ asc "03" := by decide +kernel
    constructor
    · intro h
      have hl : ∀ z : Nat, (if z % 2 = 0 then asc "02" else asc "03").length = 2 := by
        intro z; split <;> rfl
      obtain ⟨h1, h2⟩ := List.append_inj h ((hl y).trans (hl y').symm)
      refine ⟨hex64_inj hx hx' h2, ?_⟩
      by_cases a : y % 2 = 0 <;> by_cases b : y' % 2 = 0 <;> simp only [a, b, if_true, if_false] at h1
      · rw [a, b]
      · exact absurd h1 hn
      · exact absurd h1.symm hn
      · rw [Nat.mod_two_ne_zero.1 a, Nat.mod_two_ne_zero.1 b]
    · rintro ⟨rfl, h⟩; rw [h]

/-- C28: (1, 2) and (1, 4) have the same compressed text but not the same full text. -/
example : format ⟨some (1 : Nat), some (2 : Nat), none⟩ true = format ⟨some (1 : Nat), some (4 : Nat), none⟩ true ∧
    format ⟨some (1 : Nat), some (2 : Nat), none⟩ false ≠ format ⟨some (1 : Nat), some (4 : Nat), none⟩ false := by
  obtain ⟨h1, h2⟩ := C28_format_injective 1 2 1 4 none none (by decide) (by decide) (by decide) (by decide)
  exact ⟨h2.2 ⟨rfl, rfl⟩, fun h => absurd (h1.1 h).2 (by decide)⟩

/-- C28: a full text is read back, on another network even. -/
example (E : Ecdsa) : ∃ s, format ⟨some (1 : Nat), some (2 : Nat), some MainNetwork⟩ false = .ok s ∧
    publicFromHex E s (some TestNetwork) = .ok ⟨some (1 : Nat), some (2 : Nat), some TestNetwork⟩ :=
  C28_uncompressed_roundtrip E 1 2 _ _ (by decide) (by decide)

/-! ## C31 -/

theorem mapM_digitOf_none {s : GoString} (h : ∃ c ∈ s, ¬ IsHexDigit c) : s.mapM (digitOf 16) = none := by
  induction s with
  | nil => simp at h
  | cons c s ih =>
    rw [List.mapM_cons]
    cases hc : digitOf 16 c with
    | none => rfl
    | some d =>
      have hd : IsHexDigit c := by
        rw [IsHexDigit, hexVal_eq_fromHexChar, ← digitOf16_eq_fromHexChar, hc]; rfl
      have : ∃ c ∈ s, ¬ IsHexDigit c := by
        obtain ⟨e, he, hne⟩ := h
        rcases List.mem_cons.1 he with rfl | he
        · exact absurd hd hne
        · exact ⟨e, he, hne⟩
      rw [ih this]
      rfl

/-- A text with a character that is no hexadecimal digit, not starting with a sign, is no number. -/
theorem bigSetString_bad {s : GoString} (h : ∃ c ∈ s, ¬ IsHexDigit c) (h1 : s.head? ≠ some 43)
    (h2 : s.head? ≠ some 45) : bigSetString s 16 = none := by
  cases s with
  | nil => rfl
  | cons c cs =>
    have a : c ≠ 43 := by simpa using h1
    have b : c ≠ 45 := by simpa using h2
    simp [bigSetString, a, b, parseNat, mapM_digitOf_none h]

/-- C31 (what holds instead). Any two coordinates are accepted unchecked. -/
theorem C31_uncompressed_unchecked_partial (E : Ecdsa) (xs ys t : GoString) (net : Option Network)
    (hx : xs.length = 64) (hy : ys.length = 64) :
    ((∀ c ∈ xs, IsHexDigit c) → (∀ c ∈ ys, IsHexDigit c) →
      publicFromHex E (asc "04" ++ xs ++ ys ++ t) net = .ok ⟨some (hexNumber xs), some (hexNumber ys), net⟩) ∧
    ((∃ c ∈ xs, ¬ IsHexDigit c) → xs.head? ≠ some 43 → xs.head? ≠ some 45 →
      ∃ Y, publicFromHex E (asc "04" ++ xs ++ ys ++ t) net = .ok ⟨none, Y, net⟩) ∧
    ((∃ c ∈ ys, ¬ IsHexDigit c) → ys.head? ≠ some 43 → ys.head? ≠ some 45 →
      ∃ X, publicFromHex E (asc "04" ++ xs ++ ys ++ t) net = .ok ⟨X, none, net⟩) := by
  have hne : ∀ u : GoString, u.length = 64 → u ≠ [] := by rintro u hu rfl; simp at hu
  rw [publicFromHex_uncompressed E t net hx hy]
  refine ⟨fun a b => ?_, fun a b c => ?_, fun a b c => ?_⟩
  · rw [bigSetString_hex a, bigSetString_hex b, if_neg (hne xs hx), if_neg (hne ys hy)]
  · exact ⟨_, by rw [bigSetString_bad a b c]⟩
  · exact ⟨_, by rw [bigSetString_bad a b c]⟩

/-- The text "04" followed by 128 zeros. -/
def Samples.zeroPoint : GoString := asc "04" ++ List.replicate 64 48 ++ List.replicate 64 48

/-- C31 is violated: (0, 0) is accepted although 0² ≠ 0³ + 7 modulo p. -/
theorem C31_on_curve_violated (E : Ecdsa) :
    ¬ ∀ (s : GoString) (net : Option Network) (k : PublicKey), s.take 2 = asc "04" → publicFromHex E s net = .ok k →
      ∃ x y : Nat, k.X = some (x : Int) ∧ k.Y = some (y : Int) ∧ y ^ 2 % Spec.p = (x ^ 3 + 7) % Spec.p := by
  intro h
  have hz : ∀ c ∈ List.replicate 64 (48 : UInt8), IsHexDigit c :=
    fun c hc => by rw [List.eq_of_mem_replicate hc]; decide +kernel
  have hs : publicFromHex E Samples.zeroPoint none = .ok ⟨some 0, some 0, none⟩ := by
    have := (C31_uncompressed_unchecked_partial E (List.replicate 64 48) (List.replicate 64 48) [] none
      (by decide +kernel) (by decide +kernel)).1 hz hz
    rw [List.append_nil] at this
    rw [Samples.zeroPoint, this]
    decide +kernel
  obtain ⟨x, y, hx, hy, hc⟩ := h _ _ _ (by decide +kernel) hs
  have hx0 : x = 0 := by simpa using hx.symm
  have hy0 : y = 0 := by simpa using hy.symm
  subst hx0 hy0
  revert hc
  decide +kernel

/-- C31 is violated: a text that is not hexadecimal is accepted, with nil coordinates. -/
theorem C31_not_hex_violated (E : Ecdsa) :
    ∃ s, ¬ (∀ c ∈ s, IsHexDigit c) ∧ publicFromHex E s none = .ok ⟨none, none, none⟩ := by
  refine ⟨asc "04" ++ List.replicate 64 122 ++ List.replicate 64 122, by decide +kernel, ?_⟩
  have := publicFromHex_uncompressed E (xs := List.replicate 64 122) (ys := List.replicate 64 122) [] none
    (by decide +kernel) (by decide +kernel)
  rw [List.append_nil] at this
  rw [this]
  decide +kernel

/-! ## C32 -/

/-- C32 (what holds instead). The outcome for every length and prefix: crash, error, or a result that depends
only on the first 66 (130) characters; an uncompressed key is never refused. -/
theorem C32_outcomes_partial (E : Ecdsa) (s : GoString) (net : Option Network) :
    (s.length < 2 → publicFromHex E s net = .panic .sliceBounds) ∧
    (2 ≤ s.length → s.take 2 ∉ [asc "02", asc "03", asc "04"] →
      publicFromHex E s net = .err .unsupportedFormat) ∧
    (s.take 2 ∈ [asc "02", asc "03"] →
      (s.length < 66 → publicFromHex E s net = .panic .sliceBounds) ∧
      (66 ≤ s.length → publicFromHex E s net = publicFromHex E (s.take 66) net)) ∧
    (s.take 2 = asc "04" →
      (s.length < 130 → publicFromHex E s net = .panic .sliceBounds) ∧
      (130 ≤ s.length → publicFromHex E s net = publicFromHex E (s.take 130) net ∧
        ∃ k, publicFromHex E s net = .ok k)) := by
  have n1 : asc "03" ≠ asc "04" := by decide +kernel
  have n2 : asc "02" ≠ asc "04" := by decide +kernel
  have l2 : (asc "02").length = 2 := rfl
  have l3 : (asc "03").length = 2 := rfl
  have l4 : (asc "04").length = 2 := rfl
  have hsplit : s = s.take 2 ++ s.drop 2 := (List.take_append_drop 2 s).symm
  refine ⟨publicFromHex_tiny E net, ?_, ?_, ?_⟩
  · intro hl hp
    rw [hsplit]
    refine publicFromHex_other E net (by simp; omega) ?_
    simpa using hp
  · intro hp
    have hp' : s.take 2 = asc "02" ∨ s.take 2 = asc "03" := by simpa using hp
    constructor
    · intro hl
      rw [hsplit]
      refine publicFromHex_short E net (by tauto) ?_
      rw [if_neg (by rcases hp' with h | h <;> rw [h] <;> assumption), List.length_drop]
      have : 2 ≤ s.length := by
        rcases hp' with h | h <;> (have := congrArg List.length h; simp only [List.length_take, l2, l3] at this; omega)
      omega
    · intro hl
      have e66 : s.take 66 = s.take 2 ++ (s.drop 2).take 64 := by
        rw [show 66 = 2 + 64 from rfl, List.take_add]
      have es : s = s.take 2 ++ (s.drop 2).take 64 ++ s.drop 66 := by
        rw [← e66, List.take_append_drop]
      have hx : ((s.drop 2).take 64).length = 64 := by simp; omega
      rw [e66]
      conv_lhs => rw [es]
      rcases hp' with h | h <;> rw [h]
      · have := publicFromHex_even E (xs := (s.drop 2).take 64) [] net hx
        rw [List.append_nil] at this
        rw [publicFromHex_even E _ net hx, this]
      · have := publicFromHex_odd E (xs := (s.drop 2).take 64) [] net hx
        rw [List.append_nil] at this
        rw [publicFromHex_odd E _ net hx, this]
  · intro hp
    constructor
    · intro hl
      rw [hsplit]
      refine publicFromHex_short E net (by tauto) ?_
      rw [if_pos hp, List.length_drop]
      have : 2 ≤ s.length := by
        have := congrArg List.length hp
        simp only [List.length_take, l4] at this
        omega
      omega
    · intro hl
      have e : s.take 130 = s.take 2 ++ (s.drop 2).take 64 ++ (s.drop 66).take 64 := by
        rw [show 130 = 66 + 64 from rfl, List.take_add, show 66 = 2 + 64 from rfl, List.take_add]
      have es : s = s.take 2 ++ (s.drop 2).take 64 ++ (s.drop 66).take 64 ++ s.drop 130 := by
        rw [← e, List.take_append_drop]
      have hx : ((s.drop 2).take 64).length = 64 := by simp; omega
      have hy : ((s.drop 66).take 64).length = 64 := by simp; omega
      have r1 := publicFromHex_uncompressed E (s.drop 130) net hx hy
      have r2 := publicFromHex_uncompressed E [] net hx hy
      rw [List.append_nil] at r2
      rw [← hp, ← es] at r1
      rw [← hp, ← e] at r2
      exact ⟨r1.trans r2.symm, _, r1⟩

/-- C32 is violated: the empty text and a truncated compressed key crash. -/
theorem C32_never_crashes_violated (E : Ecdsa) :
    ¬ ∀ (s : GoString) (net : Option Network) (p : GoPanic), publicFromHex E s net ≠ .panic p := by
  intro h
  exact h [] none .sliceBounds (publicFromHex_tiny E none (by decide))

example (E : Ecdsa) : publicFromHex E (asc "02a1b2") (some MainNetwork) = .panic .sliceBounds :=
  ((C32_outcomes_partial E _ _).2.2.1 (by decide +kernel)).1 (by decide +kernel)

example (E : Ecdsa) : publicFromHex E (asc "05a1b2") (some MainNetwork) = .err .unsupportedFormat :=
  (C32_outcomes_partial E _ _).2.1 (by decide +kernel) (by decide +kernel)

/-! ## C43, C24 (public keys) -/

theorem decimal_of_hexVal {c : UInt8} {d : Nat} (hd : d < 10) (h : hexVal c = some d) : c = UInt8.ofNat (48 + d) := by
  revert d
  apply forall_byte (P := fun c => ∀ {d : Nat}, d < 10 → hexVal c = some d → c = UInt8.ofNat (48 + d))
  intro n hn d hd h
  have key : ∀ n < 256, ∀ d < 10, fromHexChar (UInt8.ofNat n) = some d → UInt8.ofNat n = UInt8.ofNat (48 + d) := by
    decide +kernel
  exact key n hn d hd (by rw [← hexVal_eq_fromHexChar, h])

theorem prefix_of_sameDigits {u : GoString} {a : Nat} (ha : a < 10) {v : GoString}
    (hv : v = [48, UInt8.ofNat (48 + a)]) (hd : u.map hexVal = v.map hexVal) : u = v := by
  subst hv
  have h1 : hexVal (UInt8.ofNat (48 + a)) = some a := by
    have key : ∀ a < 10, hexVal (UInt8.ofNat (48 + a)) = some a := by decide +kernel
    exact key a ha
  have h0 : hexVal 48 = some 0 := by decide +kernel
  rw [List.map_cons, List.map_cons, List.map_nil, h0, h1] at hd
  have hl : u.length = 2 := by simpa using congrArg List.length hd
  match u, hl, hd with
  | [c, d], _, hd =>
    simp only [List.map_cons, List.map_nil, List.cons.injEq, and_true] at hd
    rw [decimal_of_hexVal (by omega) hd.1, decimal_of_hexVal ha hd.2]
    rfl

/-- C43 (public keys). Letter case does not matter. -/
theorem C43_publicFromHex_case (E : Ecdsa) (s t : GoString) (net : Option Network)
    (hs : ∀ c ∈ s, IsHexDigit c) (hd : s.map hexVal = t.map hexVal) :
    publicFromHex E s net = publicFromHex E t net := by
  have ht : ∀ c ∈ t, IsHexDigit c := by
    intro c hc
    have : hexVal c ∈ s.map hexVal := by rw [hd]; exact List.mem_map_of_mem hc
    obtain ⟨e, he, h⟩ := List.mem_map.1 this
    rw [IsHexDigit, ← h]
    exact hs e he
  have hl : s.length = t.length := by simpa using congrArg List.length hd
  have hb : ∀ a b : Nat, bigSetString ((s.drop a).take b) 16 = bigSetString ((t.drop a).take b) 16 := by
    intro a b
    have e : ((s.drop a).take b).map hexVal = ((t.drop a).take b).map hexVal := by
      rw [List.map_take, List.map_drop, hd, ← List.map_drop, ← List.map_take]
    rw [bigSetString_hex fun c hc => hs c (List.mem_of_mem_drop (List.mem_of_mem_take hc)),
      bigSetString_hex fun c hc => ht c (List.mem_of_mem_drop (List.mem_of_mem_take hc)),
      hexNumber_of_sameDigits e]
    have : (s.drop a).take b = [] ↔ (t.drop a).take b = [] := by
      rw [← List.length_eq_zero_iff, ← List.length_eq_zero_iff]
      simp [hl]
    simp [this]
  have hpre : ∀ a : Nat, a < 10 → (s.take 2 = [48, UInt8.ofNat (48 + a)] ↔ t.take 2 = [48, UInt8.ofNat (48 + a)]) := by
    intro a ha
    have e : (s.take 2).map hexVal = (t.take 2).map hexVal := by rw [List.map_take, hd, ← List.map_take]
    exact ⟨fun h => prefix_of_sameDigits ha rfl (by rw [← e, h]), fun h => prefix_of_sameDigits ha rfl (by rw [e, h])⟩
  have p2 : s.take 2 = asc "02" ↔ t.take 2 = asc "02" := hpre 2 (by omega)
  have p3 : s.take 2 = asc "03" ↔ t.take 2 = asc "03" := hpre 3 (by omega)
  have p4 : s.take 2 = asc "04" ↔ t.take 2 = asc "04" := hpre 4 (by omega)
  by_cases h2 : 2 ≤ s.length
  swap
  · rw [publicFromHex_tiny E net (by omega), publicFromHex_tiny E net (by omega)]
  have sl : ∀ (u : GoString) (a b : Nat), a ≤ b → u.length = s.length →
      slice u a b = if b ≤ s.length then .ok ((u.drop a).take (b - a)) else .panic .sliceBounds := by
    intro u a b hab hu
    split
    · exact slice_ok hab (by omega)
    · exact slice_panic (by omega)
  have s0 := fun u hu => sl u 0 2 (by omega) hu
  have s1 := fun u hu => sl u 2 66 (by omega) hu
  have s2 := fun u hu => sl u 66 130 (by omega) hu
  simp only [h2, if_true, Nat.cast_zero, Nat.cast_ofNat, List.drop_zero, Nat.sub_zero] at s0 s1 s2
  simp only [publicFromHex, s0 s rfl, s0 t hl.symm, s1 s rfl, s1 t hl.symm, s2 s rfl, s2 t hl.symm, Res.bind_ok,
    p2, p3, p4]
  by_cases h66 : 66 ≤ s.length <;> by_cases h130 : 130 ≤ s.length <;>
    simp only [h66, h130, if_true, if_false, Res.bind_ok, Res.bind_panic, hb]

example : (asc "04AB").map hexVal = (asc "04ab").map hexVal ∧ asc "04AB" ≠ asc "04ab" := by decide +kernel

/-- C24. Public keys of different networks are refused, and sums carry the common network. -/
theorem C24_public_networks (E : Ecdsa) (a b : PublicKey) (c : Bool) :
    (a.Network ≠ b.Network → addPublicKeys E a b c = .err .differentNetwork) ∧
    (∀ k, addPublicKeys E a b c = .ok k → k.Network = a.Network ∧ k.Network = b.Network) := by
  constructor
  · intro h
    simp [addPublicKeys, h]
  · intro k hk
    by_cases hn : a.Network = b.Network
    · simp only [addPublicKeys, hn, ne_eq, not_true_eq_false, if_false, Res.bind_eq_ok] at hk
      obtain ⟨r, _, hr⟩ := hk
      split at hr
      · simp at hr
      · cases hr
        exact ⟨hn.symm, rfl⟩
    · simp [addPublicKeys, hn] at hk

/-- C24: public keys of the two networks. -/
example (E : Ecdsa) : addPublicKeys E ⟨some 1, some 2, some MainNetwork⟩ ⟨some 3, some 4, some TestNetwork⟩ true =
    .err .differentNetwork :=
  (C24_public_networks E _ _ true).1 (by decide +kernel)

end Btc
