import Verif.Proofs.Lists
import Verif.Props.Mnemonic
import Verif.Props.Phrase

/-!
# C64, C77, C82: how the shipped lists relate to each other and to what people type
-/

namespace Btc

open Spec

set_option maxRecDepth 100000

/-! ## C64 -/

/-- The letters a to z of a word; accents are separate characters outside this range in the shipped lists. -/
def Spec.letters (w : GoString) : GoString := w.filter fun b => decide (97 ≤ b.toNat) && decide (b.toNat ≤ 122)


/-- C64. In the five alphabetic lists the first four letters of a word determine the word and its position. -/
theorem C64_four_letters (wl : List GoString)
    (hwl : wl ∈ [EnglishWordlist, FrenchWordlist, ItalianWordlist, SpanishWordlist, CzechWordlist])
    (i j : Nat) (v w : GoString) (hi : wl[i]? = some v) (hj : wl[j]? = some w)
    (h : (letters v).take 4 = (letters w).take 4) : i = j ∧ v = w := by
  have hn : (wl.map fun w => (letters w).take 4).Nodup := by
    simp only [List.mem_cons, List.not_mem_nil, or_false] at hwl
    rcases hwl with rfl | rfl | rfl | rfl | rfl
    · exact nodup_letters letters_English
    · exact nodup_letters letters_French
    · exact nodup_letters letters_Italian
    · exact nodup_letters letters_Spanish
    · exact nodup_letters letters_Czech
  have e : i = j := by
    refine (List.getElem?_inj (l := wl.map fun w => (letters w).take 4) ?_ hn).1 ?_
    · rw [List.length_map]
      exact (List.getElem?_eq_some_iff.1 hi).1
    · rw [List.getElem?_map, List.getElem?_map, hi, hj]
      simp [h]
  subst e
  rw [hi] at hj
  exact ⟨rfl, Option.some.inj hj⟩

/-- "acquérir" (with a separate accent) is determined by "acqu". -/
example (j : Nat) (w : GoString) (hj : FrenchWordlist[j]? = some w) (h : (letters w).take 4 = asc "acqu") :
    j = 33 := by
  refine (C64_four_letters FrenchWordlist (by simp) 33 j
    [0x61, 0x63, 0x71, 0x75, 0x65, 0xcc, 0x81, 0x72, 0x69, 0x72] w (by decide +kernel) hj ?_).1.symm
  rw [h]
  decide +kernel

/-! ## C77 -/

/-- Disjointness of pairs from four checks on joined lists. -/
theorem pairs_disjoint {l0 l1 l2 l3 l4 l5 l6 l7 l8 : List GoString}
    (hA : (l0 ++ (l2 ++ (l3 ++ (l4 ++ (l5 ++ (l6 ++ l7)))))).Nodup)
    (hB : (l1 ++ (l2 ++ (l3 ++ (l4 ++ (l5 ++ (l6 ++ l8)))))).Nodup)
    (hC : (l0 ++ l8).Nodup) (hD : (l1 ++ l7).Nodup)
    (i j : Nat) (hij : i < j) (wl1 wl2 : List GoString)
    (h1 : [l0, l1, l2, l3, l4, l5, l6, l7, l8][i]? = some wl1)
    (h2 : [l0, l1, l2, l3, l4, l5, l6, l7, l8][j]? = some wl2) (hEF : ¬ (i = 0 ∧ j = 1)) (hCC : ¬ (i = 7 ∧ j = 8)) :
    ∀ w ∈ wl1, w ∉ wl2 := by
  simp only [List.nodup_append', List.disjoint_append_right] at hA hB hC hD
  obtain ⟨-, ⟨-, ⟨-, ⟨-, ⟨-, ⟨-, -, a67⟩, a56, a57⟩, a45, a46, a47⟩, a34, a35, a36, a37⟩, a23, a24, a25, a26, a27⟩,
    a02, a03, a04, a05, a06, a07⟩ := hA
  obtain ⟨-, ⟨-, ⟨-, ⟨-, ⟨-, ⟨-, -, b68⟩, -, b58⟩, -, -, b48⟩, -, -, -, b38⟩, -, -, -, -, b28⟩,
    b12, b13, b14, b15, b16, b18⟩ := hB
  obtain ⟨-, -, c08⟩ := hC
  obtain ⟨-, -, d17⟩ := hD
  have hj : j < 9 := (List.getElem?_eq_some_iff.1 h2).1
  intro w hw hw'
  interval_cases j <;> interval_cases i <;>
    first
    | exact absurd ⟨rfl, rfl⟩ hEF
    | exact absurd ⟨rfl, rfl⟩ hCC
    | (cases h1; cases h2
       first
       | exact a02 hw hw' | exact a03 hw hw' | exact a04 hw hw' | exact a05 hw hw' | exact a06 hw hw'
       | exact a07 hw hw' | exact c08 hw hw'
       | exact b12 hw hw' | exact b13 hw hw' | exact b14 hw hw' | exact b15 hw hw' | exact b16 hw hw'
       | exact d17 hw hw' | exact b18 hw hw'
       | exact a23 hw hw' | exact a24 hw hw' | exact a25 hw hw' | exact a26 hw hw' | exact a27 hw hw'
       | exact b28 hw hw'
       | exact a34 hw hw' | exact a35 hw hw' | exact a36 hw hw' | exact a37 hw hw' | exact b38 hw hw'
       | exact a45 hw hw' | exact a46 hw hw' | exact a47 hw hw' | exact b48 hw hw'
       | exact a56 hw hw' | exact a57 hw hw' | exact b58 hw hw'
       | exact a67 hw hw' | exact b68 hw hw')

/-- C77 (violated). The property: no word is in two of the shipped lists. "abandon" is English and French, and U+7684
is in both Chinese lists. -/
theorem C77_disjoint_violated :
    (asc "abandon" ∈ EnglishWordlist ∧ asc "abandon" ∈ FrenchWordlist) ∧
    ([0xe7, 0x9a, 0x84] ∈ ChineseTraditionalWordlist ∧ [0xe7, 0x9a, 0x84] ∈ ChineseSimplifiedWordlist) := by
  decide +kernel

/-- C77, what remains true: all other pairs of lists are disjoint. (List numbers: 0 English, 1 French, 2 Japanese,
3 Italian, 4 Spanish, 5 Korean, 6 Czech, 7 traditional Chinese, 8 simplified Chinese.) Missing from the full
property: the pairs 0, 1 and 7, 8. -/
theorem C77_disjoint_partial (i j : Nat) (hij : i < j) (wl1 wl2 : List GoString) (h1 : shippedLists[i]? = some wl1)
    (h2 : shippedLists[j]? = some wl2) (hEF : ¬ (i = 0 ∧ j = 1)) (hCC : ¬ (i = 7 ∧ j = 8)) :
    ∀ w ∈ wl1, w ∉ wl2 := by
  have hA := nodup_unpack differ_A
  have hB := nodup_unpack differ_B
  have hC := nodup_unpack differ_C
  have hD := nodup_unpack differ_D
  simp only [unpack_append] at hA hB hC hD
  exact pairs_disjoint hA hB hC hD i j hij wl1 wl2 h1 h2 hEF hCC

example : asc "zoo" ∉ SpanishWordlist :=
  C77_disjoint_partial 0 4 (by omega) EnglishWordlist SpanishWordlist rfl rfl (by omega) (by omega) _
    (by decide +kernel)

/-- C77, for phrases: a phrase with a word of one list is rejected with any list disjoint from it. -/
theorem C77_other_language_rejected_partial (H : Hashes) (mnemonic passphrase : GoString) (i j : Nat) (hij : i ≠ j)
    (wl1 wl2 : List GoString) (h1 : shippedLists[i]? = some wl1) (h2 : shippedLists[j]? = some wl2)
    (hEF : ¬ (min i j = 0 ∧ max i j = 1)) (hCC : ¬ (min i j = 7 ∧ max i j = 8)) (seed : Option Bytes)
    (h : (newSeedFromMnemonic H mnemonic passphrase (some wl1)).1 = .ok seed) :
    newSeedFromMnemonic H mnemonic passphrase (some wl2) = (.err .invalidMnemonic, []) := by
  obtain ⟨w, ws, hw⟩ := List.exists_cons_of_ne_nil (splitSpace_ne_nil mnemonic)
  have hm : w ∈ splitSpace mnemonic := by rw [hw]; simp
  have hin : w ∈ wl1 := by
    by_contra hc
    rw [newSeed_unknown H passphrase (wl := some wl1) hm hc] at h
    simp at h
  refine newSeed_unknown H passphrase (wl := some wl2) hm ?_
  show w ∉ wl2
  rcases Nat.lt_or_ge i j with hlt | hge
  · exact C77_disjoint_partial i j hlt wl1 wl2 h1 h2 (by omega) (by omega) w hin
  · intro hc
    exact C77_disjoint_partial j i (by omega) wl2 wl1 h2 h1 (by omega) (by omega) w hc hin

example : newSeedFromMnemonic realHashes Samples.phrase8 [] (some JapaneseWordlist) = (.err .invalidMnemonic, []) :=
  C77_other_language_rejected_partial realHashes _ _ 0 2 (by omega) EnglishWordlist JapaneseWordlist rfl rfl (by omega)
    (by omega) none Samples.seed8

/-! ## C82 -/

/-- C82 (violated). Any French or Spanish phrase with a composed accented letter (U+00C0 to U+00FF, first byte C3) is
rejected. -/
theorem C82_composed_rejected (H : Hashes) (mnemonic passphrase : GoString) (wl : List GoString)
    (hwl : wl = FrenchWordlist ∨ wl = SpanishWordlist) (h : 0xc3 ∈ mnemonic) :
    newSeedFromMnemonic H mnemonic passphrase (some wl) = (.err .invalidMnemonic, []) := by
  refine C70_foreign_byte H mnemonic passphrase wl 0xc3 h (by decide) ?_
  have lift : ∀ ps : List Nat, ps.all (allBytesNat notC3 64) = true → ∀ w ∈ unpackWords ps, (0xc3 : UInt8) ∉ w := by
    intro ps hps w hw hc
    obtain ⟨p, hp, rfl⟩ := List.mem_map.1 hw
    exact absurd (allBytesNat_bytes _ _ _ (List.all_eq_true.1 hps p hp) _ hc) (by decide)
  rcases hwl with rfl | rfl
  · exact lift _ noC3_French
  · exact lift _ noC3_Spanish

/-- The French phrase "acquérir abaisser … abaisser agrume", with the given spelling of é. -/
def Samples.acquerir (e : GoString) : GoString :=
  asc "acqu" ++ e ++ asc "rir abaisser abaisser abaisser abaisser abaisser abaisser abaisser abaisser abaisser abaisser abaisser abaisser abaisser abaisser abaisser abaisser abaisser abaisser abaisser abaisser abaisser abaisser agrume"

/-- C82 (violated). The property: a phrase is judged the same in both Unicode spellings of its accented letters (BIP-39
prescribes normalisation). With a separate accent (65 CC 81) the phrase is accepted, with the composed letter (C3 A9)
it is rejected. -/
theorem C82_normalisation_violated :
    (newSeedFromMnemonic realHashes (Samples.acquerir [0x65, 0xcc, 0x81]) [] (some FrenchWordlist)).1 = .ok none ∧
    (newSeedFromMnemonic realHashes (Samples.acquerir [0xc3, 0xa9]) [] (some FrenchWordlist)).1 =
      .err .invalidMnemonic := by
  refine ⟨by decide +kernel, ?_⟩
  rw [C82_composed_rejected _ _ _ _ (.inl rfl) (by simp [Samples.acquerir])]

/-- C82, what remains true: with a list of ASCII words a phrase that has any byte outside ASCII is rejected, so there is
only one spelling. Missing from the full property: the lists with accents. -/
theorem C82_ascii_lists_partial (H : Hashes) (mnemonic passphrase : GoString) (wl : List GoString)
    (hwl : ∀ w ∈ wl, ∀ b ∈ w, b < 128) (b : UInt8) (hb : b ∈ mnemonic) (h : 128 ≤ b) :
    newSeedFromMnemonic H mnemonic passphrase (some wl) = (.err .invalidMnemonic, []) := by
  refine C70_foreign_byte H mnemonic passphrase wl b hb ?_ fun w hw hbw => ?_
  · rintro rfl
    exact absurd h (by decide)
  · exact absurd (hwl w hw b hbw) (UInt8.not_lt.2 h)

/-- C82: the English list is ASCII; a phrase with an accent is refused. -/
example : newSeedFromMnemonic realHashes (asc "zoo caf" ++ [0xc3, 0xa9]) [] (some EnglishWordlist) = (.err .invalidMnemonic, []) :=
  C82_ascii_lists_partial realHashes _ _ EnglishWordlist (by decide +kernel) 0xc3 (by decide +kernel) (by decide)

end Btc
