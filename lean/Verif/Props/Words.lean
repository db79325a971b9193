import Verif.Proofs.Seed
import Verif.Words.Checks

/-!
# C55: the shipped word lists
-/

namespace Btc

open Spec

set_option maxRecDepth 100000

/-- The nine lists of wordlists.go. -/
def shippedLists : List (List GoString) :=
  [EnglishWordlist, FrenchWordlist, JapaneseWordlist, ItalianWordlist, SpanishWordlist, KoreanWordlist,
    CzechWordlist, ChineseTraditionalWordlist, ChineseSimplifiedWordlist]

/-- C55. Every shipped list has 2048 different words, none empty, none with a space. -/
theorem C55_wordlists_well_formed :
    ∀ wl ∈ shippedLists, IsWordlist wl ∧ ∀ w ∈ wl, w ≠ [] := by
  intro wl h
  simp only [shippedLists, List.mem_cons, List.not_mem_nil, or_false] at h
  rcases h with rfl | rfl | rfl | rfl | rfl | rfl | rfl | rfl | rfl
  · exact isWordlist_of_check check_English
  · exact isWordlist_of_check check_French
  · exact isWordlist_of_check check_Japanese
  · exact isWordlist_of_check check_Italian
  · exact isWordlist_of_check check_Spanish
  · exact isWordlist_of_check check_Korean
  · exact isWordlist_of_check check_Czech
  · exact isWordlist_of_check check_ChineseTraditional
  · exact isWordlist_of_check check_ChineseSimplified

/-- C55. The search of mnemonic.go finds every word of a shipped list at exactly its position. -/
theorem C55_lookup_inverse (wl : List GoString) (h : wl ∈ shippedLists) (i : Nat) (w : GoString) :
    lookupWord wl w = some i ↔ wl[i]? = some w := by
  obtain ⟨⟨_, hn, _⟩, _⟩ := C55_wordlists_well_formed wl h
  refine ⟨lookupWord_some, fun hi => ?_⟩
  cases hl : lookupWord wl w with
  | none => exact absurd (List.mem_of_getElem? hi) (lookupWord_none.1 hl)
  | some j =>
    have hj := lookupWord_some hl
    have := (List.getElem?_inj (List.getElem?_eq_some_iff.1 hi).1 hn).1 (hi.trans hj.symm)
    rw [this]

/-- Position 2047 of the English list is "zoo", and "zoo" is found there. -/
example : lookupWord EnglishWordlist (asc "zoo") = some 2047 :=
  (C55_lookup_inverse _ (by simp [shippedLists]) _ _).2 (by decide +kernel)

end Btc
