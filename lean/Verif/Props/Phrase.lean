import Verif.Proofs.Lists
import Verif.Props.Mnemonic

/-!
# C63, C69, C70, C71, C76, C80, C81: phrases, continued
-/

namespace Btc

open Spec

set_option maxRecDepth 100000

/-! ## C63 -/

theorem length_splitSpace (m : GoString) : (splitSpace m).length = m.count 32 + 1 := by
  have := count_intercalate (splitSpace_ne_nil m) (splitSpace_noSpace m)
  rw [phraseText_splitSpace] at this
  exact this.symm

/-- C63 (violated). The property: only phrases of 12, 15, 18, 21 or 24 words are accepted. A phrase of eight words
is accepted. -/
theorem C63_lengths_violated :
    Samples.phrase8.count 32 + 1 = 8 ∧
    (newSeedFromMnemonic realHashes Samples.phrase8 [] (some EnglishWordlist)).1 = .ok none :=
  ⟨by decide +kernel, Samples.seed8⟩

/-- C63, what remains true: the number of words of an accepted phrase is a multiple of eight. Missing from the full
property: that it is one of the five BIP-39 lengths. -/
theorem C63_multiple_of_eight_partial (H : Hashes) (mnemonic passphrase : GoString) (wl : List GoString)
    (hl : wl.length ≤ 2048) (seed : Option Bytes)
    (h : (newSeedFromMnemonic H mnemonic passphrase (some wl)).1 = .ok seed) :
    (mnemonic.count 32 + 1) % 8 = 0 := by
  rw [← length_splitSpace]
  by_cases hw : ∀ w ∈ splitSpace mnemonic, w ∈ wl
  · by_contra h8
    by_cases h4 : (splitSpace mnemonic).length % 4 = 0
    · rw [newSeed_odd H passphrase hl hw (by omega)] at h
      simp at h
    · rw [newSeed_panic H passphrase hl hw h4] at h
      simp at h
  · push Not at hw
    obtain ⟨w, h1, h2⟩ := hw
    rw [newSeed_unknown H passphrase (wl := some wl) h1 h2] at h
    simp at h

example : (Samples.phrase8.count 32 + 1) % 8 = 0 :=
  C63_multiple_of_eight_partial realHashes _ [] EnglishWordlist (by rw [Samples.english.size]) none Samples.seed8

/-- C63 (violated). Every multiple of eight has accepted phrases: 8, 16, 24, 32, 40, … words. -/
theorem C63_every_multiple_accepted (H : Hashes) (passphrase : GoString) (wl : List GoString) (hwl : IsWordlist wl)
    (j : Nat) (hj : 0 < j) (body : Bytes) (hb : body.length + 1 = 11 * j) :
    ∃ ws, ws.length = 8 * j ∧ (∃ ck, SpellsBits wl ws (bytesBits (body ++ [ck]))) ∧
      (newSeedFromMnemonic H (phraseText ws) passphrase (some wl)).1 = .ok none := by
  have hl := H.sha_len body
  obtain ⟨ck, hck⟩ : ∃ ck, (H.sha256 body).take 1 = [ck] := by
    match hh : H.sha256 body, hl with
    | x :: xs, _ => exact ⟨x, rfl⟩
  obtain ⟨ws, h1, h2⟩ := exists_words (wl := wl) (by rw [hwl.size]) (8 * j) (bytesBits (body ++ [ck]))
    (by rw [length_bytesBits]; simp; omega)
  refine ⟨ws, h1, ⟨ck, h2⟩, ?_⟩
  rw [newSeed_of_spells H passphrase hwl (by rintro rfl; simp at h1; omega) (by omega) h2, if_pos hck]

/-- 1024 words. -/
example : ∃ ws : List GoString, ws.length = 8 * 128 ∧
    (∃ ck, SpellsBits EnglishWordlist ws (bytesBits (List.replicate 1407 5 ++ [ck]))) ∧
    (newSeedFromMnemonic realHashes (phraseText ws) [] (some EnglishWordlist)).1 = .ok none :=
  C63_every_multiple_accepted realHashes [] _ Samples.english 128 (by omega) (List.replicate 1407 5) (by simp)

/-! ## C69 -/

/-- C69. No text, a leading, a trailing or a doubled space: 'invalid mnemonic', nothing logged. -/
theorem C69_spacing_strict (H : Hashes) (mnemonic passphrase : GoString) (wl : List GoString)
    (hne : ∀ w ∈ wl, w ≠ [])
    (h : mnemonic = [] ∨ mnemonic.head? = some 32 ∨ mnemonic.getLast? = some 32 ∨ [32, 32] <:+: mnemonic) :
    newSeedFromMnemonic H mnemonic passphrase (some wl) = (.err .invalidMnemonic, []) :=
  newSeed_unknown H passphrase (wl := some wl) (nil_mem_splitSpace h) fun hm => hne _ hm rfl

/-- C69. For the shipped lists. -/
theorem C69_spacing_shipped (H : Hashes) (mnemonic passphrase : GoString) (wl : List GoString)
    (hwl : wl ∈ shippedLists)
    (h : mnemonic = [] ∨ mnemonic.head? = some 32 ∨ mnemonic.getLast? = some 32 ∨ [32, 32] <:+: mnemonic) :
    newSeedFromMnemonic H mnemonic passphrase (some wl) = (.err .invalidMnemonic, []) :=
  C69_spacing_strict H mnemonic passphrase wl (C55_wordlists_well_formed wl hwl).2 h

/-- The accepted phrase with a trailing space. -/
example : newSeedFromMnemonic realHashes (Samples.phrase8 ++ [32]) [] (some EnglishWordlist) =
    (.err .invalidMnemonic, []) :=
  C69_spacing_shipped _ _ _ _ (by simp [shippedLists]) (.inr (.inr (.inl (by simp))))

/-! ## C70 -/

/-- C70. Any byte other than the space that occurs in no word of the list: 'invalid mnemonic'. -/
theorem C70_foreign_byte (H : Hashes) (mnemonic passphrase : GoString) (wl : List GoString) (b : UInt8)
    (hb : b ∈ mnemonic) (h32 : b ≠ 32) (hf : ∀ w ∈ wl, b ∉ w) :
    newSeedFromMnemonic H mnemonic passphrase (some wl) = (.err .invalidMnemonic, []) := by
  obtain ⟨u, v, rfl⟩ := List.append_of_mem hb
  obtain ⟨w, h1, h2⟩ := infix_splitSpace (t := [b]) (by simp) (by simpa using fun e => h32 e.symm) (u ++ b :: v)
    ⟨u, v, by simp⟩
  exact newSeed_unknown H passphrase (wl := some wl) h1 fun hm => hf w hm (by simpa using h2.subset)

theorem plain_lift {ps : List Nat} (h : ps.all (allBytesNat plainByte 64) = true) :
    ∀ w ∈ unpackWords ps, ∀ c ∈ w, plainByte c.toNat = true := by
  intro w hw
  obtain ⟨p, hp, rfl⟩ := List.mem_map.1 hw
  exact allBytesNat_bytes _ _ _ (List.all_eq_true.1 h p hp)

theorem plain_shipped : ∀ wl ∈ shippedLists, ∀ w ∈ wl, ∀ c ∈ w, plainByte c.toNat = true := by
  intro wl h
  simp only [shippedLists, List.mem_cons, List.not_mem_nil, or_false] at h
  rcases h with rfl | rfl | rfl | rfl | rfl | rfl | rfl | rfl | rfl
  · exact plain_lift plain_English
  · exact plain_lift plain_French
  · exact plain_lift plain_Japanese
  · exact plain_lift plain_Italian
  · exact plain_lift plain_Spanish
  · exact plain_lift plain_Korean
  · exact plain_lift plain_Czech
  · exact plain_lift plain_ChineseTraditional
  · exact plain_lift plain_ChineseSimplified

/-- C70. With a shipped list, one ASCII capital or one control character (tab, line feed, carriage return, …)
anywhere makes the phrase invalid. -/
theorem C70_case_and_control (H : Hashes) (mnemonic passphrase : GoString) (wl : List GoString)
    (hwl : wl ∈ shippedLists) (b : UInt8) (hb : b ∈ mnemonic)
    (h : (65 ≤ b.toNat ∧ b.toNat ≤ 90) ∨ b.toNat < 32 ∨ b.toNat = 127) :
    newSeedFromMnemonic H mnemonic passphrase (some wl) = (.err .invalidMnemonic, []) := by
  refine C70_foreign_byte H mnemonic passphrase wl b hb ?_ ?_
  · rintro rfl
    simp at h
  · intro w hw hbw
    have := plain_shipped wl hwl w hw b hbw
    simp only [plainByte, Bool.and_eq_true, Bool.not_eq_true', ← Bool.not_eq_true, Nat.ble_eq, Nat.beq_eq] at this
    omega

/-- The accepted eight-word phrase with a capital first letter or a final line feed. -/
example : newSeedFromMnemonic realHashes (90 :: Samples.phrase8.tail) [] (some EnglishWordlist) =
      (.err .invalidMnemonic, []) ∧
    newSeedFromMnemonic realHashes (Samples.phrase8 ++ [10]) [] (some EnglishWordlist) =
      (.err .invalidMnemonic, []) :=
  ⟨C70_case_and_control _ _ _ _ (by simp [shippedLists]) 90 (by simp) (by decide),
    C70_case_and_control _ _ _ _ (by simp [shippedLists]) 10 (by simp) (by decide)⟩

/-! ## C71 -/

/-- C71. `NewMnemonic` reads exactly the bytes of the entropy; the phrase does not depend on the rest of the
source. -/
theorem C71_mnemonic_local (H : Hashes) (rd rd' : Reader) (n : Nat) (wl : List GoString) (phrase : GoString)
    (hn : n ∈ [12, 15, 18, 21, 24]) (h : newMnemonic H rd n (some wl) = .ok (phrase, rd')) :
    ∃ used, rd = used ++ rd' ∧ used.length = n / 3 * 4 ∧
      ∀ rest, newMnemonic H (used ++ rest) n (some wl) = .ok (phrase, rest) := by
  obtain ⟨c, h1, h2, rfl⟩ := count_cases hn
  rw [newMnemonic_eq H rd wl h1 h2] at h
  split at h
  · rename_i hl
    have he : (rd.take (4 * c)).length = 4 * c := by simp; omega
    cases hp : phraseOf H (32 * c) (bytesToNat (rd.take (4 * c))) wl with
    | err e => rw [hp] at h; simp [Res.bind] at h
    | panic p => rw [hp] at h; simp [Res.bind] at h
    | ok ph =>
    rw [hp] at h
    simp only [Res.bind, Res.ok.injEq, Prod.mk.injEq] at h
    obtain ⟨rfl, rfl⟩ := h
    refine ⟨rd.take (4 * c), (List.take_append_drop _ _).symm, by omega, fun rest => ?_⟩
    rw [newMnemonic_eq H _ wl h1 h2, if_pos (by rw [List.length_append, he]; omega),
      List.take_append_of_le_length (by omega), List.take_of_length_le (l := rd.take (4 * c)) (by omega), hp,
      List.drop_append_of_le_length (by omega), List.drop_of_length_le (by omega)]
    rfl
  · simp at h

example (rest : Reader) :
    newMnemonic realHashes (Samples.ent32 ++ rest) 24 (some EnglishWordlist) = .ok (Samples.phrase32, rest) := by
  obtain ⟨used, h1, -, h3⟩ := C71_mnemonic_local realHashes _ _ 24 _ _ (by decide) Samples.new32
  rw [List.append_nil] at h1
  rw [h1]
  exact h3 rest

/-! ## C76 -/

theorem phraseLoop_take {wl : List GoString} {bits : List Bool} :
    ∀ (n i : Nat), i + 11 * n = bits.length →
      phraseLoop (wl.take 2048) (bitsNumber bits) n i = phraseLoop wl (bitsNumber bits) n i := by
  intro n
  induction n with
  | zero => intro i _; rfl
  | succ n ih =>
    intro i hi
    have hne : (bits.reverse.drop i).take 11 ≠ [] := by
      intro h0
      have := congrArg List.length h0
      simp at this
      omega
    have hlt : bitsNumber ((bits.reverse.drop i).take 11) < 2048 := by
      have := bitsNumber_lt ((bits.reverse.drop i).take 11)
      rwa [show ((bits.reverse.drop i).take 11).length = 11 by simp; omega] at this
    rw [phraseLoop, phraseLoop, bitString_eq (by omega), bigSetString_bits hne, ih (i + 11) (by omega)]
    simp only [deref_some, Res.bind_ok, index, Int.natCast_nonneg, if_true, Int.toNat_natCast,
      List.getElem?_take_of_lt hlt]

/-- C76. Only the first 2048 entries of the word list matter to `NewMnemonic`. -/
theorem C76_prefix_only (H : Hashes) (rd : Reader) (words : Int) (wl : List GoString) :
    newMnemonic H rd words (some (wl.take 2048)) = newMnemonic H rd words (some wl) := by
  by_cases h : words ∈ ([12, 15, 18, 21, 24] : List Int)
  · have : ∃ c : Nat, 4 ≤ c ∧ c ≤ 8 ∧ words = ((3 * c : Nat) : Int) := by
      simp only [List.mem_cons, List.not_mem_nil, or_false] at h
      rcases h with rfl | rfl | rfl | rfl | rfl
      · exact ⟨4, by omega, by omega, rfl⟩
      · exact ⟨5, by omega, by omega, rfl⟩
      · exact ⟨6, by omega, by omega, rfl⟩
      · exact ⟨7, by omega, by omega, rfl⟩
      · exact ⟨8, by omega, by omega, rfl⟩
    obtain ⟨c, h1, h2, rfl⟩ := this
    rw [newMnemonic_eq H rd _ h1 h2, newMnemonic_eq H rd _ h1 h2]
    split
    · rename_i hl
      have he : (rd.take (4 * c)).length = 4 * c := by simp; omega
      obtain ⟨p1, p2⟩ := phraseOf_eq H wl h1 he
      obtain ⟨q1, q2⟩ := phraseOf_eq H (wl.take 2048) h1 he
      rcases Nat.lt_or_ge (bytesToNat (H.sha256 ((rd.take (4 * c)).dropWhile (· == 0)))) (2 ^ (c - 1)) with h3 | h3
      · rw [p1 h3, q1 h3]
      · obtain ⟨hcl, p3⟩ := p2 h3
        rw [p3, (q2 h3).2, phraseLoop_take]
        rw [List.length_append, hcl, length_bytesBits, he]; omega
    · rfl
  · rw [C44_unsupported_count H rd words _ h, C44_unsupported_count H rd words _ h]

/-- Appending a 2049th word changes nothing. -/
example : newMnemonic realHashes Samples.ent32 24 (some (EnglishWordlist ++ [asc "bitcoin"])) =
    .ok (Samples.phrase32, []) := by
  rw [← C76_prefix_only, List.take_left' Samples.english.size]
  exact Samples.new32

/-! ## C81 -/

/-- C81 (violated). The property: `NewMnemonic` answers a word list that is too short with the error 'invalid
wordlist'. An empty list crashes it, … -/
theorem C81_short_list_violated :
    newMnemonic realHashes Samples.ent32 24 (some []) = .panic .indexRange := by decide +kernel

/-- … and that error is only ever returned for nil. -/
theorem C81_error_iff_nil (H : Hashes) (rd : Reader) (words : Int) (wl : Option (List GoString)) :
    newMnemonic H rd words wl = .err .invalidWordlist ↔ wl = none := by
  cases wl with
  | none => simp [newMnemonic]
  | some wl =>
    simp only [reduceCtorEq, iff_false]
    by_cases h : words ∈ ([12, 15, 18, 21, 24] : List Int)
    · exact (C44_only_then H rd words wl h).2
    · rw [C44_unsupported_count H rd words wl h]
      simp

/-- C81: no list, and a list of one word. -/
example : newMnemonic realHashes Samples.ent32 24 none = .err .invalidWordlist ∧
    newMnemonic realHashes Samples.ent32 24 (some [asc "zoo"]) ≠ .err .invalidWordlist :=
  ⟨(C81_error_iff_nil realHashes _ _ _).2 rfl, fun h => by have := (C81_error_iff_nil realHashes _ _ _).1 h; cases this⟩

/-- C81, what remains true: whatever the list, a supported count and enough random bytes, `NewMnemonic` returns
list words or crashes; it never returns an error. Missing from the full property: the error for lists of fewer
than 2048 words. -/
theorem C81_no_error_partial (H : Hashes) (rd : Reader) (n : Nat) (wl : List GoString)
    (hn : n ∈ [12, 15, 18, 21, 24]) (hl : n / 3 * 4 ≤ rd.length) :
    (∃ ws, ws.length = n ∧ (∀ w ∈ ws, w ∈ wl) ∧
      newMnemonic H rd n (some wl) = .ok (phraseText ws, rd.drop (n / 3 * 4))) ∨
    (∃ p, newMnemonic H rd n (some wl) = .panic p) := by
  cases h : newMnemonic H rd n (some wl) with
  | ok r =>
    obtain ⟨phrase, rd'⟩ := r
    obtain ⟨ent, ws, check, h1, h2, h3, rfl, -, -, h7⟩ := C47_exact_encoding H rd rd' n wl phrase hn h
    left
    refine ⟨ws, h3, h7.mem, ?_⟩
    rw [h1, List.drop_left' h2]
  | panic p => exact .inr ⟨p, rfl⟩
  | err e =>
    exfalso
    obtain ⟨c, h1, h2, rfl⟩ := count_cases hn
    rw [newMnemonic_eq H rd wl h1 h2, if_pos (by omega)] at h
    have he : (rd.take (4 * c)).length = 4 * c := by simp; omega
    obtain ⟨p1, p2⟩ := phraseOf_eq H wl h1 he
    rcases Nat.lt_or_ge (bytesToNat (H.sha256 ((rd.take (4 * c)).dropWhile (· == 0)))) (2 ^ (c - 1)) with h3 | h3
    · rw [p1 h3] at h; simp [Res.bind] at h
    · obtain ⟨hcl, p3⟩ := p2 h3
      rw [p3] at h
      rcases phraseLoop_total (wl := wl)
        (bits := bytesBits (rd.take (4 * c)) ++ codeChecksum H.sha256 (rd.take (4 * c)) c) (3 * c) 0
        (by rw [List.length_append, hcl, length_bytesBits, he]; omega) with ⟨ws, h5⟩ | ⟨_, h5⟩
      · rw [h5] at h; simp [Res.bind] at h
      · rw [h5] at h; simp [Res.bind] at h

example : ∃ p, newMnemonic realHashes Samples.ent32 24 (some []) = .panic p := by
  rcases C81_no_error_partial realHashes Samples.ent32 24 [] (by decide) (by decide) with ⟨ws, -, -, h⟩ | h
  · exact absurd (C81_short_list_violated.symm.trans h) (by simp)
  · exact h

/-! ## C80 -/

/-- Words separated by the ideographic space U+3000, as BIP-39 prescribes for Japanese. -/
def Spec.wideText (ws : List GoString) : GoString := [0xE3, 0x80, 0x80].intercalate ws

/-- C80 (violated). Any text with an ideographic space is rejected with the Japanese list. -/
theorem C80_wide_rejected (H : Hashes) (mnemonic passphrase : GoString)
    (h : [0xE3, 0x80, 0x80] <:+: mnemonic) :
    newSeedFromMnemonic H mnemonic passphrase (some JapaneseWordlist) = (.err .invalidMnemonic, []) := by
  obtain ⟨w, h1, h2⟩ := infix_splitSpace (t := [0xE3, 0x80, 0x80]) (by simp) (by decide) mnemonic h
  refine newSeed_unknown H passphrase (wl := some JapaneseWordlist) h1 fun hm => ?_
  obtain ⟨p, hp, rfl⟩ := List.mem_map.1 (show w ∈ unpackWords JapaneseWordlistPacked from hm)
  exact noWideNat_bytes 64 p (List.all_eq_true.1 noWide_Japanese p hp) h2

/-- C80 (violated). The property: a Japanese phrase with ideographic spaces is judged like the one with ordinary
spaces. For every entropy of 32 bytes the phrase with ordinary spaces is accepted and the other one rejected. -/
theorem C80_ideographic_space_violated (H : Hashes) (ent : Bytes) (passphrase : GoString) (hent : ent.length = 32) :
    ∃ ws, IsBip39 H.sha256 JapaneseWordlist ent ws ∧
      (newSeedFromMnemonic H (phraseText ws) passphrase (some JapaneseWordlist)).1 = .ok none ∧
      (newSeedFromMnemonic H (wideText ws) passphrase (some JapaneseWordlist)).1 = .err .invalidMnemonic := by
  have hwl : IsWordlist JapaneseWordlist := (isWordlist_of_check check_Japanese).1
  obtain ⟨ws, h1, h2⟩ := C51_every_entropy_has_phrase H ent JapaneseWordlist hwl hent
  refine ⟨ws, h2, C51_accepts_all_bip39 H ent ws passphrase JapaneseWordlist hwl hent h2, ?_⟩
  rw [C80_wide_rejected]
  match ws, h1 with
  | a :: b :: ws, _ =>
    refine ⟨a, wideText (b :: ws), ?_⟩
    rw [wideText, wideText, List.intercalate_cons_cons]

/-- C80, what remains true: with ordinary spaces Japanese phrases are judged by their BIP-39 checksum. Missing from
the full property: ideographic spaces. -/
theorem C80_ascii_space_partial (H : Hashes) (ws : List GoString) (passphrase : GoString) (hlen : ws.length = 24)
    (hw : ∀ w ∈ ws, w ∈ JapaneseWordlist) :
    (newSeedFromMnemonic H (phraseText ws) passphrase (some JapaneseWordlist)).1 = .ok none ↔
      ∃ ent, IsBip39 H.sha256 JapaneseWordlist ent ws :=
  (C51_accepts_iff_bip39 H ws passphrase JapaneseWordlist (isWordlist_of_check check_Japanese).1 hlen hw).1

/-- C80: a text with an ideographic space is refused; with ASCII spaces, a phrase of the bytes 0, 1, …, 31 is accepted. -/
example : newSeedFromMnemonic realHashes ([0xE3, 0x80, 0x80] ++ asc "x") [] (some JapaneseWordlist) = (.err .invalidMnemonic, []) ∧
    ∃ ws, (newSeedFromMnemonic realHashes (phraseText ws) [] (some JapaneseWordlist)).1 = .ok none := by
  refine ⟨C80_wide_rejected realHashes _ _ ⟨[], asc "x", by simp⟩, ?_⟩
  obtain ⟨ws, -, h, -⟩ := C80_ideographic_space_violated realHashes Samples.ent32 [] (by decide +kernel)
  exact ⟨ws, h⟩

end Btc
