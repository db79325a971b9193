import Verif.Proofs.Phrase
import Verif.Props.Words

/-!
# C44 – C54: mnemonics
-/

namespace Btc

open Spec

namespace Samples

/-- mnemonic_test.go:11: the phrase of the repository's test (24 words). -/
def phraseA : GoString :=
  asc "march assault engine warrior talent swarm pluck job prepare knife pipe man student dice receive analyst salute art clean wood enemy tourist lunch like"

/-- Eight words with a matching check byte; BIP-39 has no eight-word phrases. -/
def phrase8 : GoString := asc "zoo zoo zoo zoo zoo zoo zoo attract"

/-- Thirty-two bytes of entropy: 0, 1, …, 31. -/
def ent32 : Bytes := (List.range 32).map UInt8.ofNat

/-- Entropy whose phrase happens to pass the check of `NewSeedFromMnemonic`. -/
def entLucky : Bytes := 0x8e :: (List.replicate 30 0 ++ [0x0e])

/-- What `NewMnemonic` returns for `ent32`. -/
def phrase32 : GoString :=
  asc "avocado sense come immune machine equal glove artist popular edge banana avoid monitor debate school borrow explain letter day scout acoustic gasp acoustic abandon"

/-- What `NewMnemonic` returns for `entLucky`. -/
def phraseLucky : GoString :=
  asc "hidden length abandon abandon abandon abandon abandon abandon abandon abandon abandon abandon abandon abandon abandon abandon abandon abandon abandon abandon abandon abandon abandon athlete"

theorem new32 : newMnemonic realHashes ent32 24 (some EnglishWordlist) = .ok (phrase32, []) := by decide +kernel

theorem newLucky : newMnemonic realHashes entLucky 24 (some EnglishWordlist) = .ok (phraseLucky, []) := by
  decide +kernel

theorem seedA : (newSeedFromMnemonic realHashes phraseA [] (some EnglishWordlist)).1 = .ok none := by decide +kernel

theorem seed8 : (newSeedFromMnemonic realHashes phrase8 [] (some EnglishWordlist)).1 = .ok none := by decide +kernel

theorem seed32 : (newSeedFromMnemonic realHashes phrase32 [] (some EnglishWordlist)).1 = .err .invalidChecksum := by
  decide +kernel

theorem seedLucky : (newSeedFromMnemonic realHashes phraseLucky [] (some EnglishWordlist)).1 = .ok none := by
  decide +kernel

theorem english : IsWordlist EnglishWordlist := (isWordlist_of_check check_English).1

end Samples

/-- The supported word counts. -/
theorem count_cases {n : Nat} (h : n ∈ [12, 15, 18, 21, 24]) : ∃ c, 4 ≤ c ∧ c ≤ 8 ∧ n = 3 * c := by
  simp only [List.mem_cons, List.not_mem_nil, or_false] at h
  rcases h with rfl | rfl | rfl | rfl | rfl
  · exact ⟨4, by omega, by omega, rfl⟩
  · exact ⟨5, by omega, by omega, rfl⟩
  · exact ⟨6, by omega, by omega, rfl⟩
  · exact ⟨7, by omega, by omega, rfl⟩
  · exact ⟨8, by omega, by omega, rfl⟩

/-! ## C44 -/

/-- C44. Without a word list: the 'invalid wordlist' error, whatever the count. -/
theorem C44_nil_wordlist (H : Hashes) (rd : Reader) (words : Int) :
    newMnemonic H rd words none = .err .invalidWordlist := rfl

/-- C44. An unsupported count is an error for every list and every state of the random source (even an
exhausted one, so nothing is read). -/
theorem C44_unsupported_count (H : Hashes) (rd : Reader) (words : Int) (wl : List GoString)
    (h : words ∉ ([12, 15, 18, 21, 24] : List Int)) :
    newMnemonic H rd words (some wl) = .err .unsupportedMnemonicLength := by
  simp only [List.mem_cons, List.not_mem_nil, or_false, not_or] at h
  simp [newMnemonic, entropyLengthOf, h]

/-- C44. These errors occur in no other case. -/
theorem C44_only_then (H : Hashes) (rd : Reader) (words : Int) (wl : List GoString)
    (h : words ∈ ([12, 15, 18, 21, 24] : List Int)) :
    newMnemonic H rd words (some wl) ≠ .err .unsupportedMnemonicLength ∧
    newMnemonic H rd words (some wl) ≠ .err .invalidWordlist := by
  have : ∃ c : Nat, 4 ≤ c ∧ c ≤ 8 ∧ words = ((3 * c : Nat) : Int) := by
    simp only [List.mem_cons, List.not_mem_nil, or_false] at h
    rcases h with rfl | rfl | rfl | rfl | rfl
    · exact ⟨4, by omega, by omega, rfl⟩
    · exact ⟨5, by omega, by omega, rfl⟩
    · exact ⟨6, by omega, by omega, rfl⟩
    · exact ⟨7, by omega, by omega, rfl⟩
    · exact ⟨8, by omega, by omega, rfl⟩
  obtain ⟨c, h1, h2, rfl⟩ := this
  rw [newMnemonic_eq H rd wl h1 h2]
  split
  · rename_i hl
    have he : (rd.take (4 * c)).length = 4 * c := by simp; omega
    obtain ⟨p1, p2⟩ := phraseOf_eq H wl h1 he
    rcases Nat.lt_or_ge (bytesToNat (H.sha256 ((rd.take (4 * c)).dropWhile (· == 0)))) (2 ^ (c - 1)) with h | h
    · rw [p1 h]; simp [Res.bind]
    · obtain ⟨hcl, p3⟩ := p2 h
      rw [p3]
      rcases phraseLoop_total (wl := wl)
        (bits := bytesBits (rd.take (4 * c)) ++ codeChecksum H.sha256 (rd.take (4 * c)) c) (3 * c) 0
        (by rw [List.length_append, hcl, length_bytesBits, he]; omega) with ⟨ws, h5⟩ | ⟨_, h5⟩
      · rw [h5]; simp [Res.bind]
      · rw [h5]; simp [Res.bind]
  · simp

example : newMnemonic realHashes [] 13 (some EnglishWordlist) = .err .unsupportedMnemonicLength :=
  C44_unsupported_count realHashes [] 13 EnglishWordlist (by decide)

/-! ## C47 (used by C45 and C46) -/

/-- C47. The phrase spells the reversed bits of entropy and checksum; the entropy is what was read. The
checksum comes from the hash of the entropy without its leading zero bytes, without the leading zero bits of the
hash. -/
theorem C47_exact_encoding (H : Hashes) (rd rd' : Reader) (n : Nat) (wl : List GoString) (phrase : GoString)
    (hn : n ∈ [12, 15, 18, 21, 24]) (h : newMnemonic H rd n (some wl) = .ok (phrase, rd')) :
    ∃ ent ws check, rd = ent ++ rd' ∧ ent.length = n / 3 * 4 ∧ ws.length = n ∧ phrase = phraseText ws ∧
      check = ((bytesBits (H.sha256 (ent.dropWhile (· == 0)))).dropWhile (· == false)).take (n / 3) ∧
      check.length = n / 3 ∧ SpellsBits wl ws (bytesBits ent ++ check).reverse := by
  obtain ⟨c, h1, h2, rfl⟩ := count_cases hn
  rw [newMnemonic_eq H rd wl h1 h2] at h
  split at h
  · rename_i hl
    have he : (rd.take (4 * c)).length = 4 * c := by simp; omega
    obtain ⟨p1, p2⟩ := phraseOf_eq H wl h1 he
    rcases Nat.lt_or_ge (bytesToNat (H.sha256 ((rd.take (4 * c)).dropWhile (· == 0)))) (2 ^ (c - 1)) with h3 | h3
    · rw [p1 h3] at h; simp [Res.bind] at h
    · obtain ⟨hcl, p3⟩ := p2 h3
      rw [p3] at h
      have htl : (bytesBits (rd.take (4 * c)) ++ codeChecksum H.sha256 (rd.take (4 * c)) c).length = 11 * (3 * c) := by
        rw [List.length_append, hcl, length_bytesBits, he]; omega
      rcases phraseLoop_total (wl := wl)
        (bits := bytesBits (rd.take (4 * c)) ++ codeChecksum H.sha256 (rd.take (4 * c)) c) (3 * c) 0
        (by omega) with ⟨ws, h5⟩ | ⟨_, h5⟩
      · rw [h5] at h
        simp only [Res.bind, Res.ok.injEq, Prod.mk.injEq] at h
        have hs := phraseLoop_ok (3 * c) 0 ws (by omega) h5
        rw [List.drop_zero] at hs
        refine ⟨rd.take (4 * c), ws, codeChecksum H.sha256 (rd.take (4 * c)) c, ?_, ?_, ?_, h.1.symm, ?_, ?_, hs⟩
        · rw [← h.2, List.take_append_drop]
        · rw [he]; omega
        · have := hs.length
          rw [List.length_reverse, htl] at this
          omega
        · rw [codeChecksum, show 3 * c / 3 = c by omega]
        · rw [hcl]; omega
      · rw [h5] at h; simp [Res.bind] at h
  · simp at h

/-- Word 0 of the phrase for the entropy 0, 1, …, 31 is "avocado", number 127 = 00001111111 in binary: the last
checksum bits and the last entropy bits, backwards. -/
example : ∃ ent ws check, Samples.ent32 = ent ++ [] ∧ ent.length = 24 / 3 * 4 ∧ ws.length = 24 ∧
    Samples.phrase32 = phraseText ws ∧
    check = ((bytesBits (realHashes.sha256 (ent.dropWhile (· == 0)))).dropWhile (· == false)).take (24 / 3) ∧
    check.length = 24 / 3 ∧ SpellsBits EnglishWordlist ws (bytesBits ent ++ check).reverse :=
  C47_exact_encoding realHashes Samples.ent32 [] 24 EnglishWordlist Samples.phrase32 (by decide) Samples.new32

/-! ## C45 -/

/-- C45. The three outcomes for a supported count and a list of at least 2048 words. -/
theorem C45_outcomes (H : Hashes) (rd : Reader) (n : Nat) (wl : List GoString) (hn : n ∈ [12, 15, 18, 21, 24])
    (hl : 2048 ≤ wl.length) :
    (rd.length < n / 3 * 4 → newMnemonic H rd n (some wl) = .err .randRead) ∧
    (n / 3 * 4 ≤ rd.length → bigEndian (H.sha256 ((rd.take (n / 3 * 4)).dropWhile (· == 0))) < 2 ^ (n / 3 - 1) →
      newMnemonic H rd n (some wl) = .panic .sliceBounds) ∧
    (n / 3 * 4 ≤ rd.length → 2 ^ (n / 3 - 1) ≤ bigEndian (H.sha256 ((rd.take (n / 3 * 4)).dropWhile (· == 0))) →
      ∃ ws, ws.length = n ∧ (∀ w ∈ ws, w ∈ wl) ∧
        newMnemonic H rd n (some wl) = .ok (phraseText ws, rd.drop (n / 3 * 4))) := by
  obtain ⟨c, h1, h2, rfl⟩ := count_cases hn
  have e : 3 * c / 3 * 4 = 4 * c := by omega
  have e3 : 3 * c / 3 = c := by omega
  rw [e, e3, newMnemonic_eq H rd wl h1 h2, bigEndian_eq]
  refine ⟨fun h => ?_, fun h h' => ?_, fun h h' => ?_⟩
  · rw [if_neg (by omega)]
  all_goals
    have he : (rd.take (4 * c)).length = 4 * c := by simp; omega
    obtain ⟨p1, p2⟩ := phraseOf_eq H wl h1 he
    rw [if_pos h]
  · rw [p1 h']; rfl
  · obtain ⟨hcl, p3⟩ := p2 h'
    have htl : (bytesBits (rd.take (4 * c)) ++ codeChecksum H.sha256 (rd.take (4 * c)) c).length = 11 * (3 * c) := by
      rw [List.length_append, hcl, length_bytesBits, he]; omega
    rcases phraseLoop_total (wl := wl)
      (bits := bytesBits (rd.take (4 * c)) ++ codeChecksum H.sha256 (rd.take (4 * c)) c) (3 * c) 0
      (by omega) with ⟨ws, h5⟩ | ⟨h5, _⟩
    · have hs := phraseLoop_ok (3 * c) 0 ws (by omega) h5
      rw [List.drop_zero] at hs
      refine ⟨ws, ?_, hs.mem, by rw [p3, h5]; rfl⟩
      have := hs.length
      rw [List.length_reverse, htl] at this
      omega
    · omega

theorem count_intercalate {ws : List GoString} (hne : ws ≠ []) (h : ∀ w ∈ ws, (32 : UInt8) ∉ w) :
    (phraseText ws).count 32 + 1 = ws.length := by
  rw [← joinSpace_eq]
  induction ws with
  | nil => exact absurd rfl hne
  | cons w ws ih =>
    have hw : w.count 32 = 0 := List.count_eq_zero.2 (h w (by simp))
    cases ws with
    | nil => simp [joinSpace, hw]
    | cons v vs =>
      have := ih (by simp) (fun u hu => h u (by simp [hu]))
      rw [joinSpace]
      · simp only [List.count_append, List.count_cons_self, hw, List.length_cons] at this ⊢
        omega
      · simp

/-- C45. With space-free words the phrase has exactly one space fewer than words, and splitting it at the spaces
gives back list words. -/
theorem C45_word_count (H : Hashes) (rd rd' : Reader) (n : Nat) (wl : List GoString) (phrase : GoString)
    (hn : n ∈ [12, 15, 18, 21, 24]) (hsp : ∀ w ∈ wl, (32 : UInt8) ∉ w)
    (h : newMnemonic H rd n (some wl) = .ok (phrase, rd')) :
    phrase.count 32 + 1 = n ∧ (splitSpace phrase).length = n ∧ ∀ w ∈ splitSpace phrase, w ∈ wl := by
  obtain ⟨ent, ws, check, -, -, h3, rfl, -, -, h7⟩ := C47_exact_encoding H rd rd' n wl phrase hn h
  have hsp' : ∀ w ∈ ws, (32 : UInt8) ∉ w := fun w hw => hsp w (h7.mem w hw)
  have hne : ws ≠ [] := by
    rintro rfl
    simp only [List.length_nil] at h3
    subst h3
    simp at hn
  rw [splitSpace_phraseText hne hsp', ← h3]
  exact ⟨count_intercalate hne hsp', rfl, h7.mem⟩

example : Samples.phrase32.count 32 + 1 = 24 ∧ (splitSpace Samples.phrase32).length = 24 ∧
    ∀ w ∈ splitSpace Samples.phrase32, w ∈ EnglishWordlist :=
  C45_word_count realHashes Samples.ent32 [] 24 EnglishWordlist Samples.phrase32 (by decide) Samples.english.noSpace
    Samples.new32

/-- A hash function for which the second outcome occurs: all-zero digests crash `NewMnemonic`. (A 256-bit
SHA-256 value below 8 is not known.) -/
example : newMnemonic ⟨fun _ => List.replicate 32 0, fun _ => List.replicate 20 0, id, fun _ => by simp,
    fun _ => by simp⟩ Samples.ent32 12 (some EnglishWordlist) = .panic .sliceBounds :=
  (C45_outcomes _ _ 12 _ (by decide) (by rw [Samples.english.size])).2.1 (by decide +kernel) (by decide +kernel)

/-- The first outcome: fifteen bytes are not enough for twelve words. -/
example : newMnemonic realHashes (List.replicate 15 7) 12 (some EnglishWordlist) = .err .randRead :=
  (C45_outcomes _ _ 12 _ (by decide) (by rw [Samples.english.size])).1 (by decide)

/-! ## C46 -/

/-- C46. Two calls with the same count return the same phrase only if they read the same entropy. -/
theorem C46_phrase_determines_entropy (H : Hashes) (rd1 rd1' rd2 rd2' : Reader) (n : Nat) (wl : List GoString)
    (phrase : GoString) (hn : n ∈ [12, 15, 18, 21, 24]) (hnd : wl.Nodup) (hsp : ∀ w ∈ wl, (32 : UInt8) ∉ w)
    (h1 : newMnemonic H rd1 n (some wl) = .ok (phrase, rd1'))
    (h2 : newMnemonic H rd2 n (some wl) = .ok (phrase, rd2')) :
    rd1.take (n / 3 * 4) = rd2.take (n / 3 * 4) := by
  obtain ⟨e1, w1, c1, a1, a2, a3, a4, -, a6, a7⟩ := C47_exact_encoding H rd1 rd1' n wl phrase hn h1
  obtain ⟨e2, w2, c2, b1, b2, b3, b4, -, b6, b7⟩ := C47_exact_encoding H rd2 rd2' n wl phrase hn h2
  have hne : ∀ ws : List GoString, ws.length = n → ws ≠ [] := by
    rintro _ h rfl
    simp only [List.length_nil] at h
    subst h
    simp at hn
  have hw : w1 = w2 := by
    rw [← splitSpace_phraseText (hne w1 a3) fun w hw => hsp w (a7.mem w hw), ← a4, b4,
      splitSpace_phraseText (hne w2 b3) fun w hw => hsp w (b7.mem w hw)]
  subst hw
  have hb := List.reverse_injective (a7.bits_unique hnd b7)
  have he := (List.append_inj hb (by simp [a2, b2])).1
  have := bytesBits_inj he
  subst this
  rw [a1, b1, ← a2, List.take_left, List.take_left]

/-- C46, contrapositive on concrete data: the two sample phrases differ because the entropies do. -/
example : Samples.phrase32 ≠ Samples.phraseLucky := by
  intro h
  have := C46_phrase_determines_entropy realHashes Samples.ent32 [] Samples.entLucky [] 24 EnglishWordlist
    Samples.phrase32 (by decide) Samples.english.nodup Samples.english.noSpace Samples.new32
    (by rw [h]; exact Samples.newLucky)
  revert this
  decide +kernel

/-! ## C49 -/

/-- C49. An unknown word gives the 'invalid mnemonic' error and an empty log, for every list (also nil). -/
theorem C49_unknown_word_rejected (H : Hashes) (mnemonic passphrase : GoString) (wl : Option (List GoString))
    (before word after : List GoString)
    (hm : mnemonic = phraseText (before ++ word ++ after)) (hw : word ≠ [])
    (hsp : ∀ w ∈ before ++ word ++ after, (32 : UInt8) ∉ w) (hu : ∀ w ∈ word, ∀ l, wl = some l → w ∉ l) :
    newSeedFromMnemonic H mnemonic passphrase wl = (.err .invalidMnemonic, []) := by
  obtain ⟨w, ws, rfl⟩ := List.exists_cons_of_ne_nil hw
  apply newSeed_unknown H passphrase (w := w)
  · rw [hm, splitSpace_phraseText (by simp) hsp]
    simp
  · cases wl with
    | none => simp
    | some l => exact hu w (by simp) l rfl

/-- C49, for the pieces of an arbitrary string: rejected as soon as one is not in the list; in particular the
empty string, doubled spaces and upper-case words are rejected with the shipped lists. -/
theorem C49_unknown_piece_rejected (H : Hashes) (mnemonic passphrase : GoString) (wl : List GoString)
    (h : ∃ w ∈ splitSpace mnemonic, w ∉ wl) :
    newSeedFromMnemonic H mnemonic passphrase (some wl) = (.err .invalidMnemonic, []) := by
  obtain ⟨w, h1, h2⟩ := h
  exact newSeed_unknown H passphrase h1 h2

/-- C49. With at most 2048 words this error occurs only then. -/
theorem C49_only_then (H : Hashes) (mnemonic passphrase : GoString) (wl : List GoString) (hl : wl.length ≤ 2048)
    (h : ∀ w ∈ splitSpace mnemonic, w ∈ wl) :
    (newSeedFromMnemonic H mnemonic passphrase (some wl)).1 ≠ .err .invalidMnemonic := by
  have h1 : (splitSpace mnemonic).length % 4 ≠ 0 ∨ (splitSpace mnemonic).length % 8 = 4 ∨
      (splitSpace mnemonic).length % 8 = 0 := by omega
  rcases h1 with h1 | h1 | h1
  · rw [newSeed_panic H passphrase hl h h1]; simp
  · rw [newSeed_odd H passphrase hl h h1]; simp
  · obtain ⟨body, ck, log, _, _, _, h5⟩ := newSeed_bytes H passphrase hl h h1
    rw [h5]
    split <;> simp

/-- C49: twelve words of the list are refused, but not as unknown. -/
example : (newSeedFromMnemonic realHashes (phraseText (List.replicate 12 (asc "zoo"))) [] (some EnglishWordlist)).1 ≠
    .err .invalidMnemonic :=
  C49_only_then realHashes _ _ EnglishWordlist (by decide +kernel) (by decide +kernel)

example : newSeedFromMnemonic realHashes (asc "zoo bitcoin zoo") [] (some EnglishWordlist) =
    (.err .invalidMnemonic, []) :=
  C49_unknown_word_rejected realHashes _ [] (some EnglishWordlist) [asc "zoo"] [asc "bitcoin"] [asc "zoo"]
    (by decide +kernel) (by simp) (by decide +kernel) (by
      intro w hw l hl
      simp only [List.mem_singleton] at hw
      cases hl
      subst hw
      exact lookupWord_none.1 (by decide +kernel))

/-! ## C50 -/

/-- C50 (violated). For phrases of list words the call crashes exactly when the number of words is not a
multiple of four. -/
theorem C50_crash_iff (H : Hashes) (ws : List GoString) (passphrase : GoString) (wl : List GoString)
    (hl : wl.length ≤ 2048) (hsp : ∀ w ∈ wl, (32 : UInt8) ∉ w) (hne : ws ≠ []) (hw : ∀ w ∈ ws, w ∈ wl) :
    (∃ p, (newSeedFromMnemonic H (phraseText ws) passphrase (some wl)).1 = .panic p) ↔ ws.length % 4 ≠ 0 := by
  have hs := splitSpace_phraseText hne fun w h => hsp w (hw w h)
  have hw' : ∀ w ∈ splitSpace (phraseText ws), w ∈ wl := by rw [hs]; exact hw
  constructor
  · rintro ⟨p, hp⟩ h4
    have h1 : (splitSpace (phraseText ws)).length % 8 = 4 ∨ (splitSpace (phraseText ws)).length % 8 = 0 := by
      rw [hs]; omega
    rcases h1 with h1 | h1
    · rw [newSeed_odd H passphrase hl hw' h1] at hp
      exact absurd hp (by simp)
    · obtain ⟨body, ck, log, _, _, _, h5⟩ := newSeed_bytes H passphrase hl hw' h1
      rw [h5] at hp
      split at hp <;> simp at hp
  · intro h4
    exact ⟨_, newSeed_panic H passphrase hl hw' (by rw [hs]; exact h4)⟩

/-- C50: eighteen words crash it. -/
example : ∃ p, (newSeedFromMnemonic realHashes (phraseText (List.replicate 18 (asc "zoo"))) [] (some EnglishWordlist)).1 = .panic p :=
  (C50_crash_iff realHashes _ _ EnglishWordlist (by decide +kernel) Samples.english.noSpace (by decide +kernel)
    (by decide +kernel)).2 (by decide +kernel)

/-- C50 (violated). Concretely: fifteen times "zoo". -/
theorem C50_never_crashes_violated :
    (newSeedFromMnemonic realHashes (phraseText (List.replicate 15 (asc "zoo"))) [] (some EnglishWordlist)).1 =
      .panic .indexRange := by decide +kernel

/-- C50. Every 12-word phrase (more generally `4 mod 8` words) is rejected with a hex-length error, even with a
correct BIP-39 checksum. -/
theorem C50_twelve_words_rejected (H : Hashes) (ws : List GoString) (passphrase : GoString) (wl : List GoString)
    (hl : wl.length ≤ 2048) (hsp : ∀ w ∈ wl, (32 : UInt8) ∉ w) (hw : ∀ w ∈ ws, w ∈ wl) (h8 : ws.length % 8 = 4) :
    (newSeedFromMnemonic H (phraseText ws) passphrase (some wl)).1 = .err .hexLength := by
  have hne : ws ≠ [] := by rintro rfl; simp at h8
  have hs := splitSpace_phraseText hne fun w h => hsp w (hw w h)
  exact newSeed_odd H passphrase hl (by rw [hs]; exact hw) (by rw [hs]; exact h8)

/-- C50, what remains true: a phrase of a multiple of four list words never crashes. Missing from the full
property: the other word counts, where the code panics (`C50_crash_iff`). -/
theorem C50_no_crash_partial (H : Hashes) (ws : List GoString) (passphrase : GoString) (wl : List GoString)
    (hl : wl.length ≤ 2048) (hsp : ∀ w ∈ wl, (32 : UInt8) ∉ w) (hne : ws ≠ []) (hw : ∀ w ∈ ws, w ∈ wl)
    (h4 : ws.length % 4 = 0) (p : GoPanic) :
    (newSeedFromMnemonic H (phraseText ws) passphrase (some wl)).1 ≠ .panic p := fun hp =>
  (C50_crash_iff H ws passphrase wl hl hsp hne hw).1 ⟨p, hp⟩ h4

/-- The famous test phrase "abandon × 11 about" has a correct BIP-39 checksum and is rejected. -/
example : (newSeedFromMnemonic realHashes (phraseText (List.replicate 11 (asc "abandon") ++ [asc "about"])) []
    (some EnglishWordlist)).1 = .err .hexLength :=
  C50_twelve_words_rejected _ _ _ _ (by rw [Samples.english.size]) Samples.english.noSpace (by
    intro w hw
    rcases List.mem_append.1 hw with h | h
    · rw [(List.mem_replicate.1 h).2]
      exact List.mem_of_getElem? (lookupWord_some (i := 0) (by decide +kernel))
    · rw [List.mem_singleton.1 h]
      exact List.mem_of_getElem? (lookupWord_some (i := 3) (by decide +kernel))) (by decide)

/-! ## C51 -/

/-- The result for a multiple of eight words whose bits are known. -/
theorem newSeed_of_spells (H : Hashes) {ws : List GoString} (p : GoString) {wl : List GoString}
    (hwl : IsWordlist wl) (hne : ws ≠ []) (h8 : ws.length % 8 = 0) {body : Bytes} {ck : UInt8}
    (hb : SpellsBits wl ws (bytesBits (body ++ [ck]))) :
    (newSeedFromMnemonic H (phraseText ws) p (some wl)).1 =
      if (H.sha256 body).take 1 = [ck] then .ok none else .err .invalidChecksum := by
  have hs := splitSpace_phraseText hne fun w h => hwl.noSpace w (hb.mem w h)
  obtain ⟨body', ck', log, h1, _, _, h4⟩ := newSeed_bytes H (m := phraseText ws) p (by rw [hwl.size])
    (by rw [hs]; exact hb.mem) (by rw [hs]; exact h8)
  rw [hs] at h1
  have := bytesBits_inj (h1.bits_unique hwl.nodup hb)
  obtain ⟨rfl, h5⟩ := List.append_inj' this rfl
  cases h5
  rw [h4]
  split <;> rfl

/-- C51. 24 words are accepted exactly if they are the BIP-39 encoding of some 32 bytes; otherwise the error is
'invalid checksum'. -/
theorem C51_accepts_iff_bip39 (H : Hashes) (ws : List GoString) (passphrase : GoString) (wl : List GoString)
    (hwl : IsWordlist wl) (hlen : ws.length = 24) (hw : ∀ w ∈ ws, w ∈ wl) :
    ((newSeedFromMnemonic H (phraseText ws) passphrase (some wl)).1 = .ok none ↔
      ∃ ent, IsBip39 H.sha256 wl ent ws) ∧
    ((newSeedFromMnemonic H (phraseText ws) passphrase (some wl)).1 = .err .invalidChecksum ↔
      ¬ ∃ ent, IsBip39 H.sha256 wl ent ws) := by
  have hne : ws ≠ [] := by rintro rfl; simp at hlen
  obtain ⟨bits, hb, -⟩ := seedBits_known (by rw [hwl.size]) hw
  have hbl := hb.length
  obtain ⟨all, ha, rfl⟩ := exists_bytes (bits := bits) (k := 33) (by omega)
  have hane : all ≠ [] := by rintro rfl; simp at ha
  obtain ⟨body, ck, rfl⟩ : ∃ body ck, all = body ++ [ck] :=
    ⟨all.dropLast, all.getLast hane, (List.dropLast_append_getLast hane).symm⟩
  have hbody : body.length = 32 := by simp at ha; omega
  have hres := newSeed_of_spells H passphrase hwl hne (by omega) hb
  have key : (∃ ent, IsBip39 H.sha256 wl ent ws) ↔ (H.sha256 body).take 1 = [ck] := by
    have htake : ∀ ent : Bytes, (bytesBits (H.sha256 ent)).take 8 = bytesBits ((H.sha256 ent).take 1) := by
      intro ent
      have hl := H.sha_len ent
      match hh : H.sha256 ent, hl with
      | x :: xs, _ => rfl
    constructor
    · rintro ⟨ent, h1, h2⟩
      have hl2 := h2.length
      rw [List.length_append, length_bytesBits, List.length_take, length_bytesBits, H.sha_len, hlen] at hl2
      have h32 : ent.length = 32 := by
        simp only [List.mem_cons, List.not_mem_nil, or_false] at h1
        omega
      rw [h32, htake, ← bytesBits_append] at h2
      have := bytesBits_inj (h2.bits_unique hwl.nodup hb)
      obtain ⟨rfl, h3⟩ := List.append_inj this (by omega)
      exact h3
    · intro h
      refine ⟨body, by rw [hbody]; decide, ?_⟩
      rw [hbody, htake, h, ← bytesBits_append]
      exact hb
  rw [hres, key]
  by_cases h : (H.sha256 body).take 1 = [ck] <;> simp [h]

/-- C51. Every BIP-39 encoding of 32 bytes of entropy is accepted. -/
theorem C51_accepts_all_bip39 (H : Hashes) (ent : Bytes) (ws : List GoString) (passphrase : GoString)
    (wl : List GoString) (hwl : IsWordlist wl) (he : ent.length = 32) (h : IsBip39 H.sha256 wl ent ws) :
    (newSeedFromMnemonic H (phraseText ws) passphrase (some wl)).1 = .ok none := by
  have hl := h.2.length
  rw [List.length_append, length_bytesBits, List.length_take, length_bytesBits, H.sha_len, he] at hl
  exact (C51_accepts_iff_bip39 H ws passphrase wl hwl (by omega) h.2.mem).1.2 ⟨ent, h⟩

/-- C51. Every 32 bytes of entropy have such an encoding, so there are `2^256` accepted phrases. -/
theorem C51_every_entropy_has_phrase (H : Hashes) (ent : Bytes) (wl : List GoString) (hwl : IsWordlist wl)
    (he : ent.length = 32) : ∃ ws, ws.length = 24 ∧ IsBip39 H.sha256 wl ent ws := by
  obtain ⟨ws, h1, h2⟩ := exists_words (wl := wl) (by rw [hwl.size]) 24
    (bytesBits ent ++ (bytesBits (H.sha256 ent)).take (ent.length / 4)) (by
      rw [List.length_append, length_bytesBits, List.length_take, length_bytesBits, H.sha_len, he]
      rfl)
  exact ⟨ws, h1, by rw [he]; decide, h2⟩

/-- C51: the BIP-39 phrase of 0, 1, …, 31 is accepted. -/
example : ∃ ws, IsBip39 realHashes.sha256 EnglishWordlist Samples.ent32 ws ∧
    (newSeedFromMnemonic realHashes (phraseText ws) [] (some EnglishWordlist)).1 = .ok none := by
  obtain ⟨ws, -, h⟩ := C51_every_entropy_has_phrase realHashes Samples.ent32 EnglishWordlist Samples.english (by decide +kernel)
  exact ⟨ws, h, C51_accepts_all_bip39 realHashes _ ws [] EnglishWordlist Samples.english (by decide +kernel) h⟩

/-- The phrase of the repository's test is the BIP-39 encoding of some entropy. -/
example : ∃ ent, IsBip39 realHashes.sha256 EnglishWordlist ent (splitSpace Samples.phraseA) := by
  refine (C51_accepts_iff_bip39 realHashes _ [] _ Samples.english (by decide +kernel) ?_).1.1 ?_
  · intro w hw
    by_contra h
    have h1 := newSeed_unknown realHashes [] (wl := some EnglishWordlist) hw h
    have h2 := Samples.seedA
    rw [h1] at h2
    exact absurd h2 (by simp)
  · rw [phraseText_splitSpace]
    exact Samples.seedA

/-! ## C52 -/

/-- C52 (violated on every input): whenever there is no error and no crash, the returned seed is nil. -/
theorem C52_seed_always_nil (H : Hashes) (mnemonic passphrase : GoString) (wl : Option (List GoString))
    (seed : Option Bytes) (h : (newSeedFromMnemonic H mnemonic passphrase wl).1 = .ok seed) : seed = none := by
  revert h
  simp only [newSeedFromMnemonic]
  repeat' split
  all_goals simp_all

/-- C52 (violated). The passphrase has no effect at all. -/
theorem C52_passphrase_ignored (H : Hashes) (mnemonic p1 p2 : GoString) (wl : Option (List GoString)) :
    newSeedFromMnemonic H mnemonic p1 wl = newSeedFromMnemonic H mnemonic p2 wl := rfl

/-- C52 (violated). A valid phrase yields no seed. -/
theorem C52_returns_seed_violated :
    ¬ ∀ (mnemonic passphrase : GoString) (wl : List GoString) (r : Option Bytes), IsWordlist wl →
      (newSeedFromMnemonic realHashes mnemonic passphrase (some wl)).1 = .ok r → r.isSome := by
  intro h
  have := h Samples.phraseA [] EnglishWordlist none Samples.english Samples.seedA
  simp at this

/-- C52, what remains true: the verdict itself is reached for all BIP-39 phrases of 24 words. Missing: the seed. -/
theorem C52_verdict_partial (H : Hashes) (ent : Bytes) (ws : List GoString) (passphrase : GoString)
    (wl : List GoString) (hwl : IsWordlist wl) (he : ent.length = 32) (h : IsBip39 H.sha256 wl ent ws) :
    ∃ r, (newSeedFromMnemonic H (phraseText ws) passphrase (some wl)).1 = .ok r :=
  ⟨none, C51_accepts_all_bip39 H ent ws passphrase wl hwl he h⟩

/-! ## C48 -/

/-- C48 (violated). `NewMnemonic` returned a 24-word phrase that is not the BIP-39 encoding of any entropy. -/
theorem C48_bip39_violated :
    ∃ (rd : Reader) (phrase : GoString),
      newMnemonic realHashes rd 24 (some EnglishWordlist) = .ok (phrase, []) ∧
      ¬ ∃ ent ws, IsBip39 realHashes.sha256 EnglishWordlist ent ws ∧ phrase = phraseText ws := by
  refine ⟨Samples.ent32, Samples.phrase32, Samples.new32, ?_⟩
  rintro ⟨ent, ws, h, hp⟩
  have hc := C45_word_count realHashes _ _ 24 _ _ (by decide) Samples.english.noSpace Samples.new32
  have hne : ws ≠ [] := by
    rintro rfl
    exact absurd hp (by decide +kernel)
  have hs := splitSpace_phraseText hne fun w hw => Samples.english.noSpace w (h.2.mem w hw)
  rw [hp, hs] at hc
  have h1 := (C51_accepts_iff_bip39 realHashes ws [] _ Samples.english hc.2.1 h.2.mem).1.2 ⟨ent, h⟩
  rw [← hp, Samples.seed32] at h1
  exact absurd h1 (by simp)

/-- C48. When exactly the phrase is the BIP-39 encoding of the entropy read: the code's bit string, reversed, must
be the BIP-39 bit string. -/
theorem C48_when_bip39 (H : Hashes) (rd rd' : Reader) (n : Nat) (wl : List GoString) (phrase : GoString)
    (hn : n ∈ [12, 15, 18, 21, 24]) (hwl : IsWordlist wl) (h : newMnemonic H rd n (some wl) = .ok (phrase, rd')) :
    ∃ ent, rd = ent ++ rd' ∧ ent.length = n / 3 * 4 ∧
      ((∃ ws, IsBip39 H.sha256 wl ent ws ∧ phrase = phraseText ws) ↔
        (bytesBits ent ++ ((bytesBits (H.sha256 (ent.dropWhile (· == 0)))).dropWhile (· == false)).take (n / 3)).reverse
          = bytesBits ent ++ (bytesBits (H.sha256 ent)).take (n / 3)) := by
  obtain ⟨ent, ws, check, h1, h2, h3, rfl, rfl, h6, h7⟩ := C47_exact_encoding H rd rd' n wl phrase hn h
  have hmem : ent.length ∈ [16, 20, 24, 28, 32] := by
    rw [h2]
    simp only [List.mem_cons, List.not_mem_nil, or_false] at hn ⊢
    omega
  have hdiv : ent.length / 4 = n / 3 := by omega
  have hne : ∀ us : List GoString, us.length = n → us ≠ [] := by
    rintro _ h rfl
    simp only [List.length_nil] at h
    subst h
    simp at hn
  refine ⟨ent, h1, h2, ?_, ?_⟩
  · rintro ⟨us, ⟨-, hu⟩, hp⟩
    have hul := hu.length
    rw [hdiv, List.length_append, length_bytesBits, List.length_take, length_bytesBits, H.sha_len, h2] at hul
    have hun : us.length = n := by
      simp only [List.mem_cons, List.not_mem_nil, or_false] at hn
      omega
    have : ws = us := by
      rw [← splitSpace_phraseText (hne ws h3) fun w hw => hwl.noSpace w (h7.mem w hw), hp,
        splitSpace_phraseText (hne us hun) fun w hw => hwl.noSpace w (hu.mem w hw)]
    subst this
    rw [hdiv] at hu
    exact h7.bits_unique hwl.nodup hu
  · intro he
    refine ⟨ws, ⟨hmem, ?_⟩, rfl⟩
    rw [hdiv, ← he]
    exact h7

/-- C48: the phrase of 0, 1, …, 31 is not the BIP-39 phrase of these bytes. -/
example : ¬ ∃ ws, IsBip39 realHashes.sha256 EnglishWordlist Samples.ent32 ws ∧ Samples.phrase32 = phraseText ws := by
  obtain ⟨ent, h1, -, h3⟩ := C48_when_bip39 realHashes Samples.ent32 [] 24 EnglishWordlist Samples.phrase32 (by decide)
    Samples.english Samples.new32
  rw [List.append_nil] at h1
  subst h1
  rw [h3]
  decide +kernel

/-- C48, what remains true: if the entropy does not start with a zero byte and its hash starts with a one bit, the
phrase spells the BIP-39 bit string backwards. Missing from the full property: the bit order, and entropies or
hashes with leading zeros. -/
theorem C48_reversed_partial (H : Hashes) (rd rd' : Reader) (n : Nat) (wl : List GoString) (phrase : GoString)
    (hn : n ∈ [12, 15, 18, 21, 24]) (h : newMnemonic H rd n (some wl) = .ok (phrase, rd'))
    (h0 : rd.head? ≠ some 0) (h1 : (bytesBits (H.sha256 (rd.take (n / 3 * 4)))).head? = some true) :
    ∃ ent ws, rd = ent ++ rd' ∧ ent.length = n / 3 * 4 ∧ phrase = phraseText ws ∧
      SpellsBits wl ws (bytesBits ent ++ (bytesBits (H.sha256 ent)).take (ent.length / 4)).reverse := by
  obtain ⟨ent, ws, check, e1, e2, e3, rfl, rfl, e6, e7⟩ := C47_exact_encoding H rd rd' n wl phrase hn h
  refine ⟨ent, ws, e1, e2, rfl, ?_⟩
  have ht : rd.take (n / 3 * 4) = ent := by rw [e1, ← e2, List.take_left]
  rw [ht] at h1
  have hd : ent.dropWhile (· == 0) = ent := by
    cases ent with
    | nil => rfl
    | cons x xs =>
      rw [e1] at h0
      have hx : x ≠ 0 := by simpa using h0
      simp [hx]
  rw [hd] at e7
  have hb : (bytesBits (H.sha256 ent)).dropWhile (· == false) = bytesBits (H.sha256 ent) := by
    cases hh : bytesBits (H.sha256 ent) with
    | nil => rfl
    | cons x xs =>
      rw [hh] at h1
      have hx : x = true := by simpa using h1
      simp [hx]
  rw [hb] at e7
  rwa [show ent.length / 4 = n / 3 by omega]

/-- The hypotheses are met by the entropy `8e 00 … 0e`. -/
example : ∃ ent ws, Samples.entLucky = ent ++ [] ∧ ent.length = 24 / 3 * 4 ∧ Samples.phraseLucky = phraseText ws ∧
    SpellsBits EnglishWordlist ws
      (bytesBits ent ++ (bytesBits (realHashes.sha256 ent)).take (ent.length / 4)).reverse :=
  C48_reversed_partial realHashes _ _ 24 _ _ (by decide) Samples.newLucky (by decide +kernel) (by decide +kernel)

/-! ## C53 -/

/-- C53 (violated). No generated 12-word phrase is accepted, and every generated 15-, 18- or 21-word phrase
crashes `NewSeedFromMnemonic`. -/
theorem C53_short_phrases_never_accepted (H : Hashes) (rd rd' : Reader) (n : Nat) (wl : List GoString)
    (phrase passphrase : GoString) (hwl : IsWordlist wl) (h : newMnemonic H rd n (some wl) = .ok (phrase, rd')) :
    (n = 12 → (newSeedFromMnemonic H phrase passphrase (some wl)).1 = .err .hexLength) ∧
    (n = 15 ∨ n = 18 ∨ n = 21 →
      (newSeedFromMnemonic H phrase passphrase (some wl)).1 = .panic .indexRange) := by
  constructor
  · intro hn
    subst hn
    obtain ⟨-, h2, h3⟩ := C45_word_count H rd rd' 12 wl phrase (by decide) hwl.noSpace h
    exact newSeed_odd H passphrase (by rw [hwl.size]) h3 (by rw [h2])
  · intro hn
    obtain ⟨-, h2, h3⟩ := C45_word_count H rd rd' n wl phrase (by simp; omega) hwl.noSpace h
    exact newSeed_panic H passphrase (by rw [hwl.size]) h3 (by rw [h2]; omega)

/-- C53: twelve words made from sixteen bytes. -/
example : ∃ phrase, newMnemonic realHashes (List.replicate 16 7) 12 (some EnglishWordlist) = .ok (phrase, []) ∧
    (newSeedFromMnemonic realHashes phrase [] (some EnglishWordlist)).1 = .err .hexLength := by
  obtain ⟨ws, -, -, h⟩ := (C45_outcomes realHashes (List.replicate 16 7) 12 EnglishWordlist (by decide) (by decide +kernel)).2.2
    (by decide) (by decide +kernel)
  exact ⟨_, h, (C53_short_phrases_never_accepted realHashes _ _ 12 EnglishWordlist _ [] Samples.english h).1 rfl⟩

/-- C53 (violated). A generated 24-word phrase is rejected as well. -/
theorem C53_accepted_back_violated :
    ∃ (rd : Reader) (phrase : GoString), newMnemonic realHashes rd 24 (some EnglishWordlist) = .ok (phrase, []) ∧
      (newSeedFromMnemonic realHashes phrase [] (some EnglishWordlist)).1 = .err .invalidChecksum :=
  ⟨_, _, Samples.new32, Samples.seed32⟩

/-- C53, what remains true: a generated 24-word phrase is accepted exactly if the reversed bits happen to end in
the first byte of the hash of the rest. Missing: acceptance of all generated phrases. -/
theorem C53_accepted_iff_partial (H : Hashes) (rd rd' : Reader) (wl : List GoString) (phrase passphrase : GoString)
    (hwl : IsWordlist wl) (h : newMnemonic H rd 24 (some wl) = .ok (phrase, rd')) :
    ∃ ent body ck, rd = ent ++ rd' ∧ ent.length = 32 ∧ body.length = 32 ∧
      bytesBits (body ++ [ck]) =
        (bytesBits ent ++ ((bytesBits (H.sha256 (ent.dropWhile (· == 0)))).dropWhile (· == false)).take 8).reverse ∧
      ((newSeedFromMnemonic H phrase passphrase (some wl)).1 = .ok none ↔ (H.sha256 body).take 1 = [ck]) := by
  obtain ⟨ent, ws, check, h1, h2, h3, rfl, rfl, h6, h7⟩ :=
    C47_exact_encoding H rd rd' 24 wl phrase (by decide) h
  have hl := h7.length
  obtain ⟨all, ha, hab⟩ := exists_bytes (k := 33) (hl.trans (by omega))
  have hane : all ≠ [] := by rintro rfl; simp at ha
  obtain ⟨body, ck, rfl⟩ : ∃ body ck, all = body ++ [ck] :=
    ⟨all.dropLast, all.getLast hane, (List.dropLast_append_getLast hane).symm⟩
  refine ⟨ent, body, ck, h1, h2, by simp at ha; omega, hab, ?_⟩
  rw [← hab] at h7
  rw [newSeed_of_spells H passphrase hwl (by rintro rfl; simp at h3) (by omega) h7]
  split <;> simp_all

/-- A generated phrase that is accepted. -/
example : ∃ (rd : Reader) (phrase : GoString),
    newMnemonic realHashes rd 24 (some EnglishWordlist) = .ok (phrase, []) ∧
    (newSeedFromMnemonic realHashes phrase [] (some EnglishWordlist)).1 = .ok none :=
  ⟨_, _, Samples.newLucky, Samples.seedLucky⟩

/-! ## C54 -/

/-- C54 (violated). The four-character log lines, put together, are the complete bit string of the phrase. -/
theorem C54_log_contains_phrase (H : Hashes) (ws : List GoString) (passphrase : GoString) (wl : List GoString)
    (hwl : IsWordlist wl) (hne : ws ≠ []) (hw : ∀ w ∈ ws, w ∈ wl) (h4 : ws.length % 4 = 0) :
    ∃ bits, SpellsBits wl ws bits ∧
      ((newSeedFromMnemonic H (phraseText ws) passphrase (some wl)).2.filter (fun l => l.length == 4)).flatten =
        bits.map fun b => if b then 49 else 48 := by
  have hs := splitSpace_phraseText hne fun w h => hwl.noSpace w (hw w h)
  obtain ⟨bits, log, extra, h1, h2, h3, h5, h6⟩ := newSeed_log H (m := phraseText ws) passphrase
    (by rw [hwl.size]) (by rw [hs]; exact hw)
  rw [hs] at h1
  refine ⟨bits, h1, ?_⟩
  have hl := h1.length
  rw [h2, List.filter_append, List.filter_eq_self.2 (by simpa using h3), List.filter_eq_nil_iff.2 (by simpa using h6),
    List.append_nil, h5, List.take_of_length_le (by rw [List.length_map]; omega)]
  apply List.map_congr_left
  intro b _
  cases b <;> rfl

/-- C54 (violated). One function recovers, from the log alone, every phrase of list words that did not crash the
call. -/
theorem C54_not_logged_violated (H : Hashes) (wl : List GoString) (hwl : IsWordlist wl) :
    ∃ recover : Log → GoString, ∀ (ws : List GoString) (passphrase : GoString), ws ≠ [] → (∀ w ∈ ws, w ∈ wl) →
      ws.length % 4 = 0 → recover (newSeedFromMnemonic H (phraseText ws) passphrase (some wl)).2 = phraseText ws := by
  classical
  let text : List Bool → GoString := fun bits => bits.map fun b => if b then 49 else 48
  have htext : Function.Injective text :=
    List.map_injective_iff.2 fun a b h => by revert h; cases a <;> cases b <;> simp
  let good : Log → List GoString → Prop := fun log ws => ∃ bits, SpellsBits wl ws bits ∧
    (log.filter (fun l => l.length == 4)).flatten = text bits
  refine ⟨fun log => if h : ∃ ws, good log ws then phraseText h.choose else [], ?_⟩
  intro ws passphrase hne hw h4
  have hg : good (newSeedFromMnemonic H (phraseText ws) passphrase (some wl)).2 ws :=
    C54_log_contains_phrase H ws passphrase wl hwl hne hw h4
  have hex : ∃ us, good (newSeedFromMnemonic H (phraseText ws) passphrase (some wl)).2 us := ⟨ws, hg⟩
  simp only [hex, dif_pos]
  obtain ⟨b1, c1, c2⟩ := hex.choose_spec
  obtain ⟨b2, d1, d2⟩ := hg
  have : b1 = b2 := htext (c2.symm.trans d2)
  subst this
  rw [c1.words_unique d1]

/-- C54, what remains true: nothing is logged when a word is unknown. Missing: every other case. -/
theorem C54_no_log_partial (H : Hashes) (mnemonic passphrase : GoString) (wl : List GoString)
    (h : ∃ w ∈ splitSpace mnemonic, w ∉ wl) :
    (newSeedFromMnemonic H mnemonic passphrase (some wl)).2 = [] := by
  rw [C49_unknown_piece_rejected H mnemonic passphrase wl h]

/-- C54: nothing is logged when a word is unknown. -/
example : (newSeedFromMnemonic realHashes (asc "zoo bitcoin zoo zoo") [] (some EnglishWordlist)).2 = [] :=
  C54_no_log_partial realHashes _ _ _ ⟨asc "bitcoin", by decide +kernel, by decide +kernel⟩

/-- The log of "zoo zoo zoo abandon" (word numbers 2047, 2047, 2047, 0). -/
example : (newSeedFromMnemonic realHashes (asc "zoo zoo zoo abandon") [] (some EnglishWordlist)).2 =
    List.replicate 8 (asc "1111") ++ [asc "1000", asc "0000", asc "0000"] := by
  decide +kernel

end Btc
