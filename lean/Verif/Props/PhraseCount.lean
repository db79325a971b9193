import Verif.Proofs.Count
import Verif.Props.Phrase

/-!
# C85, C86: how many phrases there are
-/

namespace Btc

open Spec

set_option maxRecDepth 100000

/-! ## C85 -/

/-- C85. Every phrase `NewMnemonic` can return is returned for equally many random sources: of the sources of `L`
bytes, exactly one in `256^(4n/3)`. -/
theorem C85_equally_likely (H : Hashes) (n : Nat) (wl : List GoString) (phrase : GoString) (L : Nat)
    (hn : n ∈ [12, 15, 18, 21, 24]) (hnd : wl.Nodup) (hsp : ∀ w ∈ wl, (32 : UInt8) ∉ w) (hL : n / 3 * 4 ≤ L)
    (h : ∃ rd rd', newMnemonic H rd n (some wl) = .ok (phrase, rd')) :
    {rd : Reader | rd.length = L ∧ ∃ rd', newMnemonic H rd n (some wl) = .ok (phrase, rd')}.ncard *
      256 ^ (n / 3 * 4) = 256 ^ L := by
  obtain ⟨rd, rd', h⟩ := h
  obtain ⟨used, h1, h2, h3⟩ := C71_mnemonic_local H rd rd' n wl phrase hn h
  have : {rd : Reader | rd.length = L ∧ ∃ rd', newMnemonic H rd n (some wl) = .ok (phrase, rd')} =
      {bs : Bytes | ∃ a ∈ ({used} : Set Bytes), ∃ b ∈ {b : Bytes | b.length = L - n / 3 * 4}, bs = a ++ b} := by
    ext x
    simp only [Set.mem_ofPred_eq, Set.mem_singleton_iff, exists_eq_left]
    constructor
    · rintro ⟨hx, x', hx'⟩
      refine ⟨x.drop (n / 3 * 4), by rw [List.length_drop, hx], ?_⟩
      have e := C46_phrase_determines_entropy H x x' rd rd' n wl phrase hn hnd hsp hx' h
      rw [h1, List.take_left' h2] at e
      rw [← e, List.take_append_drop]
    · rintro ⟨b, hb, rfl⟩
      exact ⟨by rw [List.length_append, h2, hb]; omega, b, h3 b⟩
  rw [this, ncard_append (k := n / 3 * 4) (by rintro a rfl; exact h2), Set.ncard_singleton, one_mul, ncard_length,
    ← pow_add]
  congr 1
  omega

/-- C85. The number of different phrases of `n` words is the number of entropies on which the call does not
crash. -/
theorem C85_phrase_count (H : Hashes) (n : Nat) (wl : List GoString) (hn : n ∈ [12, 15, 18, 21, 24])
    (hl : 2048 ≤ wl.length) (hnd : wl.Nodup) (hsp : ∀ w ∈ wl, (32 : UInt8) ∉ w) :
    {phrase : GoString | ∃ rd rd', newMnemonic H rd n (some wl) = .ok (phrase, rd')}.ncard =
      {ent : Bytes | ent.length = n / 3 * 4 ∧
        2 ^ (n / 3 - 1) ≤ bigEndian (H.sha256 (ent.dropWhile (· == 0)))}.ncard := by
  have ex : ∀ ent ∈ {ent : Bytes | ent.length = n / 3 * 4 ∧
      2 ^ (n / 3 - 1) ≤ bigEndian (H.sha256 (ent.dropWhile (· == 0)))},
      ∃ phrase, newMnemonic H ent n (some wl) = .ok (phrase, []) := by
    rintro ent ⟨h1, h2⟩
    have ht : ent.take (n / 3 * 4) = ent := List.take_of_length_le (le_of_eq h1)
    have hd : ent.drop (n / 3 * 4) = [] := List.drop_of_length_le (le_of_eq h1)
    obtain ⟨ws, _, _, h⟩ := (C45_outcomes H ent n wl hn hl).2.2 (le_of_eq h1.symm) (by rw [ht]; exact h2)
    rw [hd] at h
    exact ⟨_, h⟩
  symm
  apply Set.ncard_congr (fun ent h => (ex ent h).choose)
  · intro ent h
    exact ⟨ent, [], (ex ent h).choose_spec⟩
  · intro a b ha hb e
    have e1 := (ex a ha).choose_spec
    have e2 := (ex b hb).choose_spec
    rw [← e] at e2
    have := C46_phrase_determines_entropy H a [] b [] n wl _ hn hnd hsp e1 e2
    rwa [List.take_of_length_le (le_of_eq ha.1), List.take_of_length_le (le_of_eq hb.1)] at this
  · rintro phrase ⟨rd, rd', h⟩
    obtain ⟨used, h1, h2, h3⟩ := C71_mnemonic_local H rd rd' n wl phrase hn h
    have h4 := h3 []
    rw [List.append_nil] at h4
    have hu : 2 ^ (n / 3 - 1) ≤ bigEndian (H.sha256 (used.dropWhile (· == 0))) := by
      by_contra hc
      have := (C45_outcomes H used n wl hn hl).2.1 (le_of_eq h2.symm)
        (by rw [List.take_of_length_le (le_of_eq h2)]; omega)
      rw [h4] at this
      simp at this
    refine ⟨used, ⟨h2, hu⟩, ?_⟩
    have := h4.symm.trans (ex used ⟨h2, hu⟩).choose_spec
    simp only [Res.ok.injEq, Prod.mk.injEq, and_true] at this
    exact this.symm

/-- The sample phrase of 24 words is returned for exactly one source of 32 bytes. -/
example : {rd : Reader | rd.length = 32 ∧
    ∃ rd', newMnemonic realHashes rd 24 (some EnglishWordlist) = .ok (Samples.phrase32, rd')}.ncard * 256 ^ 32 =
      256 ^ 32 :=
  C85_equally_likely realHashes 24 EnglishWordlist Samples.phrase32 32 (by decide) Samples.english.nodup
    Samples.english.noSpace (by decide) ⟨_, _, Samples.new32⟩

/-! ## C86 -/

/-- Phrases of `8 j` list words and byte strings of length `11 j` correspond one to one. -/
theorem ncard_phrases {wl : List GoString} (hwl : IsWordlist wl) {j : Nat} (hj : 0 < j) (P : Bytes → Prop) :
    {m : GoString | ∃ all ws, all.length = 11 * j ∧ P all ∧ SpellsBits wl ws (bytesBits all) ∧ m = phraseText ws}.ncard =
      {all : Bytes | all.length = 11 * j ∧ P all}.ncard := by
  have ex : ∀ all ∈ {all : Bytes | all.length = 11 * j ∧ P all}, ∃ ws, ws.length = 8 * j ∧
      SpellsBits wl ws (bytesBits all) := by
    rintro all ⟨h, -⟩
    exact exists_words (by rw [hwl.size]) (8 * j) (bytesBits all) (by rw [length_bytesBits, h]; omega)
  have hne : ∀ {ws : List GoString} {all : Bytes}, all.length = 11 * j → SpellsBits wl ws (bytesBits all) →
      ws ≠ [] := by
    rintro _ all h hs rfl
    have := hs.length
    rw [length_bytesBits, h] at this
    simp only [List.length_nil] at this
    omega
  symm
  apply Set.ncard_congr (fun all h => phraseText (ex all h).choose)
  · intro all h
    exact ⟨all, _, h.1, h.2, (ex all h).choose_spec.2, rfl⟩
  · intro a b ha hb e
    have e1 := (ex a ha).choose_spec.2
    have e2 := (ex b hb).choose_spec.2
    have e3 := splitSpace_phraseText (hne ha.1 e1) fun w h => hwl.noSpace w (e1.mem w h)
    rw [e, splitSpace_phraseText (hne hb.1 e2) fun w h => hwl.noSpace w (e2.mem w h)] at e3
    rw [e3] at e2
    exact bytesBits_inj (e1.bits_unique hwl.nodup e2)
  · rintro m ⟨all, ws, h1, h2, h3, rfl⟩
    refine ⟨all, ⟨h1, h2⟩, ?_⟩
    rw [(ex all ⟨h1, h2⟩).choose_spec.2.words_unique h3]

/-- The phrases of `8 j` list words, as byte strings. -/
theorem phrases_bytes {wl : List GoString} (hwl : IsWordlist wl) {j : Nat} {m : GoString}
    (hm : m.count 32 + 1 = 8 * j) (hw : ∀ w ∈ splitSpace m, w ∈ wl) :
    ∃ all : Bytes, all.length = 11 * j ∧ SpellsBits wl (splitSpace m) (bytesBits all) := by
  obtain ⟨bits, h1, -⟩ := seedBits_known (by rw [hwl.size]) hw
  have hlen := h1.length
  rw [length_splitSpace, hm] at hlen
  obtain ⟨all, ha, rfl⟩ := exists_bytes (bits := bits) (k := 11 * j) (by omega)
  exact ⟨all, ha, h1⟩

/-- A phrase spelling bytes has `8 j` list words. -/
theorem phrases_words {wl : List GoString} (hwl : IsWordlist wl) {j : Nat} (hj : 0 < j) {all : Bytes}
    {ws : List GoString} (ha : all.length = 11 * j) (hs : SpellsBits wl ws (bytesBits all)) :
    ws ≠ [] ∧ ws.length = 8 * j ∧ (phraseText ws).count 32 + 1 = 8 * j ∧ splitSpace (phraseText ws) = ws := by
  have hlen := hs.length
  rw [length_bytesBits, ha] at hlen
  have hl : ws.length = 8 * j := by omega
  have hne : ws ≠ [] := by rintro rfl; simp only [List.length_nil] at hl; omega
  have h := splitSpace_phraseText hne fun w h => hwl.noSpace w (hs.mem w h)
  refine ⟨hne, hl, ?_, h⟩
  rw [← length_splitSpace, h, hl]

/-- C86. Of all strings, exactly `256^(11 j - 1)` with `8 j` words are accepted; for 24 words that is `2^256`, one
for every entropy. -/
theorem C86_accepted_count (H : Hashes) (passphrase : GoString) (wl : List GoString) (hwl : IsWordlist wl) (j : Nat)
    (hj : 0 < j) :
    {m : GoString | m.count 32 + 1 = 8 * j ∧
      (newSeedFromMnemonic H m passphrase (some wl)).1 = .ok none}.ncard = 256 ^ (11 * j - 1) := by
  have e : {m : GoString | m.count 32 + 1 = 8 * j ∧ (newSeedFromMnemonic H m passphrase (some wl)).1 = .ok none} =
      {m : GoString | ∃ all ws, all.length = 11 * j ∧ (∃ body : Bytes, all = body ++ (H.sha256 body).take 1) ∧
        SpellsBits wl ws (bytesBits all) ∧ m = phraseText ws} := by
    ext m
    simp only [Set.mem_ofPred_eq]
    constructor
    · rintro ⟨h1, h2⟩
      have hw : ∀ w ∈ splitSpace m, w ∈ wl := by
        by_contra hc
        push Not at hc
        obtain ⟨w, h3, h4⟩ := hc
        rw [newSeed_unknown H passphrase (wl := some wl) h3 h4] at h2
        simp at h2
      obtain ⟨body, ck, log, h3, -, -, h4⟩ := newSeed_bytes H passphrase (by rw [hwl.size]) hw
        (by rw [length_splitSpace, h1]; omega)
      have h5 : (H.sha256 body).take 1 = [ck] := by
        by_contra hc
        rw [h4, if_neg hc] at h2
        simp at h2
      have hl := h3.length
      rw [length_bytesBits, length_splitSpace, h1] at hl
      exact ⟨body ++ [ck], splitSpace m, by omega, ⟨body, by rw [h5]⟩, h3, (phraseText_splitSpace m).symm⟩
    · rintro ⟨all, ws, h1, ⟨body, rfl⟩, h3, rfl⟩
      obtain ⟨w1, w2, w3, w4⟩ := phrases_words hwl hj h1 h3
      refine ⟨w3, ?_⟩
      obtain ⟨ck, hck⟩ : ∃ ck, (H.sha256 body).take 1 = [ck] := by
        match hh : H.sha256 body, H.sha_len body with
        | x :: xs, _ => exact ⟨x, rfl⟩
      rw [hck] at h3
      rw [newSeed_of_spells H passphrase hwl w1 (by omega) h3, if_pos hck]
  rw [e, ncard_phrases hwl hj, ← ncard_length (11 * j - 1)]
  have hl : ∀ body, ((H.sha256 body).take 1).length = 1 := fun body => by simp [H.sha_len]
  symm
  apply Set.ncard_congr (fun body _ => body ++ (H.sha256 body).take 1)
  · intro body hb
    simp only [Set.mem_ofPred_eq] at hb ⊢
    exact ⟨by rw [List.length_append, hl, hb]; omega, body, rfl⟩
  · intro a b ha hb e
    exact (List.append_inj' e ((hl a).trans (hl b).symm)).1
  · rintro _ ⟨h1, body, rfl⟩
    rw [List.length_append, hl] at h1
    exact ⟨body, show body.length = 11 * j - 1 by omega, rfl⟩

/-- C86. The check accepts exactly one in 256 of the phrases of `8 j` list words, whatever the hash function. -/
theorem C86_one_in_256 (H : Hashes) (passphrase : GoString) (wl : List GoString) (hwl : IsWordlist wl) (j : Nat)
    (hj : 0 < j) :
    {m : GoString | m.count 32 + 1 = 8 * j ∧ ∀ w ∈ splitSpace m, w ∈ wl}.ncard =
      256 * {m : GoString | m.count 32 + 1 = 8 * j ∧
        (newSeedFromMnemonic H m passphrase (some wl)).1 = .ok none}.ncard := by
  rw [C86_accepted_count H passphrase wl hwl j hj, ← pow_succ', show 11 * j - 1 + 1 = 11 * j by omega, ← ncard_length]
  have e : {m : GoString | m.count 32 + 1 = 8 * j ∧ ∀ w ∈ splitSpace m, w ∈ wl} =
      {m : GoString | ∃ all ws, all.length = 11 * j ∧ True ∧ SpellsBits wl ws (bytesBits all) ∧ m = phraseText ws} := by
    ext m
    simp only [Set.mem_ofPred_eq]
    constructor
    · rintro ⟨h1, h2⟩
      obtain ⟨all, h3, h4⟩ := phrases_bytes hwl h1 h2
      exact ⟨all, _, h3, trivial, h4, (phraseText_splitSpace m).symm⟩
    · rintro ⟨all, ws, h1, -, h3, rfl⟩
      obtain ⟨w1, w2, w3, w4⟩ := phrases_words hwl hj h1 h3
      refine ⟨w3, ?_⟩
      rw [w4]
      exact h3.mem
  rw [e, ncard_phrases hwl hj fun _ => True]
  simp

/-- With the English list exactly `2^256` phrases of 24 words are accepted. -/
example : {m : GoString | m.count 32 + 1 = 24 ∧
    (newSeedFromMnemonic realHashes m [] (some EnglishWordlist)).1 = .ok none}.ncard = 2 ^ 256 := by
  rw [C86_accepted_count realHashes [] EnglishWordlist Samples.english 3 (by omega)]
  decide +kernel

end Btc
