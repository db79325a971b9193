import Verif.Props.PhraseCount
import Mathlib.Data.Fintype.BigOperators

/-!
# C95: the last word of a phrase
-/

namespace Btc

open Spec

set_option maxRecDepth 100000

theorem Spec.SpellsBits.append {wl ws ws' : List GoString} {b b' : List Bool} (h : SpellsBits wl ws b)
    (h' : SpellsBits wl ws' b') : SpellsBits wl (ws ++ ws') (b ++ b') := by
  induction h with
  | nil => exact h'
  | cons h1 h2 _ ih => rw [List.append_assoc]; exact .cons h1 h2 ih

theorem ncard_bits (k : Nat) : {t : List Bool | t.length = k}.ncard = 2 ^ k := by
  have : Nat.card (List.Vector Bool k) = 2 ^ k := by rw [Nat.card_eq_fintype_card, card_vector]; rfl
  exact this

/-- The outcome for a phrase with a given last word, three bits of entropy and eight of checksum. -/
theorem last_word (H : Hashes) (passphrase : GoString) {wl : List GoString} (hwl : IsWordlist wl) {j : Nat}
    {pre : List GoString} {pb : List Bool} (hlen : pre.length + 1 = 8 * j) (hp : SpellsBits wl pre pb)
    (w : GoString) {t c : List Bool} (hc : c.length = 8)
    (hw : SpellsBits wl [w] (t ++ c)) {body : Bytes} (hb : bytesBits body = pb ++ t) :
    (newSeedFromMnemonic H (phraseText (pre ++ [w])) passphrase (some wl)).1 =
      if bytesBits ((H.sha256 body).take 1) = c then .ok none else .err .invalidChecksum := by
  obtain ⟨cs, hcs, rfl⟩ := exists_bytes (bits := c) (k := 1) (by omega)
  obtain ⟨ck, rfl⟩ := List.length_eq_one_iff.1 hcs
  have h := hp.append hw
  rw [← List.append_assoc, ← hb, ← bytesBits_append] at h
  rw [newSeed_of_spells H passphrase hwl (by simp) (by simp; omega) h]
  have : bytesBits ((H.sha256 body).take 1) = bytesBits [ck] ↔ (H.sha256 body).take 1 = [ck] :=
    ⟨fun e => bytesBits_inj e, fun e => by rw [e]⟩
  simp only [this]

theorem last_word_iff (H : Hashes) (passphrase : GoString) {wl : List GoString} (hwl : IsWordlist wl) {j : Nat}
    {pre : List GoString} {pb : List Bool} (hlen : pre.length + 1 = 8 * j) (hp : SpellsBits wl pre pb)
    (w : GoString) {t c : List Bool} (hc : c.length = 8)
    (hw : SpellsBits wl [w] (t ++ c)) {body : Bytes} (hb : bytesBits body = pb ++ t) :
    (newSeedFromMnemonic H (phraseText (pre ++ [w])) passphrase (some wl)).1 = .ok none ↔
      bytesBits ((H.sha256 body).take 1) = c := by
  rw [last_word H passphrase hwl hlen hp w hc hw hb]
  split <;> simp [*]

/-- The bits of a word: its position, three bits and eight. -/
theorem word_bits {wl : List GoString} (hwl : IsWordlist wl) {i : Nat} {w : GoString} (h : wl[i]? = some w) :
    ∃ t c : List Bool, t.length = 3 ∧ c.length = 8 ∧ bitsNumber t = i / 256 ∧ SpellsBits wl [w] (t ++ c) := by
  have hi : i < 2048 := by
    have := (List.getElem?_eq_some_iff.1 h).1
    rwa [hwl.size] at this
  obtain ⟨t, ht, et⟩ := exists_bits (k := 3) (m := i / 256) (by omega)
  obtain ⟨c, hc, ec⟩ := exists_bits (k := 8) (m := i % 256) (by omega)
  refine ⟨t, c, ht, hc, et, ?_⟩
  have := SpellsBits.cons (wl := wl) (w := w) (group := t ++ c) (by rw [List.length_append, ht, hc])
    (by rw [bitsNumber_append, hc, et, ec, show i / 256 * 2 ^ 8 + i % 256 = i by omega]; exact h) .nil
  simpa using this

/-- C95. Whatever the first `8 j - 1` words of the list are, exactly eight words of the list complete them to an
accepted phrase. -/
theorem C95_eight_last_words (H : Hashes) (passphrase : GoString) (wl : List GoString) (hwl : IsWordlist wl) (j : Nat)
    (hj : 0 < j) (pre : List GoString) (hlen : pre.length + 1 = 8 * j) (hpre : ∀ w ∈ pre, w ∈ wl) :
    {w : GoString | w ∈ wl ∧
      (newSeedFromMnemonic H (phraseText (pre ++ [w])) passphrase (some wl)).1 = .ok none}.ncard = 8 := by
  obtain ⟨pb, hp, -⟩ := seedBits_known (by rw [hwl.size]) hpre
  have hpl := hp.length
  have hbody : ∀ t ∈ {t : List Bool | t.length = 3}, ∃ body : Bytes, bytesBits body = pb ++ t := by
    intro t ht
    obtain ⟨bs, -, h⟩ := exists_bytes (bits := pb ++ t) (k := 11 * j - 1) (by
      rw [List.length_append, show t.length = 3 from ht]; omega)
    exact ⟨bs, h⟩
  have hsum : ∀ b : Bytes, (bytesBits ((H.sha256 b).take 1)).length = 8 := fun b => by simp [H.sha_len]
  have hword : ∀ t (ht : t ∈ {t : List Bool | t.length = 3}), ∃ w : GoString,
      SpellsBits wl [w] (t ++ bytesBits ((H.sha256 (hbody t ht).choose).take 1)) := by
    intro t ht
    obtain ⟨ws, h1, h2⟩ := exists_words (wl := wl) (by rw [hwl.size]) 1
      (t ++ bytesBits ((H.sha256 (hbody t ht).choose).take 1)) (by
        rw [List.length_append, hsum, show t.length = 3 from ht])
    obtain ⟨w, rfl⟩ := List.length_eq_one_iff.1 h1
    exact ⟨w, h2⟩
  rw [show (8 : Nat) = 2 ^ 3 from rfl, ← ncard_bits]
  symm
  apply Set.ncard_congr (fun t ht => (hword t ht).choose)
  · intro t ht
    have h := (hword t ht).choose_spec
    exact ⟨h.mem _ (by simp), (last_word_iff H passphrase hwl hlen hp _ (hsum _) h (hbody t ht).choose_spec).2 rfl⟩
  · intro t t' ht ht' e
    have h := (hword t ht).choose_spec
    have h' := (hword t' ht').choose_spec
    rw [e] at h
    exact (List.append_inj (h.bits_unique hwl.nodup h') (Eq.trans ht (Eq.symm ht'))).1
  · rintro w ⟨hw, ha⟩
    obtain ⟨wb, hs, -⟩ := seedBits_known (wl := wl) (ws := [w]) (by rw [hwl.size]) (by simpa using hw)
    have hl := hs.length
    have ht : (wb.take 3).length = 3 := by rw [List.length_take, hl]; rfl
    refine ⟨wb.take 3, ht, ?_⟩
    have h := (hword _ ht).choose_spec
    have hs' : SpellsBits wl [w] (wb.take 3 ++ wb.drop 3) := by rwa [List.take_append_drop]
    have e := (last_word_iff H passphrase hwl hlen hp w (by rw [List.length_drop, hl]; rfl) hs'
      (hbody _ ht).choose_spec).1 ha
    have := h.words_unique (ws' := [w]) (by rw [e]; exact hs')
    simpa using this

/-- C95. Replacing the last word by another whose position has the same three leading bits (the same quotient by
256) is always detected. -/
theorem C95_last_word_detected (H : Hashes) (passphrase : GoString) (wl : List GoString) (hwl : IsWordlist wl)
    (j : Nat) (pre : List GoString) (hlen : pre.length + 1 = 8 * j) (hpre : ∀ w ∈ pre, w ∈ wl) (i i' : Nat) (w w' : GoString)
    (hw : wl[i]? = some w) (hw' : wl[i']? = some w') (hne : w ≠ w') (hi : i / 256 = i' / 256)
    (ha : (newSeedFromMnemonic H (phraseText (pre ++ [w])) passphrase (some wl)).1 = .ok none) :
    (newSeedFromMnemonic H (phraseText (pre ++ [w'])) passphrase (some wl)).1 = .err .invalidChecksum := by
  obtain ⟨pb, hp, -⟩ := seedBits_known (by rw [hwl.size]) hpre
  have hpl := hp.length
  obtain ⟨t, c, ht, hc, et, hs⟩ := word_bits hwl hw
  obtain ⟨t', c', ht', hc', et', hs'⟩ := word_bits hwl hw'
  obtain rfl : t = t' := bitsNumber_inj (ht.trans ht'.symm) (by rw [et, et', hi])
  obtain ⟨body, -, hb⟩ := exists_bytes (bits := pb ++ t) (k := 11 * j - 1) (by rw [List.length_append, ht]; omega)
  rw [last_word H passphrase hwl hlen hp w' hc' hs' hb, if_neg]
  rw [(last_word_iff H passphrase hwl hlen hp w hc hs hb).1 ha]
  rintro rfl
  exact hne (by simpa using hs.words_unique hs')

/-- The phrase of the repository's test: 23 words and the last one. -/
example : {w : GoString | w ∈ EnglishWordlist ∧ (newSeedFromMnemonic realHashes
    (phraseText ((splitSpace Samples.phraseA).take 23 ++ [w])) [] (some EnglishWordlist)).1 = .ok none}.ncard = 8 :=
  C95_eight_last_words realHashes [] EnglishWordlist Samples.english 3 (by decide) _ (by decide +kernel)
    (by
      intro w hw
      have : ∀ w ∈ (splitSpace Samples.phraseA).take 23, w ∈ EnglishWordlist := by decide +kernel
      exact this w hw)

/-- Its last word "like" (position 1037) replaced by "limb" (1038). -/
example : (newSeedFromMnemonic realHashes (phraseText ((splitSpace Samples.phraseA).take 23 ++ [asc "limb"])) []
    (some EnglishWordlist)).1 = .err .invalidChecksum :=
  C95_last_word_detected realHashes [] EnglishWordlist Samples.english 3 _ (by decide +kernel) (by
      have : ∀ w ∈ (splitSpace Samples.phraseA).take 23, w ∈ EnglishWordlist := by decide +kernel
      exact this)
    1037 1038 (asc "like") (asc "limb") (by decide +kernel) (by decide +kernel) (by decide) (by decide)
    (by
      have : phraseText ((splitSpace Samples.phraseA).take 23 ++ [asc "like"]) = Samples.phraseA := by decide +kernel
      rw [this]
      exact Samples.seedA)

end Btc
