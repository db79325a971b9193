import Verif.Props.Mnemonic
import Verif.Source.Fuel
import Verif.Source.RepairPhrase

/-!
# C128: which lines are at fault in the functions for phrases

The text in `Verif/Source/Repair.lean` differs from the repository's in the lines marked there. For it the properties hold
that C48, C50, C53, C54, C63 and C81 show to be violated in the repository.
-/

namespace Btc

open Spec Mem Source

/-- The text is a BIP-39 phrase of some entropy, with single spaces between the words. -/
def IsPhrase (sha : Bytes → Bytes) (wl : List GoString) (text : GoString) : Prop :=
  ∃ ent ws, IsBip39 sha wl ent ws ∧ text = phraseText ws

section
variable (H : Hashes) (E : EcdsaM)

theorem bip39_words {H : Hashes} {wl : List GoString} {ent : Bytes} {ws : List GoString} (h : IsBip39 H.sha256 wl ent ws) :
    ws.length = 3 * (ent.length / 4) ∧ ent.length = 4 * (ent.length / 4) ∧ 4 ≤ ent.length / 4 ∧ ent.length / 4 ≤ 8 := by
  have hl := h.2.length
  rw [List.length_append, length_bytesBits, List.length_take, length_bytesBits, H.sha_len] at hl
  have h1 := h.1
  simp only [List.mem_cons, List.not_mem_nil, or_false] at h1
  omega

theorem isPhrase_iff {wl : List GoString} (hwl : IsWordlist wl) (mn : GoString) :
    IsPhrase H.sha256 wl mn ↔ Accepts H wl mn := by
  constructor
  · rintro ⟨ent, ws, h, rfl⟩
    have hw := bip39_words h
    refine ⟨ent, ?_⟩
    rwa [splitSpace_phraseText (by rintro rfl; simp only [List.length_nil] at hw; omega) fun w hw => hwl.noSpace w (h.2.mem w hw)]
  · rintro ⟨ent, h⟩
    exact ⟨ent, _, h, (phraseText_splitSpace mn).symm⟩

/-- C128. The repaired `NewMnemonic` returns the BIP-39 phrase of the next random bytes, for 12, 15, 18, 21 and 24 words
and a list of 2048 (C48). For other numbers of words, for other lists (C81), and when the random bytes do not suffice, it
returns an error and takes no random bytes. It never panics and logs nothing. -/
theorem C128_generate (words : Int) (wl : Option (List GoString)) (st : State) :
    ∃ o, Ends H E repaired 0 (id! "NewMnemonic") [.int words, .strs wl] st o ∧
    ((∃ (c : Nat) (ws : List GoString) (st' : State), 4 ≤ c ∧ c ≤ 8 ∧ words = (3 * c : Nat) ∧ (wl.getD []).length = 2048 ∧
        4 * c ≤ st.rd.length ∧ IsBip39 H.sha256 (wl.getD []) (st.rd.take (4 * c)) ws ∧
        o = .ok [.str (phraseText ws), .err none] st' ∧ Kept { st with rd := st.rd.drop (4 * c) } st') ∨
      (¬ ∃ c : Nat, 4 ≤ c ∧ c ≤ 8 ∧ words = (3 * c : Nat) ∧ (wl.getD []).length = 2048 ∧ 4 * c ≤ st.rd.length) ∧
        ∃ st' e, WhyNoPhrase words (wl.getD []) st.rd e ∧ o = .ok [.str [], .err (some e)] st' ∧ Kept st st') := by
  rcases fixed_NewMnemonic H E 300 le_rfl words wl st with ⟨c, h4, h8, hw, hl, hr, ws, st', h1, h2, h3⟩ | ⟨e, h, st', h1, h2⟩
  · exact ⟨_, .of h3 nofun, .inl ⟨c, ws, st', h4, h8, hw, hl, hr, h1, rfl, h2⟩⟩
  · exact ⟨_, .of h1 nofun, .inr ⟨h.not_phrase, st', e, h, rfl, h2⟩⟩

/-- C128. Every BIP-39 phrase is generated, from its own entropy. -/
theorem C128_every_phrase (wl : List GoString) (hl : wl.length = 2048) (ent : Bytes) (ws : List GoString)
    (h : IsBip39 H.sha256 wl ent ws) (rest : Reader) (st : State) :
    ∃ st', Ends H E repaired 0 (id! "NewMnemonic") [.int ws.length, .strs (some wl)] { st with rd := ent ++ rest }
      (.ok [.str (phraseText ws), .err none] st') ∧ Kept { st with rd := rest } st' := by
  obtain ⟨h1, h2, h3, h4⟩ := bip39_words h
  obtain ⟨o, he, ⟨c, us, st', -, -, hw, -, -, hb, rfl, hk⟩ | ⟨hno, -⟩⟩ :=
    C128_generate H E ws.length (some wl) { st with rd := ent ++ rest }
  · obtain rfl : c = ent.length / 4 := by omega
    simp only [← h2, List.take_left, List.drop_left, Option.getD_some] at hb hk
    obtain rfl := hb.2.words_unique h.2
    exact ⟨st', he, hk⟩
  · refine (hno ⟨ent.length / 4, h3, h4, by omega, by simpa using hl, ?_⟩).elim
    simp only [List.length_append]
    omega

/-- C128. The repaired `NewSeedFromMnemonic` accepts a text exactly if it is a BIP-39 phrase of the list. For every other
text, with any list, it returns an error. It never panics (C50), takes no random bytes and logs nothing (C54). -/
theorem C128_accept (mn pa : GoString) (wl : Option (List GoString)) (st : State) :
    ∃ st' e, Ends H E repaired 0 (id! "NewSeedFromMnemonic") [.str mn, .str pa, .strs wl] st (.ok [.nil, .err e] st') ∧ Kept st st' ∧
      (IsWordlist (wl.getD []) → (e = none ↔ IsPhrase H.sha256 (wl.getD []) mn)) ∧ ((wl.getD []).length ≠ 2048 → e ≠ none) ∧
      ∀ e', e = some e' → WhyNoSeed H (wl.getD []) mn e' := by
  rcases fixed_NewSeedFromMnemonic H E mn pa wl 300 le_rfl st with ⟨hl, ha, st', hk, h⟩ | ⟨e, hno, st', h, hk⟩
  · refine ⟨st', none, .of h nofun, hk, fun hwl => ?_, fun h => (h hl).elim, nofun⟩
    simp [isPhrase_iff H hwl, ha]
  · refine ⟨st', some e, .of h nofun, hk, fun hwl => ?_, fun _ => nofun, fun e' he => Option.some.inj he ▸ hno⟩
    simp only [isPhrase_iff H hwl, reduceCtorEq, false_iff]
    exact fun ha => hno.not_accepted H hwl.nodup ⟨hwl.size, ha⟩

/-- C128. Only phrases of 12, 15, 18, 21 and 24 words are accepted (C63). -/
theorem C128_lengths (mn pa : GoString) (wl : List GoString) (hwl : IsWordlist wl) (st st' : State)
    (h : Ends H E repaired 0 (id! "NewSeedFromMnemonic") [.str mn, .str pa, .strs (some wl)] st (.ok [.nil, .err none] st')) :
    (splitSpace mn).length ∈ [12, 15, 18, 21, 24] := by
  obtain ⟨st2, e, he, -, hi, -⟩ := C128_accept H E mn pa (some wl) st
  have heq := he.unique h
  simp only [Out.ok.injEq, List.cons.injEq, Value.err.injEq, and_true, true_and] at heq
  obtain ⟨ent, h1⟩ := (isPhrase_iff H hwl mn).1 ((hi hwl).1 heq.1)
  have h2 := bip39_words h1
  simp only [List.mem_cons, List.not_mem_nil, or_false]
  omega

/-- C128. What the repaired `NewMnemonic` returns, the repaired `NewSeedFromMnemonic` accepts, in every later state
(C53). -/
theorem C128_round_trip (words : Int) (wl : List GoString) (hwl : IsWordlist wl) (st st' : State) (text : GoString)
    (h : Ends H E repaired 0 (id! "NewMnemonic") [.int words, .strs (some wl)] st (.ok [.str text, .err none] st')) (pa : GoString)
    (later : State) : ∃ end', Ends H E repaired 0 (id! "NewSeedFromMnemonic") [.str text, .str pa, .strs (some wl)] later
      (.ok [.nil, .err none] end') ∧ Kept later end' := by
  obtain ⟨o, he, ⟨c, ws, st2, -, -, -, -, -, hb, rfl, -⟩ | ⟨-, st2, e, -, rfl, -⟩⟩ := C128_generate H E words (some wl) st
  · have heq := he.unique h
    simp only [Out.ok.injEq, List.cons.injEq, Value.str.injEq, and_true] at heq
    obtain ⟨end', e, h1, h2, h3, -⟩ := C128_accept H E text pa (some wl) later
    obtain rfl : e = none := (h3 hwl).2 ⟨_, ws, hb, heq.1.symm⟩
    exact ⟨end', h1, h2⟩
  · have heq := he.unique h
    simp at heq

/-- C128. Two different entropies never have the same phrase. -/
theorem C128_distinct (wl : List GoString) (hwl : IsWordlist wl) (e1 e2 : Bytes) (w1 w2 : List GoString)
    (h1 : IsBip39 H.sha256 wl e1 w1) (h2 : IsBip39 H.sha256 wl e2 w2) (h : phraseText w1 = phraseText w2) : e1 = e2 := by
  obtain ⟨l1, l1', l1''⟩ := bip39_words h1
  obtain ⟨l2, l2', l2''⟩ := bip39_words h2
  have e := congrArg splitSpace h
  rw [splitSpace_phraseText (by rintro rfl; simp only [List.length_nil] at l1; omega) fun w hw => hwl.noSpace w (h1.2.mem w hw),
    splitSpace_phraseText (by rintro rfl; simp only [List.length_nil] at l2; omega) fun w hw => hwl.noSpace w (h2.2.mem w hw)] at e
  subst e
  have hb := h1.2.bits_unique hwl.nodup h2.2
  exact bytesBits_inj (List.append_inj hb (by rw [length_bytesBits, length_bytesBits]; omega)).1

end

/-! ## Cases -/

/-- The words of the first test vector of BIP-39: "abandon" eleven times and "about". -/
def abandonAbout : List GoString := List.replicate 11 (asc "abandon") ++ [asc "about"]

theorem abandonAbout_bip39 : IsBip39 realHashes.sha256 EnglishWordlist (List.replicate 16 0) abandonAbout := by
  obtain ⟨bits, h1, h2⟩ := seedBits_known (wl := EnglishWordlist) (ws := abandonAbout) (by rw [Samples.english.size])
    (by decide +kernel)
  have h3 : bits.map bitChar = (bytesBits (List.replicate 16 0) ++ (bytesBits (realHashes.sha256 (List.replicate 16 0))).take 4).map
      bitChar := by
    have := h2 []
    rw [List.nil_append] at this
    refine Res.ok.inj (this.symm.trans ?_)
    decide +kernel
  exact ⟨by decide, map_bitChar_inj h3 ▸ h1⟩

-- from sixteen zero bytes, "abandon … abandon about" is generated (in the repository's text: another phrase), and accepted
example (E : EcdsaM) (st : State) : ∃ st' end', Ends realHashes E repaired 0 (id! "NewMnemonic") [.int 12, .strs (some EnglishWordlist)]
    { st with rd := List.replicate 16 0 ++ [7] } (.ok [.str (phraseText abandonAbout), .err none] st') ∧ st'.rd = [7] ∧
    Ends realHashes E repaired 0 (id! "NewSeedFromMnemonic") [.str (phraseText abandonAbout), .str [], .strs (some EnglishWordlist)]
      st' (.ok [.nil, .err none] end') ∧ end'.log = st.log := by
  obtain ⟨st', h1, h2⟩ := C128_every_phrase realHashes E EnglishWordlist Samples.english.size _ _ abandonAbout_bip39 [7] st
  obtain ⟨end', h3, h4⟩ := C128_round_trip realHashes E 12 EnglishWordlist Samples.english _ st' _ h1 [] st'
  exact ⟨st', end', h1, h2.rd, h3, h4.log.trans h2.log⟩

-- a list of one word is refused by both
example (E : EcdsaM) (st : State) : (∃ st', Ends realHashes E repaired 0 (id! "NewMnemonic") [.int 12, .strs (some [asc "a"])] st
    (.ok [.str [], .err (some .invalidWordlist)] st')) ∧ ∃ st', Ends realHashes E repaired 0 (id! "NewSeedFromMnemonic")
    [.str (asc "a"), .str [], .strs (some [asc "a"])] st (.ok [.nil, .err (some .invalidWordlist)] st') := by
  constructor
  · obtain ⟨o, he, ⟨c, ws, st', -, -, -, h, -⟩ | ⟨-, st', e, h, rfl, -⟩⟩ := C128_generate realHashes E 12 (some [asc "a"]) st
    · cases h
    · cases h with
      | list => exact ⟨st', he⟩
      | count h => cases h
      | random h => cases h
  · obtain ⟨st', e, he, -, -, h, h'⟩ := C128_accept realHashes E (asc "a") [] (some [asc "a"]) st
    cases e with
    | none => exact (h (by decide) rfl).elim
    | some e =>
      cases h' _ rfl with
      | list => exact ⟨st', he⟩
      | word h1 => cases h1
      | count h1 => cases h1
      | checksum h1 => cases h1

-- a phrase of eight words is refused (in the repository's text there are accepted ones)
example (E : EcdsaM) (st : State) : ∃ st', Ends realHashes E repaired 0 (id! "NewSeedFromMnemonic")
    [.str (phraseText (List.replicate 8 (asc "zoo"))), .str [], .strs (some EnglishWordlist)] st
    (.ok [.nil, .err (some .unsupportedMnemonicLength)] st') := by
  obtain ⟨st', e, he, -, -, -, h⟩ := C128_accept realHashes E (phraseText (List.replicate 8 (asc "zoo"))) [] (some EnglishWordlist) st
  cases e with
  | none => exact absurd (C128_lengths realHashes E _ _ _ Samples.english _ _ he) (by decide +kernel)
  | some e =>
    cases h _ rfl with
    | list h3 => exact (h3 Samples.english.size).elim
    | word _ h1 h2 =>
      have hall : ∀ w ∈ splitSpace (phraseText (List.replicate 8 (asc "zoo"))), w ∈ EnglishWordlist := by decide +kernel
      exact (h2 (hall _ h1)).elim
    | count => exact ⟨st', he⟩
    | checksum _ _ h3 => exact absurd h3 (by decide +kernel)

end Btc
