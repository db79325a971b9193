import Verif.Proofs.Count
import Verif.Props.RandomTests

/-!
# C133: the repaired text generates every key and every phrase equally often

C84 and C85 count the random bytes that give one key and one phrase with the text of the repository; there, a sixteenth of
all keys and half or less of all phrases are never generated. With the repaired text every key from 1 to n - 1 is generated
from equally many random bytes, and so is every phrase of BIP-39.
-/

namespace Btc

open Spec Mem Source

set_option linter.constructorNameAsVariable false

namespace Spec

/-- Specification: calls of the repaired `GeneratePrivateKey`, one after the other, return keys with these numbers. -/
def MakesKeys (H : Hashes) (E : EcdsaM) (network : Ptr) : List Nat → State → Prop
  | [], _ => True
  | v :: vs, st => ∃ a ob st', (Request.generatePrivateKey network).EndsFixed H E st (.ok [.priv (some a)] st') ∧
      st'.heap.privs[a]? = some ob ∧ loadInt st'.heap ob.Key = some (v : Int) ∧ MakesKeys H E network vs st'

/-- Specification: calls of the repaired `NewMnemonic`, one after the other, return the phrases of these words. -/
def MakesPhrases (H : Hashes) (E : EcdsaM) (wl : List GoString) : List (List GoString) → State → Prop
  | [], _ => True
  | ws :: wss, st => ∃ st', (Request.newMnemonic ws.length (some wl)).EndsFixed H E st
      (.ok [.str (phraseText ws), .err none] st') ∧ MakesPhrases H E wl wss st'

end Spec

/-! ## Counting the random bytes -/

theorem FirstKey_short {rd body rest : Bytes} (h : rd.length < 32) : ¬ FirstKey rd body rest := fun hf => by
  have := hf.length
  omega

/-- The first 32 bytes decide, or are skipped. -/
theorem firstKey_block {block rd : Bytes} (hl : block.length = 32) (v : Nat) :
    (∃ body rest, FirstKey (block ++ rd) body rest ∧ bigEndian body = v) ↔
      if 1 ≤ bigEndian block ∧ bigEndian block < Spec.n then bigEndian block = v
      else ∃ body rest, FirstKey rd body rest ∧ bigEndian body = v := by
  split
  · rename_i h
    have hf : FirstKey (block ++ rd) block rd := .here hl h.1 h.2
    constructor
    · rintro ⟨body, rest, h1, h2⟩
      rwa [(hf.unique h1).1]
    · exact fun h2 => ⟨block, rd, hf, h2⟩
  · rename_i h
    simp only [Source.FirstKey.skip hl h]

/-- The number of blocks of 32 bytes that are not the number of a private key. -/
theorem ncard_no_key : {bs : Bytes | bs.length = 32 ∧ ¬ (1 ≤ bigEndian bs ∧ bigEndian bs < Spec.n)}.ncard =
    256 ^ 32 - (Spec.n - 1) := by
  have h := ncard_outside 32 1 (Spec.n - 1) (by decide +kernel)
  have e : {bs : Bytes | bs.length = 32 ∧ ¬ (1 ≤ bigEndian bs ∧ bigEndian bs < Spec.n)} =
      {bs : Bytes | bs.length = 32 ∧ ¬ (1 ≤ bytesToNat bs ∧ bytesToNat bs ≤ Spec.n - 1)} := by
    ext x
    simp only [Set.mem_ofPred_eq, bigEndian_eq]
    have : 0 < Spec.n := by decide +kernel
    constructor <;> rintro ⟨h1, h2⟩ <;> exact ⟨h1, by omega⟩
  rw [e, h]
  rfl

/-- Streams in which the first key has the number `v`. -/
def keyStreams (v L : Nat) : Set Bytes := {rd | rd.length = L ∧ ∃ body rest, FirstKey rd body rest ∧ bigEndian body = v}

theorem keyStreams_step (v L : Nat) (h1 : 1 ≤ v) (h2 : v < Spec.n) :
    (keyStreams v (32 + L)).ncard = 256 ^ L + (256 ^ 32 - (Spec.n - 1)) * (keyStreams v L).ncard := by
  obtain ⟨b, hb, hv⟩ := exists_bytes_of_lt (k := 32) (v := v) (lt_trans h2 (by decide +kernel))
  rw [← bigEndian_eq] at hv
  have e : keyStreams v (32 + L) = {bs : Bytes | ∃ a ∈ ({b} : Set Bytes), ∃ c ∈ {c : Bytes | c.length = L}, bs = a ++ c} ∪
      {bs : Bytes | ∃ a ∈ {a : Bytes | a.length = 32 ∧ ¬ (1 ≤ bigEndian a ∧ bigEndian a < Spec.n)}, ∃ c ∈ keyStreams v L,
        bs = a ++ c} := by
    ext x
    simp only [keyStreams, Set.mem_ofPred_eq, Set.mem_union, Set.mem_singleton_iff, exists_eq_left]
    constructor
    · rintro ⟨hx, hf⟩
      have hl : (x.take 32).length = 32 := by rw [List.length_take]; omega
      have hd : (x.drop 32).length = L := by rw [List.length_drop]; omega
      rw [← List.take_append_drop 32 x, firstKey_block hl] at hf
      split at hf
      · refine .inl ⟨x.drop 32, hd, ?_⟩
        rw [← bytesToNat_inj (hl.trans hb.symm) (by rw [← bigEndian_eq, ← bigEndian_eq, hf, hv]), List.take_append_drop]
      · rename_i hn
        exact .inr ⟨_, ⟨hl, hn⟩, _, ⟨hd, hf⟩, (List.take_append_drop 32 x).symm⟩
    · rintro (⟨c, hc, rfl⟩ | ⟨a, ⟨ha, hn⟩, c, ⟨hc, hf⟩, rfl⟩)
      · refine ⟨by rw [List.length_append, hb, hc], ?_⟩
        rw [firstKey_block hb, if_pos (by rw [hv]; exact ⟨h1, h2⟩)]
        exact hv
      · refine ⟨by rw [List.length_append, ha, hc], ?_⟩
        rw [firstKey_block ha, if_neg hn]
        exact hf
  have fin : ∀ s : Set Bytes, (∀ x ∈ s, x.length = 32 + L) → s.Finite := fun s h => (finite_length (32 + L)).subset h
  rw [e, Set.ncard_union_eq ?_ (fin _ ?_) (fin _ ?_), ncard_append (k := 32) (by rintro a rfl; exact hb), Set.ncard_singleton,
    one_mul, ncard_length, ncard_append (k := 32) (fun a h => h.1), ncard_no_key]
  · rw [Set.disjoint_left]
    rintro x ⟨a, rfl, c, hc, rfl⟩ ⟨a', ⟨ha, hn⟩, c', -, e'⟩
    have := (List.append_inj e' (hb.trans ha.symm)).1
    subst this
    exact hn (by rw [hv]; exact ⟨h1, h2⟩)
  · rintro x ⟨a, rfl, c, hc, rfl⟩
    rw [List.length_append, hb, hc]
  · rintro x ⟨a, ⟨ha, -⟩, c, ⟨hc, -⟩, rfl⟩
    rw [List.length_append, ha, hc]

theorem ncard_keyStreams (v m r : Nat) (hr : r < 32) (h1 : 1 ≤ v) (h2 : v < Spec.n) :
    (keyStreams v (32 * m + r)).ncard * (Spec.n - 1) + (256 ^ 32 - (Spec.n - 1)) ^ m * 256 ^ r = 256 ^ (32 * m + r) := by
  induction m with
  | zero =>
    have : keyStreams v (32 * 0 + r) = ∅ := by
      ext x
      simp only [keyStreams, Set.mem_ofPred_eq, Set.mem_empty_iff_false, iff_false]
      rintro ⟨hx, body, rest, hf, -⟩
      exact FirstKey_short (by omega) hf
    rw [this, Set.ncard_empty]
    simp
  | succ m ih =>
    rw [show 32 * (m + 1) + r = 32 + (32 * m + r) by ring, keyStreams_step v _ h1 h2, pow_add 256 32 (32 * m + r), ← ih]
    have hle : Spec.n - 1 ≤ 256 ^ 32 := by decide +kernel
    obtain ⟨d, hd⟩ := Nat.exists_eq_add_of_le hle
    rw [hd, Nat.add_sub_cancel_left]
    ring

/-- Streams without a key. -/
theorem ncard_noKey (m r : Nat) (hr : r < 32) :
    {rd : Bytes | rd.length = 32 * m + r ∧ ¬ ∃ body rest, FirstKey rd body rest}.ncard =
      (256 ^ 32 - (Spec.n - 1)) ^ m * 256 ^ r := by
  induction m with
  | zero =>
    have : {rd : Bytes | rd.length = 32 * 0 + r ∧ ¬ ∃ body rest, FirstKey rd body rest} = {rd : Bytes | rd.length = r} := by
      ext x
      simp only [Set.mem_ofPred_eq, Nat.mul_zero, Nat.zero_add, and_iff_left_iff_imp]
      rintro hx ⟨body, rest, hf⟩
      exact FirstKey_short (by omega) hf
    rw [this, ncard_length, pow_zero, one_mul]
  | succ m ih =>
    have : {rd : Bytes | rd.length = 32 * (m + 1) + r ∧ ¬ ∃ body rest, FirstKey rd body rest} =
        {bs : Bytes | ∃ a ∈ {a : Bytes | a.length = 32 ∧ ¬ (1 ≤ bigEndian a ∧ bigEndian a < Spec.n)},
          ∃ c ∈ {rd : Bytes | rd.length = 32 * m + r ∧ ¬ ∃ body rest, FirstKey rd body rest}, bs = a ++ c} := by
      ext x
      simp only [Set.mem_ofPred_eq]
      constructor
      · rintro ⟨hx, hf⟩
        have hl : (x.take 32).length = 32 := by rw [List.length_take]; omega
        have hn : ¬ (1 ≤ bigEndian (x.take 32) ∧ bigEndian (x.take 32) < Spec.n) := fun h =>
          hf ⟨_, _, (List.take_append_drop 32 x) ▸ FirstKey.here hl h.1 h.2⟩
        refine ⟨_, ⟨hl, hn⟩, x.drop 32, ⟨by rw [List.length_drop]; omega, ?_⟩, (List.take_append_drop 32 x).symm⟩
        rintro ⟨body, rest, h⟩
        exact hf ⟨body, rest, (List.take_append_drop 32 x) ▸ FirstKey.later hl hn h⟩
      · rintro ⟨a, ⟨ha, hn⟩, c, ⟨hc, hf⟩, rfl⟩
        refine ⟨by rw [List.length_append, ha, hc]; ring, ?_⟩
        rintro ⟨body, rest, h⟩
        exact hf ⟨body, rest, (Source.FirstKey.skip ha hn).1 h⟩
    rw [this, ncard_append (k := 32) (fun a h => h.1), ncard_no_key, ih]
    ring

/-! ## C133 -/

section
variable (H : Hashes) (E : EcdsaM) (st : State) (hN : OrderKnown st) (network : Ptr) (net : Network) (hnet : NetAt st network net)
  (pre : Bytes) (hp : Spells net.PrivKeyPrefix pre)
include hN hnet hp

/-- The repaired `GeneratePrivateKey` returns a key with the number `v` just for the streams whose first key is `v`. -/
theorem generates_iff (rd : Reader) (v : Nat) :
    (∃ a ob st', (Request.generatePrivateKey network).EndsFixed H E { st with rd := rd } (.ok [.priv (some a)] st') ∧
      st'.heap.privs[a]? = some ob ∧ loadInt st'.heap ob.Key = some (v : Int)) ↔
      ∃ body rest, FirstKey rd body rest ∧ bigEndian body = v := by
  have gen := C127_generate H E { st with rd := rd } hN network net hnet pre hp
  obtain ⟨o, he, hor⟩ := gen
  constructor
  · rintro ⟨a, ob, st', h1, h2, h3⟩
    obtain rfl := he.unique h1
    rcases hor with ⟨body, rest, wif, st1, a1, hf, e, -, -, hk⟩ | ⟨-, _, e, -⟩
    · cases e
      obtain ⟨ob1, g1, g2, -⟩ := hk.object
      rw [show (st'.heap.privs[a]?) = some ob1 from g1] at h2
      cases h2
      rw [g2] at h3
      exact ⟨body, rest, hf, by simpa using h3⟩
    · cases e
  · rintro ⟨body, rest, hf, rfl⟩
    rcases hor with ⟨body1, rest1, wif, st1, a1, hf1, rfl, -, -, hk⟩ | ⟨hno, -⟩
    · obtain ⟨rfl, rfl⟩ := hf.unique hf1
      obtain ⟨ob1, g1, g2, -⟩ := hk.object
      exact ⟨a1, ob1, st1, he, g1, g2⟩
    · exact (hno ⟨body, rest, hf⟩).elim

/-- It panics just for the streams without a key. -/
theorem generate_panics_iff (rd : Reader) :
    (∃ pn st', (Request.generatePrivateKey network).EndsFixed H E { st with rd := rd } (.panic pn st')) ↔
      ¬ ∃ body rest, FirstKey rd body rest := by
  obtain ⟨o, he, hor⟩ := C127_generate H E { st with rd := rd } hN network net hnet pre hp
  constructor
  · rintro ⟨pn, st', h1⟩
    obtain rfl := he.unique h1
    rcases hor with ⟨_, _, _, _, _, _, e, -⟩ | ⟨h, -⟩
    · cases e
    · exact h
  · intro h
    rcases hor with ⟨body, rest, _, _, _, hf, -⟩ | ⟨-, st', rfl, -⟩
    · exact (h ⟨body, rest, hf⟩).elim
    · exact ⟨_, _, he⟩

/-- C133. Every number from 1 to n - 1 is the number of the generated key for equally many random bytes: of the streams of
`32 m + r` bytes, those on which the call does not fail are divided equally among the n - 1 keys. -/
theorem C133_keys (v m r : Nat) (hr : r < 32) (h1 : 1 ≤ v) (h2 : v < Spec.n) :
    {rd : Reader | rd.length = 32 * m + r ∧ ∃ a ob st',
      (Request.generatePrivateKey network).EndsFixed H E { st with rd := rd } (.ok [.priv (some a)] st') ∧
      st'.heap.privs[a]? = some ob ∧ loadInt st'.heap ob.Key = some (v : Int)}.ncard * (Spec.n - 1) +
    {rd : Reader | rd.length = 32 * m + r ∧ ∃ pn st',
      (Request.generatePrivateKey network).EndsFixed H E { st with rd := rd } (.panic pn st')}.ncard = 256 ^ (32 * m + r) := by
  simp only [generates_iff H E st hN network net hnet pre hp, generate_panics_iff H E st hN network net hnet pre hp]
  rw [ncard_noKey m r hr]
  exact ncard_keyStreams v m r hr h1 h2

/-- C133. The number of streams on which the call fails: less than one in 2^127 for each 32 bytes. -/
theorem C133_failures (m r : Nat) (hr : r < 32) :
    {rd : Reader | rd.length = 32 * m + r ∧ ∃ pn st',
      (Request.generatePrivateKey network).EndsFixed H E { st with rd := rd } (.panic pn st')}.ncard =
        (2 ^ 256 - (Spec.n - 1)) ^ m * 256 ^ r ∧
    (2 ^ 127) ^ m * {rd : Reader | rd.length = 32 * m + r ∧ ∃ pn st',
      (Request.generatePrivateKey network).EndsFixed H E { st with rd := rd } (.panic pn st')}.ncard ≤ 256 ^ (32 * m + r) := by
  simp only [generate_panics_iff H E st hN network net hnet pre hp]
  rw [ncard_noKey m r hr]
  refine ⟨by norm_num, ?_⟩
  rw [← mul_assoc, ← mul_pow, pow_add, pow_mul]
  exact Nat.mul_le_mul_right _ (Nat.pow_le_pow_left (by decide +kernel) _)

end

section
variable (H : Hashes) (E : EcdsaM) (wl : List GoString) (hwl : IsWordlist wl) (st : State)
include hwl

/-- The repaired `NewMnemonic` returns a phrase just for the streams that start with its entropy. -/
theorem new_phrase_iff (ent : Bytes) (ws : List GoString) (h : IsBip39 H.sha256 wl ent ws) (rd : Reader) :
    (∃ st', (Request.newMnemonic ws.length (some wl)).EndsFixed H E { st with rd := rd }
      (.ok [.str (phraseText ws), .err none] st')) ↔ ∃ rest, rd = ent ++ rest := by
  constructor
  · rintro ⟨st', h1⟩
    obtain ⟨l1, l2, l3, l4⟩ := bip39_words h
    obtain ⟨o, he, ⟨c, us, st1, -, -, hw, -, hr, hb, rfl, -⟩ | ⟨-, st1, e, -, rfl, -⟩⟩ :=
      C128_generate H E ws.length (some wl) { st with rd := rd }
    · obtain e := he.unique h1
      simp only [Out.ok.injEq, List.cons.injEq, Value.str.injEq, and_true] at e
      have := C128_distinct H wl hwl _ _ _ _ hb h e.1
      refine ⟨rd.drop (4 * c), ?_⟩
      rw [← this]
      exact (List.take_append_drop _ rd).symm
    · have e := he.unique h1
      simp at e
  · rintro ⟨rest, rfl⟩
    obtain ⟨st', h1, -⟩ := C128_every_phrase H E wl hwl.size ent ws h rest st
    exact ⟨st', h1⟩

/-- C133. Every phrase of BIP-39 is returned for equally many random bytes: of the streams of `L` bytes, exactly one in
`256^e`, where `e` is the number of bytes of entropy of such a phrase. -/
theorem C133_phrases (ent : Bytes) (ws : List GoString) (h : IsBip39 H.sha256 wl ent ws) (L : Nat) (hL : ent.length ≤ L) :
    {rd : Reader | rd.length = L ∧ ∃ st', (Request.newMnemonic ws.length (some wl)).EndsFixed H E { st with rd := rd }
      (.ok [.str (phraseText ws), .err none] st')}.ncard * 256 ^ ent.length = 256 ^ L := by
  simp only [new_phrase_iff H E wl hwl st ent ws h]
  have e : {rd : Reader | rd.length = L ∧ ∃ rest, rd = ent ++ rest} =
      {bs : Bytes | ∃ a ∈ ({ent} : Set Bytes), ∃ b ∈ {b : Bytes | b.length = L - ent.length}, bs = a ++ b} := by
    ext x
    simp only [Set.mem_ofPred_eq, Set.mem_singleton_iff, exists_eq_left]
    constructor
    · rintro ⟨hx, rest, rfl⟩
      rw [List.length_append] at hx
      exact ⟨rest, by omega, rfl⟩
    · rintro ⟨b, hb, rfl⟩
      exact ⟨by rw [List.length_append, hb]; omega, b, rfl⟩
  rw [e, ncard_append (k := ent.length) (by rintro a rfl; rfl), Set.ncard_singleton, one_mul, ncard_length, ← pow_add]
  congr 1
  omega

/-- C133. The number of texts that the call returns for `3 c` words: one for each entropy of `4 c` bytes. -/
theorem C133_number_of_phrases (c : Nat) (h4 : 4 ≤ c) (h8 : c ≤ 8) :
    {m : GoString | ∃ rd st', (Request.newMnemonic (3 * c : Nat) (some wl)).EndsFixed H E { st with rd := rd }
      (.ok [.str m, .err none] st')}.ncard = 256 ^ (4 * c) := by
  rw [← ncard_length (4 * c)]
  have ex : ∀ ent ∈ {ent : Bytes | ent.length = 4 * c}, ∃ ws, IsBip39 H.sha256 wl ent ws ∧ ws.length = 3 * c := by
    intro ent hl
    simp only [Set.mem_ofPred_eq] at hl
    obtain ⟨o, he, ⟨c', us, st1, -, -, hw, -, hr, hb, rfl, -⟩ | ⟨hno, -⟩⟩ :=
      C128_generate H E (3 * c : Nat) (some wl) { st with rd := ent }
    · obtain rfl : c' = c := by omega
      have hb : IsBip39 H.sha256 wl (ent.take (4 * c')) us := hb
      rw [List.take_of_length_le (le_of_eq hl)] at hb
      exact ⟨us, hb, by have := bip39_words hb; omega⟩
    · exact (hno ⟨c, h4, h8, rfl, hwl.size, le_of_eq hl.symm⟩).elim
  symm
  apply Set.ncard_congr (fun ent h => phraseText (ex ent h).choose)
  · intro ent h
    obtain ⟨h1, h2⟩ := (ex ent h).choose_spec
    refine ⟨ent, ?_⟩
    have := (new_phrase_iff H E wl hwl st ent _ h1 ent).2 ⟨[], (List.append_nil _).symm⟩
    rwa [h2] at this
  · intro a b ha hb e
    exact C128_distinct H wl hwl _ _ _ _ (ex a ha).choose_spec.1 (ex b hb).choose_spec.1 e
  · rintro m ⟨rd, st', h1⟩
    obtain ⟨o, he, ⟨c', us, st1, -, -, hw, -, hr, hb, rfl, -⟩ | ⟨-, st1, e, -, rfl, -⟩⟩ :=
      C128_generate H E (3 * c : Nat) (some wl) { st with rd := rd }
    · obtain rfl : c' = c := by omega
      obtain e := he.unique h1
      simp only [Out.ok.injEq, List.cons.injEq, Value.str.injEq, and_true] at e
      have hl : (rd.take (4 * c')).length = 4 * c' := by rw [List.length_take]; exact min_eq_left hr
      refine ⟨_, hl, ?_⟩
      rw [← e.1, (ex _ hl).choose_spec.1.2.words_unique hb.2]
    · have e := he.unique h1
      simp at e

end

/-! ## C133, calls one after the other -/

/-- Streams that give keys with the numbers `vs`, one after the other. -/
def drawStreams (vs : List Nat) (L : Nat) : Set Bytes :=
  {rd | rd.length = L ∧ ∃ rest, DrawsAll (First fun v => 1 ≤ v ∧ v < Spec.n) vs rd rest}

theorem drawStreams_short (v : Nat) (vs : List Nat) (L : Nat) (hL : L < 32) : (drawStreams (v :: vs) L).ncard = 0 := by
  have : drawStreams (v :: vs) L = ∅ := by
    ext x
    simp only [drawStreams, Set.mem_ofPred_eq, Set.mem_empty_iff_false, iff_false]
    rintro ⟨hx, rest, mid, h, -⟩
    have := h.short
    omega
  rw [this, Set.ncard_empty]

theorem drawStreams_step (v : Nat) (vs : List Nat) (L : Nat) (h1 : 1 ≤ v) (h2 : v < Spec.n) :
    (drawStreams (v :: vs) (32 + L)).ncard =
      (drawStreams vs L).ncard + (256 ^ 32 - (Spec.n - 1)) * (drawStreams (v :: vs) L).ncard := by
  obtain ⟨b, hb, hv⟩ := exists_bytes_of_lt (k := 32) (v := v) (lt_trans h2 (by decide +kernel))
  rw [← bigEndian_eq] at hv
  have e : drawStreams (v :: vs) (32 + L) = {bs : Bytes | ∃ a ∈ ({b} : Set Bytes), ∃ c ∈ drawStreams vs L, bs = a ++ c} ∪
      {bs : Bytes | ∃ a ∈ {a : Bytes | a.length = 32 ∧ ¬ (1 ≤ bigEndian a ∧ bigEndian a < Spec.n)},
        ∃ c ∈ drawStreams (v :: vs) L, bs = a ++ c} := by
    ext x
    simp only [drawStreams, Set.mem_ofPred_eq, Set.mem_union, Set.mem_singleton_iff, exists_eq_left]
    constructor
    · rintro ⟨hx, rest, mid, h3, h4⟩
      cases h3 with
      | @here block _ g1 g2 =>
        rw [List.length_append, g1] at hx
        exact .inl ⟨mid, ⟨by omega, rest, h4⟩, by
          rw [bytesToNat_inj (g1.trans hb.symm) (by rw [← bigEndian_eq, ← bigEndian_eq, hv])]⟩
      | @later block rd _ _ g1 g2 g3 =>
        rw [List.length_append, g1] at hx
        exact .inr ⟨block, ⟨g1, g2⟩, rd, ⟨by omega, rest, mid, g3, h4⟩, rfl⟩
    · rintro (⟨c, ⟨hc, rest, h3⟩, rfl⟩ | ⟨a, ⟨ha, hn⟩, c, ⟨hc, rest, mid, h3, h4⟩, rfl⟩)
      · refine ⟨by rw [List.length_append, hb, hc], rest, c, ?_, h3⟩
        have := First.here (good := fun v => 1 ≤ v ∧ v < Spec.n) (rest := c) hb (by rw [hv]; exact ⟨h1, h2⟩)
        rwa [hv] at this
      · exact ⟨by rw [List.length_append, ha, hc], rest, mid, .later ha hn h3, h4⟩
  have fin : ∀ s : Set Bytes, (∀ x ∈ s, x.length = 32 + L) → s.Finite := fun s h => (finite_length (32 + L)).subset h
  rw [e, Set.ncard_union_eq ?_ (fin _ ?_) (fin _ ?_), ncard_append (k := 32) (by rintro a rfl; exact hb), Set.ncard_singleton,
    one_mul, ncard_append (k := 32) (fun a h => h.1), ncard_no_key]
  · rw [Set.disjoint_left]
    rintro x ⟨a, rfl, c, hc, rfl⟩ ⟨a', ⟨ha, hn⟩, c', -, e'⟩
    have := (List.append_inj e' (hb.trans ha.symm)).1
    subst this
    exact hn (by rw [hv]; exact ⟨h1, h2⟩)
  · rintro x ⟨a, rfl, c, hc, rfl⟩
    rw [List.length_append, hb, hc.1]
  · rintro x ⟨a, ⟨ha, -⟩, c, ⟨hc, -⟩, rfl⟩
    rw [List.length_append, ha, hc]

theorem drawStreams_equal : ∀ (vs us : List Nat) (L : Nat), vs.length = us.length → (∀ v ∈ vs, 1 ≤ v ∧ v < Spec.n) →
    (∀ u ∈ us, 1 ≤ u ∧ u < Spec.n) → (drawStreams vs L).ncard = (drawStreams us L).ncard := by
  intro vs
  induction vs with
  | nil =>
    intro us L h _ _
    rw [List.length_eq_zero_iff.1 h.symm]
  | cons v vs ih =>
    intro us L h hvs hus
    obtain ⟨u, us, rfl⟩ : ∃ u us', us = u :: us' := by
      cases us with
      | nil => simp at h
      | cons u us => exact ⟨u, us, rfl⟩
    induction L using Nat.strong_induction_on with
    | _ L ihL =>
      by_cases hL : L < 32
      · rw [drawStreams_short _ _ _ hL, drawStreams_short _ _ _ hL]
      · obtain ⟨L, rfl⟩ := Nat.exists_eq_add_of_le (Nat.le_of_not_lt hL)
        obtain ⟨a1, a2⟩ := hvs v (by simp)
        obtain ⟨b1, b2⟩ := hus u (by simp)
        rw [drawStreams_step v vs L a1 a2, drawStreams_step u us L b1 b2, ihL L (by omega),
          ih us L (by simpa using h) (fun w hw => hvs w (by simp [hw])) fun w hw => hus w (by simp [hw])]

/-- The numbers of the keys are the numbers of the successive blocks that are keys. -/
theorem makesKeys_iff (H : Hashes) (E : EcdsaM) (network : Ptr) (net : Network) (pre : Bytes) (hp : Spells net.PrivKeyPrefix pre) :
    ∀ (vs : List Nat) (st : State), OrderKnown st → NetAt st network net →
      (MakesKeys H E network vs st ↔ ∃ rest, DrawsAll (First fun v => 1 ≤ v ∧ v < Spec.n) vs st.rd rest)
  | [], st, _, _ => iff_of_true trivial ⟨st.rd, rfl⟩
  | v :: vs, st, hN, hnet => by
    obtain ⟨o, he, hor⟩ := C127_generate H E st hN network net hnet pre hp
    rcases hor with ⟨body, rest, wif, st1, a1, hf, rfl, hk, -, hka⟩ | ⟨hno, st1, rfl, -⟩
    · have hN1 : OrderKnown st1 := by
        have := hN
        unfold OrderKnown at this ⊢
        rw [← hk.heap.curve]
        exact load_grow hk.heap this
      have ih := makesKeys_iff H E network net pre hp vs st1 hN1 (hnet.kept hk)
      rw [show st1.rd = rest from hk.rd] at ih
      obtain ⟨ob1, g1, g2, -⟩ := hka.object
      have hfst : First (fun v => 1 ≤ v ∧ v < Spec.n) st.rd (bigEndian body) rest := firstKey_iff.2 ⟨body, hf, rfl⟩
      constructor
      · rintro ⟨a, ob, st', h1, h2, h3, h4⟩
        cases he.unique h1
        rw [show (st1.heap.privs[a1]?) = some ob1 from g1] at h2
        cases h2
        rw [g2] at h3
        obtain rfl : bigEndian body = v := by simpa using h3
        obtain ⟨r, h5⟩ := ih.1 h4
        exact ⟨r, rest, hfst, h5⟩
      · rintro ⟨r, mid, h1, h2⟩
        obtain ⟨rfl, rfl⟩ := hfst.unique h1
        exact ⟨a1, ob1, st1, he, g1, g2, ih.2 ⟨r, h2⟩⟩
    · constructor
      · rintro ⟨a, ob, st', h1, -⟩
        cases he.unique h1
      · rintro ⟨r, mid, h1, -⟩
        obtain ⟨body, h2, -⟩ := firstKey_iff.1 h1
        exact (hno ⟨_, _, h2⟩).elim

/-- C133. Calls one after the other are independent: any two sequences of keys of the same length come from equally many
streams, whatever the length of the streams. -/
theorem C133_key_sequences (H : Hashes) (E : EcdsaM) (st : State) (hN : OrderKnown st) (network : Ptr) (net : Network)
    (hnet : NetAt st network net) (pre : Bytes) (hp : Spells net.PrivKeyPrefix pre) (vs us : List Nat) (L : Nat)
    (hl : vs.length = us.length) (hv : ∀ v ∈ vs, 1 ≤ v ∧ v < Spec.n) (hu : ∀ u ∈ us, 1 ≤ u ∧ u < Spec.n) :
    {rd : Reader | rd.length = L ∧ MakesKeys H E network vs { st with rd := rd }}.ncard =
      {rd : Reader | rd.length = L ∧ MakesKeys H E network us { st with rd := rd }}.ncard := by
  have e : ∀ (ks : List Nat) (rd : Reader), MakesKeys H E network ks { st with rd := rd } ↔
      ∃ rest, DrawsAll (First fun v => 1 ≤ v ∧ v < Spec.n) ks rd rest :=
    fun ks rd => makesKeys_iff H E network net pre hp ks { st with rd := rd } hN hnet
  simp only [e]
  exact drawStreams_equal vs us L hl hv hu

/-- The phrases returned one after the other are those of successive pieces of the stream. -/
theorem makesPhrases_iff (H : Hashes) (E : EcdsaM) (wl : List GoString) (hwl : IsWordlist wl) {ents : List Bytes}
    {wss : List (List GoString)} (h : List.Forall₂ (IsBip39 H.sha256 wl) ents wss) : ∀ st : State,
    MakesPhrases H E wl wss st ↔ ∃ rest, st.rd = ents.flatten ++ rest := by
  induction h with
  | nil => exact fun st => iff_of_true trivial ⟨st.rd, rfl⟩
  | @cons ent ws ents wss h1 _ ih =>
    intro st
    constructor
    · rintro ⟨st', h2, h3⟩
      obtain ⟨rest, h4⟩ := (new_phrase_iff H E wl hwl st ent ws h1 st.rd).1 ⟨st', h2⟩
      obtain ⟨st2, h5, h6⟩ := C128_every_phrase H E wl hwl.size ent ws h1 rest st
      rw [← h4] at h5
      cases Ends.unique h2 h5
      obtain ⟨r, h7⟩ := (ih st').1 h3
      rw [show st'.rd = rest from h6.rd] at h7
      exact ⟨r, by rw [h4, h7, List.flatten_cons, List.append_assoc]⟩
    · rintro ⟨rest, h2⟩
      rw [List.flatten_cons, List.append_assoc] at h2
      obtain ⟨st2, h5, h6⟩ := C128_every_phrase H E wl hwl.size ent ws h1 (ents.flatten ++ rest) st
      rw [← h2] at h5
      exact ⟨st2, h5, (ih st2).2 ⟨rest, h6.rd⟩⟩

/-- C133. So are the phrases: a sequence of phrases is returned for exactly one stream in `256^e`, where `e` is the number of
bytes of entropy of all of them together. -/
theorem C133_phrase_sequences (H : Hashes) (E : EcdsaM) (wl : List GoString) (hwl : IsWordlist wl) (st : State)
    (ents : List Bytes) (wss : List (List GoString)) (h : List.Forall₂ (IsBip39 H.sha256 wl) ents wss) (L : Nat)
    (hL : (ents.map List.length).sum ≤ L) :
    {rd : Reader | rd.length = L ∧ MakesPhrases H E wl wss { st with rd := rd }}.ncard * 256 ^ (ents.map List.length).sum =
      256 ^ L := by
  have e : {rd : Reader | rd.length = L ∧ MakesPhrases H E wl wss { st with rd := rd }} =
      {bs : Bytes | ∃ a ∈ ({ents.flatten} : Set Bytes), ∃ b ∈ {b : Bytes | b.length = L - ents.flatten.length}, bs = a ++ b} := by
    ext x
    simp only [Set.mem_ofPred_eq, Set.mem_singleton_iff, exists_eq_left]
    rw [makesPhrases_iff H E wl hwl h]
    rw [← List.length_flatten] at hL
    constructor
    · rintro ⟨hx, rest, rfl⟩
      rw [List.length_append] at hx
      exact ⟨rest, by omega, rfl⟩
    · rintro ⟨b, hb, rfl⟩
      exact ⟨by rw [List.length_append, hb]; omega, b, rfl⟩
  rw [← List.length_flatten] at hL ⊢
  rw [e, ncard_append (k := ents.flatten.length) (by rintro a rfl; rfl), Set.ncard_singleton, one_mul, ncard_length, ← pow_add]
  congr 1
  omega

/-! ## Cases -/

-- of the streams of 70 bytes, the key 1 and the key n - 1 come from equally many
example : {rd : Reader | rd.length = 70 ∧ MakesKeys realHashes Samples.pkg (some 0) [1] (ready rd)}.ncard =
    {rd : Reader | rd.length = 70 ∧ MakesKeys realHashes Samples.pkg (some 0) [Spec.n - 1] (ready rd)}.ncard :=
  C133_key_sequences realHashes Samples.pkg (ready []) (C127_init realHashes Samples.pkg []).2.1 (some 0) MainNetwork rfl [0x80]
    main_prefix [1] [Spec.n - 1] 70 rfl (by decide +kernel) (by decide +kernel)

-- of the streams of 32 bytes, exactly one gives the key 5
example : {rd : Reader | rd.length = 32 * 1 + 0 ∧ ∃ a ob st',
      (Request.generatePrivateKey (some 0)).EndsFixed realHashes Samples.pkg { ready [] with rd := rd } (.ok [.priv (some a)] st') ∧
      st'.heap.privs[a]? = some ob ∧ loadInt st'.heap ob.Key = some ((5 : Nat) : Int)}.ncard = 1 := by
  have hN := (C127_init realHashes Samples.pkg []).2.1
  have h := C133_keys realHashes Samples.pkg (ready []) hN (some 0) MainNetwork rfl [0x80] main_prefix 5 1 0 (by decide) (by decide)
    (by decide +kernel)
  rw [(C133_failures realHashes Samples.pkg (ready []) hN (some 0) MainNetwork rfl [0x80] main_prefix 1 0 (by decide)).1] at h
  generalize Set.ncard _ = N at h ⊢
  have h1 : (2 ^ 256 - (Spec.n - 1)) ^ 1 * 256 ^ 0 + (Spec.n - 1) = 256 ^ (32 * 1 + 0) := by decide +kernel
  have h2 : 0 < Spec.n - 1 := by decide +kernel
  have h3 : N * (Spec.n - 1) = 1 * (Spec.n - 1) := by
    rw [one_mul]
    exact Nat.add_right_cancel (h.trans (by rw [← h1, add_comm]))
  exact Nat.eq_of_mul_eq_mul_right h2 h3

-- the phrase of sixteen zero bytes is returned for one stream in 256^16
example : {rd : Reader | rd.length = 20 ∧ ∃ st', (Request.newMnemonic abandonAbout.length (some EnglishWordlist)).EndsFixed realHashes
      Samples.pkg { ready [] with rd := rd } (.ok [.str (phraseText abandonAbout), .err none] st')}.ncard * 256 ^ 16 = 256 ^ 20 :=
  C133_phrases realHashes Samples.pkg EnglishWordlist Samples.english (ready []) (List.replicate 16 0) abandonAbout
    abandonAbout_bip39 20 (by decide)

-- twice in succession, for one in 256^32
example : {rd : Reader | rd.length = 40 ∧ MakesPhrases realHashes Samples.pkg EnglishWordlist [abandonAbout, abandonAbout]
      { ready [] with rd := rd }}.ncard * 256 ^ 32 = 256 ^ 40 :=
  C133_phrase_sequences realHashes Samples.pkg EnglishWordlist Samples.english (ready [])
    [List.replicate 16 0, List.replicate 16 0] [abandonAbout, abandonAbout]
    (.cons abandonAbout_bip39 (.cons abandonAbout_bip39 .nil)) 40 (by decide)

-- there are 2^256 phrases of 24 English words
example : {m : GoString | ∃ rd st', (Request.newMnemonic (3 * 8 : Nat) (some EnglishWordlist)).EndsFixed realHashes Samples.pkg
      { ready [] with rd := rd } (.ok [.str m, .err none] st')}.ncard = 2 ^ 256 := by
  rw [C133_number_of_phrases realHashes Samples.pkg EnglishWordlist Samples.english (ready []) 8 (by decide) (by decide)]
  norm_num

end Btc
