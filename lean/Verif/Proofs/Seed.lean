import Verif.Model.Mnemonic
import Verif.Proofs.Bits

/-!
# `NewSeedFromMnemonic` in terms of bits
-/

namespace Btc

open Spec

/-! ## The word loop -/

theorem lookupWord_none {wl : List GoString} {w : GoString} : lookupWord wl w = none ↔ w ∉ wl := by
  induction wl with
  | nil => simp [lookupWord]
  | cons v vs ih =>
    rw [lookupWord]
    split
    · rename_i h; simp [h]
    · rename_i h; simp [ih, h]

theorem lookupWord_some {wl : List GoString} {w : GoString} {i : Nat} (h : lookupWord wl w = some i) :
    wl[i]? = some w := by
  induction wl generalizing i with
  | nil => simp [lookupWord] at h
  | cons v vs ih =>
    rw [lookupWord] at h
    split at h
    · rename_i hv; simp only [Option.some.injEq] at h; subst h; simp [hv]
    · obtain ⟨j, hj, rfl⟩ := Option.map_eq_some_iff.1 h
      simpa using ih hj

/-- The code finds a word at its first position. -/
theorem lookupWord_first {wl : List GoString} {w : GoString} {i : Nat} (h : lookupWord wl w = some i) :
    ∀ j, wl[j]? = some w → i ≤ j := by
  induction wl generalizing i with
  | nil => simp [lookupWord] at h
  | cons v vs ih =>
    rw [lookupWord] at h
    split at h
    · simp only [Option.some.injEq] at h; subst h; intros; omega
    · rename_i hv
      obtain ⟨k, hk, rfl⟩ := Option.map_eq_some_iff.1 h
      intro j hj
      cases j with
      | zero => simp at hj; exact absurd hj.symm hv
      | succ j => have := ih hk j (by simpa using hj); omega

theorem seedBits_unknown {wl ws : List GoString} {w : GoString} (hw : w ∈ ws) (h : w ∉ wl) :
    ∀ acc, seedBits wl ws acc = .err .invalidMnemonic := by
  induction ws with
  | nil => simp at hw
  | cons v vs ih =>
    intro acc
    rw [seedBits]
    cases hl : lookupWord wl v with
    | none => rfl
    | some i =>
      have : w ≠ v := by
        rintro rfl
        exact h (List.mem_of_getElem? (lookupWord_some hl))
      exact ih ((List.mem_cons.1 hw).resolve_left this) _

theorem seedBits_known {wl ws : List GoString} (hl : wl.length ≤ 2048) (h : ∀ w ∈ ws, w ∈ wl) :
    ∃ bits, SpellsBits wl ws bits ∧ ∀ acc, seedBits wl ws acc = .ok (acc ++ bits.map bitChar) := by
  induction ws with
  | nil => exact ⟨[], .nil, fun acc => by simp [seedBits]⟩
  | cons w ws ih =>
    obtain ⟨bits, h1, h2⟩ := ih (fun v hv => h v (by simp [hv]))
    cases hlw : lookupWord wl w with
    | none => exact absurd (h w (by simp)) (lookupWord_none.1 hlw)
    | some i =>
      have hi := lookupWord_some hlw
      have hlt := (List.getElem?_eq_some_iff.1 hi).1
      obtain ⟨group, hg, hn⟩ := exists_bits (k := 11) (m := i) (by omega)
      refine ⟨group ++ bits, .cons hg (by rw [hn]; exact hi) h1, fun acc => ?_⟩
      have hp := padZeros_bits (bs := group) (by rintro rfl; simp at hg)
      rw [hg, hn] at hp
      rw [seedBits, hlw]
      simp only
      rw [h2, hp]
      simp

/-! ## The nibble loop -/

/-- The hexadecimal digits of bits, four at a time. -/
def nibHex : List Bool → GoString
  | a :: b :: c :: d :: rest => digitChar (bitsNumber [a, b, c, d]) :: nibHex rest
  | _ => []

theorem nibble_hex (a b c d : Bool) :
    bigIntToHex (bigSetString ([a, b, c, d].map bitChar) 2) = [digitChar (bitsNumber [a, b, c, d])] := by
  revert a b c d
  decide +kernel

theorem nibbleLoop_ok : ∀ (k : Nat) (bits : List Bool) (acc : GoString), bits.length = 4 * k →
    (nibbleLoop (bits.map bitChar) acc).1 = .ok (acc ++ nibHex bits) := by
  intro k
  induction k with
  | zero =>
    intro bits acc h
    rw [List.length_eq_zero_iff.1 h]
    simp [nibbleLoop, nibHex]
  | succ k ih =>
    intro bits acc h
    match bits, h with
    | a :: b :: c :: d :: rest, h =>
      have hl : rest.length = 4 * k := by simp at h; omega
      simp only [List.map_cons, nibbleLoop, nibHex]
      rw [ih rest _ hl]
      have := nibble_hex a b c d
      simp only [List.map_cons, List.map_nil] at this
      rw [this]
      simp

/-- One to three characters left over crash the loop. -/
theorem nibbleLoop_panic (k : Nat) : ∀ (s acc : GoString), s.length / 4 = k → s.length % 4 ≠ 0 →
    (nibbleLoop s acc).1 = .panic .indexRange := by
  induction k with
  | zero =>
    intro s acc h1 h2
    match s, h1, h2 with
    | [_], _, _ => rfl
    | [_, _], _, _ => rfl
    | [_, _, _], _, _ => rfl
    | _ :: _ :: _ :: _ :: _, h1, _ => simp at h1; omega
  | succ k ih =>
    intro s acc h1 h2
    match s, h1, h2 with
    | [], h1, _ => simp at h1
    | [_], h1, _ => simp at h1
    | [_, _], h1, _ => simp at h1
    | [_, _, _], h1, _ => simp at h1
    | a :: b :: c :: d :: rest, h1, h2 =>
      simp only [List.length_cons] at h1 h2
      simp only [nibbleLoop]
      exact ih rest _ (by omega) (by omega)

/-- What the loop logs: all complete groups of four. -/
theorem nibbleLoop_log (k : Nat) : ∀ (s acc : GoString), s.length / 4 = k →
    (∀ l ∈ (nibbleLoop s acc).2, l.length = 4) ∧ (nibbleLoop s acc).2.flatten = s.take (4 * k) := by
  induction k with
  | zero =>
    intro s acc h1
    match s, h1 with
    | [], _ => simp [nibbleLoop]
    | [_], _ => simp [nibbleLoop]
    | [_, _], _ => simp [nibbleLoop]
    | [_, _, _], _ => simp [nibbleLoop]
    | _ :: _ :: _ :: _ :: _, h1 => simp at h1; omega
  | succ k ih =>
    intro s acc h1
    match s, h1 with
    | [], h1 => simp at h1
    | [_], h1 => simp at h1
    | [_, _], h1 => simp at h1
    | [_, _, _], h1 => simp at h1
    | a :: b :: c :: d :: rest, h1 =>
      simp only [List.length_cons] at h1
      simp only [nibbleLoop]
      obtain ⟨i1, i2⟩ := ih rest (acc ++ bigIntToHex (bigSetString [a, b, c, d] 2)) (by omega)
      refine ⟨?_, ?_⟩
      · intro l hl
        rcases List.mem_cons.1 hl with rfl | hl
        · rfl
        · exact i1 l hl
      · rw [List.flatten_cons, i2, show 4 * (k + 1) = 4 * k + 1 + 1 + 1 + 1 by omega]
        rfl

theorem length_nibHex : ∀ (k : Nat) (bits : List Bool), bits.length = 4 * k → (nibHex bits).length = k := by
  intro k
  induction k with
  | zero =>
    intro bits h
    rw [List.length_eq_zero_iff.1 h]
    simp [nibHex]
  | succ k ih =>
    intro bits h
    match bits, h with
    | a :: b :: c :: d :: rest, h =>
      simp only [List.length_cons] at h
      simp [nibHex, ih rest (by omega)]

theorem nibHex_hexDigit : ∀ (k : Nat) (bits : List Bool), bits.length = 4 * k →
    ∀ c ∈ nibHex bits, (fromHexChar c).isSome := by
  intro k
  induction k with
  | zero =>
    intro bits h
    rw [List.length_eq_zero_iff.1 h]
    simp [nibHex]
  | succ k ih =>
    intro bits h
    match bits, h with
    | a :: b :: c :: d :: rest, h =>
      simp only [List.length_cons] at h
      intro x hx
      rw [nibHex] at hx
      rcases List.mem_cons.1 hx with rfl | hx
      · have := bitsNumber_lt [a, b, c, d]
        rw [← digitOf16_eq_fromHexChar, digitOf_digitChar (by omega) (by simpa using this)]
        rfl
      · exact ih rest (by omega) x hx

theorem nibHex_byte (b : UInt8) (rest : List Bool) :
    nibHex (byteBits b ++ rest) = digitChar (b.toNat / 16) :: digitChar (b.toNat % 16) :: nibHex rest := by
  have key : ∀ b : UInt8, bitsNumber ((byteBits b).take 4) = b.toNat / 16 ∧
      bitsNumber ((byteBits b).drop 4) = b.toNat % 16 := by
    apply forall_byte
    decide +kernel
  obtain ⟨k1, k2⟩ := key b
  rw [← k1, ← k2]
  rfl

theorem nibHex_bytesBits (bs : Bytes) : nibHex (bytesBits bs) = hexEncode bs := by
  induction bs with
  | nil => rfl
  | cons b bs ih =>
    have : bytesBits (b :: bs) = byteBits b ++ bytesBits bs := rfl
    rw [this, nibHex_byte, ih]
    rfl

/-- An odd number of hexadecimal digits gives the length error. -/
theorem hexDecode_odd : ∀ (k : Nat) (s : GoString), s.length = 2 * k + 1 → (∀ c ∈ s, (fromHexChar c).isSome) →
    hexDecode s = .err .hexLength := by
  intro k
  induction k with
  | zero =>
    intro s h hd
    match s, h with
    | [a], _ =>
      obtain ⟨x, hx⟩ := Option.isSome_iff_exists.1 (hd a (by simp))
      simp [hexDecode, hx]
  | succ k ih =>
    intro s h hd
    match s, h with
    | a :: b :: rest, h =>
      simp only [List.length_cons] at h
      obtain ⟨x, hx⟩ := Option.isSome_iff_exists.1 (hd a (by simp))
      obtain ⟨y, hy⟩ := Option.isSome_iff_exists.1 (hd b (by simp))
      simp only [hexDecode, hx, hy]
      rw [ih rest (by omega) (fun c hc => hd c (by simp [hc]))]

/-- The hexadecimal digits of a number, padded to the digits of its bytes. -/
theorem padHex_bytes {bs : Bytes} (h : bs ≠ []) :
    padZeros (2 * bs.length) (bigIntToHex (some (bytesToNat bs : Int))) = hexEncode bs := by
  have h1 : bigIntToHex (some (bytesToNat bs : Int)) = fmtNat 16 (bytesToNat bs) := fmtBig_nat 16 _
  have hb : hexEncode bs = (((bs.map UInt8.toNat).flatMap fun b => [b / 16, b % 16])).map digitChar := by
    simp [hexEncode, List.map_flatMap, List.flatMap_map]
  have hl : ((bs.map UInt8.toNat).flatMap fun b => [b / 16, b % 16]).length = 2 * bs.length := by
    have := congrArg List.length hb
    simp only [List.length_map] at this
    rw [← this]
    simp
  have hlt : ∀ d ∈ ((bs.map UInt8.toNat).flatMap fun b => [b / 16, b % 16]), d < 16 := by
    intro d hd
    simp only [List.mem_flatMap, List.mem_map] at hd
    obtain ⟨_, ⟨b, _, rfl⟩, hd⟩ := hd
    have := b.toNat_lt
    simp at hd
    omega
  have hpos := List.length_pos_iff.2 h
  have hv : ofBE 16 ((bs.map UInt8.toNat).flatMap fun b => [b / 16, b % 16]) = bytesToNat bs := by
    clear h h1 hb hl hlt hpos
    induction bs with
    | nil => rfl
    | cons b bs ih =>
      rw [List.map_cons, List.flatMap_cons, ofBE_append, ih, bytesToNat_cons]
      have e : ((bs.map UInt8.toNat).flatMap fun b => [b / 16, b % 16]).length = 2 * bs.length := by
        clear ih
        induction bs with
        | nil => rfl
        | cons c cs ih => simp at ih ⊢; omega
      have e2 : ofBE 16 [b.toNat / 16, b.toNat % 16] = b.toNat := by
        simp [ofBE]; omega
      rw [e, e2, pow_mul]
      norm_num
  rw [h1, padZeros_fmtNat _ (by omega), hb, ← hv]
  have := fixBE_ofBE (b := 16) (by omega) hlt
  rw [hl] at this
  rw [this]

theorem pad64_bytes {bs : Bytes} (h : bs.length = 32) :
    padZeros 64 (bigIntToHex (some (bytesToNat bs : Int))) = hexEncode bs := by
  have := padHex_bytes (bs := bs) (by rintro rfl; simp at h)
  rwa [h] at this

/-! ## The whole function -/

/-- With unknown words: an error, nothing logged. -/
theorem newSeed_unknown (H : Hashes) {m : GoString} (p : GoString) {wl : Option (List GoString)} {w : GoString}
    (hw : w ∈ splitSpace m) (h : w ∉ wl.getD []) :
    newSeedFromMnemonic H m p wl = (.err .invalidMnemonic, []) := by
  simp only [newSeedFromMnemonic, seedBits_unknown hw h]

/-- With a number of words that is not a multiple of four: a crash. -/
theorem newSeed_panic (H : Hashes) {m : GoString} (p : GoString) {wl : List GoString} (hl : wl.length ≤ 2048)
    (hw : ∀ w ∈ splitSpace m, w ∈ wl) (h4 : (splitSpace m).length % 4 ≠ 0) :
    (newSeedFromMnemonic H m p (some wl)).1 = .panic .indexRange := by
  obtain ⟨bits, h1, h2⟩ := seedBits_known hl hw
  have hlen := h1.length
  have hp := nibbleLoop_panic _ (bits.map bitChar) [] rfl (by simp; omega)
  simp only [newSeedFromMnemonic, Option.getD_some, h2, List.nil_append]
  rcases hn : nibbleLoop (bits.map bitChar) [] with ⟨r, log⟩
  rw [hn] at hp
  simp only at hp
  rw [hp]

/-- With `4 mod 8` words: the hexadecimal length error, whatever the words. -/
theorem newSeed_odd (H : Hashes) {m : GoString} (p : GoString) {wl : List GoString} (hl : wl.length ≤ 2048)
    (hw : ∀ w ∈ splitSpace m, w ∈ wl) (h4 : (splitSpace m).length % 8 = 4) :
    (newSeedFromMnemonic H m p (some wl)).1 = .err .hexLength := by
  obtain ⟨bits, h1, h2⟩ := seedBits_known hl hw
  have hlen := h1.length
  have hbl : bits.length = 4 * (11 * (splitSpace m).length / 4) := by omega
  have hok := nibbleLoop_ok _ bits [] hbl
  have hnl := length_nibHex _ bits hbl
  have hnd := nibHex_hexDigit _ bits hbl
  simp only [newSeedFromMnemonic, Option.getD_some, h2, List.nil_append]
  rcases hn : nibbleLoop (bits.map bitChar) [] with ⟨r, log⟩
  rw [hn] at hok
  simp only [List.nil_append] at hok
  rw [hok]
  simp only
  have hgt : 11 ≤ (nibHex bits).length := by omega
  rw [slice, if_pos (by omega), slice, if_pos (by omega)]
  simp only
  rw [hexDecode_odd ((11 * (splitSpace m).length / 4 - 3) / 2)]
  · simp; omega
  · intro c hc
    exact hnd c (by simpa using List.mem_of_mem_take hc)

/-- With a multiple of eight words: the last byte of the bits is compared with SHA-256 of the others. -/
theorem newSeed_bytes_seed (H : Hashes) {m : GoString} (p : GoString) {wl : List GoString} (hl : wl.length ≤ 2048)
    (hw : ∀ w ∈ splitSpace m, w ∈ wl) (h8 : (splitSpace m).length % 8 = 0) :
    ∃ body ck log, SpellsBits wl (splitSpace m) (bytesBits (body ++ [ck])) ∧
      seedBits wl (splitSpace m) [] = .ok ((bytesBits (body ++ [ck])).map bitChar) ∧
      (∀ l ∈ log, l.length = 4) ∧ log.flatten = (bytesBits (body ++ [ck])).map bitChar ∧
      newSeedFromMnemonic H m p (some wl) =
        if (H.sha256 body).take 1 = [ck] then
          (.ok none, log ++ [hexEncode (H.sha256 body) ++ asc " 64", hexEncode (body ++ [ck]) ++ 32 :: hexEncode [ck]])
        else (.err .invalidChecksum, log) := by
  obtain ⟨bits, h1, h2⟩ := seedBits_known hl hw
  have hlen := h1.length
  have hpos : 0 < (splitSpace m).length := List.length_pos_iff.2 (splitSpace_ne_nil m)
  obtain ⟨all, ha, rfl⟩ := exists_bytes (bits := bits) (k := 11 * (splitSpace m).length / 8) (by omega)
  have hne : all ≠ [] := by rintro rfl; simp at ha; omega
  obtain ⟨body, ck, rfl⟩ : ∃ body ck, all = body ++ [ck] :=
    ⟨all.dropLast, all.getLast hne, (List.dropLast_append_getLast hne).symm⟩
  have hok := nibbleLoop_ok (2 * (body ++ [ck]).length) (bytesBits (body ++ [ck])) []
    (by rw [length_bytesBits]; omega)
  have hlog := nibbleLoop_log _ ((bytesBits (body ++ [ck])).map bitChar) [] rfl
  rw [nibHex_bytesBits, List.nil_append] at hok
  rcases hn : nibbleLoop ((bytesBits (body ++ [ck])).map bitChar) [] with ⟨r, log⟩
  rw [hn] at hok hlog
  simp only at hok hlog
  subst hok
  refine ⟨body, ck, log, h1, by rw [h2, List.nil_append], hlog.1, ?_, ?_⟩
  · rw [hlog.2, List.take_of_length_le]
    rw [List.length_map, length_bytesBits]
    omega
  · have hlh : (hexEncode (body ++ [ck])).length = 2 * body.length + 2 := by simp; omega
    have s1 : slice (hexEncode (body ++ [ck])) (((hexEncode (body ++ [ck])).length : Int) - 2)
        (hexEncode (body ++ [ck])).length = .ok (hexEncode [ck]) := by
      rw [slice, if_pos (by omega), hlh]
      rw [show ((2 * body.length + 2 : Nat) : Int) - 2 = ((2 * body.length : Nat) : Int) by push_cast; omega,
        Int.toNat_natCast, hexEncode_drop]
      simp [hexEncode]
    have s2 : slice (hexEncode (body ++ [ck])) 0 (((hexEncode (body ++ [ck])).length : Int) - 2) =
        .ok (hexEncode body) := by
      rw [slice, if_pos (by omega), hlh]
      rw [show ((2 * body.length + 2 : Nat) : Int) - 2 - 0 = ((2 * body.length : Nat) : Int) by push_cast; omega,
        Int.toNat_natCast]
      simp only [Int.toNat_zero, List.drop_zero]
      rw [hexEncode_take]
      simp
    have hsl := H.sha_len body
    have s3 : slice (hexEncode (H.sha256 body)) 0 2 = .ok (hexEncode ((H.sha256 body).take 1)) := by
      have hle : (hexEncode (H.sha256 body)).length = 64 := by simp [hsl]
      rw [slice, if_pos (by omega)]
      have := hexEncode_take (H.sha256 body) 1
      simpa using this
    have hd : hexDecode (hexEncode body) = .ok body := hexDecode_hexEncode body
    simp only [newSeedFromMnemonic, Option.getD_some, h2, List.nil_append, hn, s1, s2, hd, pad64_bytes hsl, s3]
    have h64 : (hexEncode (H.sha256 body)).length = 64 := by simp [hsl]
    by_cases hc : (H.sha256 body).take 1 = [ck]
    · rw [if_pos hc, hc, if_neg (by simp), h64]
      rfl
    · rw [if_neg hc, if_pos (fun e => hc (hexEncode_inj e))]

/-- The same without the text of the bits. -/
theorem newSeed_bytes (H : Hashes) {m : GoString} (p : GoString) {wl : List GoString} (hl : wl.length ≤ 2048)
    (hw : ∀ w ∈ splitSpace m, w ∈ wl) (h8 : (splitSpace m).length % 8 = 0) :
    ∃ body ck log, SpellsBits wl (splitSpace m) (bytesBits (body ++ [ck])) ∧
      (∀ l ∈ log, l.length = 4) ∧ log.flatten = (bytesBits (body ++ [ck])).map bitChar ∧
      newSeedFromMnemonic H m p (some wl) =
        if (H.sha256 body).take 1 = [ck] then
          (.ok none, log ++ [hexEncode (H.sha256 body) ++ asc " 64", hexEncode (body ++ [ck]) ++ 32 :: hexEncode [ck]])
        else (.err .invalidChecksum, log) := by
  obtain ⟨body, ck, log, h1, -, h⟩ := newSeed_bytes_seed H p hl hw h8
  exact ⟨body, ck, log, h1, h⟩

/-- What is logged when all words are known, whatever the outcome. -/
theorem newSeed_log (H : Hashes) {m : GoString} (p : GoString) {wl : List GoString} (hl : wl.length ≤ 2048)
    (hw : ∀ w ∈ splitSpace m, w ∈ wl) :
    ∃ bits log extra, SpellsBits wl (splitSpace m) bits ∧
      (newSeedFromMnemonic H m p (some wl)).2 = log ++ extra ∧
      (∀ l ∈ log, l.length = 4) ∧ log.flatten = (bits.map bitChar).take (4 * (bits.length / 4)) ∧
      (∀ l ∈ extra, l.length ≠ 4) := by
  have h1 : (splitSpace m).length % 4 ≠ 0 ∨ (splitSpace m).length % 8 = 4 ∨ (splitSpace m).length % 8 = 0 := by
    omega
  have hlog : ∀ bits : List Bool, (nibbleLoop (bits.map bitChar) []).2.flatten =
      (bits.map bitChar).take (4 * (bits.length / 4)) := by
    intro bits
    rw [(nibbleLoop_log _ _ [] rfl).2, List.length_map]
  rcases h1 with h1 | h1 | h1
  · have hp := newSeed_panic H p hl hw h1
    obtain ⟨bits, h2, h3⟩ := seedBits_known hl hw
    refine ⟨bits, (nibbleLoop (bits.map bitChar) []).2, [], h2, ?_, (nibbleLoop_log _ _ [] rfl).1, hlog bits, by simp⟩
    have hlen := h2.length
    have hp := nibbleLoop_panic _ (bits.map bitChar) [] rfl (by simp; omega)
    simp only [newSeedFromMnemonic, Option.getD_some, h3, List.nil_append]
    rcases hn : nibbleLoop (bits.map bitChar) [] with ⟨r, log⟩
    rw [hn] at hp
    simp only at hp
    rw [hp]
    simp
  · have hp := newSeed_odd H p hl hw h1
    obtain ⟨bits, h2, h3⟩ := seedBits_known hl hw
    refine ⟨bits, (nibbleLoop (bits.map bitChar) []).2, [], h2, ?_, (nibbleLoop_log _ _ [] rfl).1, hlog bits, by simp⟩
    revert hp
    simp only [newSeedFromMnemonic, Option.getD_some, h3, List.nil_append, List.append_nil]
    rcases hn : nibbleLoop (bits.map bitChar) [] with ⟨r, log⟩
    simp only
    repeat' split
    all_goals simp_all
  · obtain ⟨body, ck, log, h2, h3, h4, h5⟩ := newSeed_bytes H p hl hw h1
    have ht : (bytesBits (body ++ [ck])).map bitChar =
        ((bytesBits (body ++ [ck])).map bitChar).take (4 * ((bytesBits (body ++ [ck])).length / 4)) := by
      rw [List.take_of_length_le]
      rw [List.length_map, length_bytesBits]
      omega
    rw [h5]
    by_cases hc : (H.sha256 body).take 1 = [ck]
    · rw [if_pos hc]
      refine ⟨_, log, _, h2, rfl, h3, h4.trans ht, ?_⟩
      have hlen := h2.length
      have hpos : 0 < (splitSpace m).length := List.length_pos_iff.2 (splitSpace_ne_nil m)
      rw [length_bytesBits] at hlen
      intro l hl'
      have hsl := H.sha_len body
      simp only [List.mem_cons, List.not_mem_nil, or_false] at hl'
      rcases hl' with rfl | rfl
      · simp [hsl]; omega
      · simp only [List.length_append, length_hexEncode, List.length_cons] at hlen ⊢
        omega
    · rw [if_neg hc]
      exact ⟨_, log, [], h2, by simp, h3, h4.trans ht, by simp⟩

end Btc
