import Mathlib.Data.Nat.Size
import Verif.Proofs.RandInt
import Verif.Proofs.Seed

/-!
# `NewMnemonic` in terms of bits
-/

namespace Btc

open Spec

/-! ## Randomness -/

theorem size_pow_sub_one (L : Nat) : Nat.size (2 ^ L - 1) = L := by
  apply le_antisymm
  · exact Nat.size_le.2 (by have := Nat.one_le_two_pow (n := L); omega)
  · rcases Nat.eq_zero_or_pos L with h | h
    · omega
    · have h1 : 2 ^ (L - 1) ≤ 2 ^ L - 1 := by
        have h2 : 2 ^ L = 2 * 2 ^ (L - 1) := by rw [← pow_succ']; congr 1; omega
        have := Nat.one_le_two_pow (n := L - 1)
        omega
      have := Nat.lt_size.2 h1
      omega

/-- Drawing below a power of `256` reads exactly that many bytes once. -/
theorem randInt_bytes (rd : Reader) {k : Nat} (hk : 0 < k) :
    randInt rd (2 ^ (8 * k)) =
      if k ≤ rd.length then .ok (bytesToNat (rd.take k), rd.drop k) else .err .randRead := by
  simp only [randInt, size_pow_sub_one]
  rw [if_neg (by omega), if_pos (by omega), show (8 * k + 7) / 8 = k by omega, randLoop_step _ _ _ hk,
    maskFirst_eight]
  by_cases hl : k ≤ rd.length
  · rw [if_pos hl, if_pos hl, if_pos]
    have := bytesToNat_lt (rd.take k)
    rw [List.length_take, min_eq_left hl] at this
    rw [pow_mul]
    exact this
  · rw [if_neg hl, if_neg hl]

/-! ## Leading zeros -/

theorem dropWhile_eq_drop_leadingZeros (ds : List Nat) :
    ds.dropWhile (· == 0) = ds.drop (leadingZeros ds) := by
  induction ds with
  | nil => rfl
  | cons d ds ih =>
    by_cases h : d = 0
    · subst h; rw [leadingZeros_cons_zero]; simpa using ih
    · rw [leadingZeros_cons_pos h]; simp [h]

theorem toBE_ofBE {b : Nat} (hb : 1 < b) {ds : List Nat} (h : ∀ d ∈ ds, d < b) :
    toBE b (ofBE b ds) = ds.dropWhile (· == 0) := by
  rw [dropWhile_eq_drop_leadingZeros]
  have := congrArg (List.drop (leadingZeros ds)) (canon hb h)
  rw [← this, List.drop_append]
  simp

theorem natToBytes_bytesToNat (bs : Bytes) : natToBytes (bytesToNat bs) = bs.dropWhile (· == 0) := by
  rw [natToBytes, bytesToNat, toBE_ofBE (by omega) (map_toNat_lt bs), List.dropWhile_map, List.map_map]
  conv_rhs => rw [← List.map_id (bs.dropWhile _)]
  have e : ((fun x => x == 0) ∘ UInt8.toNat) = fun b : UInt8 => b == 0 := by
    funext b
    by_cases h : b = 0
    · subst h; rfl
    · have : b.toNat ≠ 0 := fun h' => h (UInt8.toNat_inj.1 h')
      simp [h, this]
  rw [e]
  apply List.map_congr_left
  intro c _
  simp

theorem fmtNat_bits {bits : List Bool} (h : bitsNumber bits ≠ 0) :
    fmtNat 2 (bitsNumber bits) = (bits.dropWhile (· == false)).map bitChar := by
  rw [fmtNat_eq _ _ h, bitsNumber_eq, toBE_ofBE (by omega) (map_toNat_lt_two bits), List.dropWhile_map, map_bitChar]
  have e : ((fun x => x == 0) ∘ Bool.toNat) = fun b : Bool => b == false := by
    funext b
    cases b <;> rfl
  rw [e]

/-! ## The word loop -/

theorem natBit_ofDigits (ds : List Nat) (h : ∀ d ∈ ds, d < 2) (j : Nat) :
    natBit (Nat.ofDigits 2 ds) j = ds.getD j 0 := by
  unfold natBit
  induction ds generalizing j with
  | nil => simp
  | cons d ds ih =>
    have hd : d < 2 := h d (by simp)
    rw [Nat.ofDigits_cons]
    cases j with
    | zero => simp; omega
    | succ j =>
      rw [pow_succ', ← Nat.div_div_eq_div_mul, show (d + 2 * Nat.ofDigits 2 ds) / 2 = Nat.ofDigits 2 ds by omega,
        ih (fun x hx => h x (by simp [hx]))]
      rfl

theorem natBit_bitsNumber {bits : List Bool} {j : Nat} (h : j < bits.length) :
    natBit (bitsNumber bits) j = (bits.reverse[j]'(by simpa using h)).toNat := by
  rw [bitsNumber, natBit_ofDigits]
  · have h' : j < (bits.reverse.map Bool.toNat).length := by simpa using h
    rw [List.getD_eq_getElem?_getD, List.getElem?_eq_getElem h', Option.getD_some, List.getElem_map]
  · rw [List.map_reverse]
    intro d hd
    exact map_toNat_lt_two bits d (List.mem_reverse.1 hd)

theorem bitString_eq {bits : List Bool} {i : Nat} (h : i + 11 ≤ bits.length) :
    bitString (bitsNumber bits) i = ((bits.reverse.drop i).take 11).map bitChar := by
  apply List.ext_getElem
  · simp [bitString]; omega
  · intro j h1 h2
    have hj : j < 11 := by simpa [bitString] using h1
    simp only [bitString, List.getElem_map, List.getElem_range, List.getElem_take, List.getElem_drop]
    rw [natBit_bitsNumber (by omega)]
    cases bits.reverse[i + j]'(by simp; omega) <;> rfl

theorem phraseLoop_ok {wl : List GoString} {bits : List Bool} :
    ∀ (n i : Nat) (ws : List GoString), i + 11 * n = bits.length →
      phraseLoop wl (bitsNumber bits) n i = .ok ws → SpellsBits wl ws (bits.reverse.drop i) := by
  intro n
  induction n with
  | zero =>
    intro i ws hi h
    simp only [phraseLoop, Res.ok.injEq] at h
    subst h
    rw [List.drop_of_length_le (by simp; omega)]
    exact .nil
  | succ n ih =>
    intro i ws hi h
    have hne : (bits.reverse.drop i).take 11 ≠ [] := by
      intro h0
      have := congrArg List.length h0
      simp at this
      omega
    rw [phraseLoop, bitString_eq (by omega), bigSetString_bits hne] at h
    simp only [deref_some, Res.bind_ok, index, Int.natCast_nonneg, if_true, Int.toNat_natCast] at h
    cases hw : wl[bitsNumber ((bits.reverse.drop i).take 11)]? with
    | none => simp [hw] at h
    | some w =>
      rw [hw] at h
      simp only [Res.bind_ok, Res.bind_eq_ok, Res.ok.injEq] at h
      obtain ⟨ws', h1, rfl⟩ := h
      have := SpellsBits.cons (by simp; omega) hw (ih (i + 11) ws' (by omega) h1)
      rw [← List.drop_drop, List.take_append_drop] at this
      exact this

/-- The loop never returns an error; with a list of at least 2048 words it returns a phrase. -/
theorem phraseLoop_total {wl : List GoString} {bits : List Bool} :
    ∀ (n i : Nat), i + 11 * n = bits.length →
      (∃ ws, phraseLoop wl (bitsNumber bits) n i = .ok ws) ∨
      (wl.length < 2048 ∧ phraseLoop wl (bitsNumber bits) n i = .panic .indexRange) := by
  intro n
  induction n with
  | zero => intro i _; exact .inl ⟨[], rfl⟩
  | succ n ih =>
    intro i hi
    have hne : (bits.reverse.drop i).take 11 ≠ [] := by
      intro h0
      have := congrArg List.length h0
      simp at this
      omega
    rw [phraseLoop, bitString_eq (by omega), bigSetString_bits hne]
    simp only [deref_some, Res.bind_ok, index, Int.natCast_nonneg, if_true, Int.toNat_natCast]
    cases hw : wl[bitsNumber ((bits.reverse.drop i).take 11)]? with
    | none =>
      right
      refine ⟨?_, rfl⟩
      by_contra hlt
      obtain ⟨w, hw'⟩ := exists_word (wl := wl) (by omega) (group := (bits.reverse.drop i).take 11) (by simp; omega)
      rw [hw] at hw'
      exact absurd hw' (by simp)
    | some w =>
      rcases ih (i + 11) (by omega) with ⟨ws, h1⟩ | ⟨h0, h1⟩
      · left; exact ⟨w :: ws, by simp [h1]⟩
      · right; exact ⟨h0, by simp [h1]⟩

/-! ## The whole function -/

/-- The bits the code appends: taken from the hash of the entropy stripped of its leading zero bytes, after
dropping the leading zero bits of the hash. -/
def codeChecksum (sha : Bytes → Bytes) (ent : Bytes) (c : Nat) : List Bool :=
  ((bytesBits (sha (ent.dropWhile (· == 0)))).dropWhile (· == false)).take c

/-- The phrase loop applied to the bits of entropy and checksum. -/
theorem phraseOf_eq (H : Hashes) (wl : List GoString) {ent : Bytes} {c : Nat} (hc : 4 ≤ c)
    (he : ent.length = 4 * c) :
    (bytesToNat (H.sha256 (ent.dropWhile (· == 0))) < 2 ^ (c - 1) →
      phraseOf H (32 * c) (bytesToNat ent) wl = .panic .sliceBounds) ∧
    (2 ^ (c - 1) ≤ bytesToNat (H.sha256 (ent.dropWhile (· == 0))) →
      (codeChecksum H.sha256 ent c).length = c ∧
      phraseOf H (32 * c) (bytesToNat ent) wl =
        (phraseLoop wl (bitsNumber (bytesBits ent ++ codeChecksum H.sha256 ent c)) (3 * c) 0).bind
          fun ws => .ok (phraseText ws)) := by
  have hdiv : 32 * c / 32 = c := by omega
  have hlen := length_fmtNat_le_iff (b := 2) (k := c - 1) (n := bytesToNat (H.sha256 (ent.dropWhile (· == 0))))
    (by omega) (by omega)
  refine ⟨fun h => ?_, fun h => ?_⟩
  · have h1 := hlen.2 h
    simp only [phraseOf, natToBytes_bytesToNat, hdiv]
    rw [slice, if_neg (by omega)]
    rfl
  · have h1 : ¬ (fmtNat 2 (bytesToNat (H.sha256 (ent.dropWhile (· == 0))))).length ≤ c - 1 := by
      rw [hlen]; omega
    have hpos : 0 < 2 ^ (c - 1) := by positivity
    have hb : bitsNumber (bytesBits (H.sha256 (ent.dropWhile (· == 0)))) ≠ 0 := by
      rw [bitsNumber_bytesBits]; omega
    have hf := fmtNat_bits hb
    rw [bitsNumber_bytesBits] at hf
    have hcl : (codeChecksum H.sha256 ent c).length = c := by
      rw [hf, List.length_map] at h1
      rw [codeChecksum, List.length_take]
      omega
    refine ⟨hcl, ?_⟩
    simp only [phraseOf, natToBytes_bytesToNat, hdiv]
    rw [slice, if_pos (by omega), hf]
    have e1 : ((((bytesBits (H.sha256 (ent.dropWhile (· == 0)))).dropWhile (· == false)).map bitChar).drop
        (0 : Int).toNat).take ((c : Int) - 0).toNat = (codeChecksum H.sha256 ent c).map bitChar := by
      simp [codeChecksum, List.map_take]
    have e2 : padZeros (32 * c) (fmtNat 2 (bytesToNat ent)) = (bytesBits ent).map bitChar := by
      have := padZeros_bits (bs := bytesBits ent) (by
        intro h0
        have := congrArg List.length h0
        rw [length_bytesBits, List.length_nil] at this
        omega)
      rw [length_bytesBits, bitsNumber_bytesBits, he] at this
      rw [show 32 * c = 8 * (4 * c) by omega]
      exact this
    have hne : bytesBits ent ++ codeChecksum H.sha256 ent c ≠ [] := by
      intro h0
      have := congrArg List.length h0
      rw [List.length_append, hcl, List.length_nil] at this
      omega
    rw [e1, e2]
    simp only [Res.bind_ok, ← List.map_append]
    rw [bigSetString_bits hne]
    simp only [deref_some, Res.bind_ok, Int.toNat_natCast, List.length_map, List.length_append, hcl,
      length_bytesBits, he]
    rw [show (8 * (4 * c) + c + 10) / 11 = 3 * c by omega]
    simp only [joinSpace_eq]
    rfl

theorem entropyLengthOf_words {c : Nat} (h1 : 4 ≤ c) (h2 : c ≤ 8) :
    entropyLengthOf ((3 * c : Nat) : Int) = some (32 * c) := by
  interval_cases c <;> rfl

theorem entropyLengthOf_none {words : Int} (h : ∀ c : Nat, 4 ≤ c → c ≤ 8 → words ≠ ((3 * c : Nat) : Int)) :
    entropyLengthOf words = none := by
  have a := h 4 (by omega) (by omega)
  have b := h 5 (by omega) (by omega)
  have c := h 6 (by omega) (by omega)
  have d := h 7 (by omega) (by omega)
  have e := h 8 (by omega) (by omega)
  norm_num at a b c d e
  simp [entropyLengthOf, a, b, c, d, e]

theorem newMnemonic_eq (H : Hashes) (rd : Reader) (wl : List GoString) {c : Nat} (h1 : 4 ≤ c) (h2 : c ≤ 8) :
    newMnemonic H rd ((3 * c : Nat) : Int) (some wl) =
      if 4 * c ≤ rd.length then
        (phraseOf H (32 * c) (bytesToNat (rd.take (4 * c))) wl).bind fun ph => .ok (ph, rd.drop (4 * c))
      else .err .randRead := by
  simp only [newMnemonic, entropyLengthOf_words h1 h2]
  rw [show 32 * c = 8 * (4 * c) by omega, randInt_bytes rd (by omega)]
  split
  · rfl
  · rfl

end Btc
