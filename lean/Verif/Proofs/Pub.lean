import Verif.Proofs.Arith
import Verif.Model.PublicKey

/-!
# Lemmas about serialized public keys
-/

namespace Btc

open Spec

/-- The 64-digit text of a coordinate. -/
def hex64 (m : Nat) : GoString := (fixBE 16 64 m).map digitChar

theorem pad64 (m : Nat) : padZeros 64 (bigIntToHex (some (m : Int))) = hex64 m := by
  rw [bigIntToHex, fmtBig_nat, padZeros_fmtNat m (by omega), hex64]

theorem length_hex64 {m : Nat} (h : m < 2 ^ 256) : (hex64 m).length = 64 := by
  rw [hex64, List.length_map, length_fixBE (by omega) (by
    rw [show (16 : Nat) ^ 64 = 2 ^ 256 from by decide +kernel]; exact h)]

theorem hex64_mem {m : Nat} : ∀ c ∈ hex64 m, c ∈ asc "0123456789abcdef" := by
  intro c hc
  obtain ⟨d, hd, rfl⟩ := List.mem_map.1 hc
  exact digitChar_mem (fixBE_lt (by omega) hd)

theorem hex64_isHex {m : Nat} : ∀ c ∈ hex64 m, IsHexDigit c :=
  fun c hc => isHexDigit_of_lower (hex64_mem c hc)

theorem bigSetString_hex64 {m : Nat} (h : m < 2 ^ 256) : bigSetString (hex64 m) 16 = some (m : Int) := by
  have hl := length_hex64 h
  rw [hex64, bigSetString_map_digitChar (by omega) _ (fun d hd => fixBE_lt (by omega) hd), ofBE_fixBE]
  intro h0
  rw [hex64, h0] at hl
  simp at hl

theorem hexNumber_hex64 {m : Nat} (h : m < 2 ^ 256) : hexNumber (hex64 m) = m := by
  have hb := bigSetString_hex64 h
  rw [bigSetString_hex hex64_isHex, if_neg] at hb
  · simpa using hb
  · intro h0
    have := length_hex64 h
    simp [h0] at this

theorem isHexFixed_hex64 {m : Nat} (h : m < 2 ^ 256) : IsHexFixed 64 m (hex64 m) :=
  ⟨length_hex64 h, hexNumber_hex64 h, hex64_mem⟩

/-- The bytes of a coordinate. -/
theorem hex64_spells {m : Nat} (h : m < 2 ^ 256) :
    ∃ xb : Bytes, Spells (hex64 m) xb ∧ xb.length = 32 ∧ bigEndian xb = m := by
  have hl := length_hex64 h
  obtain ⟨xb, hx⟩ := (exists_spells_iff (hex64 m)).2 ⟨hex64_isHex, by rw [hl]⟩
  refine ⟨xb, hx, ?_, ?_⟩
  · have := hx.length; omega
  · rw [← hexNumber_of_spells hx, hexNumber_hex64 h]

theorem format_false (x y : Nat) (net : Option Network) :
    format ⟨some (x : Int), some (y : Int), net⟩ false = .ok (asc "04" ++ hex64 x ++ hex64 y) := by
  simp [format, pad64]

theorem format_true (x y : Nat) (net : Option Network) :
    format ⟨some (x : Int), some (y : Int), net⟩ true =
      .ok ((if y % 2 = 0 then asc "02" else asc "03") ++ hex64 x) := by
  have e : ((y : Int) % 2 = 0) ↔ y % 2 = 0 := by omega
  by_cases h : y % 2 = 0
  · have h' := e.2 h
    simp [format, pad64, h, h']
  · have h' : ¬ ((y : Int) % 2 = 0) := fun hh => h (e.1 hh)
    simp only [format, pad64, deref_some, Res.bind_ok, h, h', if_false, Bool.not_true, Bool.false_eq_true]

/-- The serialization as bytes. -/
theorem format_spells (c : Bool) {x y : Nat} (hx : x < 2 ^ 256) (hy : y < 2 ^ 256) (net : Option Network) :
    ∃ s ser, format ⟨some (x : Int), some (y : Int), net⟩ c = .ok s ∧ Spells s ser ∧ IsSerialized c x y ser := by
  obtain ⟨xb, sx, lx, vx⟩ := hex64_spells hx
  obtain ⟨yb, sy, ly, vy⟩ := hex64_spells hy
  cases c with
  | false =>
    have h4 : Spells (asc "04") [0x04] := hexDecode_eq_ok.1 (by decide +kernel)
    exact ⟨_, _, format_false x y net, (h4.append sx).append sy, xb, yb, lx, ly, vx, vy, by simp⟩
  | true =>
    refine ⟨_, (if y % 2 = 0 then 0x02 else 0x03) :: xb, format_true x y net, ?_, xb, yb, lx, ly, vx, vy, by simp⟩
    by_cases h : y % 2 = 0
    · have h2 : Spells (asc "02") [0x02] := hexDecode_eq_ok.1 (by decide +kernel)
      simpa only [h, if_true, List.singleton_append] using h2.append sx
    · have h3 : Spells (asc "03") [0x03] := hexDecode_eq_ok.1 (by decide +kernel)
      simpa only [h, if_false, List.singleton_append] using h3.append sx

/-- Bytes of the same length and value are the same. -/
theorem bigEndian_inj {xs ys : Bytes} (hl : xs.length = ys.length) (h : bigEndian xs = bigEndian ys) : xs = ys :=
  bytesToNat_inj hl (by rw [← bigEndian_eq, ← bigEndian_eq, h])

theorem isSerialized_unique {c : Bool} {x y : Nat} {s t : Bytes} (hs : IsSerialized c x y s)
    (ht : IsSerialized c x y t) : s = t := by
  obtain ⟨xb, yb, lx, ly, vx, vy, rfl⟩ := hs
  obtain ⟨xb', yb', lx', ly', vx', vy', rfl⟩ := ht
  obtain rfl := bigEndian_inj (lx.trans lx'.symm) (vx.trans vx'.symm)
  obtain rfl := bigEndian_inj (ly.trans ly'.symm) (vy.trans vy'.symm)
  rfl

/-- `Address` at the level of bytes. -/
theorem address_of_spells (H : Hashes) {pub : PublicKey} {c : Bool} {s : GoString} {ser pre : Bytes} {net : Network}
    (hf : format pub c = .ok s) (hs : Spells s ser) (hn : pub.Network = some net)
    (hp : Spells net.PubKeyHashPrefix pre) :
    address H pub c = .ok (base58Encode ((pre ++ hash160 H.sha256 H.ripemd160 ser) ++
      checksum H.sha256 (pre ++ hash160 H.sha256 H.ripemd160 ser))) := by
  have h1 := hp.append (spells_hexEncode (H.ripemd160 (H.sha256 ser)))
  have h2 := h1.append (spells_hexEncode (checksum H.sha256 (pre ++ H.ripemd160 (H.sha256 ser))))
  simp only [address, hf, Res.bind_ok, hexDecode_of_spells hs, hn, deref_some, hexDecode_of_spells h1,
    slice_doubleHash, hexDecode_of_spells h2, hash160]

/-! ## PublicFromHex -/

/-- The rest of `PublicFromHex` after cutting out prefix and digits of a compressed key. -/
def decompress (E : Ecdsa) (parity : Int) (X : Option Int) (network : Option Network) : Res PublicKey := do
  let (y, onCurve) ← E.getY secp256k1 X
  if !onCurve then .err .notOnSecp256k1
  else
    let yv ← deref y
    if yv % 2 ≠ parity then
      let y' ← E.multMod secp256k1 y (-1)
      .ok { X := X, Y := y', Network := network }
    else
      .ok { X := X, Y := y, Network := network }

theorem slice_mid {a b c : GoString} {m n : Nat} (ha : a.length = m) (hb : m + b.length = n) :
    slice (a ++ b ++ c) (m : Int) (n : Int) = .ok b := by
  subst ha
  rw [slice_ok (by omega) (by simp; omega)]
  congr 1
  rw [List.append_assoc, List.drop_left, List.take_left' (by omega)]

theorem slice_prefix {a c : GoString} {n : Nat} (ha : a.length = n) :
    slice (a ++ c) 0 (n : Int) = .ok a := by
  rw [slice_zero (by simp; omega), List.take_left' ha]

theorem publicFromHex_uncompressed (E : Ecdsa) {xs ys : GoString} (t : GoString) (network : Option Network)
    (hx : xs.length = 64) (hy : ys.length = 64) :
    publicFromHex E (asc "04" ++ xs ++ ys ++ t) network =
      .ok ⟨bigSetString xs 16, bigSetString ys 16, network⟩ := by
  have h0 : slice (asc "04" ++ xs ++ ys ++ t) 0 2 = .ok (asc "04") := by
    rw [List.append_assoc, List.append_assoc]; exact slice_prefix (n := 2) rfl
  have h1 : slice (asc "04" ++ xs ++ ys ++ t) 2 66 = .ok xs := by
    rw [List.append_assoc (asc "04" ++ xs)]; exact slice_mid (m := 2) (n := 66) rfl (by omega)
  have h2 : slice (asc "04" ++ xs ++ ys ++ t) 66 130 = .ok ys :=
    slice_mid (m := 66) (n := 130) (by rw [List.length_append, hx]; rfl) (by omega)
  simp only [publicFromHex, h0, h1, h2, Res.bind_ok, if_true]

theorem publicFromHex_even (E : Ecdsa) {xs : GoString} (t : GoString) (network : Option Network)
    (hx : xs.length = 64) :
    publicFromHex E (asc "02" ++ xs ++ t) network = decompress E 0 (bigSetString xs 16) network := by
  have h0 : slice (asc "02" ++ xs ++ t) 0 2 = .ok (asc "02") := by
    rw [List.append_assoc]; exact slice_prefix (n := 2) rfl
  have h1 : slice (asc "02" ++ xs ++ t) 2 66 = .ok xs := slice_mid (m := 2) (n := 66) rfl (by omega)
  have n1 : asc "02" ≠ asc "04" := by decide +kernel
  simp only [publicFromHex, h0, h1, Res.bind_ok, if_true, n1, if_false, or_true, decompress]

theorem publicFromHex_odd (E : Ecdsa) {xs : GoString} (t : GoString) (network : Option Network)
    (hx : xs.length = 64) :
    publicFromHex E (asc "03" ++ xs ++ t) network = decompress E 1 (bigSetString xs 16) network := by
  have h0 : slice (asc "03" ++ xs ++ t) 0 2 = .ok (asc "03") := by
    rw [List.append_assoc]; exact slice_prefix (n := 2) rfl
  have h1 : slice (asc "03" ++ xs ++ t) 2 66 = .ok xs := slice_mid (m := 2) (n := 66) rfl (by omega)
  have n1 : asc "03" ≠ asc "04" := by decide +kernel
  have n2 : asc "03" ≠ asc "02" := by decide +kernel
  simp only [publicFromHex, h0, h1, Res.bind_ok, if_true, n1, n2, if_false, true_or, decompress]

theorem publicFromHex_tiny (E : Ecdsa) {s : GoString} (network : Option Network) (h : s.length < 2) :
    publicFromHex E s network = .panic .sliceBounds := by
  simp only [publicFromHex]
  rw [slice_panic (by omega)]
  rfl

theorem publicFromHex_short (E : Ecdsa) {pre t : GoString} (network : Option Network)
    (hp : pre = asc "02" ∨ pre = asc "03" ∨ pre = asc "04") (h : t.length < (if pre = asc "04" then 128 else 64)) :
    publicFromHex E (pre ++ t) network = .panic .sliceBounds := by
  have hl : pre.length = 2 := by rcases hp with rfl | rfl | rfl <;> rfl
  have h0 : slice (pre ++ t) 0 2 = .ok pre := slice_prefix (n := 2) hl
  have n1 : asc "03" ≠ asc "04" := by decide +kernel
  have n2 : asc "02" ≠ asc "04" := by decide +kernel
  have hs : ∀ a b : Int, (pre ++ t).length < b → slice (pre ++ t) a b = .panic .sliceBounds :=
    fun a b hb => slice_panic (by omega)
  rcases hp with rfl | rfl | rfl
  · simp only [n2, if_false] at h
    simp only [publicFromHex, h0, Res.bind_ok, n2, if_false, or_true, if_true]
    rw [hs 2 66 (by rw [List.length_append, hl]; push_cast; omega)]
    rfl
  · simp only [n1, if_false] at h
    simp only [publicFromHex, h0, Res.bind_ok, n1, if_false, true_or, if_true]
    rw [hs 2 66 (by rw [List.length_append, hl]; push_cast; omega)]
    rfl
  · simp only [if_true] at h
    simp only [publicFromHex, h0, Res.bind_ok, if_true]
    rw [hs 66 130 (by rw [List.length_append, hl]; push_cast; omega)]
    cases hc : slice (asc "04" ++ t) 2 66 with
    | ok a => rfl
    | err e => unfold slice at hc; split at hc <;> simp at hc
    | panic p =>
      unfold slice at hc
      split at hc
      · simp at hc
      · cases hc; rfl

theorem publicFromHex_other (E : Ecdsa) {pre t : GoString} (network : Option Network) (hl : pre.length = 2)
    (hp : ¬ (pre = asc "02" ∨ pre = asc "03" ∨ pre = asc "04")) :
    publicFromHex E (pre ++ t) network = .err .unsupportedFormat := by
  have h0 : slice (pre ++ t) 0 2 = .ok pre := slice_prefix (n := 2) hl
  push Not at hp
  simp only [publicFromHex, h0, Res.bind_ok, hp.1, hp.2.1, hp.2.2, if_false, or_self]

end Btc
