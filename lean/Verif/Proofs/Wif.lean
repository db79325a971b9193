import Verif.Proofs.Fmt
import Verif.Model.PrivateKey

/-!
# Byte-level forms of the private-key functions
-/

namespace Btc

open Spec

/-- `PrivateFromHex` at the level of bytes. -/
theorem privateFromHex_of_spells (H : Hashes) {h : GoString} {net : Network} {bs : Bytes}
    (hs : Spells (net.PrivKeyPrefix ++ h) bs) :
    privateFromHex H h (some net) = .ok
      { Key := bigSetString h 16, Hex := h, WIF := base58Encode (bs ++ checksum H.sha256 bs),
        Network := some net } := by
  have h2 : hexDecode ((net.PrivKeyPrefix ++ h) ++ hexEncode (checksum H.sha256 bs)) =
      .ok (bs ++ checksum H.sha256 bs) :=
    hexDecode_of_spells (hs.append (spells_hexEncode _))
  simp only [privateFromHex, deref_some, Res.bind_ok, hexDecode_of_spells hs, slice_doubleHash, h2]

theorem privateFromHex_of_err (H : Hashes) {h : GoString} {net : Network} {e : GoError}
    (hs : hexDecode (net.PrivKeyPrefix ++ h) = .err e) :
    privateFromHex H h (some net) = .err e := by
  simp [privateFromHex, hs]

theorem privateFromHex_none (H : Hashes) (h : GoString) :
    privateFromHex H h none = .panic .nilDeref := rfl

/-- `PrivateFromHex` succeeds exactly when prefix and text together spell bytes. -/
theorem privateFromHex_eq_ok (H : Hashes) {h : GoString} {network : Option Network} {k : PrivateKey} :
    privateFromHex H h network = .ok k ↔
      ∃ net bs, network = some net ∧ Spells (net.PrivKeyPrefix ++ h) bs ∧
        k = { Key := bigSetString h 16, Hex := h, WIF := base58Encode (bs ++ checksum H.sha256 bs),
              Network := some net } := by
  constructor
  · intro hk
    cases network with
    | none => simp [privateFromHex_none] at hk
    | some net =>
      cases hd : hexDecode (net.PrivKeyPrefix ++ h) with
      | ok bs =>
        have hs := hexDecode_eq_ok.1 hd
        rw [privateFromHex_of_spells H hs] at hk
        simp only [Res.ok.injEq] at hk
        exact ⟨net, bs, rfl, hs, hk.symm⟩
      | err e => simp [privateFromHex_of_err H hd] at hk
      | panic p => exact absurd hd (hexDecode_ne_panic _ _)
  · rintro ⟨net, bs, rfl, hs, rfl⟩
    exact privateFromHex_of_spells H hs

/-! ## CheckWIF -/

theorem checkWIF_of_decode_err (H : Hashes) {w : GoString} {e : GoError} (h : base58Decode w = .err e) :
    checkWIF H w = .ok false := by
  simp [checkWIF, h]

theorem checkWIF_short (H : Hashes) {w : GoString} {bs : Bytes} (h : base58Decode w = .ok bs)
    (hl : bs.length < 4) : checkWIF H w = .panic .sliceBounds := by
  simp only [checkWIF, h]
  rw [slice_panic]
  · rfl
  · rw [length_hexEncode]; omega

theorem checkWIF_long (H : Hashes) {w : GoString} {payload cs : Bytes}
    (h : base58Decode w = .ok (payload ++ cs)) (hl : cs.length = 4) :
    checkWIF H w = .ok (decide (cs = checksum H.sha256 payload)) := by
  simp only [checkWIF, h]
  have e : ((hexEncode (payload ++ cs)).length : Int) - 8 = ((2 * payload.length : Nat) : Int) := by
    simp [hl]; omega
  rw [e, slice_to_end (by simp), slice_zero (by simp)]
  simp only [Res.bind_ok, hexEncode_take, hexEncode_drop, List.take_left', List.drop_left',
    hexDecode_hexEncode, slice_doubleHash]
  congr 2
  refine propext ⟨fun h => (hexEncode_inj h).symm, fun h => by rw [h]⟩

/-- Every list of at least four bytes is a payload followed by four bytes. -/
theorem split_last4 {bs : Bytes} (h : 4 ≤ bs.length) :
    ∃ payload cs, bs = payload ++ cs ∧ cs.length = 4 :=
  ⟨bs.take (bs.length - 4), bs.drop (bs.length - 4), (List.take_append_drop _ _).symm, by simp; omega⟩

theorem base58Decode_cases (w : GoString) :
    (∃ e, base58Decode w = .err e) ∨ (∃ bs, base58Decode w = .ok bs) := by
  cases h : base58Decode w with
  | ok bs => exact .inr ⟨bs, rfl⟩
  | err e => exact .inl ⟨e, rfl⟩
  | panic p => exact absurd h (base58Decode_ne_panic _ _)

theorem checkWIF_eq_true (H : Hashes) {w : GoString} :
    checkWIF H w = .ok true ↔ ∃ payload, base58Decode w = .ok (payload ++ checksum H.sha256 payload) := by
  constructor
  · intro h
    rcases base58Decode_cases w with ⟨e, he⟩ | ⟨bs, hb⟩
    · simp [checkWIF_of_decode_err H he] at h
    · by_cases hl : bs.length < 4
      · simp [checkWIF_short H hb hl] at h
      · obtain ⟨payload, cs, rfl, hc⟩ := split_last4 (Nat.le_of_not_lt hl)
        rw [checkWIF_long H hb hc] at h
        simp only [Res.ok.injEq, decide_eq_true_eq] at h
        exact ⟨payload, h ▸ hb⟩
  · rintro ⟨payload, h⟩
    rw [checkWIF_long H h (length_checksum H _)]
    simp

/-! ## PrivateFromWIF -/

theorem privateFromWIF_long (H : Hashes) {w : GoString} {network : Option Network} {v : UInt8} {body : Bytes}
    (h : base58Decode w = .ok (v :: body ++ checksum H.sha256 (v :: body))) :
    privateFromWIF H w network = .ok
      { WIF := w, Hex := hexEncode body, Key := bigSetString (hexEncode body) 16, Network := network } := by
  have hc := (checkWIF_eq_true H).2 ⟨v :: body, h⟩
  have hl := length_checksum H (v :: body)
  simp only [privateFromWIF, hc, Res.bind_ok, Bool.not_true, Bool.false_eq_true, if_false, h]
  have h2 : slice (hexEncode (v :: body ++ checksum H.sha256 (v :: body))) 2
      ((hexEncode (v :: body ++ checksum H.sha256 (v :: body))).length) =
      .ok (hexEncode (body ++ checksum H.sha256 (v :: body))) := by
    have := slice_to_end (s := hexEncode (v :: body ++ checksum H.sha256 (v :: body))) (lo := 2)
      (by simp)
    rw [show ((2 : Nat) : Int) = 2 from rfl] at this
    rw [this]
    have := hexEncode_drop (v :: body ++ checksum H.sha256 (v :: body)) 1
    rw [show 2 * 1 = 2 from rfl] at this
    rw [this]
    rfl
  rw [h2]
  simp only [Res.bind_ok]
  have e : ((hexEncode (body ++ checksum H.sha256 (v :: body))).length : Int) - 8 =
      ((2 * body.length : Nat) : Int) := by
    simp [hl]; omega
  rw [e, slice_zero (by simp)]
  simp only [Res.bind_ok, hexEncode_take, List.take_left']

theorem privateFromWIF_empty (H : Hashes) {w : GoString} {network : Option Network}
    (h : base58Decode w = .ok (checksum H.sha256 [])) :
    privateFromWIF H w network = .panic .sliceBounds := by
  have hc := (checkWIF_eq_true H).2 ⟨[], by simpa using h⟩
  have hl := length_checksum H []
  simp only [privateFromWIF, hc, Res.bind_ok, Bool.not_true, Bool.false_eq_true, if_false, h]
  have h2 := slice_to_end (s := hexEncode (checksum H.sha256 [])) (lo := 2) (by simp; omega)
  rw [show ((2 : Nat) : Int) = 2 from rfl] at h2
  rw [h2]
  simp only [Res.bind_ok]
  rw [slice_panic]
  · rfl
  · simp [hl]

theorem privateFromWIF_of_false (H : Hashes) {w : GoString} {network : Option Network}
    (h : checkWIF H w = .ok false) : privateFromWIF H w network = .err .wifInvalid := by
  simp [privateFromWIF, h]

theorem privateFromWIF_of_panic (H : Hashes) {w : GoString} {network : Option Network} {p : GoPanic}
    (h : checkWIF H w = .panic p) : privateFromWIF H w network = .panic p := by
  simp [privateFromWIF, h]

theorem checkWIF_ne_err (H : Hashes) (w : GoString) (e : GoError) : checkWIF H w ≠ .err e := by
  rcases base58Decode_cases w with ⟨e, he⟩ | ⟨bs, hb⟩
  · simp [checkWIF_of_decode_err H he]
  · by_cases hl : bs.length < 4
    · simp [checkWIF_short H hb hl]
    · obtain ⟨payload, cs, rfl, hc⟩ := split_last4 (Nat.le_of_not_lt hl)
      simp [checkWIF_long H hb hc]

/-- `PrivateFromWIF` succeeds exactly on Base58Check texts with a non-empty payload. -/
theorem privateFromWIF_eq_ok (H : Hashes) {w : GoString} {network : Option Network} {k : PrivateKey} :
    privateFromWIF H w network = .ok k ↔
      ∃ v body, base58Decode w = .ok (v :: body ++ checksum H.sha256 (v :: body)) ∧
        k = { WIF := w, Hex := hexEncode body, Key := bigSetString (hexEncode body) 16, Network := network } := by
  constructor
  · intro h
    cases hc : checkWIF H w with
    | err e => exact absurd hc (checkWIF_ne_err H w e)
    | panic p => simp [privateFromWIF_of_panic H hc] at h
    | ok b =>
      cases b with
      | false => simp [privateFromWIF_of_false H hc] at h
      | true =>
        obtain ⟨payload, hp⟩ := (checkWIF_eq_true H).1 hc
        cases payload with
        | nil => simp [privateFromWIF_empty H hp] at h
        | cons v body =>
          rw [privateFromWIF_long H hp] at h
          simp only [Res.ok.injEq] at h
          exact ⟨v, body, hp, h.symm⟩
  · rintro ⟨v, body, hd, rfl⟩
    exact privateFromWIF_long H hd

end Btc
