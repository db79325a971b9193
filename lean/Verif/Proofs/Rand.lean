import Verif.Proofs.Arith
import Verif.Proofs.RandInt

/-!
# The random sources: fuel is never exhausted, and generation works block by block
-/

namespace Btc

open Spec

/-- The bound passed to `rand.Int` (util.go:10). -/
theorem bound_eq : bigSetString (asc "FFFFFFFFFFFFFFFFFFFFFFFFFFFFFFFEBAAEDCE6AF48A03BBFD25E8CD0364140") 16 =
    some ((Spec.n - 1 : Nat) : Int) := by decide +kernel

/-- A 32-byte block is drawn until its value is below n-1. -/
theorem generateRandomBigInt_step (rd : Reader) :
    generateRandomBigInt rd =
      if 32 ≤ rd.length then
        if bytesToNat (rd.take 32) < Spec.n - 1 then .ok (bytesToNat (rd.take 32), rd.drop 32)
        else generateRandomBigInt (rd.drop 32)
      else .panic (.explicit .randRead) := by
  have hs : Nat.size (Spec.n - 1 - 1) = 256 := by decide +kernel
  have hg : ∀ rd, generateRandomBigInt rd =
      match randLoop (Spec.n - 1) 32 8 (rd.length + 1) rd with
      | .ok r => .ok r
      | .err e => .panic (.explicit e)
      | .panic p => .panic p := by
    intro rd
    simp only [generateRandomBigInt, bound_eq, deref_some, Res.bind_ok, Int.toNat_natCast, randInt, hs]
    rfl
  rw [hg, hg, randLoop_step _ _ _ (by omega)]
  by_cases hl : 32 ≤ rd.length
  · simp only [hl, if_true, maskFirst_eight]
    by_cases hv : bytesToNat (rd.take 32) < Spec.n - 1
    · simp only [hv, if_true]
    · simp only [hv, if_false]
  · simp only [hl, if_false]

/-- The random number generator returns a number below n-1 or the read error crashes it. -/
theorem generateRandomBigInt_spec :
    ∀ (m : Nat) (rd : Reader), rd.length ≤ m →
      (∃ v rd', generateRandomBigInt rd = .ok (v, rd') ∧ v < Spec.n - 1 ∧ rd'.length + 32 ≤ rd.length) ∨
      generateRandomBigInt rd = .panic (.explicit .randRead) := by
  intro m
  induction m with
  | zero =>
    intro rd h
    rw [generateRandomBigInt_step, if_neg (by omega)]
    exact .inr rfl
  | succ m ih =>
    intro rd h
    rw [generateRandomBigInt_step]
    by_cases hl : 32 ≤ rd.length
    · rw [if_pos hl]
      by_cases hv : bytesToNat (rd.take 32) < Spec.n - 1
      · rw [if_pos hv]
        exact .inl ⟨_, _, rfl, hv, by simp; omega⟩
      · rw [if_neg hv]
        rcases ih (rd.drop 32) (by simp; omega) with ⟨v, rd', h1, h2, h3⟩ | h1
        · exact .inl ⟨v, rd', h1, h2, by simp at h3; omega⟩
        · exact .inr h1
    · rw [if_neg hl]; exact .inr rfl

/-- One attempt of `GeneratePrivateKey` on a drawn number. -/
def attempt (H : Hashes) (network : Option Network) (v : Nat) : Res (Option PrivateKey) :=
  if (fmtNat 16 v).length ≠ 64 then .ok none
  else
    match privateFromHex H (fmtNat 16 v) network with
    | .err _ => .ok none
    | .panic p => .panic p
    | .ok k => .ok (some { k with Key := some (v : Int) })

theorem generateLoop_succ (H : Hashes) (draw : Reader → Res (Nat × Reader)) (network : Option Network) (fuel : Nat) (rd : Reader) :
    generateLoop H draw network (fuel + 1) rd =
      match draw rd with
      | .err e => .err e
      | .panic p => .panic p
      | .ok (v, rd') =>
        match attempt H network v with
        | .err e => .err e
        | .panic p => .panic p
        | .ok none => generateLoop H draw network fuel rd'
        | .ok (some k) => .ok (k, rd') := by
  refine (generateLoop.eq_2 H draw network rd fuel).trans ?_
  generalize draw rd = g
  match g with
  | .err e => rfl
  | .panic p => rfl
  | .ok (v, rd') =>
    have e : bigIntToHex (some (v : Int)) = fmtNat 16 v := fmtBig_nat 16 v
    by_cases hl : (fmtNat 16 v).length = 64
    · have h1 : attempt H network v = match privateFromHex H (fmtNat 16 v) network with
          | .err _ => .ok none
          | .panic p => .panic p
          | .ok k => .ok (some { k with Key := some (v : Int) }) := if_neg (not_not_intro hl)
      simp only [h1, e]
      refine (if_neg (not_not_intro hl)).trans ?_
      generalize privateFromHex H (fmtNat 16 v) network = q
      cases q <;> rfl
    · have h1 : attempt H network v = .ok none := if_pos hl
      simp only [h1, e]
      exact if_pos hl

theorem generateLoop_fuel (H : Hashes) (network : Option Network) :
    ∀ (f1 f2 : Nat) (rd : Reader), rd.length < f1 → rd.length < f2 →
      generateLoop H generateRandomBigInt network f1 rd = generateLoop H generateRandomBigInt network f2 rd := by
  intro f1
  induction f1 with
  | zero => intro f2 rd h; omega
  | succ f1 ih =>
    intro f2 rd h1 h2
    cases f2 with
    | zero => omega
    | succ f2 =>
      rw [generateLoop_succ, generateLoop_succ]
      rcases generateRandomBigInt_spec rd.length rd (le_refl _) with ⟨v, rd', e1, _, e3⟩ | e1
      · rw [e1]
        simp only
        cases attempt H network v with
        | err e => rfl
        | panic p => rfl
        | ok o =>
          cases o with
          | some k => rfl
          | none =>
            simp only
            exact ih f2 rd' (by omega) (by omega)
      · rw [e1]

/-- `GeneratePrivateKey`, one 32-byte block at a time. -/
theorem generatePrivateKey_step (H : Hashes) (rd : Reader) (network : Option Network) :
    generatePrivateKey H rd network =
      if 32 ≤ rd.length then
        if bytesToNat (rd.take 32) < Spec.n - 1 then
          match attempt H network (bytesToNat (rd.take 32)) with
          | .err e => .err e
          | .panic p => .panic p
          | .ok none => generatePrivateKey H (rd.drop 32) network
          | .ok (some k) => .ok (k, rd.drop 32)
        else generatePrivateKey H (rd.drop 32) network
      else .panic (.explicit .randRead) := by
  unfold generatePrivateKey
  rw [generateLoop_succ, generateRandomBigInt_step]
  by_cases hl : 32 ≤ rd.length
  · simp only [hl, if_true]
    by_cases hv : bytesToNat (rd.take 32) < Spec.n - 1
    · simp only [hv, if_true]
      cases attempt H network (bytesToNat (rd.take 32)) with
      | err e => rfl
      | panic p => rfl
      | ok o =>
        cases o with
        | some k => rfl
        | none =>
          simp only
          exact generateLoop_fuel H network _ _ _ (by simp; omega) (by omega)
    · simp only [hv, if_false]
      conv_rhs => rw [generateLoop_succ]
      rcases generateRandomBigInt_spec (rd.drop 32).length (rd.drop 32) (le_refl _) with
        ⟨v, rd', e1, _, e3⟩ | e1
      · rw [e1]
        simp only
        cases attempt H network v with
        | err e => rfl
        | panic p => rfl
        | ok o =>
          cases o with
          | some k => rfl
          | none =>
            simp only
            have : (rd.drop 32).length = rd.length - 32 := by simp
            exact generateLoop_fuel H network _ _ _ (by omega) (by omega)
      · rw [e1]
  · simp only [hl, if_false]

/-- A printed number has 64 hexadecimal digits iff it lies between 16^63 and 16^64. -/
theorem length64_iff {v : Nat} (hv : v < Spec.n) : (fmtNat 16 v).length = 64 ↔ 16 ^ 63 ≤ v := by
  have h64 : v < 16 ^ 64 := lt_trans hv (by decide +kernel)
  have h1 := (length_fmtNat_le_iff (b := 16) (k := 64) (n := v) (by omega) (by omega)).2 h64
  have h2 := length_fmtNat_le_iff (b := 16) (k := 63) (n := v) (by omega) (by omega)
  constructor
  · intro h; by_contra hc
    have := h2.2 (by omega)
    omega
  · intro h; by_contra hc
    have := h2.1 (by omega)
    omega

end Btc
