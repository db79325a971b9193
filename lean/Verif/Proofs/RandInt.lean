import Verif.Model.Types
import Verif.Proofs.Base58

/-!
# `rand.Int`: fuel is never exhausted
-/

namespace Btc

open Spec

/-- More fuel than bytes makes no difference. -/
theorem randLoop_fuel (max k b : Nat) (hk : 0 < k) :
    ∀ (f1 f2 : Nat) (rd : Reader), rd.length < f1 → rd.length < f2 →
      randLoop max k b f1 rd = randLoop max k b f2 rd := by
  intro f1
  induction f1 with
  | zero => intro f2 rd h; omega
  | succ f1 ih =>
    intro f2 rd h1 h2
    cases f2 with
    | zero => omega
    | succ f2 =>
      simp only [randLoop, readFull]
      by_cases hl : k ≤ rd.length
      · simp only [hl, if_true]
        rw [ih f2 (rd.drop k) (by simp; omega) (by simp; omega)]
      · simp only [hl, if_false]

/-- Unfolding of the rejection loop without fuel. -/
theorem randLoop_step (max k b : Nat) (hk : 0 < k) (rd : Reader) :
    randLoop max k b (rd.length + 1) rd =
      if k ≤ rd.length then
        if bytesToNat (maskFirst b (rd.take k)) < max then
          .ok (bytesToNat (maskFirst b (rd.take k)), rd.drop k)
        else randLoop max k b ((rd.drop k).length + 1) (rd.drop k)
      else .err .randRead := by
  conv_lhs => rw [randLoop]
  by_cases hl : k ≤ rd.length
  · simp only [readFull, hl, if_true]
    rw [randLoop_fuel max k b hk rd.length ((rd.drop k).length + 1) (rd.drop k) (by simp; omega) (by omega)]
  · simp only [readFull, hl, if_false]

/-- The loop uses up at least one block and never crashes. -/
theorem randLoop_spec (max k b : Nat) (hk : 0 < k) :
    ∀ (m : Nat) (rd : Reader), rd.length ≤ m →
      (∃ v rd', randLoop max k b (rd.length + 1) rd = .ok (v, rd') ∧ v < max ∧ rd'.length + k ≤ rd.length ∧
        rd' <:+ rd) ∨
      randLoop max k b (rd.length + 1) rd = .err .randRead := by
  intro m
  induction m with
  | zero =>
    intro rd h
    rw [randLoop_step max k b hk]
    right
    rw [if_neg (by omega)]
  | succ m ih =>
    intro rd h
    rw [randLoop_step max k b hk]
    by_cases hl : k ≤ rd.length
    · rw [if_pos hl]
      by_cases hv : bytesToNat (maskFirst b (rd.take k)) < max
      · rw [if_pos hv]
        exact .inl ⟨_, _, rfl, hv, by simp; omega, List.drop_suffix _ _⟩
      · rw [if_neg hv]
        rcases ih (rd.drop k) (by simp; omega) with ⟨v, rd', h1, h2, h3, h4⟩ | h1
        · exact .inl ⟨v, rd', h1, h2, by simp at h3; omega, h4.trans (List.drop_suffix _ _)⟩
        · exact .inr h1
    · rw [if_neg hl]; exact .inr rfl

theorem maskFirst_eight (bs : Bytes) : maskFirst 8 bs = bs := by
  cases bs with
  | nil => rfl
  | cons x xs =>
    simp [maskFirst]

end Btc
