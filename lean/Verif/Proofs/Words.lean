import Verif.Proofs.Num
import Verif.Spec.Mnemonic
import Verif.Words.Basic

/-!
# Fast checks on packed word lists

The kernel evaluates these; the theorems below lift them to the lists of byte strings.
-/

namespace Btc

/-- Bit `k` of `x`. -/
def bitAt (x k : Nat) : Bool := Nat.beq (Nat.land 1 (Nat.shiftRight x k)) 1

/-- Splits `l` by bit `k` and passes both parts on. -/
def partBit (k : Nat) (l : List Nat) : List Nat → List Nat → (List Nat → List Nat → Bool) → Bool :=
  List.rec (motive := fun _ => List Nat → List Nat → (List Nat → List Nat → Bool) → Bool) (fun e o c => c e o)
    (fun x _ ih e o c => cond (bitAt x k) (ih e (x :: o) c) (ih (x :: e) o c)) l

/-- All numbers of the list are different: split by bits until at most one is left. -/
def allDiffer : Nat → Nat → List Nat → Bool
  | _, _, [] => true
  | _, _, [_] => true
  | 0, _, _ => false
  | f + 1, k, l => partBit k l [] [] fun e o => allDiffer f (k + 1) e && allDiffer f (k + 1) o

theorem partBit_eq (k : Nat) (l : List Nat) : ∀ (e o : List Nat) (c : List Nat → List Nat → Bool),
    partBit k l e o c =
      c ((l.filter fun x => !bitAt x k).reverse ++ e) ((l.filter fun x => bitAt x k).reverse ++ o) := by
  induction l with
  | nil => intro e o c; rfl
  | cons x l ih =>
    intro e o c
    have h : partBit k (x :: l) e o c =
        cond (bitAt x k) (partBit k l e (x :: o) c) (partBit k l (x :: e) o c) := rfl
    rw [h]
    cases hx : bitAt x k
    · rw [cond_false, ih]
      simp [hx]
    · rw [cond_true, ih]
      simp [hx]

theorem nodup_of_filter {l : List Nat} (p : Nat → Bool) (h1 : (l.filter fun x => !p x).Nodup)
    (h2 : (l.filter p).Nodup) : l.Nodup := by
  induction l with
  | nil => exact List.nodup_nil
  | cons x l ih =>
    cases hx : p x
    · simp only [List.filter_cons, hx, Bool.not_false, if_true, Bool.false_eq_true, if_false,
        List.nodup_cons] at h1 h2
      refine List.nodup_cons.2 ⟨fun hm => h1.1 ?_, ih h1.2 h2⟩
      exact List.mem_filter.2 ⟨hm, by simp [hx]⟩
    · simp only [List.filter_cons, hx, Bool.not_true, if_true, Bool.false_eq_true, if_false,
        List.nodup_cons] at h1 h2
      refine List.nodup_cons.2 ⟨fun hm => h2.1 ?_, ih h1 h2.2⟩
      exact List.mem_filter.2 ⟨hm, hx⟩

theorem nodup_of_allDiffer : ∀ (f k : Nat) (l : List Nat), allDiffer f k l = true → l.Nodup := by
  intro f
  induction f with
  | zero =>
    intro k l h
    match l, h with
    | [], _ => exact List.nodup_nil
    | [_], _ => simp
    | _ :: _ :: _, h => simp [allDiffer] at h
  | succ f ih =>
    intro k l h
    match l, h with
    | [], _ => exact List.nodup_nil
    | [_], _ => simp
    | x :: y :: l, h =>
      rw [allDiffer, partBit_eq, Bool.and_eq_true] at h
      · have h1 := ih _ _ h.1
        have h2 := ih _ _ h.2
        rw [List.append_nil, List.nodup_reverse] at h1 h2
        exact nodup_of_filter _ h1 h2
      · simp
      · simp

/-- No byte of `x` is a space. -/
def noSpaceNat : Nat → Nat → Bool
  | 0, x => Nat.beq x 0
  | f + 1, x => (Nat.beq x 0) || (!(Nat.beq (Nat.mod x 256) 32) && noSpaceNat f (Nat.div x 256))

theorem noSpaceNat_digits : ∀ (f x : Nat), noSpaceNat f x = true → 32 ∉ Nat.digits 256 x := by
  intro f
  induction f with
  | zero =>
    intro x h
    have : x = 0 := Nat.eq_of_beq_eq_true h
    simp [this]
  | succ f ih =>
    intro x h
    by_cases hx : x = 0
    · simp [hx]
    · have h0 : Nat.beq x 0 = false := by
        cases hb : Nat.beq x 0
        · rfl
        · exact absurd (Nat.eq_of_beq_eq_true hb) hx
      rw [noSpaceNat, h0, Bool.false_or, Bool.and_eq_true] at h
      rw [Nat.digits_def' (by omega) (by omega), List.mem_cons, not_or]
      refine ⟨fun he => ?_, ih _ h.2⟩
      have : Nat.beq (Nat.mod x 256) 32 = true := by
        have : Nat.mod x 256 = 32 := he.symm
        rw [this]; rfl
      rw [this] at h
      exact absurd h.1 (by simp)

theorem noSpaceNat_bytes {f x : Nat} (h : noSpaceNat f x = true) : (32 : UInt8) ∉ natToBytes x := by
  intro hm
  rw [natToBytes, List.mem_map] at hm
  obtain ⟨d, hd, he⟩ := hm
  have hlt : d < 256 := toBE_lt (by omega) hd
  have : d = 32 := by
    have := congrArg UInt8.toNat he
    rw [toNat_ofNat_of_lt hlt] at this
    exact this
  subst this
  exact noSpaceNat_digits f x h (by simpa [toBE] using hd)

/-- Length, differences, no spaces and no empty word, all on packed numbers. -/
def checkWords (ps : List Nat) : Bool :=
  Nat.beq ps.length 2048 && (allDiffer 400 0 ps && ps.all fun p => !(Nat.beq p 0) && noSpaceNat 64 p)

theorem isWordlist_of_check {ps : List Nat} (h : checkWords ps = true) :
    Spec.IsWordlist (unpackWords ps) ∧ ∀ w ∈ unpackWords ps, w ≠ [] := by
  rw [checkWords, Bool.and_eq_true, Bool.and_eq_true] at h
  obtain ⟨h1, h2, h3⟩ := h
  have h1 := Nat.eq_of_beq_eq_true h1
  have h2 := nodup_of_allDiffer _ _ _ h2
  rw [List.all_eq_true] at h3
  refine ⟨⟨by simpa [unpackWords] using h1, h2.map fun a b => natToBytes_inj, ?_⟩, ?_⟩
  · intro w hw
    obtain ⟨p, hp, rfl⟩ := List.mem_map.1 hw
    have := h3 p hp
    rw [Bool.and_eq_true] at this
    exact noSpaceNat_bytes this.2
  · intro w hw
    obtain ⟨p, hp, rfl⟩ := List.mem_map.1 hw
    have := h3 p hp
    rw [Bool.and_eq_true] at this
    intro h0
    have hz : p = 0 := by
      have := congrArg bytesToNat h0
      rwa [bytesToNat_natToBytes] at this
    rw [hz] at this
    exact absurd this.1 (by decide)

end Btc
