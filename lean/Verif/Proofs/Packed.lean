import Verif.Proofs.Words

/-!
# More checks on packed word lists
-/

namespace Btc

theorem natToBytes_step {x : Nat} (hx : x ≠ 0) :
    natToBytes x = natToBytes (x / 256) ++ [UInt8.ofNat (x % 256)] := by
  rw [natToBytes, natToBytes, toBE, toBE, Nat.digits_def' (by omega) (by omega)]
  simp

theorem natToBytes_zero : natToBytes 0 = [] := by simp [natToBytes, toBE]

/-! ## Every byte satisfies a test -/

/-- Every byte of `x` satisfies `ok`. -/
def allBytesNat (ok : Nat → Bool) : Nat → Nat → Bool
  | 0, x => Nat.beq x 0
  | f + 1, x => Nat.beq x 0 || (ok (Nat.mod x 256) && allBytesNat ok f (Nat.div x 256))

theorem allBytesNat_bytes (ok : Nat → Bool) : ∀ (f x : Nat), allBytesNat ok f x = true →
    ∀ c ∈ natToBytes x, ok c.toNat = true := by
  intro f
  induction f with
  | zero =>
    intro x h c hc
    have hx : x = 0 := Nat.eq_of_beq_eq_true h
    rw [hx, natToBytes_zero] at hc
    simp at hc
  | succ f ih =>
    intro x h c hc
    by_cases hx : x = 0
    · rw [hx, natToBytes_zero] at hc
      simp at hc
    · have h0 : Nat.beq x 0 = false := by
        cases hb : Nat.beq x 0
        · rfl
        · exact absurd (Nat.eq_of_beq_eq_true hb) hx
      rw [allBytesNat, h0, Bool.false_or, Bool.and_eq_true] at h
      rw [natToBytes_step hx, List.mem_append, List.mem_singleton] at hc
      rcases hc with hc | hc
      · exact ih _ h.2 c hc
      · rw [hc, toNat_ofNat_of_lt (Nat.mod_lt _ (by omega))]
        exact h.1

/-! ## The first four bytes -/

/-- Drops last bytes until at most four are left. -/
def pre4 : Nat → Nat → Nat
  | 0, x => x
  | f + 1, x => cond (Nat.blt x 4294967296) x (pre4 f (Nat.div x 256))

/-- `pre4` reached a number of four bytes. -/
def pre4Done (f x : Nat) : Bool := Nat.blt (pre4 f x) 4294967296

theorem length_natToBytes_le {x k : Nat} : (natToBytes x).length ≤ k ↔ x < 256 ^ k := by
  rw [natToBytes, List.length_map, toBE, List.length_reverse]
  exact Nat.digits_length_le_iff (by omega) x

theorem pre4_spec : ∀ (f x : Nat), pre4Done f x = true → natToBytes (pre4 f x) = (natToBytes x).take 4 := by
  intro f
  induction f with
  | zero =>
    intro x h
    have hx : x < 256 ^ 4 := Nat.le_of_ble_eq_true h
    rw [pre4, List.take_of_length_le (length_natToBytes_le.2 hx)]
  | succ f ih =>
    intro x h
    cases hb : Nat.blt x 4294967296
    · have hx : 256 ^ 4 ≤ x := by
        by_contra hlt
        have : Nat.blt x 4294967296 = true := Nat.ble_eq_true_of_le (by omega)
        rw [hb] at this
        simp at this
      have e : pre4 (f + 1) x = pre4 f (x / 256) := by
        rw [pre4, hb]; rfl
      rw [pre4Done, e] at h
      rw [e, ih _ h, natToBytes_step (x := x) (by omega), List.take_append_of_le_length]
      by_contra hlt
      have : (natToBytes (x / 256)).length ≤ 3 := by omega
      rw [length_natToBytes_le] at this
      omega
    · have e : pre4 (f + 1) x = x := by
        rw [pre4, hb]; rfl
      have hx : x < 256 ^ 4 := Nat.le_of_ble_eq_true hb
      rw [e, List.take_of_length_le (length_natToBytes_le.2 hx)]

/-- The first four bytes of the words are all different. -/
def checkPre4 (ps : List Nat) : Bool :=
  ps.all (pre4Done 40) && allDiffer 40 0 (ps.map (pre4 40))

theorem nodup_take4 {ps : List Nat} (h : checkPre4 ps = true) :
    ((unpackWords ps).map fun w => w.take 4).Nodup := by
  rw [checkPre4, Bool.and_eq_true, List.all_eq_true] at h
  have e : (unpackWords ps).map (fun w => w.take 4) = (ps.map (pre4 40)).map natToBytes := by
    rw [unpackWords, List.map_map, List.map_map]
    apply List.map_congr_left
    intro p hp
    exact (pre4_spec 40 p (h.1 p hp)).symm
  rw [e]
  exact (nodup_of_allDiffer _ _ _ h.2).map fun a b => natToBytes_inj

/-! ## Letters -/

/-- The letters a to z of a packed word. -/
def lettersNat : Nat → Nat → Nat
  | 0, _ => 0
  | f + 1, x =>
    cond (Nat.beq x 0) 0
      (cond (Nat.ble 97 (Nat.mod x 256) && Nat.ble (Nat.mod x 256) 122)
        (Nat.add (Nat.mul (lettersNat f (Nat.div x 256)) 256) (Nat.mod x 256))
        (lettersNat f (Nat.div x 256)))

theorem lettersNat_spec : ∀ (f x : Nat), x < 256 ^ f →
    natToBytes (lettersNat f x) = (natToBytes x).filter fun b => decide (97 ≤ b.toNat) && decide (b.toNat ≤ 122) := by
  intro f
  induction f with
  | zero =>
    intro x h
    have hx : x = 0 := by simpa using h
    rw [hx, lettersNat, natToBytes_zero]
    rfl
  | succ f ih =>
    intro x h
    by_cases hx : x = 0
    · subst hx
      rw [lettersNat, natToBytes_zero]
      simp [natToBytes_zero]
    · have h0 : Nat.beq x 0 = false := by
        cases hb : Nat.beq x 0
        · rfl
        · exact absurd (Nat.eq_of_beq_eq_true hb) hx
      have hm : x % 256 < 256 := Nat.mod_lt _ (by omega)
      have hd : x / 256 < 256 ^ f := by
        rw [Nat.pow_succ] at h
        exact Nat.div_lt_of_lt_mul (by omega)
      have e : lettersNat (f + 1) x = cond (Nat.ble 97 (x % 256) && Nat.ble (x % 256) 122)
          (lettersNat f (x / 256) * 256 + x % 256) (lettersNat f (x / 256)) := by
        rw [lettersNat, h0]
        rfl
      rw [e, natToBytes_step hx, List.filter_append, ← ih _ hd]
      by_cases hc : 97 ≤ x % 256 ∧ x % 256 ≤ 122
      · have hb : (Nat.ble 97 (x % 256) && Nat.ble (x % 256) 122) = true := by
          rw [Bool.and_eq_true, Nat.ble_eq, Nat.ble_eq]; exact hc
        rw [hb, cond_true, natToBytes_step (by omega)]
        rw [show (lettersNat f (x / 256) * 256 + x % 256) / 256 = lettersNat f (x / 256) by omega,
          show (lettersNat f (x / 256) * 256 + x % 256) % 256 = x % 256 by omega]
        simp [toNat_ofNat_of_lt hm, hc]
      · have hb : (Nat.ble 97 (x % 256) && Nat.ble (x % 256) 122) = false := by
          rw [← Bool.not_eq_true, Bool.and_eq_true, Nat.ble_eq, Nat.ble_eq]; exact hc
        rw [hb, cond_false]
        have : ¬ ((decide (97 ≤ x % 256) && decide (x % 256 ≤ 122)) = true) := by
          rw [Bool.and_eq_true, decide_eq_true_iff, decide_eq_true_iff]; exact hc
        simp [toNat_ofNat_of_lt hm, this]

/-- The first four letters of the words are all different. -/
def checkLetters (ps : List Nat) : Bool :=
  ps.all (fun p => Nat.blt p (2 ^ 256)) && checkPre4 (ps.map (lettersNat 32))

theorem nodup_letters {ps : List Nat} (h : checkLetters ps = true) :
    ((unpackWords ps).map fun w =>
      (w.filter fun b => decide (97 ≤ b.toNat) && decide (b.toNat ≤ 122)).take 4).Nodup := by
  rw [checkLetters, Bool.and_eq_true, List.all_eq_true] at h
  have := nodup_take4 h.2
  rw [unpackWords, List.map_map, List.map_map] at this
  rw [unpackWords, List.map_map]
  convert this using 1
  apply List.map_congr_left
  intro p hp
  have hlt : p < 2 ^ 256 := Nat.le_of_ble_eq_true (h.1 p hp)
  simp only [Function.comp_apply]
  rw [lettersNat_spec 32 p (by rw [show 256 ^ 32 = 2 ^ 256 by decide +kernel]; exact hlt)]

/-! ## Disjoint lists -/

theorem unpack_append (a b : List Nat) : unpackWords (a ++ b) = unpackWords a ++ unpackWords b :=
  List.map_append

/-- All numbers differ, even after multiplying and reducing (which spreads the words evenly, so that the check is
quick). -/
def allDifferMod (ps : List Nat) : Bool :=
  allDiffer 64 0 (ps.map fun p => Nat.mod (Nat.mul p 0x9E3779B97F4A7C15) 0xD6E8FEB86659FD93)

theorem nodup_unpack {ps : List Nat} (h : allDifferMod ps = true) : (unpackWords ps).Nodup :=
  (List.Nodup.of_map _ (nodup_of_allDiffer _ _ _ h)).map fun _ _ => natToBytes_inj

/-! ## The ideographic space -/

/-- No three consecutive bytes of `x` are `E3 80 80`. -/
def noWideNat : Nat → Nat → Bool
  | 0, x => Nat.beq x 0
  | f + 1, x => Nat.beq x 0 || (!(Nat.beq (Nat.mod x 16777216) 0xE38080) && noWideNat f (Nat.div x 256))

theorem infix_concat {t l : List UInt8} {d : UInt8} (h : t <:+: l ++ [d]) :
    t <:+: l ∨ t <:+ l ++ [d] := by
  obtain ⟨u, v, huv⟩ := h
  rcases List.eq_nil_or_concat v with rfl | ⟨v', e, rfl⟩
  · right
    exact ⟨u, by simpa using huv⟩
  · left
    rw [List.concat_eq_append, ← List.append_assoc] at huv
    have := List.append_inj' huv rfl
    exact ⟨u, v', this.1⟩

theorem noWideNat_bytes : ∀ (f x : Nat), noWideNat f x = true → ¬ [0xE3, 0x80, 0x80] <:+: natToBytes x := by
  intro f
  induction f with
  | zero =>
    intro x h hi
    have hx : x = 0 := Nat.eq_of_beq_eq_true h
    rw [hx, natToBytes_zero] at hi
    simp at hi
  | succ f ih =>
    intro x h hi
    by_cases hx : x = 0
    · rw [hx, natToBytes_zero] at hi
      simp at hi
    · have h0 : Nat.beq x 0 = false := by
        cases hb : Nat.beq x 0
        · rfl
        · exact absurd (Nat.eq_of_beq_eq_true hb) hx
      rw [noWideNat, h0, Bool.false_or, Bool.and_eq_true] at h
      have hi' := hi
      rw [natToBytes_step hx] at hi
      rcases infix_concat hi with h1 | h1
      · exact ih _ h.2 h1
      · rw [← natToBytes_step hx] at h1
        obtain ⟨u, hu⟩ := h1
        have hv := bytesToNat_natToBytes x
        rw [← hu, bytesToNat_append] at hv
        have hm : x % 16777216 = 0xE38080 := by
          rw [← hv, show bytesToNat [0xE3, 0x80, 0x80] = 0xE38080 by decide +kernel]
          simp
        have : Nat.beq (Nat.mod x 16777216) 0xE38080 = true := by
          have e : Nat.mod x 16777216 = 0xE38080 := hm
          rw [e]; rfl
        rw [this] at h
        simp at h

end Btc
