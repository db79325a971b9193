import Verif.Imp.StraightPub
import Verif.Proofs.Fmt

/-!
# The loops
-/

namespace Btc.Imp

variable {σ ρ : Type}

theorem rounds_true {c : σ → Res Bool} {b : World → σ → Option (Out σ ρ × World)} {n : Nat} {w : World} {s : σ}
    (h : c s = .ok true) : rounds c b (n + 1) w s = round (b w s) (rounds c b n) := by
  simp only [rounds, h, value_ok, if_true]

theorem rounds_false {c : σ → Res Bool} {b : World → σ → Option (Out σ ρ × World)} {n : Nat} {w : World} {s : σ}
    (h : c s = .ok false) : rounds c b (n + 1) w s = some (.next s, w) := by
  simp only [rounds, h, value_ok, Bool.false_eq_true, if_false]

theorem padZeros_self {len : Nat} {s : GoString} (h : len ≤ s.length) : padZeros len s = s := by
  simp [padZeros, Nat.sub_eq_zero_of_le h]

theorem padZeros_cons {len : Nat} {s : GoString} (h : s.length < len) : padZeros len (48 :: s) = padZeros len s := by
  have e : len - s.length = (len - (s.length + 1)) + 1 := by omega
  simp [padZeros, e, List.replicate_succ', List.append_assoc]

/-- `for len(x) < k { x = "0" + x }` -/
theorem pad_loop (len : σ → Nat) (get : σ → GoString) (put : σ → GoString → σ) (hget : ∀ s t, get (put s t) = t)
    (hput : ∀ s t u, put (put s t) u = put s u) (hself : ∀ s, put s (get s) = s) (hlen : ∀ s t, len (put s t) = len s)
    (m : Nat) (w : World) : ∀ (n : Nat) (s : σ), len s - (get s).length < n →
    rounds (fun s => .ok (decide ((get s).length < len s))) ((set fun s => put s (48 :: get s) : Stmt σ ρ).eval m) n w s =
      some (.next (put s (padZeros (len s) (get s))), w)
  | 0, _, h => by omega
  | n + 1, s, h => by
    by_cases hl : (get s).length < len s
    · rw [rounds_true (by simp [hl]), set_eval, round_next,
        pad_loop len get put hget hput hself hlen m w n _ (by rw [hget, hlen]; simp only [List.length_cons]; omega),
        hget, hlen, hput, padZeros_cons hl]
    · rw [rounds_false (by simp [hl]), padZeros_self (by omega), hself]

/-! ## Format -/

theorem format_eval (n : Nat) (hn : 65 ≤ n) (w : World) (p : Option PublicKey) (compressed : Bool) :
    formatBody.eval n w { p := p, compressed := compressed } =
      fin (Done.plain (do let k ← deref p; format k compressed)) w := by
  unfold formatBody format
  cases p with
  | none => exec
  | some p =>
    exec
    rw [loop_eval, pad_loop (fun _ => 64) FormatVars.pXHex (fun s t => { s with pXHex := t }) (fun _ _ => rfl) (fun _ _ _ => rfl)
      (fun _ => rfl) (fun _ _ => rfl) n w n _ (by omega)]
    exec
    rw [loop_eval, pad_loop (fun _ => 64) FormatVars.pYHex (fun s t => { s with pYHex := t }) (fun _ _ => rfl) (fun _ _ _ => rfl)
      (fun _ => rfl) (fun _ _ => rfl) n w n _ (by omega)]
    exec
    cases compressed with
    | false => exec
    | true =>
      exec
      cases p.Y with
      | none => exec
      | some y =>
        exec
        by_cases hy : y % 2 = 0
        · simp only [hy]; exec
        · simp only [hy]; exec

/-! ## NewSeedFromMnemonic -/

theorem index_nat {α : Type} (l : List α) (i : Nat) : index l (i : Int) = match l[i]? with
    | some a => .ok a
    | none => .panic .indexRange := by
  simp only [index, Int.natCast_nonneg, if_true, Int.toNat_natCast]
  cases l[i]? <;> rfl

theorem index_lt {α : Type} {l : List α} {i : Nat} (h : i < l.length) : index l (i : Int) = .ok l[i] := by
  rw [index_nat, List.getElem?_eq_getElem h]

theorem index_ge {α : Type} {l : List α} {i : Nat} (h : l.length ≤ i) : index l (i : Int) = .panic .indexRange := by
  rw [index_nat, List.getElem?_eq_none h]

/-- The body of the loop in `lookupStmt`. -/
def lookupRound : Stmt SeedVars (Option Bytes × Option GoError) :=
  .cond (fun s => do let w ← index s.wordlist s.i; .ok (decide (s.word = w)))
    (set (fun s => { s with index := s.i }) ;; .brk) .skip ;;
  set (fun s => { s with i := s.i + 1 })

theorem lookup_rounds (m : Nat) (w : World) : ∀ (n : Nat) (s : SeedVars), s.wordlist.length - s.i < n →
    rounds (fun s => .ok (decide (s.i < s.wordlist.length))) (lookupRound.eval m) n w s =
      match lookupWord (s.wordlist.drop s.i) s.word with
      | some j => some (.next { s with i := s.i + j, index := ((s.i + j : Nat) : Int) }, w)
      | none => some (.next { s with i := max s.i s.wordlist.length }, w)
  | 0, s, h => by omega
  | n + 1, s, h => by
    by_cases hl : s.i < s.wordlist.length
    · rw [rounds_true (by simp [hl]), List.drop_eq_getElem_cons hl]
      unfold lookupRound
      exec
      simp only [index_lt hl]
      exec
      by_cases hw : s.word = s.wordlist[s.i]
      · simp only [hw, lookupWord]
        exec
        simp
      · simp only [hw, lookupWord]
        exec
        rw [round_next]
        have := lookup_rounds m w n { s with i := s.i + 1 } (by simp only; omega)
        unfold lookupRound at this
        rw [this]
        simp only
        cases lookupWord (s.wordlist.drop (s.i + 1)) s.word with
        | none =>
          have : max (s.i + 1) s.wordlist.length = max s.i s.wordlist.length := by omega
          simp only [Option.map_none, this]
        | some j =>
          have : s.i + 1 + j = s.i + (j + 1) := by omega
          simp only [Option.map_some, this]
    · rw [rounds_false (by simp [hl]), List.drop_eq_nil_of_le (by omega)]
      have : max s.i s.wordlist.length = s.i := by omega
      simp only [lookupWord, this]

theorem lookup_eval (n : Nat) (w : World) (s : SeedVars) (hn : s.wordlist.length < n) :
    lookupStmt.eval n w s =
      match lookupWord s.wordlist s.word with
      | some j => some (.next { s with i := j, index := (j : Int) }, w)
      | none => some (.next { s with i := s.wordlist.length }, w) := by
  unfold lookupStmt
  exec
  rw [loop_eval]
  have := lookup_rounds n w n { s with i := 0 } (by simpa using hn)
  unfold lookupRound at this
  rw [this]
  simp only [List.drop_zero, Nat.zero_add, Nat.zero_max]

theorem fmtBig_nat (b i : Nat) : fmtBig b (some (i : Int)) = fmtNat b i := by
  simp [fmtBig]

theorem word_eval (n : Nat) (w : World) (s : SeedVars) (hn : s.wordlist.length < n) (hn' : 11 < n) (hi : s.wi < s.words.length) :
    match lookupWord s.wordlist s.words[s.wi] with
    | some j => ∃ s', wordStmt.eval n w s = some (.next s', w) ∧ s'.words = s.words ∧ s'.wordlist = s.wordlist ∧
        s'.wi = s.wi + 1 ∧ s'.binary = s.binary ++ padZeros 11 (fmtNat 2 j)
    | none => wordStmt.eval n w s = some (.ret (none, some .invalidMnemonic), w) := by
  unfold wordStmt
  exec
  simp only [index_lt hi]
  exec
  rw [lookup_eval n w _ (by simpa using hn)]
  simp only
  cases lookupWord s.wordlist s.words[s.wi] with
  | none => exec; simp
  | some j =>
    exec
    have : ¬((j : Int) < 0) := by omega
    simp only [this]
    exec
    rw [loop_eval, pad_loop (fun _ => 11) SeedVars.indexBinary (fun s t => { s with indexBinary := t }) (fun _ _ => rfl) (fun _ _ _ => rfl)
      (fun _ => rfl) (fun _ _ => rfl) n w n _ (by omega)]
    exec
    refine ⟨_, rfl, rfl, rfl, rfl, ?_⟩
    simp only [fmtBig_nat]

theorem words_rounds (m : Nat) (hm' : 11 < m) (w : World) : ∀ (n : Nat) (s : SeedVars), s.wordlist.length < m →
    s.words.length - s.wi < n →
    match seedBits s.wordlist (s.words.drop s.wi) s.binary with
    | .ok b => ∃ s', rounds (fun s => .ok (decide (s.wi < s.words.length))) (wordStmt.eval m) n w s = some (.next s', w) ∧
        s'.binary = b
    | .err e => rounds (fun s => .ok (decide (s.wi < s.words.length))) (wordStmt.eval m) n w s = some (.ret (none, some e), w)
    | .panic _ => False
  | 0, s, _, h => by omega
  | n + 1, s, hm, h => by
    by_cases hl : s.wi < s.words.length
    · rw [rounds_true (by simp [hl]), List.drop_eq_getElem_cons hl]
      have := word_eval m w s hm hm' hl
      unfold seedBits
      cases hw : lookupWord s.wordlist s.words[s.wi] with
      | none =>
        rw [hw] at this
        simp only at this ⊢
        rw [this, round_ret]
      | some j =>
        rw [hw] at this
        simp only at this ⊢
        obtain ⟨s', e, h1, h2, h3, h4⟩ := this
        rw [e, round_next]
        have := words_rounds m hm' w n s' (by rw [h2]; exact hm) (by rw [h1, h3]; omega)
        rw [h1, h2, h3, h4] at this
        exact this
    · rw [rounds_false (by simp [hl]), List.drop_eq_nil_of_le (by omega)]
      exact ⟨s, rfl, rfl⟩

/-- The body of the inner loop of `nibbleStmt`. -/
def nibbleRound : Stmt SeedVars (Option Bytes × Option GoError) :=
  assign (fun s => do let c ← index s.binary s.j; .ok { s with n := s.n ++ [c] }) ;;
  set (fun s => { s with j := s.j + 1 })

theorem nibble_rounds (m : Nat) (w : World) : ∀ (n : Nat) (s : SeedVars), s.i + 4 < n + s.j → s.j ≤ s.i + 4 →
    s.j ≤ s.binary.length →
    rounds (fun s => .ok (decide ((s.j : Int) - s.i < 4))) (nibbleRound.eval m) n w s =
      if s.i + 4 ≤ s.binary.length then
        some (.next { s with n := s.n ++ (s.binary.drop s.j).take (s.i + 4 - s.j), j := s.i + 4 }, w)
      else some (.panic .indexRange, w)
  | 0, s, h, h', _ => by omega
  | n + 1, s, h, h', hb => by
    by_cases hl : s.j < s.i + 4
    · have hc : ((s.j : Int) - s.i < 4) := by omega
      rw [rounds_true (by simp [hc])]
      by_cases hj : s.j < s.binary.length
      · unfold nibbleRound
        exec
        simp only [index_lt hj]
        exec
        rw [round_next]
        have := nibble_rounds m w n { s with n := s.n ++ [s.binary[s.j]], j := s.j + 1 } (by simp only; omega) (by simp only; omega)
          (by simp only; omega)
        unfold nibbleRound at this
        rw [this]
        simp only
        have e : s.i + 4 - s.j = (s.i + 4 - (s.j + 1)) + 1 := by omega
        rw [e, List.drop_eq_getElem_cons hj, List.take_succ_cons]
        simp
      · unfold nibbleRound
        exec
        simp only [index_ge (Nat.le_of_not_lt hj)]
        exec
        rw [round_panic, if_neg (by omega)]
    · have hc : ¬((s.j : Int) - s.i < 4) := by omega
      have hj : s.j = s.i + 4 := by omega
      rw [rounds_false (by simp [hc]), if_pos (by omega)]
      obtain ⟨_, _, _, _, _, _, _, _, _, _, _, _, _, _, _, _, _, _, _, _, _, _⟩ := s
      simp only at hj ⊢
      subst hj
      simp

theorem nibble_eval (n : Nat) (hn : 4 < n) (w : World) (s : SeedVars) (hi : s.i < s.binary.length) :
    if s.i + 4 ≤ s.binary.length then
      ∃ s', nibbleStmt.eval n w s = some (.next s', { w with log := w.log ++ [(s.binary.drop s.i).take 4] }) ∧
        s'.binary = s.binary ∧ s'.i = s.i + 4 ∧ s'.hash = s.hash ++ bigIntToHex (bigSetString ((s.binary.drop s.i).take 4) 2)
    else nibbleStmt.eval n w s = some (.panic .indexRange, w) := by
  unfold nibbleStmt
  exec
  rw [loop_eval]
  have := nibble_rounds n w n { s with n := [], j := s.i } (by simp only; omega) (by simp only; omega) (by simp only; omega)
  unfold nibbleRound at this
  rw [this]
  simp only [List.nil_append]
  split
  · have e : s.i + 4 - s.i = 4 := by omega
    exec
    rw [e]
    exact ⟨_, rfl, rfl, rfl, rfl⟩
  · exec

theorem nibbles_rounds (m : Nat) (hm : 4 < m) : ∀ (n : Nat) (w : World) (s : SeedVars), s.binary.length - s.i < 4 * n →
    match nibbleLoop (s.binary.drop s.i) s.hash with
    | (.ok h, log) => ∃ s', rounds (fun s => .ok (decide (s.i < s.binary.length))) (nibbleStmt.eval m) n w s =
        some (.next s', { w with log := w.log ++ log }) ∧ s'.hash = h
    | (.err _, _) => False
    | (.panic p, log) => rounds (fun s => .ok (decide (s.i < s.binary.length))) (nibbleStmt.eval m) n w s =
        some (.panic p, { w with log := w.log ++ log })
  | 0, _, s, h => by omega
  | n + 1, w, s, h => by
    by_cases hl : s.i < s.binary.length
    · rw [rounds_true (by simp [hl])]
      have hev := nibble_eval m hm w s hl
      split at hev
      · rename_i h4
        obtain ⟨s', e, h1, h2, h3⟩ := hev
        rw [e, round_next]
        have ih := nibbles_rounds m hm n { w with log := w.log ++ [(s.binary.drop s.i).take 4] } s' (by rw [h1, h2]; omega)
        have e4 : s.binary.drop s.i = s.binary[s.i] :: s.binary[s.i + 1] :: s.binary[s.i + 2] :: s.binary[s.i + 3] ::
            s.binary.drop (s.i + 4) := by
          rw [List.drop_eq_getElem_cons hl, List.drop_eq_getElem_cons (i := s.i + 1) (by omega),
            List.drop_eq_getElem_cons (i := s.i + 2) (by omega), List.drop_eq_getElem_cons (i := s.i + 3) (by omega)]
        rw [h1, h2, h3] at ih
        rw [e4] at ih ⊢
        simp only [List.take_succ_cons, List.take_zero, nibbleLoop, List.append_assoc, List.cons_append, List.nil_append] at ih ⊢
        rcases hr : nibbleLoop (s.binary.drop (s.i + 4)) (s.hash ++ bigIntToHex (bigSetString [s.binary[s.i], s.binary[s.i + 1],
          s.binary[s.i + 2], s.binary[s.i + 3]] 2)) with ⟨_ | _ | _, log⟩ <;> rw [hr] at ih <;> exact ih
      · rename_i h4
        rw [hev, round_panic]
        have hd : (s.binary.drop s.i).length < 4 ∧ 0 < (s.binary.drop s.i).length := by
          rw [List.length_drop]; omega
        rcases hb : s.binary.drop s.i with _ | ⟨a, _ | ⟨b, _ | ⟨c, _ | ⟨d, r⟩⟩⟩⟩ <;>
          simp only [hb, List.length_cons, List.length_nil] at hd
        · omega
        · simp [nibbleLoop]
        · simp [nibbleLoop]
        · simp [nibbleLoop]
        · omega
    · rw [rounds_false (by simp [hl]), List.drop_eq_nil_of_le (by omega)]
      exact ⟨s, by simp, rfl⟩

end Btc.Imp
