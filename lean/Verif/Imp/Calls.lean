import Verif.Imp.Loops

/-!
# The two mnemonic functions and the retrying key generation
-/

namespace Btc.Imp

/-! ## NewSeedFromMnemonic -/

theorem lookupWord_lt : ∀ {wl : List GoString} {w : GoString} {i : Nat}, lookupWord wl w = some i → i < wl.length
  | [], _, _, h => by simp [lookupWord] at h
  | x :: xs, w, i, h => by
    rw [lookupWord] at h
    split at h
    · simp only [Option.some.injEq] at h
      simp [← h]
    · obtain ⟨j, hj, rfl⟩ := Option.map_eq_some_iff.1 h
      have := lookupWord_lt hj
      simp only [List.length_cons]
      omega

theorem length_fmtNat2 (i : Nat) : (fmtNat 2 i).length ≤ i + 1 := by
  by_cases hi : i = 0
  · simp [fmtNat, hi]
  · rw [length_fmtNat hi, Nat.length_digits _ _ (by omega) hi]
    have := Nat.log_lt_self 2 hi
    omega

theorem length_padZeros (k : Nat) (s : GoString) : (padZeros k s).length = max k s.length := by
  simp only [padZeros, List.length_append, List.length_replicate]
  omega

theorem seedBits_length {wl : List GoString} : ∀ {ws : List GoString} {b b' : GoString}, seedBits wl ws b = .ok b' →
    b'.length ≤ b.length + ws.length * (wl.length + 11)
  | [], b, b', h => by
    simp only [seedBits, Res.ok.injEq] at h
    simp [h]
  | w :: ws, b, b', h => by
    rw [seedBits] at h
    cases hw : lookupWord wl w with
    | none => rw [hw] at h; simp at h
    | some i =>
      rw [hw] at h
      have h1 := seedBits_length h
      have h2 := lookupWord_lt hw
      have h3 := length_fmtNat2 i
      rw [List.length_append, length_padZeros] at h1
      simp only [List.length_cons, Nat.add_mul, Nat.one_mul]
      have : max 11 (fmtNat 2 i).length ≤ wl.length + 11 := by omega
      omega

/-- How `NewSeedFromMnemonic` ends, from the model: results `([]byte, error)` with nil bytes. -/
def Done.seed : Res (Option Bytes) → Done (Option Bytes × Option GoError)
  | .ok b => .ret (b, none)
  | .err e => .ret (none, some e)
  | .panic p => .panic p

theorem newSeed_eval (H : Hashes) (n : Nat) (w : World) (mnemonic passphrase : GoString) (wl : List GoString)
    (hn : 65 + ((splitSpace mnemonic).length + 1) * (wl.length + 11) ≤ n) :
    (newSeedFromMnemonicBody H).eval n w { mnemonic := mnemonic, passphrase := passphrase, wordlist := wl } =
      fin (some (Done.seed (newSeedFromMnemonic H mnemonic passphrase (some wl)).1))
        { w with log := w.log ++ (newSeedFromMnemonic H mnemonic passphrase (some wl)).2 } := by
  have hn1 : wl.length < n := by
    rw [Nat.add_mul] at hn; omega
  have hn2 : (splitSpace mnemonic).length < n := by
    have : (splitSpace mnemonic).length + 1 ≤ ((splitSpace mnemonic).length + 1) * (wl.length + 11) :=
      Nat.le_mul_of_pos_right _ (by omega)
    omega
  unfold newSeedFromMnemonicBody newSeedFromMnemonic
  exec
  rw [loop_eval]
  have hw := words_rounds n (by omega) w n
    { mnemonic := mnemonic, passphrase := passphrase, wordlist := wl, words := splitSpace mnemonic } hn1
    (by simpa using hn2)
  simp only [List.drop_zero] at hw
  simp only [Option.getD_some]
  cases hb : seedBits wl (splitSpace mnemonic) [] with
  | panic p => rw [hb] at hw; exact hw.elim
  | err e =>
    rw [hb] at hw
    simp only at hw
    rw [hw]
    exec
    simp [fin, Done.seed, Out.done]
  | ok binary =>
    rw [hb] at hw
    simp only at hw
    obtain ⟨s1, e1, rfl⟩ := hw
    rw [e1]
    exec
    rw [loop_eval]
    have hlen := seedBits_length hb
    have hk := nibbles_rounds n (by omega) n w { s1 with hash := [], i := 0 } (by
      simp only [List.length_nil, Nat.add_mul] at hlen hn ⊢
      omega)
    simp only [List.drop_zero] at hk
    rcases hr : nibbleLoop s1.binary [] with ⟨_ | _ | _, log⟩
    · rw [hr] at hk
      simp only at hk
      obtain ⟨s2, e2, rfl⟩ := hk
      rw [e2]
      exec
      cases hs1 : slice s2.hash ((s2.hash.length : Int) - 2) s2.hash.length with
      | err e => exact absurd hs1 slice_ne_err
      | panic p => exec; rfl
      | ok checksum =>
        exec
        cases hs2 : slice s2.hash 0 ((s2.hash.length : Int) - 2) with
        | err e => exact absurd hs2 slice_ne_err
        | panic p => exec; rfl
        | ok body =>
          exec
          cases hexDecode body with
          | err e => exec; rfl
          | panic p => exec; rfl
          | ok decoded =>
            exec
            rw [loop_eval, pad_loop (fun _ => 64) SeedVars.shaHashHex (fun s t => { s with shaHashHex := t }) (fun _ _ => rfl)
              (fun _ _ _ => rfl) (fun _ => rfl) (fun _ _ => rfl) n _ n _ (by omega)]
            exec
            cases hs3 : slice (padZeros 64 (bigIntToHex (some (bytesToNat (H.sha256 decoded) : Int)))) 0 2 with
            | err e => exact absurd hs3 slice_ne_err
            | panic p => exec; rfl
            | ok head =>
              exec
              by_cases hc : head = checksum
              · simp only [hc]
                exec
                simp [fin, Done.seed, Out.done]
              · simp only [hc]
                exec
                rfl
    · rw [hr] at hk; exact hk.elim
    · rw [hr] at hk
      simp only at hk
      rw [hk]
      exec
      rfl

/-! ## NewMnemonic -/

/-- The body of the inner loop of `pickStmt`. -/
def pickRound : Stmt MnemonicVars (GoString × Option GoError) :=
  .cond (fun s => do let x ← deref s.binary; .ok (decide (natBit x.toNat s.j = 0)))
    (set fun s => { s with str := s.str ++ [48] }) (set fun s => { s with str := s.str ++ [49] }) ;;
  set (fun s => { s with j := s.j + 1 })

theorem pick_rounds (m : Nat) (w : World) (x : Int) : ∀ (n k : Nat) (s : MnemonicVars), k < n → s.j + k = s.i + 11 →
    s.binary = some x →
    rounds (fun s => .ok (decide ((s.j : Int) - s.i < 11))) (pickRound.eval m) n w s =
      some (.next { s with str := s.str ++ (List.range' s.j k).map (fun t => if natBit x.toNat t = 0 then 48 else 49), j := s.j + k }, w)
  | 0, k, s, h, _, _ => by omega
  | n + 1, 0, s, _, h', _ => by
    have hc : ¬((s.j : Int) - s.i < 11) := by omega
    rw [rounds_false (by simp [hc])]
    simp
  | n + 1, k + 1, s, h, h', hx => by
    have hc : ((s.j : Int) - s.i < 11) := by omega
    rw [rounds_true (by simp [hc])]
    unfold pickRound
    exec
    simp only [hx]
    exec
    by_cases hb : natBit x.toNat s.j = 0
    · simp only [hb]
      exec
      rw [round_next]
      have := pick_rounds m w x n k { s with str := s.str ++ [48], j := s.j + 1 } (by omega) (by simp only; omega) hx
      unfold pickRound at this
      simp only [hx] at this
      rw [this]
      simp [List.range'_succ, hb, Nat.add_assoc, Nat.add_comm 1 k]
    · simp only [hb]
      exec
      rw [round_next]
      have := pick_rounds m w x n k { s with str := s.str ++ [49], j := s.j + 1 } (by omega) (by simp only; omega) hx
      unfold pickRound at this
      simp only [hx] at this
      rw [this]
      simp [List.range'_succ, hb, Nat.add_assoc, Nat.add_comm 1 k]

theorem bitString_range' (x i : Nat) :
    bitString x i = (List.range' i 11).map (fun t => if natBit x t = 0 then 48 else 49) := by
  rw [bitString, List.range'_eq_map_range, List.map_map]
  rfl

theorem pick_eval (n : Nat) (hn : 11 < n) (w : World) (s : MnemonicVars) (x : Int) (hx : s.binary = some x) :
    match (do let k ← deref (bigSetString (bitString x.toNat s.i) 2); index (s.wordlist.getD []) k : Res GoString) with
    | .ok wd => ∃ s', pickStmt.eval n w s = some (.next s', w) ∧ s'.binary = s.binary ∧ s'.wordlist = s.wordlist ∧ s'.b = s.b ∧
        s'.i = s.i + 11 ∧ s'.phrase = s.phrase ++ [wd]
    | .err _ => False
    | .panic p => pickStmt.eval n w s = some (.panic p, w) := by
  unfold pickStmt
  exec
  rw [loop_eval]
  have := pick_rounds n w x n 11 { s with str := [], j := s.i } hn rfl hx
  unfold pickRound at this
  rw [this]
  exec
  rw [← bitString_range']
  cases bigSetString (bitString x.toNat s.i) 2 with
  | none => exec
  | some k =>
    exec
    cases hi : index (s.wordlist.getD []) k with
    | err e =>
      unfold index at hi
      split at hi
      · split at hi <;> simp at hi
      · simp at hi
    | panic p => exec
    | ok wd => exec; exact ⟨_, rfl, rfl, rfl, rfl, rfl, rfl⟩

theorem picks_rounds (m : Nat) (hm : 11 < m) (w : World) (x : Int) : ∀ (k n : Nat) (s : MnemonicVars),
    s.binary = some x → (s.b.length - s.i + 10) / 11 = k → k < n →
    match phraseLoop (s.wordlist.getD []) x.toNat k s.i with
    | .ok ws => ∃ s', rounds (fun s => .ok (decide (s.i < s.b.length))) (pickStmt.eval m) n w s = some (.next s', w) ∧
        s'.phrase = s.phrase ++ ws
    | .err _ => False
    | .panic p => rounds (fun s => .ok (decide (s.i < s.b.length))) (pickStmt.eval m) n w s = some (.panic p, w)
  | _, 0, s, _, _, h => by omega
  | 0, n + 1, s, hx, hk, h => by
    rw [rounds_false (by simp; omega)]
    exact ⟨s, rfl, by simp⟩
  | k + 1, n + 1, s, hx, hk, h => by
    have hl : s.i < s.b.length := by omega
    rw [rounds_true (by simp [hl])]
    have hp := pick_eval m hm w s x hx
    rw [phraseLoop]
    cases hk' : bigSetString (bitString x.toNat s.i) 2 with
    | none =>
      rw [hk'] at hp
      simp only [deref_none, Res.bind_panic] at hp ⊢
      rw [hp, round_panic]
    | some v =>
      rw [hk'] at hp
      simp only [deref_some, Res.bind_ok] at hp ⊢
      cases hi : index (s.wordlist.getD []) v with
      | err e => rw [hi] at hp; exact hp.elim
      | panic p =>
        rw [hi] at hp
        simp only [Res.bind_panic] at hp ⊢
        rw [hp, round_panic]
      | ok wd =>
        rw [hi] at hp
        simp only [Res.bind_ok] at hp ⊢
        obtain ⟨s', e, h1, h2, h3, h4, h5⟩ := hp
        rw [e, round_next]
        have ih := picks_rounds m hm w x k n s' (by rw [h1, hx]) (by rw [h3, h4]; omega) (by omega)
        rw [h2, h4] at ih
        cases hr : phraseLoop (s.wordlist.getD []) x.toNat k (s.i + 11) with
        | err e => rw [hr] at ih; exact ih.elim
        | panic p =>
          rw [hr] at ih
          simp only [Res.bind_panic] at ih ⊢
          exact ih
        | ok ws =>
          rw [hr] at ih
          simp only [Res.bind_ok] at ih ⊢
          obtain ⟨s'', e2, h6⟩ := ih
          exact ⟨s'', e2, by rw [h6, h5]; simp⟩

theorem randLoop_lt {max k b : Nat} : ∀ {fuel : Nat} {rd rd' : Reader} {v : Nat}, randLoop max k b fuel rd = .ok (v, rd') → v < max
  | 0, _, _, _, h => by simp [randLoop] at h
  | fuel + 1, rd, rd', v, h => by
    rw [randLoop] at h
    cases hr : readFull k rd with
    | err e => rw [hr] at h; simp at h
    | panic p => rw [hr] at h; simp at h
    | ok q =>
      rw [hr] at h
      simp only at h
      split at h
      · rename_i hv
        simp only [Res.ok.injEq, Prod.mk.injEq] at h
        rw [← h.1]; exact hv
      · exact randLoop_lt h

theorem randInt_lt {rd rd' : Reader} {max v : Nat} (hm : 0 < max) (h : randInt rd max = .ok (v, rd')) : v < max := by
  unfold randInt at h
  simp only at h
  split at h
  · simp only [Res.ok.injEq, Prod.mk.injEq] at h
    rw [← h.1]; exact hm
  · exact randLoop_lt h

theorem slice_length {α : Type} {s t : List α} {a b : Int} (h : slice s a b = .ok t) : (t.length : Int) = b - a := by
  unfold slice at h
  split at h
  · rename_i hc
    simp only [Res.ok.injEq] at h
    rw [← h, List.length_take, List.length_drop]
    omega
  · simp at h

theorem phraseLoop_ne_err {wl : List GoString} {x : Nat} {e : GoError} : ∀ {k i : Nat}, phraseLoop wl x k i ≠ .err e
  | 0, i => by simp [phraseLoop]
  | k + 1, i => by
    rw [phraseLoop]
    cases bigSetString (bitString x i) 2 with
    | none => simp
    | some v =>
      simp only [deref_some, Res.bind_ok]
      cases hi : index wl v with
      | err e =>
        unfold index at hi
        split at hi
        · split at hi <;> simp at hi
        · simp at hi
      | panic p => simp
      | ok wd =>
        cases hp : phraseLoop wl x k (i + 11) with
        | err e' => exact absurd hp phraseLoop_ne_err
        | panic p => simp
        | ok ws => simp

theorem phraseOf_ne_err (H : Hashes) {el v : Nat} {wl : List GoString} {e : GoError} : phraseOf H el v wl ≠ .err e := by
  unfold phraseOf
  cases hs : slice (fmtNat 2 (bytesToNat (H.sha256 (natToBytes v)))) 0 ((el / 32 : Nat) : Int) with
  | err e => exact absurd hs slice_ne_err
  | panic p => simp only [hs, Res.bind_panic]; simp
  | ok c =>
    simp only [hs, Res.bind_ok]
    cases bigSetString (padZeros el (fmtNat 2 v) ++ c) 2 with
    | none => simp
    | some x =>
      simp only [deref_some, Res.bind_ok]
      cases hp : phraseLoop wl x.toNat ((List.length (padZeros el (fmtNat 2 v) ++ c) + 10) / 11) 0 with
      | err e' => exact absurd hp phraseLoop_ne_err
      | panic p => simp
      | ok ws => simp

/-- How the part of `NewMnemonic` after the drawing of the entropy ends. -/
theorem newMnemonic_tail (H : Hashes) (n : Nat) (hn : 300 ≤ n) (w : World) (words : Int) (wl : List GoString) (el : Nat)
    (hel : el ∈ [128, 160, 192, 224, 256]) (hw : entropyLengthOf words = some el) :
    (newMnemonicBody H).eval n w { words := words, wordlist := some wl } =
      match randInt w.rd (2 ^ el) with
      | .err e => some (.ret ([], some e), w)
      | .panic p => some (.panic p, w)
      | .ok (v, rd') =>
        match phraseOf H el v wl with
        | .ok p => some (.ret (p, none), { w with rd := rd' })
        | .err _ => none
        | .panic p => some (.panic p, { w with rd := rd' }) := by
  have hsel : ∀ (k : Stmt MnemonicVars (GoString × Option GoError)) (s : MnemonicVars), s.words = words →
      (ite (fun s => decide (s.words = 12)) (set fun s => { s with entropyLength := 128 })
        (ite (fun s => decide (s.words = 15)) (set fun s => { s with entropyLength := 160 })
          (ite (fun s => decide (s.words = 18)) (set fun s => { s with entropyLength := 192 })
            (ite (fun s => decide (s.words = 21)) (set fun s => { s with entropyLength := 224 })
              (ite (fun s => decide (s.words = 24)) (set fun s => { s with entropyLength := 256 })
                (ret fun _ => ([], some .unsupportedMnemonicLength)))))) ;; k).eval n w s =
        k.eval n w { s with entropyLength := el } := by
    intro k s hs
    have hc : (words = 12 ∧ el = 128) ∨ (words = 15 ∧ el = 160) ∨ (words = 18 ∧ el = 192) ∨ (words = 21 ∧ el = 224) ∨
        (words = 24 ∧ el = 256) := by
      unfold entropyLengthOf at hw
      by_cases h1 : words = 12
      · simp [h1] at hw; omega
      · by_cases h2 : words = 15
        · simp [h2] at hw; omega
        · by_cases h3 : words = 18
          · simp [h3] at hw; omega
          · by_cases h4 : words = 21
            · simp [h4] at hw; omega
            · by_cases h5 : words = 24
              · simp [h5] at hw; omega
              · simp [h1, h2, h3, h4, h5] at hw
    rw [← hs] at hc
    have d12 : decide (s.words = 12) = decide (el = 128) := by congr 1; apply propext; omega
    have d15 : decide (s.words = 15) = decide (el = 160) := by congr 1; apply propext; omega
    have d18 : decide (s.words = 18) = decide (el = 192) := by congr 1; apply propext; omega
    have d21 : decide (s.words = 21) = decide (el = 224) := by congr 1; apply propext; omega
    have d24 : decide (s.words = 24) = decide (el = 256) := by congr 1; apply propext; omega
    simp only [seq_eval, ite_eval, d12, d15, d18, d21, d24]
    simp only [List.mem_cons, List.not_mem_nil, or_false] at hel
    rcases hel with rfl | rfl | rfl | rfl | rfl <;> simp [set_eval]
  unfold newMnemonicBody
  rw [seq_eval, when_eval]
  simp only [Option.isNone_some, Bool.false_eq_true, if_false]
  rw [after_next, hsel _ _ rfl]
  exec
  have hp : ((2 : Int) ^ el).toNat = 2 ^ el := by
    have : ((2 : Int) ^ el) = ((2 ^ el : Nat) : Int) := by push_cast; rfl
    rw [this, Int.toNat_natCast]
  rw [hp]
  cases hr : randInt w.rd (2 ^ el) with
  | err e => exec
  | panic p => exec
  | ok q =>
    obtain ⟨v, rd'⟩ := q
    exec
    unfold phraseOf
    cases hs : slice (fmtNat 2 (bytesToNat (H.sha256 (natToBytes v)))) 0 ((el / 32 : Nat) : Int) with
    | err e => exact absurd hs slice_ne_err
    | panic p => simp only [hs]; exec
    | ok c =>
      simp only [hs]
      exec
      have hle : 128 ≤ el ∧ el ≤ 256 := by
        simp only [List.mem_cons, List.not_mem_nil, or_false] at hel
        omega
      rw [loop_eval, pad_loop MnemonicVars.entropyLength MnemonicVars.b (fun s t => { s with b := t }) (fun _ _ => rfl)
        (fun _ _ _ => rfl) (fun _ => rfl) (fun _ _ => rfl) n _ n _ (by simp only; omega)]
      exec
      rw [loop_eval]
      have hlen : (fmtNat 2 v).length ≤ el := (length_fmtNat_le_iff (by omega) (by omega)).2 (randInt_lt (by positivity) hr)
      have hc := slice_length hs
      have hb : (padZeros el (fmtNat 2 v) ++ c).length = el + el / 32 := by
        rw [List.length_append, length_padZeros]; omega
      cases hbin : bigSetString (padZeros el (fmtNat 2 v) ++ c) 2 with
      | none =>
        obtain ⟨m, rfl⟩ : ∃ m, n = m + 1 := ⟨n - 1, by omega⟩
        rw [rounds_true (by simp only [hb, Res.ok.injEq, decide_eq_true_eq]; omega)]
        unfold pickStmt
        exec
        rw [loop_eval, rounds_true (by simp)]
        exec
        rw [round_panic]
        exec
        rw [round_panic]
        exec
      | some x =>
        exec
        have hp := picks_rounds n (by omega) { w with rd := rd' } x _ n
          { words := words, wordlist := some wl, entropyLength := el, np256 := 2 ^ el, entropy := v, sha := natToBytes v, hash := H.sha256 (natToBytes v), checksumLength := el / 32, hashInt := bytesToNat (H.sha256 (natToBytes v)), hashBinary := fmtNat 2 (bytesToNat (H.sha256 (natToBytes v))), checksumBinary := c, b := padZeros el (fmtNat 2 v) ++ c, binary := some x }
          rfl rfl (by simp only [hb]; omega)
        simp only [Nat.sub_zero, Option.getD_some] at hp
        cases hl : phraseLoop wl x.toNat ((List.length (padZeros el (fmtNat 2 v) ++ c) + 10) / 11) 0 with
        | err e => rw [hl] at hp; exact hp.elim
        | panic p =>
          rw [hl] at hp
          simp only at hp
          rw [hp]
          exec
        | ok ws =>
          rw [hl] at hp
          simp only at hp
          obtain ⟨s', e, h'⟩ := hp
          rw [e]
          exec
          simp [h']

theorem newMnemonic_call (H : Hashes) (n : Nat) (hn : 300 ≤ n) (m : Nat) (w : World) (words : Int) (wl : Option (List GoString)) :
    match newMnemonic H w.rd words wl with
    | .ok (p, rd') => call (newMnemonicBody H) n (m + 1) w { words := words, wordlist := wl } =
        some (.ret (p, none), { w with rd := rd' })
    | .err e => call (newMnemonicBody H) n (m + 1) w { words := words, wordlist := wl } = some (.ret ([], some e), w)
    | .panic p => ∃ rd', call (newMnemonicBody H) n (m + 1) w { words := words, wordlist := wl } =
        some (.panic p, { w with rd := rd' }) := by
  unfold newMnemonic
  cases wl with
  | none =>
    simp only
    exact call_fin (d := some (.ret ([], some GoError.invalidWordlist))) (by unfold newMnemonicBody; exec; simp [fin, Out.done])
  | some wl =>
    simp only
    cases he : entropyLengthOf words with
    | none =>
      simp only
      refine call_fin (d := some (.ret ([], some GoError.unsupportedMnemonicLength))) ?_
      have h : words ≠ 12 ∧ words ≠ 15 ∧ words ≠ 18 ∧ words ≠ 21 ∧ words ≠ 24 := by
        unfold entropyLengthOf at he
        refine ⟨?_, ?_, ?_, ?_, ?_⟩ <;> rintro rfl <;> simp at he
      obtain ⟨h1, h2, h3, h4, h5⟩ := h
      unfold newMnemonicBody
      exec
      simp only [Option.isNone_some]
      exec
      simp only [h1, h2, h3, h4, h5]
      exec
      rfl
    | some el =>
      have hel : el ∈ [128, 160, 192, 224, 256] := by
        unfold entropyLengthOf at he
        repeat' split at he
        all_goals simp at he
        all_goals simp [← he]
      have ht := newMnemonic_tail H n hn w words wl el hel he
      simp only
      cases hr : randInt w.rd (2 ^ el) with
      | err e =>
        rw [hr] at ht
        simp only [Res.bind_err] at ht ⊢
        simp only [call, ht]
      | panic p =>
        rw [hr] at ht
        simp only [Res.bind_panic] at ht ⊢
        exact ⟨w.rd, by simp only [call, ht]⟩
      | ok q =>
        obtain ⟨v, rd'⟩ := q
        rw [hr] at ht
        simp only [Res.bind_ok] at ht ⊢
        cases hp : phraseOf H el v wl with
        | err e => exact absurd hp (phraseOf_ne_err H)
        | panic p =>
          rw [hp] at ht
          simp only [Res.bind_panic] at ht ⊢
          exact ⟨rd', by simp only [call, ht]⟩
        | ok p =>
          rw [hp] at ht
          simp only [Res.bind_ok] at ht ⊢
          simp only [call, ht]

/-! ## GeneratePrivateKey -/

theorem generate_eval (H : Hashes) (network : Option Network) (n : Nat) (w : World) :
    (generatePrivateKeyBody H).eval n w { network := network } =
      match generateRandomBigInt w.rd with
      | .err _ => none
      | .panic p => some (.panic p, w)
      | .ok (v, rd') =>
        match attempt H network v with
        | .err _ => none
        | .panic p => some (.panic p, { w with rd := rd' })
        | .ok none => some (.again { network := network }, { w with rd := rd' })
        | .ok (some k) => some (.ret (some k), { w with rd := rd' }) := by
  unfold generatePrivateKeyBody
  exec
  generalize generateRandomBigInt w.rd = g
  cases g with
  | err e => exec
  | panic p => exec
  | ok q =>
    obtain ⟨v, rd'⟩ := q
    exec
    have e : bigIntToHex (some (v : Int)) = fmtNat 16 v := Btc.fmtBig_nat 16 v
    rw [e]
    unfold attempt
    by_cases hl : (fmtNat 16 v).length = 64
    · have hb : ((fmtNat 16 v).length != 64) = false := by rw [hl]; rfl
      rw [hb, if_neg (not_not_intro hl)]
      exec
      generalize privateFromHex H (fmtNat 16 v) network = r
      cases r with
      | err er => simp only [Res.bind]; exec
      | panic p => simp only [Res.bind]; exec
      | ok k => simp only [Res.bind]; exec
    · have hb : ((fmtNat 16 v).length != 64) = true := by simpa using hl
      rw [hb, if_pos hl]
      exec

/-- How a call of `GeneratePrivateKey` ends when the model ends with `r`. -/
def GenerateEnds (r : Res (PrivateKey × Reader)) (c : Option (Done (Option PrivateKey) × World)) (w : World) : Prop :=
  (∀ k rd', r = .ok (k, rd') → c = some (.ret (some k), { w with rd := rd' })) ∧
  (∀ p, r = .panic p → ∃ rd', c = some (.panic p, { w with rd := rd' })) ∧ ∀ e, r ≠ .err e

theorem generate_call (H : Hashes) (network : Option Network) (n : Nat) (m : Nat) : ∀ (w : World), w.rd.length < m →
    GenerateEnds (generatePrivateKey H w.rd network) (call (generatePrivateKeyBody H) n m w { network := network }) w := by
  induction m with
  | zero => intro w h; exact absurd h (Nat.not_lt_zero _)
  | succ m ih =>
    intro w h
    have hg : generatePrivateKey H w.rd network = generateLoop H generateRandomBigInt network (w.rd.length + 1) w.rd := by
      rw [generatePrivateKey]
    have hc : call (generatePrivateKeyBody H) n (m + 1) w { network := network } =
        match (generatePrivateKeyBody H).eval n w { network := network } with
        | some (.ret r, w') => some (.ret r, w')
        | some (.panic p, w') => some (.panic p, w')
        | some (.again s', w') => call (generatePrivateKeyBody H) n m w' s'
        | _ => none := by
      rw [call]
      rcases (generatePrivateKeyBody H).eval n w { network := network } with _ | ⟨_ | _ | _ | _ | _, _⟩ <;> rfl
    rw [hg, generateLoop_succ, hc, generate_eval]
    rcases generateRandomBigInt_spec w.rd.length w.rd (Nat.le_refl _) with ⟨v, rd', e1, _, e3⟩ | e1
    · rw [e1]
      simp only
      have hih := ih { w with rd := rd' } (by simp only; omega)
      have hfuel : generatePrivateKey H rd' network = generateLoop H generateRandomBigInt network w.rd.length rd' := by
        rw [generatePrivateKey]
        exact generateLoop_fuel H network _ _ _ (by omega) (by omega)
      rw [show generatePrivateKey H ({ w with rd := rd' } : World).rd network = _ from hfuel] at hih
      generalize generateLoop H generateRandomBigInt network w.rd.length rd' = g at hih ⊢
      cases ha : attempt H network v with
      | err er =>
        unfold attempt at ha
        split at ha
        · simp at ha
        · split at ha <;> simp at ha
      | panic p =>
        refine ⟨fun _ _ hh => by simp at hh, fun q hh => ⟨rd', ?_⟩, fun _ hh => by simp at hh⟩
        simp only [Res.panic.injEq] at hh
        rw [hh]
      | ok o =>
        cases o with
        | none => exact hih
        | some k =>
          refine ⟨fun k' rd'' hh => ?_, fun q hh => by simp at hh, fun _ hh => by simp at hh⟩
          simp only [Res.ok.injEq, Prod.mk.injEq] at hh
          rw [hh.1, hh.2]
    · rw [e1]
      refine ⟨fun _ _ hh => by simp at hh, fun q hh => ⟨w.rd, ?_⟩, fun _ hh => by simp at hh⟩
      simp only [Res.panic.injEq] at hh
      rw [hh]

end Btc.Imp
