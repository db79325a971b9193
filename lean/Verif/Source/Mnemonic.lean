import Verif.Imp.Calls
import Verif.Proofs.Phrase
import Verif.Source.Keys
import Verif.Source.Loops

/-!
# mnemonic.go
-/

namespace Btc.Source

open Mem

/-- The `k`-th statement of a sequence. -/
def Stmt.at : Nat → Stmt → Stmt
  | 0, .seq a _ => a
  | k + 1, .seq _ b => b.at k
  | _, s => s

/-- The body of a loop. -/
def Stmt.body : Stmt → Stmt
  | .loop _ _ _ b => b
  | .range _ _ _ b => b
  | s => s

/-- The statements of a block. -/
def Stmt.inside : Stmt → Stmt
  | .block s => s
  | s => s

/-- mnemonic.go:18-36, the body of the loop over the words. -/
def wordBody : Stmt := value_of% (fNewSeedFromMnemonic.body.at 2).body

/-- mnemonic.go:20-25, the body of the loop over the word list. -/
def lookupBody : Stmt := value_of% (wordBody.inside.at 1).body

/-- mnemonic.go:39-48, the body of the loop over the nibbles. -/
def nibbleBody : Stmt := value_of% (fNewSeedFromMnemonic.body.at 4).body

/-- mnemonic.go:41-43, the loop that collects four characters. -/
def collectLoop : Stmt := value_of% nibbleBody.inside.at 1

/-- What the loop over the word list leaves in `index`. -/
def lookupInt (i : Nat) (l : List GoString) (w : GoString) : Int :=
  match lookupWord l w with
  | some j => (i + j : Nat)
  | none => -1

theorem lookup_ranging (C : Ctx) (n : Nat) (w : GoString) (wl : Option (List GoString)) (env : Env)
    (hw : Env.get (id! "word") env = some (.str w)) (hl : Env.get (id! "wordlist") env = some (.strs wl)) (st : State) :
    ∀ (l pre : List GoString), wl.getD [] = pre ++ l →
    ranging (exec C n lookupBody) (id! "i") (id! "_") ([(id! "index", .int (-1))] :: env) pre.length l st =
      .ok (.next ([(id! "index", .int (lookupInt pre.length l w))] :: env)) st
  | [], pre, h => by
    unfold ranging lookupInt lookupWord
    go_run
  | x :: l, pre, h => by
    have ih := lookup_ranging C n w wl env hw hl st l (pre ++ [x]) (by simp [h])
    have hi : index (wl.getD []) (pre.length : Int) = .ok x := by
      rw [h, Imp.index_lt (by simp)]; simp
    unfold ranging
    unfold lookupBody at ih ⊢
    go_run [hw, hl, hi]
    by_cases hx : w = x
    · go_run [hx, hw]
      simp [lookupInt, lookupWord]
    · go_run [hx]
      rw [List.length_append, List.length_singleton] at ih
      rw [ih]
      unfold lookupInt
      rw [lookupWord, if_neg hx]
      cases lookupWord l w with
      | none => rfl
      | some j => simp only [Option.map_some, Nat.add_assoc, Nat.add_comm 1 j]

theorem exec_range (C : Ctx) (n k v : Nat) (e : Expr) (body : Stmt) (env : Env) : exec C n (.range k v e body) env = (do
    let vs ← eval C e env
    match vs with
    | [.strs l] => ranging (exec C n body) k v env 0 (l.getD [])
    | _ => stuck) := (rfl)

/-- The variables of `NewSeedFromMnemonic` in the loop over the words. -/
def seedEnv (mnemonic pass : GoString) (wl : Option (List GoString)) (words : List GoString) (binary : GoString) : Env :=
  [[(id! "binary", .str binary), (id! "words", .strs (some words)), (id! "mnemonic", .str mnemonic),
    (id! "passphrase", .str pass), (id! "wordlist", .strs wl)]]

/-- How the loop over the words ends. -/
def wordsOut (env : GoString → Env) (st : State) : Res GoString → Out Ctl
  | .ok b => .ok (.next (env b)) st
  | .err e => .ok (.ret [.nil, .err (some e)]) st
  | .panic p => .panic p st

theorem words_ranging (C : Ctx) (n : Nat) (hn : 11 < n) (mn pa : GoString) (wl : Option (List GoString)) (ws : List GoString) (st : State) :
    ∀ (l : List GoString) (i : Nat) (b : GoString),
    ranging (exec C n wordBody) (id! "_") (id! "word") (seedEnv mn pa wl ws b) i l st =
      wordsOut (seedEnv mn pa wl ws) st (seedBits (wl.getD []) l b)
  | [], i, b => by
    unfold ranging seedBits wordsOut
    go_run
  | w :: l, i, b => by
    have ih := fun b => words_ranging C n hn mn pa wl ws st l (i + 1) b
    have hlk := lookup_ranging C n w wl ([(id! "word", .str w)] :: seedEnv mn pa wl ws b) rfl rfl st (wl.getD []) [] rfl
    rw [List.length_nil] at hlk
    unfold lookupBody at hlk
    unfold ranging seedBits
    unfold wordBody at ih ⊢
    go_run [exec_range]
    unfold seedEnv at hlk ih ⊢
    go_run [hlk]
    unfold lookupInt
    cases lookupWord (wl.getD []) w with
    | none => go_run [wordsOut]
    | some j =>
      have hj : ¬ ((0 + j : Nat) : Int) < 0 := by omega
      go_run [hj]
      have hp := exec_pad C (x := id! "indexBinary") (k := .num 11) (len := 11) (fun t => [[(id! "indexBinary", .str t),
        (id! "index", .int (0 + j : Nat))], [(id! "word", .str w)], [(id! "binary", .str b), (id! "words", .strs (some ws)),
        (id! "mnemonic", .str mn), (id! "passphrase", .str pa), (id! "wordlist", .strs wl)]]) (by decide) (fun _ => rfl)
        (fun _ _ => rfl) (fun _ _ => rfl) n hn (fmtBig 2 (some ((0 + j : Nat) : Int))) st
      unfold padLoop at hp
      go_run [hp]
      go_run [ih, Imp.fmtBig_nat, Nat.zero_add]

theorem utf8Char_ascii {b : UInt8} (h : b.toNat < 128) : utf8Char b.toNat = [b] := by
  unfold utf8Char; rw [if_pos h]; simp

theorem index_four {bin : GoString} {i : Nat} {a b c d : UInt8} {r : GoString} (hd : bin.drop i = a :: b :: c :: d :: r) :
    index bin (i : Int) = .ok a ∧ index bin ((i : Int) + 1) = .ok b ∧ index bin ((i : Int) + 1 + 1) = .ok c ∧
      index bin ((i : Int) + 1 + 1 + 1) = .ok d := by
  have hg : ∀ k x, (a :: b :: c :: d :: r)[k]? = some x → index bin ((i + k : Nat) : Int) = .ok x := by
    intro k x h
    rw [← hd, List.getElem?_drop] at h
    rw [Imp.index_nat, h]
  exact ⟨hg 0 a rfl, hg 1 b rfl, by simpa [Int.add_assoc] using hg 2 c rfl, by simpa [Int.add_assoc] using hg 3 d rfl⟩

theorem collect_cond (i : Nat) : ((i : Int) - i < 4) = True ∧ ((i : Int) + 1 - i < 4) = True ∧ ((i : Int) + 1 + 1 - i < 4) = True ∧
    ((i : Int) + 1 + 1 + 1 - i < 4) = True ∧ ((i : Int) + 1 + 1 + 1 + 1 - i < 4) = False := by
  refine ⟨eq_true ?_, eq_true ?_, eq_true ?_, eq_true ?_, eq_false ?_⟩ <;> omega

/-- mnemonic.go:41-43: four characters are there. -/
theorem collect_ok (C : Ctx) (n : Nat) (env : Env) (bin : GoString) (i : Nat) (st : State) {a b c d : UInt8} {r : GoString}
    (hb : Env.get (id! "binary") env = some (.str bin)) (hd : bin.drop i = a :: b :: c :: d :: r)
    (ha : ∀ x ∈ bin, x.toNat < 128) :
    exec C (n + 5) collectLoop ([(id! "n", .str [])] :: [(id! "i", .int i)] :: env) st =
      .ok (.next ([(id! "n", .str [a, b, c, d])] :: [(id! "i", .int i)] :: env)) st := by
  obtain ⟨i0, i1, i2, i3⟩ := index_four hd
  have ha' : ∀ x ∈ [a, b, c, d], utf8Char x.toNat = [x] := by
    intro x hx
    refine utf8Char_ascii (ha x (List.mem_of_mem_drop (i := i) ?_))
    rw [hd]; simp only [List.mem_cons, List.not_mem_nil] at hx ⊢; tauto
  simp only [List.mem_cons, List.not_mem_nil, or_false, forall_eq_or_imp, forall_eq] at ha'
  obtain ⟨a0, a1, a2, a3⟩ := ha'
  obtain ⟨c0, c1, c2, c3, c4⟩ := collect_cond i
  unfold collectLoop
  rw [exec_loop]
  go_run [hb, rounds, c0, c1, c2, c3, c4, i0, i1, i2, i3, a0, a1, a2, a3]

/-- mnemonic.go:41-43: fewer than four characters are left. -/
theorem collect_panic (C : Ctx) (n : Nat) (env : Env) (bin : GoString) (i : Nat) (st : State)
    (hb : Env.get (id! "binary") env = some (.str bin)) (h0 : i < bin.length) (h4 : bin.length < i + 4)
    (ha : ∀ x ∈ bin, x.toNat < 128) :
    exec C (n + 5) collectLoop ([(id! "n", .str [])] :: [(id! "i", .int i)] :: env) st = .panic .indexRange st := by
  have ix : ∀ k, (h : k < bin.length) → utf8Char bin[k].toNat = [bin[k]] :=
    fun k h => utf8Char_ascii (ha _ (List.getElem_mem h))
  obtain ⟨c0, c1, c2, c3, c4⟩ := collect_cond i
  unfold collectLoop
  rw [exec_loop]
  have i0 := Imp.index_lt h0
  have a0 := ix _ h0
  by_cases h1 : i + 1 < bin.length
  · have i1 := Imp.index_lt h1
    have a1 := ix _ h1
    by_cases h2 : i + 1 + 1 < bin.length
    · have i2 := Imp.index_lt h2
      have a2 := ix _ h2
      have i3 : index bin ((i + 1 + 1 + 1 : Nat) : Int) = .panic .indexRange := Imp.index_ge (by omega)
      push_cast at i1 i2 i3
      go_run [hb, rounds, c0, c1, c2, c3, i0, i1, i2, i3, a0, a1, a2]
    · have i2 : index bin ((i + 1 + 1 : Nat) : Int) = .panic .indexRange := Imp.index_ge (by omega)
      push_cast at i1 i2
      go_run [hb, rounds, c0, c1, c2, i0, i1, i2, a0, a1]
  · have i1 : index bin ((i + 1 : Nat) : Int) = .panic .indexRange := Imp.index_ge (by omega)
    push_cast at i1
    go_run [hb, rounds, c0, c1, i0, i1, a0]

variable (H : Hashes) (E : EcdsaM)

/-- How the loop over the nibbles ends. -/
def nibblesOut (env : Nat → GoString → Env) (st : State) (ints : List Int) (i : Nat) (r : Res GoString × Log) : Out Ctl :=
  match r with
  | (.ok h, log) => .ok (.next (env i h)) ⟨{ st.heap with ints := ints }, st.hashes, st.rd, st.log ++ log, st.vars⟩
  | (.err _, _) => .stuck
  | (.panic p, log) => .panic p ⟨{ st.heap with ints := ints }, st.hashes, st.rd, st.log ++ log, st.vars⟩

/-- The variables of `NewSeedFromMnemonic` in the loop over the nibbles. -/
def hashEnv (mnemonic pass : GoString) (wl : Option (List GoString)) (words : List GoString) (binary : GoString) (i : Nat)
    (hash : GoString) : Env :=
  [[(id! "i", .int i)], [(id! "hash", .str hash), (id! "binary", .str binary), (id! "words", .strs (some words)),
    (id! "mnemonic", .str mnemonic), (id! "passphrase", .str pass), (id! "wordlist", .strs wl)]]

theorem nibbles_rounds (n : Nat) (mn pa : GoString) (wl : Option (List GoString)) (ws : List GoString) (bin : GoString)
    (ha : ∀ x ∈ bin, x.toNat < 128) : ∀ (k i : Nat) (hash : GoString) (st : State), bin.length - i < 4 * k →
    ∃ ints i', st.heap.ints <+: ints ∧ rounds (eval ⟨H, E, runFunc H E program (n + 5)⟩
        (.bin (id! "<") (.name (id! "i")) (.call (.name (id! "len")) (.cons (.name (id! "binary")) .nil))))
      (exec ⟨H, E, runFunc H E program (n + 5)⟩ (n + 5) nibbleBody)
      (exec ⟨H, E, runFunc H E program (n + 5)⟩ (n + 5) (.addAssign (.name (id! "i")) (.num 4))) k
      (hashEnv mn pa wl ws bin i hash) st =
      nibblesOut (hashEnv mn pa wl ws bin) st ints i' (nibbleLoop (bin.drop i) hash)
  | 0, i, hash, st, h => by omega
  | k + 1, i, hash, st, h => by
    have ih := nibbles_rounds n mn pa wl ws bin ha k
    unfold rounds
    by_cases hi : i < bin.length
    · have hi' : (i : Int) < bin.length := by omega
      unfold nibbleBody at ih ⊢
      by_cases h4 : i + 4 ≤ bin.length
      · have e4 : bin.drop i = bin[i] :: bin[i + 1] :: bin[i + 2] :: bin[i + 3] :: bin.drop (i + 4) := by
          rw [List.drop_eq_getElem_cons hi, List.drop_eq_getElem_cons (i := i + 1) (by omega),
            List.drop_eq_getElem_cons (i := i + 2) (by omega), List.drop_eq_getElem_cons (i := i + 3) (by omega)]
        rw [e4]
        generalize bin[i] = a, bin[i + 1] = b, bin[i + 2] = c, bin[i + 3] = d at e4 ⊢
        have hc := collect_ok ⟨H, E, runFunc H E program (n + 5)⟩ n [[(id! "hash", .str hash), (id! "binary", .str bin), (id! "words", .strs (some ws)),
          (id! "mnemonic", .str mn), (id! "passphrase", .str pa), (id! "wordlist", .strs wl)]] bin i st rfl e4 ha
        unfold collectLoop at hc
        unfold hashEnv at ih ⊢
        go_run [hi', hc, run_bigIntToHex]
        have hv : loadInt ⟨st.heap.ints ++ [(bigSetString [a, b, c, d] 2).getD 0], st.heap.nets, st.heap.privs, st.heap.pubs,
            st.heap.curve⟩ (Option.map (fun _ => st.heap.ints.length) (bigSetString [a, b, c, d] 2)) = bigSetString [a, b, c, d] 2 := by
          cases bigSetString [a, b, c, d] 2 <;> simp [loadInt]
        rw [hv]
        obtain ⟨ints, i', hg, e⟩ := ih (i + 4) (hash ++ bigIntToHex (bigSetString [a, b, c, d] 2)) ⟨⟨st.heap.ints ++
          [(bigSetString [a, b, c, d] 2).getD 0], st.heap.nets, st.heap.privs, st.heap.pubs, st.heap.curve⟩, st.hashes, st.rd, st.log ++ [[a, b, c, d]], st.vars⟩
          (by omega)
        push_cast at e
        refine ⟨ints, i', (List.prefix_append _ _).trans hg, ?_⟩
        rw [e, nibbleLoop]
        rcases nibbleLoop (bin.drop (i + 4)) (hash ++ bigIntToHex (bigSetString [a, b, c, d] 2)) with ⟨_ | _ | _, log⟩ <;>
          simp [nibblesOut]
      · have hc := collect_panic ⟨H, E, runFunc H E program (n + 5)⟩ n [[(id! "hash", .str hash), (id! "binary", .str bin), (id! "words", .strs (some ws)),
          (id! "mnemonic", .str mn), (id! "passphrase", .str pa), (id! "wordlist", .strs wl)]] bin i st rfl hi (by omega) ha
        unfold collectLoop at hc
        unfold hashEnv
        go_run [hi', hc]
        refine ⟨st.heap.ints, 0, List.prefix_refl _, ?_⟩
        have hd : (bin.drop i).length < 4 ∧ 0 < (bin.drop i).length := by
          rw [List.length_drop]; omega
        rcases hb : bin.drop i with _ | ⟨a, _ | ⟨b, _ | ⟨c, _ | ⟨d, r⟩⟩⟩⟩ <;>
          simp only [hb, List.length_cons, List.length_nil] at hd
        · omega
        · simp [nibbleLoop, nibblesOut]
        · simp [nibbleLoop, nibblesOut]
        · simp [nibbleLoop, nibblesOut]
        · omega
    · have hi' : ¬ (i : Int) < bin.length := by omega
      unfold hashEnv
      go_run [hi']
      refine ⟨st.heap.ints, i, List.prefix_refl _, ?_⟩
      rw [List.drop_eq_nil_of_le (by omega)]
      simp [nibblesOut, nibbleLoop]

theorem digit_ascii {d : Nat} (h : d < 2) : (digitChar d).toNat < 128 := by
  obtain rfl | rfl : d = 0 ∨ d = 1 := by omega
  all_goals decide

theorem fmtNat2_ascii (m : Nat) : ∀ c ∈ fmtNat 2 m, c.toNat < 128 := by
  intro c hc
  rw [fmtNat_eq_digits] at hc
  obtain ⟨d, hd, rfl⟩ := List.mem_map.1 hc
  exact digit_ascii (fmtDigits_lt (by omega) hd)

theorem seedBits_ascii {wl : List GoString} : ∀ {ws : List GoString} {b b' : GoString}, seedBits wl ws b = .ok b' →
    (∀ c ∈ b, c.toNat < 128) → ∀ c ∈ b', c.toNat < 128
  | [], b, b', h, hb => by
    simp only [seedBits, Res.ok.injEq] at h
    rwa [← h]
  | w :: ws, b, b', h, hb => by
    rw [seedBits] at h
    cases hw : lookupWord wl w with
    | none => rw [hw] at h; simp at h
    | some i =>
      rw [hw] at h
      refine seedBits_ascii h ?_
      intro c hc
      simp only [List.mem_append, padZeros, List.mem_replicate] at hc
      rcases hc with hc | ⟨_, rfl⟩ | hc
      · exact hb c hc
      · decide
      · exact fmtNat2_ascii i c hc

theorem seedBits_no_panic {wl : List GoString} {p : GoPanic} : ∀ {ws : List GoString} {b : GoString}, seedBits wl ws b ≠ .panic p
  | [], b, h => by simp [seedBits] at h
  | w :: ws, b, h => by
    rw [seedBits] at h
    cases hw : lookupWord wl w with
    | none => rw [hw] at h; simp at h
    | some i => rw [hw] at h; exact seedBits_no_panic h

theorem nibbleLoop_no_err {e : GoError} : ∀ {r hash : GoString}, (nibbleLoop r hash).1 ≠ .err e
  | [], hash, h => by simp [nibbleLoop] at h
  | [a], hash, h => by simp [nibbleLoop] at h
  | [a, b], hash, h => by simp [nibbleLoop] at h
  | [a, b, c], hash, h => by simp [nibbleLoop] at h
  | a :: b :: c :: d :: r, hash, h => by
    rw [nibbleLoop] at h
    exact nibbleLoop_no_err h

/-- A call of `NewSeedFromMnemonic` and what the model says. -/
def seedOut (st : State) (ints : List Int) (hs : List HashObj) (r : Res (Option Bytes) × Log) : Out (List Value) :=
  match r with
  | (.ok none, log) => .ok [.nil, .err none] ⟨{ st.heap with ints := ints }, hs, st.rd, st.log ++ log, st.vars⟩
  | (.ok (some b), log) => .ok [.bytes b, .err none] ⟨{ st.heap with ints := ints }, hs, st.rd, st.log ++ log, st.vars⟩
  | (.err e, log) => .ok [.nil, .err (some e)] ⟨{ st.heap with ints := ints }, hs, st.rd, st.log ++ log, st.vars⟩
  | (.panic p, log) => .panic p ⟨{ st.heap with ints := ints }, hs, st.rd, st.log ++ log, st.vars⟩

theorem run_NewSeedFromMnemonic (mn pa : GoString) (wl : Option (List GoString)) (n : Nat)
    (hn : 65 + (splitSpace mn).length * ((wl.getD []).length + 11) ≤ n) (st : State) :
    ∃ ints hs, st.heap.ints <+: ints ∧ runFunc H E program (n + 1) 0 (id! "NewSeedFromMnemonic") [.str mn, .str pa, .strs wl] st =
      seedOut st ints hs (newSeedFromMnemonic H mn pa wl) := by
  obtain ⟨n, rfl⟩ : ∃ m, n = m + 5 := ⟨n - 5, by omega⟩
  rw [runFunc_succ H E find_NewSeedFromMnemonic _ rfl]
  have hw := words_ranging ⟨H, E, runFunc H E program (n + 5)⟩ (n + 5) (by omega) mn pa wl (splitSpace mn) st (splitSpace mn) 0 []
  unfold wordBody seedEnv at hw
  unfold fNewSeedFromMnemonic newSeedFromMnemonic
  go_run [exec_range, hw]
  rcases hb : seedBits (wl.getD []) (splitSpace mn) [] with bin | e | p
  case panic => exact (seedBits_no_panic hb).elim
  case err =>
    go_run [wordsOut]
    exact ⟨st.heap.ints, st.hashes, List.prefix_refl _, by simp [seedOut, typed]⟩
  have hk := nibbles_rounds H E n mn pa wl (splitSpace mn) bin (seedBits_ascii hb (by simp)) (n + 5) 0 [] st (by
    have := Imp.seedBits_length hb
    simp only [List.length_nil] at this
    omega)
  obtain ⟨ints, i', hg, hk⟩ := hk
  unfold nibbleBody hashEnv at hk
  go_run [wordsOut, exec_loop]
  push_cast at hk
  go_run [hk]
  rw [List.drop_zero]
  rcases hl : nibbleLoop bin [] with ⟨hash | e | p, log⟩
  case err => exact (nibbleLoop_no_err (congrArg Prod.fst hl)).elim
  case panic =>
    go_run [nibblesOut]
    exact ⟨ints, st.hashes, hg, rfl⟩
  go_run [nibblesOut]
  rcases hs1 : slice hash ((hash.length : Int) - 2) hash.length with checksum | e | p
  case err => exact (Imp.slice_ne_err hs1).elim
  case panic => go_run; exact ⟨ints, st.hashes, hg, rfl⟩
  go_run
  rcases hs2 : slice hash 0 ((hash.length : Int) - 2) with body | e | p
  case err => exact (Imp.slice_ne_err hs2).elim
  case panic => go_run; exact ⟨ints, _, hg, rfl⟩
  go_run
  rcases hexDecode body with decoded | e | p
  case err => go_run; exact ⟨ints, _, hg, rfl⟩
  case panic => go_run; exact ⟨ints, _, hg, rfl⟩
  go_run [run_bigIntToHex]
  have hp := exec_pad ⟨H, E, runFunc H E program (n + 5)⟩ (x := id! "shaHashHex") (k := .num 64) (len := 64) (fun t =>
    [[(id! "shaHashHex", .str t), (id! "shaHashBig", .big (some ints.length)), (id! "shaHash", .bytes (H.sha256 decoded)),
      (id! "err", .err none), (id! "decoded", .bytes decoded), (id! "sha", .hash st.hashes.length),
      (id! "checksum", .str checksum), (id! "hash", .str hash), (id! "binary", .str bin),
      (id! "words", .strs (some (splitSpace mn))), (id! "mnemonic", .str mn), (id! "passphrase", .str pa),
      (id! "wordlist", .strs wl)]]) (by decide) (fun _ => rfl) (fun _ _ => rfl) (fun _ _ => rfl) (n + 5) (by omega)
    (bigIntToHex (some (bytesToNat (H.sha256 decoded) : Int)))
  unfold padLoop at hp
  go_run [hp]
  generalize padZeros 64 (bigIntToHex (some (bytesToNat (H.sha256 decoded) : Int))) = shaHex
  rcases hs3 : slice shaHex 0 2 with head | e | p
  case err => exact (Imp.slice_ne_err hs3).elim
  case panic => go_run; exact ⟨_, _, hg.trans (List.prefix_append _ _), rfl⟩
  go_run
  by_cases hc : head = checksum
  · subst hc
    go_run
    refine ⟨ints ++ [(bytesToNat (H.sha256 decoded) : Int)], st.hashes ++ [⟨false, decoded⟩], hg.trans (List.prefix_append _ _), ?_⟩
    simp only [seedOut, Imp.fmtBig_nat, typed, List.append_assoc, List.cons_append, List.nil_append]
    rfl
  · go_run [hc]
    exact ⟨_, _, hg.trans (List.prefix_append _ _), rfl⟩

/-! ## NewMnemonic -/

/-- The statements after the first `k`. -/
def Stmt.after : Nat → Stmt → Stmt
  | k + 1, .seq _ b => b.after k
  | _, s => s

/-- mnemonic.go:79-81 -/
def mnemonicNil : Stmt := value_of% fNewMnemonic.body.at 0

/-- mnemonic.go:83 -/
def mnemonicVar : Stmt := value_of% fNewMnemonic.body.at 1

/-- mnemonic.go:84-102 -/
def mnemonicSwitch : Stmt := value_of% fNewMnemonic.body.at 2

/-- mnemonic.go:105-146 -/
def mnemonicRest : Stmt := value_of% fNewMnemonic.body.after 3

theorem fNewMnemonic_body : fNewMnemonic.body = .seq mnemonicNil (.seq mnemonicVar (.seq mnemonicSwitch mnemonicRest)) := (rfl)

/-- mnemonic.go:133-144, the body of the loop over the words. -/
def pickBody : Stmt := value_of% (mnemonicRest.at 16).body

/-- mnemonic.go:135-141, the loop that collects eleven bits. -/
def bitsLoop : Stmt := value_of% pickBody.inside.at 1

/-- mnemonic.go:136-140, its body. -/
def bitBody : Stmt := value_of% bitsLoop.body

theorem intBit_nat {x : Int} (hx : 0 ≤ x) (t : Nat) : (intBit x t = 0) = (natBit x.toNat t = 0) := by
  obtain ⟨m, rfl⟩ := Int.eq_ofNat_of_zero_le hx
  simp only [intBit, natBit, Int.toNat_natCast]
  have : ((m : Int) / 2 ^ t % 2) = ((m / 2 ^ t % 2 : Nat) : Int) := by push_cast; rfl
  rw [this]
  apply propext
  omega

theorem bit_rounds (C : Ctx) (m : Nat) (env : Env) (p : Ptr) (x : Int) (h0 : 0 ≤ x) (st : State) (i : Nat)
    (hb : Env.get (id! "binary") env = some (.big p)) (hx : loadInt st.heap p = some x) : ∀ (n k j : Nat) (s : GoString),
    k < n → j + k = i + 11 →
    rounds (eval C (.bin (id! "<") (.bin (id! "-") (.name (id! "j")) (.name (id! "i"))) (.num 11))) (exec C m bitBody)
      (exec C m (.inc (.name (id! "j")))) n ([(id! "j", .int j)] :: [(id! "str", .str s)] :: [(id! "i", .int i)] :: env) st =
      .ok (.next ([(id! "j", .int (i + 11 : Nat))] :: [(id! "str", .str (s ++ (List.range' j k).map fun t =>
        if natBit x.toNat t = 0 then 48 else 49))] :: [(id! "i", .int i)] :: env)) st
  | 0, k, j, s, h, _ => by omega
  | n + 1, 0, j, s, h, h' => by
    have hc : ¬ ((j : Int) - i < 11) := by omega
    unfold rounds
    go_run [hc]
    obtain rfl : j = i + 11 := by omega
    simp
  | n + 1, k + 1, j, s, h, h' => by
    have hc : (j : Int) - i < 11 := by omega
    have hj : ¬ (j : Int) < 0 := by omega
    have ih := fun s => bit_rounds C m env p x h0 st i hb hx n k (j + 1) s (by omega) (by omega)
    unfold rounds
    unfold bitBody at ih ⊢
    push_cast at ih
    by_cases h1 : natBit x.toNat j = 0
    · go_run [hc, hb, hx, hj, intBit_nat h0, Int.toNat_natCast, h1, ih]
      simp [List.range'_succ, h1]
    · go_run [hc, hb, hx, hj, intBit_nat h0, Int.toNat_natCast, h1, ih]
      simp [List.range'_succ, h1]

theorem bitsLoop_run (C : Ctx) (m : Nat) (hm : 11 < m) (env : Env) (p : Ptr) (x : Int) (h0 : 0 ≤ x) (st : State) (i : Nat)
    (hb : Env.get (id! "binary") env = some (.big p)) (hx : loadInt st.heap p = some x) :
    exec C m bitsLoop ([(id! "str", .str [])] :: [(id! "i", .int i)] :: env) st =
      .ok (.next ([(id! "str", .str (bitString x.toNat i))] :: [(id! "i", .int i)] :: env)) st := by
  have h := bit_rounds C m env p x h0 st i hb hx m 11 i [] hm rfl
  unfold bitBody at h
  unfold bitsLoop
  rw [exec_loop]
  go_run [h]
  rw [Imp.bitString_range']

theorem bitString_value (x i : Nat) : ∃ v : Nat, v < 2048 ∧ bigSetString (bitString x i) 2 = some (v : Int) := by
  have e : bitString x i = ((List.range 11).map fun j => decide (natBit x (i + j) ≠ 0)).map bitChar := by
    rw [bitString, List.map_map]
    apply List.map_congr_left
    intro j _
    by_cases h : natBit x (i + j) = 0 <;> simp [h, bitChar] <;> rfl
  rw [e, bigSetString_bits (by simp)]
  refine ⟨_, ?_, rfl⟩
  refine lt_of_lt_of_le (bitsNumber_lt _) ?_
  simp

theorem toInt64_small {v : Nat} (h : v < 2048) : toInt64 (v : Int) = v := by
  unfold toInt64; omega

/-- The variables of `NewMnemonic` in the loop over the words. -/
def phraseEnv (env : List (Nat × Value)) (p : Ptr) (i : Nat) (phrase : Option (List GoString)) : Env :=
  [[(id! "i", .int i)], (id! "phrase", .strs phrase) :: (id! "binary", .big p) :: env]

/-- How the loop over the words ends. -/
def picksOut (env : List (Nat × Value)) (p : Ptr) (i : Nat) (before : List GoString) (phrase : Option (List GoString)) (st : State)
    (r : Res (List GoString)) (o : Out Ctl) : Prop :=
  match r with
  | .ok ws => phrase.getD [] = before ++ ws ∧ o = .ok (.next (phraseEnv env p i phrase)) st
  | .err _ => False
  | .panic q => o = .panic q st

theorem index_no_err {α : Type} {l : List α} {i : Int} {e : GoError} (h : index l i = .err e) : False := by
  unfold index at h
  split at h
  · split at h <;> simp at h
  · simp at h

theorem loadInt_grow {l : List Int} {v : Int} {ns : List Network} {ps : List PrivObj} {qs : List PubObj} {c : CurveObj} {p : Ptr}
    {x : Int} (h : loadInt ⟨l, ns, ps, qs, c⟩ p = some x) : loadInt ⟨l ++ [v], ns, ps, qs, c⟩ p = some x := by
  cases p with
  | none => simp [loadInt] at h
  | some a =>
    simp only [loadInt, Option.bind_some] at h ⊢
    obtain ⟨ha, e⟩ := List.getElem?_eq_some_iff.1 h
    rw [List.getElem?_append_left ha, h]

theorem picks_rounds (C : Ctx) (m : Nat) (hm : 11 < m) (env : List (Nat × Value)) (p : Ptr) (x : Int) (h0 : 0 ≤ x) (b : GoString)
    (wl : Option (List GoString)) (hb : scopeGet (id! "b") env = some (.str b))
    (hw : scopeGet (id! "wordlist") env = some (.strs wl)) :
    ∀ (k n i : Nat) (ph : Option (List GoString)) (st : State), loadInt st.heap p = some x → (b.length - i + 10) / 11 = k → k < n →
    ∃ ints i' ph', st.heap.ints <+: ints ∧ picksOut env p i' (ph.getD []) ph' { st with heap := { st.heap with ints := ints } }
      (phraseLoop (wl.getD []) x.toNat k i)
      (rounds (eval C (.bin (id! "<") (.name (id! "i")) (.call (.name (id! "len")) (.cons (.name (id! "b")) .nil))))
        (exec C m pickBody) (exec C m (.addAssign (.name (id! "i")) (.num 11))) n (phraseEnv env p i ph) st)
  | _, 0, i, ph, st, _, _, h => by omega
  | 0, n + 1, i, ph, st, hx, hk, h => by
    have hc : ¬ (i : Int) < b.length := by omega
    unfold rounds phraseEnv phraseLoop
    go_run [hc, hb]
    exact ⟨st.heap.ints, i, ph, List.prefix_refl _, by simp, rfl⟩
  | k + 1, n + 1, i, ph, st, hx, hk, h => by
    have hc : (i : Int) < b.length := by omega
    have ih := picks_rounds C m hm env p x h0 b wl hb hw k n (i + 11)
    have hl := bitsLoop_run C m hm [(id! "phrase", .strs ph) :: (id! "binary", .big p) :: env] p x h0 st i rfl hx
    unfold bitsLoop at hl
    unfold rounds phraseLoop
    unfold phraseEnv pickBody at ih ⊢
    obtain ⟨v, hv, e⟩ := bitString_value x.toNat i
    go_run [hc, hb, hw, hl, e, toInt64_small hv]
    rcases hi : index (wl.getD []) (v : Int) with w | e | q
    case err => exact (index_no_err hi).elim
    case panic => go_run; exact ⟨_, i, ph, List.prefix_append _ _, rfl⟩
    go_run
    obtain ⟨ints, i', ph', hg, ih⟩ := ih (some (ph.getD [] ++ [w])) ⟨⟨st.heap.ints ++ [(v : Int)], st.heap.nets, st.heap.privs,
      st.heap.pubs, st.heap.curve⟩, st.hashes, st.rd, st.log, st.vars⟩ (loadInt_grow hx) (by omega) (by omega)
    push_cast at ih
    refine ⟨ints, i', ph', (List.prefix_append _ _).trans hg, ?_⟩
    rcases hp : phraseLoop (wl.getD []) x.toNat k (i + 11) with ws | e | q <;> rw [hp] at ih
    · obtain ⟨h1, h2⟩ := ih
      exact ⟨by rw [h1]; simp, h2⟩
    · exact ih.elim
    · exact ih

/-- A call of `NewMnemonic` and what the model says. -/
def mnemonicOut (st : State) (ints : List Int) (hs : List HashObj) (rd : Reader) (r : Res (GoString × Reader)) : Out (List Value) :=
  match r with
  | .ok (s, rd') => .ok [.str s, .err none] ⟨{ st.heap with ints := ints }, hs, rd', st.log, st.vars⟩
  | .err e => .ok [.str [], .err (some e)] ⟨{ st.heap with ints := ints }, hs, rd, st.log, st.vars⟩
  | .panic p => .panic p ⟨{ st.heap with ints := ints }, hs, rd, st.log, st.vars⟩

theorem readInt_before (l : List Int) (x y : Int) (ns : List Network) (ps : List PrivObj) (qs : List PubObj)
    (c : CurveObj) : loadInt ⟨l ++ [x] ++ [y], ns, ps, qs, c⟩ (some l.length) = some x := by simp [loadInt]

theorem writeInt_before (l : List Int) (x y v : Int) (ns : List Network) (ps : List PrivObj) (qs : List PubObj)
    (c : CurveObj) : writeInt (some l.length) v ⟨l ++ [x] ++ [y], ns, ps, qs, c⟩ = (.ok (), ⟨l ++ [v] ++ [y], ns, ps, qs, c⟩) := by
  simp [writeInt]

theorem fmtNat2_bit (m : Nat) : ∀ c ∈ fmtNat 2 m, c = 48 ∨ c = 49 := by
  intro c hc
  rw [fmtNat_eq_digits] at hc
  obtain ⟨d, hd, rfl⟩ := List.mem_map.1 hc
  have := fmtDigits_lt (by omega) hd
  obtain rfl | rfl : d = 0 ∨ d = 1 := by omega
  · exact .inl rfl
  · exact .inr rfl

theorem bits_value {b : GoString} (hne : b ≠ []) (h : ∀ c ∈ b, c = 48 ∨ c = 49) : ∃ x : Nat, bigSetString b 2 = some (x : Int) := by
  have e : b = (b.map fun c => c == 49).map bitChar := by
    rw [List.map_map]
    conv_lhs => rw [← List.map_id b]
    apply List.map_congr_left
    intro c hc
    rcases h c hc with rfl | rfl <;> rfl
  rw [e, bigSetString_bits (by simpa using hne)]
  exact ⟨_, rfl⟩

theorem slice_mem {α : Type} {s t : List α} {a b : Int} (h : slice s a b = .ok t) : ∀ x ∈ t, x ∈ s := by
  unfold slice at h
  split at h
  · simp only [Res.ok.injEq] at h
    intro x hx
    rw [← h] at hx
    exact List.mem_of_mem_drop (List.mem_of_mem_take hx)
  · simp at h

theorem mnemonicRest_run (C : Ctx) (n : Nat) (hn : 300 ≤ n) (words : Int) (wl : List GoString) (el : Nat) (h128 : 128 ≤ el) (h256 : el ≤ 256)
    (st : State) : ∃ ints hs rd2, st.heap.ints <+: ints ∧ ((exec C n mnemonicRest
      [[(id! "entropyLength", .int el), (id! "words", .int words), (id! "wordlist", .strs (some wl))]] st).andThen fNewMnemonic.finish) =
      mnemonicOut st ints hs rd2 (do
        let (entropy, rd') ← randInt st.rd (2 ^ el)
        let phrase ← phraseOf C.H el entropy wl
        .ok (phrase, rd')) := by
  have hfin : fNewMnemonic.results = [.name (id! "string"), .name (id! "error")] := rfl
  unfold mnemonicRest
  have he : ¬ (el : Int) ≤ 0 := by omega
  have hp : ¬ (2 : Int) ^ el ≤ 0 := not_le.2 (by positivity)
  have h2 : ((2 : Int) ^ el).toNat = 2 ^ el := by
    have : ((2 : Int) ^ el) = ((2 ^ el : Nat) : Int) := by push_cast; rfl
    rw [this, Int.toNat_natCast]
  have h32 : (el : Int).tdiv 32 = ((el / 32 : Nat) : Int) := by
    rw [Int.tdiv_eq_ediv_of_nonneg (by omega)]; norm_cast
  go_run [hfin, readInt_before, writeInt_before, he, Int.toNat_natCast, hp, h2]
  rcases hr : randInt st.rd (2 ^ el) with ⟨v, rd'⟩ | e | p
  case err => simp only [drawBig_err hr]; go_run [hfin]; exact ⟨_, _, st.rd, by simp only [List.append_assoc]; exact List.prefix_append _ _, rfl⟩
  case panic => simp only [drawBig_panic hr]; go_run; exact ⟨_, _, st.rd, by simp only [List.append_assoc]; exact List.prefix_append _ _, rfl⟩
  simp only [drawBig_ok hr]
  unfold phraseOf
  go_run [h32, Imp.fmtBig_nat, Int.natAbs_natCast]
  rcases hs : slice (fmtNat 2 (bytesToNat (C.H.sha256 (natToBytes v)))) 0 ((el / 32 : Nat) : Int) with c | e | p
  case err => exact (Imp.slice_ne_err hs).elim
  case panic => go_run; exact ⟨_, _, rd', by simp only [List.append_assoc]; exact List.prefix_append _ _, rfl⟩
  go_run
  rw [readInt_before, Imp.fmtBig_nat]
  have hI : st.heap.ints <+: st.heap.ints ++ [(2 : Int) ^ el] ++ [(el : Int)] ++ [(v : Int)] ++
      [(bytesToNat (C.H.sha256 (natToBytes v)) : Int)] := by
    simp only [List.append_assoc]
    exact List.prefix_append _ _
  generalize some (st.heap.ints ++ [(2 : Int) ^ el] ++ [(el : Int)]).length = p1,
    some (st.heap.ints ++ [(2 : Int) ^ el] ++ [(el : Int)] ++ [(v : Int)]).length = p2, some st.heap.ints.length = p3,
    st.heap.ints ++ [(2 : Int) ^ el] ++ [(el : Int)] ++ [(v : Int)] ++ [(bytesToNat (C.H.sha256 (natToBytes v)) : Int)] = I at hI ⊢
  have hpad := exec_pad C (x := id! "b") (k := .name (id! "entropyLength")) (len := el) (fun t => [[(id! "b", .str t),
    (id! "checksumBinary", .str c), (id! "hashBinary", .str (fmtNat 2 (bytesToNat (C.H.sha256 (natToBytes v))))),
    (id! "hashInt", .big p2), (id! "checksumLength", .int (el / 32 : Nat)), (id! "hash", .bytes (C.H.sha256 (natToBytes v))),
    (id! "sha", .hash st.hashes.length), (id! "err", .err none), (id! "entropy", .big p1), (id! "np256", .big p3),
    (id! "entropyLength", .int el), (id! "words", .int words), (id! "wordlist", .strs (some wl))]]) (by decide) (fun _ => rfl)
    (fun _ _ => rfl) (fun _ _ => rfl) n (by omega) (fmtNat 2 v)
  unfold padLoop at hpad
  go_run [hpad]
  have hlen : (fmtNat 2 v).length ≤ el := (length_fmtNat_le_iff (by omega) (by omega)).2 (Imp.randInt_lt (by positivity) hr)
  have hc := Imp.slice_length hs
  have hb : (padZeros el (fmtNat 2 v) ++ c).length = el + el / 32 := by
    rw [List.length_append, Imp.length_padZeros]; omega
  have hbit : ∀ x ∈ padZeros el (fmtNat 2 v) ++ c, x = 48 ∨ x = 49 := by
    intro x hx
    simp only [List.mem_append, padZeros, List.mem_replicate] at hx
    rcases hx with (⟨_, rfl⟩ | hx) | hx
    · exact .inl rfl
    · exact fmtNat2_bit v x hx
    · exact fmtNat2_bit _ x (slice_mem hs x hx)
  generalize padZeros el (fmtNat 2 v) ++ c = b at hb hbit
  obtain ⟨x, hx⟩ := bits_value (by intro h; rw [h, List.length_nil] at hb; omega) hbit
  go_run [hx, exec_loop]
  obtain ⟨ints, i', ph', hg, hk⟩ := picks_rounds C n (by omega) [(id! "b", .str b), (id! "checksumBinary", .str c),
    (id! "hashBinary", .str (fmtNat 2 (bytesToNat (C.H.sha256 (natToBytes v))))),
    (id! "hashInt", .big p2), (id! "checksumLength", .int (el / 32 : Nat)), (id! "hash", .bytes (C.H.sha256 (natToBytes v))),
    (id! "sha", .hash st.hashes.length), (id! "err", .err none), (id! "entropy", .big p1), (id! "np256", .big p3),
    (id! "entropyLength", .int el), (id! "words", .int words), (id! "wordlist", .strs (some wl))] (some I.length) (x : Int)
    (by omega) b (some wl) rfl rfl ((b.length + 10) / 11) n 0 none ⟨⟨I ++ [(x : Int)], st.heap.nets, st.heap.privs, st.heap.pubs,
      st.heap.curve⟩, st.hashes ++ [⟨false, natToBytes v⟩], rd', st.log, st.vars⟩ (readInt_last ..) (by omega) (by omega)
  simp only [Option.getD_some] at hk
  unfold pickBody phraseEnv at hk
  simp only [Nat.cast_zero] at hk
  rcases hph : phraseLoop wl (x : Int).toNat ((b.length + 10) / 11) 0 with ws | e | q <;> rw [hph] at hk
  · obtain ⟨h1, h2⟩ := hk
    unfold phraseEnv at h2
    go_run [h2, hfin, h1, Option.getD_none]
    exact ⟨_, _, rd', hI.trans ((List.prefix_append _ _).trans hg), rfl⟩
  · exact hk.elim
  · have h2 : _ = _ := hk
    go_run [h2]
    exact ⟨_, _, rd', hI.trans ((List.prefix_append _ _).trans hg), rfl⟩

theorem run_NewMnemonic (words : Int) (wl : Option (List GoString)) (n : Nat) (hn : 300 ≤ n) (st : State) :
    ∃ ints hs rd2, st.heap.ints <+: ints ∧ runFunc H E program (n + 1) 0 (id! "NewMnemonic") [.int words, .strs wl] st =
      mnemonicOut st ints hs rd2 (newMnemonic H st.rd words wl) := by
  have hfin : fNewMnemonic.results = [.name (id! "string"), .name (id! "error")] := rfl
  rw [runFunc_succ H E find_NewMnemonic _ rfl, fNewMnemonic_body]
  unfold mnemonicNil mnemonicVar mnemonicSwitch newMnemonic entropyLengthOf
  cases wl with
  | none => go_run [hfin]; exact ⟨st.heap.ints, st.hashes, st.rd, List.prefix_refl _, rfl⟩
  | some wl =>
    have rest := fun el h1 h2 => mnemonicRest_run ⟨H, E, runFunc H E program n⟩ n hn words wl el h1 h2 st
    by_cases h12 : words = 12
    · subst h12; go_run; exact rest 128 (by omega) (by omega)
    by_cases h15 : words = 15
    · subst h15; go_run; exact rest 160 (by omega) (by omega)
    by_cases h18 : words = 18
    · subst h18; go_run; exact rest 192 (by omega) (by omega)
    by_cases h21 : words = 21
    · subst h21; go_run; exact rest 224 (by omega) (by omega)
    by_cases h24 : words = 24
    · subst h24; go_run; exact rest 256 (by omega) (by omega)
    go_run [h12, h15, h18, h21, h24, hfin]
    exact ⟨st.heap.ints, st.hashes, st.rd, List.prefix_refl _, rfl⟩

end Btc.Source
