import Verif.Props.Work

/-!
# C123: the lines of the loops of `NewSeedFromMnemonic`

The lines that a call logs are bounded on every path, also on the paths that end with an error or a panic.
-/

namespace Btc

open Mem Source Spec

section
variable (H : Hashes) (E : EcdsaM)

/-- mnemonic.go:41-43 with marks: four characters are there. -/
theorem mark_collect_ok (c n : Nat) (env : Env) (bin : GoString) (i : Nat) (st : State) {w x y z : UInt8} {r : GoString}
    (hb : Env.get (id! "binary") env = some (.str bin)) (hd : bin.drop i = w :: x :: y :: z :: r)
    (ha : ∀ x ∈ bin, x.toNat < 128) :
    exec ⟨H, E, runFunc H E (marked program) (c + 1)⟩ (n + 5) mCollectLoop ([(id! "n", .str [])] :: [(id! "i", .int i)] :: env) st =
      .ok (.next ([(id! "n", .str [w, x, y, z])] :: [(id! "i", .int i)] :: env))
        { st with log := st.log ++ List.replicate 4 (asc "NewSeedFromMnemonic 7") } := by
  obtain ⟨i0, i1, i2, i3⟩ := index_four hd
  have ha' : ∀ u ∈ [w, x, y, z], utf8Char u.toNat = [u] := by
    intro x hx
    refine utf8Char_ascii (ha x (List.mem_of_mem_drop (i := i) ?_))
    rw [hd]; simp only [List.mem_cons, List.not_mem_nil] at hx ⊢; tauto
  simp only [List.mem_cons, List.not_mem_nil, or_false, forall_eq_or_imp, forall_eq] at ha'
  obtain ⟨a0, a1, a2, a3⟩ := ha'
  obtain ⟨c0, c1, c2, c3, c4⟩ := collect_cond i
  unfold mCollectLoop
  rw [exec_loop]
  mark_run [hb, rounds, c0, c1, c2, c3, c4, i0, i1, i2, i3, a0, a1, a2, a3]
  simp [List.replicate_succ]

/-- mnemonic.go:41-43 with marks: fewer than four characters are left. -/
theorem mark_collect_panic (c n : Nat) (env : Env) (bin : GoString) (i : Nat) (st : State)
    (hb : Env.get (id! "binary") env = some (.str bin)) (h0 : i < bin.length) (h4 : bin.length < i + 4)
    (ha : ∀ x ∈ bin, x.toNat < 128) : ∃ l, l.length ≤ st.log.length + 4 ∧
    exec ⟨H, E, runFunc H E (marked program) (c + 1)⟩ (n + 5) mCollectLoop ([(id! "n", .str [])] :: [(id! "i", .int i)] :: env) st =
      .panic .indexRange { st with log := l } := by
  have ix : ∀ k, (h : k < bin.length) → utf8Char bin[k].toNat = [bin[k]] :=
    fun k h => utf8Char_ascii (ha _ (List.getElem_mem h))
  obtain ⟨c0, c1, c2, c3, c4⟩ := collect_cond i
  unfold mCollectLoop
  rw [exec_loop]
  have i0 := Imp.index_lt h0
  have a0 := ix _ h0
  by_cases h1 : i + 1 < bin.length
  · have i1 := Imp.index_lt h1
    have a1 := ix _ h1
    by_cases h2 : i + 1 + 1 < bin.length
    · have i2 := Imp.index_lt h2
      have a2 := ix _ h2
      have i3 : index bin ((i + 1 + 1 + 1 : Nat) : Int) = .panic .indexRange := Imp.index_ge (by omega)
      push_cast at i1 i2 i3
      mark_run [hb, rounds, c0, c1, c2, c3, i0, i1, i2, i3, a0, a1, a2]
      exact ⟨_, by simp only [List.length_append, List.length_cons, List.length_nil]; omega, rfl⟩
    · have i2 : index bin ((i + 1 + 1 : Nat) : Int) = .panic .indexRange := Imp.index_ge (by omega)
      push_cast at i1 i2
      mark_run [hb, rounds, c0, c1, c2, i0, i1, i2, a0, a1]
      exact ⟨_, by simp only [List.length_append, List.length_cons, List.length_nil]; omega, rfl⟩
  · have i1 : index bin ((i + 1 : Nat) : Int) = .panic .indexRange := Imp.index_ge (by omega)
    push_cast at i1
    mark_run [hb, rounds, c0, c1, i0, i1, a0]
    exact ⟨_, by simp only [List.length_append, List.length_cons, List.length_nil]; omega, rfl⟩

/-- How the loop over the nibbles ends; at most `k` lines are logged. -/
def markedNibbles (env : Nat → GoString → Env) (st : State) (ints : List Int) (i k : Nat) : Res GoString → Out Ctl → Prop
  | .ok h, o => ∃ l, l.length ≤ st.log.length + k ∧
    o = .ok (.next (env i h)) ⟨{ st.heap with ints := ints }, st.hashes, st.rd, l, st.vars⟩
  | .err _, _ => False
  | .panic p, o => ∃ l, l.length ≤ st.log.length + k ∧ o = .panic p ⟨{ st.heap with ints := ints }, st.hashes, st.rd, l, st.vars⟩

theorem mark_nibble_rounds (c n : Nat) (mn pa : GoString) (wl : Option (List GoString)) (ws : List GoString) (bin : GoString)
    (ha : ∀ x ∈ bin, x.toNat < 128) : ∀ (k i : Nat) (hash : GoString) (st : State), bin.length - i < 4 * k →
    ∃ ints i', markedNibbles (hashEnv mn pa wl ws bin) st ints i' (7 * ((bin.length - i + 3) / 4)) (nibbleLoop (bin.drop i) hash).1
      (rounds (eval ⟨H, E, runFunc H E (marked program) (c + 2)⟩
        (.bin (id! "<") (.name (id! "i")) (.call (.name (id! "len")) (.cons (.name (id! "binary")) .nil))))
      (exec ⟨H, E, runFunc H E (marked program) (c + 2)⟩ (n + 5) mNibbleBody)
      (exec ⟨H, E, runFunc H E (marked program) (c + 2)⟩ (n + 5) (.addAssign (.name (id! "i")) (.num 4))) k
      (hashEnv mn pa wl ws bin i hash) st)
  | 0, i, hash, st, h => by omega
  | k + 1, i, hash, st, h => by
    have ih := mark_nibble_rounds c n mn pa wl ws bin ha k
    unfold rounds
    by_cases hi : i < bin.length
    · have hi' : (i : Int) < bin.length := by omega
      unfold mNibbleBody at ih ⊢
      by_cases h4 : i + 4 ≤ bin.length
      · have e4 : bin.drop i = bin[i] :: bin[i + 1] :: bin[i + 2] :: bin[i + 3] :: bin.drop (i + 4) := by
          rw [List.drop_eq_getElem_cons hi, List.drop_eq_getElem_cons (i := i + 1) (by omega),
            List.drop_eq_getElem_cons (i := i + 2) (by omega), List.drop_eq_getElem_cons (i := i + 3) (by omega)]
        rw [e4]
        generalize bin[i] = a, bin[i + 1] = b, bin[i + 2] = x, bin[i + 3] = d at e4 ⊢
        have hc := fun st => mark_collect_ok H E (c + 1) n [[(id! "hash", .str hash), (id! "binary", .str bin), (id! "words", .strs (some ws)),
          (id! "mnemonic", .str mn), (id! "passphrase", .str pa), (id! "wordlist", .strs wl)]] bin i st rfl e4 ha
        unfold mCollectLoop at hc
        unfold hashEnv at ih ⊢
        mark_run [hi', hc, mark_bigIntToHex]
        have hv : loadInt ⟨st.heap.ints ++ [(bigSetString [a, b, x, d] 2).getD 0], st.heap.nets, st.heap.privs, st.heap.pubs,
            st.heap.curve⟩ (Option.map (fun _ => st.heap.ints.length) (bigSetString [a, b, x, d] 2)) = bigSetString [a, b, x, d] 2 := by
          cases bigSetString [a, b, x, d] 2 <;> simp [loadInt]
        rw [hv, nibbleLoop]
        generalize hst : (⟨⟨st.heap.ints ++ [(bigSetString [a, b, x, d] 2).getD 0], st.heap.nets, st.heap.privs, st.heap.pubs,
          st.heap.curve⟩, st.hashes, st.rd, _, st.vars⟩ : State) = st'
        obtain ⟨ints, i', e⟩ := ih (i + 4) (hash ++ bigIntToHex (bigSetString [a, b, x, d] 2)) st' (by omega)
        push_cast at e
        refine ⟨ints, i', ?_⟩
        have hlog : st'.log.length = st.log.length + 7 := by
          rw [← hst]
          simp only [List.length_append, List.length_cons, List.length_nil, List.length_replicate]
        have e1 : st'.heap = ⟨st.heap.ints ++ [(bigSetString [a, b, x, d] 2).getD 0], st.heap.nets, st.heap.privs, st.heap.pubs,
          st.heap.curve⟩ := by rw [← hst]
        have e2 : st'.hashes = st.hashes ∧ st'.rd = st.rd ∧ st'.vars = st.vars := by rw [← hst]; exact ⟨rfl, rfl, rfl⟩
        revert e
        generalize (nibbleLoop (bin.drop (i + 4)) (hash ++ bigIntToHex (bigSetString [a, b, x, d] 2))).1 = res
        intro e
        cases res with
        | ok h =>
          obtain ⟨l, h1, h2⟩ := e
          rw [e1, e2.1, e2.2.1, e2.2.2] at h2
          exact ⟨l, by omega, h2⟩
        | err e' => exact e
        | panic p =>
          obtain ⟨l, h1, h2⟩ := e
          rw [e1, e2.1, e2.2.1, e2.2.2] at h2
          exact ⟨l, by omega, h2⟩
      · obtain ⟨l, hl, hc⟩ := mark_collect_panic H E (c + 1) n [[(id! "hash", .str hash), (id! "binary", .str bin), (id! "words", .strs (some ws)),
          (id! "mnemonic", .str mn), (id! "passphrase", .str pa), (id! "wordlist", .strs wl)]] bin i
          { st with log := st.log ++ [asc "NewSeedFromMnemonic 6"] } rfl hi (by omega) ha
        unfold mCollectLoop at hc
        unfold hashEnv
        mark_run [hi', hc]
        refine ⟨st.heap.ints, 0, ?_⟩
        have hd : (bin.drop i).length < 4 ∧ 0 < (bin.drop i).length := by
          rw [List.length_drop]; omega
        have hl' : l.length ≤ st.log.length + 7 * ((bin.length - i + 3) / 4) := by
          simp only [List.length_append, List.length_cons, List.length_nil] at hl
          omega
        rcases hb : bin.drop i with _ | ⟨a, _ | ⟨b, _ | ⟨x, _ | ⟨d, r⟩⟩⟩⟩ <;>
          simp only [hb, List.length_cons, List.length_nil] at hd
        · omega
        · exact ⟨l, hl', rfl⟩
        · exact ⟨l, hl', rfl⟩
        · exact ⟨l, hl', rfl⟩
        · omega
    · have hi' : ¬ (i : Int) < bin.length := by omega
      unfold hashEnv
      mark_run [hi']
      refine ⟨st.heap.ints, i, ?_⟩
      rw [List.drop_eq_nil_of_le (by omega)]
      exact ⟨_, by omega, rfl⟩

/-- A leaf of `mark_seed_lines`. -/
macro "seed_leaf" : tactic => `(tactic| (simp only [Grows, List.length_append, List.length_cons, List.length_nil, List.length_replicate]; omega))

/-- The lines of a call of `NewSeedFromMnemonic`, on every path. -/
theorem mark_seed_lines (mn pa : GoString) (wl : Option (List GoString)) (n : Nat)
    (hn : 65 + (splitSpace mn).length * ((wl.getD []).length + 11) ≤ n) (st : State) :
    Grows st ((splitSpace mn).length * (3 * ((wl.getD []).length + 11) + 2) + 80)
      (runFunc H E (marked program) (n + 1) 0 (id! "NewSeedFromMnemonic") [.str mn, .str pa, .strs wl] st) := by
  obtain ⟨n, rfl⟩ : ∃ m, n = m + 5 := ⟨n - 5, by omega⟩
  rw [runFunc_succ H E find_mNewSeed _ rfl]
  obtain ⟨ls, hw, -⟩ := mark_words H E (n + 4) (n + 5) (by omega) mn pa wl (splitSpace mn) (splitSpace mn) 0 []
    ⟨st.heap, st.hashes, st.rd, st.log ++ [asc "NewSeedFromMnemonic"], st.vars⟩
  have e13 : (splitSpace mn).length * ((wl.getD []).length + 13) = (splitSpace mn).length * ((wl.getD []).length + 11) +
      2 * (splitSpace mn).length := by ring
  have e3 : (splitSpace mn).length * (3 * ((wl.getD []).length + 11) + 2) = 3 * ((splitSpace mn).length * ((wl.getD []).length + 11)) +
      2 * (splitSpace mn).length := by ring
  rw [e13] at hw
  rw [e3]
  unfold mWordBody seedEnv at hw
  unfold mNewSeed
  rcases hb : seedBits (wl.getD []) (splitSpace mn) [] with bin | e | p
  case panic => exact (seedBits_no_panic hb).elim
  case err =>
    rw [hb] at hw
    obtain ⟨l, h1, h2⟩ := hw
    simp only [List.length_append, List.length_cons, List.length_nil] at h2
    mark_run [exec_range, h1]
    seed_leaf
  rw [hb] at hw
  obtain ⟨h1, h2⟩ := hw
  have hbl := Imp.seedBits_length hb
  simp only [List.length_nil] at hbl
  mark_run [exec_range, h1, exec_loop]
  obtain ⟨ints, i', hk⟩ := mark_nibble_rounds H E (n + 3) n mn pa wl (splitSpace mn) bin (seedBits_ascii hb (by simp)) (n + 5) 0 []
    ⟨st.heap, st.hashes, st.rd, st.log ++ [asc "NewSeedFromMnemonic"] ++ ls, st.vars⟩ (by omega)
  unfold mNibbleBody hashEnv at hk
  push_cast at hk
  rw [List.drop_zero] at hk
  rcases hl : (nibbleLoop bin []).1 with hash | e | p
  case err => exact (nibbleLoop_no_err hl).elim
  case panic =>
    rw [hl] at hk
    obtain ⟨l, h3, hk⟩ := hk
    simp only [List.length_append, List.length_cons, List.length_nil] at h3
    mark_run [hk]
    seed_leaf
  rw [hl] at hk
  obtain ⟨l, h3, hk⟩ := hk
  simp only [List.length_append, List.length_cons, List.length_nil] at h3
  mark_run [hk]
  rcases hs1 : slice hash ((hash.length : Int) - 2) hash.length with checksum | e | p
  case err => exact (Imp.slice_ne_err hs1).elim
  case panic => mark_run; seed_leaf
  mark_run
  rcases hs2 : slice hash 0 ((hash.length : Int) - 2) with body | e | p
  case err => exact (Imp.slice_ne_err hs2).elim
  case panic => mark_run; seed_leaf
  mark_run
  rcases hexDecode body with decoded | e | p
  case err => mark_run; seed_leaf
  case panic => mark_run; seed_leaf
  mark_run [mark_bigIntToHex]
  have hp := exec_markedPad H E (c := n + 4) [78, 101, 119, 83, 101, 101, 100, 70, 114, 111, 109, 77, 110, 101, 109, 111, 110, 105, 99, 32, 57]
    (x := id! "shaHashHex") (k := .num 64) (len := 64) (fun t =>
    [[(id! "shaHashHex", .str t), (id! "shaHashBig", .big (some ints.length)), (id! "shaHash", .bytes (H.sha256 decoded)),
      (id! "err", .err none), (id! "decoded", .bytes decoded), (id! "sha", .hash st.hashes.length),
      (id! "checksum", .str checksum), (id! "hash", .str hash), (id! "binary", .str bin),
      (id! "words", .strs (some (splitSpace mn))), (id! "mnemonic", .str mn), (id! "passphrase", .str pa),
      (id! "wordlist", .strs wl)]]) (by decide) (fun _ => rfl) (fun _ _ => rfl) (fun _ _ => rfl) (n + 5) (by omega)
    (bigIntToHex (some (bytesToNat (H.sha256 decoded) : Int)))
  unfold markedPad mark at hp
  mark_run [hp]
  generalize padZeros 64 (bigIntToHex (some (bytesToNat (H.sha256 decoded) : Int))) = shaHex
  rcases hs3 : slice shaHex 0 2 with head | e | p
  case err => exact (Imp.slice_ne_err hs3).elim
  case panic => mark_run; seed_leaf
  mark_run
  by_cases hc : head = checksum
  · subst hc
    mark_run
    seed_leaf
  · mark_run [hc]
    seed_leaf

end

namespace Spec

/-- Specification: the most lines that a call logs when each function and each block logs a line as it is entered: the blocks
that it passes, and what the code logs itself. -/
def work (st : State) : Request → Nat
  | .checkWIF _ => 3
  | .privateFromWIF _ _ => 6
  | .privateFromHex _ _ => 3
  | .generatePrivateKey _ => 7 * (st.rd.length + 1)
  | .addPrivateKeys _ _ => 7
  | .multiplyPrivateKeys _ _ => 7
  | .publicFromHex _ _ => 5
  | .getPublicKey _ => 2
  | .format _ _ => 133
  | .address _ _ => 139
  | .addPublicKeys _ _ _ => 3
  | .newMnemonic _ _ => 812
  | .newSeedFromMnemonic mnemonic _ wordlist => (splitSpace mnemonic).length * (3 * ((wordlist.getD []).length + 11) + 2) + 80

end Spec

theorem Grows.endLog {α : Type} {st : State} {k : Nat} {o : Out α} (h : Grows st k o) : (endLog o).length ≤ st.log.length + k := by
  cases o with
  | ok _ _ => exact h
  | panic _ _ => exact h
  | stuck => exact Nat.zero_le _

/-- C123: the analysis is right for every program: a call of a function for which it finds a bound logs no more lines, however
it ends. -/
theorem C123_static (H : Hashes) (E : EcdsaM) (ds : List Decl) (steps recv x b : Nat) (args : List Value) (st : State) (o : Out (List Value))
    (hb : bounds ds (fun _ => none) steps x = some b) (h : Source.Ends H E ds recv x args st o) :
    (endLog o).length ≤ st.log.length + b := by
  obtain ⟨-, n, hn⟩ := h
  have := bounds_sound H E ds (fun _ => none) (fun _ _ _ _ _ h => by cases h) steps n recv x args b hb st
  rw [hn n (Nat.le_refl _)] at this
  exact this.endLog

/-- C123: the bounds that the analysis finds for the functions without loops. -/
theorem C123_straight : [id! "CheckWIF", id! "PrivateFromWIF", id! "PrivateFromHex", id! "AddPrivateKeys", id! "MultiplyPrivateKeys",
    id! "PublicFromHex", id! "GetPublicKey", id! "AddPublicKeys"].map (bounds (marked program) (fun _ => none) 4) =
    [some 3, some 6, some 3, some 7, some 7, some 5, some 2, some 3] := by decide +kernel

attribute [local irreducible] generateRandomBigInt in
/-- C123: a call passes no more blocks than its arguments say, and the random bytes that are left, however it ends. -/
theorem C123_work (H : Hashes) (E : EcdsaM) (r : Request) (st : State) (o : Out (List Value)) (h : MarkedEnds H E r st o) :
    (endLog o).length ≤ st.log.length + work st r := by
  have hs := C123_straight
  simp only [List.map_cons, List.map_nil, List.cons.injEq, and_true] at hs
  obtain ⟨b1, b2, b3, b4, b5, b6, b7, b8⟩ := hs
  cases r with
  | checkWIF wif => exact C123_static H E _ 4 _ _ _ _ st o b1 h
  | privateFromWIF wif network => exact C123_static H E _ 4 _ _ _ _ st o b2 h
  | privateFromHex hexa network => exact C123_static H E _ 4 _ _ _ _ st o b3 h
  | addPrivateKeys p1 p2 => exact C123_static H E _ 4 _ _ _ _ st o b4 h
  | multiplyPrivateKeys p1 p2 => exact C123_static H E _ 4 _ _ _ _ st o b5 h
  | publicFromHex hexa network => exact C123_static H E _ 4 _ _ _ _ st o b6 h
  | getPublicKey p => exact C123_static H E _ 4 _ _ _ _ st o b7 h
  | addPublicKeys p1 p2 c => exact C123_static H E _ 4 _ _ _ _ st o b8 h
  | generatePrivateKey network =>
    obtain ⟨n, h⟩ := h.run (st.rd.length + 3)
    obtain ⟨hs, rd2, l, e, hb, -⟩ := mark_GeneratePrivateKey H E network (st.rd.length + 1) (n + (st.rd.length + 2)) st (by omega) (by omega)
    rw [h.symm.trans e]
    rcases generateLoopM H generateRandomBigInt network (st.rd.length + 1) st.rd st.heap with ⟨⟨q, rd⟩ | e | p, h'⟩ <;> first | exact hb | exact Nat.zero_le _
  | format p c =>
    obtain ⟨n, h⟩ := h.run 67
    obtain ⟨l, e, hb, -⟩ := mark_Format H E n p c st
    rw [h.symm.trans e]
    rcases formatM p c st.heap with ⟨a | e | p, h'⟩ <;> first | exact hb | exact Nat.zero_le _
  | address p c =>
    obtain ⟨n, h⟩ := h.run 68
    obtain ⟨hs, l, e, hb, -⟩ := mark_Address H E n p c st
    rw [h.symm.trans e]
    rcases addressM H p c st.heap with ⟨a | e | p, h'⟩ <;> exact hb
  | newMnemonic words wl =>
    obtain ⟨n, h⟩ := h.run 301
    obtain ⟨ints, hs, rd2, l, e, hb, -⟩ := mark_NewMnemonic H E words wl (n + 300) (by omega) st
    rw [h.symm.trans e]
    rcases newMnemonic H st.rd words wl with ⟨t, rd⟩ | e | p <;> exact hb
  | newSeedFromMnemonic mn pa wl =>
    obtain ⟨n, h⟩ := h.run (65 + (splitSpace mn).length * ((wl.getD []).length + 11) + 1)
    have hb := mark_seed_lines H E mn pa wl (n + (65 + (splitSpace mn).length * ((wl.getD []).length + 11))) (by omega) st
    have h' : runFunc H E (marked program) (n + (65 + (splitSpace mn).length * ((wl.getD []).length + 11)) + 1) 0
      (id! "NewSeedFromMnemonic") [.str mn, .str pa, .strs wl] st = o := h
    rw [h'] at hb
    exact hb.endLog

/-- C123, cases: the lines that calls log, and the bounds. -/
example : ([([], .checkWIF (asc "0")), ([], .privateFromHex (asc "zz") (some 0)), ([], .addPrivateKeys (some 0) (some 1)),
    (Samples.refusedDraw, .generatePrivateKey (some 0)), ([], .format (some 0) true),
    (List.replicate 16 0, .newMnemonic 12 (some EnglishWordlist)),
    ([], .newSeedFromMnemonic (asc "b a") [] Samples.eightWords)].map fun (c : Reader × Request) =>
    ((endLog (runFunc realHashes Samples.pkg (marked program) 400 c.2.recv c.2.name c.2.args (Samples.stocked c.1))).length,
      work (Samples.stocked c.1) c.2)) =
    [(2, 3), (2, 3), (3, 7), (8, 462), (5, 133), (405, 812), (67, 198)] := by decide +kernel

end Btc
