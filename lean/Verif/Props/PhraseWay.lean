import Verif.Props.Ways

/-!
# C119: the lines that `NewMnemonic` logs

The exact list of blocks that a successful call of `NewMnemonic` passes. It spells the bits of the phrase one by one, so it
gives the phrase away; it does not depend on the word list.
-/

namespace Btc

open Mem Source Spec

section
variable (H : Hashes) (E : EcdsaM)

@[go_exec] theorem label_NewMnemonic : utf8 [78, 101, 119, 77, 110, 101, 109, 111, 110, 105, 99] = asc "NewMnemonic" := by decide +kernel
@[go_exec] theorem label_NewMnemonic_1 : utf8 [78, 101, 119, 77, 110, 101, 109, 111, 110, 105, 99, 32, 49] = asc "NewMnemonic 1" := by decide +kernel
@[go_exec] theorem label_NewMnemonic_2 : utf8 [78, 101, 119, 77, 110, 101, 109, 111, 110, 105, 99, 32, 50] = asc "NewMnemonic 2" := by decide +kernel
@[go_exec] theorem label_NewMnemonic_3 : utf8 [78, 101, 119, 77, 110, 101, 109, 111, 110, 105, 99, 32, 51] = asc "NewMnemonic 3" := by decide +kernel
@[go_exec] theorem label_NewMnemonic_4 : utf8 [78, 101, 119, 77, 110, 101, 109, 111, 110, 105, 99, 32, 52] = asc "NewMnemonic 4" := by decide +kernel
@[go_exec] theorem label_NewMnemonic_5 : utf8 [78, 101, 119, 77, 110, 101, 109, 111, 110, 105, 99, 32, 53] = asc "NewMnemonic 5" := by decide +kernel
@[go_exec] theorem label_NewMnemonic_6 : utf8 [78, 101, 119, 77, 110, 101, 109, 111, 110, 105, 99, 32, 54] = asc "NewMnemonic 6" := by decide +kernel
@[go_exec] theorem label_NewMnemonic_7 : utf8 [78, 101, 119, 77, 110, 101, 109, 111, 110, 105, 99, 32, 55] = asc "NewMnemonic 7" := by decide +kernel
@[go_exec] theorem label_NewMnemonic_8 : utf8 [78, 101, 119, 77, 110, 101, 109, 111, 110, 105, 99, 32, 56] = asc "NewMnemonic 8" := by decide +kernel
@[go_exec] theorem label_NewMnemonic_9 : utf8 [78, 101, 119, 77, 110, 101, 109, 111, 110, 105, 99, 32, 57] = asc "NewMnemonic 9" := by decide +kernel
@[go_exec] theorem label_NewMnemonic_10 : utf8 [78, 101, 119, 77, 110, 101, 109, 111, 110, 105, 99, 32, 49, 48] = asc "NewMnemonic 10" := by decide +kernel
@[go_exec] theorem label_NewMnemonic_11 : utf8 [78, 101, 119, 77, 110, 101, 109, 111, 110, 105, 99, 32, 49, 49] = asc "NewMnemonic 11" := by decide +kernel
@[go_exec] theorem label_NewMnemonic_12 : utf8 [78, 101, 119, 77, 110, 101, 109, 111, 110, 105, 99, 32, 49, 50] = asc "NewMnemonic 12" := by decide +kernel
@[go_exec] theorem label_NewMnemonic_13 : utf8 [78, 101, 119, 77, 110, 101, 109, 111, 110, 105, 99, 32, 49, 51] = asc "NewMnemonic 13" := by decide +kernel

/-- `NewMnemonic` with marks. -/
def mNewMnemonic : Func := value_of% markedFunc fNewMnemonic

theorem find_mNewMnemonic : findFunc 0 (id! "NewMnemonic") (marked program) = some mNewMnemonic := by decide +kernel

/-- mnemonic.go:105-146 with marks. -/
def mMnemonicRest : Stmt := value_of% mNewMnemonic.body.after 4

/-- mnemonic.go:76-102 with marks. -/
theorem mNewMnemonic_body : mNewMnemonic.body = .seq (value_of% mNewMnemonic.body.at 0) (.seq (value_of% mNewMnemonic.body.at 1)
    (.seq (value_of% mNewMnemonic.body.at 2) (.seq (value_of% mNewMnemonic.body.at 3) mMnemonicRest))) := (rfl)

/-- mnemonic.go:133-144 with marks, the body of the loop over the words. -/
def mPickBody : Stmt := value_of% (mMnemonicRest.at 16).body

/-- mnemonic.go:135-141 with marks, the loop that collects eleven bits. -/
def mBitsLoop : Stmt := value_of% mPickBody.inside.at 2

/-- mnemonic.go:136-140 with marks, its body. -/
def mBitBody : Stmt := value_of% mBitsLoop.body

/-- The lines for the bits number `j` to `j + k - 1` of `x`. -/
def bitLines (x j k : Nat) : List GoString :=
  (List.range' j k).flatMap fun t => [asc "NewMnemonic 11", if natBit x t = 0 then asc "NewMnemonic 12" else asc "NewMnemonic 13"]

/-- The lines for `k` words, from bit number `i` on. -/
def pickLines (x : Nat) : Nat → Nat → List GoString
  | 0, _ => []
  | k + 1, i => asc "NewMnemonic 10" :: bitLines x i 11 ++ pickLines x k (i + 11)

theorem mark_bit_rounds (c m : Nat) (env : Env) (p : Ptr) (x : Int) (h0 : 0 ≤ x) (i : Nat)
    (hb : Env.get (id! "binary") env = some (.big p)) : ∀ (n k j : Nat) (s : GoString) (st : State),
    loadInt st.heap p = some x → k < n → j + k = i + 11 →
    rounds (eval ⟨H, E, runFunc H E (marked program) (c + 1)⟩ (.bin (id! "<") (.bin (id! "-") (.name (id! "j")) (.name (id! "i"))) (.num 11)))
      (exec ⟨H, E, runFunc H E (marked program) (c + 1)⟩ m mBitBody)
      (exec ⟨H, E, runFunc H E (marked program) (c + 1)⟩ m (.inc (.name (id! "j")))) n
      ([(id! "j", .int j)] :: [(id! "str", .str s)] :: [(id! "i", .int i)] :: env) st =
      .ok (.next ([(id! "j", .int (i + 11 : Nat))] :: [(id! "str", .str (s ++ (List.range' j k).map fun t =>
        if natBit x.toNat t = 0 then 48 else 49))] :: [(id! "i", .int i)] :: env)) { st with log := st.log ++ bitLines x.toNat j k }
  | 0, k, j, s, st, _, h, _ => by omega
  | n + 1, 0, j, s, st, hx, h, h' => by
    have hc : ¬ ((j : Int) - i < 11) := by omega
    unfold rounds
    mark_run [hc]
    obtain rfl : j = i + 11 := by omega
    simp [bitLines]
  | n + 1, k + 1, j, s, st, hx, h, h' => by
    have hc : (j : Int) - i < 11 := by omega
    have hj : ¬ (j : Int) < 0 := by omega
    have ih := fun s st hx => mark_bit_rounds c m env p x h0 i hb n k (j + 1) s st hx (by omega) (by omega)
    unfold rounds
    unfold mBitBody at ih ⊢
    push_cast at ih
    by_cases h1 : natBit x.toNat j = 0
    · mark_run [hc, hb, hx, hj, intBit_nat h0, Int.toNat_natCast, h1]
      rw [ih _ ⟨st.heap, st.hashes, st.rd, st.log ++ [asc "NewMnemonic 11"] ++ [asc "NewMnemonic 12"], st.vars⟩ hx]
      simp [List.range'_succ, h1, bitLines]
    · mark_run [hc, hb, hx, hj, intBit_nat h0, Int.toNat_natCast, h1]
      rw [ih _ ⟨st.heap, st.hashes, st.rd, st.log ++ [asc "NewMnemonic 11"] ++ [asc "NewMnemonic 13"], st.vars⟩ hx]
      simp [List.range'_succ, h1, bitLines]

theorem mark_bitsLoop (c m : Nat) (hm : 11 < m) (env : Env) (p : Ptr) (x : Int) (h0 : 0 ≤ x) (st : State) (i : Nat)
    (hb : Env.get (id! "binary") env = some (.big p)) (hx : loadInt st.heap p = some x) :
    exec ⟨H, E, runFunc H E (marked program) (c + 1)⟩ m mBitsLoop ([(id! "str", .str [])] :: [(id! "i", .int i)] :: env) st =
      .ok (.next ([(id! "str", .str (bitString x.toNat i))] :: [(id! "i", .int i)] :: env))
        { st with log := st.log ++ bitLines x.toNat i 11 } := by
  have h := mark_bit_rounds H E c m env p x h0 i hb m 11 i [] st hx hm rfl
  unfold mBitBody at h
  unfold mBitsLoop
  rw [exec_loop]
  mark_run [h]
  rw [Imp.bitString_range']

/-- How the loop over the words of the marked text ends. -/
def markedPicks (env : List (Nat × Value)) (p : Ptr) (i : Nat) (before : List GoString) (phrase : Option (List GoString)) (ints : List Int)
    (st : State) (l : Log) (r : Res (List GoString)) (o : Out Ctl) : Prop :=
  match r with
  | .ok ws => phrase.getD [] = before ++ ws ∧ o = .ok (.next (phraseEnv env p i phrase))
      ⟨{ st.heap with ints := ints }, st.hashes, st.rd, st.log ++ l, st.vars⟩
  | .err _ => False
  | .panic q => ∃ l', o = .panic q ⟨{ st.heap with ints := ints }, st.hashes, st.rd, l', st.vars⟩ ∧
      l'.length ≤ st.log.length + l.length

theorem bitLines_length (x j k : Nat) : (bitLines x j k).length = 2 * k := by
  simp [bitLines, List.length_flatMap, List.map_const', Nat.mul_comm]

theorem pickLines_length (x : Nat) : ∀ (k i : Nat), (pickLines x k i).length = 23 * k
  | 0, _ => rfl
  | k + 1, i => by
    simp only [pickLines, List.length_append, List.length_cons, bitLines_length, pickLines_length x k]
    omega

theorem mark_picks (c m : Nat) (hm : 11 < m) (env : List (Nat × Value)) (p : Ptr) (x : Int) (h0 : 0 ≤ x) (b : GoString)
    (wl : Option (List GoString)) (hb : scopeGet (id! "b") env = some (.str b))
    (hw : scopeGet (id! "wordlist") env = some (.strs wl)) :
    ∀ (k n i : Nat) (ph : Option (List GoString)) (st : State), loadInt st.heap p = some x → (b.length - i + 10) / 11 = k → k < n →
    ∃ ints i' ph', markedPicks env p i' (ph.getD []) ph' ints st (pickLines x.toNat k i)
      (phraseLoop (wl.getD []) x.toNat k i)
      (rounds (eval ⟨H, E, runFunc H E (marked program) (c + 1)⟩ (.bin (id! "<") (.name (id! "i")) (.call (.name (id! "len")) (.cons (.name (id! "b")) .nil))))
        (exec ⟨H, E, runFunc H E (marked program) (c + 1)⟩ m mPickBody)
        (exec ⟨H, E, runFunc H E (marked program) (c + 1)⟩ m (.addAssign (.name (id! "i")) (.num 11))) n (phraseEnv env p i ph) st)
  | _, 0, i, ph, st, _, _, h => by omega
  | 0, n + 1, i, ph, st, hx, hk, h => by
    have hc : ¬ (i : Int) < b.length := by omega
    unfold rounds phraseEnv phraseLoop
    mark_run [hc, hb]
    exact ⟨st.heap.ints, i, ph, by simp, by simp [pickLines, phraseEnv]⟩
  | k + 1, n + 1, i, ph, st, hx, hk, h => by
    have hc : (i : Int) < b.length := by omega
    have ih := mark_picks c m hm env p x h0 b wl hb hw k n (i + 11)
    have hl := mark_bitsLoop H E c m hm [(id! "phrase", .strs ph) :: (id! "binary", .big p) :: env] p x h0
      ⟨st.heap, st.hashes, st.rd, st.log ++ [asc "NewMnemonic 10"], st.vars⟩ i rfl hx
    unfold mBitsLoop at hl
    unfold rounds phraseLoop
    unfold phraseEnv mPickBody at ih ⊢
    obtain ⟨v, hv, e⟩ := bitString_value x.toNat i
    mark_run [hc, hb, hw, hl, e, toInt64_small hv]
    rcases hi : index (wl.getD []) (v : Int) with w | e | q
    case err => exact (index_no_err hi).elim
    case panic =>
      mark_run
      refine ⟨_, i, ph, _, rfl, ?_⟩
      simp only [List.length_append, List.length_cons, List.length_nil, bitLines_length, pickLines]
      omega
    mark_run
    obtain ⟨ints, i', ph', ih⟩ := ih (some (ph.getD [] ++ [w])) ⟨⟨st.heap.ints ++ [(v : Int)], st.heap.nets, st.heap.privs,
      st.heap.pubs, st.heap.curve⟩, st.hashes, st.rd, st.log ++ [asc "NewMnemonic 10"] ++ bitLines x.toNat i 11, st.vars⟩
      (loadInt_grow hx) (by omega) (by omega)
    push_cast at ih
    refine ⟨ints, i', ph', ?_⟩
    rcases hp : phraseLoop (wl.getD []) x.toNat k (i + 11) with ws | e | q <;> rw [hp] at ih
    · obtain ⟨h1, h2⟩ := ih
      refine ⟨by rw [h1]; simp, h2.trans ?_⟩
      simp [pickLines]
    · exact ih.elim
    · obtain ⟨l', h1, h2⟩ := ih
      refine ⟨l', h1, h2.trans ?_⟩
      simp only [List.length_append, List.length_cons, List.length_nil, bitLines_length, pickLines]
      omega

/-- The number whose bits the words are made of. -/
def phraseBits (el v : Nat) : Nat :=
  ((bigSetString (padZeros el (fmtNat 2 v) ++ (fmtNat 2 (bytesToNat (H.sha256 (natToBytes v)))).take (el / 32)) 2).getD 0).toNat

/-- The lines from mnemonic.go:105 on, for the random number `v`. -/
def phraseLines (el v : Nat) : List GoString :=
  List.replicate (el - (fmtNat 2 v).length) (asc "NewMnemonic 9") ++ pickLines (phraseBits H el v) ((el + el / 32 + 10) / 11) 0

theorem mark_mnemonicRest (c n : Nat) (hn : 300 ≤ n) (words : Int) (wl : List GoString) (el : Nat) (h128 : 128 ≤ el) (h256 : el ≤ 256)
    (st : State) : ∃ ints hs rd2 l, ((exec ⟨H, E, runFunc H E (marked program) (c + 1)⟩ n mMnemonicRest
      [[(id! "entropyLength", .int el), (id! "words", .int words), (id! "wordlist", .strs (some wl))]] st).andThen mNewMnemonic.finish) =
      mnemonicOut { st with log := l } ints hs rd2 (do
        let (entropy, rd') ← randInt st.rd (2 ^ el)
        let phrase ← phraseOf H el entropy wl
        .ok (phrase, rd')) ∧
      l.length ≤ st.log.length + el + 23 * ((el + el / 32 + 10) / 11) + 2 ∧
      ∀ v rd' s, randInt st.rd (2 ^ el) = .ok (v, rd') → phraseOf H el v wl = .ok s → l = st.log ++ phraseLines H el v := by
  have hfin : mNewMnemonic.results = [.name (id! "string"), .name (id! "error")] := rfl
  unfold mMnemonicRest
  have he : ¬ (el : Int) ≤ 0 := by omega
  have hp : ¬ (2 : Int) ^ el ≤ 0 := not_le.2 (by positivity)
  have h2 : ((2 : Int) ^ el).toNat = 2 ^ el := by
    have : ((2 : Int) ^ el) = ((2 ^ el : Nat) : Int) := by push_cast; rfl
    rw [this, Int.toNat_natCast]
  have h32 : (el : Int).tdiv 32 = ((el / 32 : Nat) : Int) := by
    rw [Int.tdiv_eq_ediv_of_nonneg (by omega)]; norm_cast
  mark_run [hfin, readInt_before, writeInt_before, he, Int.toNat_natCast, hp, h2]
  rcases hr : randInt st.rd (2 ^ el) with ⟨v, rd'⟩ | e | p
  case err => simp only [drawBig_err hr]; mark_run [hfin]; exact ⟨_, _, st.rd, st.log ++ [asc "NewMnemonic 8"], rfl, by simp only [List.length_append, List.length_cons, List.length_nil]; omega, by intro _ _ _ e; cases e⟩
  case panic => simp only [drawBig_panic hr]; mark_run; exact ⟨_, _, st.rd, _, rfl, by omega, by intro _ _ _ e; cases e⟩
  simp only [drawBig_ok hr]
  unfold phraseOf
  mark_run [h32, Imp.fmtBig_nat, Int.natAbs_natCast]
  rcases hs : slice (fmtNat 2 (bytesToNat (H.sha256 (natToBytes v)))) 0 ((el / 32 : Nat) : Int) with cs | e | p
  case err => exact (Imp.slice_ne_err hs).elim
  case panic =>
    mark_run
    refine ⟨_, _, rd', _, rfl, by omega, ?_⟩
    rintro _ _ _ ⟨⟩ h
    rw [hs] at h
    cases h
  mark_run
  rw [readInt_before, Imp.fmtBig_nat]
  generalize some (st.heap.ints ++ [(2 : Int) ^ el] ++ [(el : Int)]).length = p1,
    some (st.heap.ints ++ [(2 : Int) ^ el] ++ [(el : Int)] ++ [(v : Int)]).length = p2, some st.heap.ints.length = p3,
    st.heap.ints ++ [(2 : Int) ^ el] ++ [(el : Int)] ++ [(v : Int)] ++ [(bytesToNat (H.sha256 (natToBytes v)) : Int)] = I
  have hpad := exec_markedPad H E (c := c) [78, 101, 119, 77, 110, 101, 109, 111, 110, 105, 99, 32, 57] (x := id! "b")
    (k := .name (id! "entropyLength")) (len := el) (fun t => [[(id! "b", .str t),
    (id! "checksumBinary", .str cs), (id! "hashBinary", .str (fmtNat 2 (bytesToNat (H.sha256 (natToBytes v))))),
    (id! "hashInt", .big p2), (id! "checksumLength", .int (el / 32 : Nat)), (id! "hash", .bytes (H.sha256 (natToBytes v))),
    (id! "sha", .hash st.hashes.length), (id! "err", .err none), (id! "entropy", .big p1), (id! "np256", .big p3),
    (id! "entropyLength", .int el), (id! "words", .int words), (id! "wordlist", .strs (some wl))]]) (by decide) (fun _ => rfl)
    (fun _ _ => rfl) (fun _ _ => rfl) n (by omega) (fmtNat 2 v)
  unfold markedPad mark at hpad
  mark_run [hpad]
  have hlen : (fmtNat 2 v).length ≤ el := (length_fmtNat_le_iff (by omega) (by omega)).2 (Imp.randInt_lt (by positivity) hr)
  have hc := Imp.slice_length hs
  have hcs : cs = (fmtNat 2 (bytesToNat (H.sha256 (natToBytes v)))).take (el / 32) := by
    have h := hs
    unfold slice at h
    split at h
    · simp only [Int.toNat_natCast, Int.toNat_zero, List.drop_zero, Int.sub_zero, Res.ok.injEq] at h
      exact h.symm
    · simp at h
  have hb : (padZeros el (fmtNat 2 v) ++ cs).length = el + el / 32 := by
    rw [List.length_append, Imp.length_padZeros]; omega
  have hbit : ∀ x ∈ padZeros el (fmtNat 2 v) ++ cs, x = 48 ∨ x = 49 := by
    intro x hx
    simp only [List.mem_append, padZeros, List.mem_replicate] at hx
    rcases hx with (⟨_, rfl⟩ | hx) | hx
    · exact .inl rfl
    · exact fmtNat2_bit v x hx
    · exact fmtNat2_bit _ x (slice_mem hs x hx)
  have hval : phraseBits H el v = ((bigSetString (padZeros el (fmtNat 2 v) ++ cs) 2).getD 0).toNat := by
    unfold phraseBits; rw [hcs]
  generalize hbe : padZeros el (fmtNat 2 v) ++ cs = b at hb hbit hval
  obtain ⟨x, hx⟩ := bits_value (by intro h; rw [h, List.length_nil] at hb; omega) hbit
  rw [hx] at hval
  simp only [Option.getD_some, Int.toNat_natCast] at hval
  mark_run [hx, exec_loop]
  obtain ⟨ints, i', ph', hk⟩ := mark_picks H E c n (by omega) [(id! "b", .str b), (id! "checksumBinary", .str cs),
    (id! "hashBinary", .str (fmtNat 2 (bytesToNat (H.sha256 (natToBytes v))))),
    (id! "hashInt", .big p2), (id! "checksumLength", .int (el / 32 : Nat)), (id! "hash", .bytes (H.sha256 (natToBytes v))),
    (id! "sha", .hash st.hashes.length), (id! "err", .err none), (id! "entropy", .big p1), (id! "np256", .big p3),
    (id! "entropyLength", .int el), (id! "words", .int words), (id! "wordlist", .strs (some wl))] (some I.length) (x : Int)
    (by omega) b (some wl) rfl rfl ((b.length + 10) / 11) n 0 none ⟨⟨I ++ [(x : Int)], st.heap.nets, st.heap.privs, st.heap.pubs,
      st.heap.curve⟩, st.hashes ++ [⟨false, natToBytes v⟩], rd',
      st.log ++ List.replicate (el - (fmtNat 2 v).length) (asc "NewMnemonic 9"), st.vars⟩ (readInt_last ..) (by omega) (by omega)
  simp only [Option.getD_some] at hk
  unfold mPickBody phraseEnv at hk
  simp only [Nat.cast_zero] at hk
  rcases hph : phraseLoop wl (x : Int).toNat ((b.length + 10) / 11) 0 with ws | e | q <;> rw [hph] at hk
  · obtain ⟨h1, h2⟩ := hk
    unfold phraseEnv at h2
    mark_run [h2, hfin, h1, Option.getD_none]
    refine ⟨_, _, rd', st.log ++ List.replicate (el - (fmtNat 2 v).length) (asc "NewMnemonic 9") ++
      pickLines (x : Int).toNat ((b.length + 10) / 11) 0, rfl, by
        simp only [List.length_append, List.length_replicate, pickLines_length, hb]; omega, ?_⟩
    rintro _ _ _ ⟨⟩ -
    rw [phraseLines, hval, Int.toNat_natCast, hb, List.append_assoc]
  · exact hk.elim
  · obtain ⟨l, h2, h3⟩ := hk
    mark_run [h2]
    refine ⟨_, _, rd', l, rfl, by
      simp only [List.length_append, List.length_replicate, pickLines_length, hb] at h3; omega, ?_⟩
    rintro _ _ t ⟨⟩ h
    have h' : phraseOf H el v wl = .panic q := by
      unfold phraseOf
      go_run [hs, hbe, hx, hph]
    have h : phraseOf H el v wl = .ok t := h
    rw [h'] at h
    cases h

/-- The number of random bits for a number of words, and the line of the case of mnemonic.go:84-102. -/
def caseLine (words : Int) : GoString :=
  if words = 12 then asc "NewMnemonic 2" else if words = 15 then asc "NewMnemonic 3" else if words = 18 then asc "NewMnemonic 4"
  else if words = 21 then asc "NewMnemonic 5" else asc "NewMnemonic 6"

theorem mark_NewMnemonic (words : Int) (wl : Option (List GoString)) (n : Nat) (hn : 300 ≤ n) (st : State) :
    ∃ ints hs rd2 l, runFunc H E (marked program) (n + 1) 0 (id! "NewMnemonic") [.int words, .strs wl] st =
      mnemonicOut { st with log := l } ints hs rd2 (newMnemonic H st.rd words wl) ∧
    l.length ≤ st.log.length + 812 ∧ ∀ s rd', newMnemonic H st.rd words wl = .ok (s, rd') → ∃ el v, entropyLengthOf words = some el ∧
      randInt st.rd (2 ^ el) = .ok (v, rd') ∧ phraseOf H el v (wl.getD []) = .ok s ∧
      l = st.log ++ [asc "NewMnemonic", caseLine words] ++ phraseLines H el v := by
  obtain ⟨n, rfl⟩ : ∃ m, n = m + 1 := ⟨n - 1, by omega⟩
  have hfin : mNewMnemonic.results = [.name (id! "string"), .name (id! "error")] := rfl
  rw [runFunc_succ H E find_mNewMnemonic _ rfl, mNewMnemonic_body]
  cases wl with
  | none =>
    unfold newMnemonic
    mark_run [hfin]
    exact ⟨st.heap.ints, st.hashes, st.rd, st.log ++ [asc "NewMnemonic"] ++ [asc "NewMnemonic 1"], rfl, by simp only [List.length_append, List.length_cons, List.length_nil]; omega, by intro _ _ e; cases e⟩
  | some wl =>
    have rest := fun el h1 h2 (hl : entropyLengthOf words = some el) => mark_mnemonicRest H E n (n + 1) hn words wl el h1 h2
      { st with log := st.log ++ [asc "NewMnemonic"] ++ [caseLine words] }
    have done : ∀ el, entropyLengthOf words = some el → ∀ l, (∀ v rd' s, randInt st.rd (2 ^ el) = .ok (v, rd') → phraseOf H el v wl = .ok s →
        l = st.log ++ [asc "NewMnemonic"] ++ [caseLine words] ++ phraseLines H el v) →
        ∀ s rd', newMnemonic H st.rd words (some wl) = .ok (s, rd') → ∃ el v, entropyLengthOf words = some el ∧
          randInt st.rd (2 ^ el) = .ok (v, rd') ∧ phraseOf H el v wl = .ok s ∧
          l = st.log ++ [asc "NewMnemonic", caseLine words] ++ phraseLines H el v := by
      intro el he l hl s rd' h
      have e : newMnemonic H st.rd words (some wl) = (do
          let (entropy, rd') ← randInt st.rd (2 ^ el)
          let phrase ← phraseOf H el entropy wl
          .ok (phrase, rd')) := by
        simp only [newMnemonic, he]
      rw [e] at h
      rcases hr : randInt st.rd (2 ^ el) with ⟨v, rd2⟩ | e | p <;> rw [hr] at h
      case err => cases h
      case panic => cases h
      rcases hp : phraseOf H el v wl with s' | e | p
      case err =>
        have h : (phraseOf H el v wl >>= fun phrase => Res.ok (phrase, rd2)) = .ok (s, rd') := h
        rw [hp] at h
        cases h
      case panic =>
        have h : (phraseOf H el v wl >>= fun phrase => Res.ok (phrase, rd2)) = .ok (s, rd') := h
        rw [hp] at h
        cases h
      have h : (phraseOf H el v wl >>= fun phrase => Res.ok (phrase, rd2)) = .ok (s, rd') := h
      rw [hp] at h
      injection h with h
      injection h with h1 h2
      subst h1 h2
      exact ⟨el, v, he, hr, hp, by rw [hl v rd2 s' hr hp]; simp⟩
    by_cases h12 : words = 12
    · subst h12; mark_run
      obtain ⟨ints, hs, rd2, l, e, hb, hl⟩ := rest 128 (by omega) (by omega) rfl
      exact ⟨ints, hs, rd2, l, e, by simp only [List.length_append, List.length_cons, List.length_nil] at hb; omega, done 128 rfl l hl⟩
    by_cases h15 : words = 15
    · subst h15; mark_run
      obtain ⟨ints, hs, rd2, l, e, hb, hl⟩ := rest 160 (by omega) (by omega) rfl
      exact ⟨ints, hs, rd2, l, e, by simp only [List.length_append, List.length_cons, List.length_nil] at hb; omega, done 160 rfl l hl⟩
    by_cases h18 : words = 18
    · subst h18; mark_run
      obtain ⟨ints, hs, rd2, l, e, hb, hl⟩ := rest 192 (by omega) (by omega) rfl
      exact ⟨ints, hs, rd2, l, e, by simp only [List.length_append, List.length_cons, List.length_nil] at hb; omega, done 192 rfl l hl⟩
    by_cases h21 : words = 21
    · subst h21; mark_run
      obtain ⟨ints, hs, rd2, l, e, hb, hl⟩ := rest 224 (by omega) (by omega) rfl
      exact ⟨ints, hs, rd2, l, e, by simp only [List.length_append, List.length_cons, List.length_nil] at hb; omega, done 224 rfl l hl⟩
    by_cases h24 : words = 24
    · subst h24; mark_run
      obtain ⟨ints, hs, rd2, l, e, hb, hl⟩ := rest 256 (by omega) (by omega) rfl
      exact ⟨ints, hs, rd2, l, e, by simp only [List.length_append, List.length_cons, List.length_nil] at hb; omega, done 256 rfl l hl⟩
    have hn : newMnemonic H st.rd words (some wl) = .err .unsupportedMnemonicLength := by
      unfold newMnemonic entropyLengthOf
      simp [h12, h15, h18, h21, h24]
    rw [hn]
    mark_run [h12, h15, h18, h21, h24, hfin]
    exact ⟨st.heap.ints, st.hashes, st.rd, st.log ++ [asc "NewMnemonic"] ++ [asc "NewMnemonic 7"], rfl, by simp only [List.length_append, List.length_cons, List.length_nil]; omega, by intro _ _ e; cases e⟩

theorem newMnemonic_lines {words : Int} {wl : Option (List GoString)} {st st' : State} {s : GoString}
    (h : MarkedEnds H E (.newMnemonic words wl) st (.ok [.str s, .err none] st')) : ∃ el v, entropyLengthOf words = some el ∧
      randInt st.rd (2 ^ el) = .ok (v, st'.rd) ∧ phraseOf H el v (wl.getD []) = .ok s ∧
      st'.log = st.log ++ [asc "NewMnemonic", caseLine words] ++ phraseLines H el v := by
  obtain ⟨n, h⟩ := h.run 301
  obtain ⟨ints, hs, rd2, l, e, -, hl⟩ := mark_NewMnemonic H E words wl (n + 300) (by omega) st
  have h := h.symm.trans e
  rcases hg : newMnemonic H st.rd words wl with ⟨t, rd⟩ | e | p <;> rw [hg] at h
  · injection h with h1 h2
    injection h1 with h1 _
    injection h1 with h1
    subst h1 h2
    exact hl s rd hg
  · injection h with h1 _
    injection h1 with _ h1
    injection h1 with h1
    cases h1
  · cases h

end

theorem bitLines_inj {x y j : Nat} : ∀ {k : Nat}, bitLines x j k = bitLines y j k → ∀ t, j ≤ t → t < j + k → (natBit x t = 0 ↔ natBit y t = 0) := by
  intro k
  induction k generalizing j with
  | zero => intro _ t h1 h2; omega
  | succ k ih =>
    intro h t h1 h2
    simp only [bitLines, List.range'_succ, List.flatMap_cons, List.cons_append, List.nil_append, List.cons.injEq, true_and] at h
    obtain ⟨h3, h4⟩ := h
    rcases Nat.eq_or_lt_of_le h1 with rfl | h1
    · by_cases hx : natBit x j = 0 <;> by_cases hy : natBit y j = 0 <;> simp only [hx, hy, if_true, if_false] at h3 ⊢
      · exact absurd h3 (by decide +kernel)
      · exact absurd h3 (by decide +kernel)
    · exact ih h4 t h1 (by omega)

theorem pickLines_inj {x y : Nat} : ∀ {k i : Nat}, pickLines x k i = pickLines y k i → ∀ wl : List GoString, phraseLoop wl x k i = phraseLoop wl y k i := by
  intro k
  induction k with
  | zero => intro i _ wl; rfl
  | succ k ih =>
    intro i h wl
    simp only [pickLines, List.cons_append, List.cons.injEq, true_and] at h
    obtain ⟨h1, h2⟩ := List.append_inj h (by simp [bitLines_length])
    have hb : bitString x i = bitString y i := by
      unfold bitString
      apply List.map_congr_left
      intro j hj
      simp only [bitLines_inj h1 (i + j) (by omega) (by have := List.mem_range.1 hj; omega)]
    simp only [phraseLoop, hb, ih h2]

theorem pickLines_ne (x : Nat) : ∀ (k i : Nat), ∀ l ∈ pickLines x k i, l ≠ asc "NewMnemonic 9" := by
  have n10 : asc "NewMnemonic 10" ≠ asc "NewMnemonic 9" := by decide +kernel
  have n11 : asc "NewMnemonic 11" ≠ asc "NewMnemonic 9" := by decide +kernel
  have n12 : asc "NewMnemonic 12" ≠ asc "NewMnemonic 9" := by decide +kernel
  have n13 : asc "NewMnemonic 13" ≠ asc "NewMnemonic 9" := by decide +kernel
  intro k
  induction k with
  | zero => intro i l h; cases h
  | succ k ih =>
    intro i l h
    simp only [pickLines, List.cons_append, List.mem_cons, List.mem_append, bitLines, List.mem_flatMap, List.not_mem_nil, or_false] at h
    rcases h with rfl | ⟨t, -, rfl | rfl⟩ | h
    · exact n10
    · exact n11
    · split
      · exact n12
      · exact n13
    · exact ih _ l h

theorem phraseLines_filter (H : Hashes) (el v : Nat) : (phraseLines H el v).filter (fun l => decide (l ≠ asc "NewMnemonic 9")) =
    pickLines (phraseBits H el v) ((el + el / 32 + 10) / 11) 0 := by
  rw [phraseLines, List.filter_append]
  have h1 : (List.replicate (el - (fmtNat 2 v).length) (asc "NewMnemonic 9")).filter (fun l => decide (l ≠ asc "NewMnemonic 9")) = [] := by
    rw [List.filter_eq_nil_iff]
    intro a ha
    simp [List.eq_of_mem_replicate ha]
  rw [h1, List.nil_append, List.filter_eq_self]
  intro a ha
  exact decide_eq_true (pickLines_ne _ _ _ a ha)

theorem phraseOf_bits {H : Hashes} {el v : Nat} {wl : List GoString} {s : GoString} (hel : 0 < el)
    (hv : v < 2 ^ el) (h : phraseOf H el v wl = .ok s) :
    ∃ ws, phraseLoop wl (phraseBits H el v) ((el + el / 32 + 10) / 11) 0 = .ok ws ∧ s = joinSpace ws := by
  unfold phraseOf at h
  rcases hs : slice (fmtNat 2 (bytesToNat (H.sha256 (natToBytes v)))) 0 ((el / 32 : Nat) : Int) with cs | e | p <;> simp only [hs] at h
  case err => cases h
  case panic => cases h
  have hc := Imp.slice_length hs
  have hcs : cs = (fmtNat 2 (bytesToNat (H.sha256 (natToBytes v)))).take (el / 32) := by
    unfold slice at hs
    split at hs
    · simp only [Int.toNat_natCast, Int.toNat_zero, List.drop_zero, Int.sub_zero, Res.ok.injEq] at hs
      exact hs.symm
    · simp at hs
  have hlen : (padZeros el (fmtNat 2 v) ++ cs).length = el + el / 32 := by
    have : (fmtNat 2 v).length ≤ el := by
      exact (length_fmtNat_le_iff (by omega) hel).2 hv
    rw [List.length_append, Imp.length_padZeros]; omega
  have h : (deref (bigSetString (padZeros el (fmtNat 2 v) ++ cs) 2) >>= fun binary =>
    phraseLoop wl binary.toNat (((padZeros el (fmtNat 2 v) ++ cs).length + 10) / 11) 0 >>= fun phrase => Res.ok (joinSpace phrase)) = .ok s := h
  rw [hlen] at h
  rw [phraseBits, ← hcs]
  cases hb : bigSetString (padZeros el (fmtNat 2 v) ++ cs) 2 with
  | none => rw [hb] at h; cases h
  | some b =>
    rw [hb] at h
    have h : (phraseLoop wl b.toNat ((el + el / 32 + 10) / 11) 0 >>= fun phrase => Res.ok (joinSpace phrase)) = .ok s := h
    cases hp : phraseLoop wl b.toNat ((el + el / 32 + 10) / 11) 0 with
    | ok ws =>
      rw [hp] at h
      injection h with h
      exact ⟨ws, hp, h.symm⟩
    | err e => rw [hp] at h; cases h
    | panic q => rw [hp] at h; cases h

theorem entropyLength_pos {words : Int} {el : Nat} (h : entropyLengthOf words = some el) : 0 < el := by
  unfold entropyLengthOf at h
  split at h
  · injection h with h; omega
  split at h
  · injection h with h; omega
  split at h
  · injection h with h; omega
  split at h
  · injection h with h; omega
  split at h
  · injection h with h; omega
  cases h

/-- C119: the way of `NewMnemonic` gives the phrase away: two calls that pass the same blocks return the same phrase. -/
theorem C119_newMnemonic_gives_phrase (H : Hashes) (E : EcdsaM) (words : Int) (wl : Option (List GoString)) (st1 st1' st2 st2' : State)
    (s1 s2 : GoString) (l : Log) (h1 : MarkedEnds H E (.newMnemonic words wl) st1 (.ok [.str s1, .err none] st1'))
    (h2 : MarkedEnds H E (.newMnemonic words wl) st2 (.ok [.str s2, .err none] st2'))
    (hl1 : st1'.log = st1.log ++ l) (hl2 : st2'.log = st2.log ++ l) : s1 = s2 := by
  obtain ⟨el, v, e1, r1, p1, l1⟩ := newMnemonic_lines H E h1
  obtain ⟨el', w, e2, r2, p2, l2⟩ := newMnemonic_lines H E h2
  obtain rfl : el = el' := by rw [e1] at e2; injection e2
  rw [hl1, List.append_assoc, List.append_cancel_left_eq] at l1
  rw [hl2, List.append_assoc, List.append_cancel_left_eq, l1, List.append_cancel_left_eq] at l2
  have h := congrArg (List.filter fun l => decide (l ≠ asc "NewMnemonic 9")) l2
  rw [phraseLines_filter, phraseLines_filter] at h
  obtain ⟨ws, q1, rfl⟩ := phraseOf_bits (entropyLength_pos e1) (Imp.randInt_lt (by positivity) r1) p1
  obtain ⟨ws', q2, rfl⟩ := phraseOf_bits (entropyLength_pos e1) (Imp.randInt_lt (by positivity) r2) p2
  rw [pickLines_inj h, q2] at q1
  injection q1 with q1
  rw [q1]

/-- C119, what holds: the way of `NewMnemonic` does not depend on the word list. (Missing: it depends on the random number.) -/
theorem C119_newMnemonic_partial (H : Hashes) (E : EcdsaM) (words : Int) (wl wl' : Option (List GoString)) (st1 st1' st2 st2' : State)
    (s1 s2 : GoString) (hrd : st1.rd = st2.rd) (h1 : MarkedEnds H E (.newMnemonic words wl) st1 (.ok [.str s1, .err none] st1'))
    (h2 : MarkedEnds H E (.newMnemonic words wl') st2 (.ok [.str s2, .err none] st2')) :
    ∃ l, st1'.log = st1.log ++ l ∧ st2'.log = st2.log ++ l := by
  obtain ⟨el, v, e1, r1, p1, l1⟩ := newMnemonic_lines H E h1
  obtain ⟨el', w, e2, r2, p2, l2⟩ := newMnemonic_lines H E h2
  obtain rfl : el = el' := by rw [e1] at e2; injection e2
  rw [hrd, r2] at r1
  injection r1 with r1
  injection r1 with r1 _
  subst r1
  exact ⟨_, by rw [l1, List.append_assoc], by rw [l2, List.append_assoc]⟩

/-- Two lists, the same random bytes: two phrases and the same 285 lines. -/
example : (match runFunc realHashes Samples.pkg (marked program) 301 0 (id! "NewMnemonic") [.int 12, .strs (some EnglishWordlist)]
      (Samples.stocked (List.replicate 16 1)),
    runFunc realHashes Samples.pkg (marked program) 301 0 (id! "NewMnemonic") [.int 12, .strs (some EnglishWordlist.reverse)]
      (Samples.stocked (List.replicate 16 1)) with
  | .ok [.str s, .err none] st, .ok [.str s', .err none] st' => decide (s ≠ s') && decide (st.log = st'.log) && decide (st.log.length = 285)
  | _, _ => false) = true := by decide +kernel

end Btc
