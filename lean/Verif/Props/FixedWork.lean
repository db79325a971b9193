import Verif.Props.FuelWork

/-!
# C138: the work of the repaired functions

`NewSeedFromMnemonic` ranges over lists, for which the analysis has no bound; its two loops over lists are followed here.
-/

namespace Btc

open Mem Source Spec

section
variable (H : Hashes) (E : EcdsaM)

/-- The repaired `NewSeedFromMnemonic` with marks. -/
def mrNewSeed : Func := value_of% markedFunc rNewSeedFromMnemonic

theorem find_mrNewSeed : findFunc 0 (id! "NewSeedFromMnemonic") (marked repaired) = some mrNewSeed := by decide +kernel

/-- mnemonic.go:18-36, as in the repaired text, with marks: the body of the loop over the words. -/
def mrWordBody : Stmt := value_of% (mrNewSeed.body.at 4).body

/-- mnemonic.go:20-25, as in the repaired text, with marks: the body of the loop over the word list. -/
def mrLookupBody : Stmt := value_of% (mrWordBody.inside.at 2).body

/-- What follows the loop over the words. -/
def mrSeedTail : Stmt := value_of% mrNewSeed.body.after 5

/-- The lines of the search for a word: the word at `i` is found. -/
def fixedFound (i : Nat) : List GoString :=
  List.replicate (i + 1) (asc "NewSeedFromMnemonic 3") ++ [asc "NewSeedFromMnemonic 4"]

theorem fixedPad_rounds {c : Nat} (s : List Nat) {x : Nat} {k : Expr} {len : Nat} {f : GoString → Env} (hx : (x = id! "_") = False)
    (hget : ∀ t, Env.get x (f t) = some (.str t)) (hset : ∀ t u, Env.set x (.str u) (f t) = some (f u))
    (hk : ∀ t st, eval ⟨H, E, runFunc H E (marked repaired) (c + 1)⟩ k ([] :: f t) st = .ok [.int len] st) (m : Nat) :
    ∀ (n : Nat) (t : GoString) (st : State), len - t.length < n →
    rounds (eval ⟨H, E, runFunc H E (marked repaired) (c + 1)⟩ (.bin (id! "<") (.call (.name (id! "len")) (.cons (.name x) .nil)) k))
      (exec ⟨H, E, runFunc H E (marked repaired) (c + 1)⟩ m (.block (.seq (mark s)
        (.seq (.assign (.cons (.name x) .nil) (.cons (.bin (id! "+") (.str [48]) (.name x)) .nil)) .skip))))
      (exec ⟨H, E, runFunc H E (marked repaired) (c + 1)⟩ m .skip) n ([] :: f t) st =
        .ok (.next ([] :: f (padZeros len t))) { st with log := st.log ++ List.replicate (len - t.length) (utf8 s) }
  | 0, t, _, h => by omega
  | n + 1, t, st, h => by
    unfold rounds
    by_cases hl : t.length < len
    · have hl' : (t.length : Int) < len := by omega
      unfold mark
      mark_run [hget, hset, hk, hl', hx]
      have ih := fixedPad_rounds s hx hget hset hk m n (48 :: t)
        ⟨st.heap, st.hashes, st.rd, st.log ++ [utf8 s], st.vars⟩ (by simp only [List.length_cons]; omega)
      unfold mark at ih
      rw [ih, Imp.padZeros_cons hl]
      have e : len - t.length = (len - (t.length + 1)) + 1 := by omega
      rw [e, List.replicate_succ]
      simp only [List.append_assoc, List.cons_append, List.nil_append, List.length_cons]
    · have hl' : ¬ (t.length : Int) < len := by omega
      mark_run [hget, hset, hk, hl', hx]
      have e : len - t.length = 0 := by omega
      rw [Imp.padZeros_self (by omega), e, List.replicate_zero, List.append_nil]

theorem exec_fixedPad {c : Nat} (s : List Nat) {x : Nat} {k : Expr} {len : Nat} (f : GoString → Env) (hx : (x = id! "_") = False)
    (hget : ∀ t, Env.get x (f t) = some (.str t)) (hset : ∀ t u, Env.set x (.str u) (f t) = some (f u))
    (hk : ∀ t st, eval ⟨H, E, runFunc H E (marked repaired) (c + 1)⟩ k ([] :: f t) st = .ok [.int len] st) (n : Nat) (hn : len < n)
    (t : GoString) (st : State) :
    exec ⟨H, E, runFunc H E (marked repaired) (c + 1)⟩ n (markedPad s x k) (f t) st =
      .ok (.next (f (padZeros len t))) { st with log := st.log ++ List.replicate (len - t.length) (utf8 s) } := by
  unfold markedPad
  rw [exec_loop]
  mark_run
  rw [fixedPad_rounds H E s hx hget hset hk n n t st (by omega)]
  mark_run

theorem fixed_mark_lookup (c n : Nat) (w : GoString) (wl : Option (List GoString)) (env : Env)
    (hw : Env.get (id! "word") env = some (.str w)) (hl : Env.get (id! "wordlist") env = some (.strs wl)) :
    ∀ (l pre : List GoString) (st : State), wl.getD [] = pre ++ l →
    ranging (exec ⟨H, E, runFunc H E (marked repaired) (c + 1)⟩ n mrLookupBody) (id! "i") (id! "_") ([(id! "index", .int (-1))] :: env) pre.length l st =
      .ok (.next ([(id! "index", .int (lookupInt pre.length l w))] :: env)) { st with log := st.log ++
        (match lookupWord l w with
        | some j => fixedFound j
        | none => List.replicate l.length (asc "NewSeedFromMnemonic 3")) }
  | [], pre, st, h => by
    unfold ranging lookupInt lookupWord
    mark_run
    simp
  | x :: l, pre, st, h => by
    have ih := fun st => fixed_mark_lookup c n w wl env hw hl l (pre ++ [x]) st (by simp [h])
    have hi : index (wl.getD []) (pre.length : Int) = .ok x := by
      rw [h, Imp.index_lt (by simp)]; simp
    unfold ranging
    unfold mrLookupBody at ih ⊢
    mark_run [hw, hl, hi]
    by_cases hx : w = x
    · mark_run [hx, hw]
      simp [lookupInt, lookupWord, fixedFound]
    · mark_run [hx]
      rw [List.length_append, List.length_singleton] at ih
      rw [ih]
      unfold lookupInt
      rw [lookupWord, if_neg hx]
      cases lookupWord l w with
      | none => simp [List.replicate_succ]
      | some j => simp [Nat.add_assoc, Nat.add_comm 1 j, fixedFound, List.replicate_succ]

theorem fixed_mark_words (c n : Nat) (hn : 11 < n) (mn pa : GoString) (wl : Option (List GoString)) (ws : List GoString) :
    ∀ (l : List GoString) (i : Nat) (b : GoString) (st : State), ∃ ls,
    markedWords (seedEnv mn pa wl ws) st ls (l.length * ((wl.getD []).length + 13)) (seedBits (wl.getD []) l b)
      (ranging (exec ⟨H, E, runFunc H E (marked repaired) (c + 1)⟩ n mrWordBody) (id! "_") (id! "word") (seedEnv mn pa wl ws b) i l st)
  | [], i, b, st => by
    unfold ranging seedBits markedWords
    mark_run
    exact ⟨[], by simp⟩
  | w :: l, i, b, st => by
    have ih := fun b st => fixed_mark_words c n hn mn pa wl ws l (i + 1) b st
    have hlk := fixed_mark_lookup H E c n w wl ([(id! "word", .str w)] :: seedEnv mn pa wl ws b) rfl rfl (wl.getD []) []
      { st with log := st.log ++ [asc "NewSeedFromMnemonic 2"] } rfl
    rw [List.length_nil] at hlk
    unfold mrLookupBody at hlk
    unfold ranging seedBits
    unfold mrWordBody at ih ⊢
    mark_run [exec_range]
    unfold seedEnv at hlk ih ⊢
    mark_run [hlk]
    unfold lookupInt
    cases hw : lookupWord (wl.getD []) w with
    | none =>
      mark_run [markedWords]
      refine ⟨[], _, rfl, ?_⟩
      · simp only [List.length_append, List.length_cons, List.length_nil, List.length_replicate, Nat.add_mul]
        omega
    | some j =>
      have hj : ¬ ((0 + j : Nat) : Int) < 0 := by omega
      have hlt := lookupWord_lt hw
      mark_run [hj]
      have hp := exec_fixedPad H E (c := c) [78, 101, 119, 83, 101, 101, 100, 70, 114, 111, 109, 77, 110, 101, 109, 111, 110, 105, 99, 32, 54]
        (x := id! "indexBinary") (k := .num 11) (len := 11) (fun t => [[(id! "indexBinary", .str t),
        (id! "index", .int (0 + j : Nat))], [(id! "word", .str w)], [(id! "binary", .str b), (id! "words", .strs (some ws)),
        (id! "mnemonic", .str mn), (id! "passphrase", .str pa), (id! "wordlist", .strs wl)]]) (by decide) (fun _ => rfl)
        (fun _ _ => rfl) (fun _ _ => rfl) n hn (fmtBig 2 (some ((0 + j : Nat) : Int)))
      unfold markedPad mark at hp
      mark_run [hp]
      mark_run [Imp.fmtBig_nat, Nat.zero_add]
      obtain ⟨ls, h1⟩ := ih (b ++ padZeros 11 (fmtNat 2 j)) ⟨st.heap, st.hashes, st.rd,
        st.log ++ [asc "NewSeedFromMnemonic 2"] ++ fixedFound j ++
          List.replicate (11 - (fmtNat 2 j).length) (asc "NewSeedFromMnemonic 6"), st.vars⟩
      refine ⟨[asc "NewSeedFromMnemonic 2"] ++ fixedFound j ++
        List.replicate (11 - (fmtNat 2 j).length) (asc "NewSeedFromMnemonic 6") ++ ls, ?_⟩
      · revert h1
        rcases seedBits (wl.getD []) l (b ++ padZeros 11 (fmtNat 2 j)) with b' | e | p
        · rintro ⟨h1, h3⟩
          refine ⟨Eq.trans ?_ (h1.trans ?_), ?_⟩
          · rfl
          · simp only [List.append_assoc]
          · simp only [List.length_append, List.length_cons, List.length_nil, List.length_replicate, Nat.add_mul, fixedFound] at h3 ⊢
            omega
        · rintro ⟨l', h1, h3⟩
          refine ⟨l', h1, ?_⟩
          simp only [List.length_append, List.length_cons, List.length_nil, List.length_replicate, Nat.add_mul, fixedFound] at h3 ⊢
          omega
        · exact id


/-- After the words. -/
theorem seed_tail_cost : roundsCost (fuelBound (marked repaired) 301) 301 mrSeedTail = some 606 := by decide +kernel

/-- The statements of the repaired `NewSeedFromMnemonic` with marks, up to the loop over the words. -/
def mrSeedHead (rest : Stmt) : Stmt :=
  .seq (value_of% mrNewSeed.body.at 0) (.seq (value_of% mrNewSeed.body.at 1) (.seq (value_of% mrNewSeed.body.at 2)
    (.seq (value_of% mrNewSeed.body.at 3) (.seq (value_of% mrNewSeed.body.at 4) rest))))

theorem mrNewSeed_body : mrNewSeed.body = mrSeedHead mrSeedTail := (rfl)

/-- What is logged after some lines. -/
theorem Grows.shift {α : Type} {st st' : State} {j k : Nat} {o : Out α} (h : Grows st' j o) (hl : st'.log.length + j ≤ st.log.length + k) :
    Grows st k o := by
  cases o with
  | ok _ _ => exact Nat.le_trans h hl
  | panic _ _ => exact Nat.le_trans h hl
  | stuck => trivial

/-- What a call logs at the end, it logs in the body. -/
theorem finish_cost (f : Func) (c : Ctl) : AtMost (some 0) (f.finish c) := by
  unfold Func.finish
  cases c with
  | ret vs => exact known_silent _
  | next env => exact .ite (.pure _ _) (.stuck _)
  | brk env => exact .stuck _

/-- The lines of a call of the repaired `NewSeedFromMnemonic`, on every path. -/
theorem fixed_seed_lines (mn pa : GoString) (wl : Option (List GoString)) (st : State) :
    Grows st ((splitSpace mn).length * ((wl.getD []).length + 13) + 608)
      (runFunc H E (marked repaired) 302 0 (id! "NewSeedFromMnemonic") [.str mn, .str pa, .strs wl] st) := by
  rw [runFunc_succ H E find_mrNewSeed _ rfl, mrNewSeed_body]
  obtain ⟨ls, hw⟩ := fixed_mark_words H E 300 301 (by omega) mn pa wl (splitSpace mn) (splitSpace mn) 0 []
    ⟨st.heap, st.hashes, st.rd, st.log ++ [asc "NewSeedFromMnemonic"], st.vars⟩
  have ht := exec_rounds (H := H) (E := E) (fuelBound_sound H E (marked repaired) 301) 301 mrSeedTail
  rw [seed_tail_cost] at ht
  generalize mrSeedTail = rest at ht ⊢
  unfold mrWordBody seedEnv at hw
  unfold mrSeedHead
  have hfin : mrNewSeed.results = value_of% mrNewSeed.results := rfl
  by_cases hl : ((wl.getD []).length : Int) = 2048
  case neg =>
    generalize (splitSpace mn).length * ((wl.getD []).length + 13) = k at hw ⊢
    mark_run [hl, hfin]
    seed_leaf
  generalize (splitSpace mn).length * ((wl.getD []).length + 13) = k at hw ⊢
  rcases hb : seedBits (wl.getD []) (splitSpace mn) [] with bin | e | p
  case panic => exact (seedBits_no_panic hb).elim
  case err =>
    rw [hb] at hw
    obtain ⟨l, h1, h2⟩ := hw
    simp only [List.length_append, List.length_cons, List.length_nil] at h2
    mark_run [hl, exec_range, h1, hfin]
    seed_leaf
  rw [hb] at hw
  obtain ⟨h1, h2⟩ := hw
  mark_run [hl, exec_range, h1]
  refine Grows.shift (((ht _).then fun c => finish_cost mrNewSeed c) _ rfl _) ?_
  simp only [List.length_append, List.length_cons, List.length_nil]
  omega

end

section
variable {H : Hashes} {E : EcdsaM} {V : Ecdsa} (hE : Pkg E) (hV : E.Refines V) (hC : EcdsaContract V) {nets : List Network} {st : State}
  {ps qs : List Ptr} (hr : FixedRun H E nets st ps qs)
include hE hV hC hr

/-- C138: a call of the repaired text passes no more blocks than the table says, however it ends. -/
theorem C138_work (r : Request) (ht : Typed st ps qs r) (o : Out (List Value))
    (h : FixedMarked H E r st o) : (endLog o).length ≤ fixedWork st r := by
  have hs := hr.sound hE hV hC
  have hlog : st.log.length = 0 := by rw [hs.log]; rfl
  have h1 := C138_straight
  have h2 := C138_loops
  simp only [List.map_cons, List.map_nil, List.cons.injEq, and_true] at h1 h2
  obtain ⟨b1, b2, b3, b4, b5, b6⟩ := h1
  obtain ⟨c1, c2, c3, c4, c5⟩ := h2
  suffices hw : (endLog o).length ≤ st.log.length + fixedWork st r by omega
  have fuel : ∀ {n b : Nat}, runFunc H E repaired n r.recv r.name r.args st ≠ .stuck → fuelBound (marked repaired) (n + 1) r.name = some b →
      (endLog o).length ≤ st.log.length + b := by
    intro n b hn hb
    have := C138_fuel H E (marked repaired) (n + 1) r.recv r.name b r.args st hb
    rwa [FixedMarked.run h hn] at this
  cases r with
  | checkWIF wif => exact C123_static H E _ 4 _ _ _ _ st o b1 h
  | privateFromWIF wif network => exact C123_static H E _ 4 _ _ _ _ st o b2 h
  | privateFromHex hexa network => exact C123_static H E _ 4 _ _ _ _ st o b3 h
  | publicFromHex hexa network => exact C123_static H E _ 4 _ _ _ _ st o b4 h
  | getPublicKey p => exact C123_static H E _ 4 _ _ _ _ st o b5 h
  | addPublicKeys p1 p2 c => exact C123_static H E _ 4 _ _ _ _ st o b6 h
  | addPrivateKeys p q =>
    refine fuel (n := 67) ?_ c1
    obtain ⟨nw1, net1, t1, w1, pre1, y1, d1, k1, n1, s1⟩ := hs.privs p ht.1
    obtain ⟨nw2, net2, t2, w2, pre2, y2, d2, k2, n2, s2⟩ := hs.privs q ht.2
    obtain ⟨o1, a1, v1, -, -, rfl⟩ := k1.object
    obtain ⟨o2, a2, v2, -, -, rfl⟩ := k2.object
    intro hz
    by_cases hne : net1 = net2
    · subst hne
      rcases fixed_AddPrivateKeys H E 0 p q o1 o2 _ _ net1 st a1 a2 n1 n2 v1 v2 hs.order with ⟨-, _, _, -, -, g⟩ | ⟨e, -, g⟩
      · obtain ⟨st', a, ob, g, -⟩ := g
        cases hz.symm.trans g
      · obtain ⟨st', g, -⟩ := g
        cases hz.symm.trans g
    · obtain ⟨g, -⟩ := fixed_other_network H E 66 p q o1 o2 st a1 a2 (by
        rw [show (o1.Network.bind fun a => st.heap.nets[a]?) = some net1 from n1,
          show (o2.Network.bind fun a => st.heap.nets[a]?) = some net2 from n2]
        exact fun e => hne (Option.some.inj e))
      cases hz.symm.trans g
  | multiplyPrivateKeys p q =>
    refine fuel (n := 67) ?_ c2
    obtain ⟨nw1, net1, t1, w1, pre1, y1, d1, k1, n1, s1⟩ := hs.privs p ht.1
    obtain ⟨nw2, net2, t2, w2, pre2, y2, d2, k2, n2, s2⟩ := hs.privs q ht.2
    obtain ⟨o1, a1, v1, -, -, rfl⟩ := k1.object
    obtain ⟨o2, a2, v2, -, -, rfl⟩ := k2.object
    intro hz
    by_cases hne : net1 = net2
    · subst hne
      rcases fixed_MultiplyPrivateKeys H E 0 p q o1 o2 _ _ net1 st a1 a2 n1 n2 v1 v2 hs.order with ⟨-, _, _, -, -, g⟩ | ⟨e, -, g⟩
      · obtain ⟨st', a, ob, g, -⟩ := g
        cases hz.symm.trans g
      · obtain ⟨st', g, -⟩ := g
        cases hz.symm.trans g
    · obtain ⟨-, g⟩ := fixed_other_network H E 66 p q o1 o2 st a1 a2 (by
        rw [show (o1.Network.bind fun a => st.heap.nets[a]?) = some net1 from n1,
          show (o2.Network.bind fun a => st.heap.nets[a]?) = some net2 from n2]
        exact fun e => hne (Option.some.inj e))
      cases hz.symm.trans g
  | format q c =>
    refine fuel (n := 66) ?_ c3
    intro hz
    have g := run_Format_in H (E := E) repaired_bigIntToHex repaired_Format 0 q c st
    obtain ⟨x, e, hn⟩ := formatM_shape q c st.heap
    rw [e] at g
    rcases x with a | e' | p
    · cases hz.symm.trans g
    · exact hn e' rfl
    · cases hz.symm.trans g
  | address q c =>
    refine fuel (n := 67) ?_ c4
    intro hz
    obtain ⟨hs', g⟩ := run_Address_in H (E := E) repaired_bigIntToHex repaired_Format repaired_Address 0 q c st
    rcases hg : addressM H q c st.heap with ⟨a | e' | p, h'⟩ <;> rw [hg] at g <;> cases hz.symm.trans g
  | newMnemonic words wl =>
    refine fuel (n := 301) ?_ c5
    intro hz
    rcases fixed_NewMnemonic H E 300 le_rfl words wl st with ⟨c, -, -, -, -, -, ws, st', -, -, g⟩ | ⟨e, -, g⟩
    · cases hz.symm.trans g
    · obtain ⟨st', g, -⟩ := g
      cases hz.symm.trans g
  | generatePrivateKey network =>
    have key : runFunc H E repaired (st.rd.length + 68) 0 (id! "GeneratePrivateKey") [.net network] st ≠ .stuck := by
      intro hz
      rcases ht with rfl | ⟨net, hn⟩
      · cases hz.symm.trans (fixed_GeneratePrivateKey_none H E (st.rd.length + 67) none MainNetwork st (.inl rfl))
      by_cases hp : ∃ pre, Spells net.PrivKeyPrefix pre
      · obtain ⟨pre, hp⟩ := hp
        rcases fixed_GeneratePrivateKey H E network net pre hp (st.rd.length + 1) st (Nat.lt_succ_self _) hn hs.order with
          ⟨_, _, -, st', a, ob, g, -⟩ | ⟨-, st', g, -⟩
        · cases hz.symm.trans g
        · cases hz.symm.trans g
      · cases hz.symm.trans (fixed_GeneratePrivateKey_none H E (st.rd.length + 67) network net st (.inr ⟨hn, hp⟩))
    have hg := (generateBound_sound H E (st.rd.length + 69) 0 (id! "GeneratePrivateKey") [.net network] (attempts (st.rd.length + 69))
      (if_pos rfl) st).endLog
    have hrun : runFunc H E (marked repaired) (st.rd.length + 69) 0 (id! "GeneratePrivateKey") [.net network] st = o :=
      FixedMarked.run h key
    rw [hrun] at hg
    have ha := attempts_eq (st.rd.length + 69)
    have hb : (st.rd.length + 69) * (st.rd.length + 69) + 23 * (st.rd.length + 69) = (st.rd.length + 69) * (st.rd.length + 92) := by ring
    rw [hb] at ha
    show _ ≤ _ + (st.rd.length + 69) * (st.rd.length + 92) / 2
    omega
  | newSeedFromMnemonic mn pa wl =>
    have hn : runFunc H E repaired 301 0 (id! "NewSeedFromMnemonic") [.str mn, .str pa, .strs wl] st ≠ .stuck := by
      intro hz
      rcases fixed_NewSeedFromMnemonic H E mn pa wl 300 le_rfl st with ⟨-, -, st', -, g⟩ | ⟨e, -, g⟩
      · cases hz.symm.trans g
      · obtain ⟨st', g, -⟩ := g
        cases hz.symm.trans g
    have hrun : runFunc H E (marked repaired) 302 0 (id! "NewSeedFromMnemonic") [.str mn, .str pa, .strs wl] st = o :=
      FixedMarked.run (r := .newSeedFromMnemonic mn pa wl) h hn
    rw [← hrun]
    exact (fixed_seed_lines H E mn pa wl st).endLog

end

/-- C138, cases: the blocks that calls of the repaired text pass, and the bounds. -/
example : ([([], .checkWIF (asc "0")), ([], .privateFromHex (asc "zz") (some 0)), ([], .addPrivateKeys (some 0) (some 1)),
    (Samples.refusedDraw, .generatePrivateKey (some 0)), ([], .format (some 0) true),
    (List.replicate 16 0, .newMnemonic 12 (some EnglishWordlist)),
    ([], .newSeedFromMnemonic (phraseText abandonAbout) [] (some EnglishWordlist)),
    ([], .newSeedFromMnemonic (asc "b a") [] Samples.eightWords)].map fun (c : Reader × Request) =>
    ((endLog (runFunc realHashes Samples.pkg (marked repaired) 400 c.2.recv c.2.name c.2.args (Samples.stocked c.1))).length,
      fixedWork (Samples.stocked c.1) c.2)) = [(2, 4), (2, 5), (3, 76), (73, 10519), (5, 137), (175, 1210), (193, 25340), (2, 650)] := by decide +kernel

/-- C138, a case with keys: two keys added, and a key asked for without a network. -/
example (rd : Reader) : ∃ st a b, FixedRun realHashes Samples.pkg [] st [some a, some b] [] ∧
    (∀ o, FixedMarked realHashes Samples.pkg (.addPrivateKeys (some a) (some b)) st o → (endLog o).length ≤ 76) ∧
    ∀ o, FixedMarked realHashes Samples.pkg (.generatePrivateKey none) st o → (endLog o).length ≤ (st.rd.length + 69) * (st.rd.length + 92) / 2 := by
  obtain ⟨st, a, b, h, -⟩ := fixed_case rd
  exact ⟨st, a, b, h,
    C138_work refPkg.1 refPkg.2.1 refPkg.2.2 h (.addPrivateKeys (some a) (some b)) ⟨by simp, by simp⟩,
    C138_work refPkg.1 refPkg.2.1 refPkg.2.2 h (.generatePrivateKey none) (.inl rfl)⟩

end Btc
