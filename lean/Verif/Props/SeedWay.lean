import Verif.Props.Append
import Verif.Props.Paths
import Verif.Props.PhraseWay

/-!
# C119: the lines that `NewSeedFromMnemonic` logs

The blocks that a call of `NewSeedFromMnemonic` passes tell where in the list each word was found, so they give the phrase
away.
-/

namespace Btc

open Mem Source Spec

section
variable (H : Hashes) (E : EcdsaM)

@[go_exec] theorem label_NewSeedFromMnemonic : utf8 [78, 101, 119, 83, 101, 101, 100, 70, 114, 111, 109, 77, 110, 101, 109, 111, 110, 105, 99] =
    asc "NewSeedFromMnemonic" := by decide +kernel
@[go_exec] theorem label_NewSeedFromMnemonic_1 : utf8 [78, 101, 119, 83, 101, 101, 100, 70, 114, 111, 109, 77, 110, 101, 109, 111, 110, 105, 99, 32, 49] =
    asc "NewSeedFromMnemonic 1" := by decide +kernel
@[go_exec] theorem label_NewSeedFromMnemonic_2 : utf8 [78, 101, 119, 83, 101, 101, 100, 70, 114, 111, 109, 77, 110, 101, 109, 111, 110, 105, 99, 32, 50] =
    asc "NewSeedFromMnemonic 2" := by decide +kernel
@[go_exec] theorem label_NewSeedFromMnemonic_3 : utf8 [78, 101, 119, 83, 101, 101, 100, 70, 114, 111, 109, 77, 110, 101, 109, 111, 110, 105, 99, 32, 51] =
    asc "NewSeedFromMnemonic 3" := by decide +kernel
@[go_exec] theorem label_NewSeedFromMnemonic_4 : utf8 [78, 101, 119, 83, 101, 101, 100, 70, 114, 111, 109, 77, 110, 101, 109, 111, 110, 105, 99, 32, 52] =
    asc "NewSeedFromMnemonic 4" := by decide +kernel
@[go_exec] theorem label_NewSeedFromMnemonic_5 : utf8 [78, 101, 119, 83, 101, 101, 100, 70, 114, 111, 109, 77, 110, 101, 109, 111, 110, 105, 99, 32, 53] =
    asc "NewSeedFromMnemonic 5" := by decide +kernel
@[go_exec] theorem label_NewSeedFromMnemonic_6 : utf8 [78, 101, 119, 83, 101, 101, 100, 70, 114, 111, 109, 77, 110, 101, 109, 111, 110, 105, 99, 32, 54] =
    asc "NewSeedFromMnemonic 6" := by decide +kernel
@[go_exec] theorem label_NewSeedFromMnemonic_7 : utf8 [78, 101, 119, 83, 101, 101, 100, 70, 114, 111, 109, 77, 110, 101, 109, 111, 110, 105, 99, 32, 55] =
    asc "NewSeedFromMnemonic 7" := by decide +kernel
@[go_exec] theorem label_NewSeedFromMnemonic_8 : utf8 [78, 101, 119, 83, 101, 101, 100, 70, 114, 111, 109, 77, 110, 101, 109, 111, 110, 105, 99, 32, 56] =
    asc "NewSeedFromMnemonic 8" := by decide +kernel
@[go_exec] theorem label_NewSeedFromMnemonic_9 : utf8 [78, 101, 119, 83, 101, 101, 100, 70, 114, 111, 109, 77, 110, 101, 109, 111, 110, 105, 99, 32, 57] =
    asc "NewSeedFromMnemonic 9" := by decide +kernel
@[go_exec] theorem label_NewSeedFromMnemonic_10 : utf8 [78, 101, 119, 83, 101, 101, 100, 70, 114, 111, 109, 77, 110, 101, 109, 111, 110, 105, 99, 32, 49, 48] =
    asc "NewSeedFromMnemonic 10" := by decide +kernel

/-- `NewSeedFromMnemonic` with marks. -/
def mNewSeed : Func := value_of% markedFunc fNewSeedFromMnemonic

theorem find_mNewSeed : findFunc 0 (id! "NewSeedFromMnemonic") (marked program) = some mNewSeed := by decide +kernel

/-- mnemonic.go:18-36 with marks, the body of the loop over the words. -/
def mWordBody : Stmt := value_of% (mNewSeed.body.at 3).body

/-- mnemonic.go:20-25 with marks, the body of the loop over the word list. -/
def mLookupBody : Stmt := value_of% (mWordBody.inside.at 2).body

/-- mnemonic.go:39-48 with marks, the body of the loop over the nibbles. -/
def mNibbleBody : Stmt := value_of% (mNewSeed.body.at 5).body

/-- mnemonic.go:41-43 with marks, the loop that collects four characters. -/
def mCollectLoop : Stmt := value_of% mNibbleBody.inside.at 2

/-- The lines of the search for a word: the word at `i` is found. -/
def foundLines (i : Nat) : List GoString :=
  List.replicate (i + 1) (asc "NewSeedFromMnemonic 2") ++ [asc "NewSeedFromMnemonic 3"]

theorem mark_lookup (c n : Nat) (w : GoString) (wl : Option (List GoString)) (env : Env)
    (hw : Env.get (id! "word") env = some (.str w)) (hl : Env.get (id! "wordlist") env = some (.strs wl)) :
    ∀ (l pre : List GoString) (st : State), wl.getD [] = pre ++ l →
    ranging (exec ⟨H, E, runFunc H E (marked program) (c + 1)⟩ n mLookupBody) (id! "i") (id! "_") ([(id! "index", .int (-1))] :: env) pre.length l st =
      .ok (.next ([(id! "index", .int (lookupInt pre.length l w))] :: env)) { st with log := st.log ++
        (match lookupWord l w with
        | some j => foundLines j
        | none => List.replicate l.length (asc "NewSeedFromMnemonic 2")) }
  | [], pre, st, h => by
    unfold ranging lookupInt lookupWord
    mark_run
    simp
  | x :: l, pre, st, h => by
    have ih := fun st => mark_lookup c n w wl env hw hl l (pre ++ [x]) st (by simp [h])
    have hi : index (wl.getD []) (pre.length : Int) = .ok x := by
      rw [h, Imp.index_lt (by simp)]; simp
    unfold ranging
    unfold mLookupBody at ih ⊢
    mark_run [hw, hl, hi]
    by_cases hx : w = x
    · mark_run [hx, hw]
      simp [lookupInt, lookupWord, foundLines]
    · mark_run [hx]
      rw [List.length_append, List.length_singleton] at ih
      rw [ih]
      unfold lookupInt
      rw [lookupWord, if_neg hx]
      cases lookupWord l w with
      | none => simp [List.replicate_succ]
      | some j => simp [Nat.add_assoc, Nat.add_comm 1 j, foundLines, List.replicate_succ]

/-- The lines for the words at the positions `js`. -/
def wordsLines : List Nat → List GoString
  | [] => []
  | j :: js => asc "NewSeedFromMnemonic 1" :: foundLines j ++
      List.replicate (11 - (fmtNat 2 j).length) (asc "NewSeedFromMnemonic 5") ++ wordsLines js

/-- How the loop over the words ends; at most `k` lines are logged. -/
def markedWords (env : GoString → Env) (st : State) (l : Log) (k : Nat) : Res GoString → Out Ctl → Prop
  | .ok b, o => o = .ok (.next (env b)) { st with log := st.log ++ l } ∧ l.length ≤ k
  | .err e, o => ∃ l, o = .ok (.ret [.nil, .err (some e)]) { st with log := l } ∧ l.length ≤ st.log.length + k
  | .panic p, o => ∃ l, o = .panic p { st with log := l }

theorem lookupWord_lt {l : List GoString} {w : GoString} : ∀ {j : Nat}, lookupWord l w = some j → j < l.length := by
  induction l with
  | nil => intro j h; cases h
  | cons x l ih =>
    intro j h
    rw [lookupWord] at h
    split at h
    · injection h with h
      rw [List.length_cons]
      omega
    · cases hl : lookupWord l w with
      | none => rw [hl] at h; cases h
      | some i =>
        rw [hl, Option.map_some] at h
        injection h with h
        have := ih hl
        rw [List.length_cons]
        omega

theorem mark_words (c n : Nat) (hn : 11 < n) (mn pa : GoString) (wl : Option (List GoString)) (ws : List GoString) :
    ∀ (l : List GoString) (i : Nat) (b : GoString) (st : State), ∃ ls,
    markedWords (seedEnv mn pa wl ws) st ls (l.length * ((wl.getD []).length + 13)) (seedBits (wl.getD []) l b)
      (ranging (exec ⟨H, E, runFunc H E (marked program) (c + 1)⟩ n mWordBody) (id! "_") (id! "word") (seedEnv mn pa wl ws b) i l st) ∧
    ∀ js, l.map (lookupWord (wl.getD [])) = js.map some → ls = wordsLines js
  | [], i, b, st => by
    unfold ranging seedBits markedWords
    mark_run
    refine ⟨[], by simp, fun js h => ?_⟩
    cases js with
    | nil => rfl
    | cons => cases h
  | w :: l, i, b, st => by
    have ih := fun b st => mark_words c n hn mn pa wl ws l (i + 1) b st
    have hlk := mark_lookup H E c n w wl ([(id! "word", .str w)] :: seedEnv mn pa wl ws b) rfl rfl (wl.getD []) []
      { st with log := st.log ++ [asc "NewSeedFromMnemonic 1"] } rfl
    rw [List.length_nil] at hlk
    unfold mLookupBody at hlk
    unfold ranging seedBits
    unfold mWordBody at ih ⊢
    mark_run [exec_range]
    unfold seedEnv at hlk ih ⊢
    mark_run [hlk]
    unfold lookupInt
    cases hw : lookupWord (wl.getD []) w with
    | none =>
      mark_run [markedWords]
      refine ⟨[], ⟨_, rfl, ?_⟩, fun js h => ?_⟩
      · simp only [List.length_append, List.length_cons, List.length_nil, List.length_replicate, Nat.add_mul]
        omega
      cases js with
      | nil => cases h
      | cons j js => simp [hw] at h
    | some j =>
      have hj : ¬ ((0 + j : Nat) : Int) < 0 := by omega
      have hlt := lookupWord_lt hw
      mark_run [hj]
      have hp := exec_markedPad H E (c := c) [78, 101, 119, 83, 101, 101, 100, 70, 114, 111, 109, 77, 110, 101, 109, 111, 110, 105, 99, 32, 53]
        (x := id! "indexBinary") (k := .num 11) (len := 11) (fun t => [[(id! "indexBinary", .str t),
        (id! "index", .int (0 + j : Nat))], [(id! "word", .str w)], [(id! "binary", .str b), (id! "words", .strs (some ws)),
        (id! "mnemonic", .str mn), (id! "passphrase", .str pa), (id! "wordlist", .strs wl)]]) (by decide) (fun _ => rfl)
        (fun _ _ => rfl) (fun _ _ => rfl) n hn (fmtBig 2 (some ((0 + j : Nat) : Int)))
      unfold markedPad mark at hp
      mark_run [hp]
      mark_run [Imp.fmtBig_nat, Nat.zero_add]
      obtain ⟨ls, h1, h2⟩ := ih (b ++ padZeros 11 (fmtNat 2 j)) ⟨st.heap, st.hashes, st.rd,
        st.log ++ [asc "NewSeedFromMnemonic 1"] ++ foundLines j ++
          List.replicate (11 - (fmtNat 2 j).length) (asc "NewSeedFromMnemonic 5"), st.vars⟩
      refine ⟨[asc "NewSeedFromMnemonic 1"] ++ foundLines j ++
        List.replicate (11 - (fmtNat 2 j).length) (asc "NewSeedFromMnemonic 5") ++ ls, ?_, fun js h => ?_⟩
      · revert h1
        rcases seedBits (wl.getD []) l (b ++ padZeros 11 (fmtNat 2 j)) with b' | e | p
        · rintro ⟨h1, h3⟩
          refine ⟨Eq.trans ?_ (h1.trans ?_), ?_⟩
          · rfl
          · simp only [List.append_assoc]
          · simp only [List.length_append, List.length_cons, List.length_nil, List.length_replicate, Nat.add_mul, foundLines] at h3 ⊢
            omega
        · rintro ⟨l', h1, h3⟩
          refine ⟨l', h1, ?_⟩
          simp only [List.length_append, List.length_cons, List.length_nil, List.length_replicate, Nat.add_mul, foundLines] at h3 ⊢
          omega
        · exact id
      · cases js with
        | nil => cases h
        | cons k js =>
          simp only [List.map_cons, List.cons.injEq, hw, Option.some.injEq] at h
          obtain ⟨rfl, h⟩ := h
          rw [h2 js h]
          simp [wordsLines]

/-- `x` first logs `l` and then does something that only adds lines. -/
def Begins {α : Type} (l : GoString) (x : M α) (st : State) : Prop :=
  ∃ y, Framed y ∧ x st = y { st with log := st.log ++ [l] }

theorem Begins.bind {α β : Type} {l : GoString} {x : M α} {st : State} (h : Begins l x st) {f : α → M β} (hf : ∀ a, Framed (f a)) :
    Begins l (x >>= f) st := by
  obtain ⟨y, hy, e⟩ := h
  refine ⟨y >>= f, hy.bind hf, ?_⟩
  show (x st).andThen f = (y _).andThen f
  rw [e]

theorem Begins.after {α β : Type} {l : GoString} {x : M α} {st : State} {a : α} (h : x st = .ok a st) {f : α → M β}
    (hf : Begins l (f a) st) : Begins l (x >>= f) st := by
  obtain ⟨y, hy, e⟩ := hf
  refine ⟨y, hy, ?_⟩
  show (x st).andThen f = _
  rw [h]
  exact e

theorem Begins.of_eq {α : Type} {l : GoString} {x y : M α} {st : State} (h : Begins l y st) (e : x st = y st) : Begins l x st := by
  obtain ⟨z, hz, e'⟩ := h
  exact ⟨z, hz, e.trans e'⟩

/-- Specification: the lines logged at the end. -/
def endLog {α : Type} : Out α → Log
  | .ok _ st => st.log
  | .panic _ st => st.log
  | .stuck => []

theorem Begins.log {α : Type} {l : GoString} {x : M α} {st : State} (h : Begins l x st) (hx : x st ≠ .stuck) :
    ∃ t, endLog (x st) = st.log ++ l :: t := by
  obtain ⟨y, hy, e⟩ := h
  obtain ⟨d, h1, -⟩ := hy.append { st with log := st.log ++ [l] }
  rw [← e] at h1
  refine ⟨d, ?_⟩
  rw [h1]
  cases hs : x st with
  | stuck => exact absurd hs hx
  | _ => simp [endLog, setLog]

/-- mnemonic.go:38-73 with marks. -/
def mSeedRest : Stmt := value_of% mNewSeed.body.after 4

/-- mnemonic.go:39-48 with marks, the loop over the nibbles. -/
def mNibbleLoop : Stmt := value_of% mNewSeed.body.at 5

/-- mnemonic.go:50-73 with marks. -/
def mSeedLast : Stmt := value_of% mNewSeed.body.after 6

theorem mNewSeed_body : mNewSeed.body = .seq (value_of% mNewSeed.body.at 0) (.seq (value_of% mNewSeed.body.at 1)
    (.seq (value_of% mNewSeed.body.at 2) (.seq (value_of% mNewSeed.body.at 3) mSeedRest))) := (rfl)

theorem mSeedRest_eq : mSeedRest = .seq (value_of% mNewSeed.body.at 4) (.seq mNibbleLoop mSeedLast) := (rfl)

/-- The variables of `NewSeedFromMnemonic` before the loop over the nibbles. -/
def hashTop (mnemonic pass : GoString) (wl : Option (List GoString)) (words : List GoString) (binary : GoString) : Env :=
  [[(id! "hash", .str []), (id! "binary", .str binary), (id! "words", .strs (some words)),
    (id! "mnemonic", .str mnemonic), (id! "passphrase", .str pass), (id! "wordlist", .strs wl)]]

theorem mark_nibbles (c n : Nat) (mn pa : GoString) (wl : Option (List GoString)) (ws : List GoString) (bin : GoString)
    (hb : bin ≠ []) (st : State) : Begins (asc "NewSeedFromMnemonic 6")
      (exec ⟨H, E, runFunc H E (marked program) (c + 1)⟩ (n + 1) mSeedRest (seedEnv mn pa wl ws bin)) st := by
  have hf := runFunc_framed H E (marked program) (c + 1)
  have hi : (0 : Int) < bin.length := by
    have := List.length_pos_of_ne_nil hb
    omega
  rw [mSeedRest_eq]
  refine Begins.after (a := Ctl.next (hashTop mn pa wl ws bin)) rfl (Begins.bind ?_ fun _ => follow_framed fun env => exec_framed hf _ _ _)
  refine Begins.after (a := Ctl.next (hashEnv mn pa wl ws bin 0 [])) rfl (Begins.bind ?_ fun _ => .pure _)
  refine Begins.after (a := [.bool true]) ?_ (Begins.bind (Begins.bind (Begins.bind ?_ fun _ => follow_framed fun env => exec_framed hf _ _ _)
    fun _ => .pure _) fun _ => again_framed fun env => (exec_framed hf _ _ _).bind fun _ => follow_framed fun env =>
      rounds_framed (eval_framed hf _) (exec_framed hf _ _) (exec_framed hf _ _) n env)
  · unfold hashEnv
    go_run [hi]
  · exact ⟨pure (Ctl.next _), .pure _, rfl⟩

theorem seedBits_found {wl : List GoString} : ∀ {ws : List GoString} {js : List Nat} (b : GoString),
    ws.map (lookupWord wl) = js.map some → ∃ b', seedBits wl ws b = .ok b' ∧ b.length + ws.length ≤ b'.length
  | [], _, b, _ => ⟨b, rfl, by simp⟩
  | w :: ws, [], b, h => by cases h
  | w :: ws, j :: js, b, h => by
    simp only [List.map_cons, List.cons.injEq] at h
    obtain ⟨b', h1, h2⟩ := seedBits_found (b ++ padZeros 11 (fmtNat 2 j)) h.2
    refine ⟨b', by rw [seedBits, h.1]; exact h1, ?_⟩
    have : 11 ≤ (padZeros 11 (fmtNat 2 j)).length := by
      simp only [padZeros, List.length_append, List.length_replicate]
      omega
    simp only [List.length_append, List.length_cons] at h2 ⊢
    omega

theorem mark_NewSeed (c : Nat) (mn pa : GoString) (wl : Option (List GoString)) (st : State) (js : List Nat)
    (hj : (splitSpace mn).map (lookupWord (wl.getD [])) = js.map some)
    (ho : runFunc H E (marked program) (c + 12 + 1) 0 (id! "NewSeedFromMnemonic") [.str mn, .str pa, .strs wl] st ≠ .stuck) :
    ∃ t, endLog (runFunc H E (marked program) (c + 12 + 1) 0 (id! "NewSeedFromMnemonic") [.str mn, .str pa, .strs wl] st) =
      st.log ++ asc "NewSeedFromMnemonic" :: wordsLines js ++ asc "NewSeedFromMnemonic 6" :: t := by
  obtain ⟨bin, hb, hl⟩ := seedBits_found [] hj
  have hbin : bin ≠ [] := by
    rintro rfl
    have := List.length_pos_of_ne_nil (splitSpace_ne_nil mn)
    simp only [List.length_nil] at hl
    omega
  obtain ⟨ls, hw, hls⟩ := mark_words H E (c + 11) (c + 12) (by omega) mn pa wl (splitSpace mn) (splitSpace mn) 0 []
    ⟨st.heap, st.hashes, st.rd, st.log ++ [asc "NewSeedFromMnemonic"], st.vars⟩
  rw [hls js hj, hb] at hw
  unfold markedWords mWordBody at hw
  replace hw := hw.1
  have hr := (mark_nibbles H E (c + 11) (c + 11) mn pa wl (splitSpace mn) bin hbin
    ⟨st.heap, st.hashes, st.rd, st.log ++ [asc "NewSeedFromMnemonic"] ++ wordsLines js, st.vars⟩).bind (f := mNewSeed.finish) fun r => by
      unfold Func.finish
      cases r with
      | ret vs => exact known_framed _
      | next env => exact .ite (.pure _) .stuck
      | brk env => exact .stuck
  have e : runFunc H E (marked program) (c + 12 + 1) 0 (id! "NewSeedFromMnemonic") [.str mn, .str pa, .strs wl] st =
      (exec ⟨H, E, runFunc H E (marked program) (c + 11 + 1)⟩ (c + 11 + 1) mSeedRest (seedEnv mn pa wl (splitSpace mn) bin) >>=
        mNewSeed.finish) ⟨st.heap, st.hashes, st.rd, st.log ++ [asc "NewSeedFromMnemonic"] ++ wordsLines js, st.vars⟩ := by
    rw [runFunc_succ H E find_mNewSeed _ rfl, mNewSeed_body]
    unfold seedEnv at hw ⊢
    mark_run [exec_range, hw]
  rw [e] at ho ⊢
  obtain ⟨t, ht⟩ := hr.log ho
  exact ⟨t, by rw [ht]; simp⟩

theorem replicate_cons_inj {α : Type} {b c : α} (h : b ≠ c) : ∀ {m m' : Nat} {x y : List α},
    List.replicate m b ++ c :: x = List.replicate m' b ++ c :: y → m = m' ∧ x = y
  | 0, 0, x, y, e => ⟨rfl, by simpa using e⟩
  | 0, m' + 1, x, y, e => by
    rw [List.replicate_succ] at e
    injection e with e1 _
    exact absurd e1.symm h
  | m + 1, 0, x, y, e => by
    rw [List.replicate_succ] at e
    injection e with e1 _
    exact absurd e1 h
  | m + 1, m' + 1, x, y, e => by
    rw [List.replicate_succ, List.replicate_succ] at e
    injection e with _ e2
    obtain ⟨h1, h2⟩ := replicate_cons_inj h e2
    exact ⟨by rw [h1], h2⟩

theorem wordsLines_inj : ∀ {js js' : List Nat} {t t' : List GoString},
    wordsLines js ++ asc "NewSeedFromMnemonic 6" :: t = wordsLines js' ++ asc "NewSeedFromMnemonic 6" :: t' → js = js'
  | [], [], _, _, _ => rfl
  | [], j' :: js', t, t', e => by
    injection e with e1 _
    exact absurd e1 (by decide +kernel)
  | j :: js, [], t, t', e => by
    injection e with e1 _
    exact absurd e1 (by decide +kernel)
  | j :: js, j' :: js', t, t', e => by
    simp only [wordsLines, foundLines, List.append_assoc, List.cons_append, List.nil_append, List.cons.injEq, true_and] at e
    obtain ⟨h1, h2⟩ := replicate_cons_inj (by decide +kernel) e
    obtain rfl : j = j' := by omega
    rw [wordsLines_inj (List.append_cancel_left h2)]

theorem wordsLines_marks : ∀ (js : List Nat), ∀ l ∈ wordsLines js, l ∈ marks
  | [], l, h => by cases h
  | j :: js, l, h => by
    simp only [wordsLines, foundLines, List.append_assoc, List.cons_append, List.nil_append, List.mem_cons, List.mem_append,
      List.mem_replicate] at h
    rcases h with rfl | ⟨-, rfl⟩ | rfl | ⟨-, rfl⟩ | h
    · decide +kernel
    · decide +kernel
    · decide +kernel
    · decide +kernel
    · exact wordsLines_marks js l h

theorem way_seed (l : Log) (js : List Nat) (t : List GoString) :
    way (l ++ asc "NewSeedFromMnemonic" :: wordsLines js ++ asc "NewSeedFromMnemonic 6" :: t) =
      way l ++ asc "NewSeedFromMnemonic" :: (wordsLines js ++ asc "NewSeedFromMnemonic 6" :: way t) := by
  have h1 : decide (asc "NewSeedFromMnemonic" ∈ marks) = true := by decide +kernel
  have h2 : decide (asc "NewSeedFromMnemonic 6" ∈ marks) = true := by decide +kernel
  have h3 : (wordsLines js).filter (fun s => decide (s ∈ marks)) = wordsLines js :=
    List.filter_eq_self.2 fun l hl => decide_eq_true (wordsLines_marks js l hl)
  simp only [way, List.filter_append, List.filter_cons, h1, h2, h3, if_true, List.append_assoc, List.cons_append]

/-- C119: the way of a call of `NewSeedFromMnemonic` gives the phrase away: calls with phrases of words of the list that take
the same way, however they end, are calls with the same phrase. -/
theorem C119_newSeed_gives_phrase (mn mn' pa pa' : GoString) (wl : Option (List GoString)) (st st' : State) (o o' : Out (List Value))
    (hmn : ∀ w ∈ splitSpace mn, w ∈ wl.getD []) (hmn' : ∀ w ∈ splitSpace mn', w ∈ wl.getD [])
    (h : MarkedEnds H E (.newSeedFromMnemonic mn pa wl) st o) (h' : MarkedEnds H E (.newSeedFromMnemonic mn' pa' wl) st' o')
    (hs : way st.log = way st'.log) (e : way (endLog o) = way (endLog o')) : mn = mn' := by
  obtain ⟨js, hj⟩ := lookup_all hmn
  obtain ⟨js', hj'⟩ := lookup_all hmn'
  obtain ⟨ho, n, hn⟩ := h
  obtain ⟨ho', n', hn'⟩ := h'
  have e1 := hn (n + 12 + 1) (by omega)
  have e2 := hn' (n' + 12 + 1) (by omega)
  obtain ⟨t, ht⟩ := mark_NewSeed H E n mn pa wl st js hj (fun e => ho (e1.symm.trans e))
  obtain ⟨t', ht'⟩ := mark_NewSeed H E n' mn' pa' wl st' js' hj' (fun e => ho' (e2.symm.trans e))
  have e1 : runFunc H E (marked program) (n + 12 + 1) 0 (id! "NewSeedFromMnemonic") [.str mn, .str pa, .strs wl] st = o := e1
  have e2 : runFunc H E (marked program) (n' + 12 + 1) 0 (id! "NewSeedFromMnemonic") [.str mn', .str pa', .strs wl] st' = o' := e2
  rw [e1] at ht
  rw [e2] at ht'
  rw [ht, ht', way_seed, way_seed, hs] at e
  have e := List.append_cancel_left e
  injection e with _ e
  obtain rfl := wordsLines_inj e
  rw [← joinSpace_splitSpace mn, ← joinSpace_splitSpace mn', lookup_all_inj hj hj']

end

/-- C119, a case: the lines of two calls that panic; they differ as the words do. -/
example : (match runFunc realHashes Samples.pkg (marked program) 100 0 (id! "NewSeedFromMnemonic")
      [.str (asc "b a"), .str [], .strs Samples.eightWords] (Samples.stocked []),
    runFunc realHashes Samples.pkg (marked program) 100 0 (id! "NewSeedFromMnemonic")
      [.str (asc "b b"), .str [], .strs Samples.eightWords] (Samples.stocked []) with
    | .panic _ st, .panic _ st' => (st.log.take 29, st'.log.take 30)
    | _, _ => ([], [])) =
      (asc "NewSeedFromMnemonic" :: wordsLines [1, 0] ++ [asc "NewSeedFromMnemonic 6"],
        asc "NewSeedFromMnemonic" :: wordsLines [1, 1] ++ [asc "NewSeedFromMnemonic 6"]) := by decide +kernel

end Btc
