import Verif.Props.RepairSession

/-!
# C131: the two tests of the repository that use random numbers

`TestGeneratePrivateKey` (private_key_test.go:11-40) and `TestNewMnemonic` (mnemonic_test.go:10-23) call the package ten
thousand times. Whether they pass depends on the random bytes. Here it is stated for which random bytes they pass, with the
text of the repository and with the repaired text, for any number of calls. The other tests are run in
`Verif/Props/SourceTests.lean`.
-/

namespace Btc

open Spec Mem Source

set_option linter.constructorNameAsVariable false

namespace Spec

/-- Specification: `n` calls, one after the other. Each returns, and what it returns passes the assertions. -/
inductive Rounds (ends : State → Out (List Value) → Prop) (check : List Value → State → Prop) : Nat → State → State → Prop
  | none (st : State) : Rounds ends check 0 st st
  | more {n : Nat} {st st1 st2 : State} {vs : List Value} : ends st (.ok vs st1) → check vs st1 →
      Rounds ends check n st1 st2 → Rounds ends check (n + 1) st st2

/-- Specification: the assertions on a generated key (private_key_test.go:15-31). Networks are compared by value. -/
def KeyCheck (network : Ptr) (first : UInt8) (vs : List Value) (st : State) : Prop :=
  ∃ p ob v, vs = [.priv p] ∧ loadPriv st.heap p = some ob ∧ loadNet st.heap ob.Network = loadNet st.heap network ∧
    ob.WIF.take 1 = [first] ∧ ob.WIF.length = 51 ∧ ob.Hex.length = 64 ∧ loadInt st.heap ob.Key = some v ∧
    v < Spec.n - 1 ∧ 1 < v

/-- Specification: `TestGeneratePrivateKey` passes, with `n` keys on each network (private_key_test.go:32-39). -/
def KeysPass (ends : Request → State → Out (List Value) → Prop) (n : Nat) (st : State) : Prop :=
  ∃ st1 st2, Rounds (ends (.generatePrivateKey (some 0))) (KeyCheck (some 0) 53) n st st1 ∧
    Rounds (ends (.generatePrivateKey (some 1))) (KeyCheck (some 1) 57) n st1 st2

/-- Specification: the assertions on a phrase (mnemonic_test.go:19-20). `strings.Split` by a space gives one part more than
there are spaces. -/
def PhraseCheck (words : Nat) (vs : List Value) (_ : State) : Prop := ∃ s, vs = [.str s, .err none] ∧ s.count 32 + 1 = words

/-- Specification: `TestNewMnemonic` passes, with `n` phrases of each length (mnemonic_test.go:16-22). -/
def PhrasesPass (ends : Request → State → Out (List Value) → Prop) (n : Nat) : List Nat → State → Prop
  | [], _ => True
  | l :: ls, st => ∃ st1, Rounds (ends (.newMnemonic l (some EnglishWordlist))) (PhraseCheck l) n st st1 ∧ PhrasesPass ends n ls st1

/-- Specification: of the random bytes, taken in blocks of 32, the first whose number is `good` has the number `v`; `rest`
comes after it. -/
inductive First (good : Nat → Prop) : Bytes → Nat → Bytes → Prop
  | here {block rest : Bytes} : block.length = 32 → good (bigEndian block) → First good (block ++ rest) (bigEndian block) rest
  | later {block rd rest : Bytes} {v : Nat} : block.length = 32 → ¬ good (bigEndian block) → First good rd v rest →
      First good (block ++ rd) v rest

/-- Specification: the numbers drawn one after the other are `vs`. -/
def DrawsAll {α : Type} (next : Bytes → α → Bytes → Prop) : List α → Bytes → Bytes → Prop
  | [], rd, rest => rest = rd
  | v :: vs, rd, rest => ∃ mid, next rd v mid ∧ DrawsAll next vs mid rest

/-- Specification: the random bytes begin with `n` blocks for each length of phrase, and each block is `good`. -/
def Supplied (good : Nat → Bytes → Prop) (n : Nat) : List Nat → Bytes → Prop
  | [], _ => True
  | l :: ls, rd => ∃ (blocks : List Bytes) (rest : Bytes), rd = blocks.flatten ++ rest ∧ blocks.length = n ∧
      (∀ b ∈ blocks, b.length = l / 3 * 4 ∧ good l b) ∧ Supplied good n ls rest

/-- Specification: the lengths of phrases that are tested (mnemonic_test.go:12-14). -/
def testedLengths : List Nat := [12, 15, 18, 21, 24]

end Spec

/-! ## Calls one after the other -/

section
variable {α : Type} {ends : State → Out (List Value) → Prop} {check : List Value → State → Prop} {Inv : State → Prop}
  {next : Bytes → α → Bytes → Prop} {fine : α → Prop}

/-- What one call does with the next random number. -/
def OneCall (ends : State → Out (List Value) → Prop) (check : List Value → State → Prop) (Inv : State → Prop)
    (next : Bytes → α → Bytes → Prop) (fine : α → Prop) : Prop :=
  ∀ st, Inv st → ∃ o, ends st o ∧
    ((∃ a vs st', next st.rd a st'.rd ∧ fine a ∧ o = .ok vs st' ∧ Inv st' ∧ check vs st') ∨
      (∀ a rest, next st.rd a rest → ¬ fine a) ∧ ∀ vs st', o = .ok vs st' → ¬ check vs st')

theorem Spec.Rounds.draws (hu : ∀ st o o', ends st o → ends st o' → o = o') (h1 : OneCall ends check Inv next fine) {n : Nat}
    {st st' : State} (h : Rounds ends check n st st') (hi : Inv st) :
    Inv st' ∧ ∃ vs, vs.length = n ∧ DrawsAll next vs st.rd st'.rd ∧ ∀ v ∈ vs, fine v := by
  induction h with
  | none st => exact ⟨hi, [], rfl, rfl, nofun⟩
  | more he hc _ ih =>
    obtain ⟨o, he', ⟨a, vs, st1, h2, h3, rfl, h4, h5⟩ | ⟨-, h2⟩⟩ := h1 _ hi
    · cases hu _ _ _ he he'
      obtain ⟨h6, as, h7, h8, h9⟩ := ih h4
      refine ⟨h6, a :: as, by rw [List.length_cons, h7], ⟨_, h2, h8⟩, ?_⟩
      intro v hv
      rcases List.mem_cons.1 hv with rfl | hv
      · exact h3
      · exact h9 v hv
    · cases hu _ _ _ he he'
      exact (h2 _ _ rfl hc).elim

theorem Spec.DrawsAll.rounds (hn : ∀ rd a a' r r', next rd a r → next rd a' r' → a = a' ∧ r = r') (h1 : OneCall ends check Inv next fine) :
    ∀ (vs : List α) (st : State) (rest : Bytes), Inv st → DrawsAll next vs st.rd rest → (∀ v ∈ vs, fine v) →
      ∃ st', Rounds ends check vs.length st st' ∧ Inv st' ∧ st'.rd = rest
  | [], st, rest, hi, h, _ => ⟨st, .none st, hi, h.symm⟩
  | v :: vs, st, rest, hi, ⟨mid, h2, h3⟩, hf => by
    obtain ⟨o, he, ⟨a, ws, st1, h4, h5, rfl, h6, h7⟩ | ⟨h4, -⟩⟩ := h1 st hi
    · obtain ⟨rfl, rfl⟩ := hn _ _ _ _ _ h2 h4
      obtain ⟨st', h8, h9⟩ := Spec.DrawsAll.rounds hn h1 vs st1 rest h6 h3 fun w hw => hf w (List.mem_cons_of_mem _ hw)
      exact ⟨st', .more he h7 h8, h9⟩
    · exact (h4 _ _ h2 (hf v List.mem_cons_self)).elim

end

theorem Spec.DrawsAll.append {α : Type} {next : Bytes → α → Bytes → Prop} : ∀ (vs ws : List α) (rd rest : Bytes),
    DrawsAll next (vs ++ ws) rd rest ↔ ∃ mid, DrawsAll next vs rd mid ∧ DrawsAll next ws mid rest
  | [], ws, rd, rest => by simp [DrawsAll]
  | v :: vs, ws, rd, rest => by
    simp only [List.cons_append, DrawsAll, Spec.DrawsAll.append vs ws]
    constructor
    · rintro ⟨m, h1, m2, h2, h3⟩
      exact ⟨m2, ⟨m, h1, h2⟩, h3⟩
    · rintro ⟨m2, ⟨m, h1, h2⟩, h3⟩
      exact ⟨m, h1, m2, h2, h3⟩

theorem Spec.First.skip {good : Nat → Prop} {block rd rest : Bytes} {v : Nat} (hl : block.length = 32) (hb : ¬ good (bigEndian block)) :
    First good (block ++ rd) v rest ↔ First good rd v rest := by
  refine ⟨fun h => ?_, .later hl hb⟩
  generalize e : block ++ rd = l at h
  cases h with
  | here h1 h2 =>
    obtain ⟨rfl, rfl⟩ := List.append_inj e (by omega)
    exact (hb h2).elim
  | later h1 h2 h3 =>
    obtain ⟨rfl, rfl⟩ := List.append_inj e (by omega)
    exact h3

theorem Spec.First.unique {good : Nat → Prop} {rd r1 r2 : Bytes} {a b : Nat} (h1 : First good rd a r1) (h2 : First good rd b r2) :
    a = b ∧ r1 = r2 := by
  induction h1 with
  | @here block rest h3 h4 =>
    generalize e : block ++ rest = l at h2
    cases h2 with
    | here h5 =>
      obtain ⟨rfl, rfl⟩ := List.append_inj e (by omega)
      exact ⟨rfl, rfl⟩
    | later h5 h6 =>
      obtain ⟨rfl, rfl⟩ := List.append_inj e (by omega)
      exact (h6 h4).elim
  | later h3 h4 h5 ih => exact ih ((Spec.First.skip h3 h4).1 h2)

theorem Spec.First.good {good : Nat → Prop} {rd r : Bytes} {a : Nat} (h : First good rd a r) : good a := by
  induction h with
  | here _ h => exact h
  | later _ _ _ ih => exact ih

theorem Spec.First.short {good : Nat → Prop} {rd r : Bytes} {a : Nat} (h : First good rd a r) : 32 ≤ rd.length := by
  cases h with
  | here h | later h => simp only [List.length_append]; omega

theorem draws_good {good : Nat → Prop} : ∀ {vs : List Nat} {rd rest : Bytes}, DrawsAll (First good) vs rd rest → ∀ v ∈ vs, good v
  | v :: vs, _, _, ⟨_, h1, h2⟩, w, hw => by
    rcases List.mem_cons.1 hw with rfl | hw
    · exact h1.good
    · exact draws_good h2 w hw

/-! ## Keys -/

/-- The two networks are where `init` puts them. -/
def TwoNets (st : State) : Prop := loadNet st.heap (some 0) = some MainNetwork ∧ loadNet st.heap (some 1) = some TestNetwork

theorem firstKey_iff {rd : Bytes} {v : Nat} {rest : Bytes} :
    First (fun v => 1 ≤ v ∧ v < Spec.n) rd v rest ↔ ∃ body, FirstKey rd body rest ∧ bigEndian body = v := by
  constructor
  · intro h
    induction h with
    | here h1 h2 => exact ⟨_, .here h1 h2.1 h2.2, rfl⟩
    | later h1 h2 _ ih =>
      obtain ⟨body, h3, h4⟩ := ih
      exact ⟨body, .later h1 h2 h3, h4⟩
  · rintro ⟨body, h, rfl⟩
    induction h with
    | here h1 h2 h3 => exact .here h1 ⟨h2, h3⟩
    | later h1 h2 _ ih => exact .later h1 h2 ih

theorem generate_first (H : Hashes) (net : Network) (pre : Bytes) (hp : Spells net.PrivKeyPrefix pre) :
    ∀ (m : Nat) (rd : Reader), rd.length ≤ m →
      (∃ v rest k, First (fun v => 16 ^ 63 ≤ v ∧ v ≤ Spec.n - 2) rd v rest ∧ generatePrivateKey H rd (some net) = .ok (k, rest) ∧
        k.Key = some (v : Int)) ∨
      (∀ v rest, ¬ First (fun v => 16 ^ 63 ≤ v ∧ v ≤ Spec.n - 2) rd v rest) ∧
        generatePrivateKey H rd (some net) = .panic (.explicit .randRead)
  | m, rd, hm => by
    by_cases hl : 32 ≤ rd.length
    · have hb : (rd.take 32).length = 32 := by rw [List.length_take]; omega
      obtain ⟨h1, h2⟩ := C15_any_network H net (rd.take 32) (rd.drop 32) hb ((exists_spells_iff _).1 ⟨pre, hp⟩)
      rw [List.take_append_drop] at h1 h2
      by_cases hv : 16 ^ 63 ≤ bigEndian (rd.take 32) ∧ bigEndian (rd.take 32) ≤ Spec.n - 2
      · obtain ⟨k, h3, h4⟩ := h1 hv
        have hf := First.here (good := fun v => 16 ^ 63 ≤ v ∧ v ≤ Spec.n - 2) (rest := rd.drop 32) hb hv
        rw [List.take_append_drop] at hf
        exact .inl ⟨_, _, k, hf, h3, h4⟩
      · have hs : ∀ v rest, First (fun v => 16 ^ 63 ≤ v ∧ v ≤ Spec.n - 2) rd v rest ↔
            First (fun v => 16 ^ 63 ≤ v ∧ v ≤ Spec.n - 2) (rd.drop 32) v rest := fun v rest => by
          rw [← First.skip (rd := rd.drop 32) hb hv, List.take_append_drop]
        rw [h2 hv]
        simp only [hs]
        cases m with
        | zero => omega
        | succ m => exact generate_first H net pre hp m (rd.drop 32) (by rw [List.length_drop]; omega)
    · refine .inr ⟨fun v rest h => hl h.short, ?_⟩
      rw [generatePrivateKey_step, if_neg hl]

theorem TwoNets.unchanged {st st' : State} (h : TwoNets st) (hu : Unchanged st.heap st'.heap) : TwoNets st' :=
  ⟨hu.net _ _ h.1, hu.net _ _ h.2⟩

theorem keyCall_cases (H : Hashes) (E : EcdsaM) (hE : Pkg E) (i : Nat) (net : Network) (first : UInt8)
    (hi : i = 0 ∧ net = MainNetwork ∧ first = 53 ∨ i = 1 ∧ net = TestNetwork ∧ first = 57)
    (st : State) (hst : TwoNets st) : ∃ o, (Request.generatePrivateKey (some i)).Ends H E st o ∧
    ((∃ a vs st', First (fun v => 16 ^ 63 ≤ v ∧ v ≤ Spec.n - 2) st.rd a st'.rd ∧ o = .ok vs st' ∧ TwoNets st' ∧
        KeyCheck (some i) first vs st') ∨
      (∀ a rest, ¬ First (fun v => 16 ^ 63 ≤ v ∧ v ≤ Spec.n - 2) st.rd a rest) ∧ ∃ st', o = .panic (.explicit .randRead) st') := by
  have hnet : loadNet st.heap (some i) = some net := by
    rcases hi with ⟨rfl, rfl, -⟩ | ⟨rfl, rfl, -⟩
    · exact hst.1
    · exact hst.2
  have hp : ∃ pre, Spells net.PrivKeyPrefix pre := by
    rcases hi with ⟨-, rfl, -⟩ | ⟨-, rfl, -⟩
    · exact ⟨[0x80], hexDecode_eq_ok.1 (by decide +kernel)⟩
    · exact ⟨[0xEF], hexDecode_eq_ok.1 (by decide +kernel)⟩
  obtain ⟨pre, hp⟩ := hp
  obtain ⟨o, h1, h2⟩ := C108_generatePrivateKey H E hE st (some i)
  refine ⟨o, h1, ?_⟩
  rw [hnet] at h2
  rcases generate_first H net pre hp _ st.rd le_rfl with ⟨v, rest, k, h3, h4, h5⟩ | ⟨h3, h4⟩
  · rw [h4] at h2
    obtain ⟨a, st', rfl, h6, h7⟩ := h2
    obtain ⟨ob, h8, h9, h10, -⟩ := h6.obj
    refine .inl ⟨v, _, st', ?_, rfl, hst.unchanged h7.heap, ?_⟩
    · rw [h7.rd]; exact h3
    obtain ⟨v', e1, e2, e3, e4, -⟩ := C14_generated_valid H _ _ net k h4
    have hw : ∃ rest, k.WIF = first :: rest ∧ rest.length = 50 := by
      rcases hi with ⟨-, rfl, rfl⟩ | ⟨-, rfl, rfl⟩
      · exact (C14_generated_shape H _ _ k).1 h4
      · exact (C14_generated_shape H _ _ k).2 h4
    obtain ⟨w, w1, w2⟩ := hw
    subst h9
    have hg := h3.good
    have : 16 ^ 63 > 1 := by decide +kernel
    refine ⟨a, ob, v, rfl, h8, by rw [h10], ?_, ?_, e4, h5, ?_, ?_⟩
    · exact (congrArg (List.take 1) w1).trans rfl
    · exact (congrArg List.length w1).trans (by rw [List.length_cons, w2])
    · have : 2 ≤ Spec.n := by decide +kernel
      omega
    · omega
  · rw [h4] at h2
    obtain ⟨st', rfl, -⟩ := h2
    exact .inr ⟨h3, st', rfl⟩

theorem keyCall (H : Hashes) (E : EcdsaM) (hE : Pkg E) (i : Nat) (net : Network) (first : UInt8)
    (hi : i = 0 ∧ net = MainNetwork ∧ first = 53 ∨ i = 1 ∧ net = TestNetwork ∧ first = 57) :
    OneCall ((Request.generatePrivateKey (some i)).Ends H E) (KeyCheck (some i) first) TwoNets
      (First fun v => 16 ^ 63 ≤ v ∧ v ≤ Spec.n - 2) (fun _ => True) := by
  intro st hst
  obtain ⟨o, h1, ⟨a, vs, st', h2, h3, h4, h5⟩ | ⟨h2, st', rfl⟩⟩ := keyCall_cases H E hE i net first hi st hst
  · exact ⟨o, h1, .inl ⟨a, vs, st', h2, trivial, h3, h4, h5⟩⟩
  · exact ⟨_, h1, .inr ⟨fun a rest h => (h2 a rest h).elim, nofun⟩⟩

theorem keysPass_iff {ends : Request → State → Out (List Value) → Prop} {Inv : State → Prop} {good fine : Nat → Prop}
    (hu : ∀ r st o o', ends r st o → ends r st o' → o = o')
    (h0 : OneCall (ends (.generatePrivateKey (some 0))) (KeyCheck (some 0) 53) Inv (First good) fine)
    (h1 : OneCall (ends (.generatePrivateKey (some 1))) (KeyCheck (some 1) 57) Inv (First good) fine)
    (n : Nat) (st : State) (hst : Inv st) :
    KeysPass ends n st ↔ ∃ vs rest, vs.length = 2 * n ∧ DrawsAll (First good) vs st.rd rest ∧ ∀ v ∈ vs, fine v := by
  constructor
  · rintro ⟨st1, st2, r1, r2⟩
    obtain ⟨i1, vs, e1, e2, e3⟩ := r1.draws (hu _) h0 hst
    obtain ⟨-, ws, e4, e5, e6⟩ := r2.draws (hu _) h1 i1
    refine ⟨vs ++ ws, _, by rw [List.length_append]; omega, (DrawsAll.append vs ws _ _).2 ⟨_, e2, e5⟩, ?_⟩
    intro v hv
    rcases List.mem_append.1 hv with hv | hv
    · exact e3 v hv
    · exact e6 v hv
  · rintro ⟨vs, rest, e1, e2, e3⟩
    rw [← List.take_append_drop n vs] at e2
    obtain ⟨mid, e4, e5⟩ := (DrawsAll.append _ _ _ _).1 e2
    obtain ⟨st1, r1, i1, rfl⟩ := DrawsAll.rounds (next := First good) (fun _ _ _ _ _ => First.unique) h0 _ st _ hst e4 fun v hv => e3 v (List.mem_of_mem_take hv)
    obtain ⟨st2, r2, -⟩ := DrawsAll.rounds (next := First good) (fun _ _ _ _ _ => First.unique) h1 _ st1 _ i1 e5 fun v hv => e3 v (List.mem_of_mem_drop hv)
    rw [show (vs.take n).length = n by rw [List.length_take]; omega] at r1
    rw [show (vs.drop n).length = n by rw [List.length_drop]; omega] at r2
    exact ⟨st1, st2, r1, r2⟩

/-- C131. With the text of the repository `TestGeneratePrivateKey` passes exactly if enough random bytes come: of the
blocks of 32 bytes there must be `2 * n` whose number lies in [16^63, `Spec.n - 2`]. -/
theorem C131_keys (H : Hashes) (E : EcdsaM) (hE : Pkg E) (n : Nat) (st : State) (hst : TwoNets st) :
    KeysPass (Request.Ends H E) n st ↔
      ∃ vs rest, vs.length = 2 * n ∧ DrawsAll (First fun v => 16 ^ 63 ≤ v ∧ v ≤ Spec.n - 2) vs st.rd rest := by
  rw [keysPass_iff (ends := Request.Ends H E) (fun _ _ _ _ h h' => h.unique h') (keyCall H E hE 0 _ _ (.inl ⟨rfl, rfl, rfl⟩))
    (keyCall H E hE 1 _ _ (.inr ⟨rfl, rfl, rfl⟩)) n st hst]
  simp only [implies_true, and_true]

/-- C131. No assertion about a key ever fails with the text of the repository: whatever the random bytes, each call returns
a key that passes, or panics for want of random bytes. -/
theorem C131_keys_no_failure (H : Hashes) (E : EcdsaM) (hE : Pkg E) (st : State) (hst : TwoNets st) :
    (∃ o, (Request.generatePrivateKey (some 0)).Ends H E st o ∧
      ((∃ vs st', o = .ok vs st' ∧ KeyCheck (some 0) 53 vs st') ∨ ∃ st', o = .panic (.explicit .randRead) st')) ∧
    (∃ o, (Request.generatePrivateKey (some 1)).Ends H E st o ∧
      ((∃ vs st', o = .ok vs st' ∧ KeyCheck (some 1) 57 vs st') ∨ ∃ st', o = .panic (.explicit .randRead) st')) := by
  constructor
  · obtain ⟨o, h1, ⟨a, vs, st', -, h3, -, h5⟩ | ⟨-, h2⟩⟩ := keyCall_cases H E hE 0 _ _ (.inl ⟨rfl, rfl, rfl⟩) st hst
    · exact ⟨o, h1, .inl ⟨vs, st', h3, h5⟩⟩
    · exact ⟨o, h1, .inr h2⟩
  · obtain ⟨o, h1, ⟨a, vs, st', -, h3, -, h5⟩ | ⟨-, h2⟩⟩ := keyCall_cases H E hE 1 _ _ (.inr ⟨rfl, rfl, rfl⟩) st hst
    · exact ⟨o, h1, .inl ⟨vs, st', h3, h5⟩⟩
    · exact ⟨o, h1, .inr h2⟩

theorem fixedKeyCall (H : Hashes) (E : EcdsaM) (i : Nat) (net : Network) (first : UInt8)
    (hi : i = 0 ∧ net = MainNetwork ∧ first = 53 ∨ i = 1 ∧ net = TestNetwork ∧ first = 57) :
    OneCall ((Request.generatePrivateKey (some i)).EndsFixed H E) (KeyCheck (some i) first)
      (fun st => TwoNets st ∧ OrderKnown st) (First fun v => 1 ≤ v ∧ v < Spec.n) (fun v => 1 < v ∧ v < Spec.n - 1) := by
  rintro st ⟨hst, hN⟩
  have hnet : NetAt st (some i) net := by
    rcases hi with ⟨rfl, rfl, -⟩ | ⟨rfl, rfl, -⟩
    · exact hst.1
    · exact hst.2
  have hp : ∃ pre, Spells net.PrivKeyPrefix pre ∧ ∀ body : Bytes, body.length = 32 → ∀ w, IsBase58Check H.sha256 (pre ++ body) w →
      ∃ rest, w = first :: rest ∧ rest.length = 50 := by
    rcases hi with ⟨-, rfl, rfl⟩ | ⟨-, rfl, rfl⟩
    · have hm : Spells MainNetwork.PrivKeyPrefix [0x80] := hexDecode_eq_ok.1 (by decide +kernel)
      refine ⟨[0x80], hm, fun body hb w hw => ?_⟩
      obtain ⟨k, rest, h1, h2, h3⟩ := (C11_wif_shape H (hexEncode body) ((exists_spells_iff _).1 ⟨body, spells_hexEncode body⟩).1
        (by rw [(spells_hexEncode body).length]; omega)).1
      rw [privateFromHex_of_spells H (hm.append (spells_hexEncode body))] at h1
      cases h1
      exact ⟨rest, by rw [hw.text_eq]; exact h2, h3⟩
    · have hm : Spells TestNetwork.PrivKeyPrefix [0xEF] := hexDecode_eq_ok.1 (by decide +kernel)
      refine ⟨[0xEF], hm, fun body hb w hw => ?_⟩
      obtain ⟨k, rest, h1, h2, h3⟩ := (C11_wif_shape H (hexEncode body) ((exists_spells_iff _).1 ⟨body, spells_hexEncode body⟩).1
        (by rw [(spells_hexEncode body).length]; omega)).2
      rw [privateFromHex_of_spells H (hm.append (spells_hexEncode body))] at h1
      cases h1
      exact ⟨rest, by rw [hw.text_eq]; exact h2, h3⟩
  obtain ⟨pre, hp, hw⟩ := hp
  obtain ⟨o, h1, ⟨body, rest, wif, st', a, h2, rfl, h3, h4, h5⟩ | ⟨h2, st', rfl, h3⟩⟩ :=
    C127_generate H E st hN (some i) net hnet pre hp
  · refine ⟨_, h1, ?_⟩
    have hf : First (fun v => 1 ≤ v ∧ v < Spec.n) st.rd (bigEndian body) rest := firstKey_iff.2 ⟨body, h2, rfl⟩
    have hrd : st'.rd = rest := h3.rd
    by_cases hv : 1 < bigEndian body ∧ bigEndian body < Spec.n - 1
    · refine .inl ⟨_, _, st', hrd ▸ hf, hv, rfl, ⟨hst.unchanged h3.heap.unchanged, ?_⟩, ?_⟩
      · have := hN
        unfold OrderKnown at this ⊢
        rw [← h3.heap.curve]
        exact load_grow h3.heap this
      · obtain ⟨ob, e1, e2, e3, e4, e5⟩ := h5.object
        have hwif := h5.wif
        rw [show markOf false = [] from rfl, List.append_nil] at hwif
        obtain ⟨w, w1, w2⟩ := hw body h5.length wif hwif
        refine ⟨some a, ob, _, rfl, e1, by rw [e5], ?_, ?_, ?_, e2, ?_, ?_⟩
        · rw [e4, w1]; rfl
        · rw [e4, w1, List.length_cons, w2]
        · rw [e3, h5.text.length, h5.length]
        · omega
        · omega
    · refine .inr ⟨fun b r h => (hf.unique h).1 ▸ hv, ?_⟩
      rintro vs st2 ⟨⟩ ⟨p, ob, v, ⟨⟩, e1, -, -, -, -, e2, e3, e4⟩
      obtain ⟨ob', e5, e6, -⟩ := h5.object
      cases e1.symm.trans e5
      cases e2.symm.trans e6
      apply hv
      have : 1 ≤ Spec.n := by decide +kernel
      omega
  · refine ⟨_, h1, .inr ⟨fun v rest h => ?_, nofun⟩⟩
    obtain ⟨body, h4, -⟩ := firstKey_iff.1 h
    exact (h2 ⟨_, _, h4⟩).elim

/-- C131. With the repaired text, which can return every private key (C127), the test fails in principle: it passes exactly
if enough keys come and neither 1 nor n-1 is among them, because the test demands 1 < k < n-1. -/
theorem C131_repaired_keys (H : Hashes) (E : EcdsaM) (n : Nat) (st : State) (hst : TwoNets st) (hN : OrderKnown st) :
    KeysPass (fun r => r.EndsFixed H E) n st ↔ ∃ vs rest, vs.length = 2 * n ∧
      DrawsAll (First fun v => 1 ≤ v ∧ v < Spec.n) vs st.rd rest ∧ ∀ v ∈ vs, v ≠ 1 ∧ v ≠ Spec.n - 1 := by
  rw [keysPass_iff (ends := fun r => r.EndsFixed H E) (fun _ _ _ _ h h' => Ends.unique h h') (fixedKeyCall H E 0 _ _ (.inl ⟨rfl, rfl, rfl⟩))
    (fixedKeyCall H E 1 _ _ (.inr ⟨rfl, rfl, rfl⟩)) n st ⟨hst, hN⟩]
  refine exists_congr fun vs => exists_congr fun rest => and_congr_right fun _ => and_congr_right fun h => ?_
  refine forall_congr' fun v => forall_congr' fun hv => ?_
  have := draws_good h v hv
  omega

/-- The same block of 32 bytes, `k` times. -/
def blocksOf (b : UInt8) (k : Nat) : Bytes := (List.replicate k (List.replicate 32 b)).flatten

theorem blocksOf_succ (b : UInt8) (k : Nat) : blocksOf b (k + 1) = List.replicate 32 b ++ blocksOf b k := by
  rw [blocksOf, List.replicate_succ, List.flatten_cons, blocksOf]

theorem draws_blocksOf {good : Nat → Prop} (b : UInt8) (h : good (bigEndian (List.replicate 32 b))) (rest : Bytes) : ∀ k : Nat,
    DrawsAll (First good) (List.replicate k (bigEndian (List.replicate 32 b))) (blocksOf b k ++ rest) rest
  | 0 => rfl
  | k + 1 => by
    rw [List.replicate_succ, blocksOf_succ, List.append_assoc]
    exact ⟨_, .here (by rw [List.length_replicate]) h, draws_blocksOf b h rest k⟩

theorem ready_twoNets (rd : Reader) : TwoNets (ready rd) := ⟨rfl, rfl⟩

/-- C131. The test and C16 contradict each other. There are random bytes with which the repository passes the test and the
repaired text, which can return every key, fails it; and random bytes with which the repaired text passes and the
repository panics because it drops all the keys drawn. -/
theorem C131_keys_disagree (H : Hashes) (E : EcdsaM) (hE : Pkg E) (n : Nat) (hn : 1 ≤ n) :
    (∃ rd, KeysPass (Request.Ends H E) n (ready rd) ∧ ¬ KeysPass (fun r => r.EndsFixed H E) n (ready rd)) ∧
    (∃ rd, ¬ KeysPass (Request.Ends H E) n (ready rd) ∧ KeysPass (fun r => r.EndsFixed H E) n (ready rd)) := by
  have hN : ∀ rd, OrderKnown (ready rd) := fun rd => (C127_init H E rd).2.1
  constructor
  · have hl : (List.replicate 31 (0 : UInt8) ++ [1]).length = 32 := rfl
    have h1 : bigEndian (List.replicate 31 (0 : UInt8) ++ [1]) = 1 := by decide +kernel
    refine ⟨(List.replicate 31 0 ++ [1]) ++ (blocksOf 0x77 (2 * n) ++ []), ?_, ?_⟩
    · rw [C131_keys H E hE n _ (ready_twoNets _)]
      refine ⟨List.replicate (2 * n) (bigEndian (List.replicate 32 0x77)), [], List.length_replicate, ?_⟩
      have hd := draws_blocksOf (good := fun v => 16 ^ 63 ≤ v ∧ v ≤ Spec.n - 2) 0x77 (by decide +kernel) [] (2 * n)
      obtain ⟨m, rfl⟩ : ∃ m, n = m + 1 := ⟨n - 1, by omega⟩
      rw [show 2 * (m + 1) = 2 * m + 1 + 1 by omega, List.replicate_succ] at hd ⊢
      obtain ⟨mid, h2, h3⟩ := hd
      exact ⟨mid, .later hl (by rw [h1]; decide +kernel) h2, h3⟩
    · rw [C131_repaired_keys H E n _ (ready_twoNets _) (hN _)]
      rintro ⟨vs, rest, h2, h3, h4⟩
      cases vs with
      | nil => simp only [List.length_nil] at h2; omega
      | cons v vs =>
        obtain ⟨mid, h5, -⟩ := h3
        have h6 := First.here (good := fun v => 1 ≤ v ∧ v < Spec.n) (rest := blocksOf 0x77 (2 * n) ++ []) hl (by rw [h1]; decide +kernel)
        exact (h4 v List.mem_cons_self).1 ((h5.unique h6).1.trans h1)
  · refine ⟨blocksOf 1 (2 * n) ++ [], ?_, ?_⟩
    · rw [C131_keys H E hE n _ (ready_twoNets _)]
      rintro ⟨vs, rest, h2, h3⟩
      cases vs with
      | nil => simp only [List.length_nil] at h2; omega
      | cons v vs =>
        obtain ⟨mid, h5, -⟩ := h3
        have key : ∀ k v rest, ¬ First (fun v => 16 ^ 63 ≤ v ∧ v ≤ Spec.n - 2) (blocksOf 1 k ++ []) v rest := by
          intro k
          induction k with
          | zero => exact fun v rest h => absurd h.short (by decide)
          | succ k ih =>
            intro v rest h
            rw [blocksOf_succ, List.append_assoc] at h
            exact ih _ _ ((First.skip (by rw [List.length_replicate]) (by decide +kernel)).1 h)
        exact key _ _ _ h5
    · rw [C131_repaired_keys H E n _ (ready_twoNets _) (hN _)]
      refine ⟨List.replicate (2 * n) (bigEndian (List.replicate 32 1)), [], List.length_replicate,
        draws_blocksOf 1 (by decide +kernel) [] (2 * n), fun v hv => ?_⟩
      rw [List.eq_of_mem_replicate hv]
      decide +kernel

-- Ten thousand keys on each network, from 640000 random bytes.
example : KeysPass (Request.Ends realHashes Samples.pkg) 10000 (ready (blocksOf 0x77 20000)) := by
  rw [C131_keys realHashes _ refPkg.1 10000 _ (ready_twoNets _)]
  have hd := draws_blocksOf (good := fun v => 16 ^ 63 ≤ v ∧ v ≤ Spec.n - 2) 0x77 (by decide +kernel) [] 20000
  rw [List.append_nil] at hd
  exact ⟨_, [], List.length_replicate, hd⟩

-- One key on each network does not come out of 63 random bytes, whichever they are.
example (rd : Reader) (h : rd.length < 64) : ¬ KeysPass (Request.Ends realHashes Samples.pkg) 1 (ready rd) := by
  rw [C131_keys realHashes _ refPkg.1 1 _ (ready_twoNets _)]
  rintro ⟨vs, rest, h1, h2⟩
  have hlen : ∀ (vs : List Nat) (rd rest : Bytes), DrawsAll (First fun v => 16 ^ 63 ≤ v ∧ v ≤ Spec.n - 2) vs rd rest →
      32 * vs.length + rest.length ≤ rd.length := by
    intro vs
    induction vs with
    | nil => rintro rd rest rfl; simp
    | cons v vs ih =>
      rintro rd rest ⟨mid, h3, h4⟩
      have h5 : mid.length + 32 ≤ rd.length := by
        clear h4
        induction h3 with
        | here h | later h => simp only [List.length_append]; omega
      have := ih _ _ h4
      rw [List.length_cons]
      omega
  have := hlen vs _ rest h2
  simp only [ready] at this
  omega

/-! ## Phrases -/

/-- The next block of `w` bytes. -/
def NextBlock (w : Nat) (rd ent rest : Bytes) : Prop := rd = ent ++ rest ∧ ent.length = w

theorem NextBlock.unique {w : Nat} (rd a b r r' : Bytes) (h : NextBlock w rd a r) (h' : NextBlock w rd b r') : a = b ∧ r = r' :=
  List.append_inj (h.1.symm.trans h'.1) (h.2.trans h'.2.symm)

theorem draws_blocks {w : Nat} : ∀ (bs : List Bytes) (rd rest : Bytes),
    DrawsAll (NextBlock w) bs rd rest ↔ rd = bs.flatten ++ rest ∧ ∀ b ∈ bs, b.length = w
  | [], rd, rest => by simp [DrawsAll, eq_comm]
  | b :: bs, rd, rest => by
    simp only [DrawsAll, draws_blocks bs, NextBlock, List.flatten_cons, List.append_assoc, List.forall_mem_cons]
    constructor
    · rintro ⟨mid, ⟨rfl, h1⟩, rfl, h2⟩
      exact ⟨rfl, h1, h2⟩
    · rintro ⟨rfl, h1, h2⟩
      exact ⟨_, ⟨rfl, h1⟩, rfl, h2⟩

theorem phrasesPass_iff {ends : Request → State → Out (List Value) → Prop} {good : Nat → Bytes → Prop}
    (hu : ∀ r st o o', ends r st o → ends r st o' → o = o') (n : Nat) : ∀ (ls : List Nat) (st : State),
    (∀ l ∈ ls, OneCall (ends (.newMnemonic l (some EnglishWordlist))) (PhraseCheck l) (fun _ => True) (NextBlock (l / 3 * 4)) (good l)) →
    (PhrasesPass ends n ls st ↔ Supplied good n ls st.rd)
  | [], st, _ => Iff.rfl
  | l :: ls, st, h => by
    have h1 := h l List.mem_cons_self
    have ih := fun st => phrasesPass_iff hu n ls st fun l hl => h l (List.mem_cons_of_mem _ hl)
    constructor
    · rintro ⟨st1, r, hp⟩
      obtain ⟨-, bs, e1, e2, e3⟩ := r.draws (hu _) h1 trivial
      obtain ⟨e4, e5⟩ := (draws_blocks _ _ _).1 e2
      exact ⟨bs, _, e4, e1, fun b hb => ⟨e5 b hb, e3 b hb⟩, (ih st1).1 hp⟩
    · rintro ⟨bs, rest, e1, rfl, e2, e3⟩
      obtain ⟨st1, r, -, rfl⟩ := DrawsAll.rounds NextBlock.unique h1 bs st rest trivial
        ((draws_blocks _ _ _).2 ⟨e1, fun b hb => (e2 b hb).1⟩) fun b hb => (e2 b hb).2
      exact ⟨st1, r, (ih st1).2 e3⟩

/-- C131. What `NewMnemonic` does in the test. It returns an error if the random bytes do not suffice. It panics if the hash
of the random bytes, without leading zero bytes, is less than 2^(l/3 - 1). Otherwise the assertions hold. -/
theorem C131_phrase_call (H : Hashes) (E : EcdsaM) (l : Nat) (hl : l ∈ testedLengths) (st : State) :
    ∃ o, (Request.newMnemonic l (some EnglishWordlist)).Ends H E st o ∧
      ((st.rd.length < l / 3 * 4 ∧ ∃ st', o = .ok [.str [], .err (some .randRead)] st') ∨
        ∃ ent rest, st.rd = ent ++ rest ∧ ent.length = l / 3 * 4 ∧
          ((bigEndian (H.sha256 (ent.dropWhile (· == 0))) < 2 ^ (l / 3 - 1) ∧ ∃ st', o = .panic .sliceBounds st') ∨
            2 ^ (l / 3 - 1) ≤ bigEndian (H.sha256 (ent.dropWhile (· == 0))) ∧
              ∃ vs st', o = .ok vs st' ∧ st'.rd = rest ∧ PhraseCheck l vs st')) := by
  obtain ⟨o, h1, h2⟩ := C108_newMnemonic H E st l (some EnglishWordlist)
  obtain ⟨c1, c2, c3⟩ := C45_outcomes H st.rd l EnglishWordlist hl (by rw [Samples.english.size])
  refine ⟨o, h1, ?_⟩
  by_cases hr : st.rd.length < l / 3 * 4
  · rw [c1 hr] at h2
    obtain ⟨st', rfl, -⟩ := h2
    exact .inl ⟨hr, st', rfl⟩
  refine .inr ⟨st.rd.take (l / 3 * 4), st.rd.drop (l / 3 * 4), (List.take_append_drop _ _).symm, by
    rw [List.length_take]; omega, ?_⟩
  rcases Nat.lt_or_ge (bigEndian (H.sha256 ((st.rd.take (l / 3 * 4)).dropWhile (· == 0)))) (2 ^ (l / 3 - 1)) with hs | hs
  · rw [c2 (by omega) hs] at h2
    obtain ⟨st', rfl, -⟩ := h2
    exact .inl ⟨hs, st', rfl⟩
  · obtain ⟨ws, -, -, e3⟩ := c3 (by omega) hs
    have hw := (C45_word_count H _ _ l _ _ hl Samples.english.noSpace e3).1
    rw [e3] at h2
    obtain ⟨st', rfl, h3⟩ := h2
    exact .inr ⟨hs, _, st', rfl, h3.rd, _, rfl, hw⟩

/-- C131. With the text of the repository `TestNewMnemonic` passes exactly if enough random bytes come and none of the
blocks makes `NewMnemonic` panic. -/
theorem C131_phrases (H : Hashes) (E : EcdsaM) (n : Nat) (st : State) :
    PhrasesPass (Request.Ends H E) n testedLengths st ↔
      Supplied (fun l ent => 2 ^ (l / 3 - 1) ≤ bigEndian (H.sha256 (ent.dropWhile (· == 0)))) n testedLengths st.rd := by
  refine phrasesPass_iff (fun _ _ _ _ h h' => h.unique h') n _ st fun l hl st _ => ?_
  obtain ⟨o, h1, ⟨h2, st', rfl⟩ | ⟨ent, rest, h2, h3, ⟨h4, st', rfl⟩ | ⟨h4, vs, st', rfl, rfl, h5⟩⟩⟩ := C131_phrase_call H E l hl st
  · refine ⟨_, h1, .inr ⟨?_, ?_⟩⟩
    · rintro a r ⟨h3, h4⟩
      rw [h3, List.length_append] at h2
      omega
    · rintro vs st2 ⟨⟩ ⟨s, hs, -⟩
      cases hs
  · refine ⟨_, h1, .inr ⟨?_, nofun⟩⟩
    intro a r h
    obtain ⟨rfl, -⟩ := NextBlock.unique _ _ _ _ _ h ⟨h2, h3⟩
    omega
  · exact ⟨_, h1, .inl ⟨ent, vs, st', ⟨h2, h3⟩, h4, rfl, trivial, h5⟩⟩

theorem supplied_length {n : Nat} : ∀ (ls : List Nat) (rd : Bytes),
    Supplied (fun _ _ => True) n ls rd ↔ n * (ls.map fun l => l / 3 * 4).sum ≤ rd.length
  | [], rd => by simp [Supplied]
  | l :: ls, rd => by
    simp only [Supplied, and_true, supplied_length ls, List.map_cons, List.sum_cons, Nat.mul_add]
    have hsum : ∀ (bs : List Bytes) (w : Nat), (∀ b ∈ bs, b.length = w) → bs.flatten.length = bs.length * w := by
      intro bs w h
      induction bs with
      | nil => simp
      | cons b bs ih =>
        rw [List.flatten_cons, List.length_append, ih fun b hb => h b (List.mem_cons_of_mem _ hb), h b List.mem_cons_self,
          List.length_cons]
        ring
    constructor
    · rintro ⟨bs, rest, rfl, rfl, h1, h2⟩
      rw [List.length_append, hsum bs _ h1]
      omega
    · intro h
      have hc : ∀ (n w : Nat) (rd : Bytes), n * w ≤ rd.length → ∃ bs : List Bytes, rd.take (n * w) = bs.flatten ∧ bs.length = n ∧
          ∀ b ∈ bs, b.length = w := by
        intro n w
        induction n with
        | zero => exact fun rd _ => ⟨[], by simp, rfl, nofun⟩
        | succ n ih =>
          intro rd h
          have e : (n + 1) * w = w + n * w := by ring
          obtain ⟨bs, h1, h2, h3⟩ := ih (rd.drop w) (by rw [List.length_drop]; omega)
          refine ⟨rd.take w :: bs, ?_, by rw [List.length_cons, h2], ?_⟩
          · rw [List.flatten_cons, ← h1, e, List.take_add]
          · intro b hb
            rcases List.mem_cons.1 hb with rfl | hb
            · rw [List.length_take]; omega
            · exact h3 b hb
      obtain ⟨bs, h1, h2, h3⟩ := hc n (l / 3 * 4) rd (by omega)
      exact ⟨bs, rd.drop (n * (l / 3 * 4)), by rw [← h1, List.take_append_drop], h2, h3, by rw [List.length_drop]; omega⟩

/-- C131. With the repaired text `TestNewMnemonic` passes exactly if enough random bytes come: 120 for each round. -/
theorem C131_repaired_phrases (H : Hashes) (E : EcdsaM) (n : Nat) (st : State) :
    PhrasesPass (fun r => r.EndsFixed H E) n testedLengths st ↔ 120 * n ≤ st.rd.length := by
  rw [phrasesPass_iff (ends := fun r => r.EndsFixed H E) (good := fun _ _ => True) (fun _ _ _ _ h h' => Ends.unique h h') n _ st, supplied_length]
  · simp only [testedLengths, List.map_cons, List.map_nil, List.sum_cons, List.sum_nil]
    omega
  intro l hl st _
  have hl' : l % 3 = 0 ∧ 4 ≤ l / 3 ∧ l / 3 ≤ 8 := by
    simp only [testedLengths, List.mem_cons, List.not_mem_nil, or_false] at hl
    omega
  obtain ⟨o, h1, ⟨c, ws, st', h2, h3, h4, h5, h6, h7, rfl, h8⟩ | ⟨h2, st', e, -, rfl, -⟩⟩ :=
    C128_generate H E l (some EnglishWordlist) st
  · have hc : l = 3 * c := by omega
    have hrd : st'.rd = st.rd.drop (4 * c) := h8.rd
    refine ⟨_, h1, .inl ⟨st.rd.take (4 * c), _, st', ⟨?_, ?_⟩, trivial, rfl, trivial, _, rfl, ?_⟩⟩
    · rw [hrd, List.take_append_drop]
    · rw [List.length_take]; omega
    · have hlen := h7.2.length
      have hsha : ∀ b, (H.sha256 b).length = 32 := H.sha_len
      rw [List.length_append, List.length_take, length_bytesBits, length_bytesBits, hsha, List.length_take] at hlen
      have hws : ws.length = l := by omega
      have hne : ws ≠ [] := by
        rintro rfl
        simp only [List.length_nil] at hws
        omega
      rw [← hws]
      exact count_intercalate hne fun w hw => Samples.english.noSpace w (h7.2.mem w hw)
  · refine ⟨_, h1, .inr ⟨?_, ?_⟩⟩
    · rintro a r ⟨h3, h4⟩
      exfalso
      refine h2 ⟨l / 3, hl'.2.1, hl'.2.2, by omega, Samples.english.size, ?_⟩
      rw [h3, List.length_append]
      omega
    · rintro vs st2 ⟨⟩ ⟨s, hs, -⟩
      cases hs

-- Ten thousand phrases of each length, from 1200000 random bytes, with the repaired text.
example (b : UInt8) : PhrasesPass (fun r => r.EndsFixed realHashes Samples.pkg) 10000 testedLengths (ready (List.replicate 1200000 b)) := by
  rw [C131_repaired_phrases]
  simp only [ready, List.length_replicate]
  omega

-- With the text of the repository: one phrase of each length, from 120 random bytes.
example : PhrasesPass (Request.Ends realHashes Samples.pkg) 1 testedLengths (ready (List.replicate 120 7)) := by
  rw [C131_phrases]
  refine ⟨[List.replicate 16 7], List.replicate 104 7, rfl, rfl, ?_, [List.replicate 20 7], List.replicate 84 7, rfl, rfl, ?_,
    [List.replicate 24 7], List.replicate 60 7, rfl, rfl, ?_, [List.replicate 28 7], List.replicate 32 7, rfl, rfl, ?_,
    [List.replicate 32 7], [], rfl, rfl, ?_, trivial⟩ <;> decide +kernel

-- A hash whose values are all zero makes the test panic in the first call.
example (rd : Reader) : ¬ PhrasesPass (Request.Ends ⟨fun _ => List.replicate 32 0, fun _ => List.replicate 20 0, id,
    fun _ => by simp, fun _ => by simp⟩ Samples.pkg) 1 testedLengths (ready rd) := by
  rw [C131_phrases]
  rintro ⟨bs, rest, -, h1, h2, -⟩
  match bs, h1 with
  | [b], _ => exact absurd (show 2 ^ (12 / 3 - 1) ≤ bigEndian (List.replicate 32 0) from (h2 b List.mem_cons_self).2) (by decide +kernel)

end Btc
