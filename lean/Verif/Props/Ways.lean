import Verif.Props.Unused

/-!
# C119: which way the calls with phrases take through the text

C117 for the functions on phrases. Here it is false that the way is the same for every secret: two phrases, and two random
numbers, are given for which the lines differ. It does not depend on the passphrase.
-/

namespace Btc

open Mem Source Spec

namespace Spec

/-- Specification: the lines that `mark` can log. -/
def marks : List GoString := (program.flatMap fun d =>
  match d with
  | .func f => spelling 32 f.name :: (blocks f.body).map (blockLabel f)
  | _ => []).map fun s => s.map UInt8.ofNat

/-- Specification: the way of a call, without the lines that the text itself logs. -/
def way (l : Log) : Log := l.filter fun s => decide (s ∈ marks)

/-- Specification: two lists of marks differ. -/
def waysDiffer (r r' : Request) (st st' : State) : Bool :=
  match runFunc realHashes Samples.pkg (marked program) 300 r.recv r.name r.args st,
    runFunc realHashes Samples.pkg (marked program) 300 r'.recv r'.name r'.args st' with
  | .ok vs s, .ok vs' s' => decide (vs.getLast? = some (.err none)) && decide (vs'.getLast? = some (.err none)) &&
      decide (way s.log ≠ way s'.log)
  | _, _ => false

end Spec

namespace Samples

/-- Eight words. -/
def eightWords : Option (List GoString) := some [asc "a", asc "b", asc "c", asc "d", asc "e", asc "f", asc "g", asc "h"]

theorem seeds_differ : waysDiffer (.newSeedFromMnemonic (asc "a a a a a a a b") [] eightWords)
    (.newSeedFromMnemonic (asc "a a a a b c b c") [] eightWords) (stocked []) (stocked []) = true := by decide +kernel

theorem phrases_differ : waysDiffer (.newMnemonic 12 (some EnglishWordlist)) (.newMnemonic 12 (some EnglishWordlist))
    (stocked (List.replicate 16 0)) (stocked (List.replicate 16 1)) = true := by decide +kernel

end Samples

theorem waysDiffer_ends {r r' : Request} {st st' : State} (h : waysDiffer r r' st st' = true) : ∃ vs s vs' s',
    MarkedEnds realHashes Samples.pkg r st (.ok vs s) ∧ MarkedEnds realHashes Samples.pkg r' st' (.ok vs' s') ∧
    vs.getLast? = some (.err none) ∧ vs'.getLast? = some (.err none) ∧ way s.log ≠ way s'.log := by
  unfold waysDiffer at h
  split at h
  · next vs s vs' s' e e' =>
    simp only [Bool.and_eq_true, decide_eq_true_eq] at h
    exact ⟨vs, s, vs', s', Ends.of (n := 300) e (by simp), Ends.of (n := 300) e' (by simp), h.1.1, h.1.2, h.2⟩
  · cases h

/-- C119, false: successful calls of `NewSeedFromMnemonic` for phrases of as many words take the same way. -/
theorem C119_newSeed_violated : ¬ ∀ (t t' : GoString) (wl : Option (List GoString)) (st s s' : State) (vs vs' : List Value),
    Session realHashes Samples.pkg [] st → (splitSpace t).length = (splitSpace t').length →
    MarkedEnds realHashes Samples.pkg (.newSeedFromMnemonic t [] wl) st (.ok vs s) → vs.getLast? = some (.err none) →
    MarkedEnds realHashes Samples.pkg (.newSeedFromMnemonic t' [] wl) st (.ok vs' s') → vs'.getLast? = some (.err none) →
    way s.log = way s'.log := by
  intro h
  obtain ⟨vs, s, vs', s', h1, h2, h3, h4, h5⟩ := waysDiffer_ends Samples.seeds_differ
  exact h5 (h _ _ _ _ s s' vs vs' (Samples.stocked_session _ _ _) (by decide +kernel) h1 h3 h2 h4)

/-- C119, false: successful calls of `NewMnemonic` for as many words and the same list take the same way. -/
theorem C119_newMnemonic_violated : ¬ ∀ (words : Int) (wl : Option (List GoString)) (st st' s s' : State) (vs vs' : List Value),
    Session realHashes Samples.pkg [] st → Session realHashes Samples.pkg [] st' → st.log = st'.log →
    MarkedEnds realHashes Samples.pkg (.newMnemonic words wl) st (.ok vs s) → vs.getLast? = some (.err none) →
    MarkedEnds realHashes Samples.pkg (.newMnemonic words wl) st' (.ok vs' s') → vs'.getLast? = some (.err none) →
    way s.log = way s'.log := by
  intro h
  obtain ⟨vs, s, vs', s', h1, h2, h3, h4, h5⟩ := waysDiffer_ends Samples.phrases_differ
  exact h5 (h _ _ _ _ s s' vs vs' (Samples.stocked_session _ _ (List.replicate 16 0))
    (Samples.stocked_session _ _ (List.replicate 16 1)) rfl h1 h3 h2 h4)

/-- C119, what holds: the way of `NewSeedFromMnemonic` does not depend on the passphrase. (Missing: it depends on the
phrase.) -/
theorem C119_newSeed_partial (H : Hashes) (E : EcdsaM) (mnemonic p p' : GoString) (wordlist : Option (List GoString)) (st : State)
    (o : Out (List Value)) (h : MarkedEnds H E (.newSeedFromMnemonic mnemonic p wordlist) st o) :
    MarkedEnds H E (.newSeedFromMnemonic mnemonic p' wordlist) st o :=
  C118_unmentioned H E (marked program) (markedFunc fNewSeedFromMnemonic) (by decide +kernel) (id! "passphrase") (by decide +kernel)
    [.str mnemonic, .str p, .strs wordlist] [.str mnemonic, .str p', .strs wordlist] st o
    ⟨fun _ => rfl, fun h => absurd rfl h, fun _ => rfl, trivial⟩ h

end Btc
