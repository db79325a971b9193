import Verif.Conc.SharedReader
import Verif.Props.Phrase
import Verif.Props.Generate

/-!
# C101: concurrent calls share the random source
-/

namespace Btc

open Spec

/-- What is true of goroutine `i` at every moment. -/
def Shared.Good (H : Hashes) (jobs : Nat → Job) (s : Shared) (i : Nat) : Prop :=
  match s.status i with
  | some (.ok r) => (jobs i).alone H (s.own i) = .ok (r, [])
  | some (.err e) => (jobs i).alone H (s.own i) = .err e
  | some (.panic p) => (jobs i).alone H (s.own i) = .panic p
  | none =>
    match jobs i with
    | .key net => ∀ rest, generatePrivateKey H (s.own i ++ rest) net = generatePrivateKey H rest net
    | .phrase _ _ => s.own i = []

theorem entropyLengthOf_some {words : Int} {l : Nat} (hl : entropyLengthOf words = some l) :
    ∃ c, 4 ≤ c ∧ c ≤ 8 ∧ words = ((3 * c : Nat) : Int) ∧ l = 32 * c := by
  unfold entropyLengthOf at hl
  split at hl
  · exact ⟨4, by omega, by omega, by simpa using ‹_›, by simp at hl; omega⟩
  split at hl
  · exact ⟨5, by omega, by omega, by simpa using ‹_›, by simp at hl; omega⟩
  split at hl
  · exact ⟨6, by omega, by omega, by simpa using ‹_›, by simp at hl; omega⟩
  split at hl
  · exact ⟨7, by omega, by omega, by simpa using ‹_›, by simp at hl; omega⟩
  split at hl
  · exact ⟨8, by omega, by omega, by simpa using ‹_›, by simp at hl; omega⟩
  · simp at hl

theorem Shared.own_draw (s : Shared) (i j k : Nat) (f : Bytes → Option (Res Drawn)) (hk : k ≤ s.source.length) :
    (s.draw i k f).own j = if j = i then s.own j ++ s.source.take k else s.own j := by
  unfold Shared.draw Shared.own
  rw [if_pos hk]
  by_cases h : j = i
  · subst h; simp
  · have : ¬ i = j := fun e => h e.symm
    simp [h, this]

theorem Shared.good_step (H : Hashes) (jobs : Nat → Job) (s : Shared) (i j : Nat) (h : s.Good H jobs j) :
    (s.step H jobs i).Good H jobs j := by
  unfold Shared.step
  cases hs : s.status i with
  | some r => exact h
  | none =>
    simp only
    by_cases hj : j = i
    · subst hj
      cases hjob : jobs j with
      | key net =>
        simp only
        by_cases hl : 32 ≤ s.source.length
        · have hown := s.own_draw j j 32 (keyBlock H net) hl
          rw [if_pos rfl] at hown
          simp only [Shared.Good, hs, hjob] at h
          have hst : (s.draw j 32 (keyBlock H net)).status j = keyBlock H net (s.source.take 32) := by
            unfold Shared.draw; rw [if_pos hl]; simp
          have hb : (s.source.take 32).length = 32 := by simp; omega
          generalize s.source.take 32 = b at hown hst hb
          unfold Shared.Good
          rw [hst, hown, hjob]
          have key : ∀ rest, generatePrivateKey H ((s.own j ++ b) ++ rest) net =
              if bytesToNat b < Spec.n - 1 then
                match attempt H net (bytesToNat b) with
                | .err e => .err e
                | .panic p => .panic p
                | .ok none => generatePrivateKey H rest net
                | .ok (some k) => .ok (k, rest)
              else generatePrivateKey H rest net := by
            intro rest
            rw [List.append_assoc, h, generatePrivateKey_step]
            have e1 : (b ++ rest).take 32 = b := by rw [← hb]; simp
            have e2 : (b ++ rest).drop 32 = rest := by rw [← hb]; simp
            rw [if_pos (by simp; omega), e1, e2]
            cases attempt H net (bytesToNat b) with
            | ok o => cases o <;> rfl
            | err e => rfl
            | panic p => rfl
          have key0 := key []
          rw [List.append_nil] at key0
          unfold keyBlock
          rw [generateRandomBigInt_step, if_pos (by omega), List.take_of_length_le (by omega),
            List.drop_eq_nil_of_le (by omega)]
          by_cases hv : bytesToNat b < Spec.n - 1
          · simp only [hv, if_true] at key key0 ⊢
            cases ha : attempt H net (bytesToNat b) with
            | err e => simp only [ha] at key0 ⊢; simp [Job.alone, key0, Res.bind]
            | panic p => simp only [ha] at key0 ⊢; simp [Job.alone, key0, Res.bind]
            | ok o =>
              cases o with
              | some k => simp only [ha] at key0 ⊢; simp [Job.alone, key0, Res.bind]
              | none => simp only [ha] at key ⊢; exact key
          · simp only [hv, if_false] at key ⊢
            have : generateRandomBigInt [] = .panic (.explicit .randRead) := by
              rw [generateRandomBigInt_step]; simp
            rw [this]
            exact key
        · unfold Shared.draw
          rw [if_neg hl]
          exact h
      | phrase words wl =>
        simp only [Shared.Good, hs, hjob] at h
        cases wl with
        | none =>
          simp only [Shared.Good, if_true, hjob]
          have : Shared.own { s with status := fun j_1 => if j_1 = j then some (.err .invalidWordlist) else s.status j_1 } j =
            s.own j := rfl
          simp [Job.alone, newMnemonic, Res.bind]
        | some wl =>
          simp only
          cases hl : entropyLengthOf words with
          | none => simp [Shared.Good, hjob, Job.alone, newMnemonic, hl, Res.bind]
          | some l =>
            simp only
            by_cases hlen : l / 8 ≤ s.source.length
            · have hown := s.own_draw j j (l / 8) (fun block =>
                some ((phraseOf H l (bytesToNat block) wl).bind fun ph => .ok (.phrase ph))) hlen
              rw [if_pos rfl, h, List.nil_append] at hown
              have hst : (s.draw j (l / 8) (fun block =>
                some ((phraseOf H l (bytesToNat block) wl).bind fun ph => .ok (.phrase ph)))).status j =
                  some ((phraseOf H l (bytesToNat (s.source.take (l / 8))) wl).bind fun ph => .ok (.phrase ph)) := by
                unfold Shared.draw; rw [if_pos hlen]; simp
              have hb : (s.source.take (l / 8)).length = l / 8 := by simp; omega
              unfold Shared.Good
              rw [hst, hown, hjob]
              generalize s.source.take (l / 8) = b at hb
              obtain ⟨c, h1, h2, rfl, rfl⟩ := entropyLengthOf_some hl
              have e : newMnemonic H b ((3 * c : Nat) : Int) (some wl) =
                  (phraseOf H (32 * c) (bytesToNat b) wl).bind fun ph => .ok (ph, []) := by
                rw [newMnemonic_eq H b wl h1 h2, if_pos (by omega), List.take_of_length_le (by omega),
                  List.drop_eq_nil_of_le (by omega)]
              simp only [Job.alone, e]
              cases phraseOf H (32 * c) (bytesToNat b) wl <;> simp [Res.bind]
            · unfold Shared.draw
              rw [if_neg hlen]
              simp only [Shared.Good, hs, hjob]
              exact h
    · have other : ∀ s' : Shared, s'.status j = s.status j → s'.own j = s.own j → s'.Good H jobs j := by
        intro s' e1 e2
        unfold Shared.Good at h ⊢
        rw [e1, e2]; exact h
      have dr : ∀ k f, (s.draw i k f).Good H jobs j := by
        intro k f
        by_cases hk : k ≤ s.source.length
        · refine other _ ?_ ((s.own_draw i j k f hk).trans (if_neg hj))
          unfold Shared.draw; rw [if_pos hk]; simp [hj]
        · unfold Shared.draw; rw [if_neg hk]; exact h
      split
      · exact dr _ _
      · exact other _ (by simp [hj]) rfl
      · split
        · exact other _ (by simp [hj]) rfl
        · exact dr _ _

theorem Shared.good_run (H : Hashes) (jobs : Nat → Job) (source : Bytes) (schedule : List Nat) (i : Nat) :
    (Shared.run H jobs source schedule).Good H jobs i := by
  unfold Shared.run
  have h0 : (Shared.start source).Good H jobs i := by
    unfold Shared.Good Shared.start Shared.own
    cases jobs i <;> simp
  generalize Shared.start source = s at h0
  induction schedule generalizing s with
  | nil => exact h0
  | cons j js ih => exact ih _ (s.good_step H jobs j i h0)

/-- C101. Whatever the order in which concurrent calls are served, the blocks handed out are, in that order, exactly
the beginning of the source: no byte is given to two calls and none is lost. -/
theorem C101_partition (H : Hashes) (jobs : Nat → Job) (source : Bytes) (schedule : List Nat) :
    ((Shared.run H jobs source schedule).log.map Prod.snd).flatten ++ (Shared.run H jobs source schedule).source =
      source := by
  unfold Shared.run
  have h0 : ((Shared.start source).log.map Prod.snd).flatten ++ (Shared.start source).source = source := by
    simp [Shared.start]
  generalize Shared.start source = s at h0
  induction schedule generalizing s with
  | nil => exact h0
  | cons j js ih =>
    refine ih _ ?_
    have dr : ∀ i k f, ((s.draw i k f).log.map Prod.snd).flatten ++ (s.draw i k f).source = source := by
      intro i k f
      unfold Shared.draw
      split
      · simpa using h0
      · exact h0
    unfold Shared.step
    split
    · exact h0
    · split
      · exact dr _ _ _
      · exact h0
      · split
        · exact h0
        · exact dr _ _ _

/-- C101. A call that has ended, ended exactly as if it had been made alone on the bytes it was handed, with nothing
left over. One that has not ended would still be asking for bytes there. -/
theorem C101_alone (H : Hashes) (jobs : Nat → Job) (source : Bytes) (schedule : List Nat) (i : Nat) :
    (∀ r, (Shared.run H jobs source schedule).status i = some (.ok r) →
      (jobs i).alone H ((Shared.run H jobs source schedule).own i) = .ok (r, [])) ∧
    (∀ e, (Shared.run H jobs source schedule).status i = some (.err e) →
      (jobs i).alone H ((Shared.run H jobs source schedule).own i) = .err e) ∧
    (∀ p, (Shared.run H jobs source schedule).status i = some (.panic p) →
      (jobs i).alone H ((Shared.run H jobs source schedule).own i) = .panic p) ∧
    (∀ net, jobs i = .key net → (Shared.run H jobs source schedule).status i = none →
      generatePrivateKey H ((Shared.run H jobs source schedule).own i) net = .panic (.explicit .randRead)) ∧
    (∀ words wl, jobs i = .phrase words wl → (Shared.run H jobs source schedule).status i = none →
      (Shared.run H jobs source schedule).own i = []) := by
  have h := Shared.good_run H jobs source schedule i
  unfold Shared.Good at h
  refine ⟨fun r hr => ?_, fun e hr => ?_, fun p hr => ?_, fun net hj hr => ?_, fun words wl hj hr => ?_⟩
  · rw [hr] at h; exact h
  · rw [hr] at h; exact h
  · rw [hr] at h; exact h
  · rw [hr, hj] at h
    have h1 := h []
    rw [List.append_nil] at h1
    rw [h1, generatePrivateKey_step]; simp
  · rw [hr, hj] at h; exact h

/-- How many bytes a call asks for at a time: 32 for a key, four for every three words of a phrase. -/
def Job.blockSize : Job → Nat
  | .key _ => 32
  | .phrase words _ => (words / 3 * 4).toNat

/-- Every call that returned owes its result to one block handed to it. -/
theorem Shared.last_block (H : Hashes) (jobs : Nat → Job) (source : Bytes) (schedule : List Nat) (i : Nat) (r : Drawn)
    (hr : (Shared.run H jobs source schedule).status i = some (.ok r)) :
    ∃ b, (i, b) ∈ (Shared.run H jobs source schedule).log ∧ b.length = (jobs i).blockSize ∧
      (jobs i).alone H b = .ok (r, []) := by
  unfold Shared.run at hr ⊢
  have h0 : ∀ r, (Shared.start source).status i = some (.ok r) → ∃ b, (i, b) ∈ (Shared.start source).log ∧
      b.length = (jobs i).blockSize ∧ (jobs i).alone H b = .ok (r, []) := by
    simp [Shared.start]
  have hg : ∀ j, (Shared.start source).Good H jobs j := Shared.good_run H jobs source []
  generalize Shared.start source = s at h0 hg hr
  induction schedule generalizing s with
  | nil => exact h0 r hr
  | cons j js ih =>
    refine ih (s.step H jobs j) ?_ (fun i => s.good_step H jobs j i (hg i)) hr
    clear ih hr r
    intro r hr
    have dr : ∀ k f, k = (jobs j).blockSize → (∀ b r, b.length = k → f b = some (.ok r) → (jobs j).alone H b = .ok (r, [])) →
        (s.draw j k f).status i = some (.ok r) → ∃ b, (i, b) ∈ (s.draw j k f).log ∧ b.length = (jobs i).blockSize ∧
          (jobs i).alone H b = .ok (r, []) := by
      intro k f hk hf h
      by_cases hl : k ≤ s.source.length
      · unfold Shared.draw at h ⊢
        rw [if_pos hl] at h ⊢
        by_cases hi : i = j
        · subst hi
          simp only [if_true] at h
          exact ⟨s.source.take k, by simp, by simp; omega, hf _ _ (by simp; omega) h⟩
        · simp only [if_neg hi] at h
          obtain ⟨b, h1, h2⟩ := h0 r h
          exact ⟨b, by simp [h1], h2⟩
      · unfold Shared.draw at h ⊢
        rw [if_neg hl] at h ⊢
        exact h0 r h
    unfold Shared.step at hr ⊢
    cases hs : s.status j with
    | some q =>
      simp only [hs] at hr ⊢
      exact h0 r hr
    | none =>
      simp only [hs] at hr ⊢
      cases hj : jobs j with
      | key net =>
        simp only [hj] at hr ⊢
        refine dr 32 (keyBlock H net) (by rw [hj]; rfl) ?_ hr
        intro b r hb h
        unfold keyBlock at h
        rw [generateRandomBigInt_step, if_pos (by omega), List.take_of_length_le (by omega),
            List.drop_eq_nil_of_le (by omega)] at h
        rw [hj]
        simp only [Job.alone]
        rw [generatePrivateKey_step, if_pos (by omega), List.take_of_length_le (by omega),
            List.drop_eq_nil_of_le (by omega)]
        by_cases hv : bytesToNat b < Spec.n - 1
        · simp only [hv, if_true] at h ⊢
          cases ha : attempt H net (bytesToNat b) with
          | err e => simp [ha] at h
          | panic p => simp [ha] at h
          | ok o =>
            cases o with
            | some k =>
              simp only [ha, Option.some.injEq, Res.ok.injEq] at h
              simp [Res.bind, h]
            | none => simp [ha] at h
        · have : generateRandomBigInt [] = .panic (.explicit .randRead) := by
            rw [generateRandomBigInt_step]; simp
          simp [hv, this] at h
      | phrase words wl =>
        cases wl with
        | none =>
          simp only [hj] at hr ⊢
          by_cases hi : i = j
          · simp [hi] at hr
          · simp only [if_neg hi] at hr
            exact h0 r hr
        | some wl =>
          simp only [hj] at hr ⊢
          cases hl : entropyLengthOf words with
          | none =>
            simp only [hl] at hr ⊢
            by_cases hi : i = j
            · simp [hi] at hr
            · simp only [if_neg hi] at hr
              exact h0 r hr
          | some l =>
            simp only [hl] at hr ⊢
            obtain ⟨c, h1, h2, rfl, rfl⟩ := entropyLengthOf_some hl
            refine dr _ _ (by rw [hj]; simp only [Job.blockSize]; omega) ?_ hr
            intro b r hb h
            rw [hj]
            have e : newMnemonic H b ((3 * c : Nat) : Int) (some wl) =
                (phraseOf H (32 * c) (bytesToNat b) wl).bind fun ph => .ok (ph, []) := by
              rw [newMnemonic_eq H b wl h1 h2, if_pos (by omega), List.take_of_length_le (by omega),
                List.drop_eq_nil_of_le (by omega)]
            simp only [Job.alone, e]
            cases hp : phraseOf H (32 * c) (bytesToNat b) wl <;> simp_all [Res.bind]

/-- The same block handed to two goroutines occurs at two places of the source. -/
theorem Shared.twice (H : Hashes) (jobs : Nat → Job) (source : Bytes) (schedule : List Nat) {i j : Nat} (hij : i ≠ j)
    {b : Bytes} (hi : (i, b) ∈ (Shared.run H jobs source schedule).log)
    (hj : (j, b) ∈ (Shared.run H jobs source schedule).log) :
    ∃ pre mid post, source = pre ++ b ++ mid ++ b ++ post := by
  have hp := C101_partition H jobs source schedule
  generalize Shared.run H jobs source schedule = s at hi hj hp
  obtain ⟨l1, l2, e⟩ := List.append_of_mem hi
  rw [e] at hj
  rcases List.mem_append.1 hj with h | h
  · obtain ⟨l3, l4, e'⟩ := List.append_of_mem h
    rw [e, e'] at hp
    exact ⟨(l3.map Prod.snd).flatten, (l4.map Prod.snd).flatten, (l2.map Prod.snd).flatten ++ s.source, by
      rw [← hp]; simp⟩
  · rcases List.mem_cons.1 h with h | h
    · exact absurd (congrArg Prod.fst h).symm hij
    · obtain ⟨l3, l4, e'⟩ := List.append_of_mem h
      rw [e, e'] at hp
      exact ⟨(l1.map Prod.snd).flatten, (l3.map Prod.snd).flatten, (l4.map Prod.snd).flatten ++ s.source, by
        rw [← hp]; simp⟩

/-- C101. Two concurrent calls return keys with the same number only if the source delivered the same 32 bytes at two
different places, whatever the networks, the other calls and the order. -/
theorem C101_distinct_keys (H : Hashes) (jobs : Nat → Job) (source : Bytes) (schedule : List Nat) (i j : Nat)
    (hij : i ≠ j) (a b : PrivateKey)
    (ha : (Shared.run H jobs source schedule).status i = some (.ok (.key a)))
    (hb : (Shared.run H jobs source schedule).status j = some (.ok (.key b)))
    (hab : a.Key = b.Key) :
    ∃ block pre mid post, block.length = 32 ∧ source = pre ++ block ++ mid ++ block ++ post := by
  obtain ⟨x, x1, x2, x3⟩ := Shared.last_block H jobs source schedule i _ ha
  obtain ⟨y, y1, y2, y3⟩ := Shared.last_block H jobs source schedule j _ hb
  have number : ∀ (job : Job) (block : Bytes) (k : PrivateKey), block.length = job.blockSize →
      job.alone H block = .ok (.key k, []) → block.length = 32 ∧ k.Key = some (bytesToNat block : Int) := by
    intro job block k hl hk
    cases job with
    | phrase words wl =>
      simp only [Job.alone] at hk
      cases hm : newMnemonic H block words wl <;> simp [hm, Res.bind] at hk
    | key net =>
      have hl : block.length = 32 := hl
      simp only [Job.alone] at hk
      cases hg : generatePrivateKey H block net with
      | err e => simp [hg, Res.bind] at hk
      | panic p => simp [hg, Res.bind] at hk
      | ok q =>
        rw [hg] at hk
        simp only [Res.bind, Res.ok.injEq, Prod.mk.injEq, Drawn.key.injEq] at hk
        obtain ⟨q1, q2⟩ := q
        obtain ⟨rfl, rfl⟩ := hk
        refine ⟨hl, ?_⟩
        rw [generatePrivateKey_step, if_pos (by omega), List.take_of_length_le (by omega),
            List.drop_eq_nil_of_le (by omega)] at hg
        have nil : ∀ q, generatePrivateKey H [] net ≠ .ok q := by
          intro q; rw [generatePrivateKey_step]; simp
        split at hg
        · rename_i hv
          split at hg
          · simp at hg
          · simp at hg
          · exact absurd hg (nil _)
          · rename_i k hk
            simp only [Res.ok.injEq, Prod.mk.injEq] at hg
            rw [← hg.1]
            exact (attempt_some H (by omega) hk).2.1
        · exact absurd hg (nil _)
  obtain ⟨l1, n1⟩ := number _ _ _ x2 x3
  obtain ⟨l2, n2⟩ := number _ _ _ y2 y3
  have e : x = y := by
    refine bytesToNat_inj (l1.trans l2.symm) ?_
    rw [n1, n2] at hab
    simpa using hab
  subst e
  obtain ⟨pre, mid, post, h⟩ := Shared.twice H jobs source schedule hij x1 y1
  exact ⟨x, pre, mid, post, l1, h⟩

/-- C101. The same for phrases of the same length from the same list. -/
theorem C101_distinct_phrases (H : Hashes) (jobs : Nat → Job) (source : Bytes) (schedule : List Nat) (i j n : Nat)
    (wl : List GoString) (hij : i ≠ j) (hn : n ∈ [12, 15, 18, 21, 24]) (hnd : wl.Nodup)
    (hsp : ∀ w ∈ wl, (32 : UInt8) ∉ w) (hi : jobs i = .phrase n (some wl)) (hj : jobs j = .phrase n (some wl))
    (phrase : GoString)
    (ha : (Shared.run H jobs source schedule).status i = some (.ok (.phrase phrase)))
    (hb : (Shared.run H jobs source schedule).status j = some (.ok (.phrase phrase))) :
    ∃ block pre mid post, block.length = n / 3 * 4 ∧ source = pre ++ block ++ mid ++ block ++ post := by
  obtain ⟨x, x1, x2, x3⟩ := Shared.last_block H jobs source schedule i _ ha
  obtain ⟨y, y1, y2, y3⟩ := Shared.last_block H jobs source schedule j _ hb
  rw [hi] at x2 x3
  rw [hj] at y2 y3
  have size : ∀ block : Bytes, block.length = (Job.phrase n (some wl)).blockSize → block.length = n / 3 * 4 := by
    intro block h
    rw [h]; simp only [Job.blockSize]; omega
  have inner : ∀ block : Bytes, (Job.phrase n (some wl)).alone H block = .ok (.phrase phrase, []) →
      newMnemonic H block n (some wl) = .ok (phrase, []) := by
    intro block h
    simp only [Job.alone] at h
    cases hm : newMnemonic H block n (some wl) with
    | err e => simp [hm, Res.bind] at h
    | panic p => simp [hm, Res.bind] at h
    | ok q =>
      rw [hm] at h
      simp only [Res.bind, Res.ok.injEq, Prod.mk.injEq, Drawn.phrase.injEq] at h
      obtain ⟨q1, q2⟩ := q
      obtain ⟨rfl, rfl⟩ := h
      rfl
  have e := C46_phrase_determines_entropy H x [] y [] n wl phrase hn hnd hsp (inner x x3) (inner y y3)
  have l1 := size x x2
  have l2 := size y y2
  rw [List.take_of_length_le (by omega), List.take_of_length_le (by omega)] at e
  subst e
  obtain ⟨pre, mid, post, h⟩ := Shared.twice H jobs source schedule hij x1 y1
  exact ⟨x, pre, mid, post, l1, h⟩

/-! Three blocks, the first one refused. Two goroutines generate keys and a third a phrase of twelve words. -/

namespace Samples

/-- Goroutine 2 makes a phrase, all others keys. -/
def jobs (i : Nat) : Job := if i = 2 then .phrase 12 (some EnglishWordlist) else .key (some MainNetwork)

/-- A block that is refused, two that are accepted, sixteen bytes more. -/
def blocks : Bytes := List.replicate 32 1 ++ List.replicate 32 0x77 ++ List.replicate 32 0x55 ++ List.replicate 16 0x7f

/-- The number of the key goroutine `i` has returned. -/
def numberOf (s : Shared) (i : Nat) : Option Int :=
  match s.status i with
  | some (.ok (.key k)) => k.Key
  | _ => none

end Samples

/-- C101: which goroutine gets which key depends on the order; all of them end. -/
example :
    Samples.numberOf (Shared.run realHashes Samples.jobs Samples.blocks [0, 1, 0, 2]) 0 =
      some 0x5555555555555555555555555555555555555555555555555555555555555555 ∧
    Samples.numberOf (Shared.run realHashes Samples.jobs Samples.blocks [0, 1, 0, 2]) 1 =
      some 0x7777777777777777777777777777777777777777777777777777777777777777 ∧
    Samples.numberOf (Shared.run realHashes Samples.jobs Samples.blocks [1, 1, 0, 2]) 0 =
      some 0x5555555555555555555555555555555555555555555555555555555555555555 ∧
    Samples.numberOf (Shared.run realHashes Samples.jobs Samples.blocks [0, 0, 1, 2]) 0 =
      some 0x7777777777777777777777777777777777777777777777777777777777777777 := by
  decide +kernel

/-- The third goroutine reads the last sixteen bytes; had it come first, it would have read the first sixteen. -/
example :
    (Shared.run realHashes Samples.jobs Samples.blocks [0, 1, 0, 2]).own 2 = List.replicate 16 0x7f ∧
    (Shared.run realHashes Samples.jobs Samples.blocks [2, 0]).own 2 = List.replicate 16 1 ∧
    (match (Shared.run realHashes Samples.jobs Samples.blocks [0, 1, 0, 2]).status 2 with
      | some (.ok (.phrase _)) => true
      | _ => false) = true := by
  decide +kernel

/-- The hypothesis of `C101_distinct_keys` can hold: a source that repeats a block gives two goroutines the same key. -/
example :
    Samples.numberOf (Shared.run realHashes Samples.jobs (List.replicate 64 0x77) [0, 1]) 0 =
      Samples.numberOf (Shared.run realHashes Samples.jobs (List.replicate 64 0x77) [0, 1]) 1 ∧
    Samples.numberOf (Shared.run realHashes Samples.jobs (List.replicate 64 0x77) [0, 1]) 1 =
      some 0x7777777777777777777777777777777777777777777777777777777777777777 := by
  decide +kernel

end Btc
