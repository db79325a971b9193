import Verif.Proofs.Phrase
import Verif.Source.Mnemonic
import Verif.Source.RepairKeys

/-!
# Runs of the repaired functions for phrases
-/

namespace Btc.Source

open Mem Spec

/-- The body of the loop over the words in the repaired `NewMnemonic` (mnemonic.go:133-144, with changes). -/
def pickBodyFixed : Stmt := value_of% (rNewMnemonic.body.at 24).body

/-- What follows the choice of the length in the repaired `NewMnemonic` (mnemonic.go:105-146, with changes). -/
def restFixed : Stmt := value_of% rNewMnemonic.body.after 3

/-- The first statement of the repaired `NewMnemonic` (mnemonic.go:79-81, with changes). -/
def guardFixed : Stmt := value_of% rNewMnemonic.body.at 0

theorem rNewMnemonic_body : rNewMnemonic.body = .seq guardFixed (.seq mnemonicVar (.seq mnemonicSwitch restFixed)) := (rfl)

/-- The variables of the repaired `NewMnemonic` in the loop over the words. -/
def wordEnv (env : List (Nat × Value)) (i : Nat) (phrase : Option (List GoString)) : Env :=
  [[(id! "i", .int i)], (id! "phrase", .strs phrase) :: env]

theorem slice_group {bits : List Bool} {i : Nat} (h : i + 11 ≤ bits.length) :
    slice (bits.map bitChar) (i : Int) ((i : Int) + 11) = .ok (((bits.drop i).take 11).map bitChar) := by
  rw [slice, if_pos (by rw [List.length_map]; omega), ← List.map_drop, ← List.map_take]
  simp

theorem picks_fixed (C : Ctx) (m : Nat) (env : List (Nat × Value)) (bits : List Bool) (wl : List GoString) (hl : 2048 ≤ wl.length)
    (hb : scopeGet (id! "b") env = some (.str (bits.map bitChar))) (hw : scopeGet (id! "wordlist") env = some (.strs (some wl))) :
    ∀ (k n i : Nat) (ph : Option (List GoString)) (st : State), i + 11 * k = bits.length → k < n →
    ∃ ints i' ph' ws, st.heap.ints <+: ints ∧ SpellsBits wl ws (bits.drop i) ∧ ph'.getD [] = ph.getD [] ++ ws ∧
      rounds (eval C (.bin (id! "<") (.name (id! "i")) (.call (.name (id! "len")) (.cons (.name (id! "b")) .nil))))
        (exec C m pickBodyFixed) (exec C m (.addAssign (.name (id! "i")) (.num 11))) n (wordEnv env i ph) st =
        .ok (.next (wordEnv env i' ph')) { st with heap := { st.heap with ints := ints } }
  | _, 0, i, ph, st, _, h => by omega
  | 0, n + 1, i, ph, st, hk, h => by
    have hc : ¬ (i : Int) < (bits.map bitChar).length := by rw [List.length_map]; omega
    unfold rounds wordEnv
    go_run [hc, hb]
    refine ⟨st.heap.ints, i, ph, [], List.prefix_refl _, ?_, by simp, rfl⟩
    rw [List.drop_of_length_le (by omega)]
    exact .nil
  | k + 1, n + 1, i, ph, st, hk, h => by
    have hc : (i : Int) < (bits.map bitChar).length := by rw [List.length_map]; omega
    have ih := picks_fixed C m env bits wl hl hb hw k n (i + 11)
    have hg : ((bits.drop i).take 11).length = 11 := by rw [List.length_take, List.length_drop]; omega
    have hs := slice_group (bits := bits) (i := i) (by omega)
    have hv := bigSetString_bits (bs := (bits.drop i).take 11) (by intro h0; rw [h0] at hg; cases hg)
    have hlt := bitsNumber_lt ((bits.drop i).take 11)
    obtain ⟨w, hw'⟩ := exists_word hl hg
    have hi : index wl (bitsNumber ((bits.drop i).take 11) : Int) = .ok w := by rw [Imp.index_nat, hw']
    rw [hg] at hlt
    unfold rounds
    unfold wordEnv pickBodyFixed at ih ⊢
    go_run [hc, hb, hw, hs, hv, toInt64_small hlt, hi, Option.getD_some]
    obtain ⟨ints, i', ph', ws, hp, h1, h2, h3⟩ := ih (some (ph.getD [] ++ [w])) ⟨⟨st.heap.ints ++ [(bitsNumber ((bits.drop i).take 11) : Int)],
      st.heap.nets, st.heap.privs, st.heap.pubs, st.heap.curve⟩, st.hashes, st.rd, st.log, st.vars⟩ (by omega) (by omega)
    push_cast at h3
    refine ⟨ints, i', ph', w :: ws, (List.prefix_append _ _).trans hp, ?_, by rw [h2]; simp, h3⟩
    have := SpellsBits.cons hg hw' h1
    rwa [← List.drop_drop, List.take_append_drop] at this

/-- The bits of SHA-256 as the code writes them. -/
theorem pad256 (H : Hashes) (x : Bytes) :
    padZeros 256 (fmtNat 2 (bytesToNat (H.sha256 x))) = (bytesBits (H.sha256 x)).map bitChar := by
  have h := padZeros_bits (bs := bytesBits (H.sha256 x)) (by
    intro h0
    have := congrArg List.length h0
    rw [length_bytesBits, H.sha_len] at this
    cases this)
  rwa [length_bytesBits, bitsNumber_bytesBits, H.sha_len] at h

theorem slice_bits {bits : List Bool} {c : Nat} (h : c ≤ bits.length) : slice (bits.map bitChar) 0 (c : Int) = .ok ((bits.take c).map bitChar) := by
  rw [slice, if_pos (by rw [List.length_map]; omega)]
  simp

variable (H : Hashes) (E : EcdsaM)

theorem restFixed_run (n : Nat) (hn : 300 ≤ n) (words : Int) (wl : List GoString) (hl : wl.length = 2048) (c : Nat)
    (h4 : 4 ≤ c) (h8 : c ≤ 8) (st : State) : ∃ ints hs, st.heap.ints <+: ints ∧
    if 4 * c ≤ st.rd.length then
      ∃ ws, IsBip39 H.sha256 wl (st.rd.take (4 * c)) ws ∧
        ((exec ⟨H, E, runFunc H E repaired n⟩ n restFixed [[(id! "entropyLength", .int (32 * c : Nat)), (id! "words", .int words),
          (id! "wordlist", .strs (some wl))]] st).andThen rNewMnemonic.finish) =
        .ok [.str (phraseText ws), .err none] ⟨{ st.heap with ints := ints }, hs, st.rd.drop (4 * c), st.log, st.vars⟩
    else ((exec ⟨H, E, runFunc H E repaired n⟩ n restFixed [[(id! "entropyLength", .int (32 * c : Nat)), (id! "words", .int words),
          (id! "wordlist", .strs (some wl))]] st).andThen rNewMnemonic.finish) =
        .ok [.str [], .err (some .randRead)] ⟨{ st.heap with ints := ints }, hs, st.rd, st.log, st.vars⟩ := by
  have hfin : rNewMnemonic.results = [.name (id! "string"), .name (id! "error")] := rfl
  obtain ⟨n, rfl⟩ : ∃ m, n = m + 1 := ⟨n - 1, by omega⟩
  unfold restFixed
  generalize hel : 32 * c = el
  have he : ¬ (el : Int) ≤ 0 := by omega
  have hp : ¬ (2 : Int) ^ el ≤ 0 := not_le.2 (by positivity)
  have h2 : ((2 : Int) ^ el).toNat = 2 ^ el := by
    have : ((2 : Int) ^ el) = ((2 ^ el : Nat) : Int) := by push_cast; rfl
    rw [this, Int.toNat_natCast]
  have h32 : (el : Int).tdiv 32 = (c : Int) := by
    rw [Int.tdiv_eq_ediv_of_nonneg (by omega)]; omega
  have h4' : (el : Int).tdiv 4 = ((2 * (4 * c) : Nat) : Int) := by
    rw [Int.tdiv_eq_ediv_of_nonneg (by omega)]; omega
  have hr := randInt_bytes st.rd (k := 4 * c) (by omega)
  rw [show 8 * (4 * c) = el by omega] at hr
  go_run [hfin, readInt_before, writeInt_before, he, Int.toNat_natCast, hp, h2]
  by_cases hle : 4 * c ≤ st.rd.length
  case neg =>
    rw [if_neg hle] at hr
    simp only [if_neg hle, drawBig_err hr]
    go_run [hfin]
    exact ⟨_, _, by simp only [List.append_assoc]; exact List.prefix_append _ _, rfl⟩
  rw [if_pos hle] at hr
  simp only [if_pos hle, drawBig_ok hr]
  go_run [h32, h4', Imp.fmtBig_nat, Int.natAbs_natCast, fixed_bigIntToHex]
  set ent := List.take (4 * c) st.rd with hent
  have hlen : ent.length = 4 * c := by rw [hent, List.length_take]; omega
  have hne : ent ≠ [] := by intro h0; rw [h0, List.length_nil] at hlen; omega
  have hld := fun y => readInt_before (st.heap.ints ++ [(2 : Int) ^ el] ++ [(el : Int)]) (bytesToNat ent : Int) y st.heap.nets st.heap.privs
    st.heap.pubs st.heap.curve
  generalize some (st.heap.ints ++ [(2 : Int) ^ el] ++ [(el : Int)]).length = p1, some st.heap.ints.length = p3 at hld ⊢
  have hpad := exec_pad ⟨H, E, runFunc H E repaired (n + 1)⟩ (x := id! "hexa") (k := .name (id! "hexaLength")) (len := 2 * (4 * c)) (fun t =>
    [[(id! "hexaLength", .int (2 * (4 * c) : Nat)), (id! "hexa", .str t), (id! "err", .err none), (id! "entropy", .big p1), (id! "np256", .big p3),
    (id! "entropyLength", .int el), (id! "words", .int words), (id! "wordlist", .strs (some wl))]]) (by decide) (fun _ => rfl)
    (fun _ _ => rfl) (fun _ _ => rfl) (n + 1) (by omega) (bigIntToHex (some (bytesToNat ent : Int)))
  unfold padLoop at hpad
  go_run [hpad]
  rw [← hlen, padHex_bytes hne, hlen]
  go_run [hexDecode_hexEncode, h32, Imp.fmtBig_nat]
  have hI : st.heap.ints <+: st.heap.ints ++ [(2 : Int) ^ el] ++ [(el : Int)] ++ [(bytesToNat ent : Int)] ++
      [(bytesToNat (H.sha256 ent) : Int)] := by
    simp only [List.append_assoc]
    exact List.prefix_append _ _
  have hld := hld (bytesToNat (H.sha256 ent) : Int)
  generalize some (st.heap.ints ++ [(2 : Int) ^ el] ++ [(el : Int)] ++ [(bytesToNat ent : Int)]).length = p2,
    st.heap.ints ++ [(2 : Int) ^ el] ++ [(el : Int)] ++ [(bytesToNat ent : Int)] ++ [(bytesToNat (H.sha256 ent) : Int)] = I at hI hld ⊢
  have hpad := exec_pad ⟨H, E, runFunc H E repaired (n + 1)⟩ (x := id! "hashBinary") (k := .num 256) (len := 256) (fun t =>
    [[(id! "hashBinary", .str t), (id! "hashInt", .big p2), (id! "checksumLength", .int c), (id! "hash", .bytes (H.sha256 ent)),
    (id! "sha", .hash st.hashes.length), (id! "entropyBytes", .bytes ent), (id! "hexaLength", .int (2 * (4 * c) : Nat)),
    (id! "hexa", .str (hexEncode ent)), (id! "err", .err none), (id! "entropy", .big p1), (id! "np256", .big p3),
    (id! "entropyLength", .int el), (id! "words", .int words), (id! "wordlist", .strs (some wl))]]) (by decide) (fun _ => rfl)
    (fun _ _ => rfl) (fun _ _ => rfl) (n + 1) (by omega) (fmtNat 2 (bytesToNat (H.sha256 ent)))
  unfold padLoop at hpad
  go_run [hpad, pad256]
  rw [slice_bits (by rw [length_bytesBits, H.sha_len]; omega)]
  go_run [hld, Imp.fmtBig_nat]
  have hpad := exec_pad ⟨H, E, runFunc H E repaired (n + 1)⟩ (x := id! "b") (k := .name (id! "entropyLength")) (len := el) (fun t =>
    [[(id! "b", .str t), (id! "checksumBinary", .str (((bytesBits (H.sha256 ent)).take c).map bitChar)),
    (id! "hashBinary", .str ((bytesBits (H.sha256 ent)).map bitChar)), (id! "hashInt", .big p2), (id! "checksumLength", .int c),
    (id! "hash", .bytes (H.sha256 ent)),
    (id! "sha", .hash st.hashes.length), (id! "entropyBytes", .bytes ent), (id! "hexaLength", .int (2 * (4 * c) : Nat)),
    (id! "hexa", .str (hexEncode ent)), (id! "err", .err none), (id! "entropy", .big p1), (id! "np256", .big p3),
    (id! "entropyLength", .int el), (id! "words", .int words), (id! "wordlist", .strs (some wl))]]) (by decide) (fun _ => rfl)
    (fun _ _ => rfl) (fun _ _ => rfl) (n + 1) (by omega) (fmtNat 2 (bytesToNat ent))
  unfold padLoop at hpad
  have hb : padZeros el (fmtNat 2 (bytesToNat ent)) = (bytesBits ent).map bitChar := by
    have := padZeros_bits (bs := bytesBits ent) (by
      intro h0
      have := congrArg List.length h0
      rw [length_bytesBits, List.length_nil] at this
      omega)
    rwa [length_bytesBits, bitsNumber_bytesBits, hlen, show 8 * (4 * c) = el by omega] at this
  rw [hb] at hpad
  go_run [hpad, exec_loop]
  rw [← List.map_append]
  obtain ⟨ints, i', ph', ws, hg, h1, h2, h3⟩ := picks_fixed ⟨H, E, runFunc H E repaired (n + 1)⟩ (n + 1)
    [(id! "b", .str ((bytesBits ent ++ (bytesBits (H.sha256 ent)).take c).map bitChar)),
    (id! "checksumBinary", .str (((bytesBits (H.sha256 ent)).take c).map bitChar)),
    (id! "hashBinary", .str ((bytesBits (H.sha256 ent)).map bitChar)), (id! "hashInt", .big p2), (id! "checksumLength", .int c),
    (id! "hash", .bytes (H.sha256 ent)),
    (id! "sha", .hash st.hashes.length), (id! "entropyBytes", .bytes ent), (id! "hexaLength", .int (2 * (4 * c) : Nat)),
    (id! "hexa", .str (hexEncode ent)), (id! "err", .err none), (id! "entropy", .big p1), (id! "np256", .big p3),
    (id! "entropyLength", .int el), (id! "words", .int words), (id! "wordlist", .strs (some wl))]
    (bytesBits ent ++ (bytesBits (H.sha256 ent)).take c) wl (by omega) rfl rfl (3 * c) (n + 1) 0 none
    ⟨⟨I, st.heap.nets, st.heap.privs, st.heap.pubs, st.heap.curve⟩, st.hashes ++ [⟨false, ent⟩], st.rd.drop (4 * c), st.log, st.vars⟩
    (by rw [List.length_append, List.length_take, length_bytesBits, length_bytesBits, H.sha_len, hlen]; omega) (by omega)
  unfold pickBodyFixed wordEnv at h3
  simp only [Nat.cast_zero] at h3
  rw [List.drop_zero] at h1
  go_run [h3, hfin, h2, Option.getD_none]
  refine ⟨ints, st.hashes ++ [⟨false, ent⟩], hI.trans hg, ws, ⟨?_, ?_⟩, ?_⟩
  · rw [hlen]
    clear_value ent
    obtain rfl | rfl | rfl | rfl | rfl : c = 4 ∨ c = 5 ∨ c = 6 ∨ c = 7 ∨ c = 8 := by omega
    all_goals decide
  · rwa [hlen, show 4 * c / 4 = c by omega]
  · rw [joinSpace_eq]
    rfl

/-- A call returned no text but this error. -/
def GaveNoText (st : State) (e : GoError) (o : Out (List Value)) : Prop :=
  ∃ st', o = .ok [.str [], .err (some e)] st' ∧ Kept st st'

/-- Why there is no phrase with so many words of the list from these random bytes. -/
inductive WhyNoPhrase (words : Int) (wl : List GoString) (rd : Reader) : GoError → Prop
  /-- The list has not 2048 words. -/
  | list : wl.length ≠ 2048 → WhyNoPhrase words wl rd .invalidWordlist
  /-- It has, but there are no phrases of that number of words. -/
  | count : wl.length = 2048 → words ∉ [(12 : Int), 15, 18, 21, 24] → WhyNoPhrase words wl rd .unsupportedMnemonicLength
  /-- There are, but the random bytes do not suffice. -/
  | random {c : Nat} : wl.length = 2048 → 4 ≤ c → c ≤ 8 → words = (3 * c : Nat) → rd.length < 4 * c →
      WhyNoPhrase words wl rd .randRead

theorem WhyNoPhrase.not_phrase {words : Int} {wl : List GoString} {rd : Reader} {e : GoError} (h : WhyNoPhrase words wl rd e) :
    ¬ ∃ c : Nat, 4 ≤ c ∧ c ≤ 8 ∧ words = (3 * c : Nat) ∧ wl.length = 2048 ∧ 4 * c ≤ rd.length := by
  rintro ⟨c, h4, h8, hw, hl, hr⟩
  cases h with
  | list h => exact h hl
  | count _ h =>
    simp only [List.mem_cons, List.not_mem_nil, or_false] at h
    omega
  | random _ _ _ h1 h2 => omega

theorem Kept.ints {st : State} {ints : List Int} (h : st.heap.ints <+: ints) (hs : List HashObj) (rd : Reader) :
    Kept { st with rd := rd } ⟨{ st.heap with ints := ints }, hs, rd, st.log, st.vars⟩ :=
  ⟨⟨h, rfl, List.prefix_refl _, List.prefix_refl _, rfl⟩, rfl, rfl, rfl, fun ho => ho.ints h.length_le⟩

theorem fixed_NewMnemonic (n : Nat) (hn : 300 ≤ n) (words : Int) (wl : Option (List GoString)) (st : State) :
    (∃ c : Nat, 4 ≤ c ∧ c ≤ 8 ∧ words = (3 * c : Nat) ∧ (wl.getD []).length = 2048 ∧ 4 * c ≤ st.rd.length ∧
      ∃ ws st', IsBip39 H.sha256 (wl.getD []) (st.rd.take (4 * c)) ws ∧ Kept { st with rd := st.rd.drop (4 * c) } st' ∧
        runFunc H E repaired (n + 1) 0 (id! "NewMnemonic") [.int words, .strs wl] st = .ok [.str (phraseText ws), .err none] st') ∨
    ∃ e, WhyNoPhrase words (wl.getD []) st.rd e ∧
      GaveNoText st e (runFunc H E repaired (n + 1) 0 (id! "NewMnemonic") [.int words, .strs wl] st) := by
  have hfin : rNewMnemonic.results = [.name (id! "string"), .name (id! "error")] := rfl
  rw [runFunc_succ H E repaired_NewMnemonic _ rfl, rNewMnemonic_body]
  unfold guardFixed mnemonicVar mnemonicSwitch
  by_cases hl : ((wl.getD []).length : Int) = 2048
  case neg =>
    go_run [hl, hfin]
    exact .inr ⟨_, .list (by omega), _, rfl, .refl _⟩
  have rest := fun c h1 h2 => restFixed_run H E n hn words (wl.getD []) (by omega) c h1 h2 st
  cases wl with
  | none => simp at hl
  | some wl =>
    have key : ∀ c : Nat, 4 ≤ c → c ≤ 8 → ∀ o, o = ((exec ⟨H, E, runFunc H E repaired n⟩ n restFixed
        [[(id! "entropyLength", .int (32 * c : Nat)), (id! "words", .int words), (id! "wordlist", .strs (some wl))]] st).andThen
        rNewMnemonic.finish) → words = (3 * c : Nat) → (∃ c : Nat, 4 ≤ c ∧ c ≤ 8 ∧ words = (3 * c : Nat) ∧ wl.length = 2048 ∧
          4 * c ≤ st.rd.length ∧
      ∃ ws st', IsBip39 H.sha256 wl (st.rd.take (4 * c)) ws ∧ Kept { st with rd := st.rd.drop (4 * c) } st' ∧
        o = .ok [.str (phraseText ws), .err none] st') ∨
    ∃ e, WhyNoPhrase words wl st.rd e ∧ GaveNoText st e o := by
      intro c h4 h8 o ho hw
      simp only [Option.getD_some] at hl
      obtain ⟨ints, hs, hg, h⟩ := rest c h4 h8
      simp only [Option.getD_some] at h
      by_cases hle : 4 * c ≤ st.rd.length
      · simp only [if_pos hle] at h
        obtain ⟨ws, h1, h2⟩ := h
        exact .inl ⟨c, h4, h8, hw, by omega, hle, ws, _, h1, .ints hg hs _, ho.trans h2⟩
      · simp only [if_neg hle] at h
        exact .inr ⟨_, .random (by omega) h4 h8 hw (by omega), _, ho.trans h, .ints hg hs _⟩
    simp only [Option.getD_some] at hl
    by_cases h12 : words = 12
    · subst h12; go_run [hl]; exact key 4 (by omega) (by omega) _ rfl rfl
    by_cases h15 : words = 15
    · subst h15; go_run [hl]; exact key 5 (by omega) (by omega) _ rfl rfl
    by_cases h18 : words = 18
    · subst h18; go_run [hl]; exact key 6 (by omega) (by omega) _ rfl rfl
    by_cases h21 : words = 21
    · subst h21; go_run [hl]; exact key 7 (by omega) (by omega) _ rfl rfl
    by_cases h24 : words = 24
    · subst h24; go_run [hl]; exact key 8 (by omega) (by omega) _ rfl rfl
    go_run [hl, h12, h15, h18, h21, h24, hfin]
    exact .inr ⟨_, .count (by omega) (by simp only [List.mem_cons, List.not_mem_nil, or_false]; omega), _, rfl, .refl _⟩

/-- A call returned no bytes but this error. -/
def GaveNoBytes (st : State) (e : GoError) (o : Out (List Value)) : Prop :=
  ∃ st', o = .ok [.nil, .err (some e)] st' ∧ Kept st st'

/-- The words of the text are a phrase: each is in the list at the position that its eleven bits give, and their bits are
those of some entropy and its checksum. -/
def Accepts (wl : List GoString) (mn : GoString) : Prop := ∃ ent, IsBip39 H.sha256 wl ent (splitSpace mn)

/-- Why a text is not accepted with the list. -/
inductive WhyNoSeed (wl : List GoString) (mn : GoString) : GoError → Prop
  /-- The list has not 2048 words. -/
  | list : wl.length ≠ 2048 → WhyNoSeed wl mn .invalidWordlist
  /-- It has, but there is a word not in it. -/
  | word {w : GoString} : wl.length = 2048 → w ∈ splitSpace mn → w ∉ wl → WhyNoSeed wl mn .invalidMnemonic
  /-- All words are in it, but there are no phrases of that number of words. -/
  | count : wl.length = 2048 → (∀ w ∈ splitSpace mn, w ∈ wl) → (splitSpace mn).length ∉ [12, 15, 18, 21, 24] →
      WhyNoSeed wl mn .unsupportedMnemonicLength
  /-- There are, but the last bits are not the checksum of those before. -/
  | checksum : wl.length = 2048 → (∀ w ∈ splitSpace mn, w ∈ wl) → (splitSpace mn).length ∈ [12, 15, 18, 21, 24] →
      (wl.Nodup → ¬ Accepts H wl mn) → WhyNoSeed wl mn .invalidChecksum

theorem Accepts.count {wl : List GoString} {mn : GoString} (h : Accepts H wl mn) :
    (splitSpace mn).length ∈ [12, 15, 18, 21, 24] := by
  obtain ⟨ent, h1, h2⟩ := h
  have e := h2.length
  rw [List.length_append, List.length_take, length_bytesBits, length_bytesBits, H.sha_len] at e
  simp only [List.mem_cons, List.not_mem_nil, or_false] at h1 ⊢
  omega

theorem WhyNoSeed.not_accepted {wl : List GoString} {mn : GoString} {e : GoError} (h : WhyNoSeed H wl mn e) :
    wl.Nodup → ¬ (wl.length = 2048 ∧ Accepts H wl mn) := by
  rintro hnd ⟨hl, ha⟩
  cases h with
  | list h => exact h hl
  | word _ h1 h2 =>
    obtain ⟨ent, -, h⟩ := ha
    exact h2 (h.mem _ h1)
  | count _ _ h => exact h (ha.count H)
  | checksum _ _ _ h => exact h hnd ha

/-- The statements of the repaired `NewSeedFromMnemonic` before the number of words is checked (mnemonic.go:16-36, with
changes). -/
def seedHead (rest : Stmt) : Stmt :=
  .seq (value_of% rNewSeedFromMnemonic.body.at 0) (.seq (value_of% rNewSeedFromMnemonic.body.at 1)
    (.seq (value_of% rNewSeedFromMnemonic.body.at 2) (.seq (value_of% rNewSeedFromMnemonic.body.at 3)
      (.seq (value_of% rNewSeedFromMnemonic.body.at 4) (.seq (value_of% rNewSeedFromMnemonic.body.at 5) rest)))))

/-- The statements after (mnemonic.go:38-73, with changes). -/
def seedTail : Stmt := value_of% rNewSeedFromMnemonic.body.after 6

theorem rNewSeedFromMnemonic_body : rNewSeedFromMnemonic.body = seedHead seedTail := (rfl)

theorem seedTail_run (mn pa : GoString) (wl : Option (List GoString)) (words : List GoString) (bits : List Bool) (c : Nat)
    (h4 : 4 ≤ c) (h8 : c ≤ 8) (hb : bits.length = 33 * c) (n : Nat) (hn : 300 ≤ n) (st : State) :
    ∃ ent st', ent.length = 4 * c ∧ bits.take (32 * c) = bytesBits ent ∧ Kept st st' ∧
      ((exec ⟨H, E, runFunc H E repaired n⟩ n seedTail [[(id! "supported", .bool true), (id! "binary", .str (bits.map bitChar)),
        (id! "words", .strs (some words)), (id! "mnemonic", .str mn), (id! "passphrase", .str pa), (id! "wordlist", .strs wl)]] st).andThen
        rNewSeedFromMnemonic.finish) =
      .ok [.nil, .err (if (bytesBits (H.sha256 ent)).take c = bits.drop (32 * c) then none else some .invalidChecksum)] st' := by
  have hfin : rNewSeedFromMnemonic.results = value_of% rNewSeedFromMnemonic.results := rfl
  obtain ⟨n, rfl⟩ : ∃ m, n = m + 1 := ⟨n - 1, by omega⟩
  obtain ⟨ent, hent, hbits⟩ := exists_bytes (bits := bits.take (32 * c)) (k := 4 * c) (by rw [List.length_take]; omega)
  have hl33 : ((bits.map bitChar).length : Int).tdiv 33 = (c : Int) := by
    rw [Int.tdiv_eq_ediv_of_nonneg (by omega), List.length_map]; omega
  have hl32 : ((bits.map bitChar).length : Int) - c = ((32 * c : Nat) : Int) := by
    rw [List.length_map]; omega
  have hl4 : ((32 * c : Nat) : Int).tdiv 4 = ((2 * ent.length : Nat) : Int) := by
    rw [Int.tdiv_eq_ediv_of_nonneg (by omega)]; omega
  have hne : bits.take (32 * c) ≠ [] := by
    intro h0
    have := congrArg List.length h0
    rw [List.length_take, List.length_nil] at this
    omega
  have hne' : ent ≠ [] := by intro h0; rw [h0, List.length_nil] at hent; omega
  replace hbits := hbits.symm
  have hv := bigSetString_bits hne
  rw [hbits, bitsNumber_bytesBits] at hv
  have hs1 := slice_bits (bits := bits) (c := 32 * c) (by omega)
  have hs2 : slice (bits.map bitChar) ((32 * c : Nat) : Int) ((bits.map bitChar).length : Int) = .ok ((bits.drop (32 * c)).map bitChar) := by
    rw [slice_to_end (by rw [List.length_map]; omega), List.map_drop]
  unfold seedTail
  go_run [hfin, hl33, hl32, hl4, hs1, hbits, hv, fixed_bigIntToHex]
  generalize some st.heap.ints.length = p1
  have hpad := exec_pad ⟨H, E, runFunc H E repaired (n + 1)⟩ (x := id! "hash") (k := .name (id! "hashLength")) (len := 2 * ent.length) (fun t =>
    [[(id! "hashLength", .int (2 * ent.length : Nat)), (id! "hash", .str t), (id! "entropy", .big p1),
    (id! "entropyLength", .int (32 * c : Nat)), (id! "checksumLength", .int c), (id! "supported", .bool true),
    (id! "binary", .str (bits.map bitChar)), (id! "words", .strs (some words)), (id! "mnemonic", .str mn), (id! "passphrase", .str pa),
    (id! "wordlist", .strs wl)]]) (by decide) (fun _ => rfl)
    (fun _ _ => rfl) (fun _ _ => rfl) (n + 1) (by omega) (bigIntToHex (some (bytesToNat ent : Int)))
  unfold padLoop at hpad
  go_run [hpad, padHex_bytes hne', hs2, hexDecode_hexEncode, Imp.fmtBig_nat]
  generalize some (st.heap.ints ++ [(bytesToNat ent : Int)]).length = p2
  have hpad := exec_pad ⟨H, E, runFunc H E repaired (n + 1)⟩ (x := id! "shaHashBinary") (k := .num 256) (len := 256) (fun t =>
    [[(id! "shaHashBinary", .str t), (id! "shaHashBig", .big p2), (id! "shaHash", .bytes (H.sha256 ent)), (id! "err", .err none),
    (id! "decoded", .bytes ent), (id! "sha", .hash st.hashes.length), (id! "checksum", .str ((bits.drop (32 * c)).map bitChar)),
    (id! "hashLength", .int (2 * ent.length : Nat)), (id! "hash", .str (hexEncode ent)), (id! "entropy", .big p1),
    (id! "entropyLength", .int (32 * c : Nat)), (id! "checksumLength", .int c), (id! "supported", .bool true),
    (id! "binary", .str (bits.map bitChar)), (id! "words", .strs (some words)), (id! "mnemonic", .str mn), (id! "passphrase", .str pa),
    (id! "wordlist", .strs wl)]]) (by decide) (fun _ => rfl)
    (fun _ _ => rfl) (fun _ _ => rfl) (n + 1) (by omega) (fmtNat 2 (bytesToNat (H.sha256 ent)))
  unfold padLoop at hpad
  go_run [hpad, pad256]
  rw [slice_bits (by rw [length_bytesBits, H.sha_len]; omega)]
  go_run
  have hK := Kept.ints (st := st) (ints := st.heap.ints ++ [(bytesToNat ent : Int)] ++ [(bytesToNat (H.sha256 ent) : Int)])
    (by simp only [List.append_assoc]; exact List.prefix_append _ _) (st.hashes ++ [⟨false, ent⟩]) st.rd
  by_cases hc : (bytesBits (H.sha256 ent)).take c = bits.drop (32 * c)
  · go_run [hc]
    exact ⟨ent, _, hent, rfl, hK, by rw [if_pos hc]; rfl⟩
  · have hc' : ¬ ((bytesBits (H.sha256 ent)).take c).map bitChar = (bits.drop (32 * c)).map bitChar :=
      fun h => hc (map_bitChar_inj h)
    go_run [hc']
    exact ⟨ent, _, hent, rfl, hK, by rw [if_neg hc]; rfl⟩

theorem fixed_NewSeedFromMnemonic (mn pa : GoString) (wl : Option (List GoString)) (n : Nat) (hn : 300 ≤ n) (st : State) :
    ((wl.getD []).length = 2048 ∧ Accepts H (wl.getD []) mn ∧
      ∃ st', Kept st st' ∧ runFunc H E repaired (n + 1) 0 (id! "NewSeedFromMnemonic") [.str mn, .str pa, .strs wl] st =
        .ok [.nil, .err none] st') ∨
    ∃ e, WhyNoSeed H (wl.getD []) mn e ∧
      GaveNoBytes st e (runFunc H E repaired (n + 1) 0 (id! "NewSeedFromMnemonic") [.str mn, .str pa, .strs wl] st) := by
  obtain ⟨n, rfl⟩ : ∃ m, n = m + 5 := ⟨n - 5, by omega⟩
  have hfin : rNewSeedFromMnemonic.results = value_of% rNewSeedFromMnemonic.results := rfl
  rw [runFunc_succ H E repaired_NewSeedFromMnemonic _ rfl, rNewSeedFromMnemonic_body]
  have hw := words_ranging ⟨H, E, runFunc H E repaired (n + 5)⟩ (n + 5) (by omega) mn pa wl (splitSpace mn) st (splitSpace mn) 0 []
  unfold wordBody seedEnv at hw
  unfold seedHead
  by_cases hl : ((wl.getD []).length : Int) = 2048
  case neg =>
    go_run [hl, hfin]
    exact .inr ⟨_, .list (by omega), _, rfl, .refl _⟩
  have hl' : (wl.getD []).length = 2048 := by omega
  go_run [hl, exec_range, hw]
  by_cases hk : ∀ w ∈ splitSpace mn, w ∈ wl.getD []
  case neg =>
    push Not at hk
    obtain ⟨w, h1, h2⟩ := hk
    rw [seedBits_unknown h1 h2]
    go_run [wordsOut, hfin]
    exact .inr ⟨_, .word hl' h1 h2, _, rfl, .refl _⟩
  obtain ⟨bits, hb, hs⟩ := seedBits_known (by omega) hk
  have hlen := hb.length
  rw [hs, List.nil_append]
  have hacc : (wl.getD []).Nodup → Accepts H (wl.getD []) mn → ∃ ent, ent.length ∈ [16, 20, 24, 28, 32] ∧
      bits = bytesBits ent ++ (bytesBits (H.sha256 ent)).take (ent.length / 4) := by
    rintro hnd ⟨ent, h1, h2⟩
    exact ⟨ent, h1, hb.bits_unique hnd h2⟩
  have key : ∀ c : Nat, 4 ≤ c → c ≤ 8 → (splitSpace mn).length = 3 * c → ∀ o,
      o = ((exec ⟨H, E, runFunc H E repaired (n + 5)⟩ (n + 5) seedTail [[(id! "supported", .bool true), (id! "binary", .str (bits.map bitChar)),
        (id! "words", .strs (some (splitSpace mn))), (id! "mnemonic", .str mn), (id! "passphrase", .str pa), (id! "wordlist", .strs wl)]] st).andThen
        rNewSeedFromMnemonic.finish) →
      ((wl.getD []).length = 2048 ∧ Accepts H (wl.getD []) mn ∧ ∃ st', Kept st st' ∧ o = .ok [.nil, .err none] st') ∨
      ∃ e, WhyNoSeed H (wl.getD []) mn e ∧ GaveNoBytes st e o := by
    intro c h4 h8 hcw o ho
    obtain ⟨ent, st', h1, h2, h3, h4'⟩ := seedTail_run H E mn pa wl (splitSpace mn) bits c h4 h8 (by omega) (n + 5) hn st
    by_cases hc : (bytesBits (H.sha256 ent)).take c = bits.drop (32 * c)
    · rw [if_pos hc] at h4'
      refine .inl ⟨hl', ⟨ent, ?_, ?_⟩, st', h3, ho.trans h4'⟩
      · simp only [List.mem_cons, List.not_mem_nil, or_false]; omega
      · rw [h1, show 4 * c / 4 = c by omega, hc, ← h2, List.take_append_drop]
        exact hb
    · rw [if_neg hc] at h4'
      refine .inr ⟨_, .checksum hl' hk (by simp only [List.mem_cons, List.not_mem_nil, or_false]; omega) ?_, st', ho.trans h4', h3⟩
      intro hnd ha
      obtain ⟨ent', e1, e2⟩ := hacc hnd ha
      have e := congrArg List.length e2
      rw [List.length_append, List.length_take, length_bytesBits, length_bytesBits, H.sha_len] at e
      simp only [List.mem_cons, List.not_mem_nil, or_false] at e1
      have hel : ent'.length = 4 * c := by omega
      have hbl : 32 * c = (bytesBits ent').length := by rw [length_bytesBits]; omega
      rw [e2, hbl, List.take_left] at h2
      obtain rfl := bytesBits_inj h2
      rw [e2, hbl, List.drop_left, hel, show 4 * c / 4 = c by omega] at hc
      exact hc rfl
  by_cases h12 : (splitSpace mn).length = 12
  · have e : ((splitSpace mn).length : Int) = 12 := by omega
    go_run [wordsOut, e, hfin]
    exact key 4 (by omega) (by omega) h12 _ rfl
  by_cases h15 : (splitSpace mn).length = 15
  · have e : ((splitSpace mn).length : Int) = 15 := by omega
    go_run [wordsOut, e, hfin]
    exact key 5 (by omega) (by omega) h15 _ rfl
  by_cases h18 : (splitSpace mn).length = 18
  · have e : ((splitSpace mn).length : Int) = 18 := by omega
    go_run [wordsOut, e, hfin]
    exact key 6 (by omega) (by omega) h18 _ rfl
  by_cases h21 : (splitSpace mn).length = 21
  · have e : ((splitSpace mn).length : Int) = 21 := by omega
    go_run [wordsOut, e, hfin]
    exact key 7 (by omega) (by omega) h21 _ rfl
  by_cases h24 : (splitSpace mn).length = 24
  · have e : ((splitSpace mn).length : Int) = 24 := by omega
    go_run [wordsOut, e, hfin]
    exact key 8 (by omega) (by omega) h24 _ rfl
  have e12 : ¬ ((splitSpace mn).length : Int) = 12 := by omega
  have e15 : ¬ ((splitSpace mn).length : Int) = 15 := by omega
  have e18 : ¬ ((splitSpace mn).length : Int) = 18 := by omega
  have e21 : ¬ ((splitSpace mn).length : Int) = 21 := by omega
  have e24 : ¬ ((splitSpace mn).length : Int) = 24 := by omega
  go_run [wordsOut, e12, e15, e18, e21, e24, hfin]
  exact .inr ⟨_, .count hl' hk (by simp only [List.mem_cons, List.not_mem_nil, or_false]; omega), _, rfl, .refl _⟩

end Btc.Source
