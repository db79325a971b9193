import Verif.Imp.Commute
import Verif.Props.Program
import Verif.Props.Mnemonic
import Verif.Props.Arith

/-!
# C104, C105: which way a run branches

The path of a call lists the outcomes of all the conditions of its `if`s and `for`s, in order. It stands for what timing and branch
prediction show of a run. Only the function's own conditions are in it: those of the library functions it calls are not (they are outside the
repository), and those of the functions of the repository it calls are in the paths of these.

C104: the functions that handle keys take the same path for every key.

C105: those that handle mnemonics do not: the path gives the phrase away.
-/

namespace Btc

open Btc.Imp

/-- C104: the path of `CheckWIF` is the same for all texts that are long enough, whether the checksum is right or not. -/
theorem C104_checkWIF (H : Hashes) (n n' : Nat) (w w' : World) (wif wif' : GoString) (b b' : Bytes)
    (h : base58Decode wif = .ok b) (hb : 4 ≤ b.length) (h' : base58Decode wif' = .ok b') (hb' : 4 ≤ b'.length) :
    (checkWIFBody H).path n w { wif := wif } = (checkWIFBody H).path n' w' { wif := wif' } := by
  rw [checkWIF_path, checkWIF_path, h, h']
  simp only [Nat.not_lt.2 hb, Nat.not_lt.2 hb', if_false]

/-- The accepted text `wifA` and a text with a wrong checksum. -/
example (w : World) : (checkWIFBody realHashes).path 0 w { wif := Samples.wifA } =
    (checkWIFBody realHashes).path 0 w { wif := asc "1111111" } ∧ checkWIF realHashes Samples.wifA = .ok true ∧
    checkWIF realHashes (asc "1111111") = .ok false := by
  have h : ∃ b, base58Decode Samples.wifA = .ok b ∧ 4 ≤ b.length := by
    have h' : (match base58Decode Samples.wifA with
        | .ok b => decide (4 ≤ b.length)
        | _ => false) = true := by decide +kernel
    generalize base58Decode Samples.wifA = g at h'
    rcases g with b | _ | _ <;> simp at h'
    exact ⟨b, rfl, h'⟩
  obtain ⟨b, h1, h2⟩ := h
  exact ⟨C104_checkWIF realHashes 0 0 w w _ _ b (List.replicate 7 0) h1 h2 (by decide +kernel) (by decide), Samples.checkA, by decide +kernel⟩

/-- C104: every call of `PrivateFromWIF` that returns a key takes the same path. -/
theorem C104_privateFromWIF (H : Hashes) (n m : Nat) (w w' : World) (wif : GoString) (network : Option Network) (k : PrivateKey)
    (h : call (privateFromWIFBody H) n (m + 1) w { wif := wif, network := network } = some (.ret (some k, none), w')) :
    callPath (privateFromWIFBody H) n (m + 1) w { wif := wif, network := network } = [false, false] := by
  rw [C102_privateFromWIF] at h
  have hp := privateFromWIF_path H n w wif network
  have he := privateFromWIF_eval H n w wif network
  unfold privateFromWIF at h he
  cases hv : checkWIF H wif with
  | err e => exact absurd hv (checkWIF_ne_err H wif e)
  | panic p => rw [hv] at h; simp [Done.ptr] at h
  | ok v =>
    cases v with
    | false => rw [hv] at h; simp [Done.ptr] at h
    | true =>
      rw [hv] at hp
      simp only at hp
      rw [callPath, hp, privateFromWIF_eval]
      cases privateFromWIF H wif network <;> rfl

example (w : World) : callPath (privateFromWIFBody realHashes) 0 1 w { wif := Samples.wifB, network := some MainNetwork } = [false, false] :=
  C104_privateFromWIF realHashes 0 0 w w _ _ Samples.keyB (by rw [C102_privateFromWIF, Samples.fromWifB]; rfl)

/-- C104: every call of `PrivateFromHex` that returns a key takes the same path. -/
theorem C104_privateFromHex (H : Hashes) (n m : Nat) (w w' : World) (hexa : GoString) (network : Option Network) (k : PrivateKey)
    (h : call (privateFromHexBody H) n (m + 1) w { hexa := hexa, network := network } = some (.ret (some k, none), w')) :
    callPath (privateFromHexBody H) n (m + 1) w { hexa := hexa, network := network } = [false, false] := by
  rw [C102_privateFromHex] at h
  cases hk : privateFromHex H hexa network with
  | err e => rw [hk] at h; simp [Done.ptr] at h
  | panic p => rw [hk] at h; simp [Done.ptr] at h
  | ok k' => rw [callPath, privateFromHex_path H n w hexa network k' hk, privateFromHex_eval, hk]; rfl

example (w : World) : callPath (privateFromHexBody realHashes) 0 1 w { hexa := Samples.hexA, network := some MainNetwork } = [false, false] :=
  C104_privateFromHex realHashes 0 0 w w _ _ Samples.keyA (by rw [C102_privateFromHex, Samples.fromHexA]; rfl)

/-- C104: every call of `AddPrivateKeys` or `MultiplyPrivateKeys` that returns a key takes the same path. -/
theorem C104_combine (H : Hashes) (op : Int → Int → Int) (n m : Nat) (w w' : World) (p1 p2 : Option PrivateKey) (k : PrivateKey)
    (h : call (combineBody H op) n (m + 1) w { p1 := p1, p2 := p2 } = some (.ret (some k, none), w')) :
    callPath (combineBody H op) n (m + 1) w { p1 := p1, p2 := p2 } = [false, false] := by
  rw [call_fin (combine_eval H op n w p1 p2)] at h
  cases p1 with
  | none => simp [Done.ptr] at h
  | some p1 =>
    cases p2 with
    | none => simp [Done.ptr] at h
    | some p2 =>
      rw [callPath, combine_path, combine_eval]
      simp only [deref_some, Res.bind_ok] at h ⊢
      unfold combineValue at h ⊢
      by_cases hn : p1.Network = p2.Network
      · rw [if_neg (not_not_intro hn)] at h ⊢
        rw [if_pos hn]
        by_cases hw : H.toLower p1.WIF = H.toLower p2.WIF
        · rw [if_pos hw] at h
          simp [Done.ptr] at h
        · rw [if_neg hw] at h ⊢
          rw [if_neg hw]
          generalize (do let k1 ← deref p1.Key; let k2 ← deref p2.Key; let n ← deref secp256k1.N; privateFromHex H (bigIntToHex (some (op k1 k2 % n))) p1.Network : Res PrivateKey) = r
          cases r <;> rfl
      · rw [if_pos hn] at h
        simp [Done.ptr] at h

example (w : World) : callPath (combineBody realHashes (· + ·)) 0 1 w { p1 := some Samples.keyA, p2 := some Samples.keyB } = [false, false] := by
  obtain ⟨k, h, _⟩ := Samples.addAB
  exact C104_combine realHashes (· + ·) 0 0 w w _ _ k (by
    rw [C102_addPrivateKeys, deref_some, Res.bind_ok, deref_some, Res.bind_ok, h]; rfl)

/-- C104: every call of `GetPublicKey` that returns a key takes the same path. -/
theorem C104_getPublicKey {E : Ecdsa} (hE : NoErr E) (n m : Nat) (w w' : World) (p : Option PrivateKey) (k : PublicKey)
    (h : call (getPublicKeyBody E) n (m + 1) w { p := p } = some (.ret (some k, true), w')) :
    callPath (getPublicKeyBody E) n (m + 1) w { p := p } = [false] := by
  rw [C102_getPublicKey hE] at h
  cases p with
  | none => simp [Done.flag] at h
  | some p =>
    rw [callPath, getPublicKey_path, getPublicKey_eval hE]
    simp only [deref_some, Res.bind_ok, getPublicKey] at h ⊢
    cases hs : E.scalarMult secp256k1 p.Key secp256k1.G with
    | err e => exact absurd hs (hE.scalarMult _ _ _ _)
    | panic q => rw [hs] at h; simp [Done.flag] at h
    | ok q =>
      obtain ⟨R, b⟩ := q
      rw [hs] at h
      cases b with
      | false => simp [Done.flag] at h
      | true => rfl

/-- C104: a call of `GeneratePrivateKey` that returns a key shows how many numbers were refused before, and nothing about the key. -/
theorem C104_generatePrivateKey (H : Hashes) (net : Network) (n m : Nat) (w w' : World) (k : Option PrivateKey) (pre : Bytes)
    (hpre : hexDecode net.PrivKeyPrefix = .ok pre)
    (h : call (generatePrivateKeyBody H) n m w { network := some net } = some (.ret k, w')) :
    ∃ r, callPath (generatePrivateKeyBody H) n m w { network := some net } = List.replicate r true ++ [false, false] :=
  generate_callPath H (some net) n (fun v hv => by
    have hd : ∀ c ∈ fmtNat 16 v, Spec.IsHexDigit c := by
      intro c hc
      rw [fmtNat_eq_digits] at hc
      obtain ⟨d, hd, rfl⟩ := List.mem_map.1 hc
      rw [Spec.IsHexDigit, hexVal_digitChar (fmtDigits_lt (by omega) hd)]
      rfl
    obtain ⟨bs, hb⟩ := (exists_spells_iff (fmtNat 16 v)).2 ⟨hd, by rw [hv]⟩
    exact ⟨_, privateFromHex_of_spells H ((spells_of_hexDecode _ hpre).append hb)⟩) m w w' k h

example (w : World) : ∃ r, callPath (generatePrivateKeyBody realHashes) 0 66
    { w with rd := 0 :: List.replicate 31 7 ++ List.replicate 33 119 } { network := some MainNetwork } =
      List.replicate r true ++ [false, false] := by
  have h : ∃ k, generatePrivateKey realHashes (0 :: List.replicate 31 7 ++ List.replicate 33 119) (some MainNetwork) =
      .ok (k, [119]) := by
    have h' : (match generatePrivateKey realHashes (0 :: List.replicate 31 7 ++ List.replicate 33 119) (some MainNetwork) with
        | .ok (_, rd) => decide (rd = [119])
        | _ => false) = true := by decide +kernel
    generalize generatePrivateKey realHashes (0 :: List.replicate 31 7 ++ List.replicate 33 119) (some MainNetwork) = g at h'
    rcases g with ⟨k, rd⟩ | _ | _ <;> simp at h'
    exact ⟨k, by rw [h']⟩
  obtain ⟨k, h⟩ := h
  exact C104_generatePrivateKey realHashes MainNetwork 0 66 _ _ (some k) [128] (by decide +kernel)
    ((C102_generatePrivateKey realHashes (some MainNetwork) 0 66 _ (by simp)).1 k _ h)

/-- C104: the path of `Format` depends on nothing but the numbers of digits of the coordinates and, when compressed, on the parity of
`Y`. -/
theorem C104_format (n n' m m' : Nat) (hn : 65 ≤ n) (hn' : 65 ≤ n') (w w' : World) (p p' : PublicKey) (compressed : Bool) (y y' : Int)
    (hX : (bigIntToHex p.X).length = (bigIntToHex p'.X).length) (hY : (bigIntToHex p.Y).length = (bigIntToHex p'.Y).length)
    (hy : p.Y = some y) (hy' : p'.Y = some y') (hpar : y % 2 = y' % 2) :
    callPath formatBody n (m + 1) w { p := some p, compressed := compressed } =
      callPath formatBody n' (m' + 1) w' { p := some p', compressed := compressed } := by
  have he : ∀ (k : PublicKey) (n m : Nat) (w : World), 65 ≤ n →
      callPath formatBody n (m + 1) w { p := some k, compressed := compressed } = formatBody.path n w { p := some k, compressed := compressed } := by
    intro k n m w hn
    rw [callPath, format_eval n hn, deref_some, Res.bind_ok]
    cases format k compressed <;> simp [fin, Done.plain, Out.done]
  rw [he p n m w hn, he p' n' m' w' hn', format_path n hn, format_path n' hn', hX, hY, hy, hy']
  simp only [hpar]

example (w : World) : callPath formatBody 65 1 w { p := some ⟨some 17, some 33, none⟩, compressed := true } =
    callPath formatBody 65 1 w { p := some ⟨some 18, some 255, none⟩, compressed := true } :=
  C104_format 65 65 0 0 (Nat.le_refl _) (Nat.le_refl _) w w _ _ true 33 255 (by decide +kernel) (by decide +kernel) rfl rfl (by decide)

theorem newMnemonic_parts (H : Hashes) {rd rd' : Reader} {words : Int} {wl : List GoString} {p : GoString}
    (h : newMnemonic H rd words (some wl) = .ok (p, rd')) :
    ∃ el v, entropyLengthOf words = some el ∧ randInt rd (2 ^ el) = .ok (v, rd') ∧ phraseOf H el v wl = .ok p := by
  unfold newMnemonic at h
  simp only at h
  cases he : entropyLengthOf words with
  | none => rw [he] at h; simp at h
  | some el =>
    rw [he] at h
    simp only at h
    cases hr : randInt rd (2 ^ el) with
    | err e => rw [hr] at h; simp at h
    | panic q => rw [hr] at h; simp at h
    | ok q =>
      obtain ⟨v, rd''⟩ := q
      rw [hr] at h
      simp only [Res.bind_ok] at h
      cases hp : phraseOf H el v wl with
      | err e => rw [hp] at h; simp at h
      | panic q => rw [hp] at h; simp at h
      | ok p' =>
        rw [hp] at h
        simp only [Res.bind_ok, Res.ok.injEq, Prod.mk.injEq] at h
        obtain ⟨rfl, rfl⟩ := h
        exact ⟨el, v, rfl, hr, hp⟩

theorem replicate_true_inj : ∀ {a b : Nat} {r r' : List Bool},
    List.replicate a true ++ false :: r = List.replicate b true ++ false :: r' → r = r'
  | 0, 0, _, _, h => by simpa using h
  | 0, b + 1, _, _, h => by simp [List.replicate_succ] at h
  | a + 1, 0, _, _, h => by simp [List.replicate_succ] at h
  | a + 1, b + 1, _, _, h => by
    simp only [List.replicate_succ, List.cons_append, List.cons.injEq, true_and] at h
    exact replicate_true_inj h

theorem newMnemonic_callPath (H : Hashes) (n m : Nat) (hn : 300 ≤ n) (w : World) (words : Int) (wl : List GoString) (p : GoString)
    (rd' : Reader) (h : newMnemonic H w.rd words (some wl) = .ok (p, rd')) :
    callPath (newMnemonicBody H) n (m + 1) w { words := words, wordlist := some wl } =
      (newMnemonicBody H).path n w { words := words, wordlist := some wl } := by
  obtain ⟨el, v, h1, h2, h3⟩ := newMnemonic_parts H h
  have ht := newMnemonic_tail H n hn w words wl el (by
    unfold entropyLengthOf at h1
    repeat' split at h1
    all_goals simp at h1
    all_goals simp [← h1]) h1
  rw [h2] at ht
  simp only [h3] at ht
  rw [callPath, ht]
  simp

/-- C105: whoever sees which way `NewMnemonic` branches knows the phrase: two calls that take the same path return the same phrase. -/
theorem C105_path_gives_phrase (H : Hashes) (n m n' m' : Nat) (hn : 300 ≤ n) (hn' : 300 ≤ n') (w w' : World) (words : Int)
    (wl : List GoString) (p p' : GoString) (rd rd' : Reader) (h : newMnemonic H w.rd words (some wl) = .ok (p, rd))
    (h' : newMnemonic H w'.rd words (some wl) = .ok (p', rd'))
    (hpath : callPath (newMnemonicBody H) n (m + 1) w { words := words, wordlist := some wl } =
      callPath (newMnemonicBody H) n' (m' + 1) w' { words := words, wordlist := some wl }) : p = p' := by
  rw [newMnemonic_callPath H n m hn w words wl p rd h, newMnemonic_callPath H n' m' hn' w' words wl p' rd' h'] at hpath
  obtain ⟨el, v, h1, h2, h3⟩ := newMnemonic_parts H h
  obtain ⟨el', v', h1', h2', h3'⟩ := newMnemonic_parts H h'
  rw [h1, Option.some.injEq] at h1'
  subst h1'
  obtain ⟨c, x, -, -, e, ws, hws, rfl⟩ := newMnemonic_path H n hn w words wl el v rd p h1 h2 h3
  obtain ⟨c', x', -, -, e', ws', hws', rfl⟩ := newMnemonic_path H n' hn' w' words wl el v' rd' p' h1 h2' h3'
  rw [e, e'] at hpath
  simp only [List.cons.injEq, true_and, List.append_cancel_left_eq] at hpath
  have := picksPath_inj (replicate_true_inj hpath) wl
  rw [this, hws', Res.ok.injEq] at hws
  rw [hws]

/-- C105, violated: calls of `NewMnemonic` that return a phrase do not all take the same path. -/
theorem C105_newMnemonic_violated : ¬ ∀ (w w' : World) (p p' : GoString) (rd rd' : Reader),
    newMnemonic realHashes w.rd 24 (some EnglishWordlist) = .ok (p, rd) →
    newMnemonic realHashes w'.rd 24 (some EnglishWordlist) = .ok (p', rd') →
    callPath (newMnemonicBody realHashes) 300 1 w { words := 24, wordlist := some EnglishWordlist } =
      callPath (newMnemonicBody realHashes) 300 1 w' { words := 24, wordlist := some EnglishWordlist } := by
  intro h
  have := C105_path_gives_phrase realHashes 300 0 300 0 (Nat.le_refl _) (Nat.le_refl _) ⟨Samples.ent32, []⟩ ⟨Samples.entLucky, []⟩ 24
    EnglishWordlist _ _ _ _ Samples.new32 Samples.newLucky
    (h ⟨Samples.ent32, []⟩ ⟨Samples.entLucky, []⟩ _ _ _ _ Samples.new32 Samples.newLucky)
  exact absurd this (by decide +kernel)

/-- C105, what holds: the path of `NewMnemonic` depends on the bytes read only, not on the word list. -/
theorem C105_newMnemonic_partial (H : Hashes) (n m n' m' : Nat) (hn : 300 ≤ n) (hn' : 300 ≤ n') (w : World) (words : Int)
    (wl wl' : List GoString) (p p' : GoString) (rd rd' : Reader) (h : newMnemonic H w.rd words (some wl) = .ok (p, rd))
    (h' : newMnemonic H w.rd words (some wl') = .ok (p', rd')) :
    callPath (newMnemonicBody H) n (m + 1) w { words := words, wordlist := some wl } =
      callPath (newMnemonicBody H) n' (m' + 1) w { words := words, wordlist := some wl' } := by
  rw [newMnemonic_callPath H n m hn w words wl p rd h, newMnemonic_callPath H n' m' hn' w words wl' p' rd' h']
  obtain ⟨el, v, h1, h2, h3⟩ := newMnemonic_parts H h
  obtain ⟨el', v', h1', h2', h3'⟩ := newMnemonic_parts H h'
  rw [h1, Option.some.injEq] at h1'
  subst h1'
  rw [h2, Res.ok.injEq, Prod.mk.injEq] at h2'
  obtain ⟨rfl, rfl⟩ := h2'
  obtain ⟨c, x, hc, hx, e, -⟩ := newMnemonic_path H n hn w words wl el v rd p h1 h2 h3
  obtain ⟨c', x', hc', hx', e', -⟩ := newMnemonic_path H n' hn' w words wl' el v rd p' h1 h2 h3'
  rw [hc, Res.ok.injEq] at hc'
  subst hc'
  rw [hx, Option.some.injEq] at hx'
  subst hx'
  rw [e, e']

/-- C105: the English and the French phrase of the same bytes. -/
example (p' : GoString) (rd' : Reader) (h : newMnemonic realHashes Samples.ent32 24 (some FrenchWordlist) = .ok (p', rd')) :
    callPath (newMnemonicBody realHashes) 300 1 ⟨Samples.ent32, []⟩ { words := 24, wordlist := some EnglishWordlist } =
      callPath (newMnemonicBody realHashes) 300 1 ⟨Samples.ent32, []⟩ { words := 24, wordlist := some FrenchWordlist } :=
  C105_newMnemonic_partial realHashes 300 0 300 0 (Nat.le_refl _) (Nat.le_refl _) ⟨Samples.ent32, []⟩ 24 _ _ _ _ _ _ Samples.new32 h

theorem lookupWord_get : ∀ {wl : List GoString} {w : GoString} {i : Nat}, lookupWord wl w = some i → wl[i]? = some w
  | [], _, _, h => by simp [lookupWord] at h
  | x :: xs, w, i, h => by
    rw [lookupWord] at h
    split at h
    · rename_i hw
      simp only [Option.some.injEq] at h
      simp [← h, hw]
    · obtain ⟨j, hj, rfl⟩ := Option.map_eq_some_iff.1 h
      simpa using lookupWord_get hj

theorem lookupWord_mem : ∀ {wl : List GoString} {w : GoString}, w ∈ wl → ∃ i, lookupWord wl w = some i
  | [], _, h => by simp at h
  | x :: xs, w, h => by
    rw [lookupWord]
    split
    · exact ⟨_, rfl⟩
    · rename_i hne
      simp only [List.mem_cons, hne, false_or] at h
      obtain ⟨i, hi⟩ := lookupWord_mem h
      exact ⟨i + 1, by rw [hi]; rfl⟩

theorem lookup_all {wl : List GoString} : ∀ {ws : List GoString}, (∀ w ∈ ws, w ∈ wl) → ∃ js : List Nat, ws.map (lookupWord wl) = js.map some
  | [], _ => ⟨[], rfl⟩
  | w :: ws, h => by
    obtain ⟨i, hi⟩ := lookupWord_mem (h w (by simp))
    obtain ⟨js, hj⟩ := lookup_all fun x hx => h x (List.mem_cons_of_mem _ hx)
    exact ⟨i :: js, by simp [hi, hj]⟩

theorem lookup_all_inj {wl : List GoString} : ∀ {ws ws' : List GoString} {js : List Nat}, ws.map (lookupWord wl) = js.map some →
    ws'.map (lookupWord wl) = js.map some → ws = ws'
  | [], [], _, _, _ => rfl
  | [], w' :: ws', [], _, h' => by simp at h'
  | [], w' :: ws', j :: js, h, _ => by simp at h
  | w :: ws, [], [], h, _ => by simp at h
  | w :: ws, [], j :: js, _, h' => by simp at h'
  | w :: ws, w' :: ws', [], h, _ => by simp at h
  | w :: ws, w' :: ws', j :: js, h, h' => by
    simp only [List.map_cons, List.cons.injEq] at h h'
    have h1 := lookupWord_get h.1
    rw [lookupWord_get h'.1, Option.some.injEq] at h1
    rw [h1, lookup_all_inj h.2 h'.2]

/-- C105: whoever sees which way `NewSeedFromMnemonic` branches knows the phrase: of texts with words of the list, different ones take different
paths, already before the checksum is looked at. -/
theorem C105_path_gives_mnemonic (H : Hashes) (n n' : Nat) (w w' : World) (t t' passphrase passphrase' : GoString)
    (wl : List GoString) (hn : 11 + (splitSpace t).length + wl.length < n) (hn' : 11 + (splitSpace t').length + wl.length < n')
    (ht : ∀ x ∈ splitSpace t, x ∈ wl) (ht' : ∀ x ∈ splitSpace t', x ∈ wl)
    (hpath : (newSeedFromMnemonicBody H).path n w { mnemonic := t, passphrase := passphrase, wordlist := wl } =
      (newSeedFromMnemonicBody H).path n' w' { mnemonic := t', passphrase := passphrase', wordlist := wl }) : t = t' := by
  obtain ⟨js, hj⟩ := lookup_all ht
  obtain ⟨js', hj'⟩ := lookup_all ht'
  obtain ⟨r, e⟩ := newSeed_path H n w t passphrase wl js hn hj
  obtain ⟨r', e'⟩ := newSeed_path H n' w' t' passphrase' wl js' hn' hj'
  rw [e, e'] at hpath
  have := wordsPath_inj hpath
  subst this
  rw [← joinSpace_splitSpace t, ← joinSpace_splitSpace t', lookup_all_inj hj hj']

/-- C105, what holds: the path of `NewSeedFromMnemonic` does not depend on the passphrase, for any text and list. -/
theorem C105_newSeed_partial (H : Hashes) (n : Nat) (w : World) (t passphrase passphrase' : GoString) (wl : List GoString) :
    (newSeedFromMnemonicBody H).path n w { mnemonic := t, passphrase := passphrase', wordlist := wl } =
      (newSeedFromMnemonicBody H).path n w { mnemonic := t, passphrase := passphrase, wordlist := wl } :=
  path_commutes _ n _ (newSeed_commutes H passphrase') w { mnemonic := t, passphrase := passphrase, wordlist := wl }

/-- C105: two passphrases. -/
example (w : World) : (newSeedFromMnemonicBody realHashes).path 100000 w
      { mnemonic := Samples.phraseA, passphrase := asc "TREZOR", wordlist := EnglishWordlist } =
    (newSeedFromMnemonicBody realHashes).path 100000 w
      { mnemonic := Samples.phraseA, passphrase := [], wordlist := EnglishWordlist } :=
  C105_newSeed_partial realHashes _ w _ _ _ _

/-- C105, violated: texts that pass do not all take the same path. -/
theorem C105_newSeed_violated : ¬ ∀ (w w' : World) (t t' : GoString),
    (newSeedFromMnemonic realHashes t [] (some EnglishWordlist)).1 = .ok none →
    (newSeedFromMnemonic realHashes t' [] (some EnglishWordlist)).1 = .ok none →
    (newSeedFromMnemonicBody realHashes).path 100000 w { mnemonic := t, passphrase := [], wordlist := EnglishWordlist } =
      (newSeedFromMnemonicBody realHashes).path 100000 w' { mnemonic := t', passphrase := [], wordlist := EnglishWordlist } := by
  intro h
  have := C105_path_gives_mnemonic realHashes 100000 100000 ⟨[], []⟩ ⟨[], []⟩ Samples.phraseA Samples.phrase8 [] [] EnglishWordlist
    (by decide +kernel) (by decide +kernel) (by decide +kernel) (by decide +kernel)
    (h ⟨[], []⟩ ⟨[], []⟩ _ _ Samples.seedA Samples.seed8)
  exact absurd this (by decide +kernel)

end Btc
