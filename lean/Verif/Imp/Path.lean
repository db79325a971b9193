import Verif.Imp.Calls

/-!
# Which way a run branches

The path of a run: the outcomes of all conditions (`if` and `for`) in the order in which they are evaluated. It is what an observer of
the control flow sees (for example through timing or the branch predictor). Only the branches of the repository's own code are in
it, not those inside `math/big`, `encoding/hex` or the hash functions.
-/

namespace Btc.Imp

variable {σ ρ : Type}

/-- What follows a statement that ended normally. -/
def thenPath (o : Option (Out σ ρ × World)) (k : World → σ → List Bool) : List Bool :=
  match o with
  | some (.next s, w) => k w s
  | _ => []

/-- Path of a condition: its outcome, then the branch taken. -/
def branch (r : Res Bool) (k : Bool → List Bool) : List Bool :=
  match r with
  | .ok b => b :: k b
  | _ => []

/-- Path of the rounds of a loop. -/
def roundsPath (c : σ → Res Bool) (b : World → σ → Option (Out σ ρ × World)) (p : World → σ → List Bool) :
    Nat → World → σ → List Bool
  | 0, _, _ => []
  | n + 1, w, s => branch (c s) fun t => if t then p w s ++ thenPath (b w s) (roundsPath c b p n) else []

/-- Path of a statement. -/
def Stmt.path (n : Nat) : Stmt σ ρ → World → σ → List Bool
  | .seq a b, w, s => a.path n w s ++ thenPath (a.eval n w s) (b.path n)
  | .cond c t e, w, s => branch (c s) fun x => if x then t.path n w s else e.path n w s
  | .loop c body, w, s => roundsPath c (body.eval n) (body.path n) n w s
  | .act _, _, _ => []
  | .brk, _, _ => []
  | .ret _, _, _ => []
  | .again _, _, _ => []
  | .skip, _, _ => []

/-- Path of a call, including those of the calls of itself it ends with. -/
def callPath (body : Stmt σ ρ) (n : Nat) : Nat → World → σ → List Bool
  | 0, _, _ => []
  | m + 1, w, s =>
    body.path n w s ++
      match body.eval n w s with
      | some (.again s', w') => callPath body n m w' s'
      | _ => []

theorem thenPath_next (s : σ) (w : World) (k : World → σ → List Bool) : thenPath (ρ := ρ) (some (.next s, w)) k = k w s := (rfl)
theorem thenPath_none (k : World → σ → List Bool) : thenPath (ρ := ρ) (none : Option (Out σ ρ × World)) k = [] := (rfl)
theorem thenPath_ret (r : ρ) (w : World) (k : World → σ → List Bool) : thenPath (some (.ret r, w)) k = [] := (rfl)
theorem thenPath_panic (p : GoPanic) (w : World) (k : World → σ → List Bool) : thenPath (ρ := ρ) (some (.panic p, w)) k = [] := (rfl)
theorem thenPath_again (s : σ) (w : World) (k : World → σ → List Bool) : thenPath (ρ := ρ) (some (.again s, w)) k = [] := (rfl)
theorem thenPath_brk (s : σ) (w : World) (k : World → σ → List Bool) : thenPath (ρ := ρ) (some (.brk s, w)) k = [] := (rfl)

theorem branch_ok (b : Bool) (k : Bool → List Bool) : branch (.ok b) k = b :: k b := (rfl)
theorem branch_panic (p : GoPanic) (k : Bool → List Bool) : branch (.panic p) k = [] := (rfl)

theorem seq_path (n : Nat) (a b : Stmt σ ρ) (w : World) (s : σ) :
    (a ;; b).path n w s = a.path n w s ++ thenPath (a.eval n w s) (b.path n) := (rfl)
theorem set_path (n : Nat) (f : σ → σ) (w : World) (s : σ) : (set f : Stmt σ ρ).path n w s = [] := (rfl)
theorem assign_path (n : Nat) (f : σ → Res σ) (w : World) (s : σ) : (assign f : Stmt σ ρ).path n w s = [] := (rfl)
theorem set2_path {α : Type} (n : Nat) (f : σ → Res α) (z : α) (k : σ → α → Option GoError → σ) (w : World) (s : σ) :
    (set2 f z k : Stmt σ ρ).path n w s = [] := (rfl)
theorem logln_path (n : Nat) (f : σ → GoString) (w : World) (s : σ) : (logln f : Stmt σ ρ).path n w s = [] := (rfl)
theorem act_path (n : Nat) (f : World → σ → Res (World × σ)) (w : World) (s : σ) : (Stmt.act f : Stmt σ ρ).path n w s = [] := (rfl)
theorem ret_path (n : Nat) (f : σ → ρ) (w : World) (s : σ) : (ret f).path n w s = [] := (rfl)
theorem retM_path (n : Nat) (f : σ → Res ρ) (w : World) (s : σ) : (Stmt.ret f).path n w s = [] := (rfl)
theorem again_path (n : Nat) (f : σ → σ) (w : World) (s : σ) : (Stmt.again f : Stmt σ ρ).path n w s = [] := (rfl)
theorem skip_path (n : Nat) (w : World) (s : σ) : (Stmt.skip : Stmt σ ρ).path n w s = [] := (rfl)
theorem brk_path (n : Nat) (w : World) (s : σ) : (Stmt.brk : Stmt σ ρ).path n w s = [] := (rfl)
theorem when_path (n : Nat) (c : σ → Bool) (t : Stmt σ ρ) (w : World) (s : σ) :
    (when c t).path n w s = c s :: if c s then t.path n w s else [] := (rfl)
theorem ite_path (n : Nat) (c : σ → Bool) (t e : Stmt σ ρ) (w : World) (s : σ) :
    (ite c t e).path n w s = c s :: if c s then t.path n w s else e.path n w s := (rfl)
theorem cond_path (n : Nat) (c : σ → Res Bool) (t e : Stmt σ ρ) (w : World) (s : σ) :
    (Stmt.cond c t e).path n w s = branch (c s) fun x => if x then t.path n w s else e.path n w s := (rfl)
theorem loop_path (n : Nat) (c : σ → Bool) (b : Stmt σ ρ) (w : World) (s : σ) :
    (loop c b).path n w s = roundsPath (fun s => .ok (c s)) (b.eval n) (b.path n) n w s := (rfl)

theorem roundsPath_true {c : σ → Res Bool} {b : World → σ → Option (Out σ ρ × World)} {p : World → σ → List Bool} {n : Nat}
    {w : World} {s : σ} (h : c s = .ok true) :
    roundsPath c b p (n + 1) w s = true :: (p w s ++ thenPath (b w s) (roundsPath c b p n)) := by
  simp only [roundsPath, h, branch_ok, if_true]

theorem roundsPath_false {c : σ → Res Bool} {b : World → σ → Option (Out σ ρ × World)} {p : World → σ → List Bool} {n : Nat}
    {w : World} {s : σ} (h : c s = .ok false) : roundsPath c b p (n + 1) w s = [false] := by
  simp only [roundsPath, h, branch_ok, Bool.false_eq_true, if_false]

/-- Follows a path up to the next case distinction. -/
macro "follow" : tactic => `(tactic| simp only [seq_path, set_path, assign_path, set2_path, when_path, ite_path, ret_path, act_path,
  cond_path, retM_path, again_path, skip_path, brk_path, logln_path, thenPath_next, thenPath_none, thenPath_ret, thenPath_panic,
  thenPath_again, thenPath_brk, branch_ok, branch_panic, List.nil_append, List.append_nil, List.cons_append,
  set_eval, assign_eval, set2_eval, when_eval, ite_eval, ret_eval, act_eval, seq_eval,
  cond_eval, retM_eval, again_eval, skip_eval, brk_eval, logln_eval, value_ok, value_err, value_panic, after_none, after_next,
  after_brk, after_ret, after_again, after_panic, both_ok, both_err, both_panic, decide_true, decide_false, ne_eq, not_true_eq_false,
  not_false_eq_true, Option.isSome_none, Option.isSome_some, Bool.false_eq_true, Bool.not_true, Bool.not_false,
  if_false, if_true, Res.bind_ok, Res.bind_err, Res.bind_panic, deref_some, deref_none])

/-! ## private_key.go -/

/-- `CheckWIF` branches on nothing but whether the text is in Base58 and long enough; in particular not on the checksum. -/
theorem checkWIF_path (H : Hashes) (n : Nat) (w : World) (wif : GoString) :
    (checkWIFBody H).path n w { wif := wif } =
      match base58Decode wif with
      | .err _ => [true]
      | .panic _ => []
      | .ok bs => if bs.length < 4 then [false] else [false, false] := by
  unfold checkWIFBody
  follow
  cases base58Decode wif with
  | err e => follow
  | panic p => follow
  | ok bs =>
    follow
    by_cases hl : bs.length < 4
    · rw [slice_panic (by rw [length_hexEncode]; omega)]
      follow
      simp [hl]
    · obtain ⟨payload, cs, rfl, hc⟩ := split_last4 (Nat.le_of_not_lt hl)
      have e : ((hexEncode (payload ++ cs)).length : Int) - 8 = ((2 * payload.length : Nat) : Int) := by
        simp [hc]; omega
      rw [if_neg hl, e, slice_to_end (by simp)]
      follow
      rw [e, slice_zero (by simp)]
      follow
      simp only [hexEncode_take, List.take_left', hexDecode_hexEncode]
      follow

theorem privateFromWIF_path (H : Hashes) (n : Nat) (w : World) (wif : GoString) (network : Option Network) :
    (privateFromWIFBody H).path n w { wif := wif, network := network } =
      match checkWIF H wif with
      | .ok true => [false, false]
      | .ok false => [true]
      | _ => [] := by
  unfold privateFromWIFBody
  follow
  cases hv : checkWIF H wif with
  | err e => exact absurd hv (checkWIF_ne_err H wif e)
  | panic p => follow
  | ok v =>
    cases v with
    | false => follow
    | true =>
      obtain ⟨payload, hb⟩ := (checkWIF_eq_true H).1 hv
      follow
      rw [hb]
      follow
      generalize hexEncode _ = x
      cases slice x 2 x.length with
      | err e => follow
      | panic p => follow
      | ok h =>
        follow
        cases slice h 0 ((h.length : Int) - 8) <;> follow

/-- `PrivateFromHex` has two branches, both on errors. -/
theorem privateFromHex_path (H : Hashes) (n : Nat) (w : World) (hexa : GoString) (network : Option Network) (k : PrivateKey)
    (h : privateFromHex H hexa network = .ok k) : (privateFromHexBody H).path n w { hexa := hexa, network := network } = [false, false] := by
  unfold privateFromHex at h
  unfold privateFromHexBody
  follow
  cases network with
  | none => simp at h
  | some net =>
    simp only [deref_some, Res.bind_ok] at h
    follow
    cases hd : hexDecode (net.PrivKeyPrefix ++ hexa) with
    | err e => rw [hd] at h; simp at h
    | panic p => rw [hd] at h; simp at h
    | ok b =>
      rw [hd] at h
      simp only [Res.bind_ok] at h
      follow
      cases hs : slice (hexEncode (H.sha256 (H.sha256 b))) 0 8 with
      | err e => exact absurd hs slice_ne_err
      | panic p => rw [hs] at h; simp at h
      | ok c =>
        rw [hs] at h
        simp only [Res.bind_ok] at h
        follow
        cases hd2 : hexDecode (net.PrivKeyPrefix ++ hexa ++ c) with
        | err e => rw [hd2] at h; simp at h
        | panic p => rw [hd2] at h; simp at h
        | ok b2 => follow

theorem combine_path (H : Hashes) (op : Int → Int → Int) (n : Nat) (w : World) (p1 p2 : PrivateKey) :
    (combineBody H op).path n w { p1 := some p1, p2 := some p2 } =
      if p1.Network = p2.Network then if H.toLower p1.WIF = H.toLower p2.WIF then [false, true] else [false, false] else [true] := by
  unfold combineBody
  follow
  by_cases hn : p1.Network = p2.Network
  · simp only [hn, decide_true]
    follow
    by_cases hw : H.toLower p1.WIF = H.toLower p2.WIF
    · simp only [hw, decide_true]
      follow
    · simp only [hw, decide_false]
      follow
      have h0 : ¬((Spec.n : Int) = 0) := by decide
      cases p1.Key with
      | none => follow
      | some k1 =>
        cases p2.Key with
        | none => follow
        | some k2 =>
          simp only [secp256k1_N, deref_some, Res.bind_ok, h0, if_false]
          follow
          cases privateFromHex H (bigIntToHex (some (op k1 k2 % (Spec.n : Int)))) p1.Network <;> follow
  · simp only [hn, decide_false]
    follow

theorem generate_path (H : Hashes) (network : Option Network) (n : Nat) (w : World) :
    (generatePrivateKeyBody H).path n w { network := network } =
      match generateRandomBigInt w.rd with
      | .ok (v, _) =>
        if (fmtNat 16 v).length ≠ 64 then [true]
        else
          match privateFromHex H (fmtNat 16 v) network with
          | .ok _ => [false, false]
          | .err _ => [false, true]
          | .panic _ => [false]
      | _ => [] := by
  unfold generatePrivateKeyBody
  follow
  generalize generateRandomBigInt w.rd = g
  cases g with
  | err e => follow
  | panic p => follow
  | ok q =>
    obtain ⟨v, rd'⟩ := q
    follow
    have e : bigIntToHex (some (v : Int)) = fmtNat 16 v := Btc.fmtBig_nat 16 v
    rw [e]
    by_cases hl : (fmtNat 16 v).length = 64
    · have hb : ((fmtNat 16 v).length != 64) = false := by rw [hl]; rfl
      rw [hb]
      simp only [hl]
      follow
      generalize privateFromHex H (fmtNat 16 v) network = r
      cases r with
      | err er => simp only [Res.bind]; follow
      | panic p => simp only [Res.bind]; follow
      | ok k => simp only [Res.bind]; follow
    · have hb : ((fmtNat 16 v).length != 64) = true := by simpa using hl
      rw [hb]
      follow
      simp [hl]

/-- The path of a call of `GeneratePrivateKey` that ends, for a network whose prefix `PrivateFromHex` accepts: one `true` for
each number refused, then twice `false`. -/
theorem generate_callPath (H : Hashes) (network : Option Network) (n : Nat)
    (hnet : ∀ v : Nat, (fmtNat 16 v).length = 64 → ∃ k, privateFromHex H (fmtNat 16 v) network = .ok k) (m : Nat) : ∀ (w w' : World)
    (k : Option PrivateKey), call (generatePrivateKeyBody H) n m w { network := network } = some (.ret k, w') →
    ∃ r, callPath (generatePrivateKeyBody H) n m w { network := network } = List.replicate r true ++ [false, false] := by
  induction m with
  | zero => intro w w' k h; simp [call] at h
  | succ m ih =>
    intro w w' k h
    rw [callPath, generate_path]
    rw [call] at h
    have he := generate_eval H network n w
    cases hg : generateRandomBigInt w.rd with
    | err e => rw [hg] at he; simp only at he; rw [he] at h; simp at h
    | panic p => rw [hg] at he; simp only at he; rw [he] at h; simp at h
    | ok q =>
      obtain ⟨v, rd'⟩ := q
      rw [hg] at he
      simp only at he ⊢
      by_cases hl : (fmtNat 16 v).length = 64
      · obtain ⟨kk, hk⟩ := hnet v hl
        have ha : ∃ k', attempt H network v = .ok (some k') := by
          unfold attempt
          rw [if_neg (not_not_intro hl), hk]
          exact ⟨_, rfl⟩
        obtain ⟨k', ha⟩ := ha
        rw [ha] at he
        simp only at he
        rw [he, if_neg (not_not_intro hl), hk]
        exact ⟨0, rfl⟩
      · have ha : attempt H network v = .ok none := by
          unfold attempt
          rw [if_pos hl]
        rw [ha] at he
        simp only at he
        rw [he] at h
        simp only at h
        obtain ⟨r, hr⟩ := ih _ _ _ h
        rw [he, if_pos hl]
        simp only
        rw [hr]
        exact ⟨r + 1, by simp [List.replicate_succ]⟩

/-! ## public_key.go -/

theorem getPublicKey_path (E : Ecdsa) (n : Nat) (w : World) (p : PrivateKey) :
    (getPublicKeyBody E).path n w { p := some p } =
      match E.scalarMult secp256k1 p.Key secp256k1.G with
      | .ok (_, b) => [!b]
      | _ => [] := by
  unfold getPublicKeyBody
  follow
  cases E.scalarMult secp256k1 p.Key secp256k1.G with
  | err e => follow
  | panic q => follow
  | ok q =>
    obtain ⟨R, b⟩ := q
    cases b <;> follow

/-- `for len(x) < k { x = "0" + x }` -/
theorem pad_path (len : σ → Nat) (get : σ → GoString) (put : σ → GoString → σ) (hget : ∀ s t, get (put s t) = t)
    (hlen : ∀ s t, len (put s t) = len s)
    (m : Nat) (w : World) : ∀ (n : Nat) (s : σ), len s - (get s).length < n →
    roundsPath (fun s => .ok (decide ((get s).length < len s))) ((set fun s => put s (48 :: get s) : Stmt σ ρ).eval m)
      ((set fun s => put s (48 :: get s) : Stmt σ ρ).path m) n w s = List.replicate (len s - (get s).length) true ++ [false]
  | 0, _, h => by omega
  | n + 1, s, h => by
    by_cases hl : (get s).length < len s
    · have e : len s - (get s).length = (len s - ((get s).length + 1)) + 1 := by omega
      rw [roundsPath_true (by simp [hl]), set_eval, set_path, thenPath_next,
        pad_path len get put hget hlen m w n _ (by rw [hget, hlen]; simp only [List.length_cons]; omega),
        hget, hlen, e, List.replicate_succ]
      simp
    · rw [roundsPath_false (by simp [hl]), Nat.sub_eq_zero_of_le (Nat.le_of_not_lt hl)]
      rfl

theorem format_path (n : Nat) (hn : 65 ≤ n) (w : World) (p : PublicKey) (compressed : Bool) :
    formatBody.path n w { p := some p, compressed := compressed } =
      List.replicate (64 - (bigIntToHex p.X).length) true ++ false :: List.replicate (64 - (bigIntToHex p.Y).length) true ++
        false :: (!compressed) :: if compressed then (match p.Y with | some y => [decide (y % 2 = 0)] | none => []) else [] := by
  unfold formatBody
  follow
  rw [loop_path, loop_eval, pad_path (fun _ => 64) FormatVars.pXHex (fun s t => { s with pXHex := t }) (fun _ _ => rfl)
      (fun _ _ => rfl) n w n _ (by omega), pad_loop (fun _ => 64) FormatVars.pXHex (fun s t => { s with pXHex := t }) (fun _ _ => rfl) (fun _ _ _ => rfl)
      (fun _ => rfl) (fun _ _ => rfl) n w n _ (by omega)]
  follow
  rw [loop_path, loop_eval, pad_path (fun _ => 64) FormatVars.pYHex (fun s t => { s with pYHex := t }) (fun _ _ => rfl)
      (fun _ _ => rfl) n w n _ (by omega), pad_loop (fun _ => 64) FormatVars.pYHex (fun s t => { s with pYHex := t }) (fun _ _ => rfl) (fun _ _ _ => rfl)
      (fun _ => rfl) (fun _ _ => rfl) n w n _ (by omega)]
  follow
  cases compressed with
  | false => follow; simp
  | true =>
    follow
    cases p.Y with
    | none => follow; simp
    | some y =>
      follow
      by_cases hy : y % 2 = 0
      · simp only [hy]; follow; simp
      · simp only [hy]; follow; simp

/-! ## NewSeedFromMnemonic -/

/-- Path of the search for the word at position `j`. -/
def foundPath : Nat → List Bool
  | 0 => [true, true]
  | j + 1 => true :: false :: foundPath j

theorem foundPath_inj : ∀ {i j : Nat} {r r' : List Bool}, foundPath i ++ r = foundPath j ++ r' → i = j ∧ r = r'
  | 0, 0, _, _, h => by simpa [foundPath] using h
  | 0, j + 1, _, _, h => by simp [foundPath] at h
  | i + 1, 0, _, _, h => by simp [foundPath] at h
  | i + 1, j + 1, _, _, h => by
    simp only [foundPath, List.cons_append, List.cons.injEq, true_and] at h
    have := foundPath_inj h
    exact ⟨by omega, this.2⟩

theorem lookup_path_rounds (m : Nat) (w : World) : ∀ (n : Nat) (s : SeedVars) (j : Nat), s.wordlist.length - s.i < n →
    lookupWord (s.wordlist.drop s.i) s.word = some j →
    roundsPath (fun s => .ok (decide (s.i < s.wordlist.length))) (lookupRound.eval m) (lookupRound.path m) n w s = foundPath j
  | 0, s, _, h, _ => by omega
  | n + 1, s, j, h, hj => by
    by_cases hl : s.i < s.wordlist.length
    · rw [roundsPath_true (by simp [hl])]
      rw [List.drop_eq_getElem_cons hl, lookupWord] at hj
      unfold lookupRound
      follow
      simp only [index_lt hl]
      follow
      by_cases hw : s.word = s.wordlist[s.i]
      · simp only [hw, if_true, Option.some.injEq] at hj
        simp only [hw]
        follow
        rw [← hj]
        rfl
      · rw [if_neg hw] at hj
        obtain ⟨i, hi, rfl⟩ := Option.map_eq_some_iff.1 hj
        simp only [hw]
        follow
        have := lookup_path_rounds m w n { s with i := s.i + 1 } i (by simp only; omega) hi
        unfold lookupRound at this
        rw [this]
        rfl
    · rw [List.drop_eq_nil_of_le (by omega)] at hj
      simp [lookupWord] at hj

theorem lookup_path (n : Nat) (w : World) (s : SeedVars) (hn : s.wordlist.length < n) (j : Nat)
    (hj : lookupWord s.wordlist s.word = some j) : lookupStmt.path n w s = foundPath j := by
  unfold lookupStmt
  follow
  rw [loop_path]
  exact lookup_path_rounds n w n { s with i := 0 } j (by simpa using hn) (by simpa using hj)

theorem word_path (n : Nat) (w : World) (s : SeedVars) (hn : s.wordlist.length < n) (hn' : 11 < n) (hi : s.wi < s.words.length)
    (j : Nat) (hj : lookupWord s.wordlist s.words[s.wi] = some j) :
    wordStmt.path n w s = foundPath j ++ false :: (List.replicate (11 - (fmtNat 2 j).length) true ++ [false]) := by
  unfold wordStmt
  follow
  simp only [index_lt hi]
  follow
  rw [lookup_path n w _ (by simpa using hn) j (by simpa using hj), lookup_eval n w _ (by simpa using hn)]
  simp only [hj]
  follow
  have : ¬((j : Int) < 0) := by omega
  simp only [this]
  follow
  rw [loop_path, pad_path (fun _ => 11) SeedVars.indexBinary (fun s t => { s with indexBinary := t }) (fun _ _ => rfl)
      (fun _ _ => rfl) n w n _ (by omega), loop_eval, pad_loop (fun _ => 11) SeedVars.indexBinary (fun s t => { s with indexBinary := t }) (fun _ _ => rfl) (fun _ _ _ => rfl)
      (fun _ => rfl) (fun _ _ => rfl) n w n _ (by omega)]
  follow
  simp only [fmtBig_nat]

/-- Path of the loop over the words of a text, given their positions in the list. -/
def wordsPath : List Nat → List Bool
  | [] => [false]
  | j :: js => true :: (foundPath j ++ false :: (List.replicate (11 - (fmtNat 2 j).length) true ++ false :: wordsPath js))

theorem wordsPath_inj : ∀ {is js : List Nat} {r r' : List Bool}, wordsPath is ++ r = wordsPath js ++ r' → is = js
  | [], [], _, _, _ => rfl
  | [], j :: js, _, _, h => by simp [wordsPath] at h
  | i :: is, [], _, _, h => by simp [wordsPath] at h
  | i :: is, j :: js, r, r', h => by
    simp only [wordsPath, List.cons_append, List.append_assoc, List.cons.injEq, true_and] at h
    obtain ⟨rfl, h⟩ := foundPath_inj h
    simp only [List.cons.injEq, true_and, List.append_cancel_left_eq] at h
    rw [wordsPath_inj h]

theorem words_path_rounds (m : Nat) (hm' : 11 < m) (w : World) : ∀ (js : List Nat) (n : Nat) (s : SeedVars), s.wordlist.length < m →
    s.words.length - s.wi < n → (s.words.drop s.wi).map (lookupWord s.wordlist) = js.map some →
    roundsPath (fun s => .ok (decide (s.wi < s.words.length))) (wordStmt.eval m) (wordStmt.path m) n w s = wordsPath js
  | _, 0, s, _, h, _ => by omega
  | [], n + 1, s, hm, h, hj => by
    have : s.words.drop s.wi = [] := by simpa using hj
    rw [List.drop_eq_nil_iff] at this
    rw [roundsPath_false (by simp; omega)]
    rfl
  | j :: js, n + 1, s, hm, h, hj => by
    have hl : s.wi < s.words.length := by
      by_contra hc
      rw [List.drop_eq_nil_of_le (by omega)] at hj
      simp at hj
    rw [List.drop_eq_getElem_cons hl] at hj
    simp only [List.map_cons, List.cons.injEq] at hj
    have he := word_eval m w s hm hm' hl
    rw [hj.1] at he
    simp only at he
    obtain ⟨s', e, h1, h2, h3, h4⟩ := he
    rw [roundsPath_true (by simp [hl]), word_path m w s hm hm' hl j hj.1, e, thenPath_next,
      words_path_rounds m hm' w js n s' (by rw [h2]; exact hm) (by rw [h1, h3]; omega) (by rw [h1, h2, h3]; exact hj.2)]
    simp [wordsPath]

/-- The path of `NewSeedFromMnemonic` begins with that of the loop over the words. -/
theorem newSeed_path (H : Hashes) (n : Nat) (w : World) (mnemonic passphrase : GoString) (wl : List GoString) (js : List Nat)
    (hn : 11 + (splitSpace mnemonic).length + wl.length < n) (hj : (splitSpace mnemonic).map (lookupWord wl) = js.map some) :
    ∃ r, (newSeedFromMnemonicBody H).path n w { mnemonic := mnemonic, passphrase := passphrase, wordlist := wl } = wordsPath js ++ r := by
  unfold newSeedFromMnemonicBody
  rw [seq_path, set_path, set_eval, thenPath_next, seq_path, set_path, set_eval, thenPath_next, seq_path, set_path, set_eval,
    thenPath_next, seq_path, loop_path, words_path_rounds n (by omega) w js n _ (by simp only; omega) (by simp only; omega) (by simpa using hj)]
  exact ⟨_, by simp only [List.nil_append]; rfl⟩

/-! ## NewMnemonic -/

/-- Path of the inner loop of `NewMnemonic`: `k` bits of `x` from `j` on. -/
def bitsPath (x : Nat) : Nat → Nat → List Bool
  | 0, _ => [false]
  | k + 1, j => true :: decide (natBit x j = 0) :: bitsPath x k (j + 1)

/-- Path of the outer loop: `k` words from bit `i` on. -/
def picksPath (x : Nat) : Nat → Nat → List Bool
  | 0, _ => [false]
  | k + 1, i => true :: (bitsPath x 11 i ++ picksPath x k (i + 11))

theorem bitsPath_inj {x y : Nat} : ∀ {k j : Nat} {r r' : List Bool}, bitsPath x k j ++ r = bitsPath y k j ++ r' →
    (∀ t, j ≤ t → t < j + k → (natBit x t = 0 ↔ natBit y t = 0)) ∧ r = r'
  | 0, j, r, r', h => ⟨fun t h1 h2 => by omega, by simpa [bitsPath] using h⟩
  | k + 1, j, r, r', h => by
    simp only [bitsPath, List.cons_append, List.cons.injEq, true_and, decide_eq_decide] at h
    obtain ⟨h1, h2⟩ := bitsPath_inj h.2
    refine ⟨fun t ht ht' => ?_, h2⟩
    rcases Nat.eq_or_lt_of_le ht with rfl | hlt
    · exact h.1
    · exact h1 t hlt (by omega)

theorem picksPath_inj {x y : Nat} : ∀ {k i : Nat}, picksPath x k i = picksPath y k i → ∀ wl, phraseLoop wl x k i = phraseLoop wl y k i
  | 0, i, _, wl => by simp [phraseLoop]
  | k + 1, i, h, wl => by
    simp only [picksPath, List.cons.injEq, true_and] at h
    obtain ⟨h1, h2⟩ := bitsPath_inj h
    have hb : bitString x i = bitString y i := by
      rw [bitString_range', bitString_range']
      refine List.map_congr_left fun t ht => ?_
      rw [List.mem_range'_1] at ht
      simp only [h1 t ht.1 ht.2]
    rw [phraseLoop, phraseLoop, hb, picksPath_inj h2 wl]

theorem pick_path_rounds (m : Nat) (w : World) (x : Int) : ∀ (n k : Nat) (s : MnemonicVars), k < n → s.j + k = s.i + 11 →
    s.binary = some x →
    roundsPath (fun s => .ok (decide ((s.j : Int) - s.i < 11))) (pickRound.eval m) (pickRound.path m) n w s = bitsPath x.toNat k s.j
  | 0, k, s, h, _, _ => by omega
  | n + 1, 0, s, _, h', _ => by
    have hc : ¬((s.j : Int) - s.i < 11) := by omega
    rw [roundsPath_false (by simp [hc])]
    rfl
  | n + 1, k + 1, s, h, h', hx => by
    have hc : ((s.j : Int) - s.i < 11) := by omega
    rw [roundsPath_true (by simp [hc])]
    unfold pickRound
    follow
    simp only [hx]
    follow
    by_cases hb : natBit x.toNat s.j = 0
    · simp only [hb]
      follow
      have := pick_path_rounds m w x n k { s with str := s.str ++ [48], j := s.j + 1 } (by omega) (by simp only; omega) hx
      unfold pickRound at this
      simp only [hx] at this
      rw [this]
      simp [bitsPath, hb]
    · simp only [hb]
      follow
      have := pick_path_rounds m w x n k { s with str := s.str ++ [49], j := s.j + 1 } (by omega) (by simp only; omega) hx
      unfold pickRound at this
      simp only [hx] at this
      rw [this]
      simp [bitsPath, hb]

theorem pick_path (n : Nat) (hn : 11 < n) (w : World) (s : MnemonicVars) (x : Int) (hx : s.binary = some x) :
    pickStmt.path n w s = bitsPath x.toNat 11 s.i := by
  have h := pick_path_rounds n w x n 11 { s with str := [], j := s.i } hn rfl hx
  have e := pick_rounds n w x n 11 { s with str := [], j := s.i } hn rfl hx
  unfold pickRound at h e
  unfold pickStmt
  follow
  rw [loop_path, h, loop_eval, e]
  follow
  simp only [hx]
  cases bigSetString _ 2 with
  | none => follow
  | some k =>
    follow
    cases index (s.wordlist.getD []) k <;> follow

theorem picks_path_rounds (m : Nat) (hm : 11 < m) (w : World) (x : Int) : ∀ (k n : Nat) (s : MnemonicVars) (ws : List GoString),
    s.binary = some x → (s.b.length - s.i + 10) / 11 = k → k < n → phraseLoop (s.wordlist.getD []) x.toNat k s.i = .ok ws →
    roundsPath (fun s => .ok (decide (s.i < s.b.length))) (pickStmt.eval m) (pickStmt.path m) n w s = picksPath x.toNat k s.i
  | _, 0, s, _, _, _, h, _ => by omega
  | 0, n + 1, s, _, hx, hk, h, _ => by
    rw [roundsPath_false (by simp; omega)]
    rfl
  | k + 1, n + 1, s, ws, hx, hk, h, hok => by
    have hl : s.i < s.b.length := by omega
    rw [roundsPath_true (by simp [hl]), pick_path m hm w s x hx]
    have hp := pick_eval m hm w s x hx
    rw [phraseLoop] at hok
    cases hk' : bigSetString (bitString x.toNat s.i) 2 with
    | none => rw [hk'] at hok; simp at hok
    | some v =>
      rw [hk'] at hp hok
      simp only [deref_some, Res.bind_ok] at hp hok
      cases hi : index (s.wordlist.getD []) v with
      | err e => rw [hi] at hp; exact hp.elim
      | panic p => rw [hi] at hok; simp at hok
      | ok wd =>
        rw [hi] at hp hok
        simp only [Res.bind_ok] at hp hok
        obtain ⟨s', e, h1, h2, h3, h4, h5⟩ := hp
        cases hr : phraseLoop (s.wordlist.getD []) x.toNat k (s.i + 11) with
        | err e => rw [hr] at hok; simp at hok
        | panic p => rw [hr] at hok; simp at hok
        | ok ws' =>
          rw [e, thenPath_next, picks_path_rounds m hm w x k n s' ws' (by rw [h1, hx]) (by rw [h3, h4]; omega) (by omega)
            (by rw [h2, h4]; exact hr), h4]
          rfl

/-- Path of the `switch` on the number of words. -/
def switchPath (words : Int) : List Bool :=
  if words = 12 then [true]
  else if words = 15 then [false, true]
  else if words = 18 then [false, false, true]
  else if words = 21 then [false, false, false, true]
  else if words = 24 then [false, false, false, false, true]
  else [false, false, false, false, false]

theorem newMnemonic_path (H : Hashes) (n : Nat) (hn : 300 ≤ n) (w : World) (words : Int) (wl : List GoString) (el v : Nat)
    (rd' : Reader) (p : GoString) (hw : entropyLengthOf words = some el) (hr : randInt w.rd (2 ^ el) = .ok (v, rd'))
    (hp : phraseOf H el v wl = .ok p) :
    ∃ (c : GoString) (x : Int), slice (fmtNat 2 (bytesToNat (H.sha256 (natToBytes v)))) 0 ((el / 32 : Nat) : Int) = .ok c ∧
      bigSetString (padZeros el (fmtNat 2 v) ++ c) 2 = some x ∧
      (newMnemonicBody H).path n w { words := words, wordlist := some wl } =
        false :: (switchPath words ++ false :: (List.replicate (el - (fmtNat 2 v).length) true ++
          false :: picksPath x.toNat ((el + el / 32 + 10) / 11) 0)) ∧
      ∃ ws, phraseLoop wl x.toNat ((el + el / 32 + 10) / 11) 0 = .ok ws ∧ p = joinSpace ws := by
  have hc : (words = 12 ∧ el = 128) ∨ (words = 15 ∧ el = 160) ∨ (words = 18 ∧ el = 192) ∨ (words = 21 ∧ el = 224) ∨
      (words = 24 ∧ el = 256) := by
    unfold entropyLengthOf at hw
    by_cases h1 : words = 12
    · simp [h1] at hw; omega
    · by_cases h2 : words = 15
      · simp [h2] at hw; omega
      · by_cases h3 : words = 18
        · simp [h3] at hw; omega
        · by_cases h4 : words = 21
          · simp [h4] at hw; omega
          · by_cases h5 : words = 24
            · simp [h5] at hw; omega
            · simp [h1, h2, h3, h4, h5] at hw
  have hsel : ∀ (k : Stmt MnemonicVars (GoString × Option GoError)) (s : MnemonicVars), s.words = words →
      (ite (fun s => decide (s.words = 12)) (set fun s => { s with entropyLength := 128 })
        (ite (fun s => decide (s.words = 15)) (set fun s => { s with entropyLength := 160 })
          (ite (fun s => decide (s.words = 18)) (set fun s => { s with entropyLength := 192 })
            (ite (fun s => decide (s.words = 21)) (set fun s => { s with entropyLength := 224 })
              (ite (fun s => decide (s.words = 24)) (set fun s => { s with entropyLength := 256 })
                (ret fun _ => ([], some .unsupportedMnemonicLength)))))) ;; k).path n w s =
        switchPath words ++ k.path n w { s with entropyLength := el } := by
    intro k s hs
    simp only [seq_path, ite_path, ite_eval, switchPath, hs]
    rcases hc with ⟨rfl, rfl⟩ | ⟨rfl, rfl⟩ | ⟨rfl, rfl⟩ | ⟨rfl, rfl⟩ | ⟨rfl, rfl⟩ <;>
      simp [set_path, set_eval, thenPath_next, hs]
  have hle : 128 ≤ el ∧ el ≤ 256 := by omega
  unfold newMnemonicBody
  rw [seq_path, when_path, when_eval]
  simp only [Option.isNone_some, Bool.false_eq_true, if_false]
  rw [thenPath_next, hsel _ _ rfl]
  follow
  have hpow : ((2 : Int) ^ el).toNat = 2 ^ el := by
    have : ((2 : Int) ^ el) = ((2 ^ el : Nat) : Int) := by push_cast; rfl
    rw [this, Int.toNat_natCast]
  rw [hpow, hr]
  follow
  unfold phraseOf at hp
  cases hs : slice (fmtNat 2 (bytesToNat (H.sha256 (natToBytes v)))) 0 ((el / 32 : Nat) : Int) with
  | err e => exact absurd hs slice_ne_err
  | panic q => simp only [hs, Res.bind_panic] at hp; simp at hp
  | ok c =>
    simp only [hs, Res.bind_ok] at hp
    follow
    rw [loop_path, loop_eval, pad_path MnemonicVars.entropyLength MnemonicVars.b (fun s t => { s with b := t }) (fun _ _ => rfl)
        (fun _ _ => rfl) n _ n _ (by simp only; omega),
      pad_loop MnemonicVars.entropyLength MnemonicVars.b (fun s t => { s with b := t }) (fun _ _ => rfl)
        (fun _ _ _ => rfl) (fun _ => rfl) (fun _ _ => rfl) n _ n _ (by simp only; omega)]
    follow
    have hlen : (fmtNat 2 v).length ≤ el := (length_fmtNat_le_iff (by omega) (by omega)).2 (randInt_lt (by positivity) hr)
    have hcl := slice_length hs
    have hb : (padZeros el (fmtNat 2 v) ++ c).length = el + el / 32 := by
      rw [List.length_append, length_padZeros]; omega
    cases hbin : bigSetString (padZeros el (fmtNat 2 v) ++ c) 2 with
    | none => rw [hbin] at hp; simp at hp
    | some x =>
      rw [hbin, hb] at hp
      simp only [deref_some, Res.bind_ok] at hp
      cases hl : phraseLoop wl x.toNat ((el + el / 32 + 10) / 11) 0 with
      | err e => rw [hl] at hp; simp at hp
      | panic q => rw [hl] at hp; simp at hp
      | ok ws =>
        rw [hl] at hp
        simp only [Res.bind_ok, Res.ok.injEq] at hp
        refine ⟨c, x, rfl, hbin, ?_, ws, hl, hp.symm⟩
        rw [loop_path, picks_path_rounds n (by omega) _ x ((el + el / 32 + 10) / 11) n _ ws rfl (by simp only [hb]; omega) (by omega)
          (by simpa using hl)]
        have hx := picks_rounds n (by omega) { w with rd := rd' } x ((el + el / 32 + 10) / 11) n
          { words := words, wordlist := some wl, entropyLength := el, np256 := 2 ^ el, entropy := v, sha := natToBytes v, hash := H.sha256 (natToBytes v), checksumLength := el / 32, hashInt := bytesToNat (H.sha256 (natToBytes v)), hashBinary := fmtNat 2 (bytesToNat (H.sha256 (natToBytes v))), checksumBinary := c, b := padZeros el (fmtNat 2 v) ++ c, binary := some x }
          rfl (by simp only [hb]; omega) (by omega)
        simp only [Option.getD_some, hl] at hx
        obtain ⟨s', e, _⟩ := hx
        rw [loop_eval, e]
        follow
        simp

end Btc.Imp
