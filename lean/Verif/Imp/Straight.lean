import Verif.Imp.Code
import Verif.Proofs.Arith
import Verif.Proofs.Rand

/-!
# The programs without loops compute the model
-/

namespace Btc.Imp

variable {α β ρ σ : Type}

/-- How a Go function with one result ends, from the model. -/
def Done.plain : Res α → Option (Done α)
  | .ok a => some (.ret a)
  | .err _ => none
  | .panic p => some (.panic p)

/-- How a Go function with results `(*T, error)` ends, from the model. -/
def Done.ptr : Res α → Option (Done (Option α × Option GoError))
  | .ok a => some (.ret (some a, none))
  | .err e => some (.ret (none, some e))
  | .panic p => some (.panic p)

/-- How a Go function with results `(string, error)` ends, from the model. -/
def Done.text : Res GoString → Option (Done (GoString × Option GoError))
  | .ok a => some (.ret (a, none))
  | .err e => some (.ret ([], some e))
  | .panic p => some (.panic p)

/-- The same for the end of a body. -/
def Out.done : Done ρ → Out σ ρ
  | .ret r => .ret r
  | .panic p => .panic p

/-- The end of a body in the world `w`. -/
def fin (d : Option (Done ρ)) (w : World) : Option (Out σ ρ × World) := d.map fun x => (Out.done x, w)

@[simp] theorem fin_plain_ok (a : α) (w : World) : (fin (Done.plain (.ok a)) w : Option (Out σ α × World)) = some (.ret a, w) := (rfl)
@[simp] theorem fin_plain_panic (p : GoPanic) (w : World) :
    (fin (Done.plain (.panic p : Res α)) w : Option (Out σ α × World)) = some (.panic p, w) := (rfl)
@[simp] theorem fin_plain_err (e : GoError) (w : World) :
    (fin (Done.plain (.err e : Res α)) w : Option (Out σ α × World)) = none := (rfl)
@[simp] theorem fin_ptr_ok (a : α) (w : World) :
    (fin (Done.ptr (.ok a)) w : Option (Out σ _ × World)) = some (.ret (some a, none), w) := (rfl)
@[simp] theorem fin_ptr_panic (p : GoPanic) (w : World) :
    (fin (Done.ptr (.panic p : Res α)) w : Option (Out σ _ × World)) = some (.panic p, w) := (rfl)
@[simp] theorem fin_ptr_err (e : GoError) (w : World) :
    (fin (Done.ptr (.err e : Res α)) w : Option (Out σ _ × World)) = some (.ret (none, some e), w) := (rfl)
@[simp] theorem fin_text_ok (a : GoString) (w : World) :
    (fin (Done.text (.ok a)) w : Option (Out σ _ × World)) = some (.ret (a, none), w) := (rfl)
@[simp] theorem fin_text_panic (p : GoPanic) (w : World) :
    (fin (Done.text (.panic p)) w : Option (Out σ _ × World)) = some (.panic p, w) := (rfl)
@[simp] theorem fin_text_err (e : GoError) (w : World) :
    (fin (Done.text (.err e)) w : Option (Out σ _ × World)) = some (.ret ([], some e), w) := (rfl)

@[simp] theorem value_ok (w : World) (a : α) (k : α → Option (Out σ ρ × World)) : value w (.ok a) k = k a := (rfl)
@[simp] theorem value_err (w : World) (e : GoError) (k : α → Option (Out σ ρ × World)) : value w (.err e) k = none := (rfl)
@[simp] theorem value_panic (w : World) (p : GoPanic) (k : α → Option (Out σ ρ × World)) :
    value w (.panic p) k = some (.panic p, w) := (rfl)

@[simp] theorem after_none (k : World → σ → Option (Out σ ρ × World)) : after none k = none := (rfl)
@[simp] theorem after_next (s : σ) (w : World) (k : World → σ → Option (Out σ ρ × World)) :
    after (some (.next s, w)) k = k w s := (rfl)
@[simp] theorem after_brk (s : σ) (w : World) (k : World → σ → Option (Out σ ρ × World)) :
    after (some (.brk s, w)) k = some (.brk s, w) := (rfl)
@[simp] theorem after_ret (r : ρ) (w : World) (k : World → σ → Option (Out σ ρ × World)) :
    after (some (.ret r, w)) k = some (.ret r, w) := (rfl)
@[simp] theorem after_again (s : σ) (w : World) (k : World → σ → Option (Out σ ρ × World)) :
    after (some (.again s, w)) k = some (.again s, w) := (rfl)
@[simp] theorem after_panic (p : GoPanic) (w : World) (k : World → σ → Option (Out σ ρ × World)) :
    after (some (.panic p, w)) k = some (.panic p, w) := (rfl)

@[simp] theorem round_next (s : σ) (w : World) (k : World → σ → Option (Out σ ρ × World)) :
    round (some (.next s, w)) k = k w s := (rfl)
@[simp] theorem round_brk (s : σ) (w : World) (k : World → σ → Option (Out σ ρ × World)) :
    round (some (.brk s, w)) k = some (.next s, w) := (rfl)
@[simp] theorem round_ret (r : ρ) (w : World) (k : World → σ → Option (Out σ ρ × World)) :
    round (some (.ret r, w)) k = some (.ret r, w) := (rfl)
@[simp] theorem round_panic (p : GoPanic) (w : World) (k : World → σ → Option (Out σ ρ × World)) :
    round (some (.panic p, w)) k = some (.panic p, w) := (rfl)

theorem seq_eval (n : Nat) (a b : Stmt σ ρ) (w : World) (s : σ) :
    (a ;; b).eval n w s = after (a.eval n w s) (b.eval n) := (rfl)

theorem set_eval (n : Nat) (f : σ → σ) (w : World) (s : σ) :
    (set f : Stmt σ ρ).eval n w s = some (.next (f s), w) := (rfl)

theorem logln_eval (n : Nat) (f : σ → GoString) (w : World) (s : σ) :
    (logln f : Stmt σ ρ).eval n w s = some (.next s, { w with log := w.log ++ [f s] }) := (rfl)

theorem assign_eval (n : Nat) (f : σ → Res σ) (w : World) (s : σ) :
    (assign f : Stmt σ ρ).eval n w s = value w (f s) fun s' => some (.next s', w) := by
  simp only [assign, Stmt.eval]
  cases f s <;> rfl

/-- Both results of `x, err = f(…)`. -/
def both (w : World) (r : Res α) (z : α) (k : α → Option GoError → Option (Out σ ρ × World)) : Option (Out σ ρ × World) :=
  match r with
  | .ok a => k a none
  | .err e => k z (some e)
  | .panic p => some (.panic p, w)

@[simp] theorem both_ok (w : World) (a z : α) (k : α → Option GoError → Option (Out σ ρ × World)) :
    both w (.ok a) z k = k a none := (rfl)
@[simp] theorem both_err (w : World) (e : GoError) (z : α) (k : α → Option GoError → Option (Out σ ρ × World)) :
    both w (.err e) z k = k z (some e) := (rfl)
@[simp] theorem both_panic (w : World) (p : GoPanic) (z : α) (k : α → Option GoError → Option (Out σ ρ × World)) :
    both w (.panic p) z k = some (.panic p, w) := (rfl)

theorem set2_eval (n : Nat) (f : σ → Res α) (z : α) (k : σ → α → Option GoError → σ) (w : World) (s : σ) :
    (set2 f z k : Stmt σ ρ).eval n w s = both w (f s) z fun a e => some (.next (k s a e), w) := by
  simp only [set2, Stmt.eval]
  cases f s <;> rfl

theorem when_eval (n : Nat) (c : σ → Bool) (t : Stmt σ ρ) (w : World) (s : σ) :
    (when c t).eval n w s = if c s then t.eval n w s else some (.next s, w) := (rfl)

theorem ite_eval (n : Nat) (c : σ → Bool) (t e : Stmt σ ρ) (w : World) (s : σ) :
    (ite c t e).eval n w s = if c s then t.eval n w s else e.eval n w s := (rfl)

theorem loop_eval (n : Nat) (c : σ → Bool) (b : Stmt σ ρ) (w : World) (s : σ) :
    (loop c b).eval n w s = rounds (fun s => .ok (c s)) (b.eval n) n w s := (rfl)

theorem ret_eval (n : Nat) (f : σ → ρ) (w : World) (s : σ) : (ret f).eval n w s = some (.ret (f s), w) := (rfl)

theorem act_eval (n : Nat) (f : World → σ → Res (World × σ)) (w : World) (s : σ) :
    (Stmt.act f : Stmt σ ρ).eval n w s = value w (f w s) fun q => some (.next q.2, q.1) := (rfl)

theorem cond_eval (n : Nat) (c : σ → Res Bool) (t e : Stmt σ ρ) (w : World) (s : σ) :
    (Stmt.cond c t e).eval n w s = value w (c s) fun x => if x then t.eval n w s else e.eval n w s := (rfl)

theorem retM_eval (n : Nat) (f : σ → Res ρ) (w : World) (s : σ) :
    (Stmt.ret f).eval n w s = value w (f s) fun r => some (.ret r, w) := (rfl)

theorem again_eval (n : Nat) (f : σ → σ) (w : World) (s : σ) :
    (Stmt.again f : Stmt σ ρ).eval n w s = some (.again (f s), w) := (rfl)

theorem skip_eval (n : Nat) (w : World) (s : σ) : (Stmt.skip : Stmt σ ρ).eval n w s = some (.next s, w) := (rfl)

theorem brk_eval (n : Nat) (w : World) (s : σ) : (Stmt.brk : Stmt σ ρ).eval n w s = some (.brk s, w) := (rfl)

/-- Executes statements up to the next case distinction. -/
macro "exec" : tactic => `(tactic| simp only [seq_eval, set_eval, assign_eval, set2_eval, when_eval, ite_eval, ret_eval, act_eval,
  cond_eval, retM_eval, again_eval, skip_eval, brk_eval, logln_eval, value_ok, value_err, value_panic, after_none, after_next,
  after_brk, after_ret, after_again, after_panic, both_ok, both_err, both_panic, decide_true, decide_false, ne_eq, not_true_eq_false, not_false_eq_true,
  Option.isSome_none, Option.isSome_some, Bool.false_eq_true, Bool.not_true, Bool.not_false,
  if_false, if_true, List.nil_append, Res.bind_ok, Res.bind_err, Res.bind_panic, deref_some, deref_none,
  fin_plain_ok, fin_plain_panic, fin_plain_err, fin_ptr_ok, fin_ptr_panic, fin_ptr_err, fin_text_ok, fin_text_panic,
  fin_text_err])

/-- A call whose body does not call the function again. -/
theorem call_fin {body : Stmt σ ρ} {n m : Nat} {w w' : World} {s : σ} {d : Option (Done ρ)}
    (h : body.eval n w s = fin d w') : call body n (m + 1) w s = d.map fun x => (x, w') := by
  rcases d with _ | ⟨_ | _⟩ <;> simp only [call, h, fin, Option.map_none, Option.map_some, Out.done]

theorem slice_ne_err {s : List α} {a b : Int} {e : GoError} : slice s a b ≠ .err e := by
  unfold slice
  split <;> simp

theorem checkWIF_eval (H : Hashes) (n : Nat) (w : World) (wif : GoString) :
    (checkWIFBody H).eval n w { wif := wif } = fin (Done.plain (checkWIF H wif)) w := by
  unfold checkWIFBody checkWIF
  exec
  cases base58Decode wif with
  | err e => exec
  | panic p => exec
  | ok bytes =>
    exec
    cases slice (hexEncode bytes) (((hexEncode bytes).length : Int) - 8) (hexEncode bytes).length with
    | err e => exec
    | panic p => exec
    | ok c =>
      exec
      cases slice (hexEncode bytes) 0 (((hexEncode bytes).length : Int) - 8) with
      | err e => exec
      | panic p => exec
      | ok h =>
        exec
        cases hexDecode h with
        | err e => exec
        | panic p => exec
        | ok hb =>
          exec
          cases slice (hexEncode (H.sha256 (H.sha256 hb))) 0 8 <;> exec

theorem privateFromWIF_eval (H : Hashes) (n : Nat) (w : World) (wif : GoString) (network : Option Network) :
    (privateFromWIFBody H).eval n w { wif := wif, network := network } = fin (Done.ptr (privateFromWIF H wif network)) w := by
  unfold privateFromWIFBody privateFromWIF
  exec
  cases hv : checkWIF H wif with
  | err e => exact absurd hv (checkWIF_ne_err H wif e)
  | panic p => exec
  | ok v =>
    cases v with
    | false => exec
    | true =>
      exec
      cases base58Decode wif with
      | err e => exec
      | panic p => exec
      | ok bytes =>
        exec
        cases hs : slice (hexEncode bytes) 2 (hexEncode bytes).length with
        | err e => exact absurd hs slice_ne_err
        | panic p => exec
        | ok h =>
          exec
          cases hs : slice h 0 ((h.length : Int) - 8) with
          | err e => exact absurd hs slice_ne_err
          | panic p => exec
          | ok h' => exec

theorem privateFromHex_eval (H : Hashes) (n : Nat) (w : World) (hexa : GoString) (network : Option Network) :
    (privateFromHexBody H).eval n w { hexa := hexa, network := network } = fin (Done.ptr (privateFromHex H hexa network)) w := by
  unfold privateFromHexBody privateFromHex
  exec
  cases network with
  | none => exec
  | some net =>
    exec
    cases hexDecode (net.PrivKeyPrefix ++ hexa) with
    | err e => exec
    | panic p => exec
    | ok b =>
      exec
      cases hs : slice (hexEncode (H.sha256 (H.sha256 b))) 0 8 with
      | err e => exact absurd hs slice_ne_err
      | panic p => exec
      | ok c =>
        exec
        cases hexDecode (net.PrivKeyPrefix ++ hexa ++ c) <;> exec

/-- The body shared by `AddPrivateKeys` and `MultiplyPrivateKeys`, on values. -/
def combineValue (H : Hashes) (op : Int → Int → Int) (p1 p2 : PrivateKey) : Res PrivateKey :=
  if p1.Network ≠ p2.Network then .err .differentNetwork
  else if H.toLower p1.WIF = H.toLower p2.WIF then .err .identicalKeys
  else do
    let k1 ← deref p1.Key
    let k2 ← deref p2.Key
    let n ← deref secp256k1.N
    privateFromHex H (bigIntToHex (some (op k1 k2 % n))) p1.Network

theorem combine_eval (H : Hashes) (op : Int → Int → Int) (n : Nat) (w : World) (p1 p2 : Option PrivateKey) :
    (combineBody H op).eval n w { p1 := p1, p2 := p2 } =
      fin (Done.ptr (do let a ← deref p1; let b ← deref p2; combineValue H op a b)) w := by
  unfold combineBody combineValue
  cases p1 with
  | none => exec
  | some p1 =>
    cases p2 with
    | none => exec
    | some p2 =>
      exec
      by_cases hn : p1.Network = p2.Network
      · simp only [hn, decide_true, not_true_eq_false]
        exec
        by_cases hw : H.toLower p1.WIF = H.toLower p2.WIF
        · simp only [hw, decide_true]
          exec
        · simp only [hw, decide_false]
          exec
          cases p1.Key with
          | none => exec
          | some k1 =>
            cases p2.Key with
            | none => exec
            | some k2 =>
              have h0 : ¬((Spec.n : Int) = 0) := by decide
              simp only [secp256k1_N, deref_some, Res.bind_ok, h0, if_false]
              exec
              simp only [← hn]
              cases privateFromHex H (bigIntToHex (some (op k1 k2 % (Spec.n : Int)))) p1.Network <;> exec
      · simp only [hn, decide_false, not_false_eq_true]
        exec

theorem generateRandomBigInt_eval (n : Nat) (w : World) :
    generateRandomBigIntBody.eval n w {} =
      match generateRandomBigInt w.rd with
      | .ok (v, rd') => some (.ret (some (v : Int)), { w with rd := rd' })
      | .err _ => none
      | .panic p => some (.panic p, w) := by
  unfold generateRandomBigIntBody generateRandomBigInt
  exec
  simp only [bound_eq]
  exec
  cases randInt w.rd (Int.toNat ((Spec.n - 1 : Nat) : Int)) with
  | ok q => exec
  | err e => exec; rfl
  | panic p => exec

end Btc.Imp
