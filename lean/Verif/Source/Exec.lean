import Verif.Source.Attr
import Verif.Source.Run
import Verif.Source.Trees

/-!
# Running programs on symbolic values
-/

namespace Btc.Source

open Mem

variable {α β : Type}

@[go_exec ↓] theorem bind_apply (x : M α) (f : α → M β) (st : State) : (x >>= f) st = (x st).andThen f := (rfl)
@[go_exec ↓] theorem pure_apply (a : α) (st : State) : (pure a : M α) st = .ok a st := (rfl)
@[go_exec ↓] theorem andThen_ok (a : α) (st : State) (f : α → M β) : (Out.ok a st).andThen f = f a st := (rfl)
@[go_exec ↓] theorem andThen_panic (p : GoPanic) (st : State) (f : α → M β) : (Out.panic p st : Out α).andThen f = .panic p st := (rfl)
@[go_exec ↓] theorem andThen_stuck (f : α → M β) : (Out.stuck : Out α).andThen f = .stuck := (rfl)
@[go_exec ↓] theorem panic_apply (p : GoPanic) (st : State) : (panic p : M α) st = .panic p st := (rfl)
@[go_exec] theorem ofRes_ok (a : α) (st : State) : ofRes (.ok a) st = .ok a st := (rfl)
@[go_exec] theorem ofRes_panic (p : GoPanic) (st : State) : ofRes (.panic p : Res α) st = .panic p st := (rfl)
@[go_exec] theorem withError_ok (a : α) (f : α → Value) (st : State) : withError (.ok a) f st = .ok [f a, .err none] st := (rfl)
@[go_exec] theorem withError_err (e : GoError) (f : α → Value) (st : State) :
    withError (.err e) f st = .ok [.unknown, .err (some e)] st := (rfl)
@[go_exec] theorem withError_panic (p : GoPanic) (f : α → Value) (st : State) :
    withError (.panic p) f st = .panic p st := (rfl)
@[go_exec] theorem one_single (v : Value) : one [v] = pure v := (rfl)
@[go_exec] theorem known_some (a : α) : known (some a) = pure a := (rfl)
@[go_exec] theorem typed_str (t : Expr) (s : GoString) : typed t (.str s) = .str s := (rfl)
@[go_exec] theorem typed_big (t : Expr) (p : Ptr) : typed t (.big p) = .big p := (rfl)
@[go_exec] theorem typed_priv (t : Expr) (p : Ptr) : typed t (.priv p) = .priv p := (rfl)
@[go_exec] theorem typed_pub (t : Expr) (p : Ptr) : typed t (.pub p) = .pub p := (rfl)
@[go_exec] theorem typed_bool (t : Expr) (b : Bool) : typed t (.bool b) = .bool b := (rfl)
@[go_exec] theorem typed_err (t : Expr) (e : Option GoError) : typed t (.err e) = .err e := (rfl)
@[go_exec] theorem typed_bytes (t : Expr) (b : Bytes) : typed t (.bytes b) = .bytes b := (rfl)

open Lean Meta Simp in
/-- Simplify the computation that comes first, and nothing else until it has ended. -/
simproc_decl andThenProc (Out.andThen _ _) := fun e => do
  let_expr Out.andThen α β o f := e | return .continue
  let r ← simp o
  let r' ← mkCongrFun (← mkCongrArg (mkApp2 e.getAppFn α β) r) f
  if r.expr.isAppOf ``Out.ok || r.expr.isAppOf ``Out.panic || r.expr.isAppOf ``Out.stuck then return .visit r' else return .done r'

open Lean Meta Simp in
/-- Simplify the condition, and nothing else until it is known. -/
simproc_decl chooseProc (choose _ _ _ _) := fun e => do
  let_expr choose b t f st := e | return .continue
  let r ← simp b
  let r' ← mkCongrFun (← mkCongrFun (← mkCongrFun (← mkCongrArg e.getAppFn r) t) f) st
  match_expr r.expr with
  | List.cons _ v _ =>
    match_expr v with
    | Value.bool x => if x.isConstOf ``true || x.isConstOf ``false then return .visit r' else return .done r'
    | _ => return .done r'
  | _ => return .done r'

/-! ## Expressions -/

section
variable (C : Ctx)

@[go_exec ↓] theorem eval_name (x : Nat) (env : Env) : eval C (.name x) env = (do let v ← named x env; pure [v]) := (rfl)
@[go_exec ↓] theorem eval_num (n : Nat) (env : Env) : eval C (.num n) env = pure [.int n] := (rfl)
@[go_exec ↓] theorem eval_str (s : List Nat) (env : Env) : eval C (.str s) env = pure [.str (utf8 s)] := (rfl)
@[go_exec ↓] theorem eval_sel (e : Expr) (f : Nat) (env : Env) : eval C (.sel e f) env = (do
    let vs ← eval C e env
    let v ← one vs
    let r ← field v f
    pure [r]) := (rfl)
@[go_exec ↓] theorem eval_callName (g : Nat) (args : Expr) (env : Env) : eval C (.call (.name g) args) env =
    if g = id! "new" then newOf args
    else (do
      let vs ← eval C args env
      callName C g vs) := (rfl)
@[go_exec ↓] theorem eval_callMethod (e : Expr) (m : Nat) (args : Expr) (env : Env) : eval C (.call (.sel e m) args) env = (do
    let us ← eval C e env
    let u ← one us
    let vs ← eval C args env
    callMethod C u m vs) := (rfl)
@[go_exec ↓] theorem eval_index (e i : Expr) (env : Env) : eval C (.index e i) env = (do
    let vs ← eval C e env
    let v ← one vs
    let is ← eval C i env
    let j ← one is
    let r ← indexValue v j
    pure [r]) := (rfl)
@[go_exec ↓] theorem eval_slice (e lo hi : Expr) (env : Env) : eval C (.slice e lo hi) env = (do
    let vs ← eval C e env
    let v ← one vs
    let ls ← eval C lo env
    let l ← one ls
    let hs ← eval C hi env
    let h ← one hs
    let r ← sliceValue v l h
    pure [r]) := (rfl)
@[go_exec ↓] theorem eval_un (op : Nat) (e : Expr) (env : Env) : eval C (.un op e) env = (do
    let vs ← eval C e env
    let v ← one vs
    let r ← known (unary op v)
    pure [r]) := (rfl)
@[go_exec ↓] theorem eval_bin (op : Nat) (a b : Expr) (env : Env) : eval C (.bin op a b) env = (do
    let vs ← eval C a env
    let v ← one vs
    let r ← combine op v (do let us ← eval C b env; one us)
    pure [r]) := (rfl)
@[go_exec ↓] theorem eval_lit (t fields : Expr) (env : Env) : eval C (.lit t fields) env = (do
    let vs ← eval C fields env
    let r ← composite t (keys fields) vs
    pure [r]) := (rfl)
@[go_exec ↓] theorem eval_kv (f : Nat) (e : Expr) (env : Env) : eval C (.kv f e) env = eval C e env := (rfl)
@[go_exec ↓] theorem eval_nil (env : Env) : eval C .nil env = pure [] := (rfl)
@[go_exec ↓] theorem eval_cons (e es : Expr) (env : Env) : eval C (.cons e es) env = (do
    let vs ← eval C e env
    let us ← eval C es env
    pure (vs ++ us)) := (rfl)

/-! ## Statements -/

variable (n : Nat)

@[go_exec ↓] theorem exec_skip (env : Env) : exec C n .skip env = pure (.next env) := (rfl)
@[go_exec ↓] theorem exec_seq (a b : Stmt) (env : Env) : exec C n (.seq a b) env = (do
    let r ← exec C n a env
    follow r fun env => exec C n b env) := (rfl)
@[go_exec ↓] theorem exec_block (s : Stmt) (env : Env) : exec C n (.block s) env = (do
    let r ← exec C n s ([] :: env)
    pure (leave r)) := (rfl)
@[go_exec ↓] theorem exec_define (l r : Expr) (env : Env) : exec C n (.define l r) env = (do
    let vs ← eval C r env
    let env' ← known (defineAll l vs env)
    pure (.next env')) := (rfl)
@[go_exec ↓] theorem exec_assign (l r : Expr) (env : Env) : exec C n (.assign l r) env = assignment C l r env := (rfl)
@[go_exec ↓] theorem exec_addAssign (l r : Expr) (env : Env) : exec C n (.addAssign l r) env =
    assignment C (.cons l .nil) (.bin (id! "+") l r) env := (rfl)
@[go_exec ↓] theorem exec_inc (l : Expr) (env : Env) : exec C n (.inc l) env =
    assignment C (.cons l .nil) (.bin (id! "+") l (.num 1)) env := (rfl)
@[go_exec ↓] theorem exec_expr (e : Expr) (env : Env) : exec C n (.expr e) env = (do
    let _ ← eval C e env
    pure (.next env)) := (rfl)
@[go_exec ↓] theorem exec_var (x : Nat) (t : Expr) (env : Env) : exec C n (.var x t) env = (do
    let v ← zero t
    pure (.next (env.define x v))) := (rfl)
@[go_exec ↓] theorem exec_ret (es : Expr) (env : Env) : exec C n (.ret es) env = (do
    let vs ← eval C es env
    pure (.ret vs)) := (rfl)
@[go_exec ↓] theorem exec_brk (env : Env) : exec C n .brk env = pure (.brk env) := (rfl)
@[go_exec ↓] theorem exec_ite (c : Expr) (t e : Stmt) (env : Env) : exec C n (.ite c t e) env = (do
    let b ← eval C c env
    choose b (exec C n t env) (exec C n e env)) := (rfl)
@[go_exec ↓] theorem exec_switch (s : Stmt) (env : Env) : exec C n (.switch s) env = (do
    let r ← exec C n s env
    again r fun env => pure (.next env)) := (rfl)
theorem exec_loop (init : Stmt) (c : Expr) (post body : Stmt) (env : Env) : exec C n (.loop init c post body) env = (do
    let r ← exec C n init ([] :: env)
    let q ← follow r fun env => rounds (eval C c) (exec C n body) (exec C n post) n env
    pure (leave q)) := (rfl)

@[go_exec ↓] theorem follow_next (env : Env) (k : Env → M Ctl) : follow (.next env) k = k env := (rfl)
@[go_exec ↓] theorem follow_brk (env : Env) (k : Env → M Ctl) : follow (.brk env) k = pure (.brk env) := (rfl)
@[go_exec ↓] theorem follow_ret (vs : List Value) (k : Env → M Ctl) : follow (.ret vs) k = pure (.ret vs) := (rfl)
@[go_exec ↓] theorem again_next (env : Env) (k : Env → M Ctl) : again (.next env) k = k env := (rfl)
@[go_exec ↓] theorem again_brk (env : Env) (k : Env → M Ctl) : again (.brk env) k = pure (.next env) := (rfl)
@[go_exec ↓] theorem again_ret (vs : List Value) (k : Env → M Ctl) : again (.ret vs) k = pure (.ret vs) := (rfl)
@[go_exec ↓] theorem choose_true (t e : M Ctl) : choose [.bool true] t e = t := (rfl)
@[go_exec ↓] theorem choose_false (t e : M Ctl) : choose [.bool false] t e = e := (rfl)
@[go_exec] theorem shortOr_true (b : M Value) : shortOr (.bool true) b = pure (.bool true) := (rfl)
@[go_exec] theorem shortOr_false (b : M Value) : shortOr (.bool false) b = b := (rfl)
@[go_exec] theorem leave_next (s : List (Nat × Value)) (env : Env) : leave (.next (s :: env)) = .next env := (rfl)
@[go_exec] theorem leave_brk (s : List (Nat × Value)) (env : Env) : leave (.brk (s :: env)) = .brk env := (rfl)
@[go_exec] theorem leave_ret (vs : List Value) : leave (.ret vs) = .ret vs := (rfl)
end

attribute [go_exec ↓] named scopeGet scopeSet Env.get Env.set Env.define defineAll callName callMethod combine unary binary equal isNil
  places storeOne storeAll assignment field setField setPriv setPub indexValue sliceValue zero keys given composite external builtin
  global packages hashMethod curveMethod bigMethod typedAll bindParams Func.start Func.finish newHash writeHash readHash
  newOf sprintf println logLine deepEqual privField pubField netField curveField pointField

attribute [go_exec] Option.map_some Option.map_none Option.isNone_some Option.isNone_none List.cons_append List.nil_append List.contains_cons

@[go_exec] theorem verb_x : verb (utf8 [37, 120]) = some 16 := by decide +kernel
@[go_exec] theorem verb_b : verb (utf8 [37, 98]) = some 2 := by decide +kernel

/-! ## String literals -/

theorem newError_of {s : GoString} {e : GoError} {t : GoString} (h : (errorTexts.find? fun q => q.1 == s) = some (t, e)) :
    newError s = pure [.err (some e)] := by
  unfold newError; rw [h]

@[go_exec] theorem newError_wifInvalid : newError (utf8 [119, 105, 102, 32, 105, 110, 118, 97, 108, 105, 100]) =
    pure [.err (some .wifInvalid)] := newError_of (t := asc "wif invalid") (by decide +kernel)
@[go_exec] theorem newError_differentNetwork : newError (utf8 [100, 105, 102, 102, 101, 114, 101, 110, 116, 32, 110,
    101, 116, 119, 111, 114, 107]) =
    pure [.err (some .differentNetwork)] := newError_of (t := asc "different network") (by decide +kernel)
@[go_exec] theorem newError_identicalKeys : newError (utf8 [112, 114, 105, 118, 97, 116, 101, 32, 107, 101, 121, 115,
    32, 97, 114, 101, 32, 105, 100, 101, 110, 116, 105, 99, 97, 108]) =
    pure [.err (some .identicalKeys)] := newError_of (t := asc "private keys are identical") (by decide +kernel)
@[go_exec] theorem newError_notOnSecp256k1 : newError (utf8 [112, 111, 105, 110, 116, 32, 105, 115, 32, 110, 111, 116,
    32, 111, 110, 32, 115, 101, 99, 112, 50, 53, 54, 107, 49, 32, 99, 117, 114, 118, 101]) =
    pure [.err (some .notOnSecp256k1)] := newError_of (t := asc "point is not on secp256k1 curve") (by decide +kernel)
@[go_exec] theorem newError_unsupportedFormat : newError (utf8 [117, 110, 115, 117, 112, 112, 111, 114, 116, 101, 100,
    32, 112, 117, 98, 108, 105, 99, 32, 107, 101, 121, 32, 102, 111, 114, 109, 97, 116]) =
    pure [.err (some .unsupportedFormat)] := newError_of (t := asc "unsupported public key format") (by decide +kernel)
@[go_exec] theorem newError_notOnCurve : newError (utf8 [112, 111, 105, 110, 116, 32, 105, 115, 32, 110, 111, 116, 32,
    111, 110, 32, 99, 117, 114, 118, 101]) =
    pure [.err (some .notOnCurve)] := newError_of (t := asc "point is not on curve") (by decide +kernel)
@[go_exec] theorem newError_invalidMnemonic : newError (utf8 [105, 110, 118, 97, 108, 105, 100, 32, 109, 110, 101, 109,
    111, 110, 105, 99]) =
    pure [.err (some .invalidMnemonic)] := newError_of (t := asc "invalid mnemonic") (by decide +kernel)
@[go_exec] theorem newError_invalidChecksum : newError (utf8 [105, 110, 118, 97, 108, 105, 100, 32, 99, 104, 101, 99,
    107, 115, 117, 109]) =
    pure [.err (some .invalidChecksum)] := newError_of (t := asc "invalid checksum") (by decide +kernel)
@[go_exec] theorem newError_invalidWordlist : newError (utf8 [105, 110, 118, 97, 108, 105, 100, 32, 119, 111, 114, 100,
    108, 105, 115, 116]) =
    pure [.err (some .invalidWordlist)] := newError_of (t := asc "invalid wordlist") (by decide +kernel)
@[go_exec] theorem newError_unsupportedMnemonicLength : newError (utf8 [117, 110, 115, 117, 112, 112, 111, 114, 116,
    101, 100, 32, 109, 110, 101, 109, 111, 110, 105, 99, 32, 108, 101, 110, 103, 116, 104]) =
    pure [.err (some .unsupportedMnemonicLength)] := newError_of (t := asc "unsupported mnemonic length") (by decide +kernel)
@[go_exec] theorem utf8_max : utf8 [70, 70, 70, 70, 70, 70, 70, 70, 70, 70, 70, 70, 70, 70, 70, 70, 70, 70, 70, 70, 70,
    70, 70, 70, 70, 70, 70, 70, 70, 70, 70, 69, 66, 65, 65, 69, 68, 67, 69, 54, 65, 70, 52, 56, 65, 48, 51, 66, 66, 70,
    68, 50, 53, 69, 56, 67, 68, 48, 51, 54, 52, 49, 52, 48] =
    asc "FFFFFFFFFFFFFFFFFFFFFFFFFFFFFFFEBAAEDCE6AF48A03BBFD25E8CD0364140" := by decide +kernel
@[go_exec] theorem bigSetString_max : bigSetString (asc "FFFFFFFFFFFFFFFFFFFFFFFFFFFFFFFEBAAEDCE6AF48A03BBFD25E8CD0364140") 16 =
    some 0xFFFFFFFFFFFFFFFFFFFFFFFFFFFFFFFEBAAEDCE6AF48A03BBFD25E8CD0364140 := by decide +kernel
@[go_exec] theorem utf8_empty : utf8 [] = [] := by decide +kernel
@[go_exec] theorem utf8_zero : utf8 [48] = [48] := by decide +kernel
@[go_exec] theorem utf8_one : utf8 [49] = [49] := by decide +kernel
@[go_exec] theorem utf8_02 : utf8 [48, 50] = asc "02" := by decide +kernel
@[go_exec] theorem utf8_03 : utf8 [48, 51] = asc "03" := by decide +kernel
@[go_exec] theorem utf8_04 : utf8 [48, 52] = asc "04" := by decide +kernel
@[go_exec] theorem utf8_space : utf8 [32] = [32] := by decide +kernel

/-! ## Hash states -/

@[go_exec] theorem digest_sha (H : Hashes) (d : Bytes) : digest H ⟨false, d⟩ = H.sha256 d := (rfl)
@[go_exec] theorem digest_rip (H : Hashes) (d : Bytes) : digest H ⟨true, d⟩ = H.ripemd160 d := (rfl)

@[go_exec] theorem getElem?_len (l : List α) (x : α) : (l ++ [x])[l.length]? = some x := by simp

@[go_exec] theorem modify_len (l : List α) (x : α) (f : α → α) : (l ++ [x]).modify l.length f = l ++ [f x] := by
  induction l with
  | nil => simp
  | cons a l ih => simp [ih]

/-! ## The heap -/

/-- Go on with the result of a computation on the heap. -/
def hThen (o : Res α × Heap) (f : α → HM β) : Res β × Heap :=
  match o with
  | (.ok a, h) => f a h
  | (.err e, h) => (.err e, h)
  | (.panic p, h) => (.panic p, h)

@[go_exec ↓] theorem hbind_apply (x : HM α) (f : α → HM β) (h : Heap) : (x >>= f) h = hThen (x h) f := (rfl)
@[go_exec ↓] theorem hpure_apply (a : α) (h : Heap) : (pure a : HM α) h = (.ok a, h) := (rfl)
@[go_exec ↓] theorem hThen_ok (a : α) (h : Heap) (f : α → HM β) : hThen (.ok a, h) f = f a h := (rfl)
@[go_exec ↓] theorem hThen_err (e : GoError) (h : Heap) (f : α → HM β) : hThen ((.err e, h) : Res α × Heap) f = (.err e, h) := (rfl)
@[go_exec ↓] theorem hThen_panic (p : GoPanic) (h : Heap) (f : α → HM β) : hThen ((.panic p, h) : Res α × Heap) f = (.panic p, h) := (rfl)
@[go_exec ↓] theorem lift_apply (r : Res α) (h : Heap) : lift r h = (r, h) := (rfl)

open Lean Meta Simp in
/-- The same for computations on the heap. -/
simproc_decl hThenProc (hThen _ _) := fun e => do
  let_expr hThen α β o f := e | return .continue
  let r ← simp o
  let r' ← mkCongrFun (← mkCongrArg (mkApp2 e.getAppFn α β) r) f
  match_expr r.expr with
  | Prod.mk _ _ a _ => if a.isAppOf ``Res.ok || a.isAppOf ``Res.err || a.isAppOf ``Res.panic then return .visit r' else return .done r'
  | _ => return .done r'

attribute [go_exec ↓] randBig newInt newPriv newPub updPriv updPub readCurve deepNet bigIntToHexM readPriv readPub readNet readInt
@[go_exec] theorem readInt_last (l : List Int) (x : Int) (ns : List Network) (ps : List PrivObj) (qs : List PubObj)
    (c : CurveObj) : loadInt ⟨l ++ [x], ns, ps, qs, c⟩ (some l.length) = some x := by simp [loadInt]

@[go_exec ↓] theorem writeInt_last (l : List Int) (x v : Int) (ns : List Network) (ps : List PrivObj) (qs : List PubObj)
    (c : CurveObj) : writeInt (some l.length) v ⟨l ++ [x], ns, ps, qs, c⟩ = (.ok (), ⟨l ++ [v], ns, ps, qs, c⟩) := by
  simp [writeInt]

attribute [go_exec] Option.bind_some Option.bind_none Option.getD_some deref_some deref_none Res.bind_ok Res.bind_err Res.bind_panic

/-- The result of a computation on the heap, as the interpreter sees it. -/
def hOut (o : Res α × Heap) (st : State) : Out α :=
  match o with
  | (.ok a, h) => .ok a { st with heap := h }
  | (.err _, _) => .stuck
  | (.panic p, h) => .panic p { st with heap := h }

@[go_exec ↓] theorem onHeap_apply (m : HM α) (st : State) : onHeap m st = hOut (m st.heap) st := (rfl)
@[go_exec] theorem hOut_ok (a : α) (h : Heap) (st : State) : hOut (.ok a, h) st = .ok a { st with heap := h } := (rfl)
@[go_exec] theorem hOut_panic (p : GoPanic) (h : Heap) (st : State) :
    hOut ((.panic p, h) : Res α × Heap) st = .panic p { st with heap := h } := (rfl)

theorem newSetString_run (s : GoString) (b : Nat) (h : Heap) : newSetString s b h =
    (.ok ((bigSetString s b).map fun _ => h.ints.length), { h with ints := h.ints ++ [(bigSetString s b).getD 0] }) := by
  unfold newSetString
  cases bigSetString s b with
  | none => rfl
  | some v => simp [hbind_apply, hThen, newInt, writeInt, hpure_apply]

@[go_exec ↓] theorem setString_run (s : GoString) (b : Nat) (l : List Int) (ns : List Network) (ps : List PrivObj)
    (qs : List PubObj) (c : CurveObj) : setString (some l.length) s b ⟨l ++ [0], ns, ps, qs, c⟩ =
    (.ok ((bigSetString s b).map fun _ => l.length), ⟨l ++ [(bigSetString s b).getD 0], ns, ps, qs, c⟩) := by
  unfold setString
  cases bigSetString s b with
  | none => rfl
  | some v => simp [hbind_apply, hThen, writeInt, hpure_apply]

theorem drawBig_ok {m : Nat} {rd : Reader} {v : Nat} {rd' : Reader} (h : randInt rd m = .ok (v, rd')) (hp : Heap)
    (hs : List HashObj) (lg : Log) (vs : List (Nat × Value)) : drawBig m ⟨hp, hs, rd, lg, vs⟩ =
    .ok [.big (some hp.ints.length), .err none] ⟨{ hp with ints := hp.ints ++ [(v : Int)] }, hs, rd', lg, vs⟩ := by
  unfold drawBig; rw [h]; rfl

theorem drawBig_err {m : Nat} {rd : Reader} {e : GoError} (h : randInt rd m = .err e) (hp : Heap)
    (hs : List HashObj) (lg : Log) (vs : List (Nat × Value)) : drawBig m ⟨hp, hs, rd, lg, vs⟩ =
    .ok [.big none, .err (some e)] ⟨hp, hs, rd, lg, vs⟩ := by
  unfold drawBig; rw [h]

theorem drawBig_panic {m : Nat} {rd : Reader} {p : GoPanic} (h : randInt rd m = .panic p) (hp : Heap)
    (hs : List HashObj) (lg : Log) (vs : List (Nat × Value)) : drawBig m ⟨hp, hs, rd, lg, vs⟩ =
    .panic p ⟨hp, hs, rd, lg, vs⟩ := by
  unfold drawBig; rw [h]

/-- What a method of `math/big` can change, and that it returns no `error`. -/
structure IntOp {α : Type} (m : HM α) : Prop where
  heap : ∀ h, ∃ l, (m h).2 = { h with ints := l }
  noErr : ∀ h e, (m h).1 ≠ .err e

theorem IntOp.cases {m : HM α} (hm : IntOp m) (h : Heap) : ∃ l,
    (∃ a, m h = (.ok a, { h with ints := l })) ∨ ∃ p, m h = (.panic p, { h with ints := l }) := by
  obtain ⟨l, hl⟩ := hm.heap h
  have hn := hm.noErr h
  rcases hx : m h with ⟨r, h'⟩
  rw [hx] at hl hn
  refine ⟨l, ?_⟩
  rcases r with a | e | p
  · exact .inl ⟨a, by rw [← hl]⟩
  · exact (hn e rfl).elim
  · exact .inr ⟨p, by rw [← hl]⟩

theorem IntOp.shape {m : HM α} (hm : IntOp m) {h h' : Heap} {r : Res α} (e : m h = (r, h')) :
    ∃ l, h' = { h with ints := l } ∧ ∀ e, r ≠ .err e := by
  obtain ⟨l, hl⟩ := hm.heap h
  have hn := hm.noErr h
  rw [e] at hl hn
  exact ⟨l, hl, hn⟩

theorem IntOp.bind {x : HM α} {f : α → HM β} (hx : IntOp x) (hf : ∀ a, IntOp (f a)) : IntOp (x >>= f) := by
  constructor
  · intro h
    obtain ⟨l, ⟨a, e⟩ | ⟨p, e⟩⟩ := hx.cases h <;> rw [hbind_apply, e]
    · obtain ⟨l', hl⟩ := (hf a).heap { h with ints := l }
      exact ⟨l', hl⟩
    · exact ⟨l, rfl⟩
  · intro h
    obtain ⟨l, ⟨a, e⟩ | ⟨p, e⟩⟩ := hx.cases h <;> rw [hbind_apply, e]
    · exact (hf a).noErr _
    · intro e he; cases he

theorem IntOp.pure (a : α) : IntOp (Pure.pure a : HM α) := ⟨fun h => ⟨h.ints, rfl⟩, fun h e he => by cases he⟩
theorem IntOp.panics (p : GoPanic) : IntOp (lift (.panic p) : HM α) := ⟨fun h => ⟨h.ints, rfl⟩, fun h e he => by cases he⟩
theorem IntOp.readInt (p : Ptr) : IntOp (Mem.readInt p) :=
  ⟨fun h => ⟨h.ints, rfl⟩, fun h e he => by unfold Mem.readInt at he; cases hl : loadInt h p <;> rw [hl] at he <;> cases he⟩
theorem IntOp.writeInt (p : Ptr) (v : Int) : IntOp (Mem.writeInt p v) := by
  constructor <;> intro h <;> unfold Mem.writeInt <;> cases p with
  | none => first | exact ⟨h.ints, rfl⟩ | (intro e he; cases he)
  | some a =>
    by_cases ha : a < h.ints.length <;> simp only [ha, if_true, if_false]
    all_goals first | exact ⟨_, rfl⟩ | exact ⟨h.ints, rfl⟩ | (intro e he; cases he)

theorem intOp_add (z x y : Ptr) : IntOp (bigAdd z x y) :=
  (IntOp.readInt x).bind fun _ => (IntOp.readInt y).bind fun _ => (IntOp.writeInt z _).bind fun _ => .pure _
theorem intOp_mul (z x y : Ptr) : IntOp (bigMul z x y) :=
  (IntOp.readInt x).bind fun _ => (IntOp.readInt y).bind fun _ => (IntOp.writeInt z _).bind fun _ => .pure _
theorem intOp_set (z x : Ptr) : IntOp (bigSet z x) := (IntOp.readInt x).bind fun _ => (IntOp.writeInt z _).bind fun _ => .pure _
theorem intOp_mod (z x y : Ptr) : IntOp (bigMod z x y) := by
  refine (IntOp.readInt x).bind fun _ => (IntOp.readInt y).bind fun b => ?_
  by_cases hb : b = 0 <;> simp only [hb, if_true, if_false]
  · exact .panics _
  · exact (IntOp.writeInt z _).bind fun _ => .pure _

attribute [go_exec ↓] newSetString_run loadNet loadPriv loadPub

/-- Run the program as far as it goes. -/
macro "go_run" : tactic => `(tactic| simp only [go_exec, ↓andThenProc, ↓chooseProc, ↓hThenProc, ↓reduceIte, Nat.cast_ofNat, Nat.cast_zero, Nat.cast_one, Nat.reduceEqDiff, Nat.reduceBEq, Bool.or_true, Bool.or_false, Bool.true_or, Bool.false_or, and_self, and_true, true_and, decide_true, decide_false, not_true_eq_false, not_false_eq_true, Bool.not_true, Bool.not_false, true_or, or_true, Int.reduceToNat, Int.reduceLE, Int.reduceLT, Int.reduceEq, Bool.false_eq_true, ne_eq])

/-- The same, with what is known about the values. -/
macro "go_run" " [" ls:Lean.Parser.Tactic.simpLemma,* "]" : tactic => `(tactic| simp only [go_exec, ↓andThenProc, ↓chooseProc, ↓hThenProc, ↓reduceIte, Nat.cast_ofNat, Nat.cast_zero, Nat.cast_one, Nat.reduceEqDiff, Nat.reduceBEq, Bool.or_true, Bool.or_false, Bool.true_or, Bool.false_or, and_self, and_true, true_and, decide_true, decide_false, not_true_eq_false, not_false_eq_true, Bool.not_true, Bool.not_false, true_or, or_true, Int.reduceToNat, Int.reduceLE, Int.reduceLT, Int.reduceEq, Bool.false_eq_true, ne_eq, $ls,*])

/-- A call of a function of the program. -/
theorem runFunc_succ (H : Hashes) (E : EcdsaM) {ds : List Decl} {n recv name : Nat} {f : Func}
    (h : findFunc recv name ds = some f) (args : List Value) {env : Env} (he : f.start args = some env) (st : State) :
    runFunc H E ds (n + 1) recv name args st =
      (exec ⟨H, E, runFunc H E ds n⟩ n f.body env st).andThen fun c => f.finish c := by
  simp only [runFunc, h, he]; rfl

/-- The same when the function never returns an `error`. -/
def Out.exact {α : Type} (good : α → List Value) (r : Res α × Heap) (st : State) : Out (List Value) :=
  match r with
  | (.ok a, h) => .ok (good a) { st with heap := h }
  | (.err _, _) => .stuck
  | (.panic p, h) => .panic p { st with heap := h }

/-- A Go call that computes what a function on the heap computes. -/
def Out.of {α : Type} (good : α → List Value) (bad : GoError → List Value) (r : Res α × Heap) (st : State) : Out (List Value) :=
  match r with
  | (.ok a, h) => .ok (good a) { st with heap := h }
  | (.err e, h) => .ok (bad e) { st with heap := h }
  | (.panic p, h) => .panic p { st with heap := h }

section
variable (good : α → List Value) (bad : GoError → List Value) (h : Heap) (st : State)

@[go_exec] theorem of_ok (a : α) : Out.of good bad (.ok a, h) st = .ok (good a) { st with heap := h } := (rfl)
@[go_exec] theorem of_err (e : GoError) : Out.of good bad (.err e, h) st = .ok (bad e) { st with heap := h } := (rfl)
@[go_exec] theorem of_panic (p : GoPanic) : Out.of good bad (.panic p, h) st = .panic p { st with heap := h } := (rfl)
@[go_exec] theorem exact_ok (a : α) : Out.exact good (.ok a, h) st = .ok (good a) { st with heap := h } := (rfl)
@[go_exec] theorem exact_err (e : GoError) : Out.exact good ((.err e, h) : Res α × Heap) st = .stuck := (rfl)
@[go_exec] theorem exact_panic (p : GoPanic) :
    Out.exact good ((.panic p, h) : Res α × Heap) st = .panic p { st with heap := h } := (rfl)
end

end Btc.Source
