import Verif.Props.Careful

/-!
# C115: which blocks of the code can run

A block of the text is dead if it can be replaced by any other statement without any call of the package noticing. There
are 55 blocks in braces below the bodies of the functions. Exactly four of them are dead: error returns after calls that
cannot fail there.
-/

namespace Btc

open Mem Source

namespace Spec

/-- Specification: one step down a syntax tree. -/
inductive Dir where
  | fst
  | snd
deriving DecidableEq, Repr

/-- Specification: the ways down to the blocks in braces, in the order of the text. -/
def blocks : Stmt → List (List Dir)
  | .seq a b => (blocks a).map (.fst :: ·) ++ (blocks b).map (.snd :: ·)
  | .block s => [] :: (blocks s).map (.fst :: ·)
  | .ite _ t e => (blocks t).map (.fst :: ·) ++ (blocks e).map (.snd :: ·)
  | .loop _ _ _ b => (blocks b).map (.fst :: ·)
  | .range _ _ _ b => (blocks b).map (.fst :: ·)
  | .switch s => (blocks s).map (.fst :: ·)
  | _ => []

/-- Specification: put `B` in the place of what is found at the end of the way. -/
def putAt (B : Stmt) : List Dir → Stmt → Stmt
  | [], _ => B
  | .fst :: w, .seq a b => .seq (putAt B w a) b
  | .snd :: w, .seq a b => .seq a (putAt B w b)
  | .fst :: w, .block s => .block (putAt B w s)
  | .fst :: w, .ite c t e => .ite c (putAt B w t) e
  | .snd :: w, .ite c t e => .ite c t (putAt B w e)
  | .fst :: w, .loop i c p b => .loop i c p (putAt B w b)
  | .fst :: w, .range k v e b => .range k v e (putAt B w b)
  | .fst :: w, .switch s => .switch (putAt B w s)
  | _, s => s

/-- Specification: a block of a program: the function it is in and the way to it. -/
structure Site where
  recv : Nat
  name : Nat
  way : List Dir
deriving DecidableEq, Repr

/-- Specification: all blocks of a program. -/
def places (ds : List Decl) : List Site :=
  ds.flatMap fun d =>
    match d with
    | .func f => (blocks f.body).map fun w => ⟨f.recv, f.name, w⟩
    | _ => []

/-- Specification: the program with the block at `p` replaced by `B`. -/
def replaced (p : Site) (B : Stmt) (ds : List Decl) : List Decl :=
  ds.map fun d =>
    match d with
    | .func f => if f.recv = p.recv ∧ f.name = p.name then .func { f with body := putAt B p.way f.body } else .func f
    | d => d

/-- Specification: whatever stands in the place of the block, every call ends as it did, or as before does not end. -/
def Dead (p : Site) : Prop :=
  ∀ (B : Stmt) (H : Hashes) (E : EcdsaM) (r : Request) (st : State) (o : Out (List Value)),
    Source.Ends H E (replaced p B program) r.recv r.name r.args st o ↔ r.Ends H E st o

/-- Specification: some call in some session notices if the block is replaced by some other. -/
def Live (p : Site) : Prop :=
  ∃ (B : Stmt) (nets : List Network) (r : Request) (st : State) (o o' : Out (List Value)), Session realHashes Samples.pkg nets st ∧
    r.Ends realHashes Samples.pkg st o ∧ Source.Ends realHashes Samples.pkg (replaced p B program) r.recv r.name r.args st o' ∧ o ≠ o'

end Spec

open Spec

theorem Spec.Live.not_dead {p : Site} (h : Live p) : ¬ Dead p := by
  obtain ⟨B, nets, r, st, o, o', -, h1, h2, h3⟩ := h
  intro hd
  exact h3 (h1.unique ((hd B _ _ r st o').1 h2))

/-! ## Replacing a block that never runs -/

theorem findFunc_replaced (p : Site) (B : Stmt) (recv name : Nat) : ∀ ds : List Decl,
    findFunc recv name (replaced p B ds) =
      if recv = p.recv ∧ name = p.name then (findFunc recv name ds).map fun f => { f with body := putAt B p.way f.body }
      else findFunc recv name ds
  | [] => by simp [replaced, findFunc]
  | d :: ds => by
    have ih := findFunc_replaced p B recv name ds
    cases d with
    | func f =>
      by_cases hf : f.recv = p.recv ∧ f.name = p.name
      · have e : replaced p B (.func f :: ds) = .func { f with body := putAt B p.way f.body } :: replaced p B ds := by
          simp [replaced, hf]
        rw [e, findFunc, findFunc, ih]
        by_cases hn : f.recv = recv ∧ f.name = name
        · obtain ⟨rfl, rfl⟩ := hn
          simp [hf]
        · simp [hn]
      · have e : replaced p B (.func f :: ds) = .func f :: replaced p B ds := by simp [replaced, hf]
        rw [e, findFunc, findFunc, ih]
        by_cases hn : f.recv = recv ∧ f.name = name
        · obtain ⟨rfl, rfl⟩ := hn
          simp [hf]
        · simp [hn]
    | _ => exact ih

theorem runFunc_replaced (H : Hashes) (E : EcdsaM) (p : Site) (B : Stmt) (f : Func) (hf : findFunc p.recv p.name program = some f)
    (hb : ∀ n args env st, f.start args = some env →
      exec ⟨H, E, runFunc H E program n⟩ n (putAt B p.way f.body) env st = exec ⟨H, E, runFunc H E program n⟩ n f.body env st) :
    ∀ n, runFunc H E (replaced p B program) n = runFunc H E program n
  | 0 => rfl
  | n + 1 => by
    have ih := runFunc_replaced H E p B f hf hb n
    funext recv name args st
    unfold runFunc
    rw [findFunc_replaced, ih]
    by_cases h : recv = p.recv ∧ name = p.name
    · obtain ⟨rfl, rfl⟩ := h
      simp only [and_self, if_true, hf, Option.map_some]
      have hs : Func.start { f with body := putAt B p.way f.body } args = f.start args := rfl
      rw [hs]
      cases he : f.start args with
      | none => rfl
      | some env =>
        simp only [bind_apply, hb n args env st he]
        rfl
    · rw [if_neg h]

theorem dead_of (p : Site) (f : Func) (hf : findFunc p.recv p.name program = some f)
    (hb : ∀ B H E n args env st, f.start args = some env →
      exec ⟨H, E, runFunc H E program n⟩ n (putAt B p.way f.body) env st = exec ⟨H, E, runFunc H E program n⟩ n f.body env st) :
    Dead p := by
  intro B H E r st o
  unfold Request.Ends Source.Ends
  simp only [runFunc_replaced H E p B f hf (hb B H E)]

theorem stuck_apply {α : Type} (st : State) : (Source.stuck : Source.M α) st = .stuck := rfl

theorem known_none {α : Type} : (known none : Source.M α) = Source.stuck := rfl

/-- What is left of a spelling without its last eight digits is a spelling. -/
theorem decode_front {bytes : Bytes} {b : GoString} (h : slice (hexEncode bytes) 0 ((hexEncode bytes).length - 8) = .ok b)
    (e : GoError) : hexDecode b ≠ .err e := by
  by_cases hl : 8 ≤ (hexEncode bytes).length
  · have hl' : 4 ≤ bytes.length := by simp at hl; omega
    rw [show ((hexEncode bytes).length : Int) - 8 = ((hexEncode bytes).length - 8 : Nat) by omega, slice_zero (by omega)] at h
    obtain rfl := Res.ok.inj h
    have : (hexEncode bytes).length - 8 = 2 * (bytes.length - 4) := by simp; omega
    rw [this, hexEncode_take, hexDecode_hexEncode]
    simp
  · rw [slice_panic (by omega)] at h
    cases h

/-- A text that passes `CheckWIF` is Base58. -/
theorem checkWIF_base58 (H : Hashes) {wif : GoString} (h : checkWIF H wif = .ok true) : ∃ b, base58Decode wif = .ok b := by
  unfold checkWIF at h
  cases hb : base58Decode wif with
  | ok b => exact ⟨b, rfl⟩
  | err e => rw [hb] at h; cases h
  | panic p => rw [hb] at h; cases h

/-- A spelling and a checksum are a spelling. -/
theorem decode_checksum (H : Hashes) {s c : GoString} {b : Bytes} (h : hexDecode s = .ok b)
    (hc : slice (hexEncode (H.sha256 (H.sha256 b))) 0 8 = .ok c) (e : GoError) : hexDecode (s ++ c) ≠ .err e := by
  rw [slice_doubleHash] at hc
  obtain rfl := Res.ok.inj hc
  rw [hexDecode_of_spells ((hexDecode_eq_ok.1 h).append (spells_hexEncode _))]
  simp

theorem plus_cases (v : Value) (t : GoString) : (∃ s, v = .str s) ∨ binary (id! "+") v (.str t) = none := by
  cases v <;> first
    | exact .inl ⟨_, rfl⟩
    | exact .inr rfl

/-- The second `return false` of `CheckWIF` (private_key.go:27). -/
def deadCheckWIF : Site := ⟨0, id! "CheckWIF", List.replicate 6 .snd ++ [.fst, .fst]⟩

theorem dead_checkWIF : Dead deadCheckWIF := by
  refine dead_of _ _ find_CheckWIF fun B H E n args env st he => ?_
  obtain ⟨v, rfl⟩ : ∃ v, args = [v] := by
    match args, he with
    | [v], _ => exact ⟨v, rfl⟩
  cases he
  unfold deadCheckWIF fCheckWIF
  simp only [List.replicate, List.cons_append, List.nil_append, putAt]
  cases v
  case str wif =>
    go_run
    cases base58Decode wif with
    | err e => go_run
    | panic p => go_run
    | ok bytes =>
      go_run
      rcases slice (hexEncode bytes) ((hexEncode bytes).length - 8) (hexEncode bytes).length with c | _ | _
      · go_run
        rcases hb : slice (hexEncode bytes) 0 ((hexEncode bytes).length - 8) with b | _ | _
        · go_run
          cases hd : hexDecode b with
          | err e => exact (decode_front hb e hd).elim
          | panic p => go_run
          | ok hexBytes => go_run
        · rfl
        · rfl
      · rfl
      · rfl
  all_goals go_run [stuck_apply]

/-- The second `return nil, err` of `PrivateFromWIF` (private_key.go:53). -/
def deadPrivateFromWIF : Site := ⟨0, id! "PrivateFromWIF", List.replicate 3 .snd ++ [.fst, .fst]⟩

/-- The second `return nil, err` of `PrivateFromHex` (private_key.go:106). -/
def deadPrivateFromHex : Site := ⟨0, id! "PrivateFromHex", List.replicate 16 .snd ++ [.fst, .fst]⟩

/-- The third `return "", err` of `Address` (public_key.go:160). -/
def deadAddress : Site := ⟨id! "PublicKey", id! "Address", List.replicate 23 .snd ++ [.fst, .fst]⟩

theorem dead_privateFromWIF : Dead deadPrivateFromWIF := by
  refine dead_of _ _ find_PrivateFromWIF fun B H E n args env st he => ?_
  obtain ⟨v, w, rfl⟩ : ∃ v w, args = [v, w] := by
    match args, he with
    | [v, w], _ => exact ⟨v, w, rfl⟩
  cases he
  unfold deadPrivateFromWIF fPrivateFromWIF
  simp only [List.replicate, List.cons_append, List.nil_append, putAt]
  go_run
  cases n with
  | zero => go_run [runFunc, stuck_apply]
  | succ n =>
    cases v
    case str wif =>
      obtain ⟨hs, e⟩ := run_CheckWIF H E n wif st
      rw [e]
      rcases hc : checkWIF H wif with b | e | p
      · cases b with
        | false => go_run
        | true =>
          go_run
          obtain ⟨b, hb⟩ := checkWIF_base58 H hc
          go_run [hb]
      · go_run
      · go_run
    all_goals
      rw [runFunc_succ H E find_CheckWIF _ rfl]
      unfold fCheckWIF
      go_run [stuck_apply]

theorem dead_privateFromHex : Dead deadPrivateFromHex := by
  refine dead_of _ _ find_PrivateFromHex fun B H E n args env st he => ?_
  obtain ⟨v, w, rfl⟩ : ∃ v w, args = [v, w] := by
    match args, he with
    | [v, w], _ => exact ⟨v, w, rfl⟩
  cases he
  unfold deadPrivateFromHex fPrivateFromHex
  simp only [List.replicate, List.cons_append, List.nil_append, putAt]
  cases v
  case str hexa =>
    cases w
    case net p =>
      go_run
      rcases p.bind fun a => st.heap.nets[a]? with _ | net
      · go_run
      go_run
      rcases h1 : hexDecode (net.PrivKeyPrefix ++ hexa) with b | e | p
      · go_run
        rcases hs : slice (hexEncode (H.sha256 (H.sha256 b))) 0 8 with c | e | p
        · go_run
          rcases h2 : hexDecode (net.PrivKeyPrefix ++ hexa ++ c) with b | e | p
          · go_run
          · exact (decode_checksum H h1 hs e h2).elim
          · go_run
        · exact (Imp.slice_ne_err hs).elim
        · go_run
      · go_run
      · go_run
    case netVar a =>
      go_run
      rcases st.heap.nets[a]? with _ | net
      · go_run
      go_run
      rcases h1 : hexDecode (net.PrivKeyPrefix ++ hexa) with b | e | p
      · go_run
        rcases hs : slice (hexEncode (H.sha256 (H.sha256 b))) 0 8 with c | e | p
        · go_run
          rcases h2 : hexDecode (net.PrivKeyPrefix ++ hexa ++ c) with b | e | p
          · go_run
          · exact (decode_checksum H h1 hs e h2).elim
          · go_run
        · exact (Imp.slice_ne_err hs).elim
        · go_run
      · go_run
      · go_run
    case priv p =>
      go_run
      rcases p.bind fun a => (st.heap.privs ++ [(⟨Option.map (fun _ => st.heap.ints.length) (bigSetString hexa 16), hexa, [], none⟩ :
        PrivObj)])[a]? with _ | o <;> go_run [known_none, stuck_apply]
    case privVar a =>
      go_run
      rcases (st.heap.privs ++ [(⟨Option.map (fun _ => st.heap.ints.length) (bigSetString hexa 16), hexa, [], none⟩ :
        PrivObj)])[a]? with _ | o <;> go_run [known_none, stuck_apply]
    case pub p => go_run; rcases p.bind fun a => st.heap.pubs[a]? with _ | o <;> go_run [known_none, stuck_apply]
    case pubVar a => go_run; rcases st.heap.pubs[a]? with _ | o <;> go_run [known_none, stuck_apply]
    all_goals go_run [stuck_apply, known_none, and_false]
  all_goals go_run [stuck_apply]

theorem callMethod_format (H : Hashes) (E : EcdsaM) (n : Nat) (v w : Value) :
    callMethod ⟨H, E, runFunc H E program n⟩ v (id! "Format") [w] = Source.stuck ∨ ∃ p, v = .pub p := by
  cases v with
  | pub p => exact .inr ⟨p, rfl⟩
  | priv p =>
    refine .inl ?_
    show runFunc H E program n (id! "PrivateKey") (id! "Format") [.priv p, w] = Source.stuck
    cases n with
    | zero => rfl
    | succ n =>
      have h : findFunc (id! "PrivateKey") (id! "Format") program = none := by decide +kernel
      funext st
      simp only [runFunc, h]
  | pkg x =>
    refine .inl ?_
    show external H x (id! "Format") [w] = Source.stuck
    cases w <;> simp [external]
  | big z => cases w <;> exact .inl rfl
  | hash a => cases w <;> exact .inl rfl
  | curve => cases w <;> exact .inl rfl
  | _ => exact .inl rfl

theorem exec_stuck (C : Ctx) (n : Nat) (x y m z : Nat) (v w : Value) (b : Stmt) (env : Env) (st : State) (hx : env.get x = some v)
    (hy : env.get y = some w) (h : callMethod C v m [w] = Source.stuck) :
    exec C n (.seq (.define (.cons (.name z) .nil) (.cons (.call (.sel (.name x) m) (.cons (.name y) .nil)) .nil)) b) env st = .stuck := by
  simp only [exec, eval, named, hx, hy, bind_apply, pure_apply, andThen_ok, one_single, List.cons_append, List.nil_append, h,
    stuck_apply, andThen_stuck]

theorem dead_address : Dead deadAddress := by
  refine dead_of _ _ find_Address fun B H E n args env st he => ?_
  obtain ⟨v, w, rfl⟩ : ∃ v w, args = [v, w] := by
    match args, he with
    | [v, w], _ => exact ⟨v, w, rfl⟩
  cases he
  unfold deadAddress fAddress
  simp only [List.replicate, List.cons_append, List.nil_append, putAt]
  rcases callMethod_format H E n v w with hm | ⟨p, rfl⟩
  · rw [exec_stuck _ n _ _ _ _ v w _ _ _ rfl rfl hm, exec_stuck _ n _ _ _ _ v w _ _ _ rfl rfl hm]
  go_run
  rcases runFunc H E program n (id! "PublicKey") (id! "Format") [.pub p, w] st with ⟨vs, st⟩ | ⟨pn, st⟩ | _
  · match vs with
    | [] => go_run [known_none, stuck_apply]
    | _ :: _ :: _ => go_run [known_none, stuck_apply]
    | [u] =>
      cases u
      case str hexa =>
        go_run
        rcases h0 : hexDecode hexa with b0 | e | pn
        · go_run
          rcases p.bind fun a => st.heap.pubs[a]? with _ | o
          · go_run
          go_run
          rcases o.Network.bind fun a => st.heap.nets[a]? with _ | net
          · go_run
          go_run
          rcases h1 : hexDecode (net.PubKeyHashPrefix ++ hexEncode (H.ripemd160 (H.sha256 b0))) with b | e | pn
          · go_run
            rcases hs : slice (hexEncode (H.sha256 (H.sha256 b))) 0 8 with c | e | pn
            · go_run
              rcases h2 : hexDecode (net.PubKeyHashPrefix ++ hexEncode (H.ripemd160 (H.sha256 b0)) ++ c) with b | e | pn
              · go_run
              · exact (decode_checksum H h1 hs e h2).elim
              · go_run
            · exact (Imp.slice_ne_err hs).elim
            · go_run
          · go_run
          · go_run
        · go_run
        · go_run
      all_goals go_run [stuck_apply]
  · go_run
  · go_run

/-! ## Blocks that can run -/

/-- A statement that panics with an index out of range. -/
def tripwire : Stmt := .expr (.index (.str []) (.num 0))

/-- Is this a panic with an index out of range? -/
def tripped {α : Type} : Out α → Bool
  | .panic .indexRange _ => true
  | _ => false

/-- Is there an outcome? -/
def ended {α : Type} : Out α → Bool
  | .stuck => false
  | _ => true

/-- The call ends, and not with an index out of range; with the tripwire in the place of any of the blocks it does so. -/
def trips (r : Request) (st : State) (n : Nat) (ps : List Site) : Bool :=
  let o := runFunc realHashes Samples.pkg program n r.recv r.name r.args st
  ended o && !tripped o &&
    ps.all fun p => tripped (runFunc realHashes Samples.pkg (replaced p tripwire program) n r.recv r.name r.args st)

theorem live_of_trips {p : Site} {r : Request} {nets : List Network} {st : State} {n : Nat} {ps : List Site}
    (hs : Session realHashes Samples.pkg nets st) (h : trips r st n ps = true) (hp : p ∈ ps) : Live p := by
  simp only [trips, Bool.and_eq_true, Bool.not_eq_true', List.all_eq_true] at h
  obtain ⟨⟨h1, h2⟩, h3⟩ := h
  have h3 := h3 p hp
  refine ⟨tripwire, nets, r, st, _, _, hs, Ends.of (n := n) rfl ?_, Ends.of (n := n) rfl ?_, ?_⟩
  · intro e; rw [e] at h1; cases h1
  · intro e; rw [e] at h3; cases h3
  · intro e; rw [e, h3] at h2; cases h2

namespace Samples

/-- A network whose prefixes are not hexadecimal. -/
def brokenNet : Network := { MainNetwork with PrivKeyPrefix := asc "z", PubKeyHashPrefix := asc "z" }

/-- A program with a network, numbers and keys of its own. -/
def furnished (rd : Reader) : State :=
  let h := (started rd [brokenNet]).heap
  let k := h.ints.length
  { started rd [brokenNet] with heap := { h with
      ints := h.ints ++ [0] ++ [-1] ++ [1] ++ [(gx : Int)] ++ [(gy : Int)] ++ [(Spec.p : Int) - gy]
      privs := h.privs ++ [⟨some k, asc "00", asc "a", some 0⟩] ++ [⟨some k, asc "00", asc "a", some 1⟩]
      pubs := h.pubs ++ [⟨some (k + 2), some k, some 0⟩] ++ [⟨some (k + 2), some (k + 2), some 1⟩] ++
        [⟨some (k + 1), some k, some 0⟩] ++ [⟨some (k + 2), some (k + 2), some 2⟩] ++
        [⟨some (k + 3), some (k + 4), some 0⟩] ++ [⟨some (k + 3), some (k + 5), some 0⟩] } }

theorem furnished_session (H : Hashes) (E : EcdsaM) (rd : Reader) : Session H E [brokenNet] (furnished rd) := by
  have h0 := ((((((session_start H E rd [brokenNet]).int 0).int (-1)).int 1).int (gx : Int)).int (gy : Int)).int ((Spec.p : Int) - gy)
  generalize hk : (started rd [brokenNet]).heap.ints.length = k
  have h1 := h0.priv ⟨some k, asc "00", asc "a", some 0⟩ (fun a ha => by cases ha; simp [hk])
  have h2 := h1.priv ⟨some k, asc "00", asc "a", some 1⟩ (fun a ha => by cases ha; simp [hk])
  have h3 := h2.pub ⟨some (k + 2), some k, some 0⟩ (fun a ha => by cases ha; simp [hk]) (fun a ha => by cases ha; simp [hk])
  have h4 := h3.pub ⟨some (k + 2), some (k + 2), some 1⟩ (fun a ha => by cases ha; simp [hk]) (fun a ha => by cases ha; simp [hk])
  have h5 := h4.pub ⟨some (k + 1), some k, some 0⟩ (fun a ha => by cases ha; simp [hk]) (fun a ha => by cases ha; simp [hk])
  have h6 := h5.pub ⟨some (k + 2), some (k + 2), some 2⟩ (fun a ha => by cases ha; simp [hk]) (fun a ha => by cases ha; simp [hk])
  have h7 := h6.pub ⟨some (k + 3), some (k + 4), some 0⟩ (fun a ha => by cases ha; simp [hk]) (fun a ha => by cases ha; simp [hk])
  have h8 := h7.pub ⟨some (k + 3), some (k + 5), some 0⟩ (fun a ha => by cases ha; simp [hk]) (fun a ha => by cases ha; simp [hk])
  subst hk
  exact h8

/-- A word list of two words. -/
def twoWords : Option (List GoString) := some [asc "a", asc "b"]

/-- 32 bytes, the first one not zero. -/
def draw : Bytes := 128 :: List.replicate 31 0

/-- 1 and 5 in 64 digits. -/
def digits1 : GoString := List.replicate 63 48 ++ [49]

def digits5 : GoString := List.replicate 63 48 ++ [53]

/-- Contents of the random source, a call, and the numbers of blocks which it runs. -/
def calls : List (Reader × Request × List Nat) := [
  ([], .generatePrivateKey (some 0), [0]),
  ([], .privateFromWIF (asc "0") (some 0), [1, 3]),
  ([], .privateFromHex (asc "z") (some 0), [5]),
  (List.replicate 32 0, .generatePrivateKey (some 0), [7]),
  (draw, .generatePrivateKey (some 2), [8]),
  ([], .addPrivateKeys (some 0) (some 1), [9]),
  ([], .addPrivateKeys (some 0) (some 0), [10]),
  ([], .multiplyPrivateKeys (some 0) (some 1), [11]),
  ([], .multiplyPrivateKeys (some 0) (some 0), [12]),
  ([], .publicFromHex (asc "04" ++ digits1 ++ digits1) (some 0), [13]),
  ([], .publicFromHex (asc "02" ++ digits5) (some 0), [14, 15]),
  ([], .publicFromHex (asc "02" ++ digits1) (some 0), [16]),
  ([], .publicFromHex (asc "03" ++ digits1) (some 0), [17, 18]),
  ([], .publicFromHex (asc "05") (some 0), [19]),
  ([], .getPublicKey (some 0), [20]),
  ([], .format (some 0) true, [21, 22, 24, 25]),
  ([], .format (some 0) false, [23]),
  ([], .format (some 1) true, [26]),
  ([], .address (some 2) true, [27]),
  ([], .address (some 3) true, [28]),
  ([], .addPublicKeys (some 0) (some 1) true, [30]),
  ([], .addPublicKeys (some 4) (some 5) true, [31]),
  ([], .newSeedFromMnemonic (asc "c") [] twoWords, [32, 33, 35]),
  ([], .newSeedFromMnemonic (asc "a a a a") [] twoWords, [34, 36, 37, 38, 39]),
  ([], .newSeedFromMnemonic (asc "a a a a a a a a") [] twoWords, [40, 41]),
  ([], .newMnemonic 12 none, [42]),
  ([], .newMnemonic 12 (some EnglishWordlist), [43, 49]),
  ([], .newMnemonic 15 (some EnglishWordlist), [44]),
  ([], .newMnemonic 18 (some EnglishWordlist), [45]),
  ([], .newMnemonic 21 (some EnglishWordlist), [46]),
  ([], .newMnemonic 24 (some EnglishWordlist), [47]),
  ([], .newMnemonic 13 (some EnglishWordlist), [48]),
  (List.replicate 16 0, .newMnemonic 12 (some EnglishWordlist), [50, 51, 52, 53, 54])]

/-- The blocks with these numbers. -/
def numbered (js : List Nat) : List Site := js.filterMap fun j => (places program)[j]?

theorem calls_trip : (calls.all fun c => trips c.2.1 (furnished c.1) 200 (numbered c.2.2)) = true := by decide +kernel

end Samples

open Samples

/-- The four blocks that never run: `return false` after `hex.DecodeString` in `CheckWIF`, `return nil, err` after
`base58.Decode` in `PrivateFromWIF`, and the returns after the last `hex.DecodeString` in `PrivateFromHex` and `Address`. -/
def deadSites : List Site := [deadCheckWIF, deadPrivateFromWIF, deadPrivateFromHex, deadAddress]

theorem sites_split : ((places program).all fun p => decide (p ∈ deadSites) || calls.any fun c => decide (p ∈ numbered c.2.2)) = true := by
  decide +kernel

/-- C115. The text has 55 blocks in braces below the bodies of its functions, the dead ones are among them, and
these are different from each other. -/
theorem C115_blocks : (places program).length = 55 ∧ (∀ p ∈ deadSites, p ∈ places program) ∧ deadSites.Nodup := by
  refine ⟨by decide +kernel, by decide +kernel, by decide +kernel⟩

/-- C115. Four blocks are never run: whatever stands in their place, every call ends in the same way, whatever the hash
functions and the curve package do, in any state, reachable or not. -/
theorem C115_dead (p : Site) (hp : p ∈ deadSites) : Dead p := by
  simp only [deadSites, List.mem_cons, List.not_mem_nil, or_false] at hp
  rcases hp with rfl | rfl | rfl | rfl
  · exact dead_checkWIF
  · exact dead_privateFromWIF
  · exact dead_privateFromHex
  · exact dead_address

/-- C115. Every other block is needed: in some session some call ends differently if the block is replaced by some
other statement. -/
theorem C115_live (p : Site) (hp : p ∈ places program) (hd : p ∉ deadSites) : Live p := by
  have h := List.all_eq_true.1 sites_split p hp
  rw [Bool.or_eq_true, decide_eq_true_eq, List.any_eq_true] at h
  rcases h with h | ⟨c, hc, h⟩
  · exact (hd h).elim
  · exact live_of_trips (furnished_session _ _ _) (List.all_eq_true.1 calls_trip c hc) (of_decide_eq_true h)

/-- C115. So the dead blocks are exactly the four. -/
theorem C115_exactly (p : Site) (hp : p ∈ places program) : Dead p ↔ p ∈ deadSites :=
  ⟨fun h => by_contra fun hd => (C115_live p hp hd).not_dead h, C115_dead p⟩

/-! ## The dead blocks -/

/-- What is found at the end of the way. -/
def foundAt : List Dir → Stmt → Option Stmt
  | [], s => some s
  | .fst :: w, .seq a _ => foundAt w a
  | .snd :: w, .seq _ b => foundAt w b
  | .fst :: w, .block s => foundAt w s
  | .fst :: w, .ite _ t _ => foundAt w t
  | .snd :: w, .ite _ _ e => foundAt w e
  | .fst :: w, .loop _ _ _ b => foundAt w b
  | .fst :: w, .range _ _ _ b => foundAt w b
  | .fst :: w, .switch s => foundAt w s
  | _, _ => none

/-- The tokens of a block of the program and the semicolon that the end of the line stands for. -/
def blockTokens (p : Site) : Option (List Tok) := do
  let f ← findFunc p.recv p.name program
  (foundAt p.way f.body).map fun s => printS s ++ [.op (id! ";")]

/-- private_key.go:26-28 -/
example : blockTokens deadCheckWIF = lex "{\n\treturn false\n}".toList := by decide +kernel

/-- private_key.go:52-54 -/
example : blockTokens deadPrivateFromWIF = lex "{\n\treturn nil, err\n}".toList := by decide +kernel

/-- private_key.go:104-107 -/
example : blockTokens deadPrivateFromHex = lex "{\n\treturn nil, err\n}".toList := by decide +kernel

/-- public_key.go:159-161 -/
example : blockTokens deadAddress = lex "{\n\treturn \"\", err\n}".toList := by decide +kernel

/-- The return after the first `hex.DecodeString` of `Address` is needed (a key with a negative coordinate). -/
example : ¬ Dead ⟨id! "PublicKey", id! "Address", [.snd, .snd, .fst, .fst]⟩ :=
  (C115_live _ (by decide +kernel) (by decide +kernel)).not_dead

end Btc
