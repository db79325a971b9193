import Verif.Source.Program
import Verif.Imp.Loops
import Verif.Proofs.Rand

/-!
# The functions of private_key.go and util.go
-/

namespace Btc.Source

open Mem

variable (H : Hashes) (E : EcdsaM)

theorem run_CheckWIF (n : Nat) (wif : GoString) (st : State) : ∃ hs,
    runFunc H E program (n + 1) 0 (id! "CheckWIF") [.str wif] st =
      match checkWIF H wif with
      | .ok b => .ok [.bool b] { st with hashes := hs }
      | .err _ => .stuck
      | .panic p => .panic p { st with hashes := hs } := by
  rw [runFunc_succ H E find_CheckWIF _ rfl]
  unfold fCheckWIF checkWIF
  go_run
  cases base58Decode wif with
  | err e => go_run; exact ⟨_, rfl⟩
  | panic p => go_run; exact ⟨_, rfl⟩
  | ok bytes =>
    go_run
    rcases slice (hexEncode bytes) ((hexEncode bytes).length - 8) (hexEncode bytes).length with c | _ | _
    · go_run
      rcases slice (hexEncode bytes) 0 ((hexEncode bytes).length - 8) with b | _ | _
      · go_run
        cases hexDecode b with
        | err e => go_run; exact ⟨_, rfl⟩
        | panic p => go_run; exact ⟨_, rfl⟩
        | ok hexBytes =>
          go_run
          rcases slice (hexEncode (H.sha256 (H.sha256 hexBytes))) 0 8 with d | _ | _
          · go_run; exact ⟨_, rfl⟩
          · exact ⟨[], rfl⟩
          · exact ⟨_, rfl⟩
      · exact ⟨[], rfl⟩
      · exact ⟨_, rfl⟩
    · exact ⟨[], rfl⟩
    · exact ⟨_, rfl⟩

theorem run_bigIntToHex (n : Nat) (p : Ptr) (st : State) :
    runFunc H E program (n + 1) 0 (id! "bigIntToHex") [.big p] st = .ok [.str (bigIntToHex (loadInt st.heap p))] st := by
  rw [runFunc_succ H E find_bigIntToHex _ rfl]
  unfold fBigIntToHex
  go_run
  rfl

theorem run_PrivateFromHex (n : Nat) (hexa : GoString) (network : Ptr) (st : State) : ∃ hs,
    runFunc H E program (n + 1) 0 (id! "PrivateFromHex") [.str hexa, .net network] st =
      Out.of (fun p => [.priv p, .err none]) (fun e => [.priv none, .err (some e)]) (privateFromHexM H hexa network st.heap)
        { st with hashes := hs } := by
  rw [runFunc_succ H E find_PrivateFromHex _ rfl]
  unfold fPrivateFromHex privateFromHexM
  go_run
  rcases network.bind fun a => st.heap.nets[a]? with _ | net
  · go_run; exact ⟨_, rfl⟩
  go_run
  rcases hexDecode (net.PrivKeyPrefix ++ hexa) with b | e | p
  · go_run
    rcases hs : slice (hexEncode (H.sha256 (H.sha256 b))) 0 8 with c | e | p
    · go_run
      rcases hexDecode (net.PrivKeyPrefix ++ hexa ++ c) with b | e | p
      · go_run; exact ⟨_, rfl⟩
      · go_run; exact ⟨_, rfl⟩
      · go_run; exact ⟨_, rfl⟩
    · exact (Imp.slice_ne_err hs).elim
    · go_run; exact ⟨_, rfl⟩
  · go_run; exact ⟨_, rfl⟩
  · go_run; exact ⟨_, rfl⟩

theorem run_generateRandomBigInt (n : Nat) (st : State) :
    runFunc H E program (n + 1) 0 (id! "generateRandomBigInt") [] st =
      match generateRandomBigIntM generateRandomBigInt st.rd st.heap with
      | (.ok (p, rd), h) => .ok [.big p] { st with heap := h, rd := rd }
      | (.err _, _) => .stuck
      | (.panic p, h) => .panic p { st with heap := h } := by
  rw [runFunc_succ H E find_generateRandomBigInt _ rfl]
  unfold fGenerateRandomBigInt generateRandomBigIntM generateRandomBigInt
  go_run
  rcases hr : randInt st.rd 0xFFFFFFFFFFFFFFFFFFFFFFFFFFFFFFFEBAAEDCE6AF48A03BBFD25E8CD0364140 with ⟨v, rd'⟩ | e | p
  · simp only [drawBig_ok hr]; go_run
  · simp only [drawBig_err hr]; go_run
  · simp only [drawBig_panic hr]; go_run

theorem run_PrivateFromWIF (n : Nat) (wif : GoString) (network : Ptr) (st : State) : ∃ hs,
    runFunc H E program (n + 2) 0 (id! "PrivateFromWIF") [.str wif, .net network] st =
      Out.of (fun p => [.priv p, .err none]) (fun e => [.priv none, .err (some e)]) (privateFromWIFM H wif network st.heap)
        { st with hashes := hs } := by
  rw [runFunc_succ H E find_PrivateFromWIF _ rfl]
  unfold fPrivateFromWIF privateFromWIFM
  go_run
  obtain ⟨hs, e⟩ := run_CheckWIF H E n wif st
  rw [e]
  rcases hc : checkWIF H wif with b | e | p
  · cases b with
    | false => go_run; exact ⟨_, rfl⟩
    | true =>
      go_run
      rcases base58Decode wif with bytes | e | p
      · go_run
        rcases hs1 : slice (hexEncode bytes) 2 (hexEncode bytes).length with a | e | p
        · go_run
          rcases hs2 : slice a 0 (a.length - 8) with b | e | p
          · go_run; exact ⟨_, rfl⟩
          · exact (Imp.slice_ne_err hs2).elim
          · go_run; exact ⟨_, rfl⟩
        · exact (Imp.slice_ne_err hs1).elim
        · go_run; exact ⟨_, rfl⟩
      · go_run; exact ⟨_, rfl⟩
      · go_run; exact ⟨_, rfl⟩
  · exact (checkWIF_ne_err H wif e hc).elim
  · go_run; exact ⟨_, rfl⟩

theorem run_AddPrivateKeys (n : Nat) (p1 p2 : Ptr) (st : State) : ∃ hs,
    runFunc H E program (n + 2) 0 (id! "AddPrivateKeys") [.priv p1, .priv p2] st =
      Out.of (fun p => [.priv p, .err none]) (fun e => [.priv none, .err (some e)]) (addPrivateKeysM H p1 p2 st.heap)
        { st with hashes := hs } := by
  rw [runFunc_succ H E find_AddPrivateKeys _ rfl]
  unfold fAddPrivateKeys addPrivateKeysM
  go_run
  rcases h1 : p1.bind fun a => st.heap.privs[a]? with _ | o1
  · go_run; exact ⟨_, rfl⟩
  go_run
  rcases h2 : p2.bind fun a => st.heap.privs[a]? with _ | o2
  · go_run; exact ⟨_, rfl⟩
  go_run
  by_cases hn : (o1.Network.bind fun a => st.heap.nets[a]?) = o2.Network.bind fun a => st.heap.nets[a]?
  case neg => go_run [hn]; exact ⟨_, rfl⟩
  go_run [hn, h1, h2]
  by_cases hw : H.toLower o1.WIF = H.toLower o2.WIF
  case pos => go_run [hw]; exact ⟨_, rfl⟩
  go_run [hw, h1, h2]
  obtain ⟨l, ⟨a, e⟩ | ⟨p, e⟩⟩ := (intOp_add (some st.heap.ints.length) o1.Key o2.Key).cases
    ⟨st.heap.ints ++ [0], st.heap.nets, st.heap.privs, st.heap.pubs, st.heap.curve⟩
  case inr => go_run [e]; exact ⟨_, rfl⟩
  go_run [e]
  obtain ⟨l, ⟨a, e⟩ | ⟨p, e⟩⟩ := (intOp_mod a a st.heap.curve.N).cases
    ⟨l, st.heap.nets, st.heap.privs, st.heap.pubs, st.heap.curve⟩
  case inr => go_run [e]; exact ⟨_, rfl⟩
  go_run [e, run_bigIntToHex, h1]
  obtain ⟨hs, e⟩ := run_PrivateFromHex H E n (bigIntToHex (loadInt ⟨l, st.heap.nets, st.heap.privs, st.heap.pubs, st.heap.curve⟩ a))
    o1.Network ⟨⟨l, st.heap.nets, st.heap.privs, st.heap.pubs, st.heap.curve⟩, st.hashes, st.rd, st.log, st.vars⟩
  go_run [e]
  rcases privateFromHexM H _ _ _ with ⟨a | e | p, h⟩ <;> go_run <;> exact ⟨_, rfl⟩

theorem run_MultiplyPrivateKeys (n : Nat) (p1 p2 : Ptr) (st : State) : ∃ hs,
    runFunc H E program (n + 2) 0 (id! "MultiplyPrivateKeys") [.priv p1, .priv p2] st =
      Out.of (fun p => [.priv p, .err none]) (fun e => [.priv none, .err (some e)]) (multiplyPrivateKeysM H p1 p2 st.heap)
        { st with hashes := hs } := by
  rw [runFunc_succ H E find_MultiplyPrivateKeys _ rfl]
  unfold fMultiplyPrivateKeys multiplyPrivateKeysM
  go_run
  rcases h1 : p1.bind fun a => st.heap.privs[a]? with _ | o1
  · go_run; exact ⟨_, rfl⟩
  go_run
  rcases h2 : p2.bind fun a => st.heap.privs[a]? with _ | o2
  · go_run; exact ⟨_, rfl⟩
  go_run
  by_cases hn : (o1.Network.bind fun a => st.heap.nets[a]?) = o2.Network.bind fun a => st.heap.nets[a]?
  case neg => go_run [hn]; exact ⟨_, rfl⟩
  go_run [hn, h1, h2]
  by_cases hw : H.toLower o1.WIF = H.toLower o2.WIF
  case pos => go_run [hw]; exact ⟨_, rfl⟩
  go_run [hw, h1, h2]
  obtain ⟨l, ⟨a, e⟩ | ⟨p, e⟩⟩ := (intOp_mul (some st.heap.ints.length) o1.Key o2.Key).cases
    ⟨st.heap.ints ++ [0], st.heap.nets, st.heap.privs, st.heap.pubs, st.heap.curve⟩
  case inr => go_run [e]; exact ⟨_, rfl⟩
  go_run [e]
  obtain ⟨l, ⟨a, e⟩ | ⟨p, e⟩⟩ := (intOp_mod a a st.heap.curve.N).cases
    ⟨l, st.heap.nets, st.heap.privs, st.heap.pubs, st.heap.curve⟩
  case inr => go_run [e]; exact ⟨_, rfl⟩
  go_run [e, run_bigIntToHex, h1]
  obtain ⟨hs, e⟩ := run_PrivateFromHex H E n (bigIntToHex (loadInt ⟨l, st.heap.nets, st.heap.privs, st.heap.pubs, st.heap.curve⟩ a))
    o1.Network ⟨⟨l, st.heap.nets, st.heap.privs, st.heap.pubs, st.heap.curve⟩, st.hashes, st.rd, st.log, st.vars⟩
  go_run [e]
  rcases privateFromHexM H _ _ _ with ⟨a | e | p, h⟩ <;> go_run <;> exact ⟨_, rfl⟩

/-- What a call of `GeneratePrivateKey` gives: hash states and, after a panic, the rest of the random source are not of
interest. -/
def genOut (st : State) (hs : List HashObj) (rd2 : Reader) : Res (Ptr × Reader) × Heap → Out (List Value)
  | (.ok (p, rd), h) => .ok [.priv p] { st with heap := h, hashes := hs, rd := rd }
  | (.err _, _) => .stuck
  | (.panic p, h) => .panic p { st with heap := h, hashes := hs, rd := rd2 }

theorem drawM_cases (rd : Reader) (h : Heap) :
    (∃ key rd' h', generateRandomBigIntM generateRandomBigInt rd h = (.ok (key, rd'), h') ∧ rd'.length < rd.length) ∨
    ∃ p h', generateRandomBigIntM generateRandomBigInt rd h = (.panic p, h') := by
  unfold generateRandomBigIntM
  rcases generateRandomBigInt_spec rd.length rd (Nat.le_refl _) with ⟨v, rd', e1, _, e3⟩ | e1
  · go_run [e1]; exact .inl ⟨_, _, _, rfl, by omega⟩
  · go_run [e1]; exact .inr ⟨_, _, rfl⟩

theorem run_GeneratePrivateKey_loop (network : Ptr) (fuel : Nat) : ∀ (n : Nat) (st : State), st.rd.length < fuel →
    fuel < n → ∃ hs rd2, runFunc H E program n 0 (id! "GeneratePrivateKey") [.net network] st =
      genOut st hs rd2 (generateLoopM H generateRandomBigInt network fuel st.rd st.heap) := by
  induction fuel with
  | zero => intro n st h; omega
  | succ fuel ih =>
    intro n st hr hn
    obtain ⟨n, rfl⟩ : ∃ m, n = m + 2 := ⟨n - 2, by omega⟩
    rw [runFunc_succ H E find_GeneratePrivateKey _ rfl]
    unfold fGeneratePrivateKey generateLoopM
    go_run
    rw [run_generateRandomBigInt]
    rcases drawM_cases st.rd st.heap with ⟨key, rd', h, hd, hl⟩ | ⟨p, h, hd⟩
    case inr => go_run [hd]; exact ⟨st.hashes, st.rd, rfl⟩
    go_run [hd, run_bigIntToHex]
    have retry : ∀ hs0 h, ∃ hs rd2, runFunc H E program (n + 1) 0 (id! "GeneratePrivateKey") [.net network]
        ⟨h, hs0, rd', st.log, st.vars⟩ = genOut st hs rd2 (generateLoopM H generateRandomBigInt network fuel rd' h) := by
      intro hs0 h
      obtain ⟨hs, rd2, e⟩ := ih (n + 1) ⟨h, hs0, rd', st.log, st.vars⟩ (by simp only; omega) (by omega)
      exact ⟨hs, rd2, e⟩
    by_cases h64 : (bigIntToHex (loadInt h key)).length = 64
    case neg =>
      have h64' : ((bigIntToHex (loadInt h key)).length : Int) ≠ 64 := by omega
      go_run [h64, h64']
      obtain ⟨hs, rd2, e⟩ := retry st.hashes h
      rw [e]
      refine ⟨hs, rd2, ?_⟩
      rcases generateLoopM H generateRandomBigInt network fuel rd' h with ⟨⟨q, rd3⟩ | e | p, h'⟩ <;> go_run [genOut]
    have h64' : ((bigIntToHex (loadInt h key)).length : Int) = 64 := by omega
    go_run [h64, h64']
    obtain ⟨hs, e⟩ := run_PrivateFromHex H E n (bigIntToHex (loadInt h key)) network ⟨h, st.hashes, rd', st.log, st.vars⟩
    go_run [e, onErr]
    rcases privateFromHexM H (bigIntToHex (loadInt h key)) network h with ⟨(_ | a) | e | p, h⟩
    · go_run; exact ⟨_, rd', rfl⟩
    · go_run; exact ⟨_, rd', rfl⟩
    · go_run
      obtain ⟨hs, rd2, e⟩ := retry hs h
      rw [e]
      refine ⟨hs, rd2, ?_⟩
      rcases generateLoopM H generateRandomBigInt network fuel rd' h with ⟨⟨q, rd3⟩ | e | p, h'⟩ <;> go_run [genOut]
    · go_run; exact ⟨_, rd', rfl⟩

end Btc.Source
