import Verif.Heap.Safe
import Verif.Source.Keys
import Verif.Source.Loops

/-!
# The functions of public_key.go
-/

namespace Btc.Source

open Mem

/-- What the interpreter needs to know about the methods of the curve package: they change nothing but numbers, and (as
their Go types say) they return no `error`. -/
structure _root_.Btc.Mem.EcdsaM.IntOps (E : EcdsaM) : Prop where
  getY : ∀ x, IntOp (E.getY x)
  multMod : ∀ x y, IntOp (E.multMod x y)
  scalarMult : ∀ k p, IntOp (E.scalarMult k p)
  addPoints : ∀ p q, IntOp (E.addPoints p q)

theorem intCmp_eq (a b : Int) : intCmp a b = 0 ↔ a = b := by
  unfold intCmp; split
  · constructor <;> intro h <;> omega
  · split <;> simp_all

theorem intBit_zero (y : Int) : intBit y 0 = y % 2 := by simp [intBit]

@[go_exec] theorem asc_03_04 : (asc "03" = asc "04") = False := by decide +kernel
@[go_exec] theorem asc_03_02 : (asc "03" = asc "02") = False := by decide +kernel
@[go_exec] theorem asc_02_04 : (asc "02" = asc "04") = False := by decide +kernel
@[go_exec] theorem asc_02_03 : (asc "02" = asc "03") = False := by decide +kernel

variable (H : Hashes) {E : EcdsaM} (hE : E.IntOps)

include hE

theorem run_PublicFromHex (n : Nat) (hexa : GoString) (network : Ptr) (st : State) :
    runFunc H E program (n + 1) 0 (id! "PublicFromHex") [.str hexa, .net network] st =
      Out.of (fun p => [.pub p, .err none]) (fun e => [.pub none, .err (some e)]) (publicFromHexM E hexa network st.heap)
        st := by
  rw [runFunc_succ H E find_PublicFromHex _ rfl]
  unfold fPublicFromHex publicFromHexM
  go_run
  rcases hs : slice hexa 0 2 with pre | e | p
  case err => exact (Imp.slice_ne_err hs).elim
  case panic => go_run
  go_run
  by_cases h4 : pre = asc "04"
  · go_run [h4]
    rcases hs : slice hexa 2 66 with x | e | p
    case err => exact (Imp.slice_ne_err hs).elim
    case panic => go_run
    go_run
    rcases hs : slice hexa 66 130 with y | e | p
    case err => exact (Imp.slice_ne_err hs).elim
    case panic => go_run
    go_run
    rfl
  by_cases h32 : pre = asc "03" ∨ pre = asc "02"
  case neg =>
    obtain ⟨h3, h2⟩ := not_or.mp h32
    go_run [h4, h3, h2]
    rfl
  rcases h32 with rfl | rfl
  all_goals
    go_run
    rcases hs : slice hexa 2 66 with x | e | p
    case err => exact (Imp.slice_ne_err hs).elim
    case panic => go_run
    go_run
    obtain ⟨l, ⟨⟨y, b⟩, e⟩ | ⟨p, e⟩⟩ := (hE.getY ((bigSetString x 16).map fun _ => st.heap.ints.length)).cases
      ⟨st.heap.ints ++ [(bigSetString x 16).getD 0], st.heap.nets, st.heap.privs,
        st.heap.pubs ++ [⟨(bigSetString x 16).map fun _ => st.heap.ints.length, none, network⟩], st.heap.curve⟩
    case inr => go_run [e]
    cases b
    · go_run [e]
      rfl
    go_run [e]
    rcases e : bigSet _ _ _ with ⟨r, h'⟩
    obtain ⟨l2, rfl, hne⟩ := (intOp_set _ _).shape e
    clear e
    rcases r with m | e | p
    case err => exact (hne _ rfl).elim
    case panic => go_run
    go_run
    rcases e : bigMod _ _ _ _ with ⟨r, h'⟩
    obtain ⟨l3, rfl, hne⟩ := (intOp_mod _ _ _).shape e
    clear e
    rcases r with m | e | p
    case err => exact (hne _ rfl).elim
    case panic => go_run
    go_run
    rcases loadInt _ m with _ | a
    · go_run
    go_run
    rcases loadInt _ (some l.length) with _ | b
    · go_run
    go_run
    by_cases hab : a = b
    · go_run [intCmp_eq, hab]
      rfl
    go_run [intCmp_eq, hab]
    rcases e : E.multMod _ _ _ with ⟨r, h'⟩
    obtain ⟨l4, rfl, hne⟩ := (hE.multMod _ _).shape e
    clear e
    rcases r with m | e | p
    case err => exact (hne _ rfl).elim
    case panic => go_run
    go_run
    rfl

/-- In every program with this text of the method. -/
theorem run_GetPublicKey_in {ds : List Decl} (hf : findFunc (id! "PrivateKey") (id! "GetPublicKey") ds = some fGetPublicKey)
    (n : Nat) (p : Ptr) (st : State) :
    runFunc H E ds (n + 1) (id! "PrivateKey") (id! "GetPublicKey") [.priv p] st =
      Out.exact (fun q => [.pub q, .bool q.isSome]) (getPublicKeyM E p st.heap) st := by
  rw [runFunc_succ H E hf _ rfl]
  unfold fGetPublicKey getPublicKeyM
  go_run
  rcases h1 : p.bind fun a => st.heap.privs[a]? with _ | o
  · go_run
  go_run
  rcases e : E.scalarMult _ _ _ with ⟨r, h'⟩
  obtain ⟨l, rfl, hne⟩ := (hE.scalarMult _ _).shape e
  clear e
  rcases r with ⟨⟨x, y⟩, b⟩ | e | p
  case err => exact (hne _ rfl).elim
  case panic => go_run
  cases b
  · go_run
    rfl
  go_run [h1]
  rfl

theorem run_GetPublicKey (n : Nat) (p : Ptr) (st : State) :
    runFunc H E program (n + 1) (id! "PrivateKey") (id! "GetPublicKey") [.priv p] st =
      Out.exact (fun q => [.pub q, .bool q.isSome]) (getPublicKeyM E p st.heap) st :=
  run_GetPublicKey_in H hE find_GetPublicKey n p st

/-- In every program with this text of the function. -/
theorem run_AddPublicKeys_in {ds : List Decl} (hf : findFunc 0 (id! "AddPublicKeys") ds = some fAddPublicKeys) (n : Nat)
    (p1 p2 : Ptr) (c : Bool) (st : State) :
    runFunc H E ds (n + 1) 0 (id! "AddPublicKeys") [.pub p1, .pub p2, .bool c] st =
      Out.of (fun p => [.pub p, .err none]) (fun e => [.pub none, .err (some e)]) (addPublicKeysM E p1 p2 c st.heap) st := by
  rw [runFunc_succ H E hf _ rfl]
  unfold fAddPublicKeys addPublicKeysM
  go_run
  rcases h1 : p1.bind fun a => st.heap.pubs[a]? with _ | o1
  · go_run
  go_run
  rcases h2 : p2.bind fun a => st.heap.pubs[a]? with _ | o2
  · go_run
  go_run
  by_cases hn : (o1.Network.bind fun a => st.heap.nets[a]?) = o2.Network.bind fun a => st.heap.nets[a]?
  case neg => go_run [hn]; rfl
  go_run [hn, h1, h2]
  rcases e : E.addPoints _ _ _ with ⟨r, h'⟩
  obtain ⟨l, rfl, hne⟩ := (hE.addPoints _ _).shape e
  clear e
  rcases r with ⟨⟨x, y⟩, b⟩ | e | p
  case err => exact (hne _ rfl).elim
  case panic => go_run
  cases b
  · go_run
    rfl
  go_run [h1]
  rfl

theorem run_AddPublicKeys (n : Nat) (p1 p2 : Ptr) (c : Bool) (st : State) :
    runFunc H E program (n + 1) 0 (id! "AddPublicKeys") [.pub p1, .pub p2, .bool c] st =
      Out.of (fun p => [.pub p, .err none]) (fun e => [.pub none, .err (some e)]) (addPublicKeysM E p1 p2 c st.heap) st :=
  run_AddPublicKeys_in H hE find_AddPublicKeys n p1 p2 c st

omit hE

theorem run_bigIntToHex_in {ds : List Decl} (hf : findFunc 0 (id! "bigIntToHex") ds = some fBigIntToHex) (n : Nat) (p : Ptr)
    (st : State) :
    runFunc H E ds (n + 1) 0 (id! "bigIntToHex") [.big p] st = .ok [.str (bigIntToHex (loadInt st.heap p))] st := by
  rw [runFunc_succ H E hf _ rfl]
  unfold fBigIntToHex
  go_run
  rfl

/-- In every program with this text of the method. -/
theorem run_Format_in {ds : List Decl} (hb : findFunc 0 (id! "bigIntToHex") ds = some fBigIntToHex)
    (hf : findFunc (id! "PublicKey") (id! "Format") ds = some fFormat) (n : Nat) (p : Ptr) (c : Bool) (st : State) :
    runFunc H E ds (n + 66) (id! "PublicKey") (id! "Format") [.pub p, .bool c] st =
      Out.exact (fun s => [.str s]) (formatM p c st.heap) st := by
  rw [runFunc_succ H E hf _ rfl]
  unfold fFormat formatM
  go_run
  rcases h1 : p.bind fun a => st.heap.pubs[a]? with _ | o1
  · go_run
  go_run [run_bigIntToHex_in H hb, h1]
  have p1 := exec_pad ⟨H, E, runFunc H E ds (n + 65)⟩ (x := id! "pXHex") (k := .num 64) (len := 64)
    (fun t => [[(id! "pYHex", .str (bigIntToHex (loadInt st.heap o1.Y))), (id! "pXHex", .str t), (id! "key", .str []),
      (id! "p", .pub p), (id! "compressed", .bool c)]]) (by decide) (fun _ => rfl) (fun _ _ => rfl) (fun _ _ => rfl) (n + 65)
    (by omega) (bigIntToHex (loadInt st.heap o1.X)) st
  have p2 := exec_pad ⟨H, E, runFunc H E ds (n + 65)⟩ (x := id! "pYHex") (k := .num 64) (len := 64)
    (fun t => [[(id! "pYHex", .str t), (id! "pXHex", .str (padZeros 64 (bigIntToHex (loadInt st.heap o1.X)))),
      (id! "key", .str []), (id! "p", .pub p), (id! "compressed", .bool c)]]) (by decide) (fun _ => rfl) (fun _ _ => rfl)
    (fun _ _ => rfl) (n + 65) (by omega) (bigIntToHex (loadInt st.heap o1.Y)) st
  unfold padLoop at p1 p2
  go_run [p1, p2]
  cases c
  · go_run
  go_run [h1]
  rcases hy : loadInt st.heap o1.Y with _ | y
  · go_run
  go_run
  by_cases h2 : y % 2 = 0
  · go_run [intBit_zero, h2]
  · go_run [intBit_zero, h2]

theorem run_Format (n : Nat) (p : Ptr) (c : Bool) (st : State) :
    runFunc H E program (n + 66) (id! "PublicKey") (id! "Format") [.pub p, .bool c] st =
      Out.exact (fun s => [.str s]) (formatM p c st.heap) st :=
  run_Format_in H find_bigIntToHex find_Format n p c st

theorem formatM_shape (p : Ptr) (c : Bool) (h : Heap) : ∃ r, formatM p c h = (r, h) ∧ ∀ e, r ≠ .err e := by
  unfold formatM
  go_run
  rcases p.bind fun a => h.pubs[a]? with _ | o
  · go_run; exact ⟨_, rfl, by intro e he; cases he⟩
  cases c
  · go_run; exact ⟨_, rfl, by intro e he; cases he⟩
  go_run
  rcases loadInt h o.Y with _ | y
  · go_run; exact ⟨_, rfl, by intro e he; cases he⟩
  go_run
  by_cases h2 : y % 2 = 0 <;> go_run [h2] <;> exact ⟨_, rfl, by intro e he; cases he⟩

/-- In every program with these texts of the methods. -/
theorem run_Address_in {ds : List Decl} (hb : findFunc 0 (id! "bigIntToHex") ds = some fBigIntToHex)
    (hf : findFunc (id! "PublicKey") (id! "Format") ds = some fFormat)
    (ha : findFunc (id! "PublicKey") (id! "Address") ds = some fAddress) (n : Nat) (p : Ptr) (c : Bool) (st : State) : ∃ hs,
    runFunc H E ds (n + 67) (id! "PublicKey") (id! "Address") [.pub p, .bool c] st =
      Out.of (fun s => [.str s, .err none]) (fun e => [.str [], .err (some e)]) (addressM H p c st.heap)
        { st with hashes := hs } := by
  rw [runFunc_succ H E ha _ rfl]
  unfold fAddress addressM
  go_run [run_Format_in H hb hf]
  obtain ⟨r, e, hne⟩ := formatM_shape p c st.heap
  rw [e]
  rcases r with f | e | p
  case err => exact (hne _ rfl).elim
  case panic => go_run; exact ⟨_, rfl⟩
  go_run
  rcases hexDecode f with b | e | p
  case err => go_run; exact ⟨_, rfl⟩
  case panic => go_run; exact ⟨_, rfl⟩
  go_run
  rcases p.bind fun a => st.heap.pubs[a]? with _ | o
  · go_run; exact ⟨_, rfl⟩
  go_run
  rcases o.Network.bind fun a => st.heap.nets[a]? with _ | net
  · go_run; exact ⟨_, rfl⟩
  go_run
  generalize net.PubKeyHashPrefix ++ hexEncode (H.ripemd160 (H.sha256 b)) = x
  rcases hexDecode x with b | e | p
  case err => go_run; exact ⟨_, rfl⟩
  case panic => go_run; exact ⟨_, rfl⟩
  go_run
  rcases hs : slice (hexEncode (H.sha256 (H.sha256 b))) 0 8 with s | e | p
  case err => exact (Imp.slice_ne_err hs).elim
  case panic => go_run; exact ⟨_, rfl⟩
  go_run
  rcases hexDecode (x ++ s) with b | e | p
  case err => go_run; exact ⟨_, rfl⟩
  case panic => go_run; exact ⟨_, rfl⟩
  go_run; exact ⟨_, rfl⟩

theorem run_Address (n : Nat) (p : Ptr) (c : Bool) (st : State) : ∃ hs,
    runFunc H E program (n + 67) (id! "PublicKey") (id! "Address") [.pub p, .bool c] st =
      Out.of (fun s => [.str s, .err none]) (fun e => [.str [], .err (some e)]) (addressM H p c st.heap)
        { st with hashes := hs } :=
  run_Address_in H find_bigIntToHex find_Format find_Address n p c st

end Btc.Source
