import Verif.Heap.Frame
import Verif.Heap.Safe
import Verif.Proofs.Pub
import Verif.Proofs.Seed
import Verif.Props.Wif
import Verif.Source.Keys
import Verif.Source.Loops
import Verif.Source.Repair

/-!
# Runs of the repaired functions for private keys
-/

namespace Btc.Source

open Mem Spec

/-- The state has only grown: what was there is still there, and no random bytes, log lines or package variables have
changed. If all pointers to numbers were valid, they still are. -/
structure Kept (st st' : State) : Prop where
  heap : Grow st.heap st'.heap
  rd : st'.rd = st.rd
  log : st'.log = st.log
  vars : st'.vars = st.vars
  objs : Objs st.heap → Objs st'.heap

/-- A call returned a new private key with this number, text, WIF and network. -/
def GaveKey (st : State) (k : Nat) (hexa wif : GoString) (network : Ptr) (o : Out (List Value)) : Prop :=
  ∃ st' a ob, o = .ok [.priv (some a), .err none] st' ∧ Kept st st' ∧ st.heap.privs.length ≤ a ∧ st'.heap.privs[a]? = some ob ∧
    loadInt st'.heap ob.Key = some (k : Int) ∧ ob.Hex = hexa ∧ ob.WIF = wif ∧ ob.Network = network

/-- A call returned no key but an error. -/
def GaveError (st : State) (e : GoError) (o : Out (List Value)) : Prop :=
  ∃ st', o = .ok [.priv none, .err (some e)] st' ∧ Kept st st'

theorem Kept.refl (st : State) : Kept st st := ⟨.refl _, rfl, rfl, rfl, id⟩

theorem slice_left {a b : GoString} {i : Int} (h : i = a.length) : slice (a ++ b) 0 i = .ok a := by
  subst h
  exact slice_prefix rfl

theorem slice_right {a b : GoString} {i j : Int} (h : i = a.length) (hj : j = (a ++ b).length) : slice (a ++ b) i j = .ok b := by
  subst h hj
  rw [slice_to_end (by simp), List.drop_left' rfl]

theorem load_mid (l : List Int) (v w : Int) (ns : List Network) (ps : List PrivObj) (qs : List PubObj) (c : CurveObj) :
    loadInt ⟨l ++ [v] ++ [w], ns, ps, qs, c⟩ (some l.length) = some v := by
  simp [loadInt]

theorem load_old {h : Heap} {p : Ptr} {x : Int} (hp : loadInt h p = some x) (l : List Int) (ns : List Network)
    (ps : List PrivObj) (qs : List PubObj) (c : CurveObj) : loadInt ⟨h.ints ++ l, ns, ps, qs, c⟩ p = some x := by
  cases p with
  | none => cases hp
  | some a =>
    have hp : h.ints[a]? = some x := hp
    change (h.ints ++ l)[a]? = some x
    rw [List.getElem?_append_left (List.getElem?_eq_some_iff.1 hp).1, hp]

theorem load_old2 {h : Heap} {p : Ptr} {x : Int} (hp : loadInt h p = some x) (l m : List Int) (ns : List Network)
    (ps : List PrivObj) (qs : List PubObj) (c : CurveObj) : loadInt ⟨h.ints ++ l ++ m, ns, ps, qs, c⟩ p = some x := by
  rw [List.append_assoc]
  exact load_old hp _ _ _ _ _

variable (H : Hashes) (E : EcdsaM)

theorem fixed_CheckWIF (n : Nat) (wif : GoString) (st : State) : ∃ hs b,
    runFunc H E repaired (n + 1) 0 (id! "CheckWIF") [.str wif] st = .ok [.bool b] { st with hashes := hs } ∧
      (b = true ↔ ∃ payload, base58Decode wif = .ok (payload ++ checksum H.sha256 payload)) := by
  rw [runFunc_succ H E repaired_CheckWIF _ rfl]
  unfold rCheckWIF
  go_run
  cases hd : base58Decode wif with
  | err e => go_run; exact ⟨_, _, rfl, by simp⟩
  | panic p => exact (base58Decode_ne_panic _ _ hd).elim
  | ok bytes =>
    go_run
    by_cases hl : ((hexEncode bytes).length : Int) < 8
    · go_run [hl]
      refine ⟨_, _, rfl, ?_⟩
      simp only [Bool.false_eq_true, false_iff, not_exists, Res.ok.injEq]
      rintro payload rfl
      rw [length_hexEncode, List.length_append, length_checksum] at hl
      omega
    go_run [hl]
    obtain ⟨payload, cs, rfl, hc⟩ := split_last4 (bs := bytes) (by rw [length_hexEncode] at hl; omega)
    have e : ((hexEncode (payload ++ cs)).length : Int) - 8 = (hexEncode payload).length := by
      simp only [length_hexEncode, List.length_append, hc]; omega
    rw [e, hexEncode_append, slice_right rfl rfl]
    go_run
    rw [← hexEncode_append, e, hexEncode_append, slice_left rfl]
    go_run
    rw [hexDecode_hexEncode]
    go_run
    rw [slice_doubleHash]
    go_run
    refine ⟨_, _, rfl, ?_⟩
    rw [decide_eq_true_iff]
    constructor
    · intro h
      rw [← hexEncode_inj h]
      exact ⟨payload, rfl⟩
    · rintro ⟨payload', h⟩
      have h := Res.ok.inj h
      obtain ⟨rfl, rfl⟩ := List.append_inj' h (by rw [hc, length_checksum])
      rfl

theorem fixed_bigIntToHex (n : Nat) (p : Ptr) (st : State) :
    runFunc H E repaired (n + 1) 0 (id! "bigIntToHex") [.big p] st = .ok [.str (bigIntToHex (loadInt st.heap p))] st := by
  rw [runFunc_succ H E repaired_bigIntToHex _ rfl]
  unfold fBigIntToHex
  go_run
  rfl

theorem fixed_PrivateFromHex_nil (n : Nat) (hexa : GoString) (st : State) :
    GaveError st .differentNetwork (runFunc H E repaired (n + 1) 0 (id! "PrivateFromHex") [.str hexa, .net none] st) := by
  rw [runFunc_succ H E repaired_PrivateFromHex _ rfl]
  unfold rPrivateFromHex
  go_run
  exact ⟨_, rfl, .refl _⟩

/-- The text is that of a valid key, for a network with this prefix. -/
def KeyText (net : Network) (hexa : GoString) (pre body : Bytes) : Prop :=
  Spells net.PrivKeyPrefix pre ∧ Spells hexa body ∧ body.length = 32 ∧ 1 ≤ bigEndian body ∧ bigEndian body < Spec.n

/-- Why a text is not imported as a private key. -/
inductive WhyHex (net : Network) (hexa : GoString) : GoError → Prop
  /-- It does not spell 32 bytes with a number in [1, n-1]. -/
  | text : (∀ body, Spells hexa body → ¬ (body.length = 32 ∧ 1 ≤ bigEndian body ∧ bigEndian body < Spec.n)) →
      WhyHex net hexa .wifInvalid
  /-- Or else the text with the prefix before it is not hexadecimal. -/
  | decode {e : GoError} : (∀ body, Spells hexa body → body.length = 32 ∧ 1 ≤ bigEndian body ∧ bigEndian body < Spec.n) →
      hexDecode (net.PrivKeyPrefix ++ hexa) = .err e → WhyHex net hexa e

theorem WhyHex.not_key {net : Network} {hexa : GoString} {e : GoError} (h : WhyHex net hexa e) :
    ¬ ∃ pre body, KeyText net hexa pre body := by
  rintro ⟨pre, body, h1, h2, h3⟩
  cases h with
  | text h => exact h body h2 h3
  | decode _ h =>
    rw [hexDecode_of_spells (h1.append h2)] at h
    cases h

theorem _root_.Btc.Mem.Objs.more {h : Heap} (ho : Objs h) {ints : List Int} (hl : h.ints <+: ints) {ps : List PrivObj} {qs : List PubObj}
    (hp : ∀ o ∈ ps, Below ints.length o.Key) (hq : ∀ o ∈ qs, Below ints.length o.X ∧ Below ints.length o.Y) (ns : List Network) :
    Objs ⟨ints, ns, h.privs ++ ps, h.pubs ++ qs, h.curve⟩ := by
  refine ⟨fun o hm => ?_, fun o hm => ?_, ho.gen.1.mono hl.length_le, ho.gen.2.mono hl.length_le⟩
  · rcases List.mem_append.1 hm with hm | hm
    · exact (ho.privs o hm).mono hl.length_le
    · exact hp o hm
  · rcases List.mem_append.1 hm with hm | hm
    · exact ⟨(ho.pubs o hm).1.mono hl.length_le, (ho.pubs o hm).2.mono hl.length_le⟩
    · exact hq o hm

theorem _root_.Btc.Mem.Objs.modify {h : Heap} (ho : Objs h) (a : Nat) {f : PrivObj → PrivObj} (hf : ∀ o, Below h.ints.length (f o).Key) :
    Objs { h with privs := h.privs.modify a f } := by
  refine ⟨fun o hm => ?_, ho.pubs, ho.gen⟩
  obtain ⟨i, hi⟩ := List.mem_iff_getElem?.1 hm
  rw [List.getElem?_modify] at hi
  rcases hx : h.privs[i]? with _ | x
  · rw [hx] at hi
    cases hi
  · rw [hx] at hi
    cases hi
    by_cases hai : a = i
    · simp only [if_pos hai]
      exact hf x
    · simp only [if_neg hai]
      exact ho.privs x (List.mem_iff_getElem?.2 ⟨i, hx⟩)

/-- The numbers of new objects exist. -/
macro "below" : tactic => `(tactic| simp [Below])

theorem Kept.add (st : State) (ints : List Int) (ps : List PrivObj) (hs : List HashObj)
    (hv : ∀ o ∈ ps, Below (st.heap.ints ++ ints).length o.Key := by below) :
    Kept st ⟨⟨st.heap.ints ++ ints, st.heap.nets, st.heap.privs ++ ps, st.heap.pubs, st.heap.curve⟩, hs, st.rd, st.log, st.vars⟩ :=
  ⟨⟨List.prefix_append _ _, rfl, List.prefix_append _ _, List.prefix_refl _, rfl⟩, rfl, rfl, rfl, fun ho => by
    simpa using ho.more (List.prefix_append _ _) hv (qs := []) (by simp) st.heap.nets⟩

theorem Kept.add2 (st : State) (v w : Int) (ps : List PrivObj) (hs : List HashObj)
    (hv : ∀ o ∈ ps, Below (st.heap.ints ++ [v] ++ [w]).length o.Key := by below) :
    Kept st ⟨⟨st.heap.ints ++ [v] ++ [w], st.heap.nets, st.heap.privs ++ ps, st.heap.pubs, st.heap.curve⟩, hs, st.rd, st.log, st.vars⟩ := by
  rw [List.append_assoc]
  exact .add st _ ps hs (by simpa using hv)

theorem intCmp_neg {a b : Int} : (intCmp a b = -1) = (a < b) := by
  unfold intCmp
  rw [eq_iff_iff]
  split <;> [simp_all; (split <;> simp_all)]

theorem fixed_PrivateFromHex (n : Nat) (hexa : GoString) (network : Ptr) (net : Network) (st : State)
    (hnet : (network.bind fun a => st.heap.nets[a]?) = some net) (hN : loadInt st.heap st.heap.curve.N = some (Spec.n : Int)) :
    (∃ pre body, KeyText net hexa pre body ∧
      GaveKey st (bigEndian body) hexa (base58Encode (pre ++ body ++ checksum H.sha256 (pre ++ body))) network
        (runFunc H E repaired (n + 1) 0 (id! "PrivateFromHex") [.str hexa, .net network] st)) ∨
    ∃ e, WhyHex net hexa e ∧
      GaveError st e (runFunc H E repaired (n + 1) 0 (id! "PrivateFromHex") [.str hexa, .net network] st) := by
  obtain ⟨a, rfl⟩ : ∃ a, network = some a := by cases network with
    | none => cases hnet
    | some a => exact ⟨a, rfl⟩
  rw [runFunc_succ H E repaired_PrivateFromHex _ rfl]
  unfold rPrivateFromHex
  go_run
  by_cases hl : hexa.length = 64
  case neg =>
    have hl' : ¬ (hexa.length : Int) = 64 := by omega
    go_run [hl']
    refine .inr ⟨_, .text ?_, _, rfl, .add st _ _ _⟩
    rintro body h2 ⟨h3, -⟩
    have := h2.length
    omega
  have hl' : (hexa.length : Int) = 64 := by omega
  have hne : hexa ≠ [] := by rintro rfl; cases hl
  go_run [hl']
  rcases hv : bigSetString hexa 16 with _ | v
  · go_run
    refine .inr ⟨_, .text ?_, _, rfl, .add st _ _ _⟩
    rintro body h2 -
    rw [bigSetString_of_spells h2 hne] at hv
    cases hv
  go_run [load_mid]
  by_cases h1 : v < 1
  · go_run [intCmp_neg, h1]
    refine .inr ⟨_, .text ?_, _, rfl, .add2 st _ _ _ _⟩
    rintro body h2 ⟨-, h4, -⟩
    rw [bigSetString_of_spells h2 hne] at hv
    cases hv
    omega
  go_run [intCmp_neg, h1, load_mid, load_old2 hN]
  by_cases h3 : v < Spec.n
  case neg =>
    go_run [intCmp_neg, h3]
    refine .inr ⟨_, .text ?_, _, rfl, .add2 st _ _ _ _⟩
    rintro body h2 ⟨-, -, h4⟩
    rw [bigSetString_of_spells h2 hne] at hv
    cases hv
    omega
  go_run [intCmp_neg, h3]
  have hnet : st.heap.nets[a]? = some net := hnet
  rw [hnet]
  go_run
  rcases hd : hexDecode (net.PrivKeyPrefix ++ hexa) with b | e | p
  case err =>
    go_run
    refine .inr ⟨_, .decode (fun body h2 => ?_) hd, _, rfl, .add2 st _ _ _ _⟩
    rw [bigSetString_of_spells h2 hne] at hv
    cases hv
    have := h2.length
    exact ⟨by omega, by omega, by omega⟩
  case panic => exact (hexDecode_ne_panic _ _ hd).elim
  go_run
  rw [slice_doubleHash]
  go_run
  rw [hexDecode_of_spells ((hexDecode_eq_ok.1 hd).append (spells_hexEncode _))]
  go_run
  have hs := hexDecode_eq_ok.1 hd
  obtain ⟨pre, body, h4, h5, rfl⟩ := hs.split (by have := hs.length; simp only [List.length_append] at this; omega)
  rw [bigSetString_of_spells h5 hne] at hv
  cases hv
  refine .inl ⟨pre, body, ⟨h4, h5, by have := h5.length; omega, by omega, by omega⟩, _, _, _, rfl, .add2 st _ _ _ _, Nat.le_refl _,
    List.getElem?_concat_length, load_mid _ _ _ _ _ _ _, rfl, rfl, rfl⟩

theorem fixed_PrivateFromWIF_nil (n : Nat) (wif : GoString) (st : State) :
    GaveError st .differentNetwork (runFunc H E repaired (n + 1) 0 (id! "PrivateFromWIF") [.str wif, .net none] st) := by
  rw [runFunc_succ H E repaired_PrivateFromWIF _ rfl]
  unfold rPrivateFromWIF
  go_run
  exact ⟨_, rfl, .refl _⟩

/-- The byte after the key bytes in the WIF of a key that is used in compressed form. -/
def markOf (c : Bool) : Bytes := if c then [1] else []

/-- The text is the WIF of a valid key, for a network with this prefix. -/
def WifText (sha : Bytes → Bytes) (net : Network) (wif : GoString) (pre body : Bytes) (c : Bool) : Prop :=
  Spells net.PrivKeyPrefix pre ∧ IsBase58Check sha (pre ++ body ++ markOf c) wif ∧ body.length = 32 ∧ 1 ≤ bigEndian body ∧
    bigEndian body < Spec.n

theorem decode_check {wif : GoString} {payload : Bytes} :
    base58Decode wif = .ok (payload ++ checksum H.sha256 payload) ↔ IsBase58Check H.sha256 payload wif := by
  rw [base58Decode_eq_ok]
  refine ⟨fun h => h.2, fun h => ⟨?_, h⟩⟩
  rw [h.text_eq]
  apply base58Encode_ne_nil
  intro h0
  have := congrArg List.length h0
  simp [length_checksum] at this

/-- Why a text is not imported as a WIF. -/
inductive WhyWif (sha : Bytes → Bytes) (net : Network) (wif : GoString) : GoError → Prop
  /-- It does not pass the check. -/
  | check : (¬ ∃ payload, IsBase58Check sha payload wif) → WhyWif sha net wif .wifInvalid
  /-- It does, but the prefix of the network is not hexadecimal. -/
  | noPrefix {payload : Bytes} {e : GoError} : IsBase58Check sha payload wif → hexDecode net.PrivKeyPrefix = .err e →
      WhyWif sha net wif e
  /-- It does not have the length of a WIF of the network, or no mark where there is one byte more. -/
  | shape {payload pre : Bytes} : IsBase58Check sha payload wif → Spells net.PrivKeyPrefix pre →
      (¬ ∃ front body c, front.length = pre.length ∧ body.length = 32 ∧ payload = front ++ body ++ markOf c) →
      WhyWif sha net wif .wifInvalid
  /-- It does, but the prefix is another. -/
  | network {front pre body : Bytes} {c : Bool} : IsBase58Check sha (front ++ body ++ markOf c) wif →
      Spells net.PrivKeyPrefix pre → front.length = pre.length → body.length = 32 → front ≠ pre →
      WhyWif sha net wif .differentNetwork
  /-- The prefix is the same, but the number is zero or too large. -/
  | range {pre body : Bytes} {c : Bool} : IsBase58Check sha (pre ++ body ++ markOf c) wif → Spells net.PrivKeyPrefix pre →
      body.length = 32 → ¬ (1 ≤ bigEndian body ∧ bigEndian body < Spec.n) → WhyWif sha net wif .wifInvalid

theorem check_unique {a b : Bytes} {wif : GoString} (h1 : IsBase58Check H.sha256 a wif) (h2 : IsBase58Check H.sha256 b wif) : a = b := by
  have e := ((decode_check H).2 h1).symm.trans ((decode_check H).2 h2)
  exact (List.append_inj' (Res.ok.inj e) (by rw [length_checksum, length_checksum])).1

theorem WhyWif.not_wif {net : Network} {wif : GoString} {e : GoError} (h : WhyWif H.sha256 net wif e) :
    ¬ ∃ pre body c, WifText H.sha256 net wif pre body c := by
  rintro ⟨pre, body, c, h1, h2, h3, h4⟩
  cases h with
  | check h => exact h ⟨_, h2⟩
  | noPrefix _ h =>
    rw [hexDecode_of_spells h1] at h
    cases h
  | shape h5 h6 h7 =>
    obtain rfl := h6.unique h1
    exact h7 ⟨_, body, c, rfl, h3, check_unique H h5 h2⟩
  | network h5 h6 h7 h8 h9 =>
    obtain rfl := h6.unique h1
    have e := check_unique H h5 h2
    rw [List.append_assoc, List.append_assoc] at e
    exact h9 (List.append_inj e h7).1
  | range h5 h6 h7 h8 =>
    obtain rfl := h6.unique h1
    have e := check_unique H h5 h2
    rw [List.append_assoc, List.append_assoc] at e
    obtain rfl := (List.append_inj (List.append_cancel_left e) (h7.trans h3.symm)).1
    exact h8 h4

theorem Kept.hash (st : State) (hs : List HashObj) : Kept st ⟨st.heap, hs, st.rd, st.log, st.vars⟩ := ⟨.refl _, rfl, rfl, rfl, id⟩

set_option hygiene false in
/-- The part of the proof below that is the same for both forms of WIF. -/
local macro "wif_tail" c:term : tactic => `(tactic| (
  obtain ⟨pq, body, rfl, hpq, hbl⟩ : ∃ pq body, q = pq ++ body ∧ pq.length = pre.length ∧ body.length = 32 :=
    ⟨q.take pre.length, q.drop pre.length, (List.take_append_drop _ _).symm, by simp [hq], by simp [hq]⟩
  have epre : ((hexEncode pre).length : Int) = (hexEncode pq).length := by simp only [length_hexEncode, hpq]
  rw [hexEncode_append, slice_left epre]
  go_run
  by_cases hpp : hexEncode pq = hexEncode pre
  case neg =>
    go_run [hpp]
    exact .inr ⟨_, .network (c := $c) hw hp hpq hbl fun h => hpp (by rw [h]), _, rfl, .hash st hs⟩
  obtain rfl := hexEncode_inj hpp
  go_run
  rw [slice_right rfl rfl]
  go_run
  have hne : hexEncode body ≠ [] := by
    intro h0
    have := length_hexEncode body
    rw [h0, hbl] at this
    cases this
  rw [bigSetString_of_spells (spells_hexEncode body) hne]
  go_run [load_mid]
  by_cases h1 : (bigEndian body : Int) < 1
  · go_run [intCmp_neg, h1]
    exact .inr ⟨_, .range (c := $c) hw hp hbl (by omega), _, rfl, .add2 st _ _ _ _⟩
  go_run [intCmp_neg, h1, load_mid, load_old2 hN]
  by_cases h3 : (bigEndian body : Int) < Spec.n
  case neg =>
    go_run [intCmp_neg, h3]
    exact .inr ⟨_, .range (c := $c) hw hp hbl (by omega), _, rfl, .add2 st _ _ _ _⟩
  go_run [intCmp_neg, h3]
  refine .inl ⟨pq, body, $c, ⟨hp, hw, hbl, by omega, by omega⟩, _, _, _, rfl, .add2 st _ _ _ _, Nat.le_refl _,
    List.getElem?_concat_length, load_mid _ _ _ _ _ _ _, rfl, rfl, rfl⟩))

theorem fixed_PrivateFromWIF (n : Nat) (wif : GoString) (network : Ptr) (net : Network) (st : State)
    (hnet : (network.bind fun a => st.heap.nets[a]?) = some net) (hN : loadInt st.heap st.heap.curve.N = some (Spec.n : Int)) :
    (∃ pre body c, WifText H.sha256 net wif pre body c ∧ GaveKey st (bigEndian body) (hexEncode body) wif network
      (runFunc H E repaired (n + 2) 0 (id! "PrivateFromWIF") [.str wif, .net network] st)) ∨
    ∃ e, WhyWif H.sha256 net wif e ∧
      GaveError st e (runFunc H E repaired (n + 2) 0 (id! "PrivateFromWIF") [.str wif, .net network] st) := by
  obtain ⟨a, rfl⟩ : ∃ a, network = some a := by cases network with
    | none => cases hnet
    | some a => exact ⟨a, rfl⟩
  rw [runFunc_succ H E repaired_PrivateFromWIF _ rfl]
  unfold rPrivateFromWIF
  go_run
  obtain ⟨hs, b, e, hb⟩ := fixed_CheckWIF H E n wif st
  rw [e]
  cases b with
  | false =>
    go_run
    exact .inr ⟨_, .check fun ⟨_, h2⟩ => Bool.false_ne_true (hb.2 ⟨_, (decode_check H).2 h2⟩), _, rfl, .hash st hs⟩
  | true =>
  obtain ⟨payload, hd⟩ := hb.1 rfl
  have hw := (decode_check H).1 hd
  go_run [hd]
  have hnet : st.heap.nets[a]? = some net := hnet
  rw [hnet]
  go_run
  rcases hp : hexDecode net.PrivKeyPrefix with pre | e | p
  case panic => exact (hexDecode_ne_panic _ _ hp).elim
  case err =>
    go_run
    exact .inr ⟨_, .noPrefix hw hp, _, rfl, .hash st hs⟩
  have hp := hexDecode_eq_ok.1 hp
  have e8 : ((hexEncode (payload ++ checksum H.sha256 payload)).length : Int) - 8 = (hexEncode payload).length := by
    simp only [length_hexEncode, List.length_append, length_checksum]; omega
  go_run
  rw [e8, hexEncode_append, slice_left rfl]
  go_run
  by_cases hA : ((hexEncode payload).length : Int) = (hexEncode pre).length + 66
  · obtain ⟨q, m, rfl, hq⟩ : ∃ q m, payload = q ++ [m] ∧ q.length = pre.length + 32 := by
      simp only [length_hexEncode] at hA
      have hne : payload ≠ [] := by rintro rfl; simp at hA; omega
      refine ⟨_, _, (List.dropLast_append_getLast hne).symm, ?_⟩
      rw [List.length_dropLast]; omega
    have e64 : ((hexEncode pre).length : Int) + 64 = (hexEncode q).length := by
      simp only [length_hexEncode, hq]; omega
    have e66 : ((hexEncode pre).length : Int) + 66 = (hexEncode q ++ hexEncode [m]).length := by
      rw [← hexEncode_append, hA]
    go_run [hA]
    rw [hexEncode_append, slice_right e64 e66]
    go_run
    by_cases hm : hexEncode [m] = utf8 [48, 49]
    case neg =>
      go_run [hm]
      refine .inr ⟨_, .shape hw hp ?_, _, rfl, .hash st hs⟩
      rintro ⟨front, body, c, h1, h2, h3⟩
      cases c with
      | false =>
        have := congrArg List.length h3
        simp [markOf] at this
        omega
      | true => exact hm (by rw [(List.append_inj' h3 rfl).2]; decide)
    have hm1 : [m] = markOf true := hexEncode_inj (hm.trans (by decide))
    rw [hm1] at hd hw
    go_run [hm]
    rw [← hm, slice_left e64]
    go_run [e64]
    wif_tail true
  · by_cases hB : ((hexEncode payload).length : Int) = (hexEncode pre).length + 64
    case neg =>
      go_run [hA, hB]
      refine .inr ⟨_, .shape hw hp ?_, _, rfl, .hash st hs⟩
      rintro ⟨front, body, c, h1, h2, h3⟩
      have := congrArg List.length h3
      simp only [length_hexEncode] at hA hB
      cases c <;> simp [markOf] at this <;> omega
    obtain ⟨q, rfl⟩ : ∃ q, payload = q ++ markOf false := ⟨payload, (List.append_nil _).symm⟩
    have hqq : q ++ markOf false = q := List.append_nil _
    have e64 : ((hexEncode pre).length : Int) + 64 = (hexEncode q).length := by
      rw [← hB, hqq]
    have hq : q.length = pre.length + 32 := by simp only [length_hexEncode] at e64; omega
    rw [hqq] at hA
    go_run [hqq, hA, e64]
    wif_tail false

theorem Kept.trans {a b c : State} (h1 : Kept a b) (h2 : Kept b c) : Kept a c :=
  ⟨h1.heap.trans h2.heap, h2.rd.trans h1.rd, h2.log.trans h1.log, h2.vars.trans h1.vars, h2.objs ∘ h1.objs⟩

theorem GaveKey.since {a b : State} {k : Nat} {hexa wif : GoString} {network : Ptr} {o : Out (List Value)} (hk : Kept a b)
    (h : GaveKey b k hexa wif network o) : GaveKey a k hexa wif network o := by
  obtain ⟨st', x, ob, h1, h2, h3, h4⟩ := h
  exact ⟨st', x, ob, h1, hk.trans h2, Nat.le_trans hk.heap.privs.length_le h3, h4⟩

theorem GaveError.since {a b : State} {e : GoError} {o : Out (List Value)} (hk : Kept a b) (h : GaveError b e o) :
    GaveError a e o := by
  obtain ⟨st', h1, h2⟩ := h
  exact ⟨st', h1, hk.trans h2⟩

/-- The WIF of a key, in the form that is not compressed. -/
def wifOf (sha : Bytes → Bytes) (pre body : Bytes) : GoString := base58Encode (pre ++ body ++ checksum sha (pre ++ body))

theorem fixed_PrivateFromHex_padded (n : Nat) (m : Nat) (hm : m < Spec.n) (network : Ptr) (net : Network) (st : State)
    (hnet : (network.bind fun a => st.heap.nets[a]?) = some net) (hN : loadInt st.heap st.heap.curve.N = some (Spec.n : Int)) :
    (∃ pre body, KeyText net (hex64 m) pre body ∧ bigEndian body = m ∧
      GaveKey st m (hex64 m) (wifOf H.sha256 pre body) network
        (runFunc H E repaired (n + 1) 0 (id! "PrivateFromHex") [.str (hex64 m), .net network] st)) ∨
    ∃ e, (m = 0 ∧ e = .wifInvalid ∨ m ≠ 0 ∧ ¬ ∃ pre, Spells net.PrivKeyPrefix pre) ∧
      GaveError st e (runFunc H E repaired (n + 1) 0 (id! "PrivateFromHex") [.str (hex64 m), .net network] st) := by
  obtain ⟨xb, h1, h2, h3⟩ := hex64_spells (m := m) (hm.trans (by decide +kernel))
  rcases fixed_PrivateFromHex H E n (hex64 m) network net st hnet hN with ⟨pre, body, hk, hg⟩ | ⟨e, hk, hg⟩
  · obtain rfl := hk.2.1.unique h1
    rw [h3] at hg
    exact .inl ⟨pre, body, hk, h3, hg⟩
  · refine .inr ⟨e, ?_, hg⟩
    by_cases h0 : m = 0
    · refine .inl ⟨h0, ?_⟩
      cases hk with
      | text => rfl
      | decode h _ =>
        have := (h xb h1).2.1
        omega
    · refine .inr ⟨h0, ?_⟩
      rintro ⟨pre, hp⟩
      exact hk.not_key ⟨pre, xb, hp, h1, h2, by omega, by omega⟩

section
variable {h : Heap} {p q : Ptr} {x y : Int}

theorem add_run (hx : loadInt h p = some x) (hy : loadInt h q = some y) (ns : List Network) (ps : List PrivObj)
    (qs : List PubObj) (c : CurveObj) : bigAdd (some h.ints.length) p q ⟨h.ints ++ [0], ns, ps, qs, c⟩ =
    (.ok (some h.ints.length), ⟨h.ints ++ [x + y], ns, ps, qs, c⟩) := by
  unfold bigAdd
  go_run [load_old hx, load_old hy]

theorem mul_run (hx : loadInt h p = some x) (hy : loadInt h q = some y) (ns : List Network) (ps : List PrivObj)
    (qs : List PubObj) (c : CurveObj) : bigMul (some h.ints.length) p q ⟨h.ints ++ [0], ns, ps, qs, c⟩ =
    (.ok (some h.ints.length), ⟨h.ints ++ [x * y], ns, ps, qs, c⟩) := by
  unfold bigMul
  go_run [load_old hx, load_old hy]

theorem mod_run {N : Int} (hN : loadInt h p = some N) (h0 : N ≠ 0) (ns : List Network) (ps : List PrivObj)
    (qs : List PubObj) (c : CurveObj) : bigMod (some h.ints.length) (some h.ints.length) p ⟨h.ints ++ [x], ns, ps, qs, c⟩ =
    (.ok (some h.ints.length), ⟨h.ints ++ [x % N], ns, ps, qs, c⟩) := by
  unfold bigMod
  go_run [load_old hN, h0]

end

theorem fixed_AddPrivateKeys (n : Nat) (p1 p2 : Ptr) (o1 o2 : PrivObj) (x y : Nat) (net : Network) (st : State)
    (h1 : (p1.bind fun a => st.heap.privs[a]?) = some o1) (h2 : (p2.bind fun a => st.heap.privs[a]?) = some o2)
    (hn1 : (o1.Network.bind fun a => st.heap.nets[a]?) = some net) (hn2 : (o2.Network.bind fun a => st.heap.nets[a]?) = some net)
    (hx : loadInt st.heap o1.Key = some (x : Int)) (hy : loadInt st.heap o2.Key = some (y : Int))
    (hN : loadInt st.heap st.heap.curve.N = some (Spec.n : Int)) :
    (o1.WIF ≠ o2.WIF ∧ ∃ pre body, KeyText net (hex64 ((x + y) % Spec.n)) pre body ∧ bigEndian body = (x + y) % Spec.n ∧
      GaveKey st ((x + y) % Spec.n) (hex64 ((x + y) % Spec.n)) (wifOf H.sha256 pre body) o1.Network
        (runFunc H E repaired (n + 67) 0 (id! "AddPrivateKeys") [.priv p1, .priv p2] st)) ∨
    ∃ e, (o1.WIF = o2.WIF ∧ e = .identicalKeys ∨ o1.WIF ≠ o2.WIF ∧ ((x + y) % Spec.n = 0 ∧ e = .wifInvalid ∨
        (x + y) % Spec.n ≠ 0 ∧ ¬ ∃ pre, Spells net.PrivKeyPrefix pre)) ∧
      GaveError st e (runFunc H E repaired (n + 67) 0 (id! "AddPrivateKeys") [.priv p1, .priv p2] st) := by
  rw [runFunc_succ H E repaired_AddPrivateKeys _ rfl]
  unfold rAddPrivateKeys
  go_run [h1, h2, hn1, hn2]
  by_cases hw : o1.WIF = o2.WIF
  · go_run [hw]
    exact .inr ⟨_, .inl rfl, _, rfl, .refl _⟩
  go_run [hw, h1, h2, add_run hx hy, mod_run hN (by decide +kernel), fixed_bigIntToHex]
  have hm : (x + y) % Spec.n < Spec.n := Nat.mod_lt _ (by decide +kernel)
  rw [show ((x : Int) + y) % (Spec.n : Int) = (((x + y) % Spec.n : Nat) : Int) by push_cast; rfl]
  revert hm
  generalize (x + y) % Spec.n = m
  intro hm
  have pad := exec_pad ⟨H, E, runFunc H E repaired (n + 66)⟩ (x := id! "hexa") (k := .num 64) (len := 64)
    (fun t => [[(id! "hexa", .str t), (id! "pKey", .big (some st.heap.ints.length)), (id! "p1", .priv p1), (id! "p2", .priv p2)]])
    (by decide) (fun _ => rfl) (fun _ _ => rfl) (fun _ _ => rfl) (n + 66) (by omega) (bigIntToHex (some (m : Int)))
    ⟨⟨st.heap.ints ++ [(m : Int)], st.heap.nets, st.heap.privs, st.heap.pubs, st.heap.curve⟩, st.hashes, st.rd, st.log, st.vars⟩
  unfold padLoop at pad
  go_run [pad, h1, pad64]
  have hk := Kept.add st [(m : Int)] [] st.hashes
  rw [List.append_nil] at hk
  rcases fixed_PrivateFromHex_padded H E (n + 65) m hm o1.Network net
    ⟨⟨st.heap.ints ++ [(m : Int)], st.heap.nets, st.heap.privs, st.heap.pubs, st.heap.curve⟩, st.hashes, st.rd, st.log, st.vars⟩
    hn1 (load_old hN _ _ _ _ _) with ⟨pre, body, ht, hb, hg⟩ | ⟨er, ht, hg⟩
  · have hg := hg.since hk
    have ⟨st', a, ob, e, _⟩ := hg
    rw [e] at hg ⊢
    go_run
    exact .inl ⟨pre, body, ht, hb, hg⟩
  · have hg := hg.since hk
    have ⟨st', e, _⟩ := hg
    rw [e] at hg ⊢
    go_run
    exact .inr ⟨er, .inr ht, hg⟩

theorem fixed_MultiplyPrivateKeys (n : Nat) (p1 p2 : Ptr) (o1 o2 : PrivObj) (x y : Nat) (net : Network) (st : State)
    (h1 : (p1.bind fun a => st.heap.privs[a]?) = some o1) (h2 : (p2.bind fun a => st.heap.privs[a]?) = some o2)
    (hn1 : (o1.Network.bind fun a => st.heap.nets[a]?) = some net) (hn2 : (o2.Network.bind fun a => st.heap.nets[a]?) = some net)
    (hx : loadInt st.heap o1.Key = some (x : Int)) (hy : loadInt st.heap o2.Key = some (y : Int))
    (hN : loadInt st.heap st.heap.curve.N = some (Spec.n : Int)) :
    (o1.WIF ≠ o2.WIF ∧ ∃ pre body, KeyText net (hex64 ((x * y) % Spec.n)) pre body ∧ bigEndian body = (x * y) % Spec.n ∧
      GaveKey st ((x * y) % Spec.n) (hex64 ((x * y) % Spec.n)) (wifOf H.sha256 pre body) o1.Network
        (runFunc H E repaired (n + 67) 0 (id! "MultiplyPrivateKeys") [.priv p1, .priv p2] st)) ∨
    ∃ e, (o1.WIF = o2.WIF ∧ e = .identicalKeys ∨ o1.WIF ≠ o2.WIF ∧ ((x * y) % Spec.n = 0 ∧ e = .wifInvalid ∨
        (x * y) % Spec.n ≠ 0 ∧ ¬ ∃ pre, Spells net.PrivKeyPrefix pre)) ∧
      GaveError st e (runFunc H E repaired (n + 67) 0 (id! "MultiplyPrivateKeys") [.priv p1, .priv p2] st) := by
  rw [runFunc_succ H E repaired_MultiplyPrivateKeys _ rfl]
  unfold rMultiplyPrivateKeys
  go_run [h1, h2, hn1, hn2]
  by_cases hw : o1.WIF = o2.WIF
  · go_run [hw]
    exact .inr ⟨_, .inl rfl, _, rfl, .refl _⟩
  go_run [hw, h1, h2, mul_run hx hy, mod_run hN (by decide +kernel), fixed_bigIntToHex]
  have hm : (x * y) % Spec.n < Spec.n := Nat.mod_lt _ (by decide +kernel)
  rw [show ((x : Int) * y) % (Spec.n : Int) = (((x * y) % Spec.n : Nat) : Int) by push_cast; rfl]
  revert hm
  generalize (x * y) % Spec.n = m
  intro hm
  have pad := exec_pad ⟨H, E, runFunc H E repaired (n + 66)⟩ (x := id! "hexa") (k := .num 64) (len := 64)
    (fun t => [[(id! "hexa", .str t), (id! "pKey", .big (some st.heap.ints.length)), (id! "p1", .priv p1), (id! "p2", .priv p2)]])
    (by decide) (fun _ => rfl) (fun _ _ => rfl) (fun _ _ => rfl) (n + 66) (by omega) (bigIntToHex (some (m : Int)))
    ⟨⟨st.heap.ints ++ [(m : Int)], st.heap.nets, st.heap.privs, st.heap.pubs, st.heap.curve⟩, st.hashes, st.rd, st.log, st.vars⟩
  unfold padLoop at pad
  go_run [pad, h1, pad64]
  have hk := Kept.add st [(m : Int)] [] st.hashes
  rw [List.append_nil] at hk
  rcases fixed_PrivateFromHex_padded H E (n + 65) m hm o1.Network net
    ⟨⟨st.heap.ints ++ [(m : Int)], st.heap.nets, st.heap.privs, st.heap.pubs, st.heap.curve⟩, st.hashes, st.rd, st.log, st.vars⟩
    hn1 (load_old hN _ _ _ _ _) with ⟨pre, body, ht, hb, hg⟩ | ⟨er, ht, hg⟩
  · have hg := hg.since hk
    have ⟨st', a, ob, e, _⟩ := hg
    rw [e] at hg ⊢
    go_run
    exact .inl ⟨pre, body, ht, hb, hg⟩
  · have hg := hg.since hk
    have ⟨st', e, _⟩ := hg
    rw [e] at hg ⊢
    go_run
    exact .inr ⟨er, .inr ht, hg⟩

theorem repaired_bound : bigSetString (utf8 [70, 70, 70, 70, 70, 70, 70, 70, 70, 70, 70, 70, 70, 70, 70, 70, 70, 70, 70, 70, 70, 70, 70, 70, 70, 70, 70,
      70, 70, 70, 70, 69, 66, 65, 65, 69, 68, 67, 69, 54, 65, 70, 52, 56, 65, 48, 51, 66, 66, 70, 68, 50, 53, 69,
      56, 67, 68, 48, 51, 54, 52, 49, 52, 49]) 16 =
    some (Spec.n : Int) := by
  decide +kernel

/-- A 32-byte block is drawn until its value is below n. -/
theorem randInt_n_step (rd : Reader) :
    randInt rd Spec.n =
      if 32 ≤ rd.length then
        if bytesToNat (rd.take 32) < Spec.n then .ok (bytesToNat (rd.take 32), rd.drop 32)
        else randInt (rd.drop 32) Spec.n
      else .err .randRead := by
  have hs : Nat.size (Spec.n - 1) = 256 := by decide +kernel
  have hg : ∀ rd, randInt rd Spec.n = randLoop Spec.n 32 8 (rd.length + 1) rd := by
    intro rd
    simp only [randInt, hs]
    rfl
  rw [hg, hg, randLoop_step _ _ _ (by omega)]
  by_cases hl : 32 ≤ rd.length
  · simp only [hl, if_true, maskFirst_eight]
  · simp only [hl, if_false]

theorem fixed_generateRandomBigInt (n : Nat) (st : State) :
    runFunc H E repaired (n + 1) 0 (id! "generateRandomBigInt") [] st =
      match randInt st.rd Spec.n with
      | .ok (v, rd) => .ok [.big (some (st.heap.ints ++ [(Spec.n : Int)]).length)]
          { st with heap := { st.heap with ints := st.heap.ints ++ [(Spec.n : Int)] ++ [(v : Int)] }, rd := rd }
      | .err e => .panic (.explicit e) { st with heap := { st.heap with ints := st.heap.ints ++ [(Spec.n : Int)] } }
      | .panic p => .panic p { st with heap := { st.heap with ints := st.heap.ints ++ [(Spec.n : Int)] } } := by
  rw [runFunc_succ H E repaired_generateRandomBigInt _ rfl]
  unfold rGenerateRandomBigInt
  have h0 : ¬ (Spec.n : Int) ≤ 0 := by decide +kernel
  go_run [repaired_bound, Option.map_some, Option.getD_some, h0, Int.toNat_natCast]
  rcases hr : randInt st.rd Spec.n with ⟨v, rd'⟩ | e | p
  · simp only [drawBig_ok hr]; go_run
  · simp only [drawBig_err hr]; go_run
  · simp only [drawBig_panic hr]; go_run

/-- In the random bytes, taken in blocks of 32, the first block that is the number of a private key is `body`, and `rest`
comes after it. -/
inductive FirstKey : Bytes → Bytes → Bytes → Prop
  | here {body rest : Bytes} : body.length = 32 → 1 ≤ bigEndian body → bigEndian body < Spec.n → FirstKey (body ++ rest) body rest
  | later {block rd body rest : Bytes} : block.length = 32 → ¬ (1 ≤ bigEndian block ∧ bigEndian block < Spec.n) →
    FirstKey rd body rest → FirstKey (block ++ rd) body rest

theorem FirstKey.length {rd body rest : Bytes} (h : FirstKey rd body rest) : rest.length + 32 ≤ rd.length := by
  induction h with
  | here h => simp only [List.length_append]; omega
  | later h _ _ ih => simp only [List.length_append]; omega

theorem FirstKey.skip {block rd body rest : Bytes} (hl : block.length = 32)
    (hb : ¬ (1 ≤ bigEndian block ∧ bigEndian block < Spec.n)) : FirstKey (block ++ rd) body rest ↔ FirstKey rd body rest := by
  refine ⟨fun h => ?_, .later hl hb⟩
  generalize e : block ++ rd = l at h
  cases h with
  | here h1 h2 h3 =>
    obtain ⟨rfl, rfl⟩ := List.append_inj e (by omega)
    exact (hb ⟨h2, h3⟩).elim
  | later h1 h2 h3 =>
    obtain ⟨rfl, rfl⟩ := List.append_inj e (by omega)
    exact h3

theorem FirstKey.key {rd body rest : Bytes} (h : FirstKey rd body rest) :
    body.length = 32 ∧ 1 ≤ bigEndian body ∧ bigEndian body < Spec.n := by
  induction h with
  | here h1 h2 h3 => exact ⟨h1, h2, h3⟩
  | later _ _ _ ih => exact ih

theorem FirstKey.unique {rd b1 r1 b2 r2 : Bytes} (h1 : FirstKey rd b1 r1) (h2 : FirstKey rd b2 r2) : b1 = b2 ∧ r1 = r2 := by
  induction h1 with
  | @here body rest h3 h4 h5 =>
    generalize e : body ++ rest = l at h2
    cases h2 with
    | here h6 => exact List.append_inj e (by omega)
    | later h6 h7 h8 =>
      obtain ⟨rfl, rfl⟩ := List.append_inj e (by omega)
      exact (h7 ⟨h4, h5⟩).elim
  | later h3 h4 h5 ih => exact ih ((FirstKey.skip h3 h4).1 h2)

theorem load_grow {h h' : Heap} (hg : Grow h h') {p : Ptr} {x : Int} (hp : loadInt h p = some x) : loadInt h' p = some x := by
  obtain ⟨l, hl⟩ := hg.ints
  have := load_old hp l h'.nets h'.privs h'.pubs h'.curve
  rwa [hl] at this

theorem hex64_body {body : Bytes} (h : body.length = 32) : hex64 (bigEndian body) = hexEncode body := by
  rw [← pad64, bigEndian_eq, pad64_bytes h]

theorem randInt_first : ∀ (m : Nat) (rd : Reader), rd.length ≤ m →
    (∃ v rd', randInt rd Spec.n = .ok (v, rd') ∧ rd'.length + 32 ≤ rd.length ∧ v < Spec.n ∧
      (1 ≤ v → ∃ body, body.length = 32 ∧ bigEndian body = v ∧ FirstKey rd body rd') ∧
      (v = 0 → ∀ body rest, FirstKey rd body rest ↔ FirstKey rd' body rest)) ∨
    randInt rd Spec.n = .err .randRead ∧ ∀ body rest, ¬ FirstKey rd body rest
  | m, rd, h => by
    rw [randInt_n_step]
    by_cases hl : 32 ≤ rd.length
    case neg =>
      rw [if_neg hl]
      refine .inr ⟨rfl, fun body rest h => hl ?_⟩
      have := h.length
      omega
    rw [if_pos hl, ← bigEndian_eq]
    have h32 : (rd.take 32).length = 32 := by simp; omega
    have ed := List.take_append_drop 32 rd
    have hd : (rd.drop 32).length + 32 = rd.length := by simp; omega
    by_cases hv : bigEndian (rd.take 32) < Spec.n
    · rw [if_pos hv]
      refine .inl ⟨_, _, rfl, by omega, hv, fun h1 => ⟨_, h32, rfl, ?_⟩, fun h0 body rest => ?_⟩
      · have := FirstKey.here (rest := rd.drop 32) h32 h1 hv
        rwa [ed] at this
      · conv => lhs; rw [← ed]
        exact FirstKey.skip h32 (by omega)
    · rw [if_neg hv]
      have hs : ∀ body rest, FirstKey rd body rest ↔ FirstKey (rd.drop 32) body rest := by
        intro body rest
        conv => lhs; rw [← ed]
        exact FirstKey.skip h32 (by omega)
      cases m with
      | zero => omega
      | succ m =>
        rcases randInt_first m (rd.drop 32) (by omega) with ⟨v, rd', h1, h2, h3, h4, h5⟩ | ⟨h1, h2⟩
        · refine .inl ⟨v, rd', h1, by omega, h3, fun h => ?_, fun h body rest => ?_⟩
          · obtain ⟨body, h6, h7, h8⟩ := h4 h
            exact ⟨body, h6, h7, (hs _ _).2 h8⟩
          · rw [hs, h5 h]
        · exact .inr ⟨h1, fun body rest h => h2 _ _ ((hs _ _).1 h)⟩

/-- A call returned a new private key with this number, text, WIF and network, and left `rest` of the random bytes. -/
def MadeKey (st : State) (k : Nat) (hexa wif : GoString) (network : Ptr) (rest : Reader) (o : Out (List Value)) : Prop :=
  ∃ st' a ob, o = .ok [.priv (some a)] st' ∧ Kept { st with rd := rest } st' ∧ st.heap.privs.length ≤ a ∧
    st'.heap.privs[a]? = some ob ∧ loadInt st'.heap ob.Key = some (k : Int) ∧ ob.Hex = hexa ∧ ob.WIF = wif ∧ ob.Network = network

theorem fixed_GeneratePrivateKey (network : Ptr) (net : Network) (pre : Bytes) (hp : Spells net.PrivKeyPrefix pre) :
    ∀ (m : Nat) (st : State), st.rd.length < m → (network.bind fun a => st.heap.nets[a]?) = some net →
      loadInt st.heap st.heap.curve.N = some (Spec.n : Int) →
    (∃ body rest, FirstKey st.rd body rest ∧
      MadeKey st (bigEndian body) (hexEncode body) (wifOf H.sha256 pre body) network rest
        (runFunc H E repaired (m + 67) 0 (id! "GeneratePrivateKey") [.net network] st)) ∨
    (¬ ∃ body rest, FirstKey st.rd body rest) ∧ ∃ st',
      runFunc H E repaired (m + 67) 0 (id! "GeneratePrivateKey") [.net network] st = .panic (.explicit .randRead) st' ∧
      Kept { st with rd := st'.rd } st'
  | 0, st, h, _, _ => by omega
  | m + 1, st, h, hnet, hN => by
    rw [runFunc_succ H E repaired_GeneratePrivateKey _ rfl]
    unfold rGeneratePrivateKey
    obtain ⟨na, rfl⟩ : ∃ na, network = some na := by
      cases network with
      | none => cases hnet
      | some na => exact ⟨na, rfl⟩
    go_run [hnet, hexDecode_of_spells hp]
    rw [fixed_generateRandomBigInt]
    rcases randInt_first st.rd.length st.rd (Nat.le_refl _) with ⟨v, rd', e, h2, h3, h4, h5⟩ | ⟨e, hf⟩
    case inr =>
      go_run [e]
      exact .inr ⟨fun ⟨_, _, h⟩ => hf _ _ h, _, rfl, ⟨List.prefix_append _ _, rfl, List.prefix_refl _, List.prefix_refl _, rfl⟩, rfl, rfl, rfl,
        fun ho => ho.ints (by simp)⟩
    go_run [e, fixed_bigIntToHex]
    have pad := exec_pad ⟨H, E, runFunc H E repaired (m + 67)⟩ (x := id! "hexa") (k := .num 64) (len := 64)
      (fun t => [[(id! "hexa", .str t), (id! "key", .big (some (st.heap.ints ++ [(Spec.n : Int)]).length)), (id! "err", .err none),
        (id! "network", .net (some na))]])
      (by decide) (fun _ => rfl) (fun _ _ => rfl) (fun _ _ => rfl) (m + 67) (by omega) (bigIntToHex (some (v : Int)))
      ⟨⟨st.heap.ints ++ [(Spec.n : Int)] ++ [(v : Int)], st.heap.nets, st.heap.privs, st.heap.pubs, st.heap.curve⟩, st.hashes, rd',
        st.log, st.vars⟩
    unfold padLoop at pad
    go_run [pad, pad64]
    have hk := Kept.add2 { st with rd := rd' } Spec.n v [] st.hashes
    rw [List.append_nil] at hk
    rcases fixed_PrivateFromHex_padded H E (m + 66) v h3 (some na) net
      ⟨⟨st.heap.ints ++ [(Spec.n : Int)] ++ [(v : Int)], st.heap.nets, st.heap.privs, st.heap.pubs, st.heap.curve⟩, st.hashes, rd',
        st.log, st.vars⟩ hnet (load_old2 hN _ _ _ _ _ _) with ⟨pre', body, ht, rfl, st', a, ob, e, hk', ha, ho, -, h6, h7, h8⟩ | ⟨er, ht, hg⟩
    · obtain rfl := ht.1.unique hp
      obtain ⟨body', h9, h10, h11⟩ := h4 ht.2.2.2.1
      obtain rfl : body' = body := hexEncode_inj (by rw [← hex64_body h9, h10, hex64_body ht.2.2.1])
      go_run [e, ho]
      have hkk := hk.trans hk'
      refine .inl ⟨body', rd', h11, _, a, { ob with Key := some (st.heap.ints ++ [(Spec.n : Int)]).length }, rfl,
        ⟨⟨hkk.heap.ints, hkk.heap.nets, prefix_modify hkk.heap.privs ha _, hkk.heap.pubs, hkk.heap.curve⟩, hkk.rd, hkk.log, hkk.vars, fun ho => ?_⟩,
        ha, ?_, load_grow (h := ⟨st.heap.ints ++ [(Spec.n : Int)] ++ [(bigEndian body' : Int)], st.heap.nets, st.heap.privs,
          st.heap.pubs, st.heap.curve⟩) ⟨hk'.heap.ints, hk'.heap.nets, ?_, hk'.heap.pubs, hk'.heap.curve⟩ (readInt_last ..),
        h6.trans (hex64_body h9), h7, h8⟩
      · refine (hkk.objs ho).modify a fun o b hb => ?_
        cases hb
        have := hk'.heap.ints.length_le
        simp only [List.length_append, List.length_cons, List.length_nil] at this ⊢
        omega
      · simp [ho]
      · exact hk'.heap.privs
    · have h0 : v = 0 := (ht.resolve_right fun h => h.2 ⟨pre, hp⟩).1
      obtain ⟨st', e, hk'⟩ := hg
      go_run [e]
      have hkk := hk.trans hk'
      rcases fixed_GeneratePrivateKey (some na) net pre hp m st' (by rw [hkk.rd]; simp only; omega)
        (by rw [← hkk.heap.nets]; exact hnet) (by rw [← hkk.heap.curve]; exact load_grow hkk.heap hN) with ⟨body, rest, hf, hm⟩ | ⟨hf, hm⟩
      · obtain ⟨st3, a, ob, e3, hk3, ha, h6⟩ := hm
        rw [e3]
        go_run
        have hk4 : Kept { st with rd := rest } st3 := ⟨hkk.heap.trans hk3.heap, hk3.rd, hk3.log.trans hkk.log, hk3.vars.trans hkk.vars, hk3.objs ∘ hkk.objs⟩
        rw [hkk.rd] at hf
        exact .inl ⟨body, rest, (h5 h0 _ _).2 hf, st3, a, ob, rfl, hk4, Nat.le_trans hkk.heap.privs.length_le ha, h6⟩
      · obtain ⟨st3, e3, hk3⟩ := hm
        rw [e3]
        go_run
        rw [hkk.rd] at hf
        exact .inr ⟨fun ⟨body, rest, h⟩ => hf ⟨body, rest, (h5 h0 _ _).1 h⟩, st3, rfl, hkk.heap.trans hk3.heap, rfl,
          hk3.log.trans hkk.log, hk3.vars.trans hkk.vars, hk3.objs ∘ hkk.objs⟩

/-- Without a network, or with one that no key can have, there is no key, and no random bytes are taken. -/
theorem fixed_GeneratePrivateKey_none (n : Nat) (network : Ptr) (net : Network) (st : State)
    (h : network = none ∨ (network.bind fun a => st.heap.nets[a]?) = some net ∧ ¬ ∃ pre, Spells net.PrivKeyPrefix pre) :
    runFunc H E repaired (n + 1) 0 (id! "GeneratePrivateKey") [.net network] st = .ok [.priv none] st := by
  rw [runFunc_succ H E repaired_GeneratePrivateKey _ rfl]
  unfold rGeneratePrivateKey
  rcases h with rfl | ⟨hnet, hp⟩
  · go_run
    rfl
  obtain ⟨na, rfl⟩ : ∃ na, network = some na := by
    cases network with
    | none => cases hnet
    | some na => exact ⟨na, rfl⟩
  rcases hd : hexDecode net.PrivKeyPrefix with b | e | p
  · exact (hp ⟨_, hexDecode_eq_ok.1 hd⟩).elim
  · go_run [hnet, hd]
    rfl
  · exact (hexDecode_ne_panic _ _ hd).elim

/-- Keys of different networks are not added or multiplied. -/
theorem fixed_other_network (n : Nat) (p1 p2 : Ptr) (o1 o2 : PrivObj) (st : State)
    (h1 : (p1.bind fun a => st.heap.privs[a]?) = some o1) (h2 : (p2.bind fun a => st.heap.privs[a]?) = some o2)
    (hn : (o1.Network.bind fun a => st.heap.nets[a]?) ≠ (o2.Network.bind fun a => st.heap.nets[a]?)) :
    runFunc H E repaired (n + 1) 0 (id! "AddPrivateKeys") [.priv p1, .priv p2] st = .ok [.priv none, .err (some .differentNetwork)] st ∧
    runFunc H E repaired (n + 1) 0 (id! "MultiplyPrivateKeys") [.priv p1, .priv p2] st =
      .ok [.priv none, .err (some .differentNetwork)] st := by
  rw [runFunc_succ H E repaired_AddPrivateKeys _ rfl, runFunc_succ H E repaired_MultiplyPrivateKeys _ rfl]
  unfold rAddPrivateKeys rMultiplyPrivateKeys
  constructor
  · go_run [h1, h2, hn]
    rfl
  · go_run [h1, h2, hn]
    rfl

theorem wifOf_check (pre body : Bytes) : IsBase58Check H.sha256 (pre ++ body ++ markOf false) (wifOf H.sha256 pre body) := by
  rw [markOf, if_neg (by decide), List.append_nil]
  exact (decode_check H).1 (base58Decode_encode (fun h => by
    have := congrArg List.length h
    simp [length_checksum] at this))

theorem GaveKey.ne_stuck {st : State} {k : Nat} {hexa wif : GoString} {network : Ptr} {o : Out (List Value)}
    (h : GaveKey st k hexa wif network o) : o ≠ .stuck := by
  obtain ⟨st', a, ob, rfl, _⟩ := h
  nofun

theorem GaveError.ne_stuck {st : State} {e : GoError} {o : Out (List Value)} (h : GaveError st e o) : o ≠ .stuck := by
  obtain ⟨st', rfl, _⟩ := h
  nofun

end Btc.Source
