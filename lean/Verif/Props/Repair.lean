import Verif.Source.Fuel
import Verif.Source.Init
import Verif.Source.RepairKeys
import Verif.Crypto.Hashes
import Verif.Curve.Prime

/-!
# C127: which lines are at fault in the functions for private keys

The text in `Verif/Source/Repair.lean` differs from the repository's in the lines marked there. For it the properties hold
that C04, C12, C13, C16, C20, C25, C26, C42, C65, C66, C73, C75, C79 and C98 show to be violated in the repository, as
far as they are about private keys.
-/

namespace Btc

open Spec Mem Source

/-- The state has the order of the group where `init` puts it. -/
def OrderKnown (st : State) : Prop := loadInt st.heap st.heap.curve.N = some (Spec.n : Int)

/-- The network value behind a pointer. -/
def NetAt (st : State) (network : Ptr) (net : Network) : Prop := (network.bind fun a => st.heap.nets[a]?) = some net

/-- A valid private key: 32 bytes, spelled by the text, whose number is in the field and in [1, n-1]; the WIF is standard,
with the prefix bytes before the key and, for compressed use, a one after it. -/
structure KeyAt (sha : Bytes → Bytes) (st : State) (p network : Ptr) (hexa wif : GoString) (pre body : Bytes) (c : Bool) : Prop where
  object : ∃ ob, (p.bind fun a => st.heap.privs[a]?) = some ob ∧ loadInt st.heap ob.Key = some (bigEndian body : Int) ∧
    ob.Hex = hexa ∧ ob.WIF = wif ∧ ob.Network = network
  text : Spells hexa body
  wif : IsBase58Check sha (pre ++ body ++ markOf c) wif
  length : body.length = 32
  low : 1 ≤ bigEndian body
  high : bigEndian body < Spec.n

/-- The call returned a valid key, in new memory, and changed nothing. -/
def NewKey (sha : Bytes → Bytes) (st : State) (network : Ptr) (hexa wif : GoString) (pre body : Bytes) (c : Bool)
    (o : Out (List Value)) : Prop :=
  ∃ st' a, o = .ok [.priv (some a), .err none] st' ∧ Kept st st' ∧ st.heap.privs.length ≤ a ∧
    KeyAt sha st' (some a) network hexa wif pre body c

theorem gaveKey_new {sha : Bytes → Bytes} {st : State} {network : Ptr} {hexa wif : GoString} {pre body : Bytes} {c : Bool}
    {o : Out (List Value)} (h : GaveKey st (bigEndian body) hexa wif network o) (ht : Spells hexa body)
    (hw : IsBase58Check sha (pre ++ body ++ markOf c) wif) (hl : body.length = 32) (h1 : 1 ≤ bigEndian body)
    (h2 : bigEndian body < Spec.n) : NewKey sha st network hexa wif pre body c o := by
  obtain ⟨st', a, ob, e, hk, ha, h3, h4, h5, h6, h7⟩ := h
  exact ⟨st', a, e, hk, ha, ⟨ob, h3, h4, h5, h6, h7⟩, ht, hw, hl, h1, h2⟩

section
variable (H : Hashes) (E : EcdsaM)

/-- C127. `init` of the repaired program ends in the state that `init` of the repository ends in. -/
theorem C127_init (rd : Reader) : Ends H E repaired 0 (id! "init") [] (before repaired rd) (.ok [] (ready rd)) ∧
    OrderKnown (ready rd) ∧ NetAt (ready rd) (some 0) MainNetwork ∧ NetAt (ready rd) (some 1) TestNetwork := by
  have e : runFunc H E repaired 1 0 (id! "init") [] (before repaired rd) = .ok [] (ready rd) := by kernel_rfl
  refine ⟨.of e nofun, ?_, rfl, rfl⟩
  change loadInt (ready rd).heap (ready rd).heap.curve.N = some (Spec.n : Int)
  kernel_rfl

variable (st : State) (hN : OrderKnown st)
include hN

omit hN in
/-- C127. The repaired `CheckWIF` says yes exactly to Base58Check texts, and never panics. -/
theorem C127_check (wif : GoString) : ∃ b st', Ends H E repaired 0 (id! "CheckWIF") [.str wif] st (.ok [.bool b] st') ∧
    Kept st st' ∧ (b = true ↔ ∃ payload, IsBase58Check H.sha256 payload wif) := by
  obtain ⟨hs, b, e, hb⟩ := fixed_CheckWIF H E 0 wif st
  refine ⟨b, _, .of e nofun, .hash st hs, hb.trans ?_⟩
  simp only [decode_check]

/-- C127. The repaired `PrivateFromHex` returns a key exactly for 64 digits with a number in [1, n-1], if the prefix of the
network is hexadecimal; else it returns an error. -/
theorem C127_import_hex (hexa : GoString) (network : Ptr) (net : Network) (hnet : NetAt st network net) :
    ∃ o, Ends H E repaired 0 (id! "PrivateFromHex") [.str hexa, .net network] st o ∧
    ((∃ pre body wif, KeyText net hexa pre body ∧ NewKey H.sha256 st network hexa wif pre body false o) ∨
      (¬ ∃ pre body, KeyText net hexa pre body) ∧ ∃ e, WhyHex net hexa e ∧ GaveError st e o) := by
  rcases fixed_PrivateFromHex H E 0 hexa network net st hnet hN with ⟨pre, body, hk, hg⟩ | ⟨e, hk, hg⟩
  · exact ⟨_, .of rfl hg.ne_stuck, .inl ⟨pre, body, wifOf H.sha256 pre body, hk,
      gaveKey_new hg hk.2.1 (wifOf_check H pre body) hk.2.2.1 hk.2.2.2.1 hk.2.2.2.2⟩⟩
  · exact ⟨_, .of rfl hg.ne_stuck, .inr ⟨hk.not_key, e, hk, hg⟩⟩

/-- C127. The repaired `PrivateFromWIF` returns a key exactly for the WIFs, of either form, of numbers in [1, n-1] with the
prefix of the network; else it returns an error. -/
theorem C127_import_wif (wif : GoString) (network : Ptr) (net : Network) (hnet : NetAt st network net) :
    ∃ o, Ends H E repaired 0 (id! "PrivateFromWIF") [.str wif, .net network] st o ∧
    ((∃ pre body c, WifText H.sha256 net wif pre body c ∧
        NewKey H.sha256 st network (hexEncode body) wif pre body c o) ∨
      (¬ ∃ pre body c, WifText H.sha256 net wif pre body c) ∧ ∃ e, WhyWif H.sha256 net wif e ∧ GaveError st e o) := by
  rcases fixed_PrivateFromWIF H E 0 wif network net st hnet hN with ⟨pre, body, c, hk, hg⟩ | ⟨e, hk, hg⟩
  · exact ⟨_, .of rfl hg.ne_stuck, .inl ⟨pre, body, c, hk,
      gaveKey_new hg (spells_hexEncode body) hk.2.1 hk.2.2.1 hk.2.2.2.1 hk.2.2.2.2⟩⟩
  · exact ⟨_, .of rfl hg.ne_stuck, .inr ⟨hk.not_wif H, e, hk, hg⟩⟩

omit hN in
/-- C127. Both repaired imports refuse a nil network with an error (C98). -/
theorem C127_nil_network (t : GoString) :
    (∃ o, Ends H E repaired 0 (id! "PrivateFromHex") [.str t, .net none] st o ∧ GaveError st .differentNetwork o) ∧
    ∃ o, Ends H E repaired 0 (id! "PrivateFromWIF") [.str t, .net none] st o ∧ GaveError st .differentNetwork o := by
  have h1 := fixed_PrivateFromHex_nil H E 0 t st
  have h2 := fixed_PrivateFromWIF_nil H E 0 t st
  exact ⟨⟨_, .of rfl h1.ne_stuck, h1⟩, _, .of rfl h2.ne_stuck, h2⟩

/-- C127. What the repaired functions return can be imported again from its WIF, on every network (C12, C75). -/
theorem C127_round_trip (p network : Ptr) (net : Network) (hexa wif : GoString) (pre body : Bytes) (c : Bool)
    (hk : KeyAt H.sha256 st p network hexa wif pre body c) (hnet : NetAt st network net) (hp : Spells net.PrivKeyPrefix pre) :
    ∃ o, Ends H E repaired 0 (id! "PrivateFromWIF") [.str wif, .net network] st o ∧
      NewKey H.sha256 st network (hexEncode body) wif pre body c o := by
  obtain ⟨o, he, ⟨pre', body', c', h1, h2⟩ | ⟨h1, -⟩⟩ := C127_import_wif H E st hN wif network net hnet
  · obtain rfl := h1.1.unique hp
    have e := ((decode_check H).2 h1.2.1).symm.trans ((decode_check H).2 hk.wif)
    have e := (List.append_inj' (Res.ok.inj e) (by rw [length_checksum, length_checksum])).1
    rw [List.append_assoc, List.append_assoc] at e
    obtain ⟨rfl, ec⟩ := List.append_inj (List.append_cancel_left e) (h1.2.2.1.trans hk.length.symm)
    obtain rfl : c' = c := by cases c' <;> cases c <;> first | rfl | cases ec
    exact ⟨o, he, h2⟩
  · exact (h1 ⟨pre, body, c, hp, hk.wif, hk.length, hk.low, hk.high⟩).elim

/-- C127. A WIF with another prefix is refused for that reason (C13), even if the number would be refused too. -/
theorem C127_other_network (network : Ptr) (net : Network) (wif : GoString) (pre pre' body : Bytes) (c : Bool)
    (hw : IsBase58Check H.sha256 (pre' ++ body ++ markOf c) wif) (hnet : NetAt st network net) (hp : Spells net.PrivKeyPrefix pre)
    (hl : pre'.length = pre.length) (hb : body.length = 32) (hne : pre' ≠ pre) :
    ∃ o, Ends H E repaired 0 (id! "PrivateFromWIF") [.str wif, .net network] st o ∧ GaveError st .differentNetwork o := by
  have hcut : ∀ (a b a' b' : Bytes) (c1 c2 : Bool), a.length = a'.length → a ++ b ++ markOf c1 = a' ++ b' ++ markOf c2 → a = a' := by
    intro a b a' b' c1 c2 hl e
    rw [List.append_assoc, List.append_assoc] at e
    exact (List.append_inj e hl).1
  obtain ⟨o, he, ⟨pre1, body', c', h1, -⟩ | ⟨-, e, h1, h2⟩⟩ := C127_import_wif H E st hN wif network net hnet
  · obtain rfl := h1.1.unique hp
    exact (hne (hcut _ _ _ _ _ _ hl (check_unique H hw h1.2.1))).elim
  · refine ⟨o, he, ?_⟩
    cases h1 with
    | check h => exact (h ⟨_, hw⟩).elim
    | noPrefix _ h =>
      rw [hexDecode_of_spells hp] at h
      cases h
    | shape h3 h4 h5 =>
      obtain rfl := h4.unique hp
      exact (h5 ⟨pre', body, c, hl, hb, check_unique H h3 hw⟩).elim
    | network => exact h2
    | range h3 h4 =>
      obtain rfl := h4.unique hp
      exact (hne (hcut _ _ _ _ _ _ hl (check_unique H hw h3))).elim

/-- C127. Texts of fewer bytes than a key, addresses among them, are refused as no WIFs (C42). -/
theorem C127_address_refused (network : Ptr) (net : Network) (wif : GoString) (payload pre : Bytes)
    (hw : IsBase58Check H.sha256 payload wif) (hnet : NetAt st network net) (hp : Spells net.PrivKeyPrefix pre)
    (hl : payload.length < 32) :
    ∃ o, Ends H E repaired 0 (id! "PrivateFromWIF") [.str wif, .net network] st o ∧ GaveError st .wifInvalid o := by
  have hlen : ∀ (a b : Bytes) (c : Bool), b.length = 32 → payload ≠ a ++ b ++ markOf c := by
    intro a b c hb e
    have := congrArg List.length e
    simp only [List.length_append] at this
    omega
  obtain ⟨o, he, ⟨pre1, body', c', h1, -⟩ | ⟨-, e, h1, h2⟩⟩ := C127_import_wif H E st hN wif network net hnet
  · exact (hlen _ _ _ h1.2.2.1 (check_unique H hw h1.2.1)).elim
  · refine ⟨o, he, ?_⟩
    cases h1 with
    | check => exact h2
    | noPrefix _ h =>
      rw [hexDecode_of_spells hp] at h
      cases h
    | shape => exact h2
    | network h3 _ _ h4 => exact (hlen _ _ _ h4 (check_unique H hw h3)).elim
    | range => exact h2

end

section
variable (H : Hashes) (E : EcdsaM)

/-- C127. Equal WIFs are WIFs of the same number (C25). -/
theorem C127_same_wif {st : State} {p1 p2 nw1 nw2 : Ptr} {t1 t2 wif : GoString} {pre b1 b2 : Bytes} {c1 c2 : Bool}
    (h1 : KeyAt H.sha256 st p1 nw1 t1 wif pre b1 c1) (h2 : KeyAt H.sha256 st p2 nw2 t2 wif pre b2 c2) : b1 = b2 ∧ c1 = c2 := by
  have e := ((decode_check H).2 h1.wif).symm.trans ((decode_check H).2 h2.wif)
  have e := (List.append_inj' (Res.ok.inj e) (by rw [length_checksum, length_checksum])).1
  rw [List.append_assoc, List.append_assoc] at e
  obtain ⟨rfl, ec⟩ := List.append_inj (List.append_cancel_left e) (h1.length.trans h2.length.symm)
  exact ⟨rfl, by cases c1 <;> cases c2 <;> first | rfl | cases ec⟩

/-- C127. One number has one WIF of each form on a network (C66). -/
theorem C127_one_wif {st : State} {p1 p2 nw1 nw2 : Ptr} {t1 t2 w1 w2 : GoString} {pre b1 b2 : Bytes} {c : Bool}
    (h1 : KeyAt H.sha256 st p1 nw1 t1 w1 pre b1 c) (h2 : KeyAt H.sha256 st p2 nw2 t2 w2 pre b2 c)
    (h : bigEndian b1 = bigEndian b2) : w1 = w2 := by
  obtain rfl : b1 = b2 := hexEncode_inj (by rw [← hex64_body h1.length, h, hex64_body h2.length])
  exact h1.wif.text_eq.trans h2.wif.text_eq.symm

/-- C127. A key stays what it is when other calls are made. -/
theorem C127_keys_stay {st st' : State} (hk : Kept st st') {p network : Ptr} {hexa wif : GoString} {pre body : Bytes} {c : Bool}
    (h : KeyAt H.sha256 st p network hexa wif pre body c) : KeyAt H.sha256 st' p network hexa wif pre body c := by
  obtain ⟨ob, h1, h2, h3⟩ := h.object
  refine ⟨⟨ob, ?_, load_grow hk.heap h2, h3⟩, h.text, h.wif, h.length, h.low, h.high⟩
  cases p with
  | none => cases h1
  | some a =>
    obtain ⟨l, hl⟩ := hk.heap.privs
    have h1 : st.heap.privs[a]? = some ob := h1
    change st'.heap.privs[a]? = some ob
    rw [← hl, List.getElem?_append_left (List.getElem?_eq_some_iff.1 h1).1, h1]

variable {st : State} (hN : OrderKnown st) {p1 p2 nw1 nw2 : Ptr} {net : Network} {t1 t2 w1 w2 : GoString} {pre b1 b2 : Bytes}
  {c1 c2 : Bool} (h1 : KeyAt H.sha256 st p1 nw1 t1 w1 pre b1 c1) (h2 : KeyAt H.sha256 st p2 nw2 t2 w2 pre b2 c2)
  (hn1 : NetAt st nw1 net) (hn2 : NetAt st nw2 net) (hp : Spells net.PrivKeyPrefix pre)
include hN h1 h2 hn1 hn2 hp

/-- C127. The repaired `AddPrivateKeys` returns the sum mod n of two valid keys with different WIFs as a valid key, unless
the sum is zero (C20, C26, C73). -/
theorem C127_add : ∃ o, Ends H E repaired 0 (id! "AddPrivateKeys") [.priv p1, .priv p2] st o ∧
    ((w1 ≠ w2 ∧ ∃ body wif, bigEndian body = (bigEndian b1 + bigEndian b2) % Spec.n ∧
        NewKey H.sha256 st nw1 (hexEncode body) wif pre body false o) ∨
      w1 = w2 ∧ GaveError st .identicalKeys o ∨
      w1 ≠ w2 ∧ (bigEndian b1 + bigEndian b2) % Spec.n = 0 ∧ GaveError st .wifInvalid o) := by
  obtain ⟨o1, h3, h4, -, rfl, rfl⟩ := h1.object
  obtain ⟨o2, h5, h6, -, rfl, rfl⟩ := h2.object
  rcases fixed_AddPrivateKeys H E 0 p1 p2 o1 o2 _ _ net st h3 h5 hn1 hn2 h4 h6 hN with ⟨hw, pre', body, hk, hb, hg⟩ | ⟨e, hw, hg⟩
  · obtain rfl := hk.1.unique hp
    rw [← hb] at hg hk
    rw [hex64_body hk.2.2.1] at hg
    exact ⟨_, .of rfl hg.ne_stuck, .inl ⟨hw, body, _, hb,
      gaveKey_new hg (spells_hexEncode body) (wifOf_check H pre' body) hk.2.2.1 hk.2.2.2.1 hk.2.2.2.2⟩⟩
  · rcases hw with ⟨hw, rfl⟩ | ⟨hw, ⟨h0, rfl⟩ | ⟨-, h⟩⟩
    · exact ⟨_, .of rfl hg.ne_stuck, .inr (.inl ⟨hw, hg⟩)⟩
    · exact ⟨_, .of rfl hg.ne_stuck, .inr (.inr ⟨hw, h0, hg⟩)⟩
    · exact (h ⟨pre, hp⟩).elim

/-- C127. The repaired `MultiplyPrivateKeys` returns the product mod n of two valid keys with different WIFs as a valid
key, and it is never zero (C20, C26, C73). -/
theorem C127_multiply : ∃ o, Ends H E repaired 0 (id! "MultiplyPrivateKeys") [.priv p1, .priv p2] st o ∧
    ((w1 ≠ w2 ∧ ∃ body wif, bigEndian body = bigEndian b1 * bigEndian b2 % Spec.n ∧
        NewKey H.sha256 st nw1 (hexEncode body) wif pre body false o) ∨
      w1 = w2 ∧ GaveError st .identicalKeys o) := by
  obtain ⟨o1, h3, h4, -, rfl, rfl⟩ := h1.object
  obtain ⟨o2, h5, h6, -, rfl, rfl⟩ := h2.object
  rcases fixed_MultiplyPrivateKeys H E 0 p1 p2 o1 o2 _ _ net st h3 h5 hn1 hn2 h4 h6 hN with ⟨hw, pre', body, hk, hb, hg⟩ | ⟨e, hw, hg⟩
  · obtain rfl := hk.1.unique hp
    rw [← hb] at hg hk
    rw [hex64_body hk.2.2.1] at hg
    exact ⟨_, .of rfl hg.ne_stuck, .inl ⟨hw, body, _, hb,
      gaveKey_new hg (spells_hexEncode body) (wifOf_check H pre' body) hk.2.2.1 hk.2.2.2.1 hk.2.2.2.2⟩⟩
  · refine ⟨_, .of rfl hg.ne_stuck, .inr ?_⟩
    rcases hw with ⟨hw, rfl⟩ | ⟨-, ⟨h, -⟩ | ⟨-, h⟩⟩
    · exact ⟨hw, hg⟩
    · have hd := Nat.dvd_of_mod_eq_zero h
      rcases (Nat.Prime.dvd_mul EC.prime_n).1 hd with hd | hd
      · exact (Nat.not_le_of_lt h1.high (Nat.le_of_dvd h1.low hd)).elim
      · exact (Nat.not_le_of_lt h2.high (Nat.le_of_dvd h2.low hd)).elim
    · exact (h ⟨pre, hp⟩).elim

/-- C127. A key times its inverse is the key one (C79). -/
theorem C127_inverse (hne : w1 ≠ w2) (hi : bigEndian b1 * bigEndian b2 % Spec.n = 1) :
    ∃ o wif body, Ends H E repaired 0 (id! "MultiplyPrivateKeys") [.priv p1, .priv p2] st o ∧ bigEndian body = 1 ∧
      NewKey H.sha256 st nw1 (hexEncode body) wif pre body false o := by
  obtain ⟨o, he, ⟨-, body, wif, hb, hk⟩ | ⟨h, -⟩⟩ := C127_multiply H E hN h1 h2 hn1 hn2 hp
  · exact ⟨o, wif, body, he, hb.trans hi, hk⟩
  · exact (hne h).elim

end

section
variable (H : Hashes) (E : EcdsaM) (st : State) (hN : OrderKnown st) (network : Ptr) (net : Network) (hnet : NetAt st network net)
  (pre : Bytes) (hp : Spells net.PrivKeyPrefix pre)
include hN hnet hp

/-- C127. The repaired `GeneratePrivateKey` takes the first 32 random bytes that are the number of a private key, and
returns that key; it fails only when the random bytes do not suffice. -/
theorem C127_generate : ∃ o, Ends H E repaired 0 (id! "GeneratePrivateKey") [.net network] st o ∧
    ((∃ body rest wif st' a, FirstKey st.rd body rest ∧ o = .ok [.priv (some a)] st' ∧ Kept { st with rd := rest } st' ∧
        st.heap.privs.length ≤ a ∧ KeyAt H.sha256 st' (some a) network (hexEncode body) wif pre body false) ∨
      (¬ ∃ body rest, FirstKey st.rd body rest) ∧ ∃ st', o = .panic (.explicit .randRead) st' ∧ Kept { st with rd := st'.rd } st') := by
  rcases fixed_GeneratePrivateKey H E network net pre hp (st.rd.length + 1) st (Nat.lt_succ_self _) hnet hN with
    ⟨body, rest, hf, hm⟩ | ⟨hf, st', e, hk⟩
  · obtain ⟨st', a, ob, e, hk, ha, h3, h4, h5, h6, h7⟩ := hm
    have ⟨hl, h8, h9⟩ := hf.key
    exact ⟨_, .of e nofun, .inl ⟨body, rest, _, st', a, hf, rfl, hk, ha, ⟨ob, h3, h4, h5, rfl, h7⟩,
      spells_hexEncode body, h6 ▸ wifOf_check H pre body, hl, h8, h9⟩⟩
  · exact ⟨_, .of e nofun, .inr ⟨hf, st', rfl, hk⟩⟩

end

/-- C127. Without a network, or with one whose prefix is not hexadecimal, `GeneratePrivateKey` returns nil and takes no
random bytes. -/
theorem C127_generate_no_network (H : Hashes) (E : EcdsaM) (st : State) (network : Ptr) (net : Network)
    (h : network = none ∨ NetAt st network net ∧ ¬ ∃ pre, Spells net.PrivKeyPrefix pre) :
    Ends H E repaired 0 (id! "GeneratePrivateKey") [.net network] st (.ok [.priv none] st) :=
  .of (fixed_GeneratePrivateKey_none H E 0 network net st h) nofun

/-- C127. Keys of different networks are not added or multiplied. -/
theorem C127_other_networks (H : Hashes) (E : EcdsaM) {st : State} {p1 p2 nw1 nw2 : Ptr} {net1 net2 : Network}
    {t1 t2 w1 w2 : GoString} {pre1 pre2 b1 b2 : Bytes} {c1 c2 : Bool} (h1 : KeyAt H.sha256 st p1 nw1 t1 w1 pre1 b1 c1)
    (h2 : KeyAt H.sha256 st p2 nw2 t2 w2 pre2 b2 c2) (hn1 : NetAt st nw1 net1) (hn2 : NetAt st nw2 net2) (hne : net1 ≠ net2) :
    Ends H E repaired 0 (id! "AddPrivateKeys") [.priv p1, .priv p2] st (.ok [.priv none, .err (some .differentNetwork)] st) ∧
    Ends H E repaired 0 (id! "MultiplyPrivateKeys") [.priv p1, .priv p2] st (.ok [.priv none, .err (some .differentNetwork)] st) := by
  obtain ⟨o1, a1, -, -, -, rfl⟩ := h1.object
  obtain ⟨o2, a2, -, -, -, rfl⟩ := h2.object
  obtain ⟨r1, r2⟩ := fixed_other_network H E 0 p1 p2 o1 o2 st a1 a2 (by
    rw [show (o1.Network.bind fun a => st.heap.nets[a]?) = some net1 from hn1,
      show (o2.Network.bind fun a => st.heap.nets[a]?) = some net2 from hn2]
    exact fun e => hne (Option.some.inj e))
  exact ⟨.of r1 nofun, .of r2 nofun⟩

/-- C127. Every number in [1, n-1] is generated, from its own 32 bytes (C16). -/
theorem C127_every_key (H : Hashes) (E : EcdsaM) (st : State) (hN : OrderKnown st) (network : Ptr) (net : Network)
    (hnet : NetAt st network net) (pre : Bytes) (hp : Spells net.PrivKeyPrefix pre) (k : Nat) (h1 : 1 ≤ k) (h2 : k < Spec.n)
    (rest : Reader) : ∃ body wif st' a, bigEndian body = k ∧
      Ends H E repaired 0 (id! "GeneratePrivateKey") [.net network] { st with rd := body ++ rest } (.ok [.priv (some a)] st') ∧
      st'.rd = rest ∧ KeyAt H.sha256 st' (some a) network (hexEncode body) wif pre body false := by
  obtain ⟨body, -, hl, rfl⟩ := hex64_spells (m := k) (h2.trans (by decide +kernel))
  have hf : FirstKey (body ++ rest) body rest := .here hl h1 h2
  obtain ⟨o, he, ⟨body', rest', wif, st', a, hf', rfl, hk, -, hka⟩ | ⟨h, -⟩⟩ :=
    C127_generate H E { st with rd := body ++ rest } hN network net hnet pre hp
  · obtain ⟨rfl, rfl⟩ := hf'.unique hf
    exact ⟨body', wif, st', a, rfl, he, hk.rd, hka⟩
  · exact (h ⟨body, rest, hf⟩).elim

/-! ## Cases -/

/-- The 32 bytes of a small number. -/
def smallBody (b : UInt8) : Bytes := List.replicate 31 0 ++ [b]

/-- After `init`, two private keys of the main network: 1, used in compressed form, and 2. -/
def twoKeys : State :=
  ⟨⟨(ready []).heap.ints ++ [1, 2], (ready []).heap.nets,
    [⟨some (ready []).heap.ints.length, hexEncode (smallBody 1), asc "KwDiBf89QgGbjEhKnhXJuH7LrciVrZi3qYjgd9M7rFU73sVHnoWn", some 0⟩,
     ⟨some ((ready []).heap.ints.length + 1), hexEncode (smallBody 2), asc "5HpHagT65TZzG1PH3CSu63k8DbpvD8s5ip4nEB3kEsreAvUcVfH", some 0⟩],
    [], (ready []).heap.curve⟩, [], smallBody 0 ++ smallBody 7 ++ [1, 2, 3], [], []⟩

theorem main_prefix : Spells MainNetwork.PrivKeyPrefix [0x80] := hexDecode_eq_ok.1 (by decide +kernel)

theorem twoKeys_order : OrderKnown twoKeys := by
  change loadInt twoKeys.heap twoKeys.heap.curve.N = some (Spec.n : Int)
  kernel_rfl

theorem twoKeys_one : KeyAt realHashes.sha256 twoKeys (some 0) (some 0) (hexEncode (smallBody 1))
    (asc "KwDiBf89QgGbjEhKnhXJuH7LrciVrZi3qYjgd9M7rFU73sVHnoWn") [0x80] (smallBody 1) true :=
  ⟨⟨_, rfl, by kernel_rfl, rfl, rfl, rfl⟩, spells_hexEncode _, (decode_check realHashes).1 (by decide +kernel), by decide,
    by decide +kernel, by decide +kernel⟩

theorem twoKeys_two : KeyAt realHashes.sha256 twoKeys (some 1) (some 0) (hexEncode (smallBody 2))
    (asc "5HpHagT65TZzG1PH3CSu63k8DbpvD8s5ip4nEB3kEsreAvUcVfH") [0x80] (smallBody 2) false :=
  ⟨⟨_, rfl, by kernel_rfl, rfl, rfl, rfl⟩, spells_hexEncode _, (decode_check realHashes).1 (by decide +kernel), by decide,
    by decide +kernel, by decide +kernel⟩

-- the compressed WIF of the key 1 is imported as the key 1 (in the repository's text: as 257)
example (E : EcdsaM) : ∃ o, Ends realHashes E repaired 0 (id! "PrivateFromWIF")
    [.str (asc "KwDiBf89QgGbjEhKnhXJuH7LrciVrZi3qYjgd9M7rFU73sVHnoWn"), .net (some 0)] twoKeys o ∧
    NewKey realHashes.sha256 twoKeys (some 0) (hexEncode (smallBody 1)) (asc "KwDiBf89QgGbjEhKnhXJuH7LrciVrZi3qYjgd9M7rFU73sVHnoWn")
      [0x80] (smallBody 1) true o ∧ bigEndian (smallBody 1) = 1 := by
  obtain ⟨o, h1, h2⟩ := C127_round_trip realHashes E twoKeys twoKeys_order _ _ MainNetwork _ _ _ _ _ twoKeys_one rfl main_prefix
  exact ⟨o, h1, h2, by decide +kernel⟩

-- on the test network it is refused
example (E : EcdsaM) : ∃ o, Ends realHashes E repaired 0 (id! "PrivateFromWIF")
    [.str (asc "KwDiBf89QgGbjEhKnhXJuH7LrciVrZi3qYjgd9M7rFU73sVHnoWn"), .net (some 1)] twoKeys o ∧ GaveError twoKeys .differentNetwork o :=
  C127_other_network realHashes E twoKeys twoKeys_order (some 1) TestNetwork _ [0xEF] [0x80] (smallBody 1) true twoKeys_one.wif rfl
    (hexDecode_eq_ok.1 (by decide +kernel)) rfl (by decide) (by decide)

-- the sum of the keys 1 and 2 is the key 3 (in the repository's text: an error, as "3" has an odd number of digits)
example (E : EcdsaM) : ∃ o body wif, Ends realHashes E repaired 0 (id! "AddPrivateKeys") [.priv (some 0), .priv (some 1)] twoKeys o ∧
    bigEndian body = 3 ∧ NewKey realHashes.sha256 twoKeys (some 0) (hexEncode body) wif [0x80] body false o := by
  obtain ⟨o, h1, ⟨-, body, wif, h2, h3⟩ | ⟨h2, -⟩ | ⟨-, h2, -⟩⟩ := C127_add realHashes E twoKeys_order twoKeys_one twoKeys_two rfl rfl main_prefix
  · exact ⟨o, body, wif, h1, h2.trans (by decide +kernel), h3⟩
  · exfalso
    revert h2
    decide +kernel
  · exfalso
    revert h2
    decide +kernel

-- the product of the keys 1 and 2 is the key 2
example (E : EcdsaM) : ∃ o body wif, Ends realHashes E repaired 0 (id! "MultiplyPrivateKeys") [.priv (some 0), .priv (some 1)] twoKeys o ∧
    bigEndian body = 2 ∧ NewKey realHashes.sha256 twoKeys (some 0) (hexEncode body) wif [0x80] body false o := by
  obtain ⟨o, h1, ⟨-, body, wif, h2, h3⟩ | ⟨h2, -⟩⟩ :=
    C127_multiply realHashes E twoKeys_order twoKeys_one twoKeys_two rfl rfl main_prefix
  · exact ⟨o, body, wif, h1, h2.trans (by decide +kernel), h3⟩
  · exfalso
    revert h2
    decide +kernel

-- inverses mod n
example : bigEndian (smallBody 2) * ((Spec.n + 1) / 2) % Spec.n = 1 := by decide +kernel

-- from the bytes of 0 and 7 the key 7 is generated, and three bytes are left
example (E : EcdsaM) : ∃ st' a wif, Ends realHashes E repaired 0 (id! "GeneratePrivateKey") [.net (some 0)] twoKeys
    (.ok [.priv (some a)] st') ∧ st'.rd = [1, 2, 3] ∧
    KeyAt realHashes.sha256 st' (some a) (some 0) (hexEncode (smallBody 7)) wif [0x80] (smallBody 7) false := by
  have hf : FirstKey twoKeys.rd (smallBody 7) [1, 2, 3] :=
    .later (block := smallBody 0) (by decide) (by decide +kernel) (.here (body := smallBody 7) (by decide) (by decide +kernel) (by decide +kernel))
  obtain ⟨o, he, ⟨body, rest, wif, st', a, hf', rfl, hk, -, hka⟩ | ⟨h, -⟩⟩ :=
    C127_generate realHashes E twoKeys twoKeys_order (some 0) MainNetwork rfl [0x80] main_prefix
  · obtain ⟨rfl, rfl⟩ := hf'.unique hf
    exact ⟨st', a, wif, he, hk.rd, hka⟩
  · exact (h ⟨_, _, hf⟩).elim

-- an address is refused
example (E : EcdsaM) : ∃ o, Ends realHashes E repaired 0 (id! "PrivateFromWIF")
    [.str (asc "1BgGZ9tcN4rm9KBzDn7KprQz87SZ26SAMH"), .net (some 0)] twoKeys o ∧ GaveError twoKeys .wifInvalid o := by
  obtain ⟨payload, h1, h2⟩ : ∃ payload : Bytes, payload.length < 32 ∧ base58Decode (asc "1BgGZ9tcN4rm9KBzDn7KprQz87SZ26SAMH") =
      .ok (payload ++ checksum realHashes.sha256 payload) :=
    ⟨[0, 117, 30, 118, 232, 25, 145, 150, 212, 84, 148, 28, 69, 209, 179, 163, 35, 241, 67, 59, 214], by decide +kernel, by decide +kernel⟩
  exact C127_address_refused realHashes E twoKeys twoKeys_order (some 0) MainNetwork _ payload _ ((decode_check realHashes).1 h2) rfl main_prefix h1

-- one text that is a key and one that is not
example : KeyText MainNetwork (hexEncode (smallBody 5)) [0x80] (smallBody 5) ∧ ¬ ∃ pre body, KeyText MainNetwork (asc "05") pre body :=
  ⟨⟨main_prefix, spells_hexEncode _, by decide, by decide +kernel, by decide +kernel⟩, by
    rintro ⟨pre, body, -, h2, h3, -⟩
    have := h2.length
    rw [h3] at this
    revert this
    decide⟩

end Btc
