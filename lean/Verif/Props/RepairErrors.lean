import Verif.Props.RepairResult

/-!
# C140: which errors the repaired text returns

The third table for the repaired text (Verif/Source/Repair.lean): which calls return which error. With C134 and C139 it says how
every call ends. `GeneratePrivateKey`, which returns no error but may return nil or panic, has a theorem of its own.
-/

namespace Btc

open Mem Source Spec

namespace Spec

/-- Specification: the text has 64 characters and writes a number in [1, n-1], perhaps with a plus sign. -/
def ScalarText (h : GoString) : Prop := h.length = 64 ∧ ∃ z : Int, IsNumeral h z ∧ 1 ≤ z ∧ z < Spec.n

/-- Specification: the error for a text that is not imported as a private key. -/
def HexRefused (net : Network) (h : GoString) (e : GoError) : Prop :=
  (¬ ScalarText h ∧ e = .wifInvalid) ∨ (ScalarText h ∧ HexFault (net.PrivKeyPrefix ++ h) e)

/-- Specification: the error for a text that is not imported as a WIF. -/
inductive WifRefused (sha : Bytes → Bytes) (net : Network) (w : GoString) : GoError → Prop
  /-- It is no Base58Check text. -/
  | check : (¬ ∃ payload, IsBase58Check sha payload w) → WifRefused sha net w .wifInvalid
  /-- It is, but the prefix of the network is not hexadecimal. -/
  | noPrefix {payload : Bytes} {e : GoError} : IsBase58Check sha payload w → HexFault net.PrivKeyPrefix e → WifRefused sha net w e
  /-- It is, but not of a prefix of the right length, 32 bytes and, perhaps, the mark. -/
  | shape {payload pre : Bytes} : IsBase58Check sha payload w → Spells net.PrivKeyPrefix pre →
      (¬ ∃ front body c, front.length = pre.length ∧ body.length = 32 ∧ payload = front ++ body ++ markOf c) →
      WifRefused sha net w .wifInvalid
  /-- It is, but the prefix is another. -/
  | network {front pre body : Bytes} {c : Bool} : IsBase58Check sha (front ++ body ++ markOf c) w → Spells net.PrivKeyPrefix pre →
      front.length = pre.length → body.length = 32 → front ≠ pre → WifRefused sha net w .differentNetwork
  /-- The prefix is the same, but the number is zero or too large. -/
  | range {pre body : Bytes} {c : Bool} : IsBase58Check sha (pre ++ body ++ markOf c) w → Spells net.PrivKeyPrefix pre →
      body.length = 32 → ¬ (1 ≤ bigEndian body ∧ bigEndian body < Spec.n) → WifRefused sha net w .wifInvalid

/-- Specification: the error for two private keys; `f` is the sum or the product. -/
def CombineRefused (f : Int → Int → Int) (st : State) (p q : Ptr) (e : GoError) : Prop :=
  ∃ a b, privAt st p = some a ∧ privAt st q = some b ∧
    ((a.Network ≠ b.Network ∧ e = .differentNetwork) ∨ (a.Network = b.Network ∧ a.WIF = b.WIF ∧ e = .identicalKeys) ∨
      (a.Network = b.Network ∧ a.WIF ≠ b.WIF ∧ (∃ x y, a.Key = some x ∧ b.Key = some y ∧ f x y % (Spec.n : Int) = 0) ∧ e = .wifInvalid))

/-- Specification: the error for a text that is not imported as a public key. -/
def PubRefused (s : GoString) (e : GoError) : Prop :=
  HexFault s e ∨ (∃ ser, Spells s ser ∧ ¬ PubShape ser ∧ e = .unsupportedFormat) ∨
    (∃ ser, Spells s ser ∧ PubShape ser ∧ (¬ ∃ c x y, PubText s c x y) ∧ e = .notOnSecp256k1)

/-- Specification: the table of errors. -/
def FixedFails (H : Hashes) (st : State) : Request → GoError → Prop
  | .privateFromWIF w network, e => (loadNet st.heap network = none ∧ e = .differentNetwork) ∨
      ∃ net, NetAt st network net ∧ WifRefused H.sha256 net w e
  | .privateFromHex h network, e => (loadNet st.heap network = none ∧ e = .differentNetwork) ∨
      ∃ net, NetAt st network net ∧ HexRefused net h e
  | .addPrivateKeys p q, e => CombineRefused (· + ·) st p q e
  | .multiplyPrivateKeys p q, e => CombineRefused (· * ·) st p q e
  | .publicFromHex s network, e => (loadNet st.heap network = none ∧ e = .differentNetwork) ∨
      (loadNet st.heap network ≠ none ∧ PubRefused s e)
  | .address p _, e => ∃ k net, pubAt st p = some k ∧ k.Network = some net ∧ HexFault net.PubKeyHashPrefix e
  | .addPublicKeys p q _, e => ∃ a b, pubAt st p = some a ∧ pubAt st q = some b ∧
      ((a.Network ≠ b.Network ∧ e = .differentNetwork) ∨ (a.Network = b.Network ∧ a.X = b.X ∧ e = .notOnCurve))
  | .newMnemonic words wl, e => ((wl.getD []).length ≠ 2048 ∧ e = .invalidWordlist) ∨
      ((wl.getD []).length = 2048 ∧ words ∉ [(12 : Int), 15, 18, 21, 24] ∧ e = .unsupportedMnemonicLength) ∨
      ((wl.getD []).length = 2048 ∧ (∃ c : Nat, 4 ≤ c ∧ c ≤ 8 ∧ words = 3 * c ∧ st.rd.length < 4 * c) ∧ e = .randRead)
  | .newSeedFromMnemonic mn _ wl, e => ((wl.getD []).length ≠ 2048 ∧ e = .invalidWordlist) ∨
      ((wl.getD []).length = 2048 ∧ ∃ ws, ws ≠ [] ∧ (∀ w ∈ ws, (32 : UInt8) ∉ w) ∧ mn = phraseText ws ∧
        (((∃ w ∈ ws, w ∉ wl.getD []) ∧ e = .invalidMnemonic) ∨
          ((∀ w ∈ ws, w ∈ wl.getD []) ∧ ws.length ∉ [12, 15, 18, 21, 24] ∧ e = .unsupportedMnemonicLength) ∨
          ((∀ w ∈ ws, w ∈ wl.getD []) ∧ ws.length ∈ [12, 15, 18, 21, 24] ∧ ¬ IsPhrase H.sha256 (wl.getD []) mn ∧ e = .invalidChecksum)))
  | _, _ => False

end Spec

/-! ## The table leaves no choice -/

theorem Spec.HexFault.not_spells {s : GoString} {e : GoError} (h : HexFault s e) {bs : Bytes} (hs : Spells s bs) : False := by
  have := (hexDecode_err_iff s e).2 h
  rw [hexDecode_of_spells hs] at this
  cases this

/-- Digits in even number behind a text do not change its error. -/
theorem hexFault_append {s t : GoString} (ht : ∀ c ∈ t, IsHexDigit c) (hl : t.length % 2 = 0) (e : GoError) :
    HexFault (s ++ t) e ↔ HexFault s e := by
  cases e with
  | hexInvalidByte b =>
    constructor
    · rintro ⟨pre, post, h1, h2, h3⟩
      rcases List.append_eq_append_iff.1 h1 with ⟨m, rfl, h5⟩ | ⟨m, h5, h6⟩
      · exact (h3 (ht b (by rw [h5]; simp))).elim
      · cases m with
        | nil =>
          rw [List.nil_append] at h6
          exact (h3 (ht b (by rw [← h6]; simp))).elim
        | cons d m =>
          obtain ⟨rfl, -⟩ := List.cons.inj h6
          exact ⟨pre, m, h5, h2, h3⟩
    · rintro ⟨pre, post, rfl, h2, h3⟩
      exact ⟨pre, post ++ t, by simp, h2, h3⟩
  | hexLength =>
    constructor
    · rintro ⟨h1, h2⟩
      rw [List.length_append] at h2
      exact ⟨fun c hc => h1 c (List.mem_append_left _ hc), by omega⟩
    · rintro ⟨h1, h2⟩
      refine ⟨fun c hc => (List.mem_append.1 hc).elim (h1 c) (ht c), ?_⟩
      rw [List.length_append]
      omega
  | _ => exact Iff.rfl

theorem Spec.WifRefused.unique {H : Hashes} {net : Network} {w : GoString} {e e' : GoError} (h : WifRefused H.sha256 net w e)
    (h' : WifRefused H.sha256 net w e') : e = e' := by
  have split : ∀ {f1 f2 b1 b2 p1 p2 : Bytes} {c1 c2 : Bool}, IsBase58Check H.sha256 (f1 ++ b1 ++ markOf c1) w →
      IsBase58Check H.sha256 (f2 ++ b2 ++ markOf c2) w → f1.length = f2.length → f1 = f2 := by
    intro f1 f2 b1 b2 p1 p2 c1 c2 h1 h2 hl
    have := check_unique H h1 h2
    rw [List.append_assoc, List.append_assoc] at this
    exact (List.append_inj this hl).1
  cases h with
  | check h1 =>
    cases h' with
    | check _ => rfl
    | noPrefix k1 _ => exact (h1 ⟨_, k1⟩).elim
    | shape _ _ _ => rfl
    | network k1 _ _ _ _ => exact (h1 ⟨_, k1⟩).elim
    | range _ _ _ _ => rfl
  | noPrefix h1 h2 =>
    cases h' with
    | check k1 => exact (k1 ⟨_, h1⟩).elim
    | noPrefix _ k2 => exact h2.unique k2
    | shape _ k2 _ => exact (h2.not_spells k2).elim
    | network _ k2 _ _ _ => exact (h2.not_spells k2).elim
    | range _ k2 _ _ => exact (h2.not_spells k2).elim
  | shape h1 h2 h3 =>
    cases h' with
    | check _ => rfl
    | noPrefix _ k2 => exact (k2.not_spells h2).elim
    | shape _ _ _ => rfl
    | network k1 k2 k3 k4 _ =>
      obtain rfl := h2.unique k2
      exact (h3 ⟨_, _, _, k3, k4, check_unique H h1 k1⟩).elim
    | range _ _ _ _ => rfl
  | network h1 h2 h3 h4 h5 =>
    cases h' with
    | check k1 => exact (k1 ⟨_, h1⟩).elim
    | noPrefix _ k2 => exact (k2.not_spells h2).elim
    | shape k1 k2 k3 =>
      obtain rfl := h2.unique k2
      exact (k3 ⟨_, _, _, h3, h4, check_unique H k1 h1⟩).elim
    | network _ _ _ _ _ => rfl
    | range k1 k2 k3 k4 =>
      obtain rfl := h2.unique k2
      exact (h5 (split (p1 := []) (p2 := []) h1 k1 h3)).elim
  | range h1 h2 h3 h4 =>
    cases h' with
    | check _ => rfl
    | noPrefix _ k2 => exact (k2.not_spells h2).elim
    | shape _ _ _ => rfl
    | network k1 k2 k3 k4 k5 =>
      obtain rfl := h2.unique k2
      exact (k5 (split (p1 := []) (p2 := []) k1 h1 k3)).elim
    | range _ _ _ _ => rfl

theorem Spec.CombineRefused.unique {f : Int → Int → Int} {st : State} {p q : Ptr} {e e' : GoError} (h : CombineRefused f st p q e)
    (h' : CombineRefused f st p q e') : e = e' := by
  obtain ⟨a, b, h1, h2, h3⟩ := h
  obtain ⟨a', b', k1, k2, k3⟩ := h'
  cases h1.symm.trans k1
  cases h2.symm.trans k2
  rcases h3 with ⟨h3, rfl⟩ | ⟨h3, h4, rfl⟩ | ⟨h3, h4, -, rfl⟩ <;> rcases k3 with ⟨k3, rfl⟩ | ⟨k3, k4, rfl⟩ | ⟨k3, k4, -, rfl⟩ <;>
    first | rfl | exact absurd ‹a.Network = b.Network› ‹_› | exact absurd ‹a.WIF = b.WIF› ‹_›

theorem Spec.PubRefused.unique {s : GoString} {e e' : GoError} (h : PubRefused s e) (h' : PubRefused s e') : e = e' := by
  rcases h with h | ⟨ser, h1, h2, rfl⟩ | ⟨ser, h1, h2, -, rfl⟩ <;> rcases h' with k | ⟨ser', k1, k2, rfl⟩ | ⟨ser', k1, k2, -, rfl⟩
  · exact h.unique k
  · exact (h.not_spells k1).elim
  · exact (h.not_spells k1).elim
  · exact (k.not_spells h1).elim
  · rfl
  · obtain rfl := h1.unique k1
    exact (h2 k2).elim
  · exact (k.not_spells h1).elim
  · obtain rfl := h1.unique k1
    exact (k2 h2).elim
  · rfl

/-- C140: a call has one error at most. -/
theorem C140_unique (H : Hashes) (st : State) (r : Request) (e e' : GoError) (h : FixedFails H st r e) (h' : FixedFails H st r e') :
    e = e' := by
  have here : ∀ {network : Ptr} {net : Network}, loadNet st.heap network = none → NetAt st network net → False := by
    intro network net h1 h2
    cases h1.symm.trans h2
  cases r with
  | privateFromWIF w network =>
    rcases h with ⟨h1, rfl⟩ | ⟨net, h1, h2⟩ <;> rcases h' with ⟨k1, rfl⟩ | ⟨net', k1, k2⟩
    · rfl
    · exact (here h1 k1).elim
    · exact (here k1 h1).elim
    · cases h1.symm.trans k1
      exact h2.unique k2
  | privateFromHex t network =>
    rcases h with ⟨h1, rfl⟩ | ⟨net, h1, h2⟩ <;> rcases h' with ⟨k1, rfl⟩ | ⟨net', k1, k2⟩
    · rfl
    · exact (here h1 k1).elim
    · exact (here k1 h1).elim
    · cases h1.symm.trans k1
      rcases h2 with ⟨h2, rfl⟩ | ⟨h2, h3⟩ <;> rcases k2 with ⟨k2, rfl⟩ | ⟨k2, k3⟩
      · rfl
      · exact (h2 k2).elim
      · exact (k2 h2).elim
      · exact h3.unique k3
  | addPrivateKeys p q => exact Spec.CombineRefused.unique (f := (· + ·)) h h'
  | multiplyPrivateKeys p q => exact Spec.CombineRefused.unique (f := (· * ·)) h h'
  | publicFromHex s network =>
    rcases h with ⟨h1, rfl⟩ | ⟨h1, h2⟩ <;> rcases h' with ⟨k1, rfl⟩ | ⟨k1, k2⟩
    · rfl
    · exact (k1 h1).elim
    · exact (h1 k1).elim
    · exact h2.unique k2
  | address p c =>
    obtain ⟨k, net, h1, h2, h3⟩ := h
    obtain ⟨k', net', k1, k2, k3⟩ := h'
    cases h1.symm.trans k1
    cases h2.symm.trans k2
    exact h3.unique k3
  | addPublicKeys p q c =>
    obtain ⟨a, b, h1, h2, h3⟩ := h
    obtain ⟨a', b', k1, k2, k3⟩ := h'
    cases h1.symm.trans k1
    cases h2.symm.trans k2
    rcases h3 with ⟨h3, rfl⟩ | ⟨h3, -, rfl⟩ <;> rcases k3 with ⟨k3, rfl⟩ | ⟨k3, -, rfl⟩
    · rfl
    · exact (h3 k3).elim
    · exact (k3 h3).elim
    · rfl
  | newMnemonic words wl =>
    have no : ∀ c : Nat, 4 ≤ c → c ≤ 8 → words = 3 * c → words ∉ [(12 : Int), 15, 18, 21, 24] → False := by
      intro c h4 h8 hw h
      simp only [List.mem_cons, List.not_mem_nil, or_false] at h
      omega
    rcases h with ⟨h1, rfl⟩ | ⟨h1, h2, rfl⟩ | ⟨h1, ⟨c, h2, h3, h4, -⟩, rfl⟩ <;>
      rcases h' with ⟨k1, rfl⟩ | ⟨k1, k2, rfl⟩ | ⟨k1, ⟨d, k2, k3, k4, -⟩, rfl⟩ <;>
      first | rfl | exact (k1 h1).elim | exact (h1 k1).elim | exact (no c h2 h3 h4 k2).elim | exact (no d k2 k3 k4 h2).elim
  | newSeedFromMnemonic mn pa wl =>
    rcases h with ⟨h1, rfl⟩ | ⟨h1, ws, h2, h3, rfl, h4⟩ <;> rcases h' with ⟨k1, rfl⟩ | ⟨k1, ws', k2, k3, k4, k5⟩
    · rfl
    · exact (h1 k1).elim
    · exact (k1 h1).elim
    · have e := congrArg splitSpace k4
      rw [splitSpace_phraseText h2 h3, splitSpace_phraseText k2 k3] at e
      subst e
      rcases h4 with ⟨⟨w, h4, h5⟩, rfl⟩ | ⟨h4, h5, rfl⟩ | ⟨h4, h5, -, rfl⟩ <;>
        rcases k5 with ⟨⟨w', k4, k5⟩, rfl⟩ | ⟨k4, k5, rfl⟩ | ⟨k4, k5, -, rfl⟩ <;>
        first | rfl | exact (h5 (k4 w h4)).elim | exact (k5 (h4 w' k4)).elim | exact (h5 k5).elim | exact (k5 h5).elim
  | checkWIF w => exact h.elim
  | generatePrivateKey network => exact h.elim
  | getPublicKey p => exact h.elim
  | format p c => exact h.elim

/-! ## The errors of the functions -/

section
variable (H : Hashes) (E : EcdsaM)

/-- The error of the repaired `PrivateFromHex`. -/
theorem fixed_hex_refused (n : Nat) (hexa : GoString) (network : Ptr) (net : Network) (st : State) (hnet : NetAt st network net)
    (hN : loadInt st.heap st.heap.curve.N = some (Spec.n : Int)) : ∃ vs st',
      runFunc H E repaired (n + 1) 0 (id! "PrivateFromHex") [.str hexa, .net network] st = .ok vs st' ∧
      ∀ v e, vs = [v, .err (some e)] → HexRefused net hexa e := by
  obtain ⟨a, rfl⟩ : ∃ a, network = some a := by cases network with
    | none => cases hnet
    | some a => exact ⟨a, rfl⟩
  rw [runFunc_succ H E repaired_PrivateFromHex _ rfl]
  unfold rPrivateFromHex
  go_run
  by_cases hl : hexa.length = 64
  case neg =>
    have hl' : ¬ (hexa.length : Int) = 64 := by omega
    go_run [hl']
    refine ⟨_, _, rfl, ?_⟩
    rintro v e ⟨⟩
    exact .inl ⟨fun h => hl h.1, rfl⟩
  have hl' : (hexa.length : Int) = 64 := by omega
  go_run [hl']
  have hr := reads_bigSetString hexa
  rcases hv : bigSetString hexa 16 with _ | v
  · rw [hv] at hr
    go_run
    refine ⟨_, _, rfl, ?_⟩
    rintro v e ⟨⟩
    exact .inl ⟨fun h => h.2.elim fun z h => hr z h.1, rfl⟩
  have only : ∀ {z : Int}, IsNumeral hexa z → v = z := fun h => Option.some.inj (hv.symm.trans h.eq)
  rw [hv] at hr
  go_run [load_mid]
  by_cases h1 : v < 1
  · go_run [intCmp_neg, h1]
    refine ⟨_, _, rfl, ?_⟩
    rintro v e ⟨⟩
    refine .inl ⟨?_, rfl⟩
    rintro ⟨-, z, h2, h3, -⟩
    obtain rfl := only h2
    omega
  go_run [intCmp_neg, h1, load_mid, load_old2 hN]
  by_cases h3 : v < Spec.n
  case neg =>
    go_run [intCmp_neg, h3]
    refine ⟨_, _, rfl, ?_⟩
    rintro v e ⟨⟩
    refine .inl ⟨?_, rfl⟩
    rintro ⟨-, z, h2, -, h4⟩
    obtain rfl := only h2
    exact h3 h4
  have hs : ScalarText hexa := ⟨hl, v, hr, by omega, h3⟩
  go_run [intCmp_neg, h3]
  have hnet : st.heap.nets[a]? = some net := hnet
  rw [hnet]
  go_run
  rcases hd : hexDecode (net.PrivKeyPrefix ++ hexa) with b | e | p
  case err =>
    go_run
    refine ⟨_, _, rfl, ?_⟩
    rintro v e ⟨⟩
    exact .inr ⟨hs, (hexDecode_err_iff _ _).1 hd⟩
  case panic => exact (hexDecode_ne_panic _ _ hd).elim
  go_run
  rw [slice_doubleHash]
  go_run
  rw [hexDecode_of_spells ((hexDecode_eq_ok.1 hd).append (spells_hexEncode _))]
  go_run
  exact ⟨_, _, rfl, nofun⟩

theorem wifRefused_iff {net : Network} {wif : GoString} {e : GoError} : WifRefused H.sha256 net wif e ↔ WhyWif H.sha256 net wif e := by
  constructor
  · intro h
    cases h with
    | check h => exact .check h
    | noPrefix h1 h2 => exact .noPrefix h1 ((hexDecode_err_iff _ _).2 h2)
    | shape h1 h2 h3 => exact .shape h1 h2 h3
    | network h1 h2 h3 h4 h5 => exact .network h1 h2 h3 h4 h5
    | range h1 h2 h3 h4 => exact .range h1 h2 h3 h4
  · intro h
    cases h with
    | check h => exact .check h
    | noPrefix h1 h2 => exact .noPrefix h1 ((hexDecode_err_iff _ _).1 h2)
    | shape h1 h2 h3 => exact .shape h1 h2 h3
    | network h1 h2 h3 h4 h5 => exact .network h1 h2 h3 h4 h5
    | range h1 h2 h3 h4 => exact .range h1 h2 h3 h4

theorem not_hexRefused {net : Network} {hexa : GoString} {pre body : Bytes} (h : KeyText net hexa pre body) (e : GoError) :
    ¬ HexRefused net hexa e := by
  obtain ⟨h1, h2, h3, h4, h5⟩ := h
  have hl := h2.length
  have hne : hexa ≠ [] := by
    rintro rfl
    rw [List.length_nil] at hl
    omega
  rintro (⟨h, -⟩ | ⟨-, h⟩)
  · have hr := reads_bigSetString hexa
    rw [bigSetString_of_spells h2 hne] at hr
    exact h ⟨by omega, _, hr, by exact_mod_cast h4, by exact_mod_cast h5⟩
  · exact h.not_spells (h1.append h2)

theorem pubText_shape {s : GoString} {c : Bool} {x y : Nat} (h : PubText s c x y) : ∃ ser, Spells s ser ∧ PubShape ser := by
  obtain ⟨-, ser, hs, xb, yb, lx, ly, -, -, rfl⟩ := h
  refine ⟨_, hs, ?_⟩
  cases c
  · exact .inl ⟨by simp [lx, ly], rfl⟩
  · refine .inr ⟨by simp [lx], ?_⟩
    simp only [if_true, List.head?_cons]
    split <;> simp

theorem not_pubRefused {s : GoString} {c : Bool} {x y : Nat} (h : PubText s c x y) (e : GoError) : ¬ PubRefused s e := by
  obtain ⟨ser, h1, h2⟩ := pubText_shape h
  rintro (k | ⟨ser', k1, k2, -⟩ | ⟨ser', -, -, k, -⟩)
  · exact k.not_spells h1
  · obtain rfl := h1.unique k1
    exact k2 h2
  · exact k ⟨c, x, y, h⟩

end

section
variable {H : Hashes} {E : EcdsaM} {V : Ecdsa} (hE : Pkg E) (hV : E.Refines V) (hC : EcdsaContract V) {nets : List Network} {st : State}
  {ps qs : List Ptr} (hr : FixedRun H E nets st ps qs)
include hE hV hC hr

theorem fixed_end (r : Request) (ht : Typed st ps qs r)
    (hwl : ∀ mn pa wl, r = .newSeedFromMnemonic mn pa wl → (wl.getD []).length = 2048 → IsWordlist (wl.getD [])) :
    ∃ o, r.EndsFixed H E st o ∧ ((∃ v e st', o = .ok [v, .err (some e)] st' ∧ FixedFails H st r e) ∨
      ((∀ e, ¬ FixedFails H st r e) ∧ (∀ v e st', o ≠ .ok [v, .err (some e)] st') ∧ (FixedAccepts H st r ∨ ∃ network, r = .generatePrivateKey network))) := by
  have hs := hr.sound hE hV hC
  have known : ∀ {network : Ptr} {net : Network}, NetAt st network net → loadNet st.heap network ≠ none := by
    intro network net h1 h2
    cases h2.symm.trans h1
  have one : ∀ {a : Value} {s : State} (v : Value) (e : GoError) (st' : State), (Out.ok [a] s : Out (List Value)) ≠ .ok [v, .err (some e)] st' := by
    intro a s v e st' h
    simp at h
  have two : ∀ {a : Value} {s : State} (v : Value) (e : GoError) (st' : State),
      (Out.ok [a, .err none] s : Out (List Value)) ≠ .ok [v, .err (some e)] st' := by
    intro a s v e st' h
    simp at h
  have flag : ∀ {a : Value} {b : Bool} {s : State} (v : Value) (e : GoError) (st' : State),
      (Out.ok [a, .bool b] s : Out (List Value)) ≠ .ok [v, .err (some e)] st' := by
    intro a b s v e st' h
    simp at h
  have crash : ∀ {p : GoPanic} {s : State} (v : Value) (e : GoError) (st' : State),
      (Out.panic p s : Out (List Value)) ≠ .ok [v, .err (some e)] st' := by
    intro p s v e st' h
    cases h
  cases r with
  | checkWIF wif =>
    obtain ⟨b, st1, he, -⟩ := C127_check H E st wif
    exact ⟨_, he, .inr ⟨fun _ => id, one, .inl trivial⟩⟩
  | privateFromWIF wif network =>
    rcases ht with rfl | ⟨net, hn⟩
    · obtain ⟨o, he, st1, rfl, -⟩ := (C127_nil_network H E st wif).2
      exact ⟨_, he, .inl ⟨_, _, _, rfl, .inl ⟨rfl, rfl⟩⟩⟩
    obtain ⟨o, he, ⟨pre, body, c, hw, st1, a, rfl, -⟩ | ⟨-, e, hy, st1, rfl, -⟩⟩ := C127_import_wif H E st hs.order wif network net hn
    · refine ⟨_, he, .inr ⟨?_, two, .inl ⟨net, pre, body, c, hn, hw⟩⟩⟩
      rintro e (⟨h, -⟩ | ⟨net', hn', h⟩)
      · exact known hn h
      · cases hn.symm.trans hn'
        exact ((wifRefused_iff H).1 h).not_wif H ⟨pre, body, c, hw⟩
    · exact ⟨_, he, .inl ⟨_, _, _, rfl, .inr ⟨net, hn, (wifRefused_iff H).2 hy⟩⟩⟩
  | privateFromHex hexa network =>
    rcases ht with rfl | ⟨net, hn⟩
    · obtain ⟨o, he, st1, rfl, -⟩ := (C127_nil_network H E st hexa).1
      exact ⟨_, he, .inl ⟨_, _, _, rfl, .inl ⟨rfl, rfl⟩⟩⟩
    obtain ⟨o, he, ⟨pre, body, wif, hw, st1, a, rfl, -⟩ | ⟨-, e, -, st1, rfl, -⟩⟩ := C127_import_hex H E st hs.order hexa network net hn
    · refine ⟨_, he, .inr ⟨?_, two, .inl ⟨net, pre, body, hn, hw⟩⟩⟩
      rintro e (⟨h, -⟩ | ⟨net', hn', h⟩)
      · exact known hn h
      · cases hn.symm.trans hn'
        exact not_hexRefused hw e h
    · obtain ⟨vs, st2, h1, h2⟩ := fixed_hex_refused H E 0 hexa network net st hn hs.order
      cases Ends.unique he (.of h1 nofun)
      exact ⟨_, he, .inl ⟨_, _, _, rfl, .inr ⟨net, hn, h2 _ _ rfl⟩⟩⟩
  | generatePrivateKey network =>
    refine (fun ⟨o, he, ho⟩ => ⟨o, he, .inr ⟨fun _ => id, ho, .inr ⟨_, rfl⟩⟩⟩ :
      (∃ o, (Request.generatePrivateKey network).EndsFixed H E st o ∧ ∀ v e st', o ≠ .ok [v, .err (some e)] st') → _) ?_
    rcases ht with rfl | ⟨net, hn⟩
    · exact ⟨_, C127_generate_no_network H E st none MainNetwork (.inl rfl), one⟩
    by_cases hp : ∃ pre, Spells net.PrivKeyPrefix pre
    case neg => exact ⟨_, C127_generate_no_network H E st network net (.inr ⟨hn, hp⟩), one⟩
    obtain ⟨pre, hp⟩ := hp
    obtain ⟨o, he, ⟨body, rest, wif, st1, a, -, rfl, -⟩ | ⟨-, st1, rfl, -⟩⟩ := C127_generate H E st hs.order network net hn pre hp
    · exact ⟨_, he, one⟩
    · exact ⟨_, he, crash⟩
  | addPrivateKeys p q =>
    obtain ⟨nw1, net1, t1, w1, pre1, b1, c1, k1, n1, s1⟩ := hs.privs p ht.1
    obtain ⟨nw2, net2, t2, w2, pre2, b2, c2, k2, n2, s2⟩ := hs.privs q ht.2
    by_cases hne : net1 = net2
    case neg =>
      exact ⟨_, (C127_other_networks H E k1 k2 n1 n2 hne).1, .inl ⟨_, _, _, rfl, _, _, k1.priv n1, k2.priv n2,
        .inl ⟨fun h => hne (Option.some.inj h), rfl⟩⟩⟩
    subst hne
    obtain rfl := s1.unique s2
    obtain ⟨o, he, ⟨hw, body, wif, hb, st1, a, rfl, -, -, ha⟩ | ⟨hw, st1, rfl, -⟩ | ⟨hw, h0, st1, rfl, -⟩⟩ := C127_add H E hs.order k1 k2 n1 n2 s1
    · have hlow := ha.low
      have hne0 : ((bigEndian b1 : Int) + (bigEndian b2 : Int)) % (Spec.n : Int) ≠ 0 := by
        rw [hb] at hlow
        intro h
        have : (((bigEndian b1 + bigEndian b2) % Spec.n : Nat) : Int) = 0 := by push_cast; exact h
        omega
      refine ⟨_, he, .inr ⟨?_, two, .inl ⟨_, _, _, _, k1.priv n1, k2.priv n2, rfl, rfl, rfl, hw, hne0⟩⟩⟩
      rintro e ⟨x, y, h1, h2, h3⟩
      cases h1.symm.trans (k1.priv n1)
      cases h2.symm.trans (k2.priv n2)
      rcases h3 with ⟨h3, -⟩ | ⟨-, h3, -⟩ | ⟨-, -, ⟨x, y, h4, h5, h6⟩, -⟩
      · exact h3 rfl
      · exact hw h3
      · cases h4
        cases h5
        exact hne0 h6
    · exact ⟨_, he, .inl ⟨_, _, _, rfl, _, _, k1.priv n1, k2.priv n2, .inr (.inl ⟨rfl, hw, rfl⟩)⟩⟩
    · exact ⟨_, he, .inl ⟨_, _, _, rfl, _, _, k1.priv n1, k2.priv n2, .inr (.inr ⟨rfl, hw, ⟨_, _, rfl, rfl, by
        have : (((bigEndian b1 + bigEndian b2) % Spec.n : Nat) : Int) = 0 := by rw [h0]; rfl
        push_cast at this
        exact this⟩, rfl⟩)⟩⟩
  | multiplyPrivateKeys p q =>
    obtain ⟨nw1, net1, t1, w1, pre1, b1, c1, k1, n1, s1⟩ := hs.privs p ht.1
    obtain ⟨nw2, net2, t2, w2, pre2, b2, c2, k2, n2, s2⟩ := hs.privs q ht.2
    by_cases hne : net1 = net2
    case neg =>
      exact ⟨_, (C127_other_networks H E k1 k2 n1 n2 hne).2, .inl ⟨_, _, _, rfl, _, _, k1.priv n1, k2.priv n2,
        .inl ⟨fun h => hne (Option.some.inj h), rfl⟩⟩⟩
    subst hne
    obtain rfl := s1.unique s2
    obtain ⟨o, he, ⟨hw, body, wif, hb, st1, a, rfl, -, -, ha⟩ | ⟨hw, st1, rfl, -⟩⟩ := C127_multiply H E hs.order k1 k2 n1 n2 s1
    · have hlow := ha.low
      have hne0 : ((bigEndian b1 : Int) * (bigEndian b2 : Int)) % (Spec.n : Int) ≠ 0 := by
        rw [hb] at hlow
        intro h
        have : ((bigEndian b1 * bigEndian b2 % Spec.n : Nat) : Int) = 0 := by push_cast; exact h
        omega
      refine ⟨_, he, .inr ⟨?_, two, .inl ⟨_, _, _, _, k1.priv n1, k2.priv n2, rfl, rfl, rfl, hw, hne0⟩⟩⟩
      rintro e ⟨x, y, h1, h2, h3⟩
      cases h1.symm.trans (k1.priv n1)
      cases h2.symm.trans (k2.priv n2)
      rcases h3 with ⟨h3, -⟩ | ⟨-, h3, -⟩ | ⟨-, -, ⟨x, y, h4, h5, h6⟩, -⟩
      · exact h3 rfl
      · exact hw h3
      · cases h4
        cases h5
        exact hne0 h6
    · exact ⟨_, he, .inl ⟨_, _, _, rfl, _, _, k1.priv n1, k2.priv n2, .inr (.inl ⟨rfl, hw, rfl⟩)⟩⟩
  | publicFromHex hexa network =>
    rcases ht with rfl | ⟨net, hn⟩
    · obtain ⟨o, he, st1, rfl, -⟩ := C129_nil_network H E hexa st
      exact ⟨_, he, .inl ⟨_, _, _, rfl, .inl ⟨rfl, rfl⟩⟩⟩
    have hne : network ≠ none := by
      rintro rfl
      cases hn
    obtain ⟨o, he, ⟨c, x, y, hw, st1, a, rfl, -⟩ | ⟨hno, e, ⟨st1, rfl, -⟩, hy⟩⟩ := C129_import H hE hV hC st hs.curve hexa network hne
    · refine ⟨_, he, .inr ⟨?_, two, .inl ⟨hne, c, x, y, hw⟩⟩⟩
      rintro e (⟨h, -⟩ | ⟨-, h⟩)
      · exact known hn h
      · exact not_pubRefused hw e h
    · refine ⟨_, he, .inl ⟨_, _, _, rfl, .inr ⟨known hn, ?_⟩⟩⟩
      cases hy with
      | decode h => exact .inl ((hexDecode_err_iff _ _).1 h)
      | shape h1 h2 => exact .inr (.inl ⟨_, h1, h2, rfl⟩)
      | point h1 h2 => exact .inr (.inr ⟨_, h1, h2, hno, rfl⟩)
  | getPublicKey p =>
    obtain ⟨nw, net, t, w, pre, b, c, k, hn, -⟩ := hs.privs p ht
    obtain ⟨x, y, q, st1, he, -⟩ := C129_public_key H hE hV hC EC.G EC.G_coords st hs.curve k
    exact ⟨_, he, .inr ⟨fun _ => id, flag, .inl trivial⟩⟩
  | format q c =>
    obtain ⟨nw, net, x, y, k, hn⟩ := hs.pubs q ht
    obtain ⟨s, he, -⟩ := C129_format H (E := E) st k c
    exact ⟨_, he, .inr ⟨fun _ => id, one, .inl trivial⟩⟩
  | address q c =>
    obtain ⟨nw, net, x, y, k, hn⟩ := hs.pubs q ht
    by_cases hp : ∃ pre, Spells net.PubKeyHashPrefix pre
    · obtain ⟨pre, hp⟩ := hp
      obtain ⟨s, ser, st1, he, -⟩ := C129_address H (E := E) st k hn hp c
      refine ⟨_, he, .inr ⟨?_, two, .inl ⟨_, net, pre, k.pub hn, rfl, hp⟩⟩⟩
      rintro e ⟨k', net', h1, h2, h3⟩
      cases h1.symm.trans (k.pub hn)
      cases h2
      exact h3.not_spells hp
    · obtain ⟨ser, e, st1, -, hd, he, -⟩ := C129_no_address H (E := E) st k hn hp c
      refine ⟨_, he, .inl ⟨_, _, _, rfl, _, net, k.pub hn, rfl, ?_⟩⟩
      refine (hexFault_append ?_ ?_ e).1 ((hexDecode_err_iff _ _).1 hd)
      · exact ((exists_spells_iff _).1 ⟨_, spells_hexEncode _⟩).1
      · rw [length_hexEncode]
        omega
  | addPublicKeys p q c =>
    obtain ⟨nw1, net1, x1, y1, k1, n1⟩ := hs.pubs p ht.1
    obtain ⟨nw2, net2, x2, y2, k2, n2⟩ := hs.pubs q ht.2
    have href := C129_add_refused H (E := E) st k1 k2 n1 n2 c
    by_cases hne : net1 = net2
    case neg => exact ⟨_, href.1 hne, .inl ⟨_, _, _, rfl, _, _, k1.pub n1, k2.pub n2, .inl ⟨fun h => hne (Option.some.inj h), rfl⟩⟩⟩
    by_cases hx : x1 = x2
    · exact ⟨_, href.2 hne hx, .inl ⟨_, _, _, rfl, _, _, k1.pub n1, k2.pub n2, .inr ⟨congrArg some hne, by rw [hx], rfl⟩⟩⟩
    subst hne
    obtain ⟨P, hP⟩ := (EC.onCurve_iff _ _).1 k1.point
    obtain ⟨Q, hQ⟩ := (EC.onCurve_iff _ _).1 k2.point
    obtain ⟨o, x, y, he, -, st1, a, rfl, -⟩ := C129_add H hE hV hC st hs.curve k1 k2 n1 n2 hP hQ hx c
    have hx' : (some (x1 : Int)) ≠ some (x2 : Int) := fun h => hx (by exact_mod_cast Option.some.inj h)
    refine ⟨_, he, .inr ⟨?_, two, .inl ⟨_, _, k1.pub n1, k2.pub n2, rfl, hx'⟩⟩⟩
    rintro e ⟨a, b, h1, h2, h3⟩
    cases h1.symm.trans (k1.pub n1)
    cases h2.symm.trans (k2.pub n2)
    rcases h3 with ⟨h3, -⟩ | ⟨-, h3, -⟩
    · exact h3 rfl
    · exact hx' h3
  | newMnemonic words wl =>
    obtain ⟨o, he, ⟨c, ws, st1, c1, c2, hw, hl, hrd, -, rfl, -⟩ | ⟨-, st1, e, hy, rfl, -⟩⟩ := C128_generate H E words wl st
    · refine ⟨_, he, .inr ⟨?_, two, .inl ⟨c, c1, c2, by omega, hl, hrd⟩⟩⟩
      rintro e (⟨h, -⟩ | ⟨-, h, -⟩ | ⟨-, ⟨d, -, -, h1, h2⟩, -⟩)
      · exact h hl
      · simp only [List.mem_cons, List.not_mem_nil, or_false] at h
        omega
      · omega
    · refine ⟨_, he, .inl ⟨_, _, _, rfl, ?_⟩⟩
      cases hy with
      | list h => exact .inl ⟨h, rfl⟩
      | count h1 h2 => exact .inr (.inl ⟨h1, h2, rfl⟩)
      | random h1 h2 h3 h4 h5 => exact .inr (.inr ⟨h1, ⟨_, h2, h3, by omega, h5⟩, rfl⟩)
  | newSeedFromMnemonic mn pa wl =>
    obtain ⟨st1, e, he, -, h1, h2, h3⟩ := C128_accept H E mn pa wl st
    cases e with
    | none =>
      have hl : (wl.getD []).length = 2048 := by
        by_contra h
        exact h2 h rfl
      have hph := (h1 (hwl _ _ _ rfl hl)).1 rfl
      refine ⟨_, he, .inr ⟨?_, two, .inl hph⟩⟩
      have hac := (isPhrase_iff H (hwl _ _ _ rfl hl) mn).1 hph
      rintro e (⟨h, -⟩ | ⟨-, ws, k1, k2, rfl, h⟩)
      · exact h hl
      · have hcount := hac.count H
        obtain ⟨ent, -, hsp⟩ := hac
        rw [splitSpace_phraseText k1 k2] at hcount hsp
        rcases h with ⟨⟨w, h, h'⟩, -⟩ | ⟨-, h, -⟩ | ⟨-, -, h, -⟩
        · exact h' (hsp.mem _ h)
        · exact h hcount
        · exact h hph
    | some e =>
      refine ⟨_, he, .inl ⟨_, _, _, rfl, ?_⟩⟩
      have hw := h3 e rfl
      cases hw with
      | list h => exact .inl ⟨h, rfl⟩
      | word hl k1 k2 =>
        exact .inr ⟨hl, splitSpace mn, splitSpace_ne_nil mn, splitSpace_noSpace mn, (phraseText_splitSpace mn).symm, .inl ⟨⟨_, k1, k2⟩, rfl⟩⟩
      | count hl k1 k2 =>
        exact .inr ⟨hl, splitSpace mn, splitSpace_ne_nil mn, splitSpace_noSpace mn, (phraseText_splitSpace mn).symm,
          .inr (.inl ⟨k1, k2, rfl⟩)⟩
      | checksum hl k1 k2 k3 =>
        have hx := hwl _ _ _ rfl hl
        exact .inr ⟨hl, splitSpace mn, splitSpace_ne_nil mn, splitSpace_noSpace mn, (phraseText_splitSpace mn).symm,
          .inr (.inr ⟨k1, k2, fun h => k3 hx.nodup ((isPhrase_iff H hx mn).1 h), rfl⟩)⟩

/-- C140: a call of the repaired text returns an error exactly if the table says so. -/
theorem C140_error_table (r : Request) (ht : Typed st ps qs r)
    (hwl : ∀ mn pa wl, r = .newSeedFromMnemonic mn pa wl → (wl.getD []).length = 2048 → IsWordlist (wl.getD [])) (e : GoError) :
    (∃ v st', r.EndsFixed H E st (.ok [v, .err (some e)] st')) ↔ FixedFails H st r e := by
  obtain ⟨o, he, ⟨v, e', st', rfl, hf⟩ | ⟨hno, ho, -⟩⟩ := fixed_end hE hV hC hr r ht hwl
  · constructor
    · rintro ⟨v2, st2, h⟩
      cases Ends.unique he h
      exact hf
    · intro h
      obtain rfl := C140_unique H st r _ _ h hf
      exact ⟨v, st', he⟩
  · constructor
    · rintro ⟨v2, st2, h⟩
      cases Ends.unique he h
      exact (ho _ _ _ rfl).elim
    · exact fun h => (hno e h).elim

/-- C140: every call but `GeneratePrivateKey` succeeds or returns an error, as the tables say, and no call is in both. -/
theorem C140_total (r : Request) (ht : Typed st ps qs r)
    (hwl : ∀ mn pa wl, r = .newSeedFromMnemonic mn pa wl → IsWordlist (wl.getD [])) :
    ((∀ network, r ≠ .generatePrivateKey network) → FixedAccepts H st r ∨ ∃ e, FixedFails H st r e) ∧
    ∀ e, FixedFails H st r e → ¬ FixedAccepts H st r := by
  have hwl' := fun mn pa wl e (_ : (wl.getD []).length = 2048) => hwl mn pa wl e
  obtain ⟨o, he, h⟩ := fixed_end hE hV hC hr r ht hwl'
  constructor
  · intro hg
    rcases h with ⟨v, e, st', rfl, hf⟩ | ⟨-, -, ha | ⟨network, rfl⟩⟩
    · exact .inr ⟨e, hf⟩
    · exact .inl ha
    · exact (hg network rfl).elim
  · intro e hf ha
    obtain ⟨v, st', h1⟩ := (C140_error_table hE hV hC hr r ht hwl' e).2 hf
    obtain ⟨vs, st2, g, h2, h3⟩ := (C134_fixed_table hE hV hC hr r ht hwl).2 ha
    cases Ends.unique h1 h2
    cases v <;> cases h3

/-- C140: the repaired `GeneratePrivateKey` returns nil exactly if there is no network or its prefix is not hexadecimal, and panics
exactly if there is one with a hexadecimal prefix and the random bytes hold no key; the panic is that of the random source. -/
theorem C140_generate (network : Ptr) (ht : Typed st ps qs (.generatePrivateKey network)) :
    ((∃ st', (Request.generatePrivateKey network).EndsFixed H E st (.ok [.priv none] st')) ↔
      ¬ ∃ net pre, NetAt st network net ∧ Spells net.PrivKeyPrefix pre) ∧
    (∀ pn, (∃ st', (Request.generatePrivateKey network).EndsFixed H E st (.panic pn st')) ↔
      pn = .explicit .randRead ∧ (∃ net pre, NetAt st network net ∧ Spells net.PrivKeyPrefix pre) ∧ ¬ ∃ body rest, FirstKey st.rd body rest) := by
  have hs := hr.sound hE hV hC
  have none : ∀ {net0}, (network = none ∨ NetAt st network net0 ∧ ¬ ∃ pre, Spells net0.PrivKeyPrefix pre) →
      (¬ ∃ net pre, NetAt st network net ∧ Spells net.PrivKeyPrefix pre) →
      ((∃ st', (Request.generatePrivateKey network).EndsFixed H E st (.ok [.priv none] st')) ↔
        ¬ ∃ net pre, NetAt st network net ∧ Spells net.PrivKeyPrefix pre) ∧
      (∀ pn, (∃ st', (Request.generatePrivateKey network).EndsFixed H E st (.panic pn st')) ↔
        pn = .explicit .randRead ∧ (∃ net pre, NetAt st network net ∧ Spells net.PrivKeyPrefix pre) ∧
          ¬ ∃ body rest, FirstKey st.rd body rest) := by
    intro net0 h0 hno
    have he := C127_generate_no_network H E st network net0 h0
    refine ⟨⟨fun _ => hno, fun _ => ⟨_, he⟩⟩, fun pn => ⟨?_, fun h => (hno h.2.1).elim⟩⟩
    rintro ⟨st', h⟩
    cases Ends.unique he h
  rcases ht with rfl | ⟨net, hn⟩
  · refine none (net0 := MainNetwork) (.inl rfl) ?_
    rintro ⟨net, pre, h, -⟩
    cases h
  by_cases hp : ∃ pre, Spells net.PrivKeyPrefix pre
  case neg =>
    refine none (.inr ⟨hn, hp⟩) ?_
    rintro ⟨net', pre, h, h'⟩
    cases hn.symm.trans h
    exact hp ⟨pre, h'⟩
  obtain ⟨pre, hp⟩ := hp
  have yes : ∃ net pre, NetAt st network net ∧ Spells net.PrivKeyPrefix pre := ⟨net, pre, hn, hp⟩
  obtain ⟨o, he, ⟨body, rest, wif, st1, a, hf, rfl, -⟩ | ⟨hf, st1, rfl, -⟩⟩ := C127_generate H E st hs.order network net hn pre hp
  · refine ⟨⟨?_, fun h => (h yes).elim⟩, fun pn => ⟨?_, fun h => (h.2.2 ⟨body, rest, hf⟩).elim⟩⟩
    · rintro ⟨st', h⟩
      cases Ends.unique he h
    · rintro ⟨st', h⟩
      cases Ends.unique he h
  · refine ⟨⟨?_, fun h => (h yes).elim⟩, fun pn => ⟨?_, ?_⟩⟩
    · rintro ⟨st', h⟩
      cases Ends.unique he h
    · rintro ⟨st', h⟩
      cases Ends.unique he h
      exact ⟨rfl, yes, hf⟩
    · rintro ⟨rfl, -⟩
      exact ⟨_, he⟩

end

/-- Two calls that ask the same have the same line in the table of errors. -/
theorem fails_of_question {H : Hashes} {st st' : State} {r r' : Request} (hq : question st r = question st' r')
    (hrd : Draws r → st.rd = st'.rd) {e : GoError} (h : FixedFails H st r e) : FixedFails H st' r' e := by
  have one : ∀ {network network' : Ptr} {net : Network}, loadNet st.heap network = loadNet st'.heap network' → NetAt st network net →
      NetAt st' network' net := fun e h => e.symm.trans h
  cases r with
  | privateFromWIF w network =>
    cases r' with
    | privateFromWIF w' network' =>
      obtain ⟨rfl, q⟩ := Question.privateFromWIF.inj hq
      exact h.imp (fun h => ⟨q.symm.trans h.1, h.2⟩) fun ⟨net, h1, h2⟩ => ⟨net, one q h1, h2⟩
    | _ => cases hq
  | privateFromHex t network =>
    cases r' with
    | privateFromHex t' network' =>
      obtain ⟨rfl, q⟩ := Question.privateFromHex.inj hq
      exact h.imp (fun h => ⟨q.symm.trans h.1, h.2⟩) fun ⟨net, h1, h2⟩ => ⟨net, one q h1, h2⟩
    | _ => cases hq
  | addPrivateKeys p q =>
    cases r' with
    | addPrivateKeys p' q' =>
      obtain ⟨q1, q2⟩ := Question.addPrivateKeys.inj hq
      obtain ⟨a, b, h1, h2, h3⟩ := h
      exact ⟨a, b, q1.symm.trans h1, q2.symm.trans h2, h3⟩
    | _ => cases hq
  | multiplyPrivateKeys p q =>
    cases r' with
    | multiplyPrivateKeys p' q' =>
      obtain ⟨q1, q2⟩ := Question.multiplyPrivateKeys.inj hq
      obtain ⟨a, b, h1, h2, h3⟩ := h
      exact ⟨a, b, q1.symm.trans h1, q2.symm.trans h2, h3⟩
    | _ => cases hq
  | publicFromHex s network =>
    cases r' with
    | publicFromHex s' network' =>
      obtain ⟨rfl, q⟩ := Question.publicFromHex.inj hq
      exact h.imp (fun h => ⟨q.symm.trans h.1, h.2⟩) fun h => ⟨fun h0 => h.1 (q.trans h0), h.2⟩
    | _ => cases hq
  | address p c =>
    cases r' with
    | address p' c' =>
      obtain ⟨q, rfl⟩ := Question.address.inj hq
      obtain ⟨k, net, h1, h2⟩ := h
      exact ⟨k, net, q.symm.trans h1, h2⟩
    | _ => cases hq
  | addPublicKeys p q c =>
    cases r' with
    | addPublicKeys p' q' c' =>
      obtain ⟨q1, q2, rfl⟩ := Question.addPublicKeys.inj hq
      obtain ⟨a, b, h1, h2, h3⟩ := h
      exact ⟨a, b, q1.symm.trans h1, q2.symm.trans h2, h3⟩
    | _ => cases hq
  | newMnemonic words wl =>
    cases r' with
    | newMnemonic words' wl' =>
      cases hq
      unfold FixedFails at h
      rw [hrd trivial] at h
      exact h
    | _ => cases hq
  | newSeedFromMnemonic mn pa wl =>
    cases r' with
    | newSeedFromMnemonic mn' pa' wl' =>
      obtain ⟨rfl, -, rfl⟩ := Question.newSeedFromMnemonic.inj hq
      exact h
    | _ => cases hq
  | checkWIF w => exact h.elim
  | generatePrivateKey network => exact h.elim
  | getPublicKey p => exact h.elim
  | format p c => exact h.elim

/-- C140: calls of the repaired text that ask the same return the same error, even in two runs with different networks and curve
packages. -/
theorem C140_same {H : Hashes} {E E' : EcdsaM} {V V' : Ecdsa} (hE : Pkg E) (hV : E.Refines V) (hC : EcdsaContract V) (hE' : Pkg E')
    (hV' : E'.Refines V') (hC' : EcdsaContract V') {nets nets' : List Network} {st st' : State} {ps qs ps' qs' : List Ptr}
    (hr : FixedRun H E nets st ps qs) (hr' : FixedRun H E' nets' st' ps' qs') (r r' : Request) (ht : Typed st ps qs r)
    (ht' : Typed st' ps' qs' r')
    (hwl : ∀ mn pa wl, r = .newSeedFromMnemonic mn pa wl → (wl.getD []).length = 2048 → IsWordlist (wl.getD []))
    (hq : question st r = question st' r') (hrd : Draws r → st.rd = st'.rd) (v : Value) (e : GoError) (s : State)
    (he : r.EndsFixed H E st (.ok [v, .err (some e)] s)) : ∃ v' s', r'.EndsFixed H E' st' (.ok [v', .err (some e)] s') := by
  refine (C140_error_table hE' hV' hC' hr' r' ht' ?_ e).2
    (fails_of_question hq hrd ((C140_error_table hE hV hC hr r ht hwl e).1 ⟨v, s, he⟩))
  rintro mn pa wl rfl
  cases r with
  | newSeedFromMnemonic mn' pa' wl' =>
    cases hq
    exact hwl _ _ _ rfl
  | _ => cases hq

/-! ## Cases -/

open Samples

/-- The number one with a plus sign, 64 characters. -/
def plusOne : GoString := 43 :: (List.replicate 62 48 ++ [49])

/-- C140: the number one with a plus sign is read as a number and refused for the sign, with its place in the error. -/
example (rd : Reader) : ∃ v st', (Request.privateFromHex plusOne (some 0)).EndsFixed realHashes pkg (ready rd)
    (.ok [v, .err (some (.hexInvalidByte 43))] st') := by
  obtain ⟨h1, -, h3, -⟩ := C127_init realHashes pkg rd
  have r0 : FixedRun realHashes pkg [] (ready rd) [] [] := .start (nets := []) h1
  refine (C140_error_table refPkg.1 refPkg.2.1 refPkg.2.2 r0 (.privateFromHex plusOne (some 0)) (.inr ⟨_, h3⟩) nofun _).2
    (.inr ⟨_, h3, .inr ⟨⟨by decide +kernel, 1, ?_, by decide, by decide +kernel⟩, (hexDecode_err_iff _ _).1 (by decide +kernel)⟩⟩)
  have hn := reads_bigSetString plusOne
  rw [show bigSetString plusOne 16 = some 1 by decide +kernel] at hn
  exact hn

/-- C140: without random bytes `GeneratePrivateKey` panics, and without a network it returns nil. -/
example : (∃ st', (Request.generatePrivateKey (some 0)).EndsFixed realHashes pkg (ready []) (.panic (.explicit .randRead) st')) ∧
    ∃ st', (Request.generatePrivateKey none).EndsFixed realHashes pkg (ready []) (.ok [.priv none] st') := by
  obtain ⟨h1, -, h3, -⟩ := C127_init realHashes pkg []
  have r0 : FixedRun realHashes pkg [] (ready []) [] [] := .start (nets := []) h1
  refine ⟨((C140_generate refPkg.1 refPkg.2.1 refPkg.2.2 r0 (some 0) (.inr ⟨_, h3⟩)).2 _).2 ⟨rfl, ⟨_, _, h3, main_prefix⟩, ?_⟩,
    (C140_generate refPkg.1 refPkg.2.1 refPkg.2.2 r0 none (.inl rfl)).1.2 ?_⟩
  · rintro ⟨body, rest, h⟩
    have := h.length
    exact absurd this (by simp [ready])
  · rintro ⟨net, pre, h, -⟩
    cases h

/-- C140: the key 1 is not added to itself, and its WIF for the main network is not imported for the test network. -/
example (rd : Reader) : ∃ st a b w, FixedRun realHashes pkg [] st [some a, some b] [] ∧
    (∃ v st', (Request.addPrivateKeys (some a) (some a)).EndsFixed realHashes pkg st (.ok [v, .err (some .identicalKeys)] st')) ∧
    (privAt st (some a)).map PrivateKey.WIF = some w ∧
    ∃ v st', (Request.privateFromWIF w (some 1)).EndsFixed realHashes pkg (ready rd) (.ok [v, .err (some .differentNetwork)] st') := by
  obtain ⟨st, a, b, h, hn, ⟨w1, k1⟩, w2, k2⟩ := fixed_case rd
  obtain ⟨h1, -, -, n1⟩ := C127_init realHashes pkg rd
  have r0 : FixedRun realHashes pkg [] (ready rd) [] [] := .start (nets := []) h1
  have t1 : Spells TestNetwork.PrivKeyPrefix [0xEF] := hexDecode_eq_ok.1 (by decide +kernel)
  exact ⟨st, a, b, w1, h, (C140_error_table refPkg.1 refPkg.2.1 refPkg.2.2 h (.addPrivateKeys (some a) (some a)) ⟨by simp, by simp⟩ nofun _).2
    ⟨_, _, k1.priv hn, k1.priv hn, .inr (.inl ⟨rfl, rfl, rfl⟩)⟩, by rw [k1.priv hn]; rfl,
    (C140_error_table refPkg.1 refPkg.2.1 refPkg.2.2 r0 (.privateFromWIF w1 (some 1)) (.inr ⟨_, n1⟩) nofun _).2
      (.inr ⟨_, n1, .network k1.wif t1 rfl k1.length (by decide)⟩)⟩

end Btc
