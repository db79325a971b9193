import Verif.Props.RepairSession
import Verif.Props.Results
import Verif.Props.RandomTests

/-!
# C132: what the repairs change, exactly

A call that succeeds with the repaired text is compared with the same call, in the same state, with the repository's text.
The table `Agrees` says when the repository's text returns the same, with the same random bytes left and the same log.
-/

namespace Btc

open Spec Mem Source

set_option linter.constructorNameAsVariable false

namespace Spec

/-- Specification: the call to the repository's text succeeds with the answer `g`, leaves the random bytes `rd` and the log
`log`. -/
def Answers (H : Hashes) (E : EcdsaM) (r : Request) (st : State) (g : Answer) (rd : Reader) (log : Log) : Prop :=
  ∃ vs st', r.Ends H E st (.ok vs st') ∧ view st' vs = some g ∧ st'.rd = rd ∧ st'.log = log

/-- Specification: the number made of two private keys has no leading zero digit, and their WIFs differ in more than
case. -/
def CombinesAlike (toLower : GoString → GoString) (f : Int → Int → Int) (st : State) (p q : Ptr) : Prop :=
  ∃ (a b : PrivateKey) (x y : Int), privAt st p = some a ∧ privAt st q = some b ∧ a.Key = some x ∧ b.Key = some y ∧
    toLower a.WIF ≠ toLower b.WIF ∧ 16 ^ 63 ≤ f x y % (Spec.n : Int)

/-- Specification: the table. -/
def Agrees (H : Hashes) (st : State) : Request → Prop
  | .checkWIF w => ¬ (w ≠ [] ∧ ∃ bs, bs.length < 4 ∧ IsBase58 bs w)
  | .privateFromWIF w network => ∃ net pre body c, NetAt st network net ∧ WifText H.sha256 net w pre body c ∧
      (pre ++ body ++ markOf c).drop 1 = body
  | .privateFromHex _ _ => True
  | .generatePrivateKey _ => ∃ body rest, FirstKey st.rd body rest ∧ 16 ^ 63 ≤ bigEndian body ∧ bigEndian body ≤ Spec.n - 2
  | .addPrivateKeys p q => CombinesAlike H.toLower (· + ·) st p q
  | .multiplyPrivateKeys p q => CombinesAlike H.toLower (· * ·) st p q
  | .publicFromHex _ _ => True
  | .getPublicKey _ => True
  | .format _ _ => True
  | .address _ _ => True
  | .addPublicKeys _ _ _ => True
  | .newMnemonic words _ => ∃ c : Nat, words = 3 * c ∧
      (bytesBits (st.rd.take (4 * c)) ++ appended H.sha256 (st.rd.take (4 * c)) c).reverse =
        bytesBits (st.rd.take (4 * c)) ++ (bytesBits (H.sha256 (st.rd.take (4 * c)))).take c
  | .newSeedFromMnemonic _ _ _ => False

end Spec

/-! ## Views -/

section
variable {sha : Bytes → Bytes} {st : State}

theorem KeyAt.priv {p network : Ptr} {net : Network} {hexa wif : GoString} {pre body : Bytes} {c : Bool}
    (h : KeyAt sha st p network hexa wif pre body c) (hn : NetAt st network net) :
    privAt st p = some ⟨some (bigEndian body : Int), hexa, wif, some net⟩ := by
  obtain ⟨ob, h1, h2, rfl, rfl, rfl⟩ := h.object
  unfold privAt
  rw [show loadPriv st.heap p = some ob from h1, Option.map_some, privValue, h2,
    show loadNet st.heap ob.Network = some net from hn]

theorem PubAt.pub {p network : Ptr} {net : Network} {x y : Nat} (h : PubAt st p network x y) (hn : NetAt st network net) :
    pubAt st p = some ⟨some (x : Int), some (y : Int), some net⟩ := by
  obtain ⟨ob, h1, h2, h3, rfl⟩ := h.object
  unfold pubAt
  rw [show loadPub st.heap p = some ob from h1, Option.map_some, pubValue, h2, h3,
    show loadNet st.heap ob.Network = some net from hn]

end

theorem stripped_le : ∀ {l : List Bool} {k : Nat}, bitsNumber l < 2 ^ k → (l.dropWhile (· == false)).length ≤ k
  | [], _, _ => Nat.zero_le _
  | false :: l, k, h => by
    rw [List.dropWhile_cons_of_pos rfl]
    exact stripped_le (l := l) (by simpa [bitsNumber_eq, ofBE_cons] using h)
  | true :: l, k, h => by
    rw [List.dropWhile_cons_of_neg (by simp), List.length_cons]
    have : 2 ^ l.length ≤ bitsNumber (true :: l) := by simp [bitsNumber_eq, ofBE_cons]
    exact Nat.succ_le_of_lt ((Nat.pow_lt_pow_iff_right (by omega)).1 (lt_of_le_of_lt this h))

section
variable {H : Hashes} {E : EcdsaM} {V : Ecdsa} {st : State}

/-- The three tables in any state in which the parameters are in place and all pointers valid. -/
theorem answers_iff (hE : Pkg E) (hV : E.Refines V) (hC : EcdsaContract V) (hi : Intact st) (r : Request)
    (hd : Determined st r) (g : Answer) (rd : Reader) :
    Answers H E r st g rd st.log ↔ ¬ Crashes H st r ∧ (∀ e, ¬ Fails H st r e) ∧ Result H EC.G st r g rd [] := by
  have hview : ∀ {vs st'} {g : Answer}, view st' vs = some g → ∀ v e, vs ≠ [v, .err (some e)] := by
    rintro vs st' g h v e rfl
    cases v <;> simp [view] at h
  rw [← crash_table H E V hE hV hC st hi r hd]
  simp only [← error_table H E V hE hV hC st hi r hd]
  constructor
  · rintro ⟨vs, st', h1, h2, rfl, h3⟩
    obtain ⟨g', lines', e1, e2, e3⟩ := result_table H E V hE hV hC EC.G EC.G_coords st hi r hd vs st' h1 (hview h2)
    rw [h2] at e1
    cases e1
    have hl : lines' = [] := by
      rw [h3] at e2
      simpa using e2
    subst hl
    refine ⟨?_, ?_, e3⟩
    · rintro ⟨pn, st2, h⟩
      cases h1.unique h
    · rintro e ⟨v, st2, h⟩
      cases h1.unique h
      exact hview h2 v e rfl
  · rintro ⟨c1, c2, h⟩
    obtain ⟨o, st', h1, hu, ho, -⟩ := C109_ends H E hE r st
    cases o with
    | ok vs st1 =>
      have hn : ∀ v e, vs ≠ [v, .err (some e)] := by
        rintro v e rfl
        exact c2 e ⟨v, st1, h1⟩
      obtain ⟨g', lines', e1, e2, e3⟩ := result_table H E V hE hV hC EC.G EC.G_coords st hi r hd vs st1 h1 hn
      obtain ⟨rfl, rfl, rfl⟩ := C124_unique H EC.G st r _ _ _ _ _ _ h e3
      exact ⟨vs, st1, h1, e1, rfl, by rw [e2, List.append_nil]⟩
    | panic p st1 => exact (c1 ⟨p, st1, h1⟩).elim
    | stuck => cases ho

end

/-! ## The functions -/

section
variable {H : Hashes} {E : EcdsaM} {V : Ecdsa} (hE : Pkg E) (hV : E.Refines V) (hC : EcdsaContract V) {st : State} (hi : Intact st)
include hE hV hC hi

/-- C132: `PrivateFromHex`: what the repaired text imports, the repository's text imports as the same key. -/
theorem same_hex {hexa wif : GoString} {network : Ptr} {net : Network} {pre body : Bytes} (hn : NetAt st network net)
    (ht : KeyText net hexa pre body) (hw : IsBase58Check H.sha256 (pre ++ body ++ markOf false) wif) :
    Answers H E (.privateFromHex hexa network) st (.priv ⟨some (bigEndian body : Int), hexa, wif, some net⟩) st.rd st.log := by
  have hnet : loadNet st.heap network = some net := hn
  have hs := ht.1.append ht.2.1
  rw [answers_iff hE hV hC hi (.privateFromHex hexa network) trivial]
  refine ⟨?_, ?_, rfl, rfl, net, _, rfl, hnet, ?_, rfl, rfl, _, hs, ?_⟩
  · intro (h : loadNet st.heap network = none)
    rw [hnet] at h
    cases h
  · rintro e ⟨nw, h1, h2⟩
    rw [hnet] at h1
    cases h1
    exact no_fault_of_spells hs e h2
  · rw [if_neg, hexNumber_of_spells ht.2.1]
    rintro rfl
    cases ht.2.1
    exact absurd ht.2.2.1 (by decide)
  · rwa [show markOf false = [] from rfl, List.append_nil] at hw

/-- C132: `PrivateFromWIF`. -/
theorem same_wif {wif : GoString} {network : Ptr} {net : Network} {pre body : Bytes} {c : Bool} (hn : NetAt st network net)
    (ht : WifText H.sha256 net wif pre body c) :
    Answers H E (.privateFromWIF wif network) st (.priv ⟨some (bigEndian body : Int), hexEncode body, wif, some net⟩) st.rd st.log ↔
      (pre ++ body ++ markOf c).drop 1 = body := by
  have hnet : loadNet st.heap network = some net := hn
  have hne : body ≠ [] := by
    rintro rfl
    exact absurd ht.2.2.1 (by decide)
  rw [answers_iff hE hV hC hi (.privateFromWIF wif network) trivial]
  constructor
  · rintro ⟨-, -, -, -, w0, body', k, hk, h1, -, h3, -, -⟩
    cases hk
    obtain rfl := hexEncode_inj (LowerHex.eq h3)
    rw [check_unique H ht.2.1 h1]
    rfl
  · intro h
    obtain ⟨w0, hw⟩ : ∃ w0, pre ++ body ++ markOf c = w0 :: body := by
      cases hp : pre ++ body ++ markOf c with
      | nil => simp [hne] at hp
      | cons w0 l =>
        rw [hp] at h
        exact ⟨w0, by rw [← h]; rfl⟩
    have hc := ht.2.1
    rw [hw] at hc
    refine ⟨?_, ?_, rfl, rfl, w0, body, _, rfl, hc, rfl, lowerHex_hexEncode body, by rw [if_neg hne], hnet.symm⟩
    · rintro (⟨-, bs, h1, h2⟩ | h)
      · have := congrArg List.length (h2.bytes_unique hc)
        rw [List.length_append, length_checksum] at this
        omega
      · cases check_unique H h hc
    · rintro e ⟨-, -, h⟩
      exact h ⟨_, hc⟩

omit hE hV hC hi

/-- Numbers with 64 digits are written without padding. -/
theorem fmt_body {body : Bytes} (hl : body.length = 32) (h : bigEndian body < Spec.n) :
    fmtNat 16 (bigEndian body) = hexEncode body ↔ 16 ^ 63 ≤ bigEndian body := by
  rw [← length64_iff h]
  constructor
  · intro e
    rw [e, (spells_hexEncode body).length, hl]
  · intro e
    have hp := pad64 (bigEndian body)
    rw [bigIntToHex, fmtBig_nat, padZeros, e, hex64_body hl] at hp
    exact hp

theorem combine_alike {H : Hashes} {f : Int → Int → Int} {t1 t2 w1 w2 wif : GoString} {v1 v2 : Int} {net : Network}
    {pre body : Bytes} (hp : Spells net.PrivKeyPrefix pre) (hl : body.length = 32) (hlt : bigEndian body < Spec.n)
    (hb : (bigEndian body : Int) = f v1 v2 % (Spec.n : Int)) (hw : IsBase58Check H.sha256 (pre ++ body ++ markOf false) wif) :
    (¬ CombineCrash H.toLower ⟨some v1, t1, w1, some net⟩ ⟨some v2, t2, w2, some net⟩ ∧
      (∀ e, ¬ CombineFault H.toLower f ⟨some v1, t1, w1, some net⟩ ⟨some v2, t2, w2, some net⟩ e) ∧
      Combined H.sha256 f ⟨some v1, t1, w1, some net⟩ ⟨some v2, t2, w2, some net⟩
        ⟨some (bigEndian body : Int), hexEncode body, wif, some net⟩) ↔
      H.toLower w1 ≠ H.toLower w2 ∧ 16 ^ 63 ≤ f v1 v2 % (Spec.n : Int) := by
  have key := fmt_body hl hlt
  have hbig : (16 : Int) ^ 63 ≤ f v1 v2 % (Spec.n : Int) ↔ 16 ^ 63 ≤ bigEndian body := by
    rw [← hb]
    norm_cast
  rw [hbig]
  constructor
  · rintro ⟨-, h2, x, y, nw, r, s, hx, hy, hn, hr, hs, h3, h4, -, -⟩
    cases hx
    cases hy
    refine ⟨fun e => h2 _ (.inr (.inl ⟨rfl, e, rfl⟩)), key.1 ?_⟩
    have : r = bigEndian body := by
      have := hr.trans hb.symm
      exact_mod_cast this
    subst this
    have h4 : hexEncode body = s := h4
    subst h4
    exact (isMinimalHex_fmtNat _).unique hs
  · rintro ⟨h1, h2⟩
    have hs : Spells (net.PrivKeyPrefix ++ hexEncode body) (pre ++ body) := hp.append (spells_hexEncode body)
    have hm := key.2 h2 ▸ isMinimalHex_fmtNat (bigEndian body)
    refine ⟨?_, ?_, v1, v2, net, bigEndian body, hexEncode body, rfl, rfl, rfl, hb, hm, rfl, rfl, rfl, _, hs, ?_⟩
    · rintro ⟨-, -, h | h | h⟩ <;> cases h
    · rintro e (⟨h, -⟩ | ⟨-, h, -⟩ | ⟨-, -, x, y, nw, r, s, hx, hy, hn, hr, hms, hf⟩)
      · exact h rfl
      · exact h1 h
      · cases hx
        cases hy
        cases hn
        have : r = bigEndian body := by
          have := hr.trans hb.symm
          exact_mod_cast this
        subst this
        obtain rfl := hms.unique hm
        exact no_fault_of_spells hs e hf
    · rwa [show markOf false = [] from rfl, List.append_nil] at hw

/-- The block a key is drawn from. -/
theorem Source.FirstKey.index {rd body rest : Bytes} (h : FirstKey rd body rest) :
    ∃ i, 32 * (i + 1) ≤ rd.length ∧ drawn rd i = bigEndian body ∧ rest = rd.drop (32 * (i + 1)) ∧
      ∀ j < i, ¬ (1 ≤ drawn rd j ∧ drawn rd j < Spec.n) := by
  induction h with
  | @here body rest h1 h2 h3 =>
    refine ⟨0, by simp; omega, ?_, ?_, nofun⟩
    · unfold drawn
      rw [Nat.mul_zero, List.drop_zero, List.take_left' h1]
    · rw [Nat.zero_add, Nat.mul_one, List.drop_left' h1]
  | @later block rd body rest h1 h2 _ ih =>
    obtain ⟨i, i1, i2, i3, i4⟩ := ih
    have hd : ∀ j, (block ++ rd).drop (32 * (j + 1)) = rd.drop (32 * j) := by
      intro j
      rw [Nat.mul_add, Nat.mul_one, Nat.add_comm, ← List.drop_drop, List.drop_left' h1]
    have hdr : ∀ j, drawn (block ++ rd) (j + 1) = drawn rd j := by
      intro j
      unfold drawn
      rw [hd]
    refine ⟨i + 1, by rw [List.length_append]; omega, (hdr i).trans i2, i3.trans (hd (i + 1)).symm, fun j hj => ?_⟩
    cases j with
    | zero =>
      unfold drawn
      rw [Nat.mul_zero, List.drop_zero, List.take_left' h1]
      exact h2
    | succ j =>
      rw [hdr]
      exact i4 j (by omega)

include hE hV hC hi

/-- C132: `AddPrivateKeys` and `MultiplyPrivateKeys`. -/
theorem same_combine {p1 p2 nw1 nw2 : Ptr} {net : Network} {t1 t2 w1 w2 wif : GoString} {pre b1 b2 body : Bytes} {c1 c2 : Bool}
    (h1 : KeyAt H.sha256 st p1 nw1 t1 w1 pre b1 c1) (h2 : KeyAt H.sha256 st p2 nw2 t2 w2 pre b2 c2)
    (hn1 : NetAt st nw1 net) (hn2 : NetAt st nw2 net) (hp : Spells net.PrivKeyPrefix pre) (hl : body.length = 32)
    (hlt : bigEndian body < Spec.n) (hw : IsBase58Check H.sha256 (pre ++ body ++ markOf false) wif) :
    (bigEndian body = (bigEndian b1 + bigEndian b2) % Spec.n →
      (Answers H E (.addPrivateKeys p1 p2) st (.priv ⟨some (bigEndian body : Int), hexEncode body, wif, some net⟩) st.rd st.log ↔
        CombinesAlike H.toLower (· + ·) st p1 p2)) ∧
    (bigEndian body = bigEndian b1 * bigEndian b2 % Spec.n →
      (Answers H E (.multiplyPrivateKeys p1 p2) st (.priv ⟨some (bigEndian body : Int), hexEncode body, wif, some net⟩) st.rd st.log ↔
        CombinesAlike H.toLower (· * ·) st p1 p2)) := by
  have v1 := h1.priv hn1
  have v2 := h2.priv hn2
  have alike : ∀ f : Int → Int → Int, CombinesAlike H.toLower f st p1 p2 ↔
      H.toLower w1 ≠ H.toLower w2 ∧ 16 ^ 63 ≤ f (bigEndian b1) (bigEndian b2) % (Spec.n : Int) := by
    intro f
    unfold CombinesAlike
    constructor
    · rintro ⟨a, b, x, y, ha, hb, hx, hy, e1, e2⟩
      rw [v1] at ha
      rw [v2] at hb
      cases ha
      cases hb
      cases hx
      cases hy
      exact ⟨e1, e2⟩
    · rintro ⟨e1, e2⟩
      exact ⟨_, _, _, _, v1, v2, rfl, rfl, e1, e2⟩
  have crash : (privAt st p1 = none ∨ privAt st p2 = none ∨
      ∃ a b, privAt st p1 = some a ∧ privAt st p2 = some b ∧ CombineCrash H.toLower a b) ↔
      CombineCrash H.toLower ⟨some (bigEndian b1 : Int), t1, w1, some net⟩ ⟨some (bigEndian b2 : Int), t2, w2, some net⟩ := by
    rw [v1, v2]
    simp
  have fault : ∀ f e, (∃ a b, privAt st p1 = some a ∧ privAt st p2 = some b ∧ CombineFault H.toLower f a b e) ↔
      CombineFault H.toLower f ⟨some (bigEndian b1 : Int), t1, w1, some net⟩ ⟨some (bigEndian b2 : Int), t2, w2, some net⟩ e := by
    intro f e
    rw [v1, v2]
    simp
  constructor
  · intro hb
    rw [answers_iff hE hV hC hi (.addPrivateKeys p1 p2) trivial, alike,
      ← combine_alike (f := (· + ·)) (t1 := t1) (t2 := t2) hp hl hlt (by rw [hb]; norm_cast) hw]
    refine and_congr (not_congr crash) (and_congr (forall_congr' fun e => not_congr (fault _ e)) ?_)
    constructor
    · rintro ⟨-, -, a, b, k, hk, ha, hb, hc⟩
      rw [v1] at ha
      rw [v2] at hb
      cases hk
      cases ha
      cases hb
      exact hc
    · exact fun hc => ⟨rfl, rfl, _, _, _, rfl, v1, v2, hc⟩
  · intro hb
    rw [answers_iff hE hV hC hi (.multiplyPrivateKeys p1 p2) trivial, alike,
      ← combine_alike (f := (· * ·)) (t1 := t1) (t2 := t2) hp hl hlt (by rw [hb]; norm_cast) hw]
    refine and_congr (not_congr crash) (and_congr (forall_congr' fun e => not_congr (fault _ e)) ?_)
    constructor
    · rintro ⟨-, -, a, b, k, hk, ha, hb, hc⟩
      rw [v1] at ha
      rw [v2] at hb
      cases hk
      cases ha
      cases hb
      exact hc
    · exact fun hc => ⟨rfl, rfl, _, _, _, rfl, v1, v2, hc⟩

/-- C132: `GeneratePrivateKey`. -/
theorem same_generate {network : Ptr} {net : Network} {wif : GoString} {pre body rest : Bytes} (hn : NetAt st network net)
    (hp : Spells net.PrivKeyPrefix pre) (hf : FirstKey st.rd body rest)
    (hw : IsBase58Check H.sha256 (pre ++ body ++ markOf false) wif) :
    Answers H E (.generatePrivateKey network) st (.priv ⟨some (bigEndian body : Int), hexEncode body, wif, some net⟩) rest st.log ↔
      16 ^ 63 ≤ bigEndian body ∧ bigEndian body ≤ Spec.n - 2 := by
  have hnet : loadNet st.heap network = some net := hn
  obtain ⟨i, i1, i2, i3, i4⟩ := hf.index
  obtain ⟨hl, hlow, hlt⟩ := hf.key
  rw [answers_iff hE hV hC hi (.generatePrivateKey network) trivial]
  constructor
  · rintro ⟨-, -, -, nw, j, s, k, hk, -, hr, hj, hs, -, -, -⟩
    have hij : i = j := by
      have := congrArg List.length (i3.symm.trans hr)
      rw [List.length_drop, List.length_drop] at this
      omega
    subst hij
    rw [i2] at hs
    exact hs
  · rintro ⟨g1, g2⟩
    have hs : Spells (net.PrivKeyPrefix ++ hexEncode body) (pre ++ body) := hp.append (spells_hexEncode body)
    refine ⟨not_not.2 ⟨net, hnet, (exists_spells_iff _).1 ⟨pre, hp⟩, i, i1, ?_⟩, fun _ h => h, rfl, net, i, hexEncode body, _, rfl, hnet,
      i3, i1, ?_, fun j hj hsu => i4 j hj ⟨?_, ?_⟩, ?_, ?_, rfl, rfl, _, hs, ?_⟩
    · have : bigEndian ((st.rd.drop (32 * i)).take 32) = bigEndian body := i2
      rw [this]
      exact ⟨g1, g2⟩
    · rw [i2]
      exact ⟨g1, g2⟩
    · exact le_trans (by decide +kernel) hsu.1
    · exact lt_of_le_of_lt hsu.2 (by decide +kernel)
    · rw [i2]
      exact (fmt_body hl hlt).2 g1 ▸ isMinimalHex_fmtNat (bigEndian body)
    · rw [i2]
    · rwa [show markOf false = [] from rfl, List.append_nil] at hw

/-- C132: `GetPublicKey`. -/
theorem same_public {p network : Ptr} {net : Network} {hexa wif : GoString} {pre body : Bytes} {c : Bool} {x y : Nat}
    (h : KeyAt H.sha256 st p network hexa wif pre body c) (hn : NetAt st network net) (hxy : HasCoords (bigEndian body • EC.G) x y) :
    Answers H E (.getPublicKey p) st (.pub ⟨some (x : Int), some (y : Int), some net⟩) st.rd st.log := by
  have v := h.priv hn
  rw [answers_iff hE hV hC hi (.getPublicKey p)]
  · refine ⟨?_, fun _ h => h, rfl, rfl, _, _, x, y, v, rfl, hxy, rfl⟩
    intro (h : privAt st p = none)
    rw [v] at h
    cases h
  · intro k hk
    rw [v] at hk
    cases hk
    exact ⟨_, rfl, h.low, h.high⟩

/-- C132: `AddPublicKeys`. -/
theorem same_addPub {p1 p2 nw1 nw2 : Ptr} {net : Network} {x1 y1 x2 y2 x y : Nat} {P Q : W.Point}
    (h1 : PubAt st p1 nw1 x1 y1) (h2 : PubAt st p2 nw2 x2 y2) (hn1 : NetAt st nw1 net) (hn2 : NetAt st nw2 net)
    (hP : HasCoords P x1 y1) (hQ : HasCoords Q x2 y2) (hne : x1 ≠ x2) (hxy : HasCoords (P + Q) x y) (c : Bool) :
    Answers H E (.addPublicKeys p1 p2 c) st (.pub ⟨some (x : Int), some (y : Int), some net⟩) st.rd st.log := by
  have v1 := h1.pub hn1
  have v2 := h2.pub hn2
  rw [answers_iff hE hV hC hi (.addPublicKeys p1 p2 c)]
  · refine ⟨?_, ?_, rfl, rfl, _, _, P, Q, x1, y1, x2, y2, x, y, v1, v2, rfl, rfl, rfl, rfl, hP, hQ, hxy, rfl⟩
    · rintro (h | h)
      · rw [v1] at h
        cases h
      · rw [v2] at h
        cases h
    · rintro e ⟨a, b, ha, hb, h, -⟩
      rw [v1] at ha
      rw [v2] at hb
      cases ha
      cases hb
      exact h rfl
  · intro a b ha hb _
    rw [v1] at ha
    rw [v2] at hb
    cases ha
    cases hb
    exact ⟨x1, y1, x2, y2, rfl, rfl, rfl, rfl, h1.point, h2.point, hne⟩

omit hE hV hC hi

/-- C132: `Format` is not changed. -/
theorem same_format {p : Ptr} {c : Bool} {g : Answer} {vs : List Value} {st' : State}
    (he : (Request.format p c).EndsFixed H E st (.ok vs st')) (hv : view st' vs = some g) :
    Answers H E (.format p c) st g st'.rd st'.log := by
  have h1 := run_Format_in H (E := E) repaired_bigIntToHex repaired_Format 0 p c st
  have h2 := run_Format_in H (E := E) find_bigIntToHex find_Format 0 p c st
  have hs : Out.exact (fun s => [.str s]) (formatM p c st.heap) st ≠ .stuck := by
    obtain ⟨r, e, hn⟩ := formatM_shape p c st.heap
    rw [e]
    rcases r with a | e' | p
    · nofun
    · exact (hn e' rfl).elim
    · nofun
  have e := Ends.unique he (.of h1 hs)
  exact ⟨vs, st', e ▸ .of h2 hs, hv, rfl, rfl⟩

/-- C132: `Address` is not changed. -/
theorem same_address {p : Ptr} {c : Bool} {g : Answer} {vs : List Value} {st' : State}
    (he : (Request.address p c).EndsFixed H E st (.ok vs st')) (hv : view st' vs = some g) :
    Answers H E (.address p c) st g st'.rd st'.log := by
  obtain ⟨hs1, h1⟩ := run_Address_in H (E := E) repaired_bigIntToHex repaired_Format repaired_Address 0 p c st
  obtain ⟨hs2, h2⟩ := run_Address_in H (E := E) find_bigIntToHex find_Format find_Address 0 p c st
  rcases hg : addressM H p c st.heap with ⟨s | e | pn, h⟩ <;> rw [hg] at h1 h2
  · cases Ends.unique he (.of h1 nofun)
    exact ⟨_, _, .of h2 nofun, hv, rfl, rfl⟩
  · cases Ends.unique he (.of h1 nofun)
    cases hv
  · cases Ends.unique he (.of h1 nofun)

include hC

/-- The texts of points are imported by the repository's text. -/
theorem pubText_value {hexa : GoString} {c : Bool} {x y : Nat} (ht : PubText hexa c x y) (net : Option Network) :
    publicFromHex V hexa net = .ok ⟨some (x : Int), some (y : Int), net⟩ := by
  obtain ⟨hp, ser, hs, xb, yb, lx, ly, rfl, rfl, e⟩ := ht
  have hlen := hs.length
  cases c with
  | false =>
    simp only [Bool.false_eq_true, if_false] at e
    subst e
    simp only [List.cons_append, List.length_append, List.length_cons, lx, ly] at hlen
    obtain ⟨pre, xs, ys, rfl, l1, l2, l3⟩ : ∃ pre xs ys, hexa = pre ++ xs ++ ys ∧ pre.length = 2 ∧ xs.length = 64 ∧ ys.length = 64 :=
      ⟨hexa.take 2, (hexa.drop 2).take 64, (hexa.drop 2).drop 64, by rw [List.append_assoc, List.take_append_drop, List.take_append_drop], by simp; omega, by simp; omega,
        by simp; omega⟩
    obtain ⟨b12, b3, h12, h3, e⟩ := hs.split (by simp; omega)
    obtain ⟨b1, b2, h1, h2, rfl⟩ := h12.split (by omega)
    have k1 := h1.length
    have k2 := h2.length
    have k3 := h3.length
    obtain ⟨e12, rfl⟩ := List.append_inj (s₁ := 4 :: xb) (t₁ := yb) e (by simp only [List.length_append, List.length_cons]; omega)
    obtain ⟨rfl, rfl⟩ := List.append_inj (s₁ := [4]) (t₁ := xb) e12 (by rw [List.length_singleton]; omega)
    obtain rfl : pre = asc "04" := text_of_byte h1 spells_04 (by decide +kernel)
    have hv := publicFromHex_uncompressed V (xs := xs) (ys := ys) [] net l2 l3
    rw [List.append_nil, bigSetString_of_spells h2 (by rintro rfl; cases l2), bigSetString_of_spells h3 (by rintro rfl; cases l3)] at hv
    exact hv
  | true =>
    simp only [if_true] at e
    subst e
    simp only [List.length_cons, lx] at hlen
    obtain ⟨pre, xs, rfl, l1, l2⟩ : ∃ pre xs, hexa = pre ++ xs ∧ pre.length = 2 ∧ xs.length = 64 :=
      ⟨hexa.take 2, hexa.drop 2, by simp, by simp; omega, by simp; omega⟩
    obtain ⟨b1, b2, h1, h2, e⟩ := hs.split (by omega)
    have k1 := h1.length
    obtain ⟨hb, rfl⟩ := List.append_inj (s₁ := [if bigEndian yb % 2 = 0 then 0x02 else 0x03]) (t₁ := xb) e
      (by rw [List.length_singleton]; omega)
    subst hb
    obtain ⟨par, hpar, hpy⟩ : ∃ par : Fin 2, pre = Spec.parityPrefix par ∧ bigEndian yb % 2 = par := by
      by_cases hy : bigEndian yb % 2 = 0
      · rw [if_pos hy] at h1
        exact ⟨0, text_of_byte h1 spells_02 (by decide +kernel), hy⟩
      · rw [if_neg hy] at h1
        exact ⟨1, text_of_byte h1 spells_03 (by decide +kernel), show _ = 1 by omega⟩
    have hnum := hexNumber_of_spells h2
    obtain ⟨c1, -, -⟩ := C30_decompression V hC par xs net l2 ((exists_spells_iff xs).1 ⟨_, h2⟩).1 (by rw [hnum]; exact hp.1)
    rw [hnum, ← hpar] at c1
    exact c1 _ hp hpy

include hE hV hi

/-- C132: `PublicFromHex`: what the repaired text imports, the repository's text imports as the same key. -/
theorem same_pubHex {hexa : GoString} {network : Ptr} {net : Network} {c : Bool} {x y : Nat} (hn : NetAt st network net)
    (ht : PubText hexa c x y) :
    Answers H E (.publicFromHex hexa network) st (.pub ⟨some (x : Int), some (y : Int), some net⟩) st.rd st.log := by
  obtain ⟨o, h1, h2⟩ := text_publicFromHex H E V hE hV st hi hexa network
  rw [pubText_value hC ht, show loadNet st.heap network = some net from hn] at h2
  obtain ⟨a, st', rfl, hnew, hq⟩ := h2
  refine ⟨_, st', h1, ?_, hq.rd, hq.log⟩
  obtain ⟨ob, e1, e2, -⟩ := hnew.2
  change (pubAt st' a).map Answer.pub = _
  unfold pubAt
  rw [e1, Option.map_some, Option.map_some, e2]

/-- C132: `NewMnemonic`. -/
theorem same_phrase {c : Nat} {wl : Option (List GoString)} {ws : List GoString} (hwl : IsWordlist (wl.getD []))
    (h1 : 4 ≤ c) (h2 : c ≤ 8) (hl : 4 * c ≤ st.rd.length) (hb : IsBip39 H.sha256 (wl.getD []) (st.rd.take (4 * c)) ws) :
    Answers H E (.newMnemonic (3 * c : Nat) wl) st (.str (phraseText ws)) (st.rd.drop (4 * c)) st.log ↔
      (bytesBits (st.rd.take (4 * c)) ++ appended H.sha256 (st.rd.take (4 * c)) c).reverse =
        bytesBits (st.rd.take (4 * c)) ++ (bytesBits (H.sha256 (st.rd.take (4 * c)))).take c := by
  have hlen : (st.rd.take (4 * c)).length = 4 * c := by rw [List.length_take]; omega
  have hb2 := hb.2
  rw [hlen, show 4 * c / 4 = c by omega] at hb2
  have hws : ws ≠ [] := by
    rintro rfl
    have := bip39_words hb
    simp only [List.length_nil] at this
    omega
  rw [answers_iff hE hV hC hi (.newMnemonic (3 * c : Nat) wl) trivial]
  constructor
  · rintro ⟨-, -, -, c', ws', hc, hg, -, hs⟩
    obtain rfl : c' = c := by
      have : ((3 * c : Nat) : Int) = 3 * (c' : Int) := hc
      omega
    have hne : ws' ≠ [] := by
      rintro rfl
      have := hs.length
      simp only [List.length_reverse, List.length_append, length_bytesBits, List.length_nil, hlen] at this
      omega
    have he : ws' = ws := by
      have hg := Answer.str.inj hg
      rw [← splitSpace_phraseText hne fun w hw => hwl.noSpace w (hs.mem w hw), ← hg,
        splitSpace_phraseText hws fun w hw => hwl.noSpace w (hb2.mem w hw)]
    subst he
    exact hs.bits_unique hwl.nodup hb2
  · intro heq
    have hal : (appended H.sha256 (st.rd.take (4 * c)) c).length = c := by
      have := congrArg List.length heq
      simp only [List.length_reverse, List.length_append, length_bytesBits, hlen, List.length_take, H.sha_len] at this
      omega
    refine ⟨?_, ?_, rfl, c, ws, by norm_cast, rfl, rfl, heq ▸ hb2⟩
    · rintro ⟨l, rfl, c', c1, c2, hc, -, h | ⟨j, hj, h⟩⟩
      all_goals obtain rfl : c' = c := by omega
      · rw [bigEndian_eq, ← bitsNumber_bytesBits] at h
        have := stripped_le h
        unfold appended at hal
        rw [List.length_take] at hal
        omega
      · have : lookedUp H.sha256 (st.rd.take (4 * c')) c' j < 2 ^ 11 :=
          (bitsNumber_lt _).trans_le (Nat.pow_le_pow_right (by omega) (by rw [List.length_take]; omega))
        have := hwl.size
        simp only [Option.getD_some] at this
        omega
    · rintro e (⟨rfl, -⟩ | ⟨-, ⟨h, -⟩ | ⟨c', c1, c2, hc, h, -⟩⟩)
      · have := hwl.size
        cases this
      · exact h c h1 h2 (by norm_cast)
      · omega

/-- C132: `NewSeedFromMnemonic`: the repository's text logs, the repaired text does not. -/
theorem same_seed {mn pa : GoString} {wl : Option (List GoString)} (hwl : (wl.getD []).length = 2048) (g : Answer) :
    ¬ Answers H E (.newSeedFromMnemonic mn pa wl) st g st.rd st.log := by
  rw [answers_iff hE hV hC hi (.newSeedFromMnemonic mn pa wl) hwl.le]
  rintro ⟨-, -, -, -, ws, body, ck, -, -, -, -, -, nibbles, h, b, c, e, -⟩
  simp at e

theorem agrees_of_sound {ps qs : List Ptr} (hs : Sound H st ps qs) (r : Request) (ht : Typed st ps qs r)
    (hwl : ∀ words wl, r = .newMnemonic words wl → IsWordlist (wl.getD [])) (vs : List Value) (st' : State) (g : Answer)
    (he : r.EndsFixed H E st (.ok vs st')) (hv : view st' vs = some g) :
    Answers H E r st g st'.rd st'.log ↔ Agrees H st r := by
  have key : ∀ {a : Nat} {network : Ptr} {net : Network} {hexa wif : GoString} {pre body : Bytes} {c : Bool} {rd : Reader},
      Kept { st with rd := rd } st' → KeyAt H.sha256 st' (some a) network hexa wif pre body c → NetAt st network net →
      privAt st' (some a) = some ⟨some (bigEndian body : Int), hexa, wif, some net⟩ :=
    fun hk ha hn => ha.priv (hn.kept hk)
  have pub : ∀ {a : Nat} {network : Ptr} {net : Network} {x y : Nat}, Kept st st' → PubAt st' (some a) network x y →
      NetAt st network net → pubAt st' (some a) = some ⟨some (x : Int), some (y : Int), some net⟩ :=
    fun hk ha hn => ha.pub (hn.kept (rd := st.rd) hk)
  cases r with
  | checkWIF wif =>
    obtain ⟨b, st1, he', hk, hb⟩ := C127_check H E st wif
    cases Ends.unique he he'
    cases hv
    rw [hk.rd, hk.log, answers_iff hE hV hC hi (.checkWIF wif) trivial]
    exact ⟨fun h => h.1, fun h => ⟨h, fun _ h => h, rfl, rfl, b, rfl, hb⟩⟩
  | privateFromWIF wif network =>
    rcases ht with rfl | ⟨net, hn⟩
    · obtain ⟨o, he', st1, rfl, -⟩ := (C127_nil_network H E st wif).2
      cases Ends.unique he he'
      cases hv
    obtain ⟨o, he', ⟨pre, body, c, hw, st1, a, rfl, hk, -, ha⟩ | ⟨-, _, -, st1, rfl, -⟩⟩ := C127_import_wif H E st hs.order wif network net hn
    · cases Ends.unique he he'
      have hv : (privAt st' (some a)).map Answer.priv = some g := hv
      rw [key (rd := st.rd) hk ha hn] at hv
      cases hv
      rw [hk.rd, hk.log, same_wif hE hV hC hi hn hw]
      constructor
      · exact fun h => ⟨net, pre, body, c, hn, hw, h⟩
      · rintro ⟨net', pre', body', c', hn', hw', h⟩
        cases hn.symm.trans hn'
        obtain rfl := hw'.1.unique hw.1
        have e := check_unique H hw'.2.1 hw.2.1
        rw [e] at h
        rw [List.append_assoc, List.append_assoc] at e
        obtain ⟨rfl, -⟩ := List.append_inj (List.append_cancel_left e) (hw'.2.2.1.trans hw.2.2.1.symm)
        exact h
    · cases Ends.unique he he'
      cases hv
  | privateFromHex hexa network =>
    rcases ht with rfl | ⟨net, hn⟩
    · obtain ⟨o, he', st1, rfl, -⟩ := (C127_nil_network H E st hexa).1
      cases Ends.unique he he'
      cases hv
    obtain ⟨o, he', ⟨pre, body, wif, hw, st1, a, rfl, hk, -, ha⟩ | ⟨-, _, -, st1, rfl, -⟩⟩ := C127_import_hex H E st hs.order hexa network net hn
    · cases Ends.unique he he'
      have hv : (privAt st' (some a)).map Answer.priv = some g := hv
      rw [key (rd := st.rd) hk ha hn] at hv
      cases hv
      rw [hk.rd, hk.log]
      exact iff_of_true (same_hex hE hV hC hi hn hw ha.wif) trivial
    · cases Ends.unique he he'
      cases hv
  | generatePrivateKey network =>
    rcases ht with rfl | ⟨net, hn⟩
    · cases Ends.unique he (C127_generate_no_network H E st none MainNetwork (.inl rfl))
      cases hv
    by_cases hp : ∃ pre, Spells net.PrivKeyPrefix pre
    case neg =>
      cases Ends.unique he (C127_generate_no_network H E st network net (.inr ⟨hn, hp⟩))
      cases hv
    obtain ⟨pre, hp⟩ := hp
    obtain ⟨o, he', ⟨body, rest, wif, st1, a, hf, rfl, hk, -, ha⟩ | ⟨hf, st1, rfl, hk⟩⟩ := C127_generate H E st hs.order network net hn pre hp
    · cases Ends.unique he he'
      have hv : (privAt st' (some a)).map Answer.priv = some g := hv
      rw [key hk ha hn] at hv
      cases hv
      rw [hk.rd, hk.log]
      refine (same_generate hE hV hC hi hn hp hf ha.wif).trans ⟨fun h => ⟨body, rest, hf, h⟩, ?_⟩
      rintro ⟨body', rest', hf', h⟩
      obtain ⟨rfl, rfl⟩ := hf.unique hf'
      exact h
    · cases Ends.unique he he'
  | addPrivateKeys p q =>
    obtain ⟨nw1, net1, t1, w1, pre1, b1, c1, k1, n1, s1⟩ := hs.privs p ht.1
    obtain ⟨nw2, net2, t2, w2, pre2, b2, c2, k2, n2, s2⟩ := hs.privs q ht.2
    by_cases hne : net1 = net2
    case neg =>
      cases Ends.unique he (C127_other_networks H E k1 k2 n1 n2 hne).1
      cases hv
    subst hne
    obtain rfl := s1.unique s2
    obtain ⟨o, he', ⟨-, body, wif, hb, st1, a, rfl, hk, -, ha⟩ | ⟨-, st1, rfl, -⟩ | ⟨-, -, st1, rfl, -⟩⟩ := C127_add H E hs.order k1 k2 n1 n2 s1
    · cases Ends.unique he he'
      have hv : (privAt st' (some a)).map Answer.priv = some g := hv
      rw [key (rd := st.rd) hk ha n1] at hv
      cases hv
      rw [hk.rd, hk.log]
      exact (same_combine hE hV hC hi k1 k2 n1 n2 s1 ha.length ha.high ha.wif).1 hb
    · cases Ends.unique he he'
      cases hv
    · cases Ends.unique he he'
      cases hv
  | multiplyPrivateKeys p q =>
    obtain ⟨nw1, net1, t1, w1, pre1, b1, c1, k1, n1, s1⟩ := hs.privs p ht.1
    obtain ⟨nw2, net2, t2, w2, pre2, b2, c2, k2, n2, s2⟩ := hs.privs q ht.2
    by_cases hne : net1 = net2
    case neg =>
      cases Ends.unique he (C127_other_networks H E k1 k2 n1 n2 hne).2
      cases hv
    subst hne
    obtain rfl := s1.unique s2
    obtain ⟨o, he', ⟨-, body, wif, hb, st1, a, rfl, hk, -, ha⟩ | ⟨-, st1, rfl, -⟩⟩ := C127_multiply H E hs.order k1 k2 n1 n2 s1
    · cases Ends.unique he he'
      have hv : (privAt st' (some a)).map Answer.priv = some g := hv
      rw [key (rd := st.rd) hk ha n1] at hv
      cases hv
      rw [hk.rd, hk.log]
      exact (same_combine hE hV hC hi k1 k2 n1 n2 s1 ha.length ha.high ha.wif).2 hb
    · cases Ends.unique he he'
      cases hv
  | publicFromHex hexa network =>
    rcases ht with rfl | ⟨net, hn⟩
    · obtain ⟨o, he', st1, rfl, -⟩ := C129_nil_network H E hexa st
      cases Ends.unique he he'
      cases hv
    have hne : network ≠ none := by
      rintro rfl
      cases hn
    obtain ⟨o, he', ⟨c, x, y, hw, st1, a, rfl, hk, -, ha⟩ | ⟨-, e, ⟨st1, rfl, -⟩, -⟩⟩ := C129_import H hE hV hC st hs.curve hexa network hne
    · cases Ends.unique he he'
      have hv : (pubAt st' (some a)).map Answer.pub = some g := hv
      rw [pub hk ha hn] at hv
      cases hv
      rw [hk.rd, hk.log]
      exact iff_of_true (same_pubHex hE hV hC hi hn hw) trivial
    · cases Ends.unique he he'
      cases hv
  | getPublicKey p =>
    obtain ⟨nw, net, t, w, pre, b, c, k, hn, -⟩ := hs.privs p ht
    obtain ⟨x, y, q, st1, he', hk, -, hxy, hq⟩ := C129_public_key H hE hV hC EC.G EC.G_coords st hs.curve k
    cases Ends.unique he he'
    have hv : (pubAt st' (some q)).map Answer.pub = some g := hv
    rw [pub hk hq hn] at hv
    cases hv
    rw [hk.rd, hk.log]
    exact iff_of_true (same_public hE hV hC hi k hn hxy) trivial
  | format q c => exact iff_of_true (same_format he hv) trivial
  | address q c => exact iff_of_true (same_address he hv) trivial
  | addPublicKeys p q c =>
    obtain ⟨nw1, net1, x1, y1, k1, n1⟩ := hs.pubs p ht.1
    obtain ⟨nw2, net2, x2, y2, k2, n2⟩ := hs.pubs q ht.2
    have href := C129_add_refused H (E := E) st k1 k2 n1 n2 c
    by_cases hne : net1 = net2
    case neg =>
      cases Ends.unique he (href.1 hne)
      cases hv
    by_cases hx : x1 = x2
    · cases Ends.unique he (href.2 hne hx)
      cases hv
    subst hne
    obtain ⟨P, hP⟩ := (EC.onCurve_iff _ _).1 k1.point
    obtain ⟨Q, hQ⟩ := (EC.onCurve_iff _ _).1 k2.point
    obtain ⟨o, x, y, he', hxy, st1, a, rfl, hk, -, ha⟩ := C129_add H hE hV hC st hs.curve k1 k2 n1 n2 hP hQ hx c
    cases Ends.unique he he'
    have hv : (pubAt st' (some a)).map Answer.pub = some g := hv
    rw [pub hk ha n1] at hv
    cases hv
    rw [hk.rd, hk.log]
    exact iff_of_true (same_addPub hE hV hC hi k1 k2 n1 n2 hP hQ hx hxy c) trivial
  | newMnemonic words wl =>
    obtain ⟨o, he', ⟨c, ws, st1, c1, c2, rfl, -, hl, hb, rfl, hk⟩ | ⟨-, st1, e, -, rfl, hk⟩⟩ := C128_generate H E words wl st
    · cases Ends.unique he he'
      cases hv
      rw [hk.rd, hk.log]
      refine (same_phrase hE hV hC hi (hwl _ _ rfl) c1 c2 hl hb).trans ⟨fun h => ⟨c, by norm_cast, h⟩, ?_⟩
      rintro ⟨c', hc, h⟩
      obtain rfl : c' = c := by omega
      exact h
    · cases Ends.unique he he'
      cases hv
  | newSeedFromMnemonic mn pa wl =>
    obtain ⟨st1, e, he', hk, -, hl, -⟩ := C128_accept H E mn pa wl st
    cases Ends.unique he he'
    rw [hk.rd, hk.log]
    refine iff_of_false (same_seed hE hV hC hi ?_ g) (fun h => h)
    by_contra h
    have := hl h
    cases e with
    | none => exact this rfl
    | some e => cases hv

omit hE hV hC hi in
theorem Spec.SpellsBits.first {wl ws : List GoString} {bits : List Bool} (hn : wl.Nodup) (h : SpellsBits wl ws bits) :
    SpellsFirst wl ws bits := by
  induction h with
  | nil => exact .nil
  | @cons w ws group bits hl hw _ ih =>
    obtain ⟨hlt, rfl⟩ := List.getElem?_eq_some_iff.1 hw
    exact .cons hl (List.getElem_mem _) (hn.idxOf_getElem _ hlt).symm ih

omit hE hV hC hi in
theorem words_of_text {wl ws ws' : List GoString} (hwl : IsWordlist wl) (hne : ws ≠ []) (hws : ∀ w ∈ ws, w ∈ wl)
    (h1 : ∀ w ∈ ws', (32 : UInt8) ∉ w) (h2 : ws' ≠ []) (h : phraseText ws' = phraseText ws) : ws' = ws := by
  rw [← splitSpace_phraseText h2 h1, h, splitSpace_phraseText hne fun w hw => hwl.noSpace w (hws w hw)]

/-- C132. `NewSeedFromMnemonic`, for a BIP-39 phrase, which the repaired text accepts. The repository's text refuses it if it has
12 words, panics if it has 15, 18 or 21, and accepts it if it has 24; then it logs the entropy. -/
theorem C132_seed {wl : Option (List GoString)} (hwl : IsWordlist (wl.getD [])) {ent : Bytes} {ws : List GoString}
    (h : IsBip39 H.sha256 (wl.getD []) ent ws) (pa : GoString) :
    ws.length ∈ [12, 15, 18, 21, 24] ∧
    (ws.length = 12 → ∃ v st', (Request.newSeedFromMnemonic (phraseText ws) pa wl).Ends H E st (.ok [v, .err (some .hexLength)] st')) ∧
    (ws.length ∈ [15, 18, 21] → ∃ pn st', (Request.newSeedFromMnemonic (phraseText ws) pa wl).Ends H E st (.panic pn st')) ∧
    (ws.length = 24 → ∃ vs st' ck lines, (Request.newSeedFromMnemonic (phraseText ws) pa wl).Ends H E st (.ok vs st') ∧
      view st' vs = some .nothing ∧ st'.log = st.log ++ lines ∧ Logged H.sha256 ent ck lines) := by
  have hw := bip39_words h
  have hne : ws ≠ [] := by
    rintro rfl
    simp only [List.length_nil] at hw
    omega
  have hmem : ∀ w ∈ ws, w ∈ wl.getD [] := fun w hw => h.2.mem w hw
  have hsp : ∀ w ∈ ws, (32 : UInt8) ∉ w := fun w hw => hwl.noSpace w (hmem w hw)
  refine ⟨by simp only [List.mem_cons, List.not_mem_nil, or_false]; omega, fun hl => ?_, fun hl => ?_, fun hl => ?_⟩
  · exact (error_table H E V hE hV hC st hi (.newSeedFromMnemonic (phraseText ws) pa wl) hwl.size.le _).2 ⟨ws, hne, hsp, rfl, .inr (.inl ⟨rfl, hmem, by omega⟩)⟩
  · refine (crash_table H E V hE hV hC st hi (.newSeedFromMnemonic (phraseText ws) pa wl) hwl.size.le).2 ⟨ws, hsp, rfl, hmem, ?_⟩
    simp only [List.mem_cons, List.not_mem_nil, or_false] at hl
    omega
  · obtain ⟨ck, hck⟩ : ∃ ck, (H.sha256 ent).take 1 = [ck] := by
      have := H.sha_len ent
      rcases hs : H.sha256 ent with _ | ⟨c, l⟩
      · rw [hs] at this
        cases this
      · exact ⟨c, rfl⟩
    have hf : SpellsFirst (wl.getD []) ws (bytesBits (ent ++ [ck])) := by
      have := h.2.first hwl.nodup
      have htake : (bytesBits (H.sha256 ent)).take 8 = bytesBits ((H.sha256 ent).take 1) := by
        have hl := H.sha_len ent
        match hh : H.sha256 ent, hl with
        | x :: xs, _ => rfl
      rwa [show ent.length / 4 = 8 by omega, htake, hck, ← bytesBits_append] at this
    have hbody : ∀ body ck', SpellsFirst (wl.getD []) ws (bytesBits (body ++ [ck'])) → body = ent ∧ ck' = ck := by
      intro body ck' h'
      obtain ⟨h1, h2⟩ := List.append_inj' (bytesBits_inj (h'.unique hf)) rfl
      exact ⟨h1, by simpa using h2⟩
    obtain ⟨o, st', h1, hu, ho, -⟩ := C109_ends H E hE (.newSeedFromMnemonic (phraseText ws) pa wl) st
    cases o with
    | panic pn st1 =>
      obtain ⟨ws', h3, h4, -, h5⟩ := (crash_table H E V hE hV hC st hi (.newSeedFromMnemonic (phraseText ws) pa wl) hwl.size.le).1 ⟨pn, st1, h1⟩
      obtain rfl := words_of_text hwl hne hmem h3 (by rintro rfl; exact h5 rfl) h4
      omega
    | stuck => cases ho
    | ok vs st1 =>
      have hno : ∀ v e, vs ≠ [v, .err (some e)] := by
        rintro v e rfl
        obtain ⟨ws', h3, h4, h5, h6⟩ := (error_table H E V hE hV hC st hi (.newSeedFromMnemonic (phraseText ws) pa wl) hwl.size.le e).1 ⟨v, st1, h1⟩
        obtain rfl := words_of_text hwl hne hmem h4 h3 h5
        rcases h6 with ⟨-, w, h6, h7⟩ | ⟨-, -, h6⟩ | ⟨-, body, ck', h6, h7⟩
        · exact h7 (hmem w h6)
        · omega
        · obtain ⟨rfl, rfl⟩ := hbody _ _ h6
          exact h7 hck
      obtain ⟨g, lines, e1, e2, -, rfl, ws', body, ck', h3, h4, h5, h6, -, h7⟩ :=
        result_table H E V hE hV hC EC.G EC.G_coords st hi (.newSeedFromMnemonic (phraseText ws) pa wl) hwl.size.le vs st1 h1 hno
      obtain rfl := words_of_text hwl hne hmem h4 h3 h5.symm
      obtain ⟨rfl, rfl⟩ := hbody _ _ h6
      exact ⟨vs, st1, ck', lines, h1, e1, e2, h7⟩

end

section
variable {H : Hashes} {E : EcdsaM} {V : Ecdsa} (hE : Pkg E) (hV : E.Refines V) (hC : EcdsaContract V) {nets : List Network} {st : State}
  {ps qs : List Ptr} (hr : FixedRun H E nets st ps qs)
include hE hV hC hr

theorem FixedRun.intact : Intact st := ⟨(hr.sound hE hV hC).curve, (hr.sound hE hV hC).objs⟩

/-- C132. Suppose a program has used the repaired text, and one more call succeeds with it. The same call with the repository's
text, in the same state, succeeds with the same answer, leaves the same random bytes and logs the same, exactly if the table
says so. -/
theorem C132_exact (r : Request) (ht : Typed st ps qs r)
    (hwl : ∀ words wl, r = .newMnemonic words wl → IsWordlist (wl.getD [])) (vs : List Value) (st' : State) (g : Answer)
    (he : r.EndsFixed H E st (.ok vs st')) (hv : view st' vs = some g) :
    Answers H E r st g st'.rd st'.log ↔ Agrees H st r :=
  agrees_of_sound hE hV hC (hr.intact hE hV hC) (hr.sound hE hV hC) r ht hwl vs st' g he hv

/-- C132. So for public keys nothing has changed: what the repaired functions return, those of the repository return too. -/
theorem C132_public (r : Request) (ht : Typed st ps qs r)
    (hp : (∃ s nw, r = .publicFromHex s nw) ∨ (∃ p, r = .getPublicKey p) ∨ (∃ q c, r = .format q c) ∨ (∃ q c, r = .address q c) ∨
      ∃ p q c, r = .addPublicKeys p q c) (vs : List Value) (st' : State) (g : Answer)
    (he : r.EndsFixed H E st (.ok vs st')) (hv : view st' vs = some g) : Answers H E r st g st'.rd st'.log := by
  refine (C132_exact hE hV hC hr r ht ?_ vs st' g he hv).2 ?_
  · rintro words wl rfl
    rcases hp with ⟨_, _, h⟩ | ⟨_, h⟩ | ⟨_, _, h⟩ | ⟨_, _, h⟩ | ⟨_, _, _, h⟩ <;> cases h
  · rcases hp with ⟨_, _, rfl⟩ | ⟨_, rfl⟩ | ⟨_, _, rfl⟩ | ⟨_, _, rfl⟩ | ⟨_, _, _, rfl⟩ <;> exact trivial

end

/-! ## Cases -/

open Samples

/-- C132: the sum of the keys 1 and 2 is a key, which the repository's text does not return. The public key of the key 1 it does
return. -/
example (rd : Reader) : ∃ st a b vs st' g, FixedRun realHashes pkg [] st [some a, some b] [] ∧
    (Request.addPrivateKeys (some a) (some b)).EndsFixed realHashes pkg st (.ok vs st') ∧ view st' vs = some g ∧
    ¬ Answers realHashes pkg (.addPrivateKeys (some a) (some b)) st g st'.rd st'.log ∧
    ∃ vs2 st2 g2, (Request.getPublicKey (some a)).EndsFixed realHashes pkg st (.ok vs2 st2) ∧ view st2 vs2 = some g2 ∧
      Answers realHashes pkg (.getPublicKey (some a)) st g2 st2.rd st2.log := by
  obtain ⟨st, a, b, h, hn, ⟨w1, k1⟩, w2, k2⟩ := fixed_case rd
  have hs := h.sound refPkg.1 refPkg.2.1 refPkg.2.2
  have hsum : (bigEndian (smallBody 1) + bigEndian (smallBody 2)) % Spec.n = 3 := by decide +kernel
  obtain ⟨o, h1, ⟨-, body, wif, h2, st', c, rfl, hk, -, hc⟩ | ⟨rfl, -⟩ | ⟨-, h2, -⟩⟩ := C127_add realHashes pkg hs.order k1 k2 hn hn main_prefix
  · have hv : view st' [.priv (some c), .err none] = some (.priv ⟨some (bigEndian body : Int), hexEncode body, wif, some MainNetwork⟩) := by
      change (privAt st' (some c)).map Answer.priv = _
      rw [hc.priv (hn.kept (rd := st.rd) hk)]
      rfl
    refine ⟨st, a, b, _, st', _, h, h1, hv, fun ha => ?_, ?_⟩
    · obtain ⟨x, y, kx, ky, e1, e2, e3, e4, -, e5⟩ := (C132_exact refPkg.1 refPkg.2.1 refPkg.2.2 h (.addPrivateKeys (some a) (some b))
        ⟨by simp, by simp⟩ nofun _ _ _ h1 hv).1 ha
      rw [k1.priv hn] at e1
      rw [k2.priv hn] at e2
      cases e1
      cases e2
      cases e3
      cases e4
      revert e5
      decide +kernel
    · obtain ⟨x, y, q, st2, h3, hk2, -, -, hq⟩ := C129_public_key realHashes refPkg.1 refPkg.2.1 refPkg.2.2 EC.G EC.G_coords st hs.curve k1
      have hv2 : view st2 [.pub (some q), .bool true] = some (.pub ⟨some (x : Int), some (y : Int), some MainNetwork⟩) := by
        change (pubAt st2 (some q)).map Answer.pub = _
        rw [hq.pub (hn.kept (rd := st.rd) hk2)]
        rfl
      exact ⟨_, _, _, h3, hv2, C132_public refPkg.1 refPkg.2.1 refPkg.2.2 h (.getPublicKey (some a)) (by exact List.mem_cons_self) (.inr (.inl ⟨_, rfl⟩)) _ _ _ h3 hv2⟩
  · have := (C127_same_wif realHashes k1 k2).1
    exact absurd this (by decide)
  · omega

/-- C132: the WIF of the key 1, used in compressed form, is not imported as this key by the repository's text. -/
example (rd : Reader) : ∃ vs st' g,
    (Request.privateFromWIF (asc "KwDiBf89QgGbjEhKnhXJuH7LrciVrZi3qYjgd9M7rFU73sVHnoWn") (some 0)).EndsFixed realHashes pkg (ready rd) (.ok vs st') ∧
    view st' vs = some g ∧
    ¬ Answers realHashes pkg (.privateFromWIF (asc "KwDiBf89QgGbjEhKnhXJuH7LrciVrZi3qYjgd9M7rFU73sVHnoWn") (some 0)) (ready rd) g st'.rd st'.log := by
  obtain ⟨h1, h2, h3, -⟩ := C127_init realHashes pkg rd
  have r0 : FixedRun realHashes pkg [] (ready rd) [] [] := .start (nets := []) h1
  obtain ⟨o, e, ⟨pre, body, c, ht, st', a, rfl, hk, -, ha⟩ | ⟨hno, -⟩⟩ := C127_import_wif realHashes pkg (ready rd) h2
    (asc "KwDiBf89QgGbjEhKnhXJuH7LrciVrZi3qYjgd9M7rFU73sVHnoWn") (some 0) MainNetwork h3
  case inr => exact (hno ⟨_, _, _, main_prefix, twoKeys_one.wif, twoKeys_one.length, twoKeys_one.low, twoKeys_one.high⟩).elim
  have hv : view st' [.priv (some a), .err none] = some (.priv ⟨some (bigEndian body : Int), hexEncode body,
      asc "KwDiBf89QgGbjEhKnhXJuH7LrciVrZi3qYjgd9M7rFU73sVHnoWn", some MainNetwork⟩) := by
    change (privAt st' (some a)).map Answer.priv = _
    rw [ha.priv (h3.kept (rd := (ready rd).rd) hk)]
    rfl
  refine ⟨_, st', _, e, hv, fun h => ?_⟩
  obtain ⟨net, pre', body', c', hn', ht', hd⟩ :=
    (C132_exact refPkg.1 refPkg.2.1 refPkg.2.2 r0 (.privateFromWIF _ (some 0)) (.inr ⟨_, h3⟩) nofun _ _ _ e hv).1 h
  cases hn'.symm.trans h3
  have e1 := ((decode_check realHashes).2 ht'.2.1).symm.trans ((decode_check realHashes).2 twoKeys_one.wif)
  have e1 := (List.append_inj' (Res.ok.inj e1) (by rw [length_checksum, length_checksum])).1
  rw [e1] at hd
  have := congrArg List.length hd
  rw [ht'.2.2.1] at this
  revert this
  decide

/-- C132: a BIP-39 phrase of twelve words, which the repaired text accepts, is refused by the repository's text. -/
example (rd : Reader) : ∃ v st', (Request.newSeedFromMnemonic (phraseText abandonAbout) [] (some EnglishWordlist)).Ends realHashes pkg
    (ready rd) (.ok [v, .err (some .hexLength)] st') := by
  obtain ⟨h1, -⟩ := C127_init realHashes pkg rd
  have r0 : FixedRun realHashes pkg [] (ready rd) [] [] := .start (nets := []) h1
  exact (C132_seed refPkg.1 refPkg.2.1 refPkg.2.2 (r0.intact refPkg.1 refPkg.2.1 refPkg.2.2) (wl := some EnglishWordlist) english
    abandonAbout_bip39 []).2.1 (by decide +kernel)

end Btc
