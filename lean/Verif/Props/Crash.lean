import Verif.Props.Arith2
import Verif.Props.Serial
import Verif.Props.Source

/-!
# C112: exactly which calls crash, on the text

A table with one line per exported function. The theorem says that a call, run on the parsed text, ends in a panic exactly
if its line says so. For the three functions that hand their arguments to the curve package the table is stated where the
assumptions on that package say what it does.
-/

namespace Btc

open Mem Source Spec

namespace Spec

/-- Specification: some 32-byte block of the random source is a number between 16^63 and n - 2. -/
def SuppliesKey (rd : Reader) : Prop :=
  ∃ j, 32 * (j + 1) ≤ rd.length ∧ 16 ^ 63 ≤ bigEndian ((rd.drop (32 * j)).take 32) ∧
    bigEndian ((rd.drop (32 * j)).take 32) ≤ Spec.n - 2

/-- Specification: an even number of hexadecimal digits. -/
def EvenHex (s : GoString) : Prop := (∀ c ∈ s, IsHexDigit c) ∧ s.length % 2 = 0

/-- Specification: what `NewMnemonic` appends to the entropy: the first `c` bits, after the leading zero bits, of the
hash of the entropy without its leading zero bytes. -/
def appended (sha : Bytes → Bytes) (ent : Bytes) (c : Nat) : List Bool :=
  ((bytesBits (sha (ent.dropWhile (· == 0)))).dropWhile (· == false)).take c

/-- Specification: the `j`-th position looked up by `NewMnemonic`: eleven bits, counted from the end. -/
def lookedUp (sha : Bytes → Bytes) (ent : Bytes) (c j : Nat) : Nat :=
  bitsNumber (((bytesBits ent ++ appended sha ent c).reverse.drop (11 * j)).take 11)

/-- Specification: `NewMnemonic` crashes. `3 * c` words are asked for and the source supplies the entropy; then the hash
starts with too many zero bits, or the list is too short. -/
def PhraseCrash (sha : Bytes → Bytes) (rd : Reader) (words : Int) (wl : List GoString) : Prop :=
  ∃ c : Nat, 4 ≤ c ∧ c ≤ 8 ∧ words = 3 * c ∧ 4 * c ≤ rd.length ∧
    (bigEndian (sha ((rd.take (4 * c)).dropWhile (· == 0))) < 2 ^ (c - 1) ∨
      ∃ j < 3 * c, wl.length ≤ lookedUp sha (rd.take (4 * c)) c j)

/-- Specification: combining two private keys crashes. -/
def CombineCrash (toLower : GoString → GoString) (a b : PrivateKey) : Prop :=
  a.Network = b.Network ∧ toLower a.WIF ≠ toLower b.WIF ∧ (a.Key = none ∨ b.Key = none ∨ a.Network = none)

end Spec

/-! ## On values -/

theorem generate_crash_iff (H : Hashes) (net : Network) : ∀ (m : Nat) (rd : Reader), rd.length ≤ m →
    ((∃ p, generatePrivateKey H rd (some net) = .panic p) ↔ ¬ (EvenHex net.PrivKeyPrefix ∧ SuppliesKey rd)) := by
  intro m
  induction m with
  | zero =>
    intro rd hm
    rw [generatePrivateKey_step, if_neg (by omega)]
    refine ⟨fun _ h => ?_, fun _ => ⟨_, rfl⟩⟩
    obtain ⟨-, j, h, -⟩ := h
    omega
  | succ m ih =>
    intro rd hm
    by_cases hl : 32 ≤ rd.length
    · have hrec := ih (rd.drop 32) (by simp; omega)
      have hsplit : SuppliesKey rd ↔
          (16 ^ 63 ≤ bigEndian (rd.take 32) ∧ bigEndian (rd.take 32) ≤ Spec.n - 2) ∨ SuppliesKey (rd.drop 32) := by
        constructor
        · rintro ⟨j, h1, h2, h3⟩
          cases j with
          | zero => exact .inl ⟨by simpa using h2, by simpa using h3⟩
          | succ j =>
            right
            have e : (rd.drop 32).drop (32 * j) = rd.drop (32 * (j + 1)) := by rw [List.drop_drop]; congr 1; omega
            exact ⟨j, by simp; omega, by rw [e]; exact h2, by rw [e]; exact h3⟩
        · rintro (⟨h2, h3⟩ | ⟨j, h1, h2, h3⟩)
          · exact ⟨0, by omega, by simpa using h2, by simpa using h3⟩
          · have e : (rd.drop 32).drop (32 * j) = rd.drop (32 * (j + 1)) := by rw [List.drop_drop]; congr 1; omega
            rw [e] at h2 h3
            exact ⟨j + 1, by simp at h1; omega, h2, h3⟩
      by_cases hp : EvenHex net.PrivKeyPrefix
      · have hc := C15_any_network H net (rd.take 32) (rd.drop 32) (by simp; omega) hp
        rw [List.take_append_drop] at hc
        by_cases hv : 16 ^ 63 ≤ bigEndian (rd.take 32) ∧ bigEndian (rd.take 32) ≤ Spec.n - 2
        · obtain ⟨k, hk, -⟩ := hc.1 hv
          rw [hk]
          constructor
          · rintro ⟨p, h⟩; cases h
          · intro h; exact (h ⟨hp, hsplit.2 (.inl hv)⟩).elim
        · rw [hc.2 hv, hrec, hsplit, or_iff_right hv]
      · refine ⟨fun _ h => hp h.1, fun _ => ?_⟩
        rw [generatePrivateKey_step, if_pos hl]
        have hr := hrec.2 fun h => hp h.1
        by_cases hv : bytesToNat (rd.take 32) < Spec.n - 1
        · rw [if_pos hv]
          have ha : attempt H (some net) (bytesToNat (rd.take 32)) = .ok none := by
            unfold attempt
            split
            · rfl
            · rename_i h64
              cases hd : hexDecode (net.PrivKeyPrefix ++ fmtNat 16 (bytesToNat (rd.take 32))) with
              | ok bs =>
                exfalso
                have hs := (exists_spells_iff _).1 ⟨bs, hexDecode_eq_ok.1 hd⟩
                refine hp ⟨fun c hc => hs.1 c (by simp [hc]), ?_⟩
                have := hs.2
                rw [List.length_append] at this
                omega
              | err e => rw [privateFromHex_of_err H hd]
              | panic q => exact absurd hd (hexDecode_ne_panic _ _)
          rw [ha]
          exact hr
        · rw [if_neg hv]
          exact hr
    · rw [generatePrivateKey_step, if_neg hl]
      refine ⟨fun _ h => ?_, fun _ => ⟨_, rfl⟩⟩
      obtain ⟨-, j, h, -⟩ := h
      omega

theorem generate_nil_crash (H : Hashes) : ∀ (m : Nat) (rd : Reader), rd.length ≤ m →
    ∃ p, generatePrivateKey H rd none = .panic p := by
  intro m
  induction m with
  | zero =>
    intro rd hm
    rw [generatePrivateKey_step, if_neg (by omega)]
    exact ⟨_, rfl⟩
  | succ m ih =>
    intro rd hm
    rw [generatePrivateKey_step]
    by_cases hl : 32 ≤ rd.length
    · have hrec := ih (rd.drop 32) (by simp; omega)
      rw [if_pos hl]
      by_cases hv : bytesToNat (rd.take 32) < Spec.n - 1
      · rw [if_pos hv]
        by_cases h64 : (fmtNat 16 (bytesToNat (rd.take 32))).length = 64
        · have ha : attempt H none (bytesToNat (rd.take 32)) = .panic .nilDeref := by
            unfold attempt
            rw [if_neg (not_not_intro h64), (C02_no_panic H _ MainNetwork .nilDeref).2]
          rw [ha]
          exact ⟨_, rfl⟩
        · have ha : attempt H none (bytesToNat (rd.take 32)) = .ok none := by
            unfold attempt
            rw [if_pos h64]
          rw [ha]
          exact hrec
      · rw [if_neg hv]
        exact hrec
    · rw [if_neg hl]
      exact ⟨_, rfl⟩

theorem phraseLoop_crash_iff {wl : List GoString} {bits : List Bool} :
    ∀ (n i : Nat), i + 11 * n = bits.length →
      ((∃ p, phraseLoop wl (bitsNumber bits) n i = .panic p) ↔
        ∃ j < n, wl.length ≤ bitsNumber ((bits.reverse.drop (i + 11 * j)).take 11)) := by
  intro n
  induction n with
  | zero =>
    intro i _
    constructor
    · rintro ⟨p, h⟩; cases h
    · rintro ⟨j, h, -⟩; omega
  | succ n ih =>
    intro i hi
    have hne : (bits.reverse.drop i).take 11 ≠ [] := by
      intro h0
      have := congrArg List.length h0
      simp at this
      omega
    rw [phraseLoop, bitString_eq (by omega), bigSetString_bits hne]
    simp only [deref_some, Res.bind_ok, index, Int.natCast_nonneg, if_true, Int.toNat_natCast]
    have hsplit : (∃ j < n + 1, wl.length ≤ bitsNumber ((bits.reverse.drop (i + 11 * j)).take 11)) ↔
        wl.length ≤ bitsNumber ((bits.reverse.drop i).take 11) ∨
          ∃ j < n, wl.length ≤ bitsNumber ((bits.reverse.drop (i + 11 + 11 * j)).take 11) := by
      constructor
      · rintro ⟨j, h1, h2⟩
        cases j with
        | zero => exact .inl (by simpa using h2)
        | succ j => exact .inr ⟨j, by omega, by rw [show i + 11 + 11 * j = i + 11 * (j + 1) by omega]; exact h2⟩
      · rintro (h | ⟨j, h1, h2⟩)
        · exact ⟨0, by omega, by simpa using h⟩
        · exact ⟨j + 1, by omega, by rw [show i + 11 * (j + 1) = i + 11 + 11 * j by omega]; exact h2⟩
    rw [hsplit]
    cases hw : wl[bitsNumber ((bits.reverse.drop i).take 11)]? with
    | none => simp [List.getElem?_eq_none_iff.1 hw]
    | some w =>
      have hlt : ¬ wl.length ≤ bitsNumber ((bits.reverse.drop i).take 11) := by
        intro h
        rw [List.getElem?_eq_none_iff.2 h] at hw
        cases hw
      simp only [hlt, false_or, Res.bind_ok]
      rw [← ih (i + 11) (by omega)]
      cases phraseLoop wl (bitsNumber bits) n (i + 11) <;> simp

theorem newMnemonic_crash_iff (H : Hashes) (rd : Reader) (words : Int) (wl : List GoString) :
    (∃ p, newMnemonic H rd words (some wl) = .panic p) ↔ PhraseCrash H.sha256 rd words wl := by
  by_cases hc : ∃ c : Nat, 4 ≤ c ∧ c ≤ 8 ∧ words = ((3 * c : Nat) : Int)
  · obtain ⟨c, h1, h2, rfl⟩ := hc
    rw [newMnemonic_eq H rd wl h1 h2]
    have hc' : ∀ c' : Nat, ((3 * c : Nat) : Int) = 3 * (c' : Int) → c' = c := fun c' h => by omega
    by_cases hl : 4 * c ≤ rd.length
    · rw [if_pos hl]
      have he : (rd.take (4 * c)).length = 4 * c := by simp; omega
      obtain ⟨k1, k2⟩ := phraseOf_eq H wl (ent := rd.take (4 * c)) h1 he
      have iff1 : PhraseCrash H.sha256 rd ((3 * c : Nat) : Int) wl ↔
          (bytesToNat (H.sha256 ((rd.take (4 * c)).dropWhile (· == 0))) < 2 ^ (c - 1) ∨
            ∃ j < 3 * c, wl.length ≤ lookedUp H.sha256 (rd.take (4 * c)) c j) := by
        rw [← bigEndian_eq]
        constructor
        · rintro ⟨c', a1, a2, a3, a4, a5⟩
          obtain rfl := hc' c' a3
          exact a5
        · intro a5
          exact ⟨c, h1, h2, by push_cast; rfl, hl, a5⟩
      rw [iff1]
      by_cases hh : bytesToNat (H.sha256 ((rd.take (4 * c)).dropWhile (· == 0))) < 2 ^ (c - 1)
      · rw [k1 hh]
        exact ⟨fun _ => .inl hh, fun _ => ⟨_, rfl⟩⟩
      · obtain ⟨m1, m2⟩ := k2 (by omega)
        rw [m2]
        have hb : 0 + 11 * (3 * c) = (bytesBits (rd.take (4 * c)) ++ codeChecksum H.sha256 (rd.take (4 * c)) c).length := by
          rw [List.length_append, m1, length_bytesBits, he]; omega
        have := phraseLoop_crash_iff (wl := wl) (3 * c) 0 hb
        simp only [Nat.zero_add] at this
        simp only [hh, false_or]
        refine Iff.trans ?_ this
        cases phraseLoop wl _ (3 * c) 0 <;> simp [Res.bind]
    · rw [if_neg hl]
      constructor
      · rintro ⟨p, h⟩; cases h
      · rintro ⟨c', a1, a2, a3, a4, -⟩
        obtain rfl := hc' c' a3
        omega
  · have hn : entropyLengthOf words = none :=
      entropyLengthOf_none fun c h1 h2 h => hc ⟨c, h1, h2, h⟩
    constructor
    · rintro ⟨p, h⟩
      simp [newMnemonic, hn] at h
    · rintro ⟨c, h1, h2, h3, -⟩
      exact (hc ⟨c, h1, h2, by rw [h3]; push_cast; rfl⟩).elim

theorem newMnemonic_nil_no_crash (H : Hashes) (rd : Reader) (words : Int) (p : GoPanic) :
    newMnemonic H rd words none ≠ .panic p := by
  intro h
  cases h

theorem newSeed_crash_iff (H : Hashes) (mn pa : GoString) (wl : Option (List GoString)) (hl : (wl.getD []).length ≤ 2048) :
    (∃ p, (newSeedFromMnemonic H mn pa wl).1 = .panic p) ↔
      (∀ w ∈ splitSpace mn, w ∈ wl.getD []) ∧ (splitSpace mn).length % 4 ≠ 0 := by
  by_cases hw : ∀ w ∈ splitSpace mn, w ∈ wl.getD []
  · cases wl with
    | none =>
      obtain ⟨w, h⟩ := List.exists_mem_of_ne_nil _ (splitSpace_ne_nil mn)
      exact absurd (hw w h) (by simp)
    | some wl =>
      simp only [Option.getD_some] at hl hw ⊢
      by_cases h4 : (splitSpace mn).length % 4 = 0
      · simp only [h4, ne_eq, not_true, and_false, iff_false, not_exists]
        intro p hp
        have h1 : (splitSpace mn).length % 8 = 4 ∨ (splitSpace mn).length % 8 = 0 := by omega
        rcases h1 with h1 | h1
        · rw [newSeed_odd H pa hl hw h1] at hp
          exact absurd hp (by simp)
        · obtain ⟨body, ck, log, _, _, _, h5⟩ := newSeed_bytes H pa hl hw h1
          rw [h5] at hp
          split at hp <;> simp at hp
      · exact ⟨fun _ => ⟨hw, h4⟩, fun _ => ⟨_, newSeed_panic H pa hl hw h4⟩⟩
  · simp only [hw, false_and, iff_false]
    rintro ⟨p, hp⟩
    push Not at hw
    obtain ⟨w, h1, h2⟩ := hw
    rw [newSeed_unknown H pa h1 h2] at hp
    cases hp

theorem publicFromHex_crash_iff (V : Ecdsa) (hC : EcdsaContract V) (s : GoString) (net : Option Network)
    (hd : s.take 2 ∈ [asc "02", asc "03"] → 66 ≤ s.length →
      (∀ c ∈ (s.drop 2).take 64, IsHexDigit c) ∧ hexNumber ((s.drop 2).take 64) < Spec.p) :
    (∃ p, publicFromHex V s net = .panic p) ↔ s.length < 2 ∨
      (s.take 2 ∈ [asc "02", asc "03"] ∧ s.length < 66) ∨ (s.take 2 = asc "04" ∧ s.length < 130) := by
  obtain ⟨k1, k2, k3, k4⟩ := C32_outcomes_partial V s net
  have n1 : asc "04" ∉ [asc "02", asc "03"] := by decide +kernel
  by_cases hl : s.length < 2
  · exact ⟨fun _ => .inl hl, fun _ => ⟨_, k1 hl⟩⟩
  by_cases h4 : s.take 2 = asc "04"
  · by_cases hl4 : s.length < 130
    · exact ⟨fun _ => .inr (.inr ⟨h4, hl4⟩), fun _ => ⟨_, (k4 h4).1 hl4⟩⟩
    · obtain ⟨-, k, hk⟩ := (k4 h4).2 (by omega)
      rw [hk]
      constructor
      · rintro ⟨p, h⟩; cases h
      · rintro (h | ⟨h, -⟩ | ⟨-, h⟩)
        · omega
        · rw [h4] at h; exact (n1 h).elim
        · omega
  by_cases h23 : s.take 2 ∈ [asc "02", asc "03"]
  · by_cases hl6 : s.length < 66
    · exact ⟨fun _ => .inr (.inl ⟨h23, hl6⟩), fun _ => ⟨_, (k3 h23).1 hl6⟩⟩
    · rw [(k3 h23).2 (by omega)]
      obtain ⟨hh, hx⟩ := hd h23 (by omega)
      have hxl : ((s.drop 2).take 64).length = 64 := by simp; omega
      have hs : s.take 66 = s.take 2 ++ (s.drop 2).take 64 := by
        rw [show 66 = 2 + 64 by omega, List.take_add]
      obtain ⟨par, hpar⟩ : ∃ par : Fin 2, s.take 2 = Spec.parityPrefix par := by
        rcases List.mem_cons.1 h23 with h | h
        · exact ⟨0, h.trans (by decide +kernel)⟩
        · exact ⟨1, (List.mem_singleton.1 h).trans (by decide +kernel)⟩
      obtain ⟨c1, c2, c3⟩ := C30_decompression V hC par _ net hxl hh hx
      rw [hs, hpar]
      constructor
      · rintro ⟨p, h⟩
        exfalso
        by_cases hy : ∃ y, OnCurve (hexNumber ((s.drop 2).take 64)) y
        · obtain ⟨y, ⟨y1, y2⟩, -⟩ := c3 hy
          rw [c1 y y1 y2] at h
          cases h
        · push Not at hy
          rw [c2 hy] at h
          cases h
      · rintro (h | ⟨-, h⟩ | ⟨h, -⟩)
        · omega
        · omega
        · exact (h4 (hpar.trans h)).elim
  · have hx := k2 (by omega) (by simp only [List.mem_cons, List.not_mem_nil, or_false] at h23 ⊢; tauto)
    rw [hx]
    constructor
    · rintro ⟨p, h⟩; cases h
    · rintro (h | ⟨h, -⟩ | ⟨h, -⟩)
      · omega
      · exact (h23 h).elim
      · exact (h4 h).elim

/-! ## On the text -/

namespace Spec

/-- Specification: the value a private key pointer stands for. -/
def privAt (st : State) (p : Ptr) : Option PrivateKey := (loadPriv st.heap p).map (privValue st.heap)

/-- Specification: the value a public key pointer stands for. -/
def pubAt (st : State) (p : Ptr) : Option PublicKey := (loadPub st.heap p).map (pubValue st.heap)

/-- Specification: the table. -/
def Crashes (H : Hashes) (st : State) : Request → Prop
  | .checkWIF w => w ≠ [] ∧ ∃ bs, bs.length < 4 ∧ IsBase58 bs w
  | .privateFromWIF w _ => (w ≠ [] ∧ ∃ bs, bs.length < 4 ∧ IsBase58 bs w) ∨ IsBase58Check H.sha256 [] w
  | .privateFromHex _ net => loadNet st.heap net = none
  | .generatePrivateKey net => ¬ ∃ nw, loadNet st.heap net = some nw ∧ EvenHex nw.PrivKeyPrefix ∧ SuppliesKey st.rd
  | .addPrivateKeys p q => privAt st p = none ∨ privAt st q = none ∨
      ∃ a b, privAt st p = some a ∧ privAt st q = some b ∧ CombineCrash H.toLower a b
  | .multiplyPrivateKeys p q => privAt st p = none ∨ privAt st q = none ∨
      ∃ a b, privAt st p = some a ∧ privAt st q = some b ∧ CombineCrash H.toLower a b
  | .publicFromHex s _ => s.length < 2 ∨ (s.take 2 ∈ [asc "02", asc "03"] ∧ s.length < 66) ∨
      (s.take 2 = asc "04" ∧ s.length < 130)
  | .getPublicKey p => privAt st p = none
  | .format p c => pubAt st p = none ∨ ∃ k, pubAt st p = some k ∧ c = true ∧ k.Y = none
  | .address p c => pubAt st p = none ∨ ∃ k, pubAt st p = some k ∧
      ((c = true ∧ k.Y = none) ∨ (Writable c k.X k.Y ∧ k.Network = none))
  | .addPublicKeys p q _ => pubAt st p = none ∨ pubAt st q = none
  | .newMnemonic words wl => ∃ l, wl = some l ∧ PhraseCrash H.sha256 st.rd words l
  | .newSeedFromMnemonic mn _ wl => ∃ ws, (∀ w ∈ ws, (32 : UInt8) ∉ w) ∧ phraseText ws = mn ∧ (∀ w ∈ ws, w ∈ wl.getD []) ∧
      ws.length % 4 ≠ 0

/-- Specification: the assumptions on the curve package say what it does in this call; for `NewSeedFromMnemonic`, the
list has at most the 2048 words of a BIP-39 list. -/
def Determined (st : State) : Request → Prop
  | .publicFromHex s _ => s.take 2 ∈ [asc "02", asc "03"] → 66 ≤ s.length →
      (∀ c ∈ (s.drop 2).take 64, IsHexDigit c) ∧ hexNumber ((s.drop 2).take 64) < Spec.p
  | .getPublicKey p => ∀ k, privAt st p = some k → ∃ v : Nat, k.Key = some (v : Int) ∧ 1 ≤ v ∧ v < Spec.n
  | .addPublicKeys p q _ => ∀ a b, pubAt st p = some a → pubAt st q = some b → a.Network = b.Network →
      ∃ x₁ y₁ x₂ y₂ : Nat, a.X = some (x₁ : Int) ∧ a.Y = some (y₁ : Int) ∧ b.X = some (x₂ : Int) ∧ b.Y = some (y₂ : Int) ∧
        OnCurve x₁ y₁ ∧ OnCurve x₂ y₂ ∧ x₁ ≠ x₂
  | .newSeedFromMnemonic _ _ wl => (wl.getD []).length ≤ 2048
  | _ => True

end Spec

section
variable {H : Hashes} {E : EcdsaM} {V : Ecdsa} {nets : List Network} {st : State}

theorem crash_of_returns {α β : Type} {good : α → List Value} {bad : GoError → List Value} {Q : α → β → Heap → Prop} {r : Request}
    {x : Res β} (h : ∃ o, r.Ends H E st o ∧ Returns st good bad Q x o) :
    (∃ pn st', r.Ends H E st (.panic pn st')) ↔ ∃ p, x = .panic p := by
  obtain ⟨o, h1, h2⟩ := h
  constructor
  · rintro ⟨pn, st', h3⟩
    obtain rfl := h1.unique h3
    cases x with
    | ok v => obtain ⟨a, st'', e, -⟩ := h2; cases e
    | err e => obtain ⟨st'', e, -⟩ := h2; cases e
    | panic p => exact ⟨p, rfl⟩
  · rintro ⟨p, rfl⟩
    obtain ⟨st', rfl, -⟩ := h2
    exact ⟨_, _, h1⟩

theorem privAt_none {p : Ptr} : privAt st p = none ↔ loadPriv st.heap p = none := by
  unfold privAt
  cases loadPriv st.heap p <;> simp

theorem pubAt_none {p : Ptr} : pubAt st p = none ↔ loadPub st.heap p = none := by
  unfold pubAt
  cases loadPub st.heap p <;> simp

attribute [local irreducible] generateRandomBigInt in
/-- The table, in any state in which the parameters are in place and all pointers valid. -/
theorem crash_table (H : Hashes) (E : EcdsaM) (V : Ecdsa) (hE : Pkg E) (hV : E.Refines V) (hC : EcdsaContract V)
    (st : State) (hi : Intact st) (r : Request) (hd : Determined st r) :
    (∃ pn st', r.Ends H E st (.panic pn st')) ↔ Crashes H st r := by
  cases r with
  | checkWIF w =>
    rw [crash_of_returns (C108_checkWIF H E hE st w)]
    exact C04_checkWIF_panics_iff_partial H w
  | privateFromWIF w net =>
    rw [crash_of_returns (C108_privateFromWIF H E hE st w net)]
    exact C04_privateFromWIF_panics_iff_partial H w _
  | privateFromHex h net =>
    rw [crash_of_returns (C108_privateFromHex H E hE st h net)]
    show _ ↔ loadNet st.heap net = none
    cases loadNet st.heap net with
    | none => exact ⟨fun _ => rfl, fun _ => ⟨_, (C02_no_panic H h MainNetwork .nilDeref).2⟩⟩
    | some nw =>
      constructor
      · rintro ⟨p, hp⟩; exact ((C02_no_panic H h nw p).1 hp).elim
      · intro h; cases h
  | generatePrivateKey net =>
    obtain ⟨o, h1, h2⟩ := C108_generatePrivateKey H E hE st net
    have e : (∃ pn st', (Request.generatePrivateKey net).Ends H E st (.panic pn st')) ↔
        ∃ p, generatePrivateKey H st.rd (loadNet st.heap net) = .panic p := by
      constructor
      · rintro ⟨pn, st', h3⟩
        obtain rfl := h1.unique h3
        rcases hg : generatePrivateKey H st.rd (loadNet st.heap net) with ⟨v, rd⟩ | e | p <;> rw [hg] at h2
        · obtain ⟨_, _, e, -⟩ := h2; cases e
        · exact h2.elim
        · exact ⟨p, rfl⟩
      · rintro ⟨p, hp⟩
        rw [hp] at h2
        obtain ⟨st', rfl, -⟩ := h2
        exact ⟨_, _, h1⟩
    rw [e]
    show _ ↔ ¬ ∃ nw, loadNet st.heap net = some nw ∧ EvenHex nw.PrivKeyPrefix ∧ SuppliesKey st.rd
    cases loadNet st.heap net with
    | none =>
      refine ⟨fun _ => ?_, fun _ => generate_nil_crash H _ _ le_rfl⟩
      rintro ⟨nw, h, -⟩
      cases h
    | some nw =>
      rw [generate_crash_iff H nw _ _ le_rfl]
      simp
  | addPrivateKeys p q =>
    show _ ↔ privAt st p = none ∨ privAt st q = none ∨
      ∃ a b, privAt st p = some a ∧ privAt st q = some b ∧ CombineCrash H.toLower a b
    by_cases hn : loadPriv st.heap p = none ∨ loadPriv st.heap q = none
    · obtain ⟨st', -, h⟩ := (C108_nil H E st hE p q true).1 hn
      refine ⟨fun _ => ?_, fun _ => ⟨_, _, h⟩⟩
      rw [privAt_none, privAt_none, ← or_assoc]
      exact .inl hn
    · push Not at hn
      obtain ⟨o1, h1⟩ := Option.ne_none_iff_exists'.1 hn.1
      obtain ⟨o2, h2⟩ := Option.ne_none_iff_exists'.1 hn.2
      rw [crash_of_returns (text_addPrivateKeys H E hE st hi p q o1 o2 h1 h2), (C73_crash_iff_partial H _ _).1]
      simp [privAt, h1, h2, CombineCrash]
  | multiplyPrivateKeys p q =>
    show _ ↔ privAt st p = none ∨ privAt st q = none ∨
      ∃ a b, privAt st p = some a ∧ privAt st q = some b ∧ CombineCrash H.toLower a b
    by_cases hn : loadPriv st.heap p = none ∨ loadPriv st.heap q = none
    · obtain ⟨st', -, h⟩ := (C108_nil H E st hE p q true).2.1 hn
      refine ⟨fun _ => ?_, fun _ => ⟨_, _, h⟩⟩
      rw [privAt_none, privAt_none, ← or_assoc]
      exact .inl hn
    · push Not at hn
      obtain ⟨o1, h1⟩ := Option.ne_none_iff_exists'.1 hn.1
      obtain ⟨o2, h2⟩ := Option.ne_none_iff_exists'.1 hn.2
      rw [crash_of_returns (text_multiplyPrivateKeys H E hE st hi p q o1 o2 h1 h2), (C73_crash_iff_partial H _ _).2]
      simp [privAt, h1, h2, CombineCrash]
  | publicFromHex s net =>
    rw [crash_of_returns (text_publicFromHex H E V hE hV st hi s net)]
    exact publicFromHex_crash_iff V hC s _ hd
  | getPublicKey p =>
    show _ ↔ privAt st p = none
    rcases hp : loadPriv st.heap p with _ | o
    · obtain ⟨st', -, h⟩ := (C108_nil H E st hE p p true).2.2.2.1 hp
      exact ⟨fun _ => privAt_none.2 hp, fun _ => ⟨_, _, h⟩⟩
    · rw [crash_of_returns (text_getPublicKey H E V hE hV st hi p o hp)]
      obtain ⟨v, v1, v2, v3⟩ := hd (privValue st.heap o) (by simp [privAt, hp])
      obtain ⟨x, y, -, e⟩ := C33_public_key V hC EC.G EC.G_coords _ v v1 v2 v3
      rw [e]
      simp [privAt, hp]
  | format p c =>
    show _ ↔ pubAt st p = none ∨ ∃ k, pubAt st p = some k ∧ c = true ∧ k.Y = none
    rcases hp : loadPub st.heap p with _ | o
    · obtain ⟨st', -, h⟩ := (C108_nil H E st hE p p c).2.2.2.2.1 hp
      exact ⟨fun _ => .inl (pubAt_none.2 hp), fun _ => ⟨_, _, h⟩⟩
    · rw [crash_of_returns (C108_format H E hE st p o hp c)]
      have k := C61_standard_iff_partial (pubValue st.heap o).X (pubValue st.heap o).Y (pubValue st.heap o).Network
      simp only [pubAt, hp, Option.map_some, reduceCtorEq, false_or, Option.some.injEq, exists_eq_left']
      cases c with
      | true => exact k.2.1.trans (by simp)
      | false =>
        obtain ⟨s, e, -⟩ := k.1
        change format (pubValue st.heap o) false = _ at e
        rw [e]
        simp
  | address p c =>
    show _ ↔ pubAt st p = none ∨ ∃ k, pubAt st p = some k ∧
      ((c = true ∧ k.Y = none) ∨ (Writable c k.X k.Y ∧ k.Network = none))
    rcases hp : loadPub st.heap p with _ | o
    · obtain ⟨st', -, h⟩ := (C108_nil H E st hE p p c).2.2.2.2.2 hp
      exact ⟨fun _ => .inl (pubAt_none.2 hp), fun _ => ⟨_, _, h⟩⟩
    · rw [crash_of_returns (C108_address H E hE st p o hp c)]
      simp only [pubAt, hp, Option.map_some, reduceCtorEq, false_or, Option.some.injEq, exists_eq_left']
      exact (C62_outcome_partial H (pubValue st.heap o).X (pubValue st.heap o).Y (pubValue st.heap o).Network c).1
  | addPublicKeys p q c =>
    show _ ↔ pubAt st p = none ∨ pubAt st q = none
    by_cases hn : loadPub st.heap p = none ∨ loadPub st.heap q = none
    · obtain ⟨st', -, h⟩ := (C108_nil H E st hE p q c).2.2.1 hn
      refine ⟨fun _ => ?_, fun _ => ⟨_, _, h⟩⟩
      rw [pubAt_none, pubAt_none]
      exact hn
    · push Not at hn
      obtain ⟨o1, h1⟩ := Option.ne_none_iff_exists'.1 hn.1
      obtain ⟨o2, h2⟩ := Option.ne_none_iff_exists'.1 hn.2
      rw [crash_of_returns (text_addPublicKeys H E V hE hV st hi p q o1 o2 h1 h2 c)]
      have no : ¬ (pubAt st p = none ∨ pubAt st q = none) := by simp [pubAt, h1, h2]
      simp only [no, iff_false]
      rintro ⟨pn, hpn⟩
      by_cases hnet : (pubValue st.heap o1).Network = (pubValue st.heap o2).Network
      · obtain ⟨x₁, y₁, x₂, y₂, a1, a2, a3, a4, a5, a6, a7⟩ := hd (pubValue st.heap o1) (pubValue st.heap o2)
          (by simp [pubAt, h1]) (by simp [pubAt, h2]) hnet
        obtain ⟨P, hP⟩ := (EC.onCurve_iff _ _).1 a5
        obtain ⟨Q, hQ⟩ := (EC.onCurve_iff _ _).1 a6
        obtain ⟨x, y, -, -, e⟩ := C37_add_public_keys V hC P Q x₁ y₁ x₂ y₂ (pubValue st.heap o1).Network hP hQ a7
        have e1 : pubValue st.heap o1 = ⟨some (x₁ : Int), some (y₁ : Int), (pubValue st.heap o1).Network⟩ := by rw [← a1, ← a2]
        have e2 : pubValue st.heap o2 = ⟨some (x₂ : Int), some (y₂ : Int), (pubValue st.heap o1).Network⟩ := by
          rw [← a3, ← a4, hnet]
        rw [e2, e1, (e c).1] at hpn
        cases hpn
      · rw [(C24_public_networks V _ _ c).1 hnet] at hpn
        cases hpn
  | newMnemonic words wl =>
    obtain ⟨o, h1, h2⟩ := C108_newMnemonic H E st words wl
    have e : (∃ pn st', (Request.newMnemonic words wl).Ends H E st (.panic pn st')) ↔
        ∃ p, newMnemonic H st.rd words wl = .panic p := by
      constructor
      · rintro ⟨pn, st', h3⟩
        obtain rfl := h1.unique h3
        rcases hg : newMnemonic H st.rd words wl with ⟨v, rd⟩ | e | p <;> rw [hg] at h2
        · obtain ⟨_, e, -⟩ := h2; cases e
        · obtain ⟨_, e, -⟩ := h2; cases e
        · exact ⟨p, rfl⟩
      · rintro ⟨p, hp⟩
        rw [hp] at h2
        obtain ⟨st', rfl, -⟩ := h2
        exact ⟨_, _, h1⟩
    rw [e]
    cases wl with
    | none =>
      constructor
      · rintro ⟨p, hp⟩; exact (newMnemonic_nil_no_crash H _ _ p hp).elim
      · rintro ⟨l, h, -⟩; cases h
    | some l =>
      rw [newMnemonic_crash_iff]
      exact ⟨fun h => ⟨l, rfl, h⟩, by rintro ⟨l', h, h'⟩; cases h; exact h'⟩
  | newSeedFromMnemonic mn pa wl =>
    obtain ⟨o, h1, h2⟩ := C108_newSeedFromMnemonic H E st mn pa wl
    have e : (∃ pn st', (Request.newSeedFromMnemonic mn pa wl).Ends H E st (.panic pn st')) ↔
        ∃ p, (newSeedFromMnemonic H mn pa wl).1 = .panic p := by
      constructor
      · rintro ⟨pn, st', h3⟩
        obtain rfl := h1.unique h3
        rcases hg : newSeedFromMnemonic H mn pa wl with ⟨(_ | b) | e | p, log⟩ <;> rw [hg] at h2
        · obtain ⟨_, e, -⟩ := h2; cases e
        · obtain ⟨_, e, -⟩ := h2; cases e
        · obtain ⟨_, e, -⟩ := h2; cases e
        · exact ⟨p, rfl⟩
      · rintro ⟨p, hp⟩
        rcases hg : newSeedFromMnemonic H mn pa wl with ⟨x, log⟩
        rw [hg] at h2 hp
        obtain rfl : x = .panic p := hp
        obtain ⟨st', rfl, -⟩ := h2
        exact ⟨_, _, h1⟩
    rw [e, newSeed_crash_iff H mn pa wl hd]
    constructor
    · rintro ⟨a, b⟩
      exact ⟨splitSpace mn, splitSpace_noSpace mn, phraseText_splitSpace mn, a, b⟩
    · rintro ⟨ws, a, rfl, b, d⟩
      have hne : ws ≠ [] := by rintro rfl; exact d rfl
      rw [splitSpace_phraseText hne a]
      exact ⟨b, d⟩

/-- C112: a call of an exported function, run on the text in any session, panics exactly if the table says so. -/
theorem C112_crash_table (H : Hashes) (E : EcdsaM) (V : Ecdsa) (hE : Pkg E) (hV : E.Refines V) (hC : EcdsaContract V)
    (nets : List Network) (st : State) (hs : Session H E nets st) (r : Request) (hd : Determined st r) :
    (∃ pn st', r.Ends H E st (.panic pn st')) ↔ Crashes H st r :=
  crash_table H E V hE hV hC st (hs.intact hE) r hd

end

open Samples

set_option linter.constructorNameAsVariable false

/-- C112: three characters that decode to too few bytes. -/
example : ∃ pn st', (Request.checkWIF (asc "abc")).Ends realHashes pkg (stocked []) (.panic pn st') :=
  (C112_crash_table realHashes pkg EC.ref refPkg.1 refPkg.2.1 refPkg.2.2 [] (stocked []) (stocked_session _ _ _)
    (.checkWIF (asc "abc")) trivial).2 ⟨by decide +kernel, [0x01, 0xb9, 0x7b], by decide, by unfold IsBase58; decide +kernel⟩

/-- C112: the two private keys in memory can be added. -/
example : ¬ ∃ pn st', (Request.addPrivateKeys (some 0) (some 1)).Ends realHashes pkg (stocked []) (.panic pn st') := by
  rw [C112_crash_table realHashes pkg EC.ref refPkg.1 refPkg.2.1 refPkg.2.2 [] (stocked []) (stocked_session _ _ _)
    (.addPrivateKeys (some 0) (some 1)) trivial]
  rintro (h | h | ⟨a, b, h1, h2, -, -, h⟩)
  · cases h
  · cases h
  · cases h1
    cases h2
    rcases h with h | h | h <;> cases h

/-- C112: the second public key in memory has no coordinates; it cannot be formatted in compressed form. -/
example : ∃ pn st', (Request.format (some 1) true).Ends realHashes pkg (stocked []) (.panic pn st') :=
  (C112_crash_table realHashes pkg EC.ref refPkg.1 refPkg.2.1 refPkg.2.2 [] (stocked []) (stocked_session _ _ _)
    (.format (some 1) true) trivial).2 (.inr ⟨_, rfl, rfl, rfl⟩)

/-- C112: the first can be written and has an address. -/
example (c : Bool) : ¬ ∃ pn st', (Request.address (some 0) c).Ends realHashes pkg (stocked []) (.panic pn st') := by
  rw [C112_crash_table realHashes pkg EC.ref refPkg.1 refPkg.2.1 refPkg.2.2 [] (stocked []) (stocked_session _ _ _)
    (.address (some 0) c) trivial]
  rintro (h | ⟨k, h1, ⟨-, h⟩ | ⟨-, h⟩⟩)
  · cases h
  · cases h1; cases h
  · cases h1; cases h

/-- C112: a text that stops after the prefix of an uncompressed key. -/
example : ∃ pn st', (Request.publicFromHex (asc "04") (some 0)).Ends realHashes pkg (stocked []) (.panic pn st') :=
  (C112_crash_table realHashes pkg EC.ref refPkg.1 refPkg.2.1 refPkg.2.2 [] (stocked []) (stocked_session _ _ _)
    (.publicFromHex (asc "04") (some 0)) (fun h => absurd h (by decide +kernel))).2 (.inr (.inr ⟨by decide +kernel, by decide +kernel⟩))

/-- C112: the public key of the first private key in memory. -/
example : ¬ ∃ pn st', (Request.getPublicKey (some 0)).Ends realHashes pkg (stocked []) (.panic pn st') := by
  rw [C112_crash_table realHashes pkg EC.ref refPkg.1 refPkg.2.1 refPkg.2.2 [] (stocked []) (stocked_session _ _ _)
    (.getPublicKey (some 0)) (fun k h => ⟨0x8613DFD6C099751DCC4020EF6F9BCD3C00F4565A15B26979B4B93C045D0A5CEB,
      by cases h; rfl, by decide, by decide +kernel⟩)]
  intro h
  cases h

/-- C112: five words of the list. -/
example : ∃ pn st', (Request.newSeedFromMnemonic (asc "zoo zoo zoo zoo zoo") [] (some EnglishWordlist)).Ends realHashes pkg (stocked [])
    (.panic pn st') :=
  (C112_crash_table realHashes pkg EC.ref refPkg.1 refPkg.2.1 refPkg.2.2 [] (stocked []) (stocked_session _ _ _)
    (.newSeedFromMnemonic (asc "zoo zoo zoo zoo zoo") [] (some EnglishWordlist))
    (show EnglishWordlist.length ≤ 2048 from english.size.le)).2
    ⟨List.replicate 5 (asc "zoo"), by decide +kernel, by decide +kernel, by
      intro w hw
      rw [List.eq_of_mem_replicate hw]
      exact (by decide +kernel : asc "zoo" ∈ EnglishWordlist), by decide⟩

/-- C112: a list of one word is too short for the last word of the all-ones entropy. -/
example : ∃ pn st', (Request.newMnemonic 12 (some [asc "zoo"])).Ends realHashes pkg (stocked (List.replicate 16 255)) (.panic pn st') :=
  (C112_crash_table realHashes pkg EC.ref refPkg.1 refPkg.2.1 refPkg.2.2 [] (stocked (List.replicate 16 255)) (stocked_session _ _ _)
    (.newMnemonic 12 (some [asc "zoo"])) trivial).2
    ⟨_, rfl, 4, by omega, by omega, rfl, by decide, .inr ⟨11, by omega, by
      show _ ≤ lookedUp realHashes.sha256 (List.replicate 16 255) 4 11
      decide +kernel⟩⟩

attribute [local irreducible] generateRandomBigInt in
/-- C112: no key from one block of ones. -/
example : ∃ pn st', (Request.generatePrivateKey (some 0)).Ends realHashes pkg (stocked (List.replicate 32 255)) (.panic pn st') := by
  refine (C112_crash_table realHashes pkg EC.ref refPkg.1 refPkg.2.1 refPkg.2.2 [] (stocked (List.replicate 32 255)) (stocked_session _ _ _)
    (.generatePrivateKey (some 0)) trivial).2 ?_
  rintro ⟨nw, -, -, j, h1, -, h3⟩
  have h1' : 32 * (j + 1) ≤ 32 := h1
  obtain rfl : j = 0 := by omega
  revert h3
  show ¬ bigEndian (List.replicate 32 255) ≤ _
  decide +kernel

end Btc
