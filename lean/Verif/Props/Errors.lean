import Verif.Props.Crash

/-!
# C122: exactly which calls return which error, on the text

The companion of C112: a table with one line per exported function. A call, run on the parsed text, returns an error exactly
if its line says so. Together the two tables say of every call whether it crashes, fails or succeeds.
-/

namespace Btc

open Mem Source Spec

namespace Spec

/-- Specification: the error for a text that is no sequence of bytes in hexadecimal: its first foreign character or, if
all characters are digits, the odd length. -/
def HexFault (s : GoString) : GoError → Prop
  | .hexInvalidByte b => ∃ pre post, s = pre ++ b :: post ∧ (∀ c ∈ pre, IsHexDigit c) ∧ ¬ IsHexDigit b
  | .hexLength => (∀ c ∈ s, IsHexDigit c) ∧ s.length % 2 = 1
  | _ => False

/-- Specification: the error for two private keys; `f` is the sum or the product. -/
def CombineFault (toLower : GoString → GoString) (f : Int → Int → Int) (a b : PrivateKey) (e : GoError) : Prop :=
  (a.Network ≠ b.Network ∧ e = .differentNetwork) ∨
  (a.Network = b.Network ∧ toLower a.WIF = toLower b.WIF ∧ e = .identicalKeys) ∨
  (a.Network = b.Network ∧ toLower a.WIF ≠ toLower b.WIF ∧ ∃ (x y : Int) (nw : Network) (r : Nat) (s : GoString),
    a.Key = some x ∧ b.Key = some y ∧ a.Network = some nw ∧ (r : Int) = f x y % (Spec.n : Int) ∧ IsMinimalHex r s ∧
      HexFault (nw.PrivKeyPrefix ++ s) e)

/-- Specification: a coordinate that is no natural number; `b` is the character that shows it, the first of "<nil>" or
the sign. -/
def CoordFault (v : Option Int) (b : UInt8) : Prop := (v = none ∧ b = 60) ∨ (∃ z : Int, v = some z ∧ z < 0 ∧ b = 45)

/-- Specification: the error for coordinates that cannot be written as bytes. -/
def CoordsFault (c : Bool) (X Y : Option Int) : GoError → Prop
  | .hexInvalidByte b => CoordFault X b ∨ (c = false ∧ (∃ x : Nat, X = some (x : Int)) ∧ CoordFault Y b)
  | .hexLength => ∃ x : Nat, X = some (x : Int) ∧
      if c then max 64 (Nat.digits 16 x).length % 2 = 1
      else ∃ y : Nat, Y = some (y : Int) ∧ (max 64 (Nat.digits 16 x).length + max 64 (Nat.digits 16 y).length) % 2 = 1
  | _ => False

/-- Specification: the words `ws` of the list `wl` spell the bits; the first position of a word counts. -/
inductive SpellsFirst (wl : List GoString) : List GoString → List Bool → Prop
  | nil : SpellsFirst wl [] []
  | cons {w : GoString} {ws : List GoString} {group bits : List Bool} :
      group.length = 11 → w ∈ wl → bitsNumber group = wl.idxOf w → SpellsFirst wl ws bits →
      SpellsFirst wl (w :: ws) (group ++ bits)

/-- Specification: the error for a phrase. -/
def PhraseFault (sha : Bytes → Bytes) (wl ws : List GoString) (e : GoError) : Prop :=
  (e = .invalidMnemonic ∧ ∃ w ∈ ws, w ∉ wl) ∨
  (e = .hexLength ∧ (∀ w ∈ ws, w ∈ wl) ∧ ws.length % 8 = 4) ∨
  (e = .invalidChecksum ∧ ∃ body ck, SpellsFirst wl ws (bytesBits (body ++ [ck])) ∧ (sha body).take 1 ≠ [ck])

end Spec

/-! ## On values -/

theorem hexDecode_err_iff (s : GoString) (e : GoError) : hexDecode s = .err e ↔ HexFault s e := by
  obtain ⟨k1, k2⟩ := hexDecode_bad s
  constructor
  · intro h
    by_cases hd : ∀ c ∈ s, IsHexDigit c
    · by_cases hl : s.length % 2 = 0
      · obtain ⟨bs, hb⟩ := (exists_spells_iff s).2 ⟨hd, hl⟩
        rw [hexDecode_eq_ok.2 hb] at h
        cases h
      · rw [k2 hd (by omega)] at h
        cases h
        exact ⟨hd, by omega⟩
    · obtain ⟨pre, c, post, rfl, h1, h2⟩ : ∃ pre c post, s = pre ++ c :: post ∧ (∀ x ∈ pre, IsHexDigit x) ∧ ¬ IsHexDigit c := by
        clear h k1 k2
        induction s with
        | nil => simp at hd
        | cons a s ih =>
          by_cases ha : IsHexDigit a
          · obtain ⟨pre, c, post, rfl, h1, h2⟩ := ih fun h => hd fun c hc => by
              rcases List.mem_cons.1 hc with rfl | hc
              · exact ha
              · exact h c hc
            exact ⟨a :: pre, c, post, rfl, fun x hx => by
              rcases List.mem_cons.1 hx with rfl | hx
              · exact ha
              · exact h1 x hx, h2⟩
          · exact ⟨[], a, s, rfl, by simp, ha⟩
      rw [k1 pre c post rfl h1 h2] at h
      cases h
      exact ⟨pre, post, rfl, h1, h2⟩
  · intro h
    cases e with
    | hexInvalidByte b =>
      obtain ⟨pre, post, h1, h2, h3⟩ := h
      exact k1 pre b post h1 h2 h3
    | hexLength => exact k2 h.1 h.2
    | _ => exact h.elim

theorem privateFromHex_err_iff (H : Hashes) (h : GoString) (net : Network) (e : GoError) :
    privateFromHex H h (some net) = .err e ↔ HexFault (net.PrivKeyPrefix ++ h) e := by
  rw [← hexDecode_err_iff]
  cases hd : hexDecode (net.PrivKeyPrefix ++ h) with
  | ok bs => simp [privateFromHex_of_spells H (hexDecode_eq_ok.1 hd)]
  | err e' => simp [privateFromHex_of_err H hd]
  | panic q => exact absurd hd (hexDecode_ne_panic _ _)

theorem privateFromWIF_err_iff (H : Hashes) (w : GoString) (net : Option Network) (e : GoError) :
    privateFromWIF H w net = .err e ↔ e = .wifInvalid ∧ (w = [] ∨ ¬ ∃ bs, bs.length < 4 ∧ IsBase58 bs w) ∧
      ¬ ∃ payload, IsBase58Check H.sha256 payload w := by
  cases hc : checkWIF H w with
  | err e => exact absurd hc (checkWIF_ne_err H w e)
  | panic q =>
    have := (C04_checkWIF_panics_iff_partial H w).1 ⟨q, hc⟩
    simp only [privateFromWIF_of_panic H hc, reduceCtorEq, false_iff]
    rintro ⟨-, h | h, -⟩
    · exact this.1 h
    · exact h this.2
  | ok b =>
    have np : ¬ (w ≠ [] ∧ ∃ bs, bs.length < 4 ∧ IsBase58 bs w) := by
      rw [← C04_checkWIF_panics_iff_partial H w, hc]
      rintro ⟨q, h⟩
      cases h
    cases b with
    | false =>
      have nt : ¬ ∃ payload, IsBase58Check H.sha256 payload w := by
        rw [← C03_true_iff, hc]
        simp
      simp only [privateFromWIF_of_false H hc, Res.err.injEq, nt, not_false_eq_true, and_true]
      constructor
      · rintro rfl
        exact ⟨rfl, by tauto⟩
      · rintro ⟨rfl, -⟩
        rfl
    | true =>
      have ht := (C03_true_iff H w).1 hc
      simp only [ht, not_true, and_false, iff_false]
      intro he
      obtain ⟨payload, hd⟩ := (checkWIF_eq_true H).1 hc
      cases payload with
      | nil => simp [privateFromWIF_empty H hd] at he
      | cons v body => simp [privateFromWIF_long H hd] at he

theorem Spec.IsMinimalHex.unique {m : Nat} {s t : GoString} (hs : IsMinimalHex m s) (ht : IsMinimalHex m t) : s = t := by
  have inj : ∀ c ∈ asc "0123456789abcdef", ∀ d ∈ asc "0123456789abcdef", (hexVal c).getD 0 = (hexVal d).getD 0 → c = d := by
    decide +kernel
  have lt : ∀ c ∈ asc "0123456789abcdef", (hexVal c).getD 0 < 16 := by decide +kernel
  have zero : ∀ c ∈ asc "0123456789abcdef", (hexVal c).getD 0 = 0 → c = 48 := by decide +kernel
  have key : ∀ u, IsMinimalHex m u → u = [48] ∨ Nat.digits 16 m = u.reverse.map fun c => (hexVal c).getD 0 := by
    rintro u ⟨h1, h2, h3, h4⟩
    by_cases hu : u.head? = some 48
    · exact .inl (h4 hu)
    · right
      rw [← h1]
      refine Nat.digits_ofDigits 16 (by omega) _ ?_ ?_
      · intro l hl
        obtain ⟨c, hc, rfl⟩ := List.mem_map.1 hl
        exact lt c (h3 c (List.mem_reverse.1 hc))
      · intro hne
        cases u with
        | nil => exact (h2 rfl).elim
        | cons a u =>
          simp only [List.reverse_cons, List.map_append, List.map_cons, List.map_nil, List.getLast_append_singleton]
          intro h0
          exact hu (by rw [zero a (h3 a (by simp)) h0]; rfl)
  have other : ∀ u, IsMinimalHex m u → IsMinimalHex m [48] → u = [48] := by
    rintro u hu h0
    rcases key u hu with h | h
    · exact h
    · have h00 : m = 0 := h0.1.symm.trans (by decide +kernel)
      rw [h00] at h
      have := congrArg List.length h
      simp at this
      exact (hu.2.1 (List.length_eq_zero_iff.1 this.symm)).elim
  rcases key s hs with rfl | h1
  · exact (other t ht hs).symm
  rcases key t ht with rfl | h2
  · exact other s hs ht
  have h3 := h1.symm.trans h2
  rw [List.map_reverse, List.map_reverse, List.reverse_inj] at h3
  have hl : s.length = t.length := by simpa using congrArg List.length h3
  apply List.ext_getElem hl
  intro i h h'
  refine inj _ (hs.2.2.1 _ (List.getElem_mem _)) _ (ht.2.2.1 _ (List.getElem_mem _)) ?_
  have := List.getElem_of_eq h3 (i := i) (by simpa using h)
  simpa using this

theorem combine_err_iff (H : Hashes) (op : Int → Int → Int) (a b : PrivateKey) (e : GoError) :
    combine H op a b = .err e ↔ CombineFault H.toLower op a b e := by
  by_cases hn : a.Network = b.Network
  · by_cases hw : H.toLower a.WIF = H.toLower b.WIF
    · simp only [combine, hn, ne_eq, not_true, if_false, hw, if_true, Res.err.injEq]
      constructor
      · rintro rfl
        exact .inr (.inl ⟨hn, hw, rfl⟩)
      · rintro (⟨h, -⟩ | ⟨-, -, rfl⟩ | ⟨-, h, -⟩)
        · exact (h hn).elim
        · rfl
        · exact (h hw).elim
    · by_cases hk : a.Key = none ∨ b.Key = none ∨ a.Network = none
      · obtain ⟨p, hp⟩ := (combine_panic_iff H op a b).2 ⟨hn, hw, hk⟩
        simp only [hp, reduceCtorEq, false_iff]
        rintro (⟨h, -⟩ | ⟨-, h, -⟩ | ⟨-, -, x, y, nw, r, s, h1, h2, h3, -⟩)
        · exact h hn
        · exact hw h
        · rcases hk with h | h | h
          · rw [h] at h1; cases h1
          · rw [h] at h2; cases h2
          · rw [h] at h3; cases h3
      · push Not at hk
        obtain ⟨x, hx⟩ := Option.ne_none_iff_exists'.1 hk.1
        obtain ⟨y, hy⟩ := Option.ne_none_iff_exists'.1 hk.2.1
        obtain ⟨nw, hnw⟩ := Option.ne_none_iff_exists'.1 hk.2.2
        rw [combine_eq H op hn hw hx hy, hnw, privateFromHex_err_iff]
        constructor
        · intro h
          exact .inr (.inr ⟨hn, hw, x, y, nw, _, _, hx, hy, hnw, residue_cast _, isMinimalHex_fmtNat _, h⟩)
        · rintro (⟨h, -⟩ | ⟨-, h, -⟩ | ⟨-, -, x', y', nw', r, s, h1, h2, h3, h4, h5, h6⟩)
          · exact (h hn).elim
          · exact (hw h).elim
          · obtain rfl : x = x' := by rw [hx] at h1; exact Option.some.inj h1
            obtain rfl : y = y' := by rw [hy] at h2; exact Option.some.inj h2
            obtain rfl : nw = nw' := by rw [hnw] at h3; exact Option.some.inj h3
            rw [← residue_cast] at h4
            obtain rfl : r = residue (op x y) := by exact_mod_cast h4
            rw [← h5.unique (isMinimalHex_fmtNat _)]
            exact h6
  · simp only [combine, ne_eq, hn, not_false_eq_true, if_true, Res.err.injEq]
    constructor
    · rintro rfl
      exact .inl ⟨hn, rfl⟩
    · rintro (⟨-, rfl⟩ | ⟨h, -⟩ | ⟨h, -⟩)
      · rfl
      · exact (hn h).elim
      · exact (hn h).elim

theorem coordText_fault {v : Option Int} {b : UInt8} (h : CoordFault v b) :
    ∃ pre post, coordText v = pre ++ b :: post ∧ (∀ c ∈ pre, IsHexDigit c) ∧ ¬ IsHexDigit b := by
  have h48 : IsHexDigit 48 := by unfold IsHexDigit; decide +kernel
  rcases h with ⟨rfl, rfl⟩ | ⟨z, rfl, hz, rfl⟩
  · refine ⟨List.replicate 59 48, asc "nil>", by decide +kernel, fun c hc => ?_, by unfold IsHexDigit; decide +kernel⟩
    rw [List.eq_of_mem_replicate hc]
    exact h48
  · refine ⟨List.replicate (64 - (45 :: fmtNat 16 z.natAbs).length) 48, fmtNat 16 z.natAbs, by
      simp only [coordText, padZeros, bigIntToHex, fmtBig, hz, if_true], fun c hc => ?_, by unfold IsHexDigit; decide +kernel⟩
    rw [List.eq_of_mem_replicate hc]
    exact h48

theorem coordFault_or (v : Option Int) : (∃ x : Nat, v = some (x : Int)) ∨ ∃ b, CoordFault v b := by
  cases v with
  | none => exact .inr ⟨60, .inl ⟨rfl, rfl⟩⟩
  | some z =>
    by_cases hz : z < 0
    · exact .inr ⟨45, .inr ⟨z, rfl, hz, rfl⟩⟩
    · exact .inl ⟨z.toNat, by rw [Int.toNat_of_nonneg (by omega)]⟩

theorem Spec.CoordFault.unique {v : Option Int} {b b' : UInt8} (h : CoordFault v b) (h' : CoordFault v b') : b = b' := by
  rcases h with ⟨rfl, rfl⟩ | ⟨z, rfl, hz, rfl⟩ <;> rcases h' with ⟨h, rfl⟩ | ⟨z', h, hz', rfl⟩
  · rfl
  · cases h
  · cases h
  · rfl

theorem Spec.CoordFault.not_nat {x : Nat} {b : UInt8} : ¬ CoordFault (some (x : Int)) b := by
  rintro (⟨h, -⟩ | ⟨z, h, hz, -⟩)
  · cases h
  · cases h
    omega

theorem Spec.HexFault.unique {s : GoString} {e e' : GoError} (h : HexFault s e) (h' : HexFault s e') : e = e' := by
  rw [← hexDecode_err_iff] at h h'
  rw [h] at h'
  exact Res.err.inj h'

theorem Spec.CoordsFault.unique {c : Bool} {X Y : Option Int} {e e' : GoError} (h : CoordsFault c X Y e) (h' : CoordsFault c X Y e') :
    e = e' := by
  have inv : ∀ b, CoordsFault c X Y (.hexInvalidByte b) → ¬ CoordsFault c X Y .hexLength := by
    clear h h'
    rintro b (h | ⟨rfl, -, h⟩) ⟨x, rfl, h'⟩
    · exact h.not_nat
    · simp only [Bool.false_eq_true, if_false] at h'
      obtain ⟨y, rfl, -⟩ := h'
      exact h.not_nat
  cases e with
  | hexInvalidByte b =>
    cases e' with
    | hexInvalidByte b' =>
      congr 1
      rcases h with h | ⟨-, ⟨x, rfl⟩, h⟩ <;> rcases h' with h' | ⟨-, ⟨x', hx⟩, h'⟩
      · exact h.unique h'
      · rw [hx] at h
        exact h.not_nat.elim
      · exact h'.not_nat.elim
      · exact h.unique h'
    | hexLength => exact (inv b h h').elim
    | _ => exact h'.elim
  | hexLength =>
    cases e' with
    | hexInvalidByte b' => exact (inv b' h' h).elim
    | hexLength => rfl
    | _ => exact h'.elim
  | _ => exact h.elim

theorem no_fault_of_spells {s : GoString} {bs : Bytes} (h : Spells s bs) (e : GoError) : ¬ HexFault s e := by
  rw [← hexDecode_err_iff, hexDecode_eq_ok.2 h]
  simp

theorem no_coordsFault {c : Bool} {X Y : Option Int} (h : Writable c X Y) (e : GoError) : ¬ CoordsFault c X Y e := by
  obtain ⟨x, rfl, h⟩ := h
  intro hf
  cases e with
  | hexInvalidByte b =>
    rcases hf with hf | ⟨rfl, -, hf⟩
    · exact hf.not_nat
    · simp only [Bool.false_eq_true, if_false] at h
      obtain ⟨y, rfl, -⟩ := h
      exact hf.not_nat
  | hexLength =>
    obtain ⟨x', hx, hf⟩ := hf
    obtain rfl : x = x' := by simpa using hx
    cases c with
    | true =>
      simp only [if_true] at h hf
      omega
    | false =>
      simp only [Bool.false_eq_true, if_false] at h hf
      obtain ⟨y, rfl, h⟩ := h
      obtain ⟨y', hy, hf⟩ := hf
      obtain rfl : y = y' := by simpa using hy
      omega
  | _ => exact hf

theorem hexFault_bad {u s t : GoString} {b : UInt8} (hu : ∀ c ∈ u, IsHexDigit c)
    (h : ∃ pre post, s = pre ++ b :: post ∧ (∀ c ∈ pre, IsHexDigit c) ∧ ¬ IsHexDigit b) :
    HexFault (u ++ s ++ t) (.hexInvalidByte b) := by
  obtain ⟨pre, post, rfl, h1, h2⟩ := h
  refine ⟨u ++ pre, post ++ t, by simp, fun c hc => ?_, h2⟩
  rcases List.mem_append.1 hc with hc | hc
  · exact hu c hc
  · exact h1 c hc

/-- The error of the text of a key, from its coordinates. -/
theorem format_fault (c : Bool) (X Y : Option Int) (net : Option Network) (s : GoString) (hf : format ⟨X, Y, net⟩ c = .ok s)
    (e : GoError) : HexFault s e ↔ CoordsFault c X Y e := by
  have h04 : ∀ c ∈ asc "04", IsHexDigit c := by unfold IsHexDigit; decide +kernel
  have h02 : ∀ c ∈ asc "02", IsHexDigit c := by unfold IsHexDigit; decide +kernel
  have h03 : ∀ c ∈ asc "03", IsHexDigit c := by unfold IsHexDigit; decide +kernel
  have hex : ∀ x : Nat, ∀ d ∈ coordText (some (x : Int)), IsHexDigit d := fun x => (coordText_hex_iff _).2 ⟨x, rfl⟩
  by_cases hw : Writable c X Y
  · obtain ⟨s', bs, h1, h2⟩ := (format_spells_iff c X Y net).2 hw
    rw [hf] at h1
    cases h1
    exact ⟨fun h => (no_fault_of_spells h2 e h).elim, fun h => (no_coordsFault hw e h).elim⟩
  suffices ∃ e', HexFault s e' ∧ CoordsFault c X Y e' by
    obtain ⟨e', h1, h2⟩ := this
    exact ⟨fun h => by rw [h.unique h1]; exact h2, fun h => by rw [h.unique h2]; exact h1⟩
  cases c with
  | false =>
    rw [format_uncompressed] at hf
    cases hf
    rcases coordFault_or X with ⟨x, rfl⟩ | ⟨b, hb⟩
    · rcases coordFault_or Y with ⟨y, rfl⟩ | ⟨b, hb⟩
      · have lx := length_coordText x
        have ly := length_coordText y
        have ho : (max 64 (Nat.digits 16 x).length + max 64 (Nat.digits 16 y).length) % 2 = 1 := by
          by_contra h
          exact hw ⟨x, rfl, by simp only [Bool.false_eq_true, if_false]; exact ⟨y, rfl, by omega⟩⟩
        refine ⟨.hexLength, ⟨fun d hd => ?_, ?_⟩, x, rfl, by simp only [Bool.false_eq_true, if_false]; exact ⟨y, rfl, ho⟩⟩
        · rcases List.mem_append.1 hd with hd | hd
          · rcases List.mem_append.1 hd with hd | hd
            · exact h04 d hd
            · exact hex x d hd
          · exact hex y d hd
        · rw [List.length_append, List.length_append, lx, ly]
          show (2 + _ + _) % 2 = 1
          omega
      · refine ⟨.hexInvalidByte b, ?_, .inr ⟨rfl, ⟨x, rfl⟩, hb⟩⟩
        have := hexFault_bad (u := asc "04" ++ coordText (some (x : Int))) (t := []) (fun d hd => by
          rcases List.mem_append.1 hd with hd | hd
          · exact h04 d hd
          · exact hex x d hd) (coordText_fault hb)
        rwa [List.append_nil] at this
    · exact ⟨.hexInvalidByte b, hexFault_bad h04 (coordText_fault hb), .inl hb⟩
  | true =>
    cases Y with
    | none => simp [format_compressed_nil] at hf
    | some y =>
      rw [format_compressed] at hf
      cases hf
      have hp : ∀ c ∈ (if y % 2 = 0 then asc "02" else asc "03"), IsHexDigit c := by
        split
        · exact h02
        · exact h03
      have l2 : (if y % 2 = 0 then asc "02" else asc "03").length = 2 := by split <;> rfl
      rcases coordFault_or X with ⟨x, rfl⟩ | ⟨b, hb⟩
      · have lx := length_coordText x
        have ho : max 64 (Nat.digits 16 x).length % 2 = 1 := by
          by_contra h
          exact hw ⟨x, rfl, by simp only [if_true]; exact ⟨by simp, by omega⟩⟩
        refine ⟨.hexLength, ⟨fun d hd => ?_, ?_⟩, x, rfl, by simp only [if_true]; exact ho⟩
        · rcases List.mem_append.1 hd with hd | hd
          · exact hp d hd
          · exact hex x d hd
        · rw [List.length_append, lx, l2]
          omega
      · refine ⟨.hexInvalidByte b, ?_, .inl hb⟩
        have := hexFault_bad (t := []) hp (coordText_fault hb)
        rwa [List.append_nil] at this

theorem prefix_fault {u t : GoString} (ht : EvenHex t) (e : GoError) : HexFault (u ++ t) e ↔ HexFault u e := by
  cases e with
  | hexInvalidByte b =>
    constructor
    · rintro ⟨pre, post, h1, h2, h3⟩
      rcases List.append_eq_append_iff.1 h1 with ⟨as, rfl, h⟩ | ⟨bs, rfl, h⟩
      · refine (h3 (ht.1 b ?_)).elim
        rw [h]
        simp
      · cases bs with
        | nil =>
          simp only [List.nil_append] at h
          exact (h3 (ht.1 b (by rw [← h]; simp))).elim
        | cons x bs =>
          rw [List.cons_append] at h
          cases h
          exact ⟨pre, bs, rfl, h2, h3⟩
    · rintro ⟨pre, post, rfl, h2, h3⟩
      exact ⟨pre, post ++ t, by simp, h2, h3⟩
  | hexLength =>
    have := ht.2
    simp only [HexFault, List.length_append]
    constructor
    · rintro ⟨h1, h2⟩
      exact ⟨fun c hc => h1 c (by simp [hc]), by omega⟩
    · rintro ⟨h1, h2⟩
      refine ⟨fun c hc => ?_, by omega⟩
      rcases List.mem_append.1 hc with hc | hc
      · exact h1 c hc
      · exact ht.1 c hc
  | _ => exact Iff.rfl

theorem address_err_iff (H : Hashes) (X Y : Option Int) (net : Option Network) (c : Bool) (e : GoError) :
    address H ⟨X, Y, net⟩ c = .err e ↔ ¬ (c = true ∧ Y = none) ∧
      (CoordsFault c X Y e ∨ (Writable c X Y ∧ ∃ nw, net = some nw ∧ HexFault nw.PubKeyHashPrefix e)) := by
  by_cases hn : c = true ∧ Y = none
  · obtain ⟨p, hp⟩ := (C62_outcome_partial H X Y net c).1.2 (.inl hn)
    rw [hp]
    simp [hn]
  · simp only [hn, not_false_eq_true, true_and]
    obtain ⟨s, hs⟩ : ∃ s, format ⟨X, Y, net⟩ c = .ok s := by
      cases c with
      | false => exact ⟨_, format_uncompressed ..⟩
      | true =>
        cases Y with
        | none => simp at hn
        | some y => exact ⟨_, format_compressed ..⟩
    by_cases hw : Writable c X Y
    · obtain ⟨s', bs, h1, h2⟩ := (format_spells_iff c X Y net).2 hw
      rw [hs] at h1
      cases h1
      simp only [no_coordsFault hw e, hw, true_and, false_or]
      cases net with
      | none =>
        obtain ⟨p, hp⟩ := (C62_outcome_partial H X Y none c).1.2 (.inr ⟨hw, rfl⟩)
        simp [hp]
      | some nw =>
        simp only [Option.some.injEq, exists_eq_left']
        rw [← prefix_fault (u := nw.PubKeyHashPrefix) (t := hexEncode (H.ripemd160 (H.sha256 bs))), ← hexDecode_err_iff]
        · cases hd : hexDecode (nw.PubKeyHashPrefix ++ hexEncode (H.ripemd160 (H.sha256 bs))) with
          | err e' => simp [address, hs, hexDecode_eq_ok.2 h2, hd]
          | panic p => exact absurd hd (hexDecode_ne_panic _ _)
          | ok b =>
            obtain ⟨a, ha⟩ := (C62_outcome_partial H X Y (some nw) c).2.2 ⟨hw, nw, rfl, by
              have := (exists_spells_iff _).1 ⟨b, hexDecode_eq_ok.1 hd⟩
              refine ⟨fun d hd => this.1 d (by simp [hd]), ?_⟩
              have h2 := this.2
              rw [List.length_append, length_hexEncode] at h2
              omega⟩
            simp [ha]
        · exact ⟨((exists_spells_iff _).1 ⟨_, hexDecode_eq_ok.1 (hexDecode_hexEncode _)⟩).1, by rw [length_hexEncode]; omega⟩
    · simp only [hw, false_and, or_false]
      rw [← format_fault c X Y net s hs, ← hexDecode_err_iff]
      cases hd : hexDecode s with
      | err e' => simp [address, hs, hd]
      | panic p => exact absurd hd (hexDecode_ne_panic _ _)
      | ok b => exact (hw ((format_spells_iff c X Y net).1 ⟨s, b, hs, hexDecode_eq_ok.1 hd⟩)).elim

theorem newMnemonic_err_iff (H : Hashes) (rd : Reader) (words : Int) (wl : Option (List GoString)) (e : GoError) :
    newMnemonic H rd words wl = .err e ↔ (wl = none ∧ e = .invalidWordlist) ∨ (wl ≠ none ∧
      (((∀ c : Nat, 4 ≤ c → c ≤ 8 → words ≠ 3 * c) ∧ e = .unsupportedMnemonicLength) ∨
        ∃ c : Nat, 4 ≤ c ∧ c ≤ 8 ∧ words = 3 * c ∧ rd.length < 4 * c ∧ e = .randRead)) := by
  cases wl with
  | none => simp [newMnemonic, eq_comm]
  | some l =>
    simp only [reduceCtorEq, false_and, ne_eq, not_false_eq_true, true_and, false_or]
    by_cases hc : ∃ c : Nat, 4 ≤ c ∧ c ≤ 8 ∧ words = ((3 * c : Nat) : Int)
    · obtain ⟨c, h1, h2, rfl⟩ := hc
      rw [newMnemonic_eq H rd l h1 h2]
      have hc' : ∀ c' : Nat, ((3 * c : Nat) : Int) = 3 * (c' : Int) → c' = c := fun c' h => by omega
      have hno : ¬ ∀ c' : Nat, 4 ≤ c' → c' ≤ 8 → ¬ ((3 * c : Nat) : Int) = 3 * c' := fun h => h c h1 h2 (by push_cast; rfl)
      simp only [hno, false_and, false_or]
      by_cases hl : 4 * c ≤ rd.length
      · rw [if_pos hl]
        constructor
        · intro h
          cases hp : phraseOf H (32 * c) (bytesToNat (rd.take (4 * c))) l with
          | err e' => exact (Imp.phraseOf_ne_err H hp).elim
          | ok v => rw [hp] at h; cases h
          | panic p => rw [hp] at h; cases h
        · rintro ⟨c', -, -, h3, h4, -⟩
          rw [hc' c' h3] at h4
          omega
      · rw [if_neg hl]
        constructor
        · intro h
          cases h
          exact ⟨c, h1, h2, by push_cast; rfl, by omega, rfl⟩
        · rintro ⟨c', -, -, -, -, rfl⟩
          rfl
    · have hn : entropyLengthOf words = none :=
        entropyLengthOf_none fun c h1 h2 h => hc ⟨c, h1, h2, h⟩
      simp only [newMnemonic, hn, Res.err.injEq]
      constructor
      · rintro rfl
        exact .inl ⟨fun c h1 h2 h => hc ⟨c, h1, h2, by rw [h]; push_cast; rfl⟩, rfl⟩
      · rintro (⟨-, rfl⟩ | ⟨c, h1, h2, h3, -⟩)
        · rfl
        · exact (hc ⟨c, h1, h2, by rw [h3]; push_cast; rfl⟩).elim

theorem lookupWord_idxOf {wl : List GoString} {w : GoString} (h : w ∈ wl) : lookupWord wl w = some (wl.idxOf w) := by
  induction wl with
  | nil => simp at h
  | cons a wl ih =>
    rw [lookupWord]
    by_cases ha : w = a
    · subst ha
      simp
    · rw [if_neg ha, ih ((List.mem_cons.1 h).resolve_left ha), List.idxOf_cons_ne _ (Ne.symm ha)]
      rfl

theorem seedBits_first {wl ws : List GoString} {bits : List Bool} (h : SpellsFirst wl ws bits) :
    ∀ acc, seedBits wl ws acc = .ok (acc ++ bits.map bitChar) := by
  induction h with
  | nil => intro acc; simp [seedBits]
  | @cons w ws group bits hg hw hn _ ih =>
    intro acc
    have hp := padZeros_bits (bs := group) (by rintro rfl; simp at hg)
    rw [hg, hn] at hp
    rw [seedBits, lookupWord_idxOf hw]
    simp only
    rw [ih, hp]
    simp

theorem exists_first {wl : List GoString} (hl : wl.length ≤ 2048) : ∀ {ws : List GoString}, (∀ w ∈ ws, w ∈ wl) →
    ∃ bits, SpellsFirst wl ws bits
  | [], _ => ⟨[], .nil⟩
  | w :: ws, h => by
    obtain ⟨bits, hb⟩ := exists_first hl (ws := ws) fun v hv => h v (by simp [hv])
    have hw := h w (by simp)
    have hlt := List.idxOf_lt_length_of_mem hw
    obtain ⟨group, hg, hn⟩ := exists_bits (k := 11) (m := wl.idxOf w) (by omega)
    exact ⟨group ++ bits, .cons hg hw hn hb⟩

theorem Spec.SpellsFirst.mem {wl ws : List GoString} {bits : List Bool} (h : SpellsFirst wl ws bits) : ∀ w ∈ ws, w ∈ wl := by
  induction h with
  | nil => simp
  | cons _ hw _ _ ih =>
    intro v hv
    rcases List.mem_cons.1 hv with rfl | hv
    · exact hw
    · exact ih v hv

theorem Spec.SpellsFirst.length {wl ws : List GoString} {bits : List Bool} (h : SpellsFirst wl ws bits) :
    bits.length = 11 * ws.length := by
  induction h with
  | nil => rfl
  | cons hg _ _ _ ih => simp [hg, ih]; omega

theorem newSeed_err_iff (H : Hashes) (mn pa : GoString) (wl : Option (List GoString)) (hl : (wl.getD []).length ≤ 2048)
    (e : GoError) : (newSeedFromMnemonic H mn pa wl).1 = .err e ↔ PhraseFault H.sha256 (wl.getD []) (splitSpace mn) e := by
  by_cases hw : ∀ w ∈ splitSpace mn, w ∈ wl.getD []
  · have no : ¬ ∃ w ∈ splitSpace mn, w ∉ wl.getD [] := by push Not; exact hw
    cases wl with
    | none =>
      obtain ⟨w, h⟩ := List.exists_mem_of_ne_nil _ (splitSpace_ne_nil mn)
      exact absurd (hw w h) (by simp)
    | some wl =>
      simp only [Option.getD_some] at hl hw no ⊢
      have nochk : (splitSpace mn).length % 8 ≠ 0 → ∀ body ck, ¬ SpellsFirst wl (splitSpace mn) (bytesBits (body ++ [ck])) := by
        intro h body ck hs
        have := hs.length
        rw [length_bytesBits] at this
        omega
      rcases (by omega : (splitSpace mn).length % 4 ≠ 0 ∨ (splitSpace mn).length % 8 = 4 ∨ (splitSpace mn).length % 8 = 0)
        with h1 | h1 | h1
      · rw [newSeed_panic H pa hl hw h1]
        simp only [reduceCtorEq, false_iff]
        rintro (⟨-, h⟩ | ⟨-, -, h⟩ | ⟨-, body, ck, h, -⟩)
        · exact no h
        · omega
        · exact nochk (by omega) _ _ h
      · rw [newSeed_odd H pa hl hw h1]
        simp only [Res.err.injEq]
        constructor
        · rintro rfl
          exact .inr (.inl ⟨rfl, hw, h1⟩)
        · rintro (⟨-, h⟩ | ⟨rfl, -, h⟩ | ⟨-, body, ck, h, -⟩)
          · exact (no h).elim
          · rfl
          · exact (nochk (by omega) _ _ h).elim
      · obtain ⟨body, ck, log, -, h2, -, -, h3⟩ := newSeed_bytes_seed H pa hl hw h1
        obtain ⟨bits, hf⟩ := exists_first hl hw
        have eb : ∀ bits, SpellsFirst wl (splitSpace mn) bits → bits = bytesBits (body ++ [ck]) := by
          intro bits hf
          have := seedBits_first hf []
          rw [h2, List.nil_append] at this
          exact (List.map_injective_iff.2 (fun a b h => by revert h; cases a <;> cases b <;> decide) (Res.ok.inj this)).symm
        rw [h3]
        have un : ∀ body' ck', SpellsFirst wl (splitSpace mn) (bytesBits (body' ++ [ck'])) → body' = body ∧ ck' = ck := by
          intro body' ck' h
          have := bytesBits_inj (eb _ h)
          exact ⟨List.append_inj_left' this rfl, by simpa using List.append_inj_right' this rfl⟩
        split
        · rename_i hck
          simp only [reduceCtorEq, false_iff]
          rintro (⟨-, h⟩ | ⟨-, -, h⟩ | ⟨-, body', ck', h, h'⟩)
          · exact no h
          · omega
          · obtain ⟨rfl, rfl⟩ := un _ _ h
            exact h' hck
        · rename_i hck
          simp only [Res.err.injEq]
          constructor
          · rintro rfl
            exact .inr (.inr ⟨rfl, body, ck, eb _ hf ▸ hf, hck⟩)
          · rintro (⟨-, h⟩ | ⟨-, -, h⟩ | ⟨rfl, -⟩)
            · exact (no h).elim
            · omega
            · rfl
  · push Not at hw
    obtain ⟨w, h1, h2⟩ := hw
    rw [newSeed_unknown H pa h1 h2]
    simp only [Res.err.injEq]
    constructor
    · rintro rfl
      exact .inl ⟨rfl, w, h1, h2⟩
    · rintro (⟨rfl, -⟩ | ⟨-, h, -⟩ | ⟨-, body, ck, h, -⟩)
      · rfl
      · exact (h2 (h w h1)).elim
      · exact (h2 (h.mem w h1)).elim

theorem publicFromHex_err_iff (V : Ecdsa) (hC : EcdsaContract V) (s : GoString) (net : Option Network)
    (hd : s.take 2 ∈ [asc "02", asc "03"] → 66 ≤ s.length →
      (∀ c ∈ (s.drop 2).take 64, IsHexDigit c) ∧ hexNumber ((s.drop 2).take 64) < Spec.p) (e : GoError) :
    publicFromHex V s net = .err e ↔
      (e = .unsupportedFormat ∧ 2 ≤ s.length ∧ s.take 2 ∉ [asc "02", asc "03", asc "04"]) ∨
      (e = .notOnSecp256k1 ∧ s.take 2 ∈ [asc "02", asc "03"] ∧ 66 ≤ s.length ∧
        ∀ y, ¬ OnCurve (hexNumber ((s.drop 2).take 64)) y) := by
  obtain ⟨k1, k2, k3, k4⟩ := C32_outcomes_partial V s net
  have n1 : asc "04" ∉ [asc "02", asc "03"] := by decide +kernel
  by_cases hl : s.length < 2
  · rw [k1 hl]
    simp only [reduceCtorEq, false_iff]
    rintro (⟨-, h, -⟩ | ⟨-, -, h, -⟩) <;> omega
  by_cases h4 : s.take 2 = asc "04"
  · have hr : ¬ ((e = .unsupportedFormat ∧ 2 ≤ s.length ∧ s.take 2 ∉ [asc "02", asc "03", asc "04"]) ∨
      (e = .notOnSecp256k1 ∧ s.take 2 ∈ [asc "02", asc "03"] ∧ 66 ≤ s.length ∧
        ∀ y, ¬ OnCurve (hexNumber ((s.drop 2).take 64)) y)) := by
      rintro (⟨-, -, h⟩ | ⟨-, h, -⟩)
      · exact h (by simp [h4])
      · exact n1 (h4 ▸ h)
    simp only [hr, iff_false]
    by_cases hl4 : s.length < 130
    · rw [(k4 h4).1 hl4]; simp
    · obtain ⟨-, k, hk⟩ := (k4 h4).2 (by omega)
      rw [hk]; simp
  by_cases h23 : s.take 2 ∈ [asc "02", asc "03"]
  · have hin : s.take 2 ∈ [asc "02", asc "03", asc "04"] := by
      rcases List.mem_cons.1 h23 with h | h
      · exact h ▸ List.mem_cons_self
      · exact List.mem_cons_of_mem _ (List.mem_cons.2 (.inl (List.mem_singleton.1 h)))
    rw [or_iff_right fun h => h.2.2 hin]
    by_cases hl6 : s.length < 66
    · rw [(k3 h23).1 hl6]
      refine ⟨fun h => absurd h (by simp), fun h => ?_⟩
      obtain ⟨-, -, h, -⟩ := h
      omega
    · rw [(k3 h23).2 (by omega)]
      obtain ⟨hh, hx⟩ := hd h23 (by omega)
      have hxl : ((s.drop 2).take 64).length = 64 := by simp; omega
      have hs : s.take 66 = s.take 2 ++ (s.drop 2).take 64 := by
        rw [show 66 = 2 + 64 by omega, List.take_add]
      obtain ⟨par, hpar⟩ : ∃ par : Fin 2, s.take 2 = Spec.parityPrefix par := by
        rcases List.mem_cons.1 h23 with h | h
        · exact ⟨0, h.trans (by decide +kernel)⟩
        · exact ⟨1, (List.mem_singleton.1 h).trans (by decide +kernel)⟩
      obtain ⟨c1, c2, c3⟩ := C30_decompression V hC par _ net hxl hh hx
      rw [hs, hpar]
      rw [hpar] at h23
      by_cases hy : ∃ y, OnCurve (hexNumber ((s.drop 2).take 64)) y
      · obtain ⟨y, ⟨y1, y2⟩, -⟩ := c3 hy
        rw [c1 y y1 y2]
        refine ⟨fun h => absurd h (by simp), fun h => ?_⟩
        exact (h.2.2.2 y y1).elim
      · push Not at hy
        rw [c2 hy]
        constructor
        · intro h
          exact ⟨(Res.err.inj h).symm, h23, by omega, hy⟩
        · intro h
          rw [h.1]
  · have hin : s.take 2 ∉ [asc "02", asc "03", asc "04"] := by
      intro h
      rcases List.mem_cons.1 h with h | h
      · exact h23 (h ▸ List.mem_cons_self)
      · rcases List.mem_cons.1 h with h | h
        · exact h23 (List.mem_cons_of_mem _ (h ▸ List.mem_cons_self))
        · exact h4 (List.mem_singleton.1 h)
    rw [k2 (by omega) hin, or_iff_left fun h => h23 h.2.1]
    constructor
    · intro h
      exact ⟨(Res.err.inj h).symm, by omega, hin⟩
    · intro h
      rw [h.1]

/-! ## On the text -/

namespace Spec

/-- Specification: the table. -/
def Fails (H : Hashes) (st : State) : Request → GoError → Prop
  | .checkWIF _, _ => False
  | .privateFromWIF w _, e => e = .wifInvalid ∧ (w = [] ∨ ¬ ∃ bs, bs.length < 4 ∧ IsBase58 bs w) ∧
      ¬ ∃ payload, IsBase58Check H.sha256 payload w
  | .privateFromHex h net, e => ∃ nw, loadNet st.heap net = some nw ∧ HexFault (nw.PrivKeyPrefix ++ h) e
  | .generatePrivateKey _, _ => False
  | .addPrivateKeys p q, e => ∃ a b, privAt st p = some a ∧ privAt st q = some b ∧ CombineFault H.toLower (· + ·) a b e
  | .multiplyPrivateKeys p q, e => ∃ a b, privAt st p = some a ∧ privAt st q = some b ∧ CombineFault H.toLower (· * ·) a b e
  | .publicFromHex s _, e => (e = .unsupportedFormat ∧ 2 ≤ s.length ∧ s.take 2 ∉ [asc "02", asc "03", asc "04"]) ∨
      (e = .notOnSecp256k1 ∧ s.take 2 ∈ [asc "02", asc "03"] ∧ 66 ≤ s.length ∧
        ∀ y, ¬ OnCurve (hexNumber ((s.drop 2).take 64)) y)
  | .getPublicKey _, _ => False
  | .format _ _, _ => False
  | .address p c, e => ∃ k, pubAt st p = some k ∧ ¬ (c = true ∧ k.Y = none) ∧
      (CoordsFault c k.X k.Y e ∨ (Writable c k.X k.Y ∧ ∃ nw, k.Network = some nw ∧ HexFault nw.PubKeyHashPrefix e))
  | .addPublicKeys p q _, e => ∃ a b, pubAt st p = some a ∧ pubAt st q = some b ∧ a.Network ≠ b.Network ∧ e = .differentNetwork
  | .newMnemonic words wl, e => (wl = none ∧ e = .invalidWordlist) ∨ (wl ≠ none ∧
      (((∀ c : Nat, 4 ≤ c → c ≤ 8 → words ≠ 3 * c) ∧ e = .unsupportedMnemonicLength) ∨
        ∃ c : Nat, 4 ≤ c ∧ c ≤ 8 ∧ words = 3 * c ∧ st.rd.length < 4 * c ∧ e = .randRead))
  | .newSeedFromMnemonic mn _ wl, e => ∃ ws, ws ≠ [] ∧ (∀ w ∈ ws, (32 : UInt8) ∉ w) ∧ phraseText ws = mn ∧
      PhraseFault H.sha256 (wl.getD []) ws e

end Spec

section
variable {H : Hashes} {E : EcdsaM} {V : Ecdsa} {st : State}

theorem err_of_returns {α β : Type} {good : α → List Value} {bad : GoError → List Value} {Q : α → β → Heap → Prop} {r : Request}
    {x : Res β} (h : ∃ o, r.Ends H E st o ∧ Returns st good bad Q x o) (hg : ∀ a v e, good a ≠ [v, .err (some e)])
    (hb : ∀ e, ∃ v, bad e = [v, .err (some e)]) (e : GoError) :
    (∃ v st', r.Ends H E st (.ok [v, .err (some e)] st')) ↔ x = .err e := by
  obtain ⟨o, h1, h2⟩ := h
  constructor
  · rintro ⟨v, st', h3⟩
    obtain rfl := h1.unique h3
    cases x with
    | ok w => obtain ⟨a, st'', h, -⟩ := h2; exact (hg a v e (Out.ok.inj h).1.symm).elim
    | err e' =>
      obtain ⟨st'', h, -⟩ := h2
      obtain ⟨v', h'⟩ := hb e'
      rw [h'] at h
      cases h
      rfl
    | panic p => obtain ⟨st'', h, -⟩ := h2; cases h
  · rintro rfl
    obtain ⟨st', rfl, -⟩ := h2
    obtain ⟨v', h'⟩ := hb e
    exact ⟨v', st', h' ▸ h1⟩

/-- A call that crashes returns no error. -/
theorem no_err_of_panic {r : Request} {pn : GoPanic} {st' : State} (h : r.Ends H E st (.panic pn st')) (e : GoError) :
    ¬ ∃ v st', r.Ends H E st (.ok [v, .err (some e)] st') := by
  rintro ⟨v, st'', h'⟩
  cases h.unique h'

attribute [local irreducible] generateRandomBigInt in
/-- The table, in any state in which the parameters are in place and all pointers valid. -/
theorem error_table (H : Hashes) (E : EcdsaM) (V : Ecdsa) (hE : Pkg E) (hV : E.Refines V) (hC : EcdsaContract V)
    (st : State) (hi : Intact st) (r : Request) (hd : Determined st r) (e : GoError) :
    (∃ v st', r.Ends H E st (.ok [v, .err (some e)] st')) ↔ Fails H st r e := by
  have privGood : ∀ a v e, privResult a ≠ [v, .err (some e)] := by intro a v e h; simp [privResult] at h
  have pubGood : ∀ a v e, pubResult a ≠ [v, .err (some e)] := by intro a v e h; simp [pubResult] at h
  cases r with
  | checkWIF w =>
    refine ⟨?_, fun h => h.elim⟩
    rintro ⟨v, st', h3⟩
    obtain ⟨o, h1, h2⟩ := C108_checkWIF H E hE st w
    obtain rfl := h1.unique h3
    cases hc : checkWIF H w <;> rw [hc] at h2
    · obtain ⟨_, _, h, -⟩ := h2; cases h
    · obtain ⟨_, h, -⟩ := h2; cases h
    · obtain ⟨_, h, -⟩ := h2; cases h
  | privateFromWIF w net =>
    rw [err_of_returns (C108_privateFromWIF H E hE st w net) privGood (fun e => ⟨_, rfl⟩)]
    exact privateFromWIF_err_iff H w _ e
  | privateFromHex h net =>
    rw [err_of_returns (C108_privateFromHex H E hE st h net) privGood (fun e => ⟨_, rfl⟩)]
    show _ ↔ ∃ nw, loadNet st.heap net = some nw ∧ HexFault (nw.PrivKeyPrefix ++ h) e
    cases loadNet st.heap net with
    | none => simp [(C02_no_panic H h MainNetwork .nilDeref).2]
    | some nw => simp [privateFromHex_err_iff]
  | generatePrivateKey net =>
    refine ⟨?_, fun h => h.elim⟩
    rintro ⟨v, st', h3⟩
    obtain ⟨o, h1, h2⟩ := C108_generatePrivateKey H E hE st net
    obtain rfl := h1.unique h3
    rcases hg : generatePrivateKey H st.rd (loadNet st.heap net) with ⟨v, rd⟩ | e | p <;> rw [hg] at h2
    · obtain ⟨_, _, h, -⟩ := h2; cases h
    · exact h2
    · obtain ⟨_, h, -⟩ := h2; cases h
  | addPrivateKeys p q =>
    show _ ↔ ∃ a b, privAt st p = some a ∧ privAt st q = some b ∧ CombineFault H.toLower (· + ·) a b e
    by_cases hn : loadPriv st.heap p = none ∨ loadPriv st.heap q = none
    · obtain ⟨st', -, h⟩ := (C108_nil H E st hE p q true).1 hn
      refine ⟨fun h' => (no_err_of_panic h e h').elim, ?_⟩
      rintro ⟨a, b, ha, hb, -⟩
      rw [← privAt_none, ← privAt_none, ha, hb] at hn
      simp at hn
    · push Not at hn
      obtain ⟨o1, h1⟩ := Option.ne_none_iff_exists'.1 hn.1
      obtain ⟨o2, h2⟩ := Option.ne_none_iff_exists'.1 hn.2
      rw [err_of_returns (text_addPrivateKeys H E hE st hi p q o1 o2 h1 h2) privGood (fun e => ⟨_, rfl⟩), add_eq_combine,
        combine_err_iff]
      simp [privAt, h1, h2]
  | multiplyPrivateKeys p q =>
    show _ ↔ ∃ a b, privAt st p = some a ∧ privAt st q = some b ∧ CombineFault H.toLower (· * ·) a b e
    by_cases hn : loadPriv st.heap p = none ∨ loadPriv st.heap q = none
    · obtain ⟨st', -, h⟩ := (C108_nil H E st hE p q true).2.1 hn
      refine ⟨fun h' => (no_err_of_panic h e h').elim, ?_⟩
      rintro ⟨a, b, ha, hb, -⟩
      rw [← privAt_none, ← privAt_none, ha, hb] at hn
      simp at hn
    · push Not at hn
      obtain ⟨o1, h1⟩ := Option.ne_none_iff_exists'.1 hn.1
      obtain ⟨o2, h2⟩ := Option.ne_none_iff_exists'.1 hn.2
      rw [err_of_returns (text_multiplyPrivateKeys H E hE st hi p q o1 o2 h1 h2) privGood (fun e => ⟨_, rfl⟩), mul_eq_combine,
        combine_err_iff]
      simp [privAt, h1, h2]
  | publicFromHex s net =>
    rw [err_of_returns (text_publicFromHex H E V hE hV st hi s net) pubGood (fun e => ⟨_, rfl⟩)]
    exact publicFromHex_err_iff V hC s _ hd e
  | getPublicKey p =>
    refine ⟨?_, fun h => h.elim⟩
    rintro ⟨v, st', h3⟩
    rcases hp : loadPriv st.heap p with _ | o
    · obtain ⟨st', -, h⟩ := (C108_nil H E st hE p p true).2.2.2.1 hp
      cases h.unique h3
    · obtain ⟨o', h1, h2⟩ := text_getPublicKey H E V hE hV st hi p o hp
      obtain rfl := h1.unique h3
      cases hc : getPublicKey V (privValue st.heap o) <;> rw [hc] at h2
      · obtain ⟨_, _, h, -⟩ := h2; cases h
      · obtain ⟨_, h, -⟩ := h2; cases h
      · obtain ⟨_, h, -⟩ := h2; cases h
  | format p c =>
    refine ⟨?_, fun h => h.elim⟩
    rintro ⟨v, st', h3⟩
    rcases hp : loadPub st.heap p with _ | o
    · obtain ⟨st', -, h⟩ := (C108_nil H E st hE p p c).2.2.2.2.1 hp
      cases h.unique h3
    · obtain ⟨o', h1, h2⟩ := C108_format H E hE st p o hp c
      obtain rfl := h1.unique h3
      cases hc : format (pubValue st.heap o) c <;> rw [hc] at h2
      · obtain ⟨_, _, h, -⟩ := h2; cases h
      · obtain ⟨_, h, -⟩ := h2; cases h
      · obtain ⟨_, h, -⟩ := h2; cases h
  | address p c =>
    show _ ↔ ∃ k, pubAt st p = some k ∧ ¬ (c = true ∧ k.Y = none) ∧
      (CoordsFault c k.X k.Y e ∨ (Writable c k.X k.Y ∧ ∃ nw, k.Network = some nw ∧ HexFault nw.PubKeyHashPrefix e))
    rcases hp : loadPub st.heap p with _ | o
    · obtain ⟨st', -, h⟩ := (C108_nil H E st hE p p c).2.2.2.2.2 hp
      refine ⟨fun h' => (no_err_of_panic h e h').elim, ?_⟩
      rintro ⟨k, hk, -⟩
      rw [← pubAt_none, hk] at hp
      cases hp
    · rw [err_of_returns (C108_address H E hE st p o hp c) (by intro a v e h; simp at h) (fun e => ⟨_, rfl⟩)]
      simp only [pubAt, hp, Option.map_some, Option.some.injEq, exists_eq_left']
      exact address_err_iff H (pubValue st.heap o).X (pubValue st.heap o).Y (pubValue st.heap o).Network c e
  | addPublicKeys p q c =>
    show _ ↔ ∃ a b, pubAt st p = some a ∧ pubAt st q = some b ∧ a.Network ≠ b.Network ∧ e = .differentNetwork
    by_cases hn : loadPub st.heap p = none ∨ loadPub st.heap q = none
    · obtain ⟨st', -, h⟩ := (C108_nil H E st hE p q c).2.2.1 hn
      refine ⟨fun h' => (no_err_of_panic h e h').elim, ?_⟩
      rintro ⟨a, b, ha, hb, -⟩
      rw [← pubAt_none, ← pubAt_none, ha, hb] at hn
      simp at hn
    · push Not at hn
      obtain ⟨o1, h1⟩ := Option.ne_none_iff_exists'.1 hn.1
      obtain ⟨o2, h2⟩ := Option.ne_none_iff_exists'.1 hn.2
      rw [err_of_returns (text_addPublicKeys H E V hE hV st hi p q o1 o2 h1 h2 c) pubGood (fun e => ⟨_, rfl⟩)]
      simp only [pubAt, h1, h2, Option.map_some, Option.some.injEq, exists_and_left, exists_eq_left']
      by_cases hnet : (pubValue st.heap o1).Network = (pubValue st.heap o2).Network
      · obtain ⟨x₁, y₁, x₂, y₂, a1, a2, a3, a4, a5, a6, a7⟩ := hd (pubValue st.heap o1) (pubValue st.heap o2)
          (by simp [pubAt, h1]) (by simp [pubAt, h2]) hnet
        obtain ⟨P, hP⟩ := (EC.onCurve_iff _ _).1 a5
        obtain ⟨Q, hQ⟩ := (EC.onCurve_iff _ _).1 a6
        obtain ⟨x, y, -, -, h⟩ := C37_add_public_keys V hC P Q x₁ y₁ x₂ y₂ (pubValue st.heap o1).Network hP hQ a7
        have e1 : pubValue st.heap o1 = ⟨some (x₁ : Int), some (y₁ : Int), (pubValue st.heap o1).Network⟩ := by rw [← a1, ← a2]
        have e2 : pubValue st.heap o2 = ⟨some (x₂ : Int), some (y₂ : Int), (pubValue st.heap o1).Network⟩ := by
          rw [← a3, ← a4, hnet]
        have e3 : addPublicKeys V (pubValue st.heap o1) (pubValue st.heap o2) c ≠ .err e := by
          rw [e2, e1, (h c).1]
          simp
        simp [e3, hnet]
      · rw [(C24_public_networks V _ _ c).1 hnet]
        simp [hnet, eq_comm]
  | newMnemonic words wl =>
    obtain ⟨o, h1, h2⟩ := C108_newMnemonic H E st words wl
    have h : (∃ v st', (Request.newMnemonic words wl).Ends H E st (.ok [v, .err (some e)] st')) ↔
        newMnemonic H st.rd words wl = .err e := by
      constructor
      · rintro ⟨v, st', h3⟩
        obtain rfl := h1.unique h3
        rcases hg : newMnemonic H st.rd words wl with ⟨v, rd⟩ | e' | p <;> rw [hg] at h2
        · obtain ⟨_, h, -⟩ := h2; cases h
        · obtain ⟨_, h, -⟩ := h2; cases h; rfl
        · obtain ⟨_, h, -⟩ := h2; cases h
      · intro hp
        rw [hp] at h2
        obtain ⟨st', rfl, -⟩ := h2
        exact ⟨_, _, h1⟩
    rw [h]
    exact newMnemonic_err_iff H _ _ _ _
  | newSeedFromMnemonic mn pa wl =>
    obtain ⟨o, h1, h2⟩ := C108_newSeedFromMnemonic H E st mn pa wl
    have h : (∃ v st', (Request.newSeedFromMnemonic mn pa wl).Ends H E st (.ok [v, .err (some e)] st')) ↔
        (newSeedFromMnemonic H mn pa wl).1 = .err e := by
      constructor
      · rintro ⟨v, st', h3⟩
        obtain rfl := h1.unique h3
        rcases hg : newSeedFromMnemonic H mn pa wl with ⟨(_ | b) | e' | p, log⟩ <;> rw [hg] at h2
        · obtain ⟨_, h, -⟩ := h2; cases h
        · obtain ⟨_, h, -⟩ := h2; cases h
        · obtain ⟨_, h, -⟩ := h2; cases h; rfl
        · obtain ⟨_, h, -⟩ := h2; cases h
      · intro hp
        rcases hg : newSeedFromMnemonic H mn pa wl with ⟨x, log⟩
        rw [hg] at h2 hp
        obtain rfl : x = .err e := hp
        obtain ⟨st', rfl, -⟩ := h2
        exact ⟨_, _, h1⟩
    rw [h, newSeed_err_iff H mn pa wl hd]
    constructor
    · intro hf
      exact ⟨splitSpace mn, splitSpace_ne_nil mn, splitSpace_noSpace mn, phraseText_splitSpace mn, hf⟩
    · rintro ⟨ws, hne, a, rfl, hf⟩
      rw [splitSpace_phraseText hne a]
      exact hf

/-- C122: a call of an exported function, run on the text in any session, returns the error `e` exactly if the table says so. -/
theorem C122_error_table (H : Hashes) (E : EcdsaM) (V : Ecdsa) (hE : Pkg E) (hV : E.Refines V) (hC : EcdsaContract V)
    (nets : List Network) (st : State) (hs : Session H E nets st) (r : Request) (hd : Determined st r) (e : GoError) :
    (∃ v st', r.Ends H E st (.ok [v, .err (some e)] st')) ↔ Fails H st r e :=
  error_table H E V hE hV hC st (hs.intact hE) r hd e

/-- C122: a call succeeds, that is returns and returns no error, exactly if neither the table of C112 nor the table of
C122 has an entry for it. -/
theorem C122_success (H : Hashes) (E : EcdsaM) (V : Ecdsa) (hE : Pkg E) (hV : E.Refines V) (hC : EcdsaContract V)
    (nets : List Network) (st : State) (hs : Session H E nets st) (r : Request) (hd : Determined st r) :
    (∃ vs st', r.Ends H E st (.ok vs st') ∧ ∀ v e, vs ≠ [v, .err (some e)]) ↔ ¬ Crashes H st r ∧ ∀ e, ¬ Fails H st r e := by
  rw [← C112_crash_table H E V hE hV hC nets st hs r hd]
  simp only [← C122_error_table H E V hE hV hC nets st hs r hd]
  obtain ⟨o, st', h, hu, ho, -⟩ := C109_ends H E hE r st
  constructor
  · rintro ⟨vs, st1, h1, h2⟩
    refine ⟨?_, ?_⟩
    · rintro ⟨pn, st2, h3⟩
      cases h1.unique h3
    · rintro e ⟨v, st2, h3⟩
      cases h1.unique h3
      exact h2 v e rfl
  · rintro ⟨h1, h2⟩
    cases o with
    | ok vs st1 =>
      refine ⟨vs, st1, h, ?_⟩
      rintro v e rfl
      exact h2 e ⟨v, st1, h⟩
    | panic p st1 => exact (h1 ⟨p, st1, h⟩).elim
    | stuck => cases ho

/-- C122: an error that shows a character never shows a hexadecimal digit, so no part of a key. -/
theorem C122_no_digit (H : Hashes) (E : EcdsaM) (V : Ecdsa) (hE : Pkg E) (hV : E.Refines V) (hC : EcdsaContract V)
    (nets : List Network) (st : State) (hs : Session H E nets st) (r : Request) (hd : Determined st r) (b : UInt8) (v : Value)
    (st' : State) (h : r.Ends H E st (.ok [v, .err (some (.hexInvalidByte b))] st')) : ¬ IsHexDigit b := by
  have hf := (C122_error_table H E V hE hV hC nets st hs r hd _).1 ⟨v, st', h⟩
  have coord : ∀ v, CoordFault v b → ¬ IsHexDigit b := fun v hv => by
    obtain ⟨_, _, -, -, h⟩ := coordText_fault hv
    exact h
  have comb : ∀ f a c, CombineFault H.toLower f a c (.hexInvalidByte b) → ¬ IsHexDigit b := by
    rintro f a c (⟨-, h⟩ | ⟨-, -, h⟩ | ⟨-, -, _, _, _, _, _, -, -, -, -, -, _, _, -, -, h⟩)
    · cases h
    · cases h
    · exact h
  cases r with
  | checkWIF => exact hf.elim
  | privateFromWIF => cases hf.1
  | privateFromHex =>
    obtain ⟨nw, -, _, _, -, -, h⟩ := hf
    exact h
  | generatePrivateKey => exact hf.elim
  | addPrivateKeys =>
    obtain ⟨_, _, -, -, h⟩ := hf
    exact comb _ _ _ h
  | multiplyPrivateKeys =>
    obtain ⟨_, _, -, -, h⟩ := hf
    exact comb _ _ _ h
  | publicFromHex => rcases hf with ⟨h, -⟩ | ⟨h, -⟩ <;> cases h
  | getPublicKey => exact hf.elim
  | format => exact hf.elim
  | address p c =>
    obtain ⟨k, -, -, (h | ⟨-, -, h⟩) | ⟨-, _, -, _, _, -, -, h⟩⟩ := hf
    · exact coord _ h
    · exact coord _ h
    · exact h
  | addPublicKeys =>
    obtain ⟨_, _, -, -, -, h⟩ := hf
    cases h
  | newMnemonic => rcases hf with ⟨-, h⟩ | ⟨-, ⟨-, h⟩ | ⟨_, -, -, -, -, h⟩⟩ <;> cases h
  | newSeedFromMnemonic => obtain ⟨_, -, -, -, ⟨h, -⟩ | ⟨h, -⟩ | ⟨h, -⟩⟩ := hf <;> cases h

end

open Samples

set_option linter.constructorNameAsVariable false

/-- C122: the first foreign character of a text. -/
example : ∃ v st', (Request.privateFromHex (asc "12g4z") (some 0)).Ends realHashes pkg (stocked [])
    (.ok [v, .err (some (.hexInvalidByte 103))] st') :=
  (C122_error_table realHashes pkg EC.ref refPkg.1 refPkg.2.1 refPkg.2.2 [] (stocked []) (stocked_session _ _ _) _ (by exact trivial) _).2
    ⟨_, rfl, asc "8012", asc "4z", by decide +kernel, by unfold IsHexDigit; decide +kernel, by unfold IsHexDigit; decide +kernel⟩

/-- C122: seven zero bytes in base 58; the last four are not the checksum of the first three. -/
example : ∃ v st', (Request.privateFromWIF (asc "1111111") none).Ends realHashes pkg (stocked [])
    (.ok [v, .err (some .wifInvalid)] st') :=
  (C122_error_table realHashes pkg EC.ref refPkg.1 refPkg.2.1 refPkg.2.2 [] (stocked []) (stocked_session _ _ _) _ (by exact trivial) _).2
    ⟨rfl, .inr (by
      rintro ⟨bs, h1, -, -, h2⟩
      have : (bs.takeWhile (· == 0)).length ≤ bs.length := (List.takeWhile_prefix _).length_le
      rw [← h2] at this
      revert this
      have : (List.takeWhile (· == 49) (asc "1111111")).length = 7 := by decide +kernel
      omega), by
      rw [← C03_true_iff]
      decide +kernel⟩

/-- C122: a key and itself. -/
example : ∃ v st', (Request.multiplyPrivateKeys (some 1) (some 1)).Ends realHashes pkg (stocked [])
    (.ok [v, .err (some .identicalKeys)] st') :=
  (C122_error_table realHashes pkg EC.ref refPkg.1 refPkg.2.1 refPkg.2.2 [] (stocked []) (stocked_session _ _ _) _ (by exact trivial) _).2
    ⟨_, _, rfl, rfl, .inr (.inl ⟨rfl, rfl, rfl⟩)⟩

/-- C122: the second public key in memory has no coordinates; the first character of "<nil>" is shown. -/
example : ∃ v st', (Request.address (some 1) false).Ends realHashes pkg (stocked [])
    (.ok [v, .err (some (.hexInvalidByte 60))] st') :=
  (C122_error_table realHashes pkg EC.ref refPkg.1 refPkg.2.1 refPkg.2.2 [] (stocked []) (stocked_session _ _ _) _ (by exact trivial) _).2
    ⟨_, rfl, by simp, .inl (.inl (.inl ⟨rfl, rfl⟩))⟩

/-- C122: a format that does not exist. -/
example : ∃ v st', (Request.publicFromHex (asc "05") (some 0)).Ends realHashes pkg (stocked [])
    (.ok [v, .err (some .unsupportedFormat)] st') :=
  (C122_error_table realHashes pkg EC.ref refPkg.1 refPkg.2.1 refPkg.2.2 [] (stocked []) (stocked_session _ _ _)
    (.publicFromHex (asc "05") (some 0)) (fun h => absurd h (by decide +kernel)) _).2
    (.inl ⟨rfl, by decide +kernel, by decide +kernel⟩)

/-- C122: fifteen random bytes are not enough for twelve words. -/
example : ∃ v st', (Request.newMnemonic 12 (some EnglishWordlist)).Ends realHashes pkg (stocked (List.replicate 15 0))
    (.ok [v, .err (some .randRead)] st') :=
  (C122_error_table realHashes pkg EC.ref refPkg.1 refPkg.2.1 refPkg.2.2 [] (stocked _) (stocked_session _ _ _) _ (by exact trivial) _).2
    (.inr ⟨by simp, .inr ⟨4, by omega, by omega, rfl, by decide, rfl⟩⟩)

/-- C122: twelve words of the list. -/
example : ∃ v st', (Request.newSeedFromMnemonic (asc "zoo zoo zoo zoo zoo zoo zoo zoo zoo zoo zoo zoo") [] (some EnglishWordlist)).Ends
    realHashes pkg (stocked []) (.ok [v, .err (some .hexLength)] st') :=
  (C122_error_table realHashes pkg EC.ref refPkg.1 refPkg.2.1 refPkg.2.2 [] (stocked []) (stocked_session _ _ _)
    (.newSeedFromMnemonic _ [] (some EnglishWordlist)) (show EnglishWordlist.length ≤ 2048 from english.size.le) _).2
    ⟨List.replicate 12 (asc "zoo"), by decide, by decide +kernel, by decide +kernel, .inr (.inl ⟨rfl, fun w hw => by
      rw [List.eq_of_mem_replicate hw]
      exact (by decide +kernel : asc "zoo" ∈ EnglishWordlist), by decide⟩)⟩

/-- C122: the first public key in memory has an address. -/
example (c : Bool) : ∃ vs st', (Request.address (some 0) c).Ends realHashes pkg (stocked []) (.ok vs st') ∧
    ∀ v e, vs ≠ [v, .err (some e)] := by
  rw [C122_success realHashes pkg EC.ref refPkg.1 refPkg.2.1 refPkg.2.2 [] (stocked []) (stocked_session _ _ _)
    (.address (some 0) c) trivial]
  have hw : Writable c (some (gx : Int)) (some (gy : Int)) := by
    refine ⟨gx, rfl, ?_⟩
    cases c
    · exact ⟨gy, rfl, by decide +kernel⟩
    · exact ⟨by simp, by decide +kernel⟩
  refine ⟨?_, ?_⟩
  · rintro (h | ⟨k, h1, ⟨-, h⟩ | ⟨-, h⟩⟩)
    · cases h
    · cases h1; cases h
    · cases h1; cases h
  · rintro e ⟨k, h1, -, h | ⟨-, nw, h2, h3⟩⟩
    · cases h1
      exact no_coordsFault hw e h
    · cases h1
      cases h2
      exact no_fault_of_spells (bs := [0]) (hexDecode_eq_ok.1 (by decide +kernel)) e h3

end Btc
