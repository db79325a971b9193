import Verif.Props.Careful
import Verif.Props.Errors

/-!
# C124: what successful calls return, on the text

The third table, after C112 (crashes) and C122 (errors): one line per exported function says what a successful call returns
and how many random bytes it takes. The lines determine the results, so the three tables together are a complete
specification of the package, and the parsed text meets it.
-/

namespace Btc

open Mem Source Spec

namespace Spec

/-- Specification: what a call returns, with pointers replaced by what they point to. -/
inductive Answer where
  | bool (b : Bool)
  | priv (k : PrivateKey)
  | pub (k : PublicKey)
  | str (s : GoString)
  | nothing

/-- Specification: the returned values, seen in the state `st`. Lists that tell of failure are not seen. -/
def view (st : State) : List Value → Option Answer
  | [.bool b] => some (.bool b)
  | [.priv p] => (privAt st p).map .priv
  | [.priv p, .err none] => (privAt st p).map .priv
  | [.pub p, .err none] => (pubAt st p).map .pub
  | [.pub p, .bool true] => (pubAt st p).map .pub
  | [.str s] => some (.str s)
  | [.str s, .err none] => some (.str s)
  | [.nil, .err none] => some .nothing
  | _ => none

/-- Specification: the text `s` is a hexadecimal numeral, perhaps with a sign. -/
inductive IsNumeral : GoString → Int → Prop
  | plain {t : GoString} : t ≠ [] → (∀ c ∈ t, IsHexDigit c) → IsNumeral t (hexNumber t)
  | plus {t : GoString} : t ≠ [] → (∀ c ∈ t, IsHexDigit c) → IsNumeral (43 :: t) (hexNumber t)
  | minus {t : GoString} : t ≠ [] → (∀ c ∈ t, IsHexDigit c) → IsNumeral (45 :: t) (-(hexNumber t : Int))

/-- Specification: the number written by `s`; nil if it writes none. -/
def Reads (s : GoString) : Option Int → Prop
  | some z => IsNumeral s z
  | none => ∀ z, ¬ IsNumeral s z

/-- Specification: the text of a coordinate: at least 64 characters, with zeros put in front, also of a sign or of "<nil>". -/
def CoordText (v : Option Int) (t : GoString) : Prop :=
  ∃ s, t = List.replicate (64 - s.length) 48 ++ s ∧
    match v with
    | none => s = asc "<nil>"
    | some z => ∃ m, IsMinimalHex z.natAbs m ∧ s = if z < 0 then 45 :: m else m

/-- Specification: the text of a public key. -/
def PublicText (c : Bool) (k : PublicKey) (s : GoString) : Prop :=
  ∃ x, CoordText k.X x ∧
    if c then ∃ y, k.Y = some y ∧ s = (if y % 2 = 0 then asc "02" else asc "03") ++ x
    else ∃ y, CoordText k.Y y ∧ s = asc "04" ++ x ++ y

/-- Specification: the private key with this number and hexadecimal text on the network `nw`. -/
def KeyWith (sha : Bytes → Bytes) (number : Option Int) (hex : GoString) (nw : Network) (k : PrivateKey) : Prop :=
  k.Key = number ∧ k.Hex = hex ∧ k.Network = some nw ∧
    ∃ bytes, Spells (nw.PrivKeyPrefix ++ hex) bytes ∧ IsBase58Check sha bytes k.WIF

/-- Specification: the sum or product of two private keys. -/
def Combined (sha : Bytes → Bytes) (f : Int → Int → Int) (a b k : PrivateKey) : Prop :=
  ∃ (x y : Int) (nw : Network) (r : Nat) (s : GoString), a.Key = some x ∧ b.Key = some y ∧ a.Network = some nw ∧
    (r : Int) = f x y % (Spec.n : Int) ∧ IsMinimalHex r s ∧ KeyWith sha (some (r : Int)) s nw k

/-- Specification: the number in the `j`-th block of 32 random bytes. -/
def drawn (rd : Reader) (j : Nat) : Nat := bigEndian ((rd.drop (32 * j)).take 32)

/-- Specification: a number that is taken as a key. -/
def Suitable (v : Nat) : Prop := 16 ^ 63 ≤ v ∧ v ≤ Spec.n - 2

/-- Specification: the bytes in lower-case hexadecimal. -/
def LowerHex (s : GoString) (bs : Bytes) : Prop := Spells s bs ∧ ∀ c ∈ s, c ∈ asc "0123456789abcdef"

/-- Specification: the lines logged for a phrase whose words stand for the bytes `body ++ [ck]`: the bits, four at a time; the
hash; the bytes. -/
def Logged (sha : Bytes → Bytes) (body : Bytes) (ck : UInt8) (lines : Log) : Prop :=
  ∃ nibbles h b c, lines = nibbles ++ [h ++ asc " 64", b ++ asc " " ++ c] ∧ (∀ l ∈ nibbles, l.length = 4) ∧
    nibbles.flatten = (bytesBits (body ++ [ck])).map (fun bit => if bit then 49 else 48) ∧
    LowerHex h (sha body) ∧ LowerHex b (body ++ [ck]) ∧ LowerHex c [ck]

/-- Specification: the table. `B` is the base point. A successful call returns `g`, leaves the random bytes `rd` and adds
`lines` to the log. -/
def Result (H : Hashes) (B : W.Point) (st : State) : Request → Answer → Reader → Log → Prop
  | .checkWIF w, g, rd, lines => rd = st.rd ∧ lines = [] ∧
      ∃ b, g = .bool b ∧ (b = true ↔ ∃ payload, IsBase58Check H.sha256 payload w)
  | .privateFromWIF w net, g, rd, lines => rd = st.rd ∧ lines = [] ∧
      ∃ w0 body k, g = .priv k ∧ IsBase58Check H.sha256 (w0 :: body) w ∧ k.WIF = w ∧ LowerHex k.Hex body ∧
        k.Key = (if body = [] then none else some (bigEndian body : Int)) ∧ k.Network = loadNet st.heap net
  | .privateFromHex h net, g, rd, lines => rd = st.rd ∧ lines = [] ∧
      ∃ nw k, g = .priv k ∧ loadNet st.heap net = some nw ∧
        KeyWith H.sha256 (if h = [] then none else some (hexNumber h : Int)) h nw k
  | .generatePrivateKey net, g, rd, lines => lines = [] ∧
      ∃ nw j s k, g = .priv k ∧ loadNet st.heap net = some nw ∧ rd = st.rd.drop (32 * (j + 1)) ∧
        32 * (j + 1) ≤ st.rd.length ∧ Suitable (drawn st.rd j) ∧ (∀ i < j, ¬ Suitable (drawn st.rd i)) ∧
        IsMinimalHex (drawn st.rd j) s ∧ KeyWith H.sha256 (some (drawn st.rd j : Int)) s nw k
  | .addPrivateKeys p q, g, rd, lines => rd = st.rd ∧ lines = [] ∧
      ∃ a b k, g = .priv k ∧ privAt st p = some a ∧ privAt st q = some b ∧ Combined H.sha256 (· + ·) a b k
  | .multiplyPrivateKeys p q, g, rd, lines => rd = st.rd ∧ lines = [] ∧
      ∃ a b k, g = .priv k ∧ privAt st p = some a ∧ privAt st q = some b ∧ Combined H.sha256 (· * ·) a b k
  | .publicFromHex s net, g, rd, lines => rd = st.rd ∧ lines = [] ∧ ∃ k, g = .pub k ∧ k.Network = loadNet st.heap net ∧
      ((s.take 2 = asc "04" ∧ Reads ((s.drop 2).take 64) k.X ∧ Reads ((s.drop 66).take 64) k.Y) ∨
        ∃ (par : Fin 2) (y : Nat), s.take 2 = parityPrefix par ∧ y % 2 = par ∧ OnCurve (hexNumber ((s.drop 2).take 64)) y ∧
          k.X = some (hexNumber ((s.drop 2).take 64) : Int) ∧ k.Y = some (y : Int))
  | .getPublicKey p, g, rd, lines => rd = st.rd ∧ lines = [] ∧
      ∃ (a : PrivateKey) (v x y : Nat), privAt st p = some a ∧ a.Key = some (v : Int) ∧ HasCoords (v • B) x y ∧
        g = .pub ⟨some (x : Int), some (y : Int), a.Network⟩
  | .format p c, g, rd, lines => rd = st.rd ∧ lines = [] ∧ ∃ k s, pubAt st p = some k ∧ g = .str s ∧ PublicText c k s
  | .address p c, g, rd, lines => rd = st.rd ∧ lines = [] ∧
      ∃ k s ser nw pre a, pubAt st p = some k ∧ g = .str a ∧ PublicText c k s ∧ Spells s ser ∧ k.Network = some nw ∧
        Spells nw.PubKeyHashPrefix pre ∧ IsBase58Check H.sha256 (pre ++ hash160 H.sha256 H.ripemd160 ser) a
  | .addPublicKeys p q _, g, rd, lines => rd = st.rd ∧ lines = [] ∧
      ∃ (a b : PublicKey) (P Q : W.Point) (x₁ y₁ x₂ y₂ x y : Nat), pubAt st p = some a ∧ pubAt st q = some b ∧
        a.X = some (x₁ : Int) ∧ a.Y = some (y₁ : Int) ∧ b.X = some (x₂ : Int) ∧ b.Y = some (y₂ : Int) ∧
        HasCoords P x₁ y₁ ∧ HasCoords Q x₂ y₂ ∧ HasCoords (P + Q) x y ∧
        g = .pub ⟨some (x : Int), some (y : Int), a.Network⟩
  | .newMnemonic words wl, g, rd, lines => lines = [] ∧
      ∃ (c : Nat) (ws : List GoString), words = 3 * c ∧ g = .str (phraseText ws) ∧ rd = st.rd.drop (4 * c) ∧
        SpellsBits (wl.getD []) ws (bytesBits (st.rd.take (4 * c)) ++ appended H.sha256 (st.rd.take (4 * c)) c).reverse
  | .newSeedFromMnemonic mn _ wl, g, rd, lines => rd = st.rd ∧ g = .nothing ∧
      ∃ ws body ck, ws ≠ [] ∧ (∀ w ∈ ws, (32 : UInt8) ∉ w) ∧ mn = phraseText ws ∧
        SpellsFirst (wl.getD []) ws (bytesBits (body ++ [ck])) ∧ (H.sha256 body).take 1 = [ck] ∧
        Logged H.sha256 body ck lines

end Spec

/-! ## The lines determine the results -/

theorem hexEncode_of_spells {s : GoString} {bs : Bytes} (h : Spells s bs) (hl : ∀ c ∈ s, c ∈ asc "0123456789abcdef") :
    s = hexEncode bs := by
  have h2 := spells_hexEncode bs
  have hl2 : ∀ c ∈ hexEncode bs, c ∈ asc "0123456789abcdef" := hexEncode_mem_lower
  have inj : ∀ c ∈ asc "0123456789abcdef", ∀ d ∈ asc "0123456789abcdef", hexVal c = hexVal d → c = d := by
    decide +kernel
  have lt : ∀ c ∈ asc "0123456789abcdef", ∀ x, hexVal c = some x → x < 16 := by decide +kernel
  generalize hexEncode bs = t at h2 hl2
  induction h generalizing t with
  | nil => cases h2; rfl
  | @cons hi lo x y b s bs e1 e2 e3 _ ih =>
    cases h2 with
    | @cons hi' lo' x' y' _ s' _ f1 f2 f3 f4 =>
      simp only [List.mem_cons, forall_eq_or_imp] at hl hl2
      have := lt _ hl.1 _ e1
      have := lt _ hl.2.1 _ e2
      have := lt _ hl2.1 _ f1
      have := lt _ hl2.2.1 _ f2
      obtain rfl : x = x' := by omega
      obtain rfl : y = y' := by omega
      rw [inj _ hl.1 _ hl2.1 (e1.trans f1.symm), inj _ hl.2.1 _ hl2.2.1 (e2.trans f2.symm), ih hl.2.2 _ f4 hl2.2.2]

theorem isHexDigit_not_sign {c : UInt8} (h : IsHexDigit c) : c ≠ 43 ∧ c ≠ 45 := by
  refine ⟨?_, ?_⟩ <;> rintro rfl <;> revert h <;> unfold IsHexDigit <;> decide +kernel

theorem Spec.IsNumeral.eq {s : GoString} {z : Int} (h : IsNumeral s z) : bigSetString s 16 = some z := by
  have parse : ∀ t : GoString, t ≠ [] → (∀ c ∈ t, IsHexDigit c) → parseNat 16 t = some (hexNumber t) := by
    intro t h1 h2
    have := bigSetString_hex h2
    rw [if_neg h1] at this
    cases t with
    | nil => exact (h1 rfl).elim
    | cons c t =>
      obtain ⟨n1, n2⟩ := isHexDigit_not_sign (h2 c (by simp))
      rw [bigSetString, if_neg n1, if_neg n2] at this
      cases hp : parseNat 16 (c :: t) with
      | none => rw [hp] at this; cases this
      | some v =>
        rw [hp] at this
        simp only [Option.map_some, Option.some.injEq] at this
        exact congrArg some (Int.ofNat.inj this)
  cases h with
  | plain h1 h2 => rw [bigSetString_hex h2, if_neg h1]
  | plus h1 h2 =>
    rw [bigSetString, if_pos rfl, parse _ h1 h2]
    rfl
  | minus h1 h2 =>
    rw [bigSetString, if_neg (by decide), if_pos rfl, parse _ h1 h2]
    rfl

theorem reads_bigSetString (s : GoString) : Reads s (bigSetString s 16) := by
  have parse : ∀ t : GoString, (∃ v, parseNat 16 t = some v) → t ≠ [] ∧ (∀ c ∈ t, IsHexDigit c) := by
    rintro t ⟨v, hv⟩
    have hne : t ≠ [] := by
      rintro rfl
      cases hv
    refine ⟨hne, ?_⟩
    by_contra hb
    push Not at hb
    obtain ⟨c, hc, hd⟩ := hb
    rw [parseNat, if_neg hne, mapM_digitOf_none ⟨c, hc, hd⟩] at hv
    cases hv
  cases h : bigSetString s 16 with
  | none =>
    intro z hz
    rw [hz.eq] at h
    cases h
  | some z =>
    show IsNumeral s z
    cases s with
    | nil => cases h
    | cons c cs =>
      rw [bigSetString] at h
      by_cases h1 : c = 43
      · rw [if_pos h1] at h
        cases hp : parseNat 16 cs with
        | none => rw [hp] at h; cases h
        | some v =>
          obtain ⟨a, b⟩ := parse cs ⟨v, hp⟩
          have := (IsNumeral.plus a b).eq
          rw [bigSetString, if_pos rfl, h] at this
          rw [h1, Option.some.inj this]
          exact .plus a b
      · rw [if_neg h1] at h
        by_cases h2 : c = 45
        · rw [if_pos h2] at h
          cases hp : parseNat 16 cs with
          | none => rw [hp] at h; cases h
          | some v =>
            obtain ⟨a, b⟩ := parse cs ⟨v, hp⟩
            have := (IsNumeral.minus a b).eq
            rw [bigSetString, if_neg (by decide), if_pos rfl, h] at this
            rw [h2, Option.some.inj this]
            exact .minus a b
        · rw [if_neg h2] at h
          cases hp : parseNat 16 (c :: cs) with
          | none => rw [hp] at h; cases h
          | some v =>
            obtain ⟨a, b⟩ := parse (c :: cs) ⟨v, hp⟩
            have := (IsNumeral.plain a b).eq
            rw [bigSetString, if_neg h1, if_neg h2, h] at this
            rw [Option.some.inj this]
            exact .plain a b

theorem Spec.Reads.eq {s : GoString} {v : Option Int} (h : Reads s v) : v = bigSetString s 16 := by
  cases v with
  | some z => exact (IsNumeral.eq h).symm
  | none =>
    cases hs : bigSetString s 16 with
    | none => rfl
    | some z =>
      have := reads_bigSetString s
      rw [hs] at this
      exact (h z this).elim

theorem coordText_spec (v : Option Int) : CoordText v (coordText v) := by
  refine ⟨bigIntToHex v, rfl, ?_⟩
  cases v with
  | none => rfl
  | some z => exact ⟨_, isMinimalHex_fmtNat _, rfl⟩

theorem Spec.CoordText.eq {v : Option Int} {t : GoString} (h : CoordText v t) : t = coordText v := by
  obtain ⟨s, rfl, h⟩ := h
  have : s = bigIntToHex v := by
    cases v with
    | none => exact h
    | some z =>
      obtain ⟨m, h1, rfl⟩ := h
      rw [h1.unique (isMinimalHex_fmtNat _)]
      rfl
  rw [this]
  rfl

theorem publicText_iff (c : Bool) (k : PublicKey) (s : GoString) : PublicText c k s ↔ format k c = .ok s := by
  obtain ⟨X, Y, nw⟩ := k
  cases c with
  | false =>
    rw [format_uncompressed]
    constructor
    · rintro ⟨x, h1, y, h2, rfl⟩
      rw [h1.eq, h2.eq]
    · intro h
      cases h
      exact ⟨_, coordText_spec X, _, coordText_spec Y, rfl⟩
  | true =>
    cases Y with
    | none =>
      rw [format_compressed_nil]
      constructor
      · rintro ⟨x, h1, y, h2, -⟩
        cases h2
      · intro h
        cases h
    | some y =>
      rw [format_compressed]
      constructor
      · rintro ⟨x, h1, y', h2, rfl⟩
        cases h2
        rw [h1.eq]
      · intro h
        cases h
        exact ⟨_, coordText_spec X, y, rfl, rfl⟩

theorem Spec.KeyWith.unique {sha : Bytes → Bytes} {v : Option Int} {h : GoString} {nw : Network} {k k' : PrivateKey}
    (a : KeyWith sha v h nw k) (b : KeyWith sha v h nw k') : k = k' := by
  obtain ⟨a1, a2, a3, bs, a4, a5⟩ := a
  obtain ⟨b1, b2, b3, bs', b4, b5⟩ := b
  obtain rfl := a4.unique b4
  cases k
  cases k'
  simp only at a1 a2 a3 a5 b1 b2 b3 b5
  rw [a1, a2, a3, b1, b2, b3, IsBase58.text_unique a5 b5]

theorem Spec.Combined.unique {sha : Bytes → Bytes} {f : Int → Int → Int} {a b k k' : PrivateKey} (h : Combined sha f a b k)
    (h' : Combined sha f a b k') : k = k' := by
  obtain ⟨x, y, nw, r, s, h1, h2, h3, h4, h5, h6⟩ := h
  obtain ⟨x', y', nw', r', s', h1', h2', h3', h4', h5', h6'⟩ := h'
  rw [h1] at h1'
  rw [h2] at h2'
  rw [h3] at h3'
  cases h1'
  cases h2'
  cases h3'
  obtain rfl : r = r' := by exact_mod_cast h4.trans h4'.symm
  obtain rfl := h5.unique h5'
  exact h6.unique h6'

theorem Spec.LowerHex.eq {s : GoString} {bs : Bytes} (h : LowerHex s bs) : s = hexEncode bs := hexEncode_of_spells h.1 h.2

theorem lowerHex_hexEncode (bs : Bytes) : LowerHex (hexEncode bs) bs := ⟨spells_hexEncode bs, hexEncode_mem_lower⟩

/-- Pieces of the same length are determined by what they make together. -/
theorem pieces_unique {α : Type} {n : Nat} (hn : 0 < n) : ∀ {a b : List (List α)}, (∀ l ∈ a, l.length = n) →
    (∀ l ∈ b, l.length = n) → a.flatten = b.flatten → a = b
  | [], [], _, _, _ => rfl
  | [], l :: b, _, hb, h => by
    have h1 := hb l (by simp)
    have h2 := congrArg List.length h
    simp only [List.flatten_nil, List.flatten_cons, List.length_nil, List.length_append] at h2
    omega
  | l :: a, [], ha, _, h => by
    have h1 := ha l (by simp)
    have h2 := congrArg List.length h
    simp only [List.flatten_nil, List.flatten_cons, List.length_nil, List.length_append] at h2
    omega
  | l :: a, m :: b, ha, hb, h => by
    have h1 := ha l (by simp)
    have h2 := hb m (by simp)
    simp only [List.flatten_cons] at h
    obtain ⟨rfl, h3⟩ := List.append_inj h (h1.trans h2.symm)
    rw [pieces_unique hn (fun l hl => ha l (by simp [hl])) (fun l hl => hb l (by simp [hl])) h3]

theorem Spec.Logged.unique {sha : Bytes → Bytes} {body : Bytes} {ck : UInt8} {l l' : Log} (h : Logged sha body ck l)
    (h' : Logged sha body ck l') : l = l' := by
  obtain ⟨n, a, b, c, rfl, h1, h2, h3, h4, h5⟩ := h
  obtain ⟨n', a', b', c', rfl, h1', h2', h3', h4', h5'⟩ := h'
  rw [pieces_unique (by omega) h1 h1' (h2.trans h2'.symm), h3.eq, h4.eq, h5.eq, h3'.eq, h4'.eq, h5'.eq]

theorem Spec.SpellsFirst.unique {wl ws : List GoString} {b b' : List Bool} (h : SpellsFirst wl ws b) (h' : SpellsFirst wl ws b') :
    b = b' := by
  have := (seedBits_first h []).symm.trans (seedBits_first h' [])
  simp only [List.nil_append, Res.ok.injEq] at this
  exact List.map_injective_iff.2 (fun a b h => by revert h; cases a <;> cases b <;> decide) this

theorem Spec.HasCoords.point_unique {P Q : W.Point} {x y : Nat} (h : HasCoords P x y) (h' : HasCoords Q x y) : P = Q := by
  obtain ⟨_, _, _, rfl⟩ := h
  obtain ⟨_, _, _, rfl⟩ := h'
  rfl

/-- C124: the table determines what is returned, what is left of the random bytes and what is logged. -/
theorem C124_unique (H : Hashes) (B : W.Point) (st : State) (r : Request) (g g' : Answer) (rd rd' : Reader) (l l' : Log)
    (h : Result H B st r g rd l) (h' : Result H B st r g' rd' l') : g = g' ∧ rd = rd' ∧ l = l' := by
  cases r with
  | checkWIF w =>
    obtain ⟨rfl, rfl, b, rfl, h⟩ := h
    obtain ⟨rfl, rfl, b', rfl, h'⟩ := h'
    refine ⟨congrArg _ ?_, rfl, rfl⟩
    rw [Bool.eq_iff_iff, h, h']
  | privateFromWIF w net =>
    obtain ⟨rfl, rfl, w0, body, k, rfl, h1, h2, h3, h4, h5⟩ := h
    obtain ⟨rfl, rfl, w0', body', k', rfl, h1', h2', h3', h4', h5'⟩ := h'
    refine ⟨congrArg _ ?_, rfl, rfl⟩
    have hb : w0 :: body = w0' :: body' :=
      (List.append_inj' (h1.bytes_unique h1') (by rw [length_checksum, length_checksum])).1
    obtain ⟨rfl, rfl⟩ := List.cons.inj hb
    cases k
    cases k'
    simp only at *
    rw [h2, h2', h3.eq, h3'.eq, h4, h4', h5, h5']
  | privateFromHex h net =>
    obtain ⟨rfl, rfl, nw, k, rfl, h1, h2⟩ := h
    obtain ⟨rfl, rfl, nw', k', rfl, h1', h2'⟩ := h'
    rw [h1] at h1'
    cases h1'
    exact ⟨congrArg _ (h2.unique h2'), rfl, rfl⟩
  | generatePrivateKey net =>
    obtain ⟨rfl, nw, j, s, k, rfl, h1, rfl, h2, h3, h4, h5, h6⟩ := h
    obtain ⟨rfl, nw', j', s', k', rfl, h1', rfl, h2', h3', h4', h5', h6'⟩ := h'
    rw [h1] at h1'
    cases h1'
    obtain rfl : j = j' := by
      rcases Nat.lt_trichotomy j j' with h | h | h
      · exact (h4' j h h3).elim
      · exact h
      · exact (h4 j' h h3').elim
    obtain rfl := h5.unique h5'
    exact ⟨congrArg _ (h6.unique h6'), rfl, rfl⟩
  | addPrivateKeys p q =>
    obtain ⟨rfl, rfl, a, b, k, rfl, h1, h2, h3⟩ := h
    obtain ⟨rfl, rfl, a', b', k', rfl, h1', h2', h3'⟩ := h'
    rw [h1] at h1'
    rw [h2] at h2'
    cases h1'
    cases h2'
    exact ⟨congrArg _ (h3.unique h3'), rfl, rfl⟩
  | multiplyPrivateKeys p q =>
    obtain ⟨rfl, rfl, a, b, k, rfl, h1, h2, h3⟩ := h
    obtain ⟨rfl, rfl, a', b', k', rfl, h1', h2', h3'⟩ := h'
    rw [h1] at h1'
    rw [h2] at h2'
    cases h1'
    cases h2'
    exact ⟨congrArg _ (h3.unique h3'), rfl, rfl⟩
  | publicFromHex s net =>
    obtain ⟨rfl, rfl, ⟨X, Y, nw⟩, rfl, h1, h⟩ := h
    obtain ⟨rfl, rfl, ⟨X', Y', nw'⟩, rfl, h1', h'⟩ := h'
    refine ⟨congrArg _ ?_, rfl, rfl⟩
    simp only at *
    subst h1 h1'
    have no : ∀ par : Fin 2, asc "04" ≠ parityPrefix par := by decide +kernel
    have inj : ∀ a b : Fin 2, parityPrefix a = parityPrefix b → a = b := by decide +kernel
    rcases h with ⟨a, h2, h3⟩ | ⟨par, y, a, h2, h3, rfl, rfl⟩
    · rcases h' with ⟨a', h2', h3'⟩ | ⟨par', y', a', -⟩
      · rw [h2.eq, h2'.eq, h3.eq, h3'.eq]
      · exact (no par' (a.symm.trans a')).elim
    · rcases h' with ⟨a', -⟩ | ⟨par', y', a', h2', h3', rfl, rfl⟩
      · exact (no par (a'.symm.trans a)).elim
      · obtain rfl := inj _ _ (a.symm.trans a')
        have hy : y = y' := by
          have := EC.p_odd
          have := h3.2.1
          rcases EC.same_x_y h3 h3' with h | h
          · exact h
          · omega
        rw [hy]
  | getPublicKey p =>
    obtain ⟨rfl, rfl, a, v, x, y, h1, h2, h3, rfl⟩ := h
    obtain ⟨rfl, rfl, a', v', x', y', h1', h2', h3', rfl⟩ := h'
    rw [h1] at h1'
    cases h1'
    rw [h2] at h2'
    obtain rfl : v = v' := by simpa using h2'
    obtain ⟨rfl, rfl⟩ := EC.coords_unique h3 h3'
    exact ⟨rfl, rfl, rfl⟩
  | format p c =>
    obtain ⟨rfl, rfl, k, s, h1, rfl, h2⟩ := h
    obtain ⟨rfl, rfl, k', s', h1', rfl, h2'⟩ := h'
    rw [h1] at h1'
    cases h1'
    rw [publicText_iff] at h2 h2'
    rw [h2] at h2'
    cases h2'
    exact ⟨rfl, rfl, rfl⟩
  | address p c =>
    obtain ⟨rfl, rfl, k, s, ser, nw, pre, a, h1, rfl, h2, h3, h4, h5, h6⟩ := h
    obtain ⟨rfl, rfl, k', s', ser', nw', pre', a', h1', rfl, h2', h3', h4', h5', h6'⟩ := h'
    rw [h1] at h1'
    cases h1'
    rw [publicText_iff] at h2 h2'
    rw [h2] at h2'
    cases h2'
    rw [h4] at h4'
    cases h4'
    obtain rfl := h3.unique h3'
    obtain rfl := h5.unique h5'
    exact ⟨congrArg _ (IsBase58.text_unique h6 h6'), rfl, rfl⟩
  | addPublicKeys p q c =>
    obtain ⟨rfl, rfl, a, b, P, Q, x₁, y₁, x₂, y₂, x, y, h1, h2, h3, h4, h5, h6, h7, h8, h9, rfl⟩ := h
    obtain ⟨rfl, rfl, a', b', P', Q', x₁', y₁', x₂', y₂', x', y', h1', h2', h3', h4', h5', h6', h7', h8', h9', rfl⟩ := h'
    rw [h1] at h1'
    rw [h2] at h2'
    cases h1'
    cases h2'
    obtain rfl : x₁ = x₁' := by simpa using h3.symm.trans h3'
    obtain rfl : y₁ = y₁' := by simpa using h4.symm.trans h4'
    obtain rfl : x₂ = x₂' := by simpa using h5.symm.trans h5'
    obtain rfl : y₂ = y₂' := by simpa using h6.symm.trans h6'
    obtain rfl := h7.point_unique h7'
    obtain rfl := h8.point_unique h8'
    obtain ⟨rfl, rfl⟩ := EC.coords_unique h9 h9'
    exact ⟨rfl, rfl, rfl⟩
  | newMnemonic words wl =>
    obtain ⟨rfl, c, ws, h1, rfl, rfl, h2⟩ := h
    obtain ⟨rfl, c', ws', h1', rfl, rfl, h2'⟩ := h'
    obtain rfl : c = c' := by omega
    rw [h2.words_unique h2']
    exact ⟨rfl, rfl, rfl⟩
  | newSeedFromMnemonic mn pa wl =>
    obtain ⟨rfl, rfl, ws, body, ck, h1, h2, rfl, h3, h4, h5⟩ := h
    obtain ⟨rfl, rfl, ws', body', ck', h1', h2', h3', h4', h5', h6'⟩ := h'
    obtain rfl : ws = ws' := by
      rw [← splitSpace_phraseText h1 h2, h3', splitSpace_phraseText h1' h2']
    have := bytesBits_inj (h3.unique h4')
    obtain ⟨rfl, hc⟩ := List.append_inj' this rfl
    obtain rfl : ck = ck' := by simpa using hc
    exact ⟨rfl, rfl, h5.unique h6'⟩

/-! ## The functions keep to the table -/

theorem result_checkWIF (H : Hashes) {w : GoString} {b : Bool} (h : checkWIF H w = .ok b) :
    b = true ↔ ∃ payload, IsBase58Check H.sha256 payload w := by
  rw [← C03_true_iff, h]
  simp

theorem result_privateFromWIF (H : Hashes) {w : GoString} {net : Option Network} {k : PrivateKey}
    (h : privateFromWIF H w net = .ok k) : ∃ w0 body, IsBase58Check H.sha256 (w0 :: body) w ∧ k.WIF = w ∧ LowerHex k.Hex body ∧
      k.Key = (if body = [] then none else some (bigEndian body : Int)) ∧ k.Network = net := by
  obtain ⟨w0, body, h1, rfl⟩ := (privateFromWIF_eq_ok H).1 h
  refine ⟨w0, body, (base58Decode_eq_ok.1 h1).2, rfl, lowerHex_hexEncode body, ?_, rfl⟩
  have hd : ∀ c ∈ hexEncode body, IsHexDigit c := ((exists_spells_iff _).1 ⟨body, spells_hexEncode body⟩).1
  show bigSetString (hexEncode body) 16 = _
  rw [bigSetString_hex hd, hexNumber_of_spells (spells_hexEncode body)]
  cases body with
  | nil => rfl
  | cons b bs => rw [if_neg (by simp [hexEncode]), if_neg (by simp)]

theorem keyWith_base58 {sha : Bytes → Bytes} {v : Option Int} {h : GoString} {nw : Network} {bs : Bytes}
    (hs : Spells (nw.PrivKeyPrefix ++ h) bs) :
    KeyWith sha v h nw { Key := v, Hex := h, WIF := base58Encode (bs ++ checksum sha bs), Network := some nw } :=
  ⟨rfl, rfl, rfl, bs, hs, isBase58_encode _⟩

theorem result_privateFromHex (H : Hashes) {h : GoString} {net : Option Network} {k : PrivateKey}
    (hk : privateFromHex H h net = .ok k) :
    ∃ nw, net = some nw ∧ KeyWith H.sha256 (if h = [] then none else some (hexNumber h : Int)) h nw k := by
  obtain ⟨nw, bs, rfl, h2, rfl⟩ := (privateFromHex_eq_ok H).1 hk
  have hd : ∀ c ∈ h, IsHexDigit c := fun c hc => ((exists_spells_iff _).1 ⟨bs, h2⟩).1 c (by simp [hc])
  refine ⟨nw, rfl, ?_⟩
  rw [bigSetString_hex hd]
  exact keyWith_base58 h2

theorem result_combine (H : Hashes) (f : Int → Int → Int) {a b k : PrivateKey} (h : combine H f a b = .ok k) :
    Combined H.sha256 f a b k := by
  obtain ⟨x, y, nw, bs, h1, -, -, h2, h3, h4, rfl⟩ := (combine_eq_ok H f).1 h
  refine ⟨x, y, nw, residue (f x y), _, h2, h3, h1, residue_cast _, isMinimalHex_fmtNat _, ?_⟩
  rw [← residue_cast]
  exact keyWith_base58 h4

theorem drawn_succ (rd : Reader) (j : Nat) : drawn (rd.drop 32) j = drawn rd (j + 1) := by
  unfold drawn
  rw [List.drop_drop, show 32 + 32 * j = 32 * (j + 1) by omega]

attribute [local irreducible] generateRandomBigInt in
theorem result_generate (H : Hashes) {net : Option Network} {k : PrivateKey} {rd' : Reader} : ∀ (m : Nat) (rd : Reader), rd.length ≤ m →
    generatePrivateKey H rd net = .ok (k, rd') → ∃ nw j s, net = some nw ∧ rd' = rd.drop (32 * (j + 1)) ∧
      32 * (j + 1) ≤ rd.length ∧ Suitable (drawn rd j) ∧ (∀ i < j, ¬ Suitable (drawn rd i)) ∧ IsMinimalHex (drawn rd j) s ∧
      KeyWith H.sha256 (some (drawn rd j : Int)) s nw k := by
  intro m
  induction m with
  | zero =>
    intro rd hm h
    rw [generatePrivateKey_step, if_neg (by omega)] at h
    cases h
  | succ m ih =>
    intro rd hm h
    by_cases hl : 32 ≤ rd.length
    swap
    · rw [generatePrivateKey_step, if_neg hl] at h
      cases h
    cases net with
    | none =>
      obtain ⟨p, hp⟩ := generate_nil_crash H _ rd le_rfl
      rw [hp] at h
      cases h
    | some nw =>
      have hev : EvenHex nw.PrivKeyPrefix := by
        by_contra hn
        obtain ⟨p, hp⟩ := (generate_crash_iff H nw _ rd le_rfl).2 fun hh => hn hh.1
        rw [hp] at h
        cases h
      have h0 : drawn rd 0 = bigEndian (rd.take 32) := by simp [drawn]
      by_cases hv : Suitable (drawn rd 0)
      · have hv' := hv
        rw [h0] at hv'
        have hn : 2 ≤ Spec.n := by decide +kernel
        have hlt : bytesToNat (rd.take 32) < Spec.n - 1 := by
          rw [← bigEndian_eq]
          have := hv'.2
          omega
        have h64 : (fmtNat 16 (bytesToNat (rd.take 32))).length = 64 :=
          (length64_iff (by omega)).2 (by rw [← bigEndian_eq]; exact hv'.1)
        rw [generatePrivateKey_step, if_pos hl, if_pos hlt] at h
        have hs : ∃ bs, Spells (nw.PrivKeyPrefix ++ fmtNat 16 (bytesToNat (rd.take 32))) bs := by
          rw [exists_spells_iff]
          refine ⟨?_, ?_⟩
          · intro c hc
            rcases List.mem_append.1 hc with hc | hc
            · exact hev.1 c hc
            · exact fmtNat16_isHex c hc
          · rw [List.length_append, h64]
            have := hev.2
            omega
        obtain ⟨bs, hs⟩ := hs
        have hp := (privateFromHex_eq_ok H).2 ⟨nw, bs, rfl, hs, rfl⟩
        rw [attempt, if_neg (by omega), hp] at h
        simp only [Res.ok.injEq, Prod.mk.injEq] at h
        obtain ⟨rfl, rfl⟩ := h
        refine ⟨nw, 0, fmtNat 16 (bytesToNat (rd.take 32)), rfl, by simp, by omega, hv, by simp, ?_, ?_⟩
        · rw [h0, bigEndian_eq]
          exact isMinimalHex_fmtNat _
        · rw [h0, bigEndian_eq]
          exact keyWith_base58 hs
      · have hc := (C15_any_network H nw (rd.take 32) (rd.drop 32) (by simp; omega) hev).2 (by rw [← h0]; exact hv)
        rw [List.take_append_drop] at hc
        rw [hc] at h
        obtain ⟨nw', j, s, e1, rfl, e2, e3, e4, e5, e6⟩ := ih (rd.drop 32) (by simp; omega) h
        rw [drawn_succ] at e3 e5 e6
        refine ⟨nw', j + 1, s, e1, ?_, ?_, e3, ?_, e5, e6⟩
        · rw [List.drop_drop, show 32 + 32 * (j + 1) = 32 * (j + 1 + 1) by omega]
        · rw [List.length_drop] at e2
          omega
        · intro i hi
          cases i with
          | zero => exact hv
          | succ i =>
            rw [← drawn_succ]
            exact e4 i (by omega)

theorem result_publicFromHex (V : Ecdsa) (hC : EcdsaContract V) {s : GoString} {net : Option Network} {k : PublicKey}
    (hd : s.take 2 ∈ [asc "02", asc "03"] → 66 ≤ s.length →
      (∀ c ∈ (s.drop 2).take 64, IsHexDigit c) ∧ hexNumber ((s.drop 2).take 64) < Spec.p)
    (h : publicFromHex V s net = .ok k) : k.Network = net ∧
      ((s.take 2 = asc "04" ∧ Reads ((s.drop 2).take 64) k.X ∧ Reads ((s.drop 66).take 64) k.Y) ∨
        ∃ (par : Fin 2) (y : Nat), s.take 2 = parityPrefix par ∧ y % 2 = par ∧ OnCurve (hexNumber ((s.drop 2).take 64)) y ∧
          k.X = some (hexNumber ((s.drop 2).take 64) : Int) ∧ k.Y = some (y : Int)) := by
  obtain ⟨k1, k2, k3, k4⟩ := C32_outcomes_partial V s net
  by_cases hl : s.length < 2
  · rw [k1 hl] at h
    cases h
  by_cases h4 : s.take 2 = asc "04"
  · by_cases hl4 : s.length < 130
    · rw [(k4 h4).1 hl4] at h
      cases h
    · have hs : s = asc "04" ++ (s.drop 2).take 64 ++ (s.drop 66).take 64 ++ s.drop 130 := by
        rw [← h4, ← List.take_add, ← List.take_add, List.take_append_drop]
      rw [hs, publicFromHex_uncompressed V _ _ (by simp; omega) (by simp; omega)] at h
      cases h
      exact ⟨rfl, .inl ⟨h4, reads_bigSetString _, reads_bigSetString _⟩⟩
  by_cases h23 : s.take 2 ∈ [asc "02", asc "03"]
  · by_cases hl6 : s.length < 66
    · rw [(k3 h23).1 hl6] at h
      cases h
    · rw [(k3 h23).2 (by omega)] at h
      obtain ⟨hh, hx⟩ := hd h23 (by omega)
      have hxl : ((s.drop 2).take 64).length = 64 := by simp; omega
      have hs : s.take 66 = s.take 2 ++ (s.drop 2).take 64 := by
        rw [show 66 = 2 + 64 by omega, List.take_add]
      obtain ⟨par, hpar⟩ : ∃ par : Fin 2, s.take 2 = Spec.parityPrefix par := by
        rcases List.mem_cons.1 h23 with h | h
        · exact ⟨0, h.trans (by decide +kernel)⟩
        · exact ⟨1, (List.mem_singleton.1 h).trans (by decide +kernel)⟩
      obtain ⟨c1, c2, c3⟩ := C30_decompression V hC par _ net hxl hh hx
      rw [hs, hpar] at h
      by_cases hy : ∃ y, OnCurve (hexNumber ((s.drop 2).take 64)) y
      · obtain ⟨y, ⟨y1, y2⟩, -⟩ := c3 hy
        rw [c1 y y1 y2] at h
        cases h
        exact ⟨rfl, .inr ⟨par, y, hpar, y2, y1, rfl, rfl⟩⟩
      · rw [c2 fun y hy' => hy ⟨y, hy'⟩] at h
        cases h
  · have hno : s.take 2 ∉ [asc "02", asc "03", asc "04"] := by
      simp only [List.mem_cons, List.not_mem_nil, or_false, not_or] at h23 ⊢
      exact ⟨h23.1, h23.2, h4⟩
    rw [k2 (by omega) hno] at h
    cases h

theorem result_address (H : Hashes) {k : PublicKey} {c : Bool} {a : GoString} (h : address H k c = .ok a) :
    ∃ s ser nw pre, PublicText c k s ∧ Spells s ser ∧ k.Network = some nw ∧ Spells nw.PubKeyHashPrefix pre ∧
      IsBase58Check H.sha256 (pre ++ hash160 H.sha256 H.ripemd160 ser) a := by
  obtain ⟨s, hs⟩ : ∃ s, format k c = .ok s := by
    cases hf : format k c with
    | ok s => exact ⟨s, rfl⟩
    | err e => simp [address, hf] at h
    | panic p => simp [address, hf] at h
  cases hd : hexDecode s with
  | err e => simp [address, hs, hd] at h
  | panic p => simp [address, hs, hd] at h
  | ok ser =>
    have hser := hexDecode_eq_ok.1 hd
    cases hn : k.Network with
    | none => simp [address, hs, hd, hn] at h
    | some nw =>
      have hr : (hexEncode (H.ripemd160 (H.sha256 ser))).length % 2 = 0 := by simp
      cases hp : hexDecode nw.PubKeyHashPrefix with
      | ok pre =>
        have hpre := hexDecode_eq_ok.1 hp
        rw [address_of_spells H hs hser hn hpre] at h
        cases h
        exact ⟨s, ser, nw, pre, (publicText_iff ..).2 hs, hser, rfl, hpre, isBase58_encode _⟩
      | err e =>
        have : address H k c ≠ .ok a := by
          intro h'
          have he := (address_err_iff H k.X k.Y k.Network c e).2 ?_
          · change address H k c = _ at he
            rw [he] at h'
            cases h'
          · refine ⟨?_, .inr ⟨(format_spells_iff c k.X k.Y k.Network).1 ⟨s, ser, hs, hser⟩, nw, hn, (hexDecode_err_iff _ _).1 hp⟩⟩
            rintro ⟨rfl, hy⟩
            obtain ⟨X, Y, N⟩ := k
            simp only at hy
            rw [hy, format_compressed_nil] at hs
            cases hs
        exact (this h).elim
      | panic p => exact (hexDecode_ne_panic _ _ hp).elim

theorem result_newMnemonic (H : Hashes) {rd rd' : Reader} {words : Int} {wl : Option (List GoString)} {s : GoString}
    (h : newMnemonic H rd words wl = .ok (s, rd')) : ∃ (c : Nat) (ws : List GoString), words = 3 * c ∧ s = phraseText ws ∧
      rd' = rd.drop (4 * c) ∧
      SpellsBits (wl.getD []) ws (bytesBits (rd.take (4 * c)) ++ appended H.sha256 (rd.take (4 * c)) c).reverse := by
  cases wl with
  | none => simp [newMnemonic] at h
  | some l =>
    by_cases hc : ∃ c : Nat, 4 ≤ c ∧ c ≤ 8 ∧ words = ((3 * c : Nat) : Int)
    · obtain ⟨c, h1, h2, rfl⟩ := hc
      have hm : 3 * c ∈ [12, 15, 18, 21, 24] := by simp; omega
      obtain ⟨ent, ws, check, e1, e2, e3, e4, e5, e6, e7⟩ := C47_exact_encoding H rd rd' (3 * c) l s hm h
      have hl : ent.length = 4 * c := by omega
      have ht : rd.take (4 * c) = ent := by rw [e1, ← hl, List.take_left' rfl]
      refine ⟨c, ws, by push_cast; rfl, e4, ?_, ?_⟩
      · rw [e1, ← hl, List.drop_left' rfl]
      · rw [ht]
        rw [e5, show 3 * c / 3 = c by omega] at e7
        exact e7
    · have hn : entropyLengthOf words = none := entropyLengthOf_none fun c h1 h2 h => hc ⟨c, h1, h2, h⟩
      simp [newMnemonic, hn] at h

theorem result_newSeed (H : Hashes) {mn pa : GoString} {wl : Option (List GoString)} (hl : (wl.getD []).length ≤ 2048)
    {seed : Option Bytes} {lines : Log} (h : newSeedFromMnemonic H mn pa wl = (.ok seed, lines)) : seed = none ∧
      ∃ ws body ck, ws ≠ [] ∧ (∀ w ∈ ws, (32 : UInt8) ∉ w) ∧ mn = phraseText ws ∧
        SpellsFirst (wl.getD []) ws (bytesBits (body ++ [ck])) ∧ (H.sha256 body).take 1 = [ck] ∧
        Logged H.sha256 body ck lines := by
  refine ⟨C52_seed_always_nil H mn pa wl seed (by rw [h]), splitSpace mn, ?_⟩
  have hw : ∀ w ∈ splitSpace mn, w ∈ wl.getD [] := by
    by_contra hn
    push Not at hn
    obtain ⟨w, h1, h2⟩ := hn
    have := congrArg Prod.fst h
    rw [newSeed_unknown H pa h1 h2] at this
    cases this
  cases wl with
  | none =>
    obtain ⟨w, h⟩ := List.exists_mem_of_ne_nil _ (splitSpace_ne_nil mn)
    exact absurd (hw w h) (by simp)
  | some wl =>
    simp only [Option.getD_some] at hl hw ⊢
    have h8 : (splitSpace mn).length % 8 = 0 := by
      rcases (by omega : (splitSpace mn).length % 4 ≠ 0 ∨ (splitSpace mn).length % 8 = 4 ∨ (splitSpace mn).length % 8 = 0)
        with h1 | h1 | h1
      · have := newSeed_panic H pa hl hw h1
        rw [h] at this
        cases this
      · have := newSeed_odd H pa hl hw h1
        rw [h] at this
        cases this
      · exact h1
    obtain ⟨body, ck, log, -, e1, e2, e3, e4⟩ := newSeed_bytes_seed H pa hl hw h8
    obtain ⟨bits, hf⟩ := exists_first hl hw
    have eb : bits = bytesBits (body ++ [ck]) := by
      have := seedBits_first hf []
      rw [e1, List.nil_append] at this
      exact (List.map_injective_iff.2 (fun a b h => by revert h; cases a <;> cases b <;> decide) (Res.ok.inj this)).symm
    rw [e4] at h
    split at h
    · rename_i hck
      simp only [Prod.mk.injEq] at h
      obtain ⟨-, rfl⟩ := h
      refine ⟨body, ck, splitSpace_ne_nil mn, splitSpace_noSpace mn, (phraseText_splitSpace mn).symm, eb ▸ hf, hck,
        log, _, _, _, ?_, e2, ?_, lowerHex_hexEncode _, lowerHex_hexEncode _, lowerHex_hexEncode _⟩
      · rw [List.append_assoc]
        rfl
      · rw [e3]
        congr 1
        funext b
        cases b <;> decide
    · simp at h

section
variable {H : Hashes} {E : EcdsaM} {V : Ecdsa} {st : State}

theorem ok_of_returns {α β : Type} {good : α → List Value} {bad : GoError → List Value} {Q : α → β → Heap → Prop} {r : Request}
    {x : Res β} {vs : List Value} {st' : State} (h : ∃ o, r.Ends H E st o ∧ Returns st good bad Q x o)
    (he : r.Ends H E st (.ok vs st')) (hn : ∀ v e, vs ≠ [v, .err (some e)])
    (hb : ∀ e, x = .err e → ∃ v, bad e = [v, .err (some e)]) :
    ∃ a v, x = .ok v ∧ vs = good a ∧ Q a v st'.heap ∧ Quiet st st' := by
  obtain ⟨o, h1, h2⟩ := h
  obtain rfl := h1.unique he
  cases x with
  | ok v =>
    obtain ⟨a, st'', h, h3, h4⟩ := h2
    cases h
    exact ⟨a, v, rfl, rfl, h3, h4⟩
  | err e =>
    obtain ⟨st'', h, -⟩ := h2
    obtain ⟨v, hv⟩ := hb e rfl
    cases h
    exact (hn v e hv).elim
  | panic p => obtain ⟨st'', h, -⟩ := h2; cases h

attribute [local irreducible] generateRandomBigInt in
/-- The table, in any state in which the parameters are in place and all pointers valid. -/
theorem result_table (H : Hashes) (E : EcdsaM) (V : Ecdsa) (hE : Pkg E) (hV : E.Refines V) (hC : EcdsaContract V)
    (B : W.Point) (hB : HasCoords B gx gy) (st : State) (hi : Intact st) (r : Request) (hd : Determined st r) (vs : List Value)
    (st' : State) (he : r.Ends H E st (.ok vs st')) (hn : ∀ v e, vs ≠ [v, .err (some e)]) :
    ∃ g lines, view st' vs = some g ∧ st'.log = st.log ++ lines ∧ Result H B st r g st'.rd lines := by
  cases r with
  | checkWIF w =>
    obtain ⟨a, b, h, rfl, rfl, hq⟩ := ok_of_returns (C108_checkWIF H E hE st w) he hn
      fun e h => (checkWIF_ne_err H w e h).elim
    exact ⟨.bool a, [], rfl, by simp [hq.log], hq.rd, rfl, a, rfl, result_checkWIF H h⟩
  | privateFromWIF w net =>
    obtain ⟨a, k, h, rfl, h1, hq⟩ := ok_of_returns (C108_privateFromWIF H E hE st w net) he hn fun e _ => ⟨_, rfl⟩
    obtain ⟨w0, body, h2⟩ := result_privateFromWIF H h
    exact ⟨.priv k, [], by simp [view, privResult, new_priv h1], by simp [hq.log], hq.rd, rfl, w0, body, k, rfl, h2⟩
  | privateFromHex h net =>
    obtain ⟨a, k, h, rfl, h1, hq⟩ := ok_of_returns (C108_privateFromHex H E hE st h net) he hn fun e _ => ⟨_, rfl⟩
    obtain ⟨nw, h2, h3⟩ := result_privateFromHex H h
    exact ⟨.priv k, [], by simp [view, privResult, new_priv h1], by simp [hq.log], hq.rd, rfl, nw, k, rfl, h2, h3⟩
  | generatePrivateKey net =>
    obtain ⟨o, h1, h2⟩ := C108_generatePrivateKey H E hE st net
    obtain rfl := h1.unique he
    rcases hg : generatePrivateKey H st.rd (loadNet st.heap net) with ⟨k, rd⟩ | e | p <;> rw [hg] at h2
    · obtain ⟨a, st'', h, h3, h4⟩ := h2
      cases h
      obtain ⟨nw, j, s, e1, e2, e3, e4, e5, e6, e7⟩ := result_generate H _ _ le_rfl hg
      exact ⟨.priv k, [], by simp [view, new_priv h3], by simp [h4.log], rfl, nw, j, s, k, rfl, e1, h4.rd.trans e2, e3, e4,
        e5, e6, e7⟩
    · exact h2.elim
    · obtain ⟨_, h, -⟩ := h2; cases h
  | addPrivateKeys p q =>
    by_cases hz : loadPriv st.heap p = none ∨ loadPriv st.heap q = none
    · obtain ⟨st', -, h⟩ := (C108_nil H E st hE p q true).1 hz
      cases h.unique he
    · push Not at hz
      obtain ⟨o1, h1⟩ := Option.ne_none_iff_exists'.1 hz.1
      obtain ⟨o2, h2⟩ := Option.ne_none_iff_exists'.1 hz.2
      obtain ⟨a, k, h, rfl, h3, hq⟩ := ok_of_returns (text_addPrivateKeys H E hE st hi p q o1 o2 h1 h2) he hn fun e _ => ⟨_, rfl⟩
      rw [add_eq_combine] at h
      exact ⟨.priv k, [], by simp [view, privResult, new_priv h3], by simp [hq.log], hq.rd, rfl, _, _, k, rfl,
        by simp [privAt, h1], by simp [privAt, h2], result_combine H _ h⟩
  | multiplyPrivateKeys p q =>
    by_cases hz : loadPriv st.heap p = none ∨ loadPriv st.heap q = none
    · obtain ⟨st', -, h⟩ := (C108_nil H E st hE p q true).2.1 hz
      cases h.unique he
    · push Not at hz
      obtain ⟨o1, h1⟩ := Option.ne_none_iff_exists'.1 hz.1
      obtain ⟨o2, h2⟩ := Option.ne_none_iff_exists'.1 hz.2
      obtain ⟨a, k, h, rfl, h3, hq⟩ :=
        ok_of_returns (text_multiplyPrivateKeys H E hE st hi p q o1 o2 h1 h2) he hn fun e _ => ⟨_, rfl⟩
      rw [mul_eq_combine] at h
      exact ⟨.priv k, [], by simp [view, privResult, new_priv h3], by simp [hq.log], hq.rd, rfl, _, _, k, rfl,
        by simp [privAt, h1], by simp [privAt, h2], result_combine H _ h⟩
  | publicFromHex s net =>
    obtain ⟨a, k, h, rfl, h1, hq⟩ := ok_of_returns (text_publicFromHex H E V hE hV st hi s net) he hn fun e _ => ⟨_, rfl⟩
    obtain ⟨h2, h3⟩ := result_publicFromHex V hC hd h
    exact ⟨.pub k, [], by simp [view, pubResult, new_pub h1], by simp [hq.log], hq.rd, rfl, k, rfl, h2, h3⟩
  | getPublicKey p =>
    rcases hp : loadPriv st.heap p with _ | o
    · obtain ⟨st', -, h⟩ := (C108_nil H E st hE p p true).2.2.2.1 hp
      cases h.unique he
    · obtain ⟨v, v1, v2, v3⟩ := hd (privValue st.heap o) (by simp [privAt, hp])
      obtain ⟨x, y, hxy, e⟩ := C33_public_key V hC B hB _ v v1 v2 v3
      obtain ⟨a, k, h, rfl, h3, hq⟩ := ok_of_returns (text_getPublicKey H E V hE hV st hi p o hp) he hn
        fun e' h => by rw [e] at h; cases h
      rw [e] at h
      cases h
      have h4 := new_pub h3
      have ha : a.isSome = true := by
        cases a with
        | none => simp [pubAt, loadPub] at h4
        | some a => rfl
      exact ⟨.pub ⟨some (x : Int), some (y : Int), (privValue st.heap o).Network⟩, [], by simp [view, ha, h4], by simp [hq.log],
        hq.rd, rfl, _, v, x, y, by simp [privAt, hp], v1, hxy, rfl⟩
  | format p c =>
    rcases hp : loadPub st.heap p with _ | o
    · obtain ⟨st', -, h⟩ := (C108_nil H E st hE p p c).2.2.2.2.1 hp
      cases h.unique he
    · obtain ⟨a, s, h, rfl, rfl, hq⟩ := ok_of_returns (C108_format H E hE st p o hp c) he hn
        fun e h => (Imp.format_ne_err _ _ _ h).elim
      exact ⟨.str a, [], rfl, by simp [hq.log], hq.rd, rfl, _, a, by simp [pubAt, hp], rfl, (publicText_iff ..).2 h⟩
  | address p c =>
    rcases hp : loadPub st.heap p with _ | o
    · obtain ⟨st', -, h⟩ := (C108_nil H E st hE p p c).2.2.2.2.2 hp
      cases h.unique he
    · obtain ⟨a, s, h, rfl, rfl, hq⟩ := ok_of_returns (C108_address H E hE st p o hp c) he hn fun e _ => ⟨_, rfl⟩
      obtain ⟨s, ser, nw, pre, h1⟩ := result_address H h
      exact ⟨.str a, [], rfl, by simp [hq.log], hq.rd, rfl, _, s, ser, nw, pre, a, by simp [pubAt, hp], rfl, h1⟩
  | addPublicKeys p q c =>
    by_cases hz : loadPub st.heap p = none ∨ loadPub st.heap q = none
    · obtain ⟨st', -, h⟩ := (C108_nil H E st hE p q c).2.2.1 hz
      cases h.unique he
    · push Not at hz
      obtain ⟨o1, h1⟩ := Option.ne_none_iff_exists'.1 hz.1
      obtain ⟨o2, h2⟩ := Option.ne_none_iff_exists'.1 hz.2
      obtain ⟨a, k, h, rfl, h3, hq⟩ :=
        ok_of_returns (text_addPublicKeys H E V hE hV st hi p q o1 o2 h1 h2 c) he hn fun e _ => ⟨_, rfl⟩
      by_cases hnet : (pubValue st.heap o1).Network = (pubValue st.heap o2).Network
      · obtain ⟨x₁, y₁, x₂, y₂, a1, a2, a3, a4, a5, a6, a7⟩ := hd (pubValue st.heap o1) (pubValue st.heap o2)
          (by simp [pubAt, h1]) (by simp [pubAt, h2]) hnet
        obtain ⟨P, hP⟩ := (EC.onCurve_iff _ _).1 a5
        obtain ⟨Q, hQ⟩ := (EC.onCurve_iff _ _).1 a6
        obtain ⟨x, y, hxy, -, e⟩ := C37_add_public_keys V hC P Q x₁ y₁ x₂ y₂ (pubValue st.heap o1).Network hP hQ a7
        have e1 : pubValue st.heap o1 = ⟨some (x₁ : Int), some (y₁ : Int), (pubValue st.heap o1).Network⟩ := by rw [← a1, ← a2]
        have e2 : pubValue st.heap o2 = ⟨some (x₂ : Int), some (y₂ : Int), (pubValue st.heap o1).Network⟩ := by
          rw [← a3, ← a4, hnet]
        rw [e2, e1, (e c).1] at h
        cases h
        exact ⟨.pub ⟨some (x : Int), some (y : Int), (pubValue st.heap o1).Network⟩, [],
          by simp [view, pubResult, new_pub h3], by simp [hq.log], hq.rd, rfl, _, _, P, Q, x₁, y₁, x₂, y₂, x, y,
          by simp [pubAt, h1], by simp [pubAt, h2], a1, a2, a3, a4, hP, hQ, hxy, rfl⟩
      · rw [(C24_public_networks V _ _ c).1 hnet] at h
        cases h
  | newMnemonic words wl =>
    obtain ⟨o, h1, h2⟩ := C108_newMnemonic H E st words wl
    obtain rfl := h1.unique he
    rcases hg : newMnemonic H st.rd words wl with ⟨s, rd⟩ | e | p <;> rw [hg] at h2
    · obtain ⟨st'', h, h4⟩ := h2
      cases h
      obtain ⟨c, ws, e1, rfl, e2, e3⟩ := result_newMnemonic H hg
      exact ⟨.str (phraseText ws), [], rfl, by simp [h4.log], rfl, c, ws, e1, rfl, h4.rd.trans e2, e3⟩
    · obtain ⟨_, h, -⟩ := h2; cases h; exact (hn _ _ rfl).elim
    · obtain ⟨_, h, -⟩ := h2; cases h
  | newSeedFromMnemonic mn pa wl =>
    obtain ⟨o, h1, h2⟩ := C108_newSeedFromMnemonic H E st mn pa wl
    obtain rfl := h1.unique he
    rcases hg : newSeedFromMnemonic H mn pa wl with ⟨seed | e | p, log⟩
    · obtain ⟨rfl, ws, body, ck, e1, e2, e3, e4, e5, e6⟩ := result_newSeed H hd hg
      rw [hg] at h2
      obtain ⟨st'', h, h4⟩ := h2
      cases h
      exact ⟨.nothing, log, rfl, h4.log, h4.rd, rfl, ws, body, ck, e1, e2, e3, e4, e5, e6⟩
    · rw [hg] at h2
      obtain ⟨_, h, -⟩ := h2; cases h; exact (hn _ _ rfl).elim
    · rw [hg] at h2
      obtain ⟨_, h, -⟩ := h2; cases h

end

/-- C124: a call that returns no error returns what the table says, leaves the random bytes it says and logs what it says. -/
theorem C124_results (H : Hashes) (E : EcdsaM) (V : Ecdsa) (hE : Pkg E) (hV : E.Refines V) (hC : EcdsaContract V)
    (B : W.Point) (hB : HasCoords B gx gy) (nets : List Network) (st : State) (hs : Session H E nets st) (r : Request)
    (hd : Determined st r) (vs : List Value) (st' : State) (he : r.Ends H E st (.ok vs st'))
    (hn : ∀ v e, vs ≠ [v, .err (some e)]) :
    ∃ g lines, view st' vs = some g ∧ st'.log = st.log ++ lines ∧ Result H B st r g st'.rd lines :=
  result_table H E V hE hV hC B hB st (hs.intact hE) r hd vs st' he hn

/-- C124: the three tables say exactly what a call does. -/
theorem C124_exact (H : Hashes) (E : EcdsaM) (V : Ecdsa) (hE : Pkg E) (hV : E.Refines V) (hC : EcdsaContract V)
    (B : W.Point) (hB : HasCoords B gx gy) (nets : List Network) (st : State) (hs : Session H E nets st) (r : Request)
    (hd : Determined st r) (g : Answer) (rd : Reader) (lines : Log) :
    (∃ vs st', r.Ends H E st (.ok vs st') ∧ view st' vs = some g ∧ st'.rd = rd ∧ st'.log = st.log ++ lines) ↔
      ¬ Crashes H st r ∧ (∀ e, ¬ Fails H st r e) ∧ Result H B st r g rd lines := by
  have hview : ∀ {vs st'} {g : Answer}, view st' vs = some g → ∀ v e, vs ≠ [v, .err (some e)] := by
    rintro vs st' g h v e rfl
    cases v <;> simp [view] at h
  constructor
  · rintro ⟨vs, st', h1, h2, rfl, h3⟩
    obtain ⟨g', lines', e1, e2, e3⟩ := C124_results H E V hE hV hC B hB nets st hs r hd vs st' h1 (hview h2)
    rw [h2] at e1
    cases e1
    obtain rfl := List.append_cancel_left (h3.symm.trans e2)
    obtain ⟨c1, c2⟩ := (C122_success H E V hE hV hC nets st hs r hd).1 ⟨vs, st', h1, hview h2⟩
    exact ⟨c1, c2, e3⟩
  · rintro ⟨c1, c2, h⟩
    obtain ⟨vs, st', h1, h2⟩ := (C122_success H E V hE hV hC nets st hs r hd).2 ⟨c1, c2⟩
    obtain ⟨g', lines', e1, e2, e3⟩ := C124_results H E V hE hV hC B hB nets st hs r hd vs st' h1 h2
    obtain ⟨rfl, rfl, rfl⟩ := C124_unique H B st r _ _ _ _ _ _ h e3
    exact ⟨vs, st', h1, e1, rfl, e2⟩

open Samples

set_option linter.constructorNameAsVariable false

/-- C124: the first block of 32 random bytes is too large, the second is the key; eight bytes are left. -/
example : ∃ vs st' k, (Request.generatePrivateKey (some 0)).Ends realHashes pkg (stocked (List.replicate 32 255 ++ List.replicate 40 17))
    (.ok vs st') ∧ view st' vs = some (.priv k) ∧ k.Hex = List.replicate 64 49 ∧ st'.rd = List.replicate 8 17 := by
  have hs : Spells (MainNetwork.PrivKeyPrefix ++ List.replicate 64 49) (128 :: List.replicate 32 17) := by
    have : hexDecode (MainNetwork.PrivKeyPrefix ++ List.replicate 64 49) = .ok (128 :: List.replicate 32 17) := by decide +kernel
    exact hexDecode_eq_ok.1 this
  have hd : drawn (List.replicate 32 255 ++ List.replicate 40 17) 1 = bigEndian (List.replicate 32 17) := by decide +kernel
  have hm : IsMinimalHex (bigEndian (List.replicate 32 17)) (List.replicate 64 49) := by
    have : fmtNat 16 (bigEndian (List.replicate 32 17)) = List.replicate 64 49 := by decide +kernel
    rw [← this]
    exact isMinimalHex_fmtNat _
  have hsuit : Suitable (bigEndian (List.replicate 32 17)) := by unfold Suitable; decide +kernel
  obtain ⟨vs, st', h1, h2, h3, -⟩ := (C124_exact realHashes pkg EC.ref refPkg.1 refPkg.2.1 refPkg.2.2 EC.G EC.G_coords []
    (stocked (List.replicate 32 255 ++ List.replicate 40 17)) (stocked_session _ _ _) (.generatePrivateKey (some 0)) trivial
    (.priv _) (List.replicate 8 17) []).2 ⟨by
      rintro h
      refine h ⟨MainNetwork, rfl, ?_, 1, by decide, ?_⟩
      · unfold EvenHex IsHexDigit
        decide +kernel
      · show Suitable (drawn (List.replicate 32 255 ++ List.replicate 40 17) 1)
        rw [hd]
        exact hsuit, fun e h => h.elim, rfl, MainNetwork, 1, List.replicate 64 49, _, rfl, rfl, by decide +kernel, by decide,
        by
          show Suitable (drawn (List.replicate 32 255 ++ List.replicate 40 17) 1)
          rw [hd]
          exact hsuit, by
          intro i hi
          obtain rfl : i = 0 := by omega
          unfold Suitable
          show ¬ (_ ∧ drawn (List.replicate 32 255 ++ List.replicate 40 17) 0 ≤ _)
          decide +kernel, by
          show IsMinimalHex (drawn (List.replicate 32 255 ++ List.replicate 40 17) 1) _
          rw [hd]
          exact hm, keyWith_base58 hs⟩
  exact ⟨vs, st', _, h1, h2, rfl, h3⟩

/-- C124: an uncompressed key may have a negative X and no Y. -/
example : ∃ vs st', (Request.publicFromHex (asc "04" ++ 45 :: (List.replicate 62 48 ++ [49]) ++ List.replicate 64 103) none).Ends realHashes pkg
    (stocked []) (.ok vs st') ∧ view st' vs = some (.pub ⟨some (-1), none, none⟩) := by
  have hz : hexNumber (List.replicate 62 48 ++ [49]) = 1 := by decide +kernel
  obtain ⟨vs, st', h1, h2, -⟩ := (C124_exact realHashes pkg EC.ref refPkg.1 refPkg.2.1 refPkg.2.2 EC.G EC.G_coords []
    (stocked []) (stocked_session _ _ _)
    (.publicFromHex (asc "04" ++ 45 :: (List.replicate 62 48 ++ [49]) ++ List.replicate 64 103) none)
    (fun h => absurd h (by decide +kernel)) (.pub ⟨some (-1), none, none⟩) [] []).2 ⟨by
      rintro (h | ⟨h, -⟩ | ⟨-, h⟩)
      · exact absurd h (by decide +kernel)
      · exact absurd h (by decide +kernel)
      · exact absurd h (by decide +kernel), by
      rintro e (⟨-, -, h⟩ | ⟨-, h, -⟩)
      · exact h (by decide +kernel)
      · exact absurd h (by decide +kernel), rfl, rfl, _, rfl, rfl, .inl ⟨by decide +kernel, by
        show IsNumeral (45 :: (List.replicate 62 48 ++ [49])) (-1)
        have := IsNumeral.minus (t := List.replicate 62 48 ++ [49]) (by decide) (by unfold IsHexDigit; decide +kernel)
        rwa [hz] at this, by
        show Reads (List.replicate 64 103) none
        have := reads_bigSetString (List.replicate 64 103)
        rwa [show bigSetString (List.replicate 64 103) 16 = none by decide +kernel] at this⟩⟩
  exact ⟨vs, st', h1, h2⟩

/-- C124: eight words of a list of two are accepted; nothing is returned, and the log tells the phrase. -/
example : ∃ vs st', (Request.newSeedFromMnemonic (asc "a a a a a a a b") [] (some [asc "a", asc "b"])).Ends realHashes pkg
    (stocked []) (.ok vs st') ∧ view st' vs = some .nothing ∧ st'.log = List.replicate 21 (asc "0000") ++ [asc "0001",
      asc "01d448afd928065458cf670b60f5a594d735af0172c8d67f22a81680132681ca 64", asc "0000000000000000000001 01"] := by
  have hsp : SpellsFirst [asc "a", asc "b"] (List.replicate 7 (asc "a") ++ [asc "b"]) (bytesBits (List.replicate 10 0 ++ [1])) := by
    have e : bytesBits (List.replicate 10 0 ++ [1]) = (List.replicate 11 false ++ (List.replicate 11 false ++ (List.replicate 11 false ++
      (List.replicate 11 false ++ (List.replicate 11 false ++ (List.replicate 11 false ++ (List.replicate 11 false ++
      ((List.replicate 10 false ++ [true]) ++ [])))))))) := by decide +kernel
    rw [e]
    have h0 : bitsNumber (List.replicate 11 false) = [asc "a", asc "b"].idxOf (asc "a") := by decide +kernel
    have h1 : bitsNumber (List.replicate 10 false ++ [true]) = [asc "a", asc "b"].idxOf (asc "b") := by decide +kernel
    have ha : asc "a" ∈ [asc "a", asc "b"] := by simp
    have hb : asc "b" ∈ [asc "a", asc "b"] := by simp
    exact .cons (by decide) ha h0 (.cons (by decide) ha h0 (.cons (by decide) ha h0 (.cons (by decide) ha h0 (.cons (by decide) ha h0
      (.cons (by decide) ha h0 (.cons (by decide) ha h0 (.cons (by decide) hb h1 .nil)))))))
  have hck : (realHashes.sha256 (List.replicate 10 0)).take 1 = [1] := by decide +kernel
  have hne : List.replicate 7 (asc "a") ++ [asc "b"] ≠ [] := by decide +kernel
  have hsc : ∀ w ∈ List.replicate 7 (asc "a") ++ [asc "b"], (32 : UInt8) ∉ w := by decide +kernel
  have hmn : asc "a a a a a a a b" = phraseText (List.replicate 7 (asc "a") ++ [asc "b"]) := by decide +kernel
  have huniq : ∀ ws : List GoString, ws ≠ [] → (∀ w ∈ ws, (32 : UInt8) ∉ w) → phraseText ws = asc "a a a a a a a b" →
      ws = List.replicate 7 (asc "a") ++ [asc "b"] := by
    intro ws h1 h2 h3
    rw [← splitSpace_phraseText h1 h2, h3, hmn, splitSpace_phraseText hne hsc]
  obtain ⟨vs, st', h1, h2, -, h3⟩ := (C124_exact realHashes pkg EC.ref refPkg.1 refPkg.2.1 refPkg.2.2 EC.G EC.G_coords []
    (stocked []) (stocked_session _ _ _) (.newSeedFromMnemonic (asc "a a a a a a a b") [] (some [asc "a", asc "b"]))
    (show [asc "a", asc "b"].length ≤ 2048 by decide +kernel) .nothing []
    (List.replicate 21 (asc "0000") ++ [asc "0001",
      asc "01d448afd928065458cf670b60f5a594d735af0172c8d67f22a81680132681ca 64", asc "0000000000000000000001 01"])).2 ⟨by
      rintro ⟨ws, h1, h2, h3, h4⟩
      have hw : ws ≠ [] := by rintro rfl; exact h4 rfl
      rw [huniq ws hw h1 h2] at h4
      exact h4 (by decide +kernel), by
      rintro e ⟨ws, h1, h2, h3, h4⟩
      rw [huniq ws h1 h2 h3] at h4
      rcases h4 with ⟨-, w, h5, h6⟩ | ⟨-, -, h5⟩ | ⟨-, body, ck, h5, h6⟩
      · exact h6 (hsp.mem w h5)
      · revert h5
        decide +kernel
      · have hb := bytesBits_inj (h5.unique hsp)
        obtain ⟨rfl, hc⟩ := List.append_inj' hb rfl
        rw [hc] at h6
        exact h6 hck, rfl, rfl, _, _, _, hne, hsc, hmn, hsp, hck, List.replicate 21 (asc "0000") ++ [asc "0001"],
      hexEncode (realHashes.sha256 (List.replicate 10 0)), hexEncode (List.replicate 10 0 ++ [1]), hexEncode [1],
      by decide +kernel, by decide +kernel, by decide +kernel, lowerHex_hexEncode _, lowerHex_hexEncode _, lowerHex_hexEncode _⟩
  rw [show (stocked []).log = [] from rfl, List.nil_append] at h3
  exact ⟨vs, st', h1, h2, h3⟩

end Btc
