import Verif.Props.Curve

/-!
# C87, C88: whole computations with keys
-/

namespace Btc

open Spec

/-! ## C87 -/

/-- A computation with private keys: sums and products in any nesting. -/
inductive Spec.Expr where
  | key (k : PrivateKey)
  | add (a b : Expr)
  | mul (a b : Expr)

/-- The number a computation stands for. -/
def Spec.Expr.value : Expr → Int
  | .key k => k.Key.getD 0
  | .add a b => a.value + b.value
  | .mul a b => a.value * b.value

/-- The keys a computation starts from. -/
def Spec.Expr.leaves : Expr → List PrivateKey
  | .key k => [k]
  | .add a b => a.leaves ++ b.leaves
  | .mul a b => a.leaves ++ b.leaves

/-- At least one operation. -/
def Spec.Expr.Proper : Expr → Prop
  | .key _ => False
  | _ => True

/-- Running the computation with the functions of the library (private_key.go:136-175), left operand first; the
first error or crash ends it. -/
def runExpr (H : Hashes) : Expr → Res PrivateKey
  | .key k => .ok k
  | .add a b => do
    let x ← runExpr H a
    let y ← runExpr H b
    addPrivateKeys H x y
  | .mul a b => do
    let x ← runExpr H a
    let y ← runExpr H b
    multiplyPrivateKeys H x y

/-- The key a number must have: shortest text, WIF of that text. -/
def keyOf (H : Hashes) (net : Network) (bs : Bytes) (z : Int) : PrivateKey :=
  { Key := some (z % (Spec.n : Int)), Hex := fmtNat 16 (residue z), WIF := base58Encode (bs ++ checksum H.sha256 bs),
    Network := some net }

theorem combine_keyOf (H : Hashes) (op : Int → Int → Int)
    (hop : ∀ a b c d : Int, a % (Spec.n : Int) = c % (Spec.n : Int) → b % (Spec.n : Int) = d % (Spec.n : Int) →
      op a b % (Spec.n : Int) = op c d % (Spec.n : Int))
    {a b k : PrivateKey} {za zb : Int} (hk : combine H op a b = .ok k)
    (ha : ∀ ka, a.Key = some ka → ka % (Spec.n : Int) = za % (Spec.n : Int))
    (hb : ∀ kb, b.Key = some kb → kb % (Spec.n : Int) = zb % (Spec.n : Int)) :
    ∃ net bs, a.Network = some net ∧ b.Network = some net ∧ a.Key ≠ none ∧ b.Key ≠ none ∧
      Spells (net.PrivKeyPrefix ++ fmtNat 16 (residue (op za zb))) bs ∧ k = keyOf H net bs (op za zb) := by
  obtain ⟨k1, k2, net, bs, e1, e2, _, h1, h2, hs, rfl⟩ := (combine_eq_ok H op).1 hk
  have he := hop k1 k2 za zb (ha k1 h1) (hb k2 h2)
  have hr : residue (op k1 k2) = residue (op za zb) := by rw [residue, residue, he]
  rw [hr] at hs
  exact ⟨net, bs, e1, e2, by rw [h1]; simp, by rw [h2]; simp, hs, by rw [keyOf, he, hr]⟩

theorem add_emod {a b c d : Int} (h1 : a % (Spec.n : Int) = c % (Spec.n : Int))
    (h2 : b % (Spec.n : Int) = d % (Spec.n : Int)) : (a + b) % (Spec.n : Int) = (c + d) % (Spec.n : Int) := by
  rw [Int.add_emod, h1, h2, ← Int.add_emod]

theorem mul_emod {a b c d : Int} (h1 : a % (Spec.n : Int) = c % (Spec.n : Int))
    (h2 : b % (Spec.n : Int) = d % (Spec.n : Int)) : (a * b) % (Spec.n : Int) = (c * d) % (Spec.n : Int) := by
  rw [Int.mul_emod, h1, h2, ← Int.mul_emod]

/-- What a successful computation returns. -/
theorem runExpr_ok (H : Hashes) : ∀ (e : Expr) (k : PrivateKey), runExpr H e = .ok k →
    (∀ z, k.Key = some z → z % (Spec.n : Int) = e.value % (Spec.n : Int)) ∧
    (∀ l ∈ e.leaves, l.Network = k.Network) ∧
    (e.Proper → (∀ l ∈ e.leaves, l.Key ≠ none) ∧ ∃ net bs,
      Spells (net.PrivKeyPrefix ++ fmtNat 16 (residue e.value)) bs ∧ k = keyOf H net bs e.value) := by
  have step : ∀ (a b : Expr) (x y k : PrivateKey) (op : Int → Int → Int),
      (∀ a b c d : Int, a % (Spec.n : Int) = c % (Spec.n : Int) → b % (Spec.n : Int) = d % (Spec.n : Int) →
        op a b % (Spec.n : Int) = op c d % (Spec.n : Int)) → runExpr H a = .ok x → runExpr H b = .ok y →
      combine H op x y = .ok k →
      ((∀ z, x.Key = some z → z % (Spec.n : Int) = a.value % (Spec.n : Int)) ∧
        (∀ l ∈ a.leaves, l.Network = x.Network) ∧
        (a.Proper → (∀ l ∈ a.leaves, l.Key ≠ none) ∧ ∃ net bs,
          Spells (net.PrivKeyPrefix ++ fmtNat 16 (residue a.value)) bs ∧ x = keyOf H net bs a.value)) →
      ((∀ z, y.Key = some z → z % (Spec.n : Int) = b.value % (Spec.n : Int)) ∧
        (∀ l ∈ b.leaves, l.Network = y.Network) ∧
        (b.Proper → (∀ l ∈ b.leaves, l.Key ≠ none) ∧ ∃ net bs,
          Spells (net.PrivKeyPrefix ++ fmtNat 16 (residue b.value)) bs ∧ y = keyOf H net bs b.value)) →
      (∀ z, k.Key = some z → z % (Spec.n : Int) = op a.value b.value % (Spec.n : Int)) ∧
      (∀ l ∈ a.leaves ++ b.leaves, l.Network = k.Network) ∧
      ((∀ l ∈ a.leaves ++ b.leaves, l.Key ≠ none) ∧ ∃ net bs,
        Spells (net.PrivKeyPrefix ++ fmtNat 16 (residue (op a.value b.value))) bs ∧
          k = keyOf H net bs (op a.value b.value)) := by
    intro a b x y k op hop ra rb hk ⟨a1, a2, a3⟩ ⟨b1, b2, b3⟩
    obtain ⟨net, bs, n1, n2, k1, k2, hs, rfl⟩ := combine_keyOf H op hop hk a1 b1
    have leafKey : ∀ (e : Expr) (z : PrivateKey), runExpr H e = .ok z → z.Key ≠ none →
        (e.Proper → (∀ l ∈ e.leaves, l.Key ≠ none) ∧ ∃ net bs,
          Spells (net.PrivKeyPrefix ++ fmtNat 16 (residue e.value)) bs ∧ z = keyOf H net bs e.value) →
        ∀ l ∈ e.leaves, l.Key ≠ none := by
      intro e z he hz hp
      cases e with
      | key q =>
        simp only [runExpr, Res.ok.injEq] at he
        subst he
        simpa [Expr.leaves] using hz
      | add p q => exact (hp trivial).1
      | mul p q => exact (hp trivial).1
    refine ⟨?_, ?_, ?_, net, bs, hs, rfl⟩
    · intro z hz
      simp only [keyOf, Option.some.injEq] at hz
      rw [← hz, Int.emod_emod_of_dvd _ (dvd_refl _)]
    · intro l hl
      rcases List.mem_append.1 hl with h | h
      · rw [a2 l h, n1]; rfl
      · rw [b2 l h, n2]; rfl
    · intro l hl
      rcases List.mem_append.1 hl with h | h
      · exact leafKey a x ra k1 a3 l h
      · exact leafKey b y rb k2 b3 l h
  intro e
  induction e with
  | key q =>
    intro k h
    simp only [runExpr, Res.ok.injEq] at h
    subst h
    refine ⟨fun z hz => by simp [Expr.value, hz], by simp [Expr.leaves], fun h => absurd h (by simp [Expr.Proper])⟩
  | add a b iha ihb =>
    intro k h
    simp only [runExpr, Res.bind_eq_ok] at h
    obtain ⟨x, hx, y, hy, hk⟩ := h
    obtain ⟨h1, h2, h3⟩ := step a b x y k (· + ·) (fun _ _ _ _ => add_emod) hx hy (add_eq_combine H ▸ hk) (iha x hx)
      (ihb y hy)
    exact ⟨h1, h2, fun _ => h3⟩
  | mul a b iha ihb =>
    intro k h
    simp only [runExpr, Res.bind_eq_ok] at h
    obtain ⟨x, hx, y, hy, hk⟩ := h
    obtain ⟨h1, h2, h3⟩ := step a b x y k (· * ·) (fun _ _ _ _ => mul_emod) hx hy (mul_eq_combine H ▸ hk) (iha x hx)
      (ihb y hy)
    exact ⟨h1, h2, fun _ => h3⟩

/-- C87. A computation that succeeds returns the key of its value modulo the group order, on the network all its
keys share. -/
theorem C87_value (H : Hashes) (e : Expr) (k : PrivateKey) (hp : e.Proper) (h : runExpr H e = .ok k) :
    (∀ l ∈ e.leaves, l.Network = k.Network) ∧ (∀ l ∈ e.leaves, l.Key ≠ none) ∧
      ∃ r : Nat, (r : Int) = e.value % (Spec.n : Int) ∧ IsKeyOf H r k.Network k := by
  obtain ⟨-, h2, h3⟩ := runExpr_ok H e k h
  obtain ⟨h4, net, bs, hs, rfl⟩ := h3 hp
  refine ⟨h2, h4, residue e.value, residue_cast _, ?_, isMinimalHex_fmtNat _, rfl, ?_, net, bs, rfl, hs,
    isBase58_encode _⟩
  · rw [residue_cast]; rfl
  · show privateFromHex H (fmtNat 16 (residue e.value)) (some net) = _
    rw [privateFromHex_of_spells H hs, keyOf, bigSetString_fmtNat16, residue_cast]

/-- C87. Two computations with equal values modulo the group order, on one network, return exactly the same key:
number, text, WIF and network. In particular order, grouping, expanding and factoring make no difference. -/
theorem C87_same_value_same_key (H : Hashes) (e1 e2 : Expr) (k1 k2 : PrivateKey) (hp1 : e1.Proper) (hp2 : e2.Proper)
    (h1 : runExpr H e1 = .ok k1) (h2 : runExpr H e2 = .ok k2)
    (hv : e1.value % (Spec.n : Int) = e2.value % (Spec.n : Int)) (hn : k1.Network = k2.Network) : k1 = k2 := by
  obtain ⟨-, -, h3⟩ := runExpr_ok H e1 k1 h1
  obtain ⟨-, -, h4⟩ := runExpr_ok H e2 k2 h2
  obtain ⟨-, net, bs, hs, rfl⟩ := h3 hp1
  obtain ⟨-, net', bs', hs', rfl⟩ := h4 hp2
  have e : net = net' := by simpa [keyOf] using hn
  subst e
  have hr : residue e1.value = residue e2.value := by rw [residue, residue, hv]
  rw [hr] at hs
  rw [keyOf, keyOf, hv, hr, hs.unique hs']

/-- (A + B) + A·B and A + (B·A + B): both succeed and return the same key. -/
example : ∃ k, runExpr realHashes (.add (.add (.key Samples.keyA) (.key Samples.keyB))
      (.mul (.key Samples.keyA) (.key Samples.keyB))) = .ok k ∧
    runExpr realHashes (.add (.key Samples.keyA)
      (.add (.mul (.key Samples.keyB) (.key Samples.keyA)) (.key Samples.keyB))) = .ok k := by
  have h1 : (match runExpr realHashes (.add (.add (.key Samples.keyA) (.key Samples.keyB))
      (.mul (.key Samples.keyA) (.key Samples.keyB))) with
    | .ok k => decide (k.Network = some MainNetwork) | _ => false) = true := by decide +kernel
  have h2 : (match runExpr realHashes (.add (.key Samples.keyA)
      (.add (.mul (.key Samples.keyB) (.key Samples.keyA)) (.key Samples.keyB))) with
    | .ok k => decide (k.Network = some MainNetwork) | _ => false) = true := by decide +kernel
  cases e1 : runExpr realHashes (.add (.add (.key Samples.keyA) (.key Samples.keyB))
      (.mul (.key Samples.keyA) (.key Samples.keyB))) with
  | err _ => rw [e1] at h1; simp at h1
  | panic _ => rw [e1] at h1; simp at h1
  | ok k1 =>
    cases e2 : runExpr realHashes (.add (.key Samples.keyA)
        (.add (.mul (.key Samples.keyB) (.key Samples.keyA)) (.key Samples.keyB))) with
    | err _ => rw [e2] at h2; simp at h2
    | panic _ => rw [e2] at h2; simp at h2
    | ok k2 =>
      rw [e1] at h1
      rw [e2] at h2
      refine ⟨k1, rfl, ?_⟩
      rw [C87_same_value_same_key realHashes _ _ k1 k2 (by exact trivial) (by exact trivial) e1 e2 (by
        simp only [Expr.value]
        ring_nf) (by simp at h1 h2; rw [h1, h2])]

/-! ## C88 -/

/-- A computation with public keys: sums in any nesting, starting from the public keys of private keys. The flag is
the third argument of `AddPublicKeys`. -/
inductive Spec.PubExpr where
  | key (k : PrivateKey)
  | add (a b : PubExpr) (compressed : Bool)

/-- The same sum of the private keys. -/
def Spec.PubExpr.priv : PubExpr → Expr
  | .key k => .key k
  | .add a b _ => .add a.priv b.priv

/-- Running the computation with `GetPublicKey` and `AddPublicKeys` (public_key.go:60-73, 168-194). A missing public
key is a nil pointer, which `AddPublicKeys` dereferences. -/
def runPub (E : Ecdsa) : PubExpr → Res PublicKey
  | .key k => do
    match ← getPublicKey E k with
    | some P => .ok P
    | none => .panic .nilDeref
  | .add a b c => do
    let P ← runPub E a
    let Q ← runPub E b
    addPublicKeys E P Q c

/-- The keys are valid scalars, and no step adds equal or opposite points. -/
def Spec.PubExpr.Apart : PubExpr → Prop
  | .key k => ∃ m : Nat, k.Key = some (m : Int) ∧ 1 ≤ m ∧ m < Spec.n
  | .add a b _ => a.Apart ∧ b.Apart ∧ (a.priv.value - b.priv.value) % (Spec.n : Int) ≠ 0 ∧
      (a.priv.value + b.priv.value) % (Spec.n : Int) ≠ 0

/-- C88. Any nesting of public key additions gives the public point of the sum of the private keys, whatever the
flags. -/
theorem C88_public_sum (E : Ecdsa) (hE : EcdsaContract E) (B : W.Point) (hB : HasCoords B gx gy) (net : Option Network) :
    ∀ e : PubExpr, e.Apart → (∀ l ∈ e.priv.leaves, l.Network = net) →
      ∃ r x y : Nat, (r : Int) = e.priv.value % (Spec.n : Int) ∧ 1 ≤ r ∧ r < Spec.n ∧ HasCoords (r • B) x y ∧
        runPub E e = .ok ⟨some (x : Int), some (y : Int), net⟩ := by
  have eB : B = EC.G := EC.coords_point hB EC.G_coords
  subst eB
  intro e
  induction e with
  | key k =>
    rintro ⟨m, hm, h1, h2⟩ hn
    obtain ⟨x, y, hc, hr⟩ := C33_public_key E hE EC.G hB k m hm h1 h2
    refine ⟨m, x, y, ?_, h1, h2, hc, ?_⟩
    · simp only [PubExpr.priv, Expr.value, hm, Option.getD_some]
      rw [Int.emod_eq_of_lt (by omega) (by omega)]
    · simp only [runPub, hr, Res.bind_ok]
      rw [hn k (by simp [PubExpr.priv, Expr.leaves])]
  | add a b c iha ihb =>
    rintro ⟨ha, hb, hd, hs⟩ hn
    obtain ⟨r, x, y, e1, r1, r2, hc, hx⟩ := iha ha fun l hl => hn l (by simp [PubExpr.priv, Expr.leaves, hl])
    obtain ⟨r', x', y', e1', r1', r2', hc', hx'⟩ := ihb hb fun l hl => hn l (by simp [PubExpr.priv, Expr.leaves, hl])
    have hsum : ((r + r' : Nat) : Int) % (Spec.n : Int) = (a.priv.value + b.priv.value) % (Spec.n : Int) := by
      rw [Nat.cast_add, e1, e1', ← Int.add_emod]
    have hne : r ≠ r' := by
      rintro rfl
      rw [e1] at e1'
      exact hd (Int.emod_eq_emod_iff_emod_sub_eq_zero.1 e1')
    have h0 : (r + r') % Spec.n ≠ 0 := by
      intro h
      rw [← hsum] at hs
      exact hs (by exact_mod_cast h)
    have hxne := x_ne hne r2 r2' h0 hc hc'
    obtain ⟨u, v, huv, _, hadd⟩ := C37_add_public_keys E hE _ _ _ _ _ _ net hc hc' hxne
    refine ⟨(r + r') % Spec.n, u, v, ?_, by omega, Nat.mod_lt _ (by decide +kernel), ?_, ?_⟩
    · rw [Int.natCast_mod, hsum]
      rfl
    · rw [smul_mod, add_nsmul]
      exact huv
    · simp only [runPub, hx, hx', Res.bind_ok]
      exact (hadd c).1

/-- C88. If the private keys can be added up the same way, the public key of their sum is the sum of their public
keys. -/
theorem C88_commutes (E : Ecdsa) (hE : EcdsaContract E) (H : Hashes) (e : PubExpr) (k : PrivateKey) (he : e.Apart)
    (hk : runExpr H e.priv = .ok k) :
    ∃ P, runPub E e = .ok P ∧ getPublicKey E k = .ok (some P) := by
  obtain ⟨hz, hn, -⟩ := runExpr_ok H e.priv k hk
  obtain ⟨r, x, y, e1, r1, r2, hc, hx⟩ := C88_public_sum E hE EC.G EC.G_coords k.Network e he hn
  have hkey : k.Key = some (r : Int) := by
    cases e with
    | key q =>
      simp only [PubExpr.priv, runExpr, Res.ok.injEq] at hk
      subst hk
      obtain ⟨m, hm, h1, h2⟩ := he
      have := hz m hm
      rw [Int.emod_eq_of_lt (by omega) (by omega), ← e1] at this
      rw [hm, this]
    | add a b c =>
      obtain ⟨-, -, r', hr', hi⟩ := C87_value H _ k (by exact trivial) hk
      rw [hi.1, hr', e1]
  obtain ⟨x', y', hc', hr⟩ := C33_public_key E hE EC.G EC.G_coords k r hkey r1 r2
  obtain ⟨rfl, rfl⟩ := EC.coords_unique hc hc'
  exact ⟨_, hx, hr⟩

/-- A third key on the main network. -/
def Samples.keyThird : PrivateKey :=
  { Key := some 0xca9a14d902fe536d9265862a8a5f21a8520dc215c0c10da0a9d5831aadcc520f,
    Hex := asc "ca9a14d902fe536d9265862a8a5f21a8520dc215c0c10da0a9d5831aadcc520f",
    WIF := asc "5KMWmt74aaabx8bxumCoXzniNwfdPTTP4y2SG8D31Mzt79FemR9", Network := some MainNetwork }

/-- A + (B + C) on both sides. -/
example : ∃ k P, runExpr realHashes (.add (.key Samples.keyA) (.add (.key Samples.keyB) (.key Samples.keyThird))) = .ok k ∧
    runPub EC.ref (.add (.key Samples.keyA) (.add (.key Samples.keyB) (.key Samples.keyThird) true) false) = .ok P ∧
    getPublicKey EC.ref k = .ok (some P) := by
  have h : (match runExpr realHashes (.add (.key Samples.keyA) (.add (.key Samples.keyB) (.key Samples.keyThird))) with
    | .ok _ => true | _ => false) = true := by decide +kernel
  cases e : runExpr realHashes (.add (.key Samples.keyA) (.add (.key Samples.keyB) (.key Samples.keyThird))) with
  | err _ => rw [e] at h; simp at h
  | panic _ => rw [e] at h; simp at h
  | ok k =>
    obtain ⟨P, h1, h2⟩ := C88_commutes EC.ref EC.ref_contract realHashes
      (.add (.key Samples.keyA) (.add (.key Samples.keyB) (.key Samples.keyThird) true) false) k
      ⟨⟨0x8613DFD6C099751DCC4020EF6F9BCD3C00F4565A15B26979B4B93C045D0A5CEB, rfl, by decide +kernel, by decide +kernel⟩,
        ⟨⟨0xaef29c9770a9f6b9da86e37fc12a334eeffb02f967a55ba125deb77736ee3fc1, rfl, by decide +kernel,
          by decide +kernel⟩,
        ⟨0xca9a14d902fe536d9265862a8a5f21a8520dc215c0c10da0a9d5831aadcc520f, rfl, by decide +kernel,
          by decide +kernel⟩, by decide +kernel, by decide +kernel⟩, by decide +kernel, by decide +kernel⟩ e
    exact ⟨k, P, rfl, h1, h2⟩

end Btc
