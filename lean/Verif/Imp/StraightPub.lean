import Verif.Imp.Straight

/-!
# The programs of public_key.go without loops compute the model
-/

namespace Btc.Imp

/-- `ecdsa.Curve`'s methods have no `error` result. -/
structure NoErr (E : Ecdsa) : Prop where
  getY : ∀ c x e, E.getY c x ≠ .err e
  multMod : ∀ c x k e, E.multMod c x k ≠ .err e
  scalarMult : ∀ c k p e, E.scalarMult c k p ≠ .err e
  addPoints : ∀ c p q e, E.addPoints c p q ≠ .err e

theorem publicFromHex_eval {E : Ecdsa} (hE : NoErr E) (n : Nat) (w : World) (hexa : GoString) (network : Option Network) :
    (publicFromHexBody E).eval n w { hexa := hexa, network := network } = fin (Done.ptr (publicFromHex E hexa network)) w := by
  unfold publicFromHexBody publicFromHex
  exec
  cases hs : slice hexa 0 2 with
  | err e => exact absurd hs slice_ne_err
  | panic p => exec
  | ok pre =>
    exec
    by_cases h4 : pre = asc "04"
    · simp only [h4, decide_true]
      exec
      cases hs : slice hexa 2 66 with
      | err e => exact absurd hs slice_ne_err
      | panic p => exec
      | ok x =>
        exec
        cases hs : slice hexa 66 130 with
        | err e => exact absurd hs slice_ne_err
        | panic p => exec
        | ok y => exec
    · simp only [h4, decide_false]
      exec
      by_cases h32 : pre = asc "03" ∨ pre = asc "02"
      · have : (decide (pre = asc "03") || decide (pre = asc "02")) = true := by simpa using h32
        simp only [this, h32]
        exec
        cases hs : slice hexa 2 66 with
        | err e => exact absurd hs slice_ne_err
        | panic p => exec
        | ok x =>
          exec
          cases hy : E.getY secp256k1 (bigSetString x 16) with
          | err e => exact absurd hy (hE.getY _ _ _)
          | panic p => exec
          | ok q =>
            obtain ⟨y, b⟩ := q
            cases b with
            | false => exec
            | true =>
              exec
              cases y with
              | none => by_cases h2 : pre = asc "02" <;> simp only [h2, decide_true, decide_false] <;> exec
              | some y =>
                by_cases h2 : pre = asc "02"
                · simp only [h2, decide_true]
                  exec
                  by_cases hp : y % 2 = 0
                  · simp only [hp, not_true_eq_false, decide_false]
                    exec
                  · simp only [hp, not_false_eq_true, decide_true]
                    exec
                    cases hm : E.multMod secp256k1 (some y) (-1) with
                    | err e => exact absurd hm (hE.multMod _ _ _ _)
                    | panic p => exec
                    | ok y' => exec
                · simp only [h2, decide_false]
                  exec
                  by_cases hp : y % 2 = 1
                  · simp only [hp, not_true_eq_false, decide_false]
                    exec
                  · simp only [hp, not_false_eq_true, decide_true]
                    exec
                    cases hm : E.multMod secp256k1 (some y) (-1) with
                    | err e => exact absurd hm (hE.multMod _ _ _ _)
                    | panic p => exec
                    | ok y' => exec
      · have : (decide (pre = asc "03") || decide (pre = asc "02")) = false := by simpa using h32
        simp only [this, h32]
        exec

/-- How `GetPublicKey` ends, from the model: `(nil, false)` for a point not on the curve. -/
def Done.flag : Res (Option PublicKey) → Option (Done (Option PublicKey × Bool))
  | .ok k => some (.ret (k, k.isSome))
  | .err _ => none
  | .panic p => some (.panic p)

theorem getPublicKey_eval {E : Ecdsa} (hE : NoErr E) (n : Nat) (w : World) (p : Option PrivateKey) :
    (getPublicKeyBody E).eval n w { p := p } = fin (Done.flag (do let k ← deref p; getPublicKey E k)) w := by
  unfold getPublicKeyBody getPublicKey
  cases p with
  | none => exec; rfl
  | some p =>
    exec
    cases hm : E.scalarMult secp256k1 p.Key secp256k1.G with
    | err e => exact absurd hm (hE.scalarMult _ _ _ _)
    | panic q => exec; rfl
    | ok q =>
      obtain ⟨R, b⟩ := q
      cases b <;> exec <;> rfl

theorem format_ne_err (p : PublicKey) (c : Bool) (e : GoError) : format p c ≠ .err e := by
  unfold format
  cases c with
  | false => simp
  | true =>
    cases p.Y with
    | none => simp
    | some y => simp only [deref_some, Res.bind_ok]; split <;> [skip; split] <;> simp

theorem address_eval (H : Hashes) (n : Nat) (w : World) (p : Option PublicKey) (compressed : Bool) :
    (addressBody H).eval n w { p := p, compressed := compressed } =
      fin (Done.text (do let k ← deref p; address H k compressed)) w := by
  unfold addressBody address
  cases p with
  | none => exec
  | some p =>
    exec
    cases hf : format p compressed with
    | err e => exact absurd hf (format_ne_err _ _ _)
    | panic q => exec
    | ok hexa =>
      exec
      cases hexDecode hexa with
      | err e => exec
      | panic q => exec
      | ok bytes =>
        exec
        cases p.Network with
        | none => exec
        | some net =>
          exec
          cases hexDecode (net.PubKeyHashPrefix ++ hexEncode (H.ripemd160 (H.sha256 bytes))) with
          | err e => exec
          | panic q => exec
          | ok bs =>
            exec
            cases hs : slice (hexEncode (H.sha256 (H.sha256 bs))) 0 8 with
            | err e => exact absurd hs slice_ne_err
            | panic q => exec
            | ok c =>
              exec
              cases hexDecode (net.PubKeyHashPrefix ++ hexEncode (H.ripemd160 (H.sha256 bytes)) ++ c) <;> exec

theorem addPublicKeys_eval {E : Ecdsa} (hE : NoErr E) (n : Nat) (w : World) (p1 p2 : Option PublicKey) (compressed : Bool) :
    (addPublicKeysBody E).eval n w { p1 := p1, p2 := p2, compressed := compressed } =
      fin (Done.ptr (do let a ← deref p1; let b ← deref p2; addPublicKeys E a b compressed)) w := by
  unfold addPublicKeysBody addPublicKeys
  cases p1 with
  | none => exec
  | some p1 =>
    cases p2 with
    | none => exec
    | some p2 =>
      exec
      by_cases hn : p1.Network = p2.Network
      · simp only [hn, decide_true, not_true_eq_false]
        exec
        cases hm : E.addPoints secp256k1 ⟨p1.X, p1.Y⟩ ⟨p2.X, p2.Y⟩ with
        | err e => exact absurd hm (hE.addPoints _ _ _ _)
        | panic q => exec
        | ok q =>
          obtain ⟨R, b⟩ := q
          cases b
          · exec
          · exec; simp only [hn]
      · simp only [hn, decide_false, not_false_eq_true]
        exec

end Btc.Imp
