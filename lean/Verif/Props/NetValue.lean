import Verif.Props.Client
import Verif.Props.Arith

/-!
# C97: networks are compared by value
-/

namespace Btc

open Spec Mem

/-- Hexadecimal decoding never reports a network error. -/
theorem hexDecode_ne_network : ∀ s : GoString, hexDecode s ≠ .err .differentNetwork := by
  apply list_two_step
  · simp [hexDecode]
  · intro a
    cases ha : fromHexChar a <;> simp [hexDecode, ha]
  · intro a b rest ih
    cases hx : fromHexChar a with
    | none => simp [hexDecode, hx]
    | some x =>
      cases hy : fromHexChar b with
      | none => simp [hexDecode, hx, hy]
      | some y =>
        simp only [hexDecode, hx, hy]
        cases hr : hexDecode rest with
        | err q => rw [hr] at ih; simpa using ih
        | _ => simp

theorem combine_network_iff (H : Hashes) (op : Int → Int → Int) (a b : PrivateKey) :
    combine H op a b = .err .differentNetwork ↔ a.Network ≠ b.Network := by
  constructor
  · intro h hn
    by_cases hw : H.toLower a.WIF = H.toLower b.WIF
    · simp [combine, hn, hw] at h
    cases h1 : a.Key with
    | none => simp [combine, hn, hw, h1] at h
    | some k1 =>
      cases h2 : b.Key with
      | none => simp [combine, hn, hw, h1, h2] at h
      | some k2 =>
        rw [combine_eq H op hn hw h1 h2] at h
        cases hnet : a.Network with
        | none => rw [hnet, privateFromHex_none] at h; simp at h
        | some net =>
          rw [hnet] at h
          cases hd : hexDecode (net.PrivKeyPrefix ++ fmtNat 16 (residue (op k1 k2))) with
          | ok bs => simp [privateFromHex_of_spells H (hexDecode_eq_ok.1 hd)] at h
          | panic q => exact absurd hd (hexDecode_ne_panic _ _)
          | err e =>
            rw [privateFromHex_of_err H hd] at h
            simp only [Res.err.injEq] at h
            subst h
            exact hexDecode_ne_network _ hd
  · intro hn
    simp [combine, hn]

/-- A refined call returns an error exactly when the value-level function does. -/
theorem Mem.Ref.err_iff {α β : Type} {h : Heap} {m : HM α} {r : Res β} {Q : α → β → Heap → Prop} (hr : Ref h m r Q)
    (e : GoError) : (m h).1 = .err e ↔ r = .err e := by
  cases r with
  | ok v =>
    obtain ⟨a, h', h1, -⟩ := hr
    simp [h1]
  | err e' =>
    have : (m h).1 = .err e' := hr
    simp [this]
  | panic p =>
    have : (m h).1 = .panic p := hr
    simp [this]

section Reached

variable {H : Hashes} {E : EcdsaM} (hE : E.Allocs) (hF : E.Fresh) {nets : List Network} {s : Client}
  (hs : Client.Reached H E nets s)
include hE hF hs

/-- C97. Keys are refused as being of different networks exactly when the contents of the two network objects differ;
the addresses of the objects play no role. -/
theorem C97_private_keys {p1 p2 : Ptr} {o1 o2 : PrivObj} (h1 : loadPriv s.heap p1 = some o1)
    (h2 : loadPriv s.heap p2 = some o2) :
    ((addPrivateKeysM H p1 p2 s.heap).1 = .err .differentNetwork ↔ loadNet s.heap o1.Network ≠ loadNet s.heap o2.Network) ∧
    ((multiplyPrivateKeysM H p1 p2 s.heap).1 = .err .differentNetwork ↔
      loadNet s.heap o1.Network ≠ loadNet s.heap o2.Network) := by
  rw [(C91_add hE hF hs h1 h2).err_iff, (C91_multiply hE hF hs h1 h2).err_iff, add_eq_combine, mul_eq_combine,
    combine_network_iff, combine_network_iff]
  exact ⟨Iff.rfl, Iff.rfl⟩

/-- C97 for public keys. (`AddPoints` has no `error` result in Go.) -/
theorem C97_public_keys {V : Ecdsa} (hV : E.Refines V) (hne : ∀ c P Q e, V.addPoints c P Q ≠ .err e) {p1 p2 : Ptr}
    {o1 o2 : PubObj} (h1 : loadPub s.heap p1 = some o1) (h2 : loadPub s.heap p2 = some o2) (c : Bool) :
    (addPublicKeysM E p1 p2 c s.heap).1 = .err .differentNetwork ↔
      loadNet s.heap o1.Network ≠ loadNet s.heap o2.Network := by
  rw [(C91_addPublicKeys hE hF hs hV h1 h2 c).err_iff]
  constructor
  · intro h hn
    have hn' : (pubValue s.heap o1).Network = (pubValue s.heap o2).Network := hn
    simp only [addPublicKeys, hn', ne_eq, not_true_eq_false, if_false] at h
    cases hr : V.addPoints secp256k1 ⟨(pubValue s.heap o1).X, (pubValue s.heap o1).Y⟩
        ⟨(pubValue s.heap o2).X, (pubValue s.heap o2).Y⟩ with
    | ok r =>
      rw [hr] at h
      obtain ⟨r, b⟩ := r
      cases b <;> simp at h
    | err e => exact hne _ _ _ _ hr
    | panic p => rw [hr] at h; simp at h
  · intro hn
    have hn' : (pubValue s.heap o1).Network ≠ (pubValue s.heap o2).Network := hn
    simp [addPublicKeys, hn']

end Reached

namespace Samples

/-- Two network objects with the same content, and a key on each. -/
def twin0 : Client :=
  Client.call realHashes (EcdsaM.ofValue EC.ref) ⟨initHeap [MainNetwork, MainNetwork], []⟩ (.privateFromHex hexA (some 0))
def twin : Client := twin0.call realHashes (EcdsaM.ofValue EC.ref) (.privateFromHex hexB (some 1))

theorem twin_reached : Client.Reached realHashes (EcdsaM.ofValue EC.ref) [MainNetwork, MainNetwork] twin :=
  .tail (.tail .refl (.call _ (.privateFromHex hexA (some 0)) (by exact trivial)))
    (.call twin0 (.privateFromHex hexB (some 1)) (by exact trivial))

/-- The two keys are added although their network pointers differ. -/
example : (addPrivateKeysM realHashes (some 0) (some 1) twin.heap).1 ≠ .err .differentNetwork := by
  have h1 : loadPriv twin.heap (some 0) = some ⟨some 7, hexA, wifA, some 0⟩ := by decide +kernel
  have h2 : loadPriv twin.heap (some 1) = some ⟨some 8, hexB, wifB, some 1⟩ := by decide +kernel
  rw [Ne, (C97_private_keys (EcdsaM.ofValue_allocs _) (EcdsaM.ofValue_fresh _) twin_reached h1 h2).1, not_not]
  decide +kernel

end Samples

end Btc
