import Verif.Proofs.Count
import Verif.Props.Generate

/-!
# C84: every key is generated from equally many random streams
-/

namespace Btc

open Spec

/-! ## C84 -/

/-- Exchanges two blocks wherever one of them stands at a multiple of 32 bytes. -/
def swapBlocks (b1 b2 : Bytes) (rd : Reader) : Reader :=
  if 32 ≤ rd.length then
    (if rd.take 32 = b1 then b2 else if rd.take 32 = b2 then b1 else rd.take 32) ++ swapBlocks b1 b2 (rd.drop 32)
  else rd
termination_by rd.length
decreasing_by simp; omega

theorem swapBlocks_short {b1 b2 : Bytes} {rd : Reader} (h : ¬ 32 ≤ rd.length) : swapBlocks b1 b2 rd = rd := by
  rw [swapBlocks, if_neg h]

theorem swapBlocks_append {b1 b2 block : Bytes} (hb : block.length = 32) (rest : Reader) :
    swapBlocks b1 b2 (block ++ rest) =
      (if block = b1 then b2 else if block = b2 then b1 else block) ++ swapBlocks b1 b2 rest := by
  rw [swapBlocks, if_pos (by simp [hb]), List.take_left' hb, List.drop_left' hb]

/-- Streams are either short or start with a block. -/
theorem block_induction {P : Reader → Prop} (short : ∀ rd, ¬ 32 ≤ rd.length → P rd)
    (step : ∀ block rest : Bytes, block.length = 32 → P rest → P (block ++ rest)) : ∀ rd, P rd := by
  have main : ∀ (m : Nat) (rd : Reader), rd.length ≤ m → P rd := by
    intro m
    induction m with
    | zero => exact fun rd h => short rd (by omega)
    | succ m ih =>
      intro rd h
      by_cases hl : 32 ≤ rd.length
      · rw [← List.take_append_drop 32 rd]
        exact step _ _ (by simp; omega) (ih _ (by simp; omega))
      · exact short rd hl
  exact fun rd => main _ rd (le_refl _)

theorem swapBlocks_swap_length {b1 b2 : Bytes} (h1 : b1.length = 32) (h2 : b2.length = 32) (block : Bytes)
    (hb : block.length = 32) : (if block = b1 then b2 else if block = b2 then b1 else block).length = 32 := by
  split
  · exact h2
  · split
    · exact h1
    · exact hb

theorem length_swapBlocks {b1 b2 : Bytes} (h1 : b1.length = 32) (h2 : b2.length = 32) :
    ∀ rd, (swapBlocks b1 b2 rd).length = rd.length := by
  apply block_induction
  · intro rd h
    rw [swapBlocks_short h]
  · intro block rest hb ih
    rw [swapBlocks_append hb, List.length_append, List.length_append, ih, swapBlocks_swap_length h1 h2 _ hb, hb]

theorem swapBlocks_involutive {b1 b2 : Bytes} (h1 : b1.length = 32) (h2 : b2.length = 32) :
    ∀ rd, swapBlocks b1 b2 (swapBlocks b1 b2 rd) = rd := by
  apply block_induction
  · intro rd h
    rw [swapBlocks_short h, swapBlocks_short h]
  · intro block rest hb ih
    rw [swapBlocks_append hb, swapBlocks_append (swapBlocks_swap_length h1 h2 _ hb), ih]
    congr 1
    by_cases e1 : block = b1
    · subst e1
      by_cases e2 : b2 = block <;> simp [e2]
    · by_cases e2 : block = b2
      · subst e2
        simp [e1]
      · simp [e1, e2]

/-- What generation yields on a stream: the value of the key, if any. -/
def Yields (H : Hashes) (network : Option Network) (rd : Reader) (v : Nat) : Prop :=
  ∃ k rd', generatePrivateKey H rd network = .ok (k, rd') ∧ k.Key = some (v : Int)

theorem yields_short {H : Hashes} {network : Option Network} {rd : Reader} {v : Nat} (h : ¬ 32 ≤ rd.length) :
    ¬ Yields H network rd v := by
  rintro ⟨k, rd', h1, -⟩
  rw [generatePrivateKey_step, if_neg h] at h1
  simp at h1

theorem yields_block {H : Hashes} {net : Network} {block rest : Bytes} {v : Nat} (hl : block.length = 32)
    (hnet : (∀ c ∈ net.PrivKeyPrefix, IsHexDigit c) ∧ net.PrivKeyPrefix.length % 2 = 0) :
    Yields H (some net) (block ++ rest) v ↔
      if 16 ^ 63 ≤ bigEndian block ∧ bigEndian block ≤ Spec.n - 2 then bigEndian block = v
      else Yields H (some net) rest v := by
  obtain ⟨h1, h2⟩ := C15_any_network H net block rest hl hnet
  split
  · rename_i h
    obtain ⟨k, hk, hv⟩ := h1 h
    constructor
    · rintro ⟨k', rd', h3, h4⟩
      rw [hk] at h3
      cases h3
      rw [hv] at h4
      simpa using h4
    · rintro rfl
      exact ⟨k, rest, hk, hv⟩
  · rename_i h
    rw [Yields, Yields, h2 h]

/-- C84. For any two values a key can take there is a way to exchange random streams, keeping their length, that
turns the streams yielding the first into the streams yielding the second and back. -/
theorem C84_exchange (H : Hashes) (network : Option Network) (v1 v2 : Nat) (h1 : 16 ^ 63 ≤ v1 ∧ v1 ≤ Spec.n - 2)
    (h2 : 16 ^ 63 ≤ v2 ∧ v2 ≤ Spec.n - 2) :
    ∃ f : Reader → Reader, (∀ rd, f (f rd) = rd) ∧ (∀ rd, (f rd).length = rd.length) ∧
      ∀ rd, (∃ k rd', generatePrivateKey H rd network = .ok (k, rd') ∧ k.Key = some (v1 : Int)) ↔
        ∃ k rd', generatePrivateKey H (f rd) network = .ok (k, rd') ∧ k.Key = some (v2 : Int) := by
  obtain ⟨b1, ⟨hl1, hv1⟩, -⟩ := C15_unique_block v1 h1.2
  obtain ⟨b2, ⟨hl2, hv2⟩, -⟩ := C15_unique_block v2 h2.2
  refine ⟨swapBlocks b1 b2, swapBlocks_involutive hl1 hl2, length_swapBlocks hl1 hl2, ?_⟩
  show ∀ rd, Yields H network rd v1 ↔ Yields H network (swapBlocks b1 b2 rd) v2
  cases network with
  | none =>
    have : ∀ rd v, ¬ Yields H none rd v := by
      rintro rd v ⟨k, rd', h, -⟩
      obtain ⟨_, _, _, _, _, h5, _⟩ := generate_ok H _ _ _ (le_refl _) _ _ h
      simp [privateFromHex_none] at h5
    simp [this]
  | some net =>
    by_cases hnet : (∀ c ∈ net.PrivKeyPrefix, IsHexDigit c) ∧ net.PrivKeyPrefix.length % 2 = 0
    · apply block_induction
      · intro rd h
        rw [swapBlocks_short h]
        exact iff_of_false (yields_short h) (yields_short h)
      · intro block rest hb ih
        rw [swapBlocks_append hb, yields_block hb hnet, yields_block (swapBlocks_swap_length hl1 hl2 _ hb) hnet]
        have inj : ∀ b : Bytes, b.length = 32 → bigEndian b = bigEndian block → b = block := fun b h e =>
          bytesToNat_inj (h.trans hb.symm) (by rw [← bigEndian_eq, ← bigEndian_eq, e])
        by_cases e1 : block = b1
        · subst e1
          rw [if_pos rfl, if_pos (by rw [hv1]; exact h1), if_pos (by rw [hv2]; exact h2)]
          exact iff_of_true hv1 hv2
        · by_cases e2 : block = b2
          · subst e2
            rw [if_neg e1, if_pos rfl, if_pos (by rw [hv2]; exact h2), if_pos (by rw [hv1]; exact h1), hv1, hv2]
            exact eq_comm
          · rw [if_neg e1, if_neg e2, ih]
            by_cases hg : 16 ^ 63 ≤ bigEndian block ∧ bigEndian block ≤ Spec.n - 2
            · rw [if_pos hg, if_pos hg]
              refine iff_of_false (fun e => e1 (inj b1 hl1 (hv1.trans e.symm)).symm)
                fun e => e2 (inj b2 hl2 (hv2.trans e.symm)).symm
            · rw [if_neg hg, if_neg hg]
    · have : ∀ rd v, ¬ Yields H (some net) rd v := by
        rintro rd v ⟨k, rd', h, -⟩
        rw [C17_malformed_network H net hnet] at h
        simp at h
      simp [this]

/-- C84. The generated key is uniformly distributed: for every length `L`, the number of random streams of `L` bytes
that yield a value is the same for all values a key can take. -/
theorem C84_uniform (H : Hashes) (network : Option Network) (L : Nat) (v1 v2 : Nat)
    (h1 : 16 ^ 63 ≤ v1 ∧ v1 ≤ Spec.n - 2) (h2 : 16 ^ 63 ≤ v2 ∧ v2 ≤ Spec.n - 2) :
    {rd : Reader | rd.length = L ∧
        ∃ k rd', generatePrivateKey H rd network = .ok (k, rd') ∧ k.Key = some (v1 : Int)}.ncard =
      {rd : Reader | rd.length = L ∧
        ∃ k rd', generatePrivateKey H rd network = .ok (k, rd') ∧ k.Key = some (v2 : Int)}.ncard := by
  obtain ⟨f, hf1, hf2, hf3⟩ := C84_exchange H network v1 v2 h1 h2
  have hinj : Function.Injective f := fun a b e => by rw [← hf1 a, e, hf1]
  rw [← Set.ncard_image_of_injective _ hinj]
  congr 1
  ext rd
  simp only [Set.mem_image, Set.mem_ofPred_eq]
  constructor
  · rintro ⟨rd, ⟨h3, h4⟩, rfl⟩
    exact ⟨(hf2 rd).trans h3, (hf3 rd).1 h4⟩
  · rintro ⟨h3, h4⟩
    refine ⟨f rd, ⟨(hf2 rd).trans h3, (hf3 (f rd)).2 ?_⟩, hf1 rd⟩
    rw [hf1]
    exact h4

/-- C84. How often generation needs a longer stream: of the `256^(32 m)` streams of `m` blocks, exactly
`(2^256 - (n - 1 - 16^63))^m` yield no key, about one in sixteen per block. -/
theorem C84_retry_count (H : Hashes) (net : Network)
    (hnet : (∀ c ∈ net.PrivKeyPrefix, IsHexDigit c) ∧ net.PrivKeyPrefix.length % 2 = 0) (m : Nat) :
    {rd : Reader | rd.length = 32 * m ∧ ¬ ∃ k rd', generatePrivateKey H rd (some net) = .ok (k, rd')}.ncard =
      (2 ^ 256 - (Spec.n - 1 - 16 ^ 63)) ^ m := by
  induction m with
  | zero =>
    have : {rd : Reader | rd.length = 32 * 0 ∧
        ¬ ∃ k rd', generatePrivateKey H rd (some net) = .ok (k, rd')} = {[]} := by
      ext rd
      simp only [Set.mem_ofPred_eq, Set.mem_singleton_iff]
      constructor
      · rintro ⟨h, -⟩
        exact List.length_eq_zero_iff.1 (by omega)
      · rintro rfl
        refine ⟨rfl, ?_⟩
        rintro ⟨k, rd', h⟩
        rw [generatePrivateKey_step, if_neg (by simp)] at h
        simp at h
    rw [this, Set.ncard_singleton, pow_zero]
  | succ m ih =>
    have hbad : {b : Bytes | b.length = 32 ∧ ¬ (16 ^ 63 ≤ bytesToNat b ∧ bytesToNat b ≤ Spec.n - 2)}.ncard =
        2 ^ 256 - (Spec.n - 1 - 16 ^ 63) := by
      rw [ncard_outside 32 _ _ (show Spec.n - 2 < 256 ^ 32 by decide +kernel)]
      decide +kernel
    rw [pow_succ', ← ih, ← hbad, ← ncard_append (k := 32) fun a ha => ha.1]
    congr 1
    ext rd
    simp only [Set.mem_ofPred_eq]
    constructor
    · rintro ⟨hl, hno⟩
      have hb : (rd.take 32).length = 32 := by simp; omega
      have hgood : ¬ (16 ^ 63 ≤ bytesToNat (rd.take 32) ∧ bytesToNat (rd.take 32) ≤ Spec.n - 2) := by
        intro hg
        rw [← bigEndian_eq] at hg
        obtain ⟨k, hk, -⟩ := (C15_any_network H net (rd.take 32) (rd.drop 32) hb hnet).1 hg
        rw [List.take_append_drop] at hk
        exact hno ⟨k, _, hk⟩
      refine ⟨rd.take 32, ⟨hb, hgood⟩, rd.drop 32, ⟨by simp; omega, ?_⟩, (List.take_append_drop 32 rd).symm⟩
      have := (C15_any_network H net (rd.take 32) (rd.drop 32) hb hnet).2 (by rwa [bigEndian_eq])
      rw [List.take_append_drop] at this
      rwa [← this]
    · rintro ⟨a, ⟨ha, hbad⟩, b, ⟨hb, hno⟩, rfl⟩
      refine ⟨by rw [List.length_append, ha, hb]; omega, ?_⟩
      rw [(C15_any_network H net a b ha hnet).2 (by rwa [bigEndian_eq])]
      exact hno

/-- The smallest and the largest key the library can generate are equally likely. -/
example (L : Nat) : 16 ^ 63 < Spec.n - 2 ∧
    {rd : Reader | rd.length = L ∧ ∃ k rd', generatePrivateKey realHashes rd (some MainNetwork) = .ok (k, rd') ∧
        k.Key = some ((16 ^ 63 : Nat) : Int)}.ncard =
      {rd : Reader | rd.length = L ∧ ∃ k rd', generatePrivateKey realHashes rd (some MainNetwork) = .ok (k, rd') ∧
        k.Key = some ((Spec.n - 2 : Nat) : Int)}.ncard :=
  ⟨by decide +kernel, C84_uniform _ _ L _ _ ⟨le_refl _, by decide +kernel⟩ ⟨by decide +kernel, le_refl _⟩⟩

/-- With one block, between one in sixteen and one in fifteen streams yield nothing. -/
example : {rd : Reader | rd.length = 32 * 1 ∧
      ¬ ∃ k rd', generatePrivateKey realHashes rd (some MainNetwork) = .ok (k, rd')}.ncard * 16 ≥ 2 ^ 256 ∧
    {rd : Reader | rd.length = 32 * 1 ∧
      ¬ ∃ k rd', generatePrivateKey realHashes rd (some MainNetwork) = .ok (k, rd')}.ncard * 15 ≤ 2 ^ 256 := by
  rw [C84_retry_count _ _ ⟨by unfold IsHexDigit; decide +kernel, by decide⟩]
  decide +kernel

end Btc
