import Verif.Proofs.Rand
import Verif.Props.Arith

/-!
# C14–C17, C71: key generation; C08: emitted WIFs pass the check
-/

namespace Btc

open Spec

theorem attempt_some (H : Hashes) {network : Option Network} {v : Nat} {k : PrivateKey} (hv : v < Spec.n)
    (h : attempt H network v = .ok (some k)) :
    16 ^ 63 ≤ v ∧ k.Key = some (v : Int) ∧ k.Hex = fmtNat 16 v ∧ privateFromHex H (fmtNat 16 v) network = .ok k := by
  unfold attempt at h
  by_cases hl : (fmtNat 16 v).length = 64
  · rw [if_neg (not_not_intro hl)] at h
    cases hp : privateFromHex H (fmtNat 16 v) network with
    | err e => rw [hp] at h; simp at h
    | panic p => rw [hp] at h; simp at h
    | ok k' =>
      rw [hp] at h
      simp only [Res.ok.injEq, Option.some.injEq] at h
      obtain ⟨net, bs, _, _, rfl⟩ := (privateFromHex_eq_ok H).1 hp
      refine ⟨(length64_iff hv).1 hl, by rw [← h], by rw [← h], ?_⟩
      rw [← h, bigSetString_fmtNat16]
  · rw [if_pos hl] at h
    simp at h

/-- Everything a returning `GeneratePrivateKey` guarantees, by induction on the random stream. -/
theorem generate_ok (H : Hashes) (network : Option Network) :
    ∀ (m : Nat) (rd : Reader), rd.length ≤ m → ∀ k rd', generatePrivateKey H rd network = .ok (k, rd') →
      ∃ v, 16 ^ 63 ≤ v ∧ v < Spec.n - 1 ∧ k.Key = some (v : Int) ∧ k.Hex = fmtNat 16 v ∧
        privateFromHex H (fmtNat 16 v) network = .ok k ∧ rd' <:+ rd := by
  intro m
  induction m with
  | zero =>
    intro rd hm k rd' h
    rw [generatePrivateKey_step, if_neg (by omega)] at h
    simp at h
  | succ m ih =>
    intro rd hm k rd' h
    rw [generatePrivateKey_step] at h
    by_cases hl : 32 ≤ rd.length
    · rw [if_pos hl] at h
      have hrec : generatePrivateKey H (rd.drop 32) network = .ok (k, rd') →
          ∃ v, 16 ^ 63 ≤ v ∧ v < Spec.n - 1 ∧ k.Key = some (v : Int) ∧ k.Hex = fmtNat 16 v ∧
            privateFromHex H (fmtNat 16 v) network = .ok k ∧ rd' <:+ rd := by
        intro h
        obtain ⟨v, h1, h2, h3, h4, h5, h6⟩ := ih (rd.drop 32) (by simp; omega) k rd' h
        exact ⟨v, h1, h2, h3, h4, h5, h6.trans (List.drop_suffix _ _)⟩
      by_cases hv : bytesToNat (rd.take 32) < Spec.n - 1
      · rw [if_pos hv] at h
        cases ha : attempt H network (bytesToNat (rd.take 32)) with
        | err e => rw [ha] at h; simp at h
        | panic p => rw [ha] at h; simp at h
        | ok o =>
          rw [ha] at h
          cases o with
          | none => exact hrec h
          | some k' =>
            simp only [Res.ok.injEq, Prod.mk.injEq] at h
            obtain ⟨rfl, rfl⟩ := h
            obtain ⟨h1, h2, h3, h4⟩ := attempt_some H (by omega) ha
            exact ⟨_, h1, hv, h2, h3, h4, List.drop_suffix _ _⟩
      · rw [if_neg hv] at h
        exact hrec h
    · rw [if_neg hl] at h
      simp at h

/-! ## C14 -/

/-- C14. Generated keys are valid scalars in [16^63, n-2], with matching 64-digit text, WIF and network. -/
theorem C14_generated_valid (H : Hashes) (rd rd' : Reader) (net : Network) (k : PrivateKey)
    (h : generatePrivateKey H rd (some net) = .ok (k, rd')) :
    ∃ v : Nat, k.Key = some (v : Int) ∧ 16 ^ 63 ≤ v ∧ v ≤ Spec.n - 2 ∧ k.Hex.length = 64 ∧
      IsMinimalHex v k.Hex ∧ privateFromHex H k.Hex (some net) = .ok k ∧ k.Network = some net ∧
      rd' <:+ rd := by
  obtain ⟨v, h1, h2, h3, h4, h5, h6⟩ := generate_ok H _ rd.length rd (le_refl _) k rd' h
  refine ⟨v, h3, h1, by omega, ?_, ?_, h4 ▸ h5, ?_, h6⟩
  · rw [h4]; exact (length64_iff (by omega)).2 h1
  · rw [h4]; exact isMinimalHex_fmtNat v
  · exact (C01_wif_is_base58check H _ net k h5).2.2.1

/-- C14. On the library's networks a generated WIF has 51 characters and starts with '5' or '9'. -/
theorem C14_generated_shape (H : Hashes) (rd rd' : Reader) (k : PrivateKey) :
    (generatePrivateKey H rd (some MainNetwork) = .ok (k, rd') → ∃ rest, k.WIF = 53 :: rest ∧ rest.length = 50) ∧
    (generatePrivateKey H rd (some TestNetwork) = .ok (k, rd') → ∃ rest, k.WIF = 57 :: rest ∧ rest.length = 50) := by
  constructor
  · intro h
    obtain ⟨v, _, _, _, hl, hm, hp, _⟩ := C14_generated_valid H rd rd' _ k h
    obtain ⟨⟨k', rest, hk', hw, hr⟩, _⟩ :=
      C11_wif_shape H k.Hex (fun c hc => isHexDigit_of_lower (hm.2.2.1 c hc)) hl
    rw [hp] at hk'
    cases hk'
    exact ⟨rest, hw, hr⟩
  · intro h
    obtain ⟨v, _, _, _, hl, hm, hp, _⟩ := C14_generated_valid H rd rd' _ k h
    obtain ⟨_, ⟨k', rest, hk', hw, hr⟩⟩ :=
      C11_wif_shape H k.Hex (fun c hc => isHexDigit_of_lower (hm.2.2.1 c hc)) hl
    rw [hp] at hk'
    cases hk'
    exact ⟨rest, hw, hr⟩

/-- C14. The only way generation fails is a failing random source; the recursion always
ends (the model's fuel is never exhausted). -/
theorem C14_only_source_failure (H : Hashes) (net : Network) :
    ∀ (rd : Reader), (∃ r, generatePrivateKey H rd (some net) = .ok r) ∨
      generatePrivateKey H rd (some net) = .panic (.explicit .randRead) := by
  have key : ∀ (m : Nat) (rd : Reader), rd.length ≤ m →
      (∃ r, generatePrivateKey H rd (some net) = .ok r) ∨
        generatePrivateKey H rd (some net) = .panic (.explicit .randRead) := by
    intro m
    induction m with
    | zero =>
      intro rd hm
      rw [generatePrivateKey_step, if_neg (by omega)]
      exact .inr rfl
    | succ m ih =>
      intro rd hm
      rw [generatePrivateKey_step]
      by_cases hl : 32 ≤ rd.length
      · rw [if_pos hl]
        have hrec := ih (rd.drop 32) (by simp; omega)
        by_cases hv : bytesToNat (rd.take 32) < Spec.n - 1
        · rw [if_pos hv]
          cases ha : attempt H (some net) (bytesToNat (rd.take 32)) with
          | ok o =>
            cases o with
            | none => exact hrec
            | some k' => exact .inl ⟨_, rfl⟩
          | err e =>
            unfold attempt at ha
            split at ha
            · simp at ha
            · split at ha <;> simp at ha
          | panic p =>
            unfold attempt at ha
            split at ha
            · simp at ha
            · split at ha
              · simp at ha
              · rename_i q hq
                exact absurd hq (C02_no_panic H _ net _).1
              · simp at ha
        · rw [if_neg hv]
          exact hrec
      · rw [if_neg hl]; exact .inr rfl
  intro rd
  exact key rd.length rd (le_refl _)

-- a random stream whose first block is too large, whose second is too small and whose third is accepted
example : (match generatePrivateKey realHashes
    (List.replicate 32 255 ++ List.replicate 32 1 ++ List.replicate 32 0x77 ++ [9, 9]) (some MainNetwork) with
    | .ok (k, rd') => decide (k.Key = some 0x7777777777777777777777777777777777777777777777777777777777777777 ∧
        rd' = [9, 9])
    | _ => false) = true := by decide +kernel

/-! ## C15 -/

/-- C15. On every network whose prefix is an even number of hexadecimal digits, a block whose value lies in
[16^63, n-2] is returned at once; any other block is skipped. -/
theorem C15_any_network (H : Hashes) (net : Network) (block rest : Bytes) (hl : block.length = 32)
    (hnet : (∀ c ∈ net.PrivKeyPrefix, IsHexDigit c) ∧ net.PrivKeyPrefix.length % 2 = 0) :
    (16 ^ 63 ≤ bigEndian block ∧ bigEndian block ≤ Spec.n - 2 →
      ∃ k, generatePrivateKey H (block ++ rest) (some net) = .ok (k, rest) ∧
        k.Key = some (bigEndian block : Int)) ∧
    (¬ (16 ^ 63 ≤ bigEndian block ∧ bigEndian block ≤ Spec.n - 2) →
      generatePrivateKey H (block ++ rest) (some net) = generatePrivateKey H rest (some net)) := by
  have htake : (block ++ rest).take 32 = block := by rw [← hl]; exact List.take_left' rfl
  have hdrop : (block ++ rest).drop 32 = rest := by rw [← hl]; exact List.drop_left' rfl
  have hlen : 32 ≤ (block ++ rest).length := by simp [hl]
  have hn2 : 2 ≤ Spec.n := by decide +kernel
  rw [generatePrivateKey_step, if_pos hlen, htake, hdrop, ← bigEndian_eq]
  set v := bigEndian block with hvdef
  obtain ⟨pb, hp⟩ := (exists_spells_iff _).2 hnet
  constructor
  · rintro ⟨h1, h2⟩
    rw [if_pos (show v < Spec.n - 1 by omega)]
    have h64 := (length64_iff (show v < Spec.n by omega)).2 h1
    obtain ⟨body, hb⟩ := (exists_spells_iff (fmtNat 16 v)).2 ⟨fmtNat16_isHex, by rw [h64]⟩
    obtain ⟨k, hk⟩ : ∃ k, privateFromHex H (fmtNat 16 v) (some net) = .ok k :=
      ⟨_, privateFromHex_of_spells H (hp.append hb)⟩
    have ha : attempt H (some net) v = .ok (some { k with Key := some (v : Int) }) := by
      unfold attempt
      rw [if_neg (not_not_intro h64), hk]
    rw [ha]
    exact ⟨_, rfl, rfl⟩
  · intro hno
    by_cases hv : v < Spec.n - 1
    · rw [if_pos hv]
      have hlow : ¬ 16 ^ 63 ≤ v := fun h => hno ⟨h, by omega⟩
      have h64 : ¬ (fmtNat 16 v).length = 64 := fun h => hlow ((length64_iff (by omega)).1 h)
      have ha : attempt H (some net) v = .ok none := by
        unfold attempt
        rw [if_pos h64]
      rw [ha]
    · rw [if_neg hv]

/-- C15. On the main network a block whose value lies in [16^63, n-2] is returned at once; any other block is skipped. -/
theorem C15_block (H : Hashes) (block rest : Bytes) (hl : block.length = 32) :
    (16 ^ 63 ≤ bigEndian block ∧ bigEndian block ≤ Spec.n - 2 →
      ∃ k, generatePrivateKey H (block ++ rest) (some MainNetwork) = .ok (k, rest) ∧
        k.Key = some (bigEndian block : Int)) ∧
    (¬ (16 ^ 63 ≤ bigEndian block ∧ bigEndian block ≤ Spec.n - 2) →
      generatePrivateKey H (block ++ rest) (some MainNetwork) = generatePrivateKey H rest (some MainNetwork)) :=
  C15_any_network H MainNetwork block rest hl ⟨by unfold IsHexDigit; decide +kernel, by decide⟩

/-- C15. For every value in range there is exactly one 32-byte block that yields it. -/
theorem C15_unique_block (v : Nat) (hv : v ≤ Spec.n - 2) :
    ∃! block : Bytes, block.length = 32 ∧ bigEndian block = v := by
  have hlt : v < 256 ^ 32 := lt_of_le_of_lt hv (by decide +kernel)
  refine ⟨(fixBE 256 32 v).map UInt8.ofNat, ⟨?_, ?_⟩, ?_⟩
  · rw [List.length_map, length_fixBE (by omega) hlt]
  · rw [bigEndian_eq, bytesToNat, map_toNat_map_ofNat (fun d hd => fixBE_lt (by omega) hd), ofBE_fixBE]
  · rintro bs ⟨h1, h2⟩
    apply bytesToNat_inj
    · rw [h1, List.length_map, length_fixBE (by omega) hlt]
    · rw [← bigEndian_eq, h2, bytesToNat, map_toNat_map_ofNat (fun d hd => fixBE_lt (by omega) hd), ofBE_fixBE]

example : 16 ^ 63 ≤ bigEndian (List.replicate 32 0x77) ∧ bigEndian (List.replicate 32 0x77) ≤ Spec.n - 2 ∧
    ¬ (16 ^ 63 ≤ bigEndian (List.replicate 32 1)) := by decide +kernel

/-! ## C16 -/

/-- C16, what holds: exactly the keys in [16^63, n-2] can be generated. -/
theorem C16_generated_range_partial (H : Hashes) (v : Nat) :
    (∃ rd rd' k, generatePrivateKey H rd (some MainNetwork) = .ok (k, rd') ∧ k.Key = some (v : Int)) ↔
      16 ^ 63 ≤ v ∧ v ≤ Spec.n - 2 := by
  constructor
  · rintro ⟨rd, rd', k, h, hk⟩
    obtain ⟨v', h1, h2, h3, _⟩ := C14_generated_valid H rd rd' _ k h
    rw [hk] at h1
    simp only [Option.some.injEq, Int.natCast_inj] at h1
    omega
  · rintro ⟨h1, h2⟩
    obtain ⟨block, ⟨hl, hb⟩, _⟩ := C15_unique_block v h2
    obtain ⟨k, hk, hkey⟩ := (C15_block H block [] hl).1 (by rw [hb]; exact ⟨h1, h2⟩)
    exact ⟨_, _, k, hk, by rw [hkey, hb]⟩

/-- C16 is false: neither the key 1 (nor anything below 16^63) nor the key n-1 is ever generated. -/
theorem C16_violated (H : Hashes) :
    ¬ ∀ v : Nat, 1 ≤ v → v ≤ Spec.n - 1 →
      ∃ rd rd' k, generatePrivateKey H rd (some MainNetwork) = .ok (k, rd') ∧ k.Key = some (v : Int) := by
  intro h
  have := (C16_generated_range_partial H 1).1 (h 1 (by omega) (by decide +kernel))
  revert this
  decide +kernel

/-! ## C17 -/

/-- C17. With a prefix that is not an even number of hexadecimal digits, no random stream makes generation
return: it retries until the source fails. -/
theorem C17_malformed_network (H : Hashes) (net : Network)
    (hbad : ¬ ((∀ c ∈ net.PrivKeyPrefix, IsHexDigit c) ∧ net.PrivKeyPrefix.length % 2 = 0)) :
    ∀ rd : Reader, generatePrivateKey H rd (some net) = .panic (.explicit .randRead) := by
  have ha : ∀ v, attempt H (some net) v = .ok none := by
    intro v
    unfold attempt
    by_cases hl : (fmtNat 16 v).length = 64
    · rw [if_neg (not_not_intro hl)]
      cases hp : privateFromHex H (fmtNat 16 v) (some net) with
      | err e => rfl
      | panic p => exact absurd hp (C02_no_panic H _ net p).1
      | ok k =>
        exfalso
        have := (C02_accepts_iff H (fmtNat 16 v) net).1 ⟨k, hp⟩
        apply hbad
        refine ⟨fun c hc => this.1 c (by simp [hc]), ?_⟩
        have h2 := this.2
        rw [List.length_append, hl] at h2
        omega
    · rw [if_pos hl]
  have key : ∀ (m : Nat) (rd : Reader), rd.length ≤ m →
      generatePrivateKey H rd (some net) = .panic (.explicit .randRead) := by
    intro m
    induction m with
    | zero =>
      intro rd hm
      rw [generatePrivateKey_step, if_neg (by omega)]
    | succ m ih =>
      intro rd hm
      rw [generatePrivateKey_step, ha]
      by_cases hl : 32 ≤ rd.length
      · rw [if_pos hl]
        have := ih (rd.drop 32) (by simp; omega)
        split <;> exact this
      · rw [if_neg hl]
  intro rd
  exact key rd.length rd (le_refl _)

-- an odd-length prefix
example : ¬ ((∀ c ∈ asc "8", IsHexDigit c) ∧ (asc "8").length % 2 = 0) := by decide +kernel

/-! ## C08 -/

/-- The private keys that API calls return. -/
inductive Emitted (H : Hashes) : PrivateKey → Prop
  | fromHex {h net k} : privateFromHex H h net = .ok k → Emitted H k
  | generated {rd rd' net k} : generatePrivateKey H rd net = .ok (k, rd') → Emitted H k
  | added {a b k} : addPrivateKeys H a b = .ok k → Emitted H k
  | multiplied {a b k} : multiplyPrivateKeys H a b = .ok k → Emitted H k
  | fromWIF {w net k} : privateFromWIF H w net = .ok k → Emitted H k

theorem check_fromHex (H : Hashes) {h : GoString} {network : Option Network} {k : PrivateKey}
    (hk : privateFromHex H h network = .ok k) : checkWIF H k.WIF = .ok true := by
  obtain ⟨net, bs, _, _, rfl⟩ := (privateFromHex_eq_ok H).1 hk
  exact (C03_true_iff H _).2 ⟨bs, isBase58_encode _⟩

/-- C08. Every WIF the library emits passes its own check, whatever the inputs and random streams. -/
theorem C08_emitted_wif_checks (H : Hashes) (k : PrivateKey) (hk : Emitted H k) :
    checkWIF H k.WIF = .ok true := by
  cases hk with
  | fromHex h => exact check_fromHex H h
  | generated h =>
    obtain ⟨v, _, _, _, _, h5, _⟩ := generate_ok H _ _ _ (le_refl _) _ _ h
    exact check_fromHex H h5
  | added h =>
    obtain ⟨_, _, _, _, _, hi⟩ := combine_isKeyOf H _ (add_eq_combine H ▸ h)
    exact check_fromHex H hi.2.2.2.1
  | multiplied h =>
    obtain ⟨_, _, _, _, _, hi⟩ := combine_isKeyOf H _ (mul_eq_combine H ▸ h)
    exact check_fromHex H hi.2.2.2.1
  | fromWIF h =>
    obtain ⟨v, body, hd, rfl⟩ := (privateFromWIF_eq_ok H).1 h
    exact (checkWIF_eq_true H).2 ⟨_, hd⟩

example : Emitted realHashes Samples.keyA ∧ Emitted realHashes Samples.keyB ∧
    ∃ k, addPrivateKeys realHashes Samples.keyA Samples.keyB = .ok k ∧ Emitted realHashes k := by
  obtain ⟨k, hk, _⟩ := Samples.addAB
  exact ⟨.fromHex Samples.fromHexA, .fromWIF Samples.fromWifB, k, hk, .added hk⟩

/-! ## C71 -/

/-- C71. `GeneratePrivateKey` reads whole 32-byte blocks and nothing beyond the block it accepts: the key does not
depend on the rest of the source, the rest is left unread, and on any shorter source the call crashes. -/
theorem C71_generate_local (H : Hashes) (network : Option Network) (k : PrivateKey) :
    ∀ rd rd' : Reader, generatePrivateKey H rd network = .ok (k, rd') →
      ∃ used, rd = used ++ rd' ∧ used ≠ [] ∧ used.length % 32 = 0 ∧
        (∀ rest, generatePrivateKey H (used ++ rest) network = .ok (k, rest)) ∧
        (∀ short, short <+: used → short ≠ used →
          generatePrivateKey H short network = .panic (.explicit .randRead)) := by
  have main : ∀ (m : Nat) (rd rd' : Reader), rd.length ≤ m → generatePrivateKey H rd network = .ok (k, rd') →
      ∃ used, rd = used ++ rd' ∧ used ≠ [] ∧ used.length % 32 = 0 ∧
        (∀ rest, generatePrivateKey H (used ++ rest) network = .ok (k, rest)) ∧
        (∀ short, short <+: used → short ≠ used →
          generatePrivateKey H short network = .panic (.explicit .randRead)) := by
    intro m
    induction m with
    | zero =>
      intro rd rd' hm h
      rw [generatePrivateKey_step, if_neg (by omega)] at h
      simp at h
    | succ m ih =>
      intro rd rd' hm h
      by_cases hl : 32 ≤ rd.length
      swap
      · rw [generatePrivateKey_step, if_neg hl] at h
        simp at h
      have hlt : (rd.take 32).length = 32 := by simp; omega
      -- skipping one block
      have skip : (∀ rest, generatePrivateKey H (rd.take 32 ++ rest) network = generatePrivateKey H rest network) →
          ∃ used, rd = used ++ rd' ∧ used ≠ [] ∧ used.length % 32 = 0 ∧
            (∀ rest, generatePrivateKey H (used ++ rest) network = .ok (k, rest)) ∧
            (∀ short, short <+: used → short ≠ used →
              generatePrivateKey H short network = .panic (.explicit .randRead)) := by
        intro hs
        have h' := hs (rd.drop 32)
        rw [List.take_append_drop, h] at h'
        obtain ⟨used, h1, h2, h3, h4, h5⟩ := ih (rd.drop 32) rd' (by simp; omega) h'.symm
        refine ⟨rd.take 32 ++ used, ?_, by simp [h2], ?_, ?_, ?_⟩
        · rw [List.append_assoc, ← h1, List.take_append_drop]
        · rw [List.length_append, hlt]; omega
        · intro rest
          rw [List.append_assoc, hs, h4]
        · intro short hp hne
          by_cases hsl : 32 ≤ short.length
          · obtain ⟨t, ht⟩ := hp
            have e1 : short.take 32 = rd.take 32 := by
              have := congrArg (List.take 32) ht
              rw [List.take_append_of_le_length hsl, List.take_append_of_le_length (by omega),
                List.take_of_length_le (l := rd.take 32) (by omega)] at this
              exact this
            rw [← List.take_append_drop 32 short, e1, hs]
            rw [← List.take_append_drop 32 short, e1, List.append_assoc, List.append_cancel_left_eq] at ht
            refine h5 _ ⟨t, ht⟩ fun e => hne ?_
            rw [← List.take_append_drop 32 short, e1, e]
          · rw [generatePrivateKey_step, if_neg hsl]
      have take_app : ∀ rest : Reader, (rd.take 32 ++ rest).take 32 = rd.take 32 := by
        intro rest
        rw [List.take_append_of_le_length (by omega), List.take_of_length_le (by omega)]
      have drop_app : ∀ rest : Reader, (rd.take 32 ++ rest).drop 32 = rest := by
        intro rest
        rw [List.drop_append_of_le_length (by omega), List.drop_of_length_le (by omega), List.nil_append]
      by_cases hv : bytesToNat (rd.take 32) < Spec.n - 1
      · cases ha : attempt H network (bytesToNat (rd.take 32)) with
        | err e => rw [generatePrivateKey_step, if_pos hl, if_pos hv, ha] at h; simp at h
        | panic p => rw [generatePrivateKey_step, if_pos hl, if_pos hv, ha] at h; simp at h
        | ok o =>
          cases o with
          | none =>
            refine skip fun rest => ?_
            rw [generatePrivateKey_step, if_pos (by rw [List.length_append, hlt]; omega), take_app, if_pos hv, ha,
              drop_app]
          | some k' =>
            have hk : ∀ rest, generatePrivateKey H (rd.take 32 ++ rest) network = .ok (k', rest) := by
              intro rest
              rw [generatePrivateKey_step, if_pos (by rw [List.length_append, hlt]; omega), take_app, if_pos hv, ha,
                drop_app]
            rw [generatePrivateKey_step, if_pos hl, if_pos hv, ha] at h
            simp only [Res.ok.injEq, Prod.mk.injEq] at h
            obtain ⟨rfl, rfl⟩ := h
            refine ⟨rd.take 32, (List.take_append_drop 32 rd).symm, ?_, by rw [hlt], hk, ?_⟩
            · intro e
              rw [e] at hlt
              simp at hlt
            · intro short hp hne
              rw [generatePrivateKey_step, if_neg]
              intro hsl
              exact hne (hp.eq_of_length_le (by omega))
      · refine skip fun rest => ?_
        rw [generatePrivateKey_step, if_pos (by rw [List.length_append, hlt]; omega), take_app, if_neg hv, drop_app]
  intro rd rd' h
  exact main rd.length rd rd' (le_refl _) h

/-- 32 bytes 0x77 after a rejected block of 32 bytes 0x01: exactly these 64 bytes are read. -/
example (rest : Reader) : ∃ k, generatePrivateKey realHashes
    (List.replicate 32 1 ++ (List.replicate 32 0x77 ++ [9, 9])) (some MainNetwork) = .ok (k, [9, 9]) ∧
    generatePrivateKey realHashes ((List.replicate 32 1 ++ List.replicate 32 0x77) ++ rest) (some MainNetwork) =
      .ok (k, rest) := by
  obtain ⟨k, hk, -⟩ := (C15_block realHashes (List.replicate 32 0x77) [9, 9] (by decide)).1 (by decide +kernel)
  rw [← (C15_block realHashes (List.replicate 32 1) _ (by decide)).2 (by decide +kernel)] at hk
  obtain ⟨used, h1, -, -, h4, -⟩ := C71_generate_local _ _ _ _ _ hk
  rw [← List.append_assoc] at h1
  exact ⟨k, hk, by rw [List.append_cancel_right h1]; exact h4 rest⟩

end Btc
