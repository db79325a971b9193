import Verif.Proofs.Phrase

/-!
# Splitting a phrase
-/

namespace Btc

/-! ## Splitting -/

/-- A text without spaces that occurs in a phrase occurs in one of its pieces. -/
theorem infix_splitSpace {t : GoString} (ht : t ≠ []) (h32 : (32 : UInt8) ∉ t) :
    ∀ m : GoString, t <:+: m → ∃ w ∈ splitSpace m, t <:+: w := by
  have pre : ∀ (m : GoString) (t : GoString), (32 : UInt8) ∉ t → t <+: m →
      ∃ w ws, splitSpace m = w :: ws ∧ t <+: w := by
    intro m
    induction m with
    | nil =>
      intro t _ h
      rw [List.prefix_nil] at h
      exact ⟨[], [], rfl, by rw [h]⟩
    | cons c cs ih =>
      intro t h32 h
      cases t with
      | nil =>
        obtain ⟨w, ws, hw⟩ := List.exists_cons_of_ne_nil (splitSpace_ne_nil (c :: cs))
        exact ⟨w, ws, hw, List.nil_prefix⟩
      | cons d ds =>
        rw [List.cons_prefix_cons] at h
        obtain ⟨rfl, h⟩ := h
        simp only [List.mem_cons, not_or] at h32
        obtain ⟨w, ws, hw, hp⟩ := ih ds h32.2 h
        refine ⟨d :: w, ws, ?_, List.cons_prefix_cons.2 ⟨rfl, hp⟩⟩
        rw [splitSpace, if_neg (fun e => h32.1 e.symm), hw]
  intro m
  induction m with
  | nil =>
    intro h
    exact absurd (List.infix_nil.1 h) ht
  | cons c cs ih =>
    intro h
    rcases List.infix_cons_iff.1 h with h | h
    · obtain ⟨w, ws, hw, hp⟩ := pre (c :: cs) t h32 h
      exact ⟨w, by rw [hw]; simp, hp.isInfix⟩
    · obtain ⟨w, hw, hi⟩ := ih h
      rw [splitSpace]
      split
      · exact ⟨w, by simp [hw], hi⟩
      · cases hs : splitSpace cs with
        | nil => exact absurd hs (splitSpace_ne_nil cs)
        | cons v vs =>
          rw [hs] at hw
          rcases List.mem_cons.1 hw with rfl | hw
          · exact ⟨c :: w, by simp, List.infix_cons_iff.2 (.inr hi)⟩
          · exact ⟨w, by simp [hw], hi⟩

/-- A space splits the text in two. -/
theorem splitSpace_append_space (a b : GoString) :
    splitSpace (a ++ 32 :: b) = splitSpace a ++ splitSpace b := by
  induction a with
  | nil => simp [splitSpace]
  | cons c cs ih =>
    rw [List.cons_append, splitSpace, splitSpace, ih]
    split
    · simp
    · cases hs : splitSpace cs with
      | nil => exact absurd hs (splitSpace_ne_nil cs)
      | cons v vs => simp

/-- A leading, trailing or doubled space, or no character at all, makes an empty piece. -/
theorem nil_mem_splitSpace {m : GoString} (h : m = [] ∨ m.head? = some 32 ∨ m.getLast? = some 32 ∨
    [32, 32] <:+: m) : [] ∈ splitSpace m := by
  rcases h with rfl | h | h | h
  · simp [splitSpace]
  · obtain ⟨t, rfl⟩ := List.head?_eq_some_iff.1 h
    have := splitSpace_append_space [] t
    rw [List.nil_append] at this
    rw [this]
    simp [splitSpace]
  · obtain ⟨t, rfl⟩ := List.getLast?_eq_some_iff.1 h
    rw [splitSpace_append_space]
    simp [splitSpace]
  · obtain ⟨u, v, rfl⟩ := h
    rw [show u ++ [32, 32] ++ v = u ++ 32 :: ([] ++ 32 :: v) by simp, splitSpace_append_space,
      splitSpace_append_space]
    simp [splitSpace]

end Btc
