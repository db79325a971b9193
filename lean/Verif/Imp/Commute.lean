import Verif.Imp.Path

/-!
# Variables that are never read

If all the statements of a program commute with a change `g` of the variables, then so does the program, and its path is not changed.
-/

namespace Btc.Imp

variable {σ ρ : Type}

/-- The outcome of an assignment, with `g` applied to the variables. -/
def mapAct (g : σ → σ) : Res (World × σ) → Res (World × σ)
  | .ok (w, s) => .ok (w, g s)
  | .err e => .err e
  | .panic p => .panic p

/-- The end of a statement, with `g` applied to the variables. -/
def mapOut (g : σ → σ) : Option (Out σ ρ × World) → Option (Out σ ρ × World)
  | some (.next s, w) => some (.next (g s), w)
  | some (.brk s, w) => some (.brk (g s), w)
  | some (.ret r, w) => some (.ret r, w)
  | some (.again s, w) => some (.again (g s), w)
  | some (.panic p, w) => some (.panic p, w)
  | none => none

/-- Every statement commutes with `g`; conditions and results do not see it. -/
def Stmt.Commutes (g : σ → σ) : Stmt σ ρ → Prop
  | .act f => ∀ w s, f w (g s) = mapAct g (f w s)
  | .seq a b => a.Commutes g ∧ b.Commutes g
  | .cond c t e => (∀ s, c (g s) = c s) ∧ t.Commutes g ∧ e.Commutes g
  | .loop c body => (∀ s, c (g s) = c s) ∧ body.Commutes g
  | .ret f => ∀ s, f (g s) = f s
  | .again f => ∀ s, f (g s) = g (f s)
  | .brk => True
  | .skip => True

theorem rounds_commutes (g : σ → σ) (c : σ → Res Bool) (b : World → σ → Option (Out σ ρ × World)) (hc : ∀ s, c (g s) = c s)
    (hb : ∀ w s, b w (g s) = mapOut g (b w s)) : ∀ (n : Nat) (w : World) (s : σ), rounds c b n w (g s) = mapOut g (rounds c b n w s)
  | 0, _, _ => rfl
  | n + 1, w, s => by
    have ih := rounds_commutes g c b hc hb n
    rw [rounds, rounds, hc, hb]
    rcases c s with t | _ | _
    · rw [value_ok, value_ok]
      cases t with
      | false => rfl
      | true =>
        simp only [if_true]
        rcases b w s with _ | ⟨_ | _ | _ | _ | _, _⟩
        · rfl
        · exact ih _ _
        · rfl
        · rfl
        · rfl
        · rfl
    · rfl
    · rfl

theorem eval_commutes (g : σ → σ) (n : Nat) : ∀ (p : Stmt σ ρ), p.Commutes g → ∀ (w : World) (s : σ),
    p.eval n w (g s) = mapOut g (p.eval n w s)
  | .act f, h, w, s => by
    simp only [Stmt.eval, h w s]
    rcases f w s with ⟨_, _⟩ | _ | _ <;> rfl
  | .seq a b, h, w, s => by
    simp only [Stmt.eval, eval_commutes g n a h.1 w s]
    rcases a.eval n w s with _ | ⟨_ | _ | _ | _ | _, _⟩
    · rfl
    · exact eval_commutes g n b h.2 _ _
    · rfl
    · rfl
    · rfl
    · rfl
  | .cond c t e, h, w, s => by
    simp only [Stmt.eval, h.1 s]
    rcases c s with b | _ | _
    · rw [value_ok, value_ok]
      cases b with
      | false => simpa using eval_commutes g n e h.2.2 w s
      | true => simpa using eval_commutes g n t h.2.1 w s
    · rfl
    · rfl
  | .loop c body, h, w, s => by
    simp only [Stmt.eval]
    exact rounds_commutes g c (body.eval n) h.1 (eval_commutes g n body h.2) n w s
  | .ret f, h, w, s => by
    simp only [Stmt.eval, h s]
    rcases f s with _ | _ | _ <;> rfl
  | .again f, h, w, s => by
    simp only [Stmt.eval, h s]
    rfl
  | .brk, _, _, _ => rfl
  | .skip, _, _, _ => rfl

theorem thenPath_commutes (g : σ → σ) (o : Option (Out σ ρ × World)) (k : World → σ → List Bool) (hk : ∀ w s, k w (g s) = k w s) :
    thenPath (mapOut g o) k = thenPath o k := by
  rcases o with _ | ⟨_ | _ | _ | _ | _, _⟩
  · rfl
  · exact hk _ _
  · rfl
  · rfl
  · rfl
  · rfl

theorem roundsPath_commutes (g : σ → σ) (c : σ → Res Bool) (b : World → σ → Option (Out σ ρ × World)) (p : World → σ → List Bool)
    (hc : ∀ s, c (g s) = c s) (hb : ∀ w s, b w (g s) = mapOut g (b w s)) (hp : ∀ w s, p w (g s) = p w s) :
    ∀ (n : Nat) (w : World) (s : σ), roundsPath c b p n w (g s) = roundsPath c b p n w s
  | 0, _, _ => rfl
  | n + 1, w, s => by
    have ih := roundsPath_commutes g c b p hc hb hp n
    simp only [roundsPath, hc, hb, hp, thenPath_commutes g (b w s) _ ih]

theorem path_commutes (g : σ → σ) (n : Nat) : ∀ (p : Stmt σ ρ), p.Commutes g → ∀ (w : World) (s : σ), p.path n w (g s) = p.path n w s
  | .act _, _, _, _ => rfl
  | .seq a b, h, w, s => by
    rw [seq_path, seq_path, path_commutes g n a h.1, eval_commutes g n a h.1, thenPath_commutes g _ _ (path_commutes g n b h.2)]
  | .cond c t e, h, w, s => by
    rw [cond_path, cond_path, h.1 s]
    simp only [path_commutes g n t h.2.1, path_commutes g n e h.2.2]
  | .loop c body, h, w, s =>
    roundsPath_commutes g c (body.eval n) (body.path n) h.1 (eval_commutes g n body h.2) (path_commutes g n body h.2) n w s
  | .ret _, _, _, _ => rfl
  | .again _, _, _, _ => rfl
  | .brk, _, _, _ => rfl
  | .skip, _, _, _ => rfl

theorem bind_commutes {α : Type} (g : σ → σ) (w : World) (r : Res α) (k k' : α → Res σ)
    (h : ∀ a, (do let s ← k' a; .ok (w, s) : Res (World × σ)) = mapAct g (do let s ← k a; .ok (w, s))) :
    (do let s ← (do let a ← r; k' a); .ok (w, s) : Res (World × σ)) = mapAct g (do let s ← (do let a ← r; k a); .ok (w, s)) := by
  cases r with
  | ok a => exact h a
  | err e => rfl
  | panic p => rfl

/-- `NewSeedFromMnemonic` never reads the passphrase. -/
theorem newSeed_commutes (H : Hashes) (q : GoString) : (newSeedFromMnemonicBody H).Commutes fun s => { s with passphrase := q } := by
  have hset : ∀ f : SeedVars → SeedVars, (∀ s : SeedVars, f { s with passphrase := q } = { f s with passphrase := q }) →
      (set f : Stmt SeedVars (Option Bytes × Option GoError)).Commutes fun s => { s with passphrase := q } := by
    intro f hf w s
    show Res.ok (w, f { s with passphrase := q }) = mapAct _ (Res.ok (w, f s))
    rw [hf]
    rfl
  have hassign : ∀ (α : Type) (r : SeedVars → Res α) (f : SeedVars → α → SeedVars),
      (∀ s : SeedVars, r { s with passphrase := q } = r s) →
      (∀ (s : SeedVars) a, f { s with passphrase := q } a = { f s a with passphrase := q }) →
      (assign (fun s => do let a ← r s; .ok (f s a)) : Stmt SeedVars (Option Bytes × Option GoError)).Commutes
        fun s => { s with passphrase := q } := by
    intro α r f hr hf w s
    show (do let s' ← (do let a ← r { s with passphrase := q }; Res.ok (f { s with passphrase := q } a)); Res.ok (w, s')) = mapAct _ _
    rw [hr]
    refine bind_commutes _ w (r s) (fun a => .ok (f s a)) _ fun a => ?_
    rw [hf]
    rfl
  have hlog : ∀ f : SeedVars → GoString, (∀ s : SeedVars, f { s with passphrase := q } = f s) →
      (logln f : Stmt SeedVars (Option Bytes × Option GoError)).Commutes fun s => { s with passphrase := q } := by
    intro f hf w s
    show Res.ok ({ w with log := w.log ++ [f { s with passphrase := q }] }, ({ s with passphrase := q } : SeedVars)) = mapAct _ _
    rw [hf]
    rfl
  unfold newSeedFromMnemonicBody wordStmt lookupStmt nibbleStmt
  refine ⟨hset _ fun _ => rfl, hset _ fun _ => rfl, hset _ fun _ => rfl, ⟨fun _ => rfl, hassign _ _ _ (fun _ => rfl) fun _ _ => rfl,
    hset _ fun _ => rfl, ⟨hset _ fun _ => rfl, fun _ => rfl, ⟨fun _ => rfl, ⟨hset _ fun _ => rfl, trivial⟩, trivial⟩, hset _ fun _ => rfl⟩,
    ⟨fun _ => rfl, fun _ => rfl, trivial⟩, hset _ fun _ => rfl, ⟨fun _ => rfl, hset _ fun _ => rfl⟩, hset _ fun _ => rfl, hset _ fun _ => rfl⟩,
    hset _ fun _ => rfl, hset _ fun _ => rfl,
    ⟨fun _ => rfl, hset _ fun _ => rfl, hset _ fun _ => rfl, ⟨fun _ => rfl, hassign _ _ _ (fun _ => rfl) fun _ _ => rfl, hset _ fun _ => rfl⟩,
      hlog _ fun _ => rfl, hset _ fun _ => rfl, hset _ fun _ => rfl, hset _ fun _ => rfl, hset _ fun _ => rfl⟩,
    hassign _ _ _ (fun _ => rfl) fun _ _ => rfl, hset _ fun _ => rfl, ?_, ⟨fun _ => rfl, fun _ => rfl, trivial⟩, hset _ fun _ => rfl,
    hset _ fun _ => rfl, hset _ fun _ => rfl, hset _ fun _ => rfl, ⟨fun _ => rfl, hset _ fun _ => rfl⟩, ⟨fun _ => rfl, fun _ => rfl, trivial⟩,
    hlog _ fun _ => rfl, hlog _ fun _ => rfl, fun _ => rfl⟩
  intro w s
  simp only
  rcases slice s.hash 0 ((s.hash.length : Int) - 2) with b | _ | _
  · simp only [Res.bind_ok]
    rcases hexDecode b with _ | _ | _ <;> rfl
  · rfl
  · rfl

end Btc.Imp
