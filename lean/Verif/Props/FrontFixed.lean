import Verif.Props.Front
import Verif.Props.RepairSuccess

/-!
# C137: random bytes are taken from the front, for the repaired text

The two functions of the repaired text (Verif/Source/Repair.lean) that draw random bytes do not look ahead.
-/

namespace Btc

open Mem Source Spec

/-- The search for a key does not look ahead. -/
theorem Source.FirstKey.local {rd body rest : Bytes} (h : FirstKey rd body rest) :
    ∃ used, rd = used ++ rest ∧ ∀ more, FirstKey (used ++ more) body more := by
  induction h with
  | @here body rest h1 h2 h3 => exact ⟨body, rfl, fun more => .here h1 h2 h3⟩
  | @later block rd body rest h1 h2 _ ih =>
    obtain ⟨used, rfl, h⟩ := ih
    exact ⟨block ++ used, by rw [List.append_assoc], fun more => by rw [List.append_assoc]; exact .later h1 h2 (h more)⟩

section
variable {H : Hashes} {E : EcdsaM} {V : Ecdsa} (hE : Pkg E) (hV : E.Refines V) (hC : EcdsaContract V) {nets : List Network} {st : State}
  {ps qs : List Ptr} (hr : FixedRun H E nets st ps qs)
include hE hV hC hr

/-- C137: a call of the repaired text that draws random bytes and succeeds takes them from the front; whatever follows them, the
answer is the same, nothing is logged, and what follows is left. -/
theorem C137_fixed (r : Request) (hd : Draws r) (ht : Typed st ps qs r) (vs : List Value) (s : State) (g : Spec.Answer)
    (h : r.EndsFixed H E st (.ok vs s)) (hv : view s vs = some g) :
    ∃ used, st.rd = used ++ s.rd ∧ ∀ more, ∃ vs' s', r.EndsFixed H E { st with rd := used ++ more } (.ok vs' s') ∧
      view s' vs' = some g ∧ s'.rd = more ∧ s'.log = [] := by
  have hs := hr.sound hE hV hC
  cases r with
  | generatePrivateKey network =>
    rcases ht with rfl | ⟨net, hn⟩
    · cases Ends.unique h (C127_generate_no_network H E st none MainNetwork (.inl rfl))
      cases hv
    by_cases hp : ∃ pre, Spells net.PrivKeyPrefix pre
    case neg =>
      cases Ends.unique h (C127_generate_no_network H E st network net (.inr ⟨hn, hp⟩))
      cases hv
    obtain ⟨pre, hp⟩ := hp
    obtain ⟨o, he, ⟨body, rest, wif, st1, a, hf, rfl, hk, -, ha⟩ | ⟨hf, st1, rfl, hk⟩⟩ := C127_generate H E st hs.order network net hn pre hp
    swap
    · cases Ends.unique h he
    cases Ends.unique h he
    have e1 : s.rd = rest := hk.rd
    obtain ⟨used, e2, e3⟩ := hf.local
    refine ⟨used, e2.trans (by rw [e1]), fun more => ?_⟩
    have hs' := (hr.source (used ++ more)).sound hE hV hC
    obtain ⟨o, he', ⟨body', rest', wif', st2, a', hf', rfl, hk', -, ha'⟩ | ⟨hf', -⟩⟩ :=
      C127_generate H E { st with rd := used ++ more } hs'.order network net hn pre hp
    swap
    · exact (hf' ⟨_, _, e3 more⟩).elim
    obtain ⟨rfl, rfl⟩ := (e3 more).unique hf'
    refine ⟨_, st2, he', ?_, hk'.rd, hk'.log.trans hs.log⟩
    rw [← hv]
    change (privAt st2 (some a')).map Spec.Answer.priv = (privAt s (some a)).map Spec.Answer.priv
    rw [ha'.priv (hn.kept hk'), ha.priv (hn.kept hk), ha.wif.text_unique ha'.wif]
  | newMnemonic words wl =>
    obtain ⟨o, he, ⟨c, ws, st1, h4, h8, hw, hl, hrd, hb, rfl, hk⟩ | ⟨-, st1, e, -, rfl, hk⟩⟩ := C128_generate H E words wl st
    swap
    · cases Ends.unique h he
      cases hv
    cases Ends.unique h he
    have e1 : s.rd = st.rd.drop (4 * c) := hk.rd
    have hlen : (st.rd.take (4 * c)).length = 4 * c := by simp [hrd]
    refine ⟨st.rd.take (4 * c), by rw [e1, List.take_append_drop], fun more => ?_⟩
    obtain ⟨o, he', ⟨c', ws', st2, h4', h8', hw', hl', hrd', hb', rfl, hk'⟩ | ⟨hno, -⟩⟩ :=
      C128_generate H E words wl { st with rd := st.rd.take (4 * c) ++ more }
    swap
    · exact (hno ⟨c, h4, h8, hw, hl, by simp [hrd]⟩).elim
    obtain rfl : c = c' := by omega
    dsimp only at hb' hk'
    rw [List.take_left' hlen] at hb'
    rw [List.drop_left' hlen] at hk'
    obtain rfl := hb.2.words_unique hb'.2
    exact ⟨_, st2, he', hv, hk'.rd, hk'.log.trans hs.log⟩
  | _ => exact hd.elim

end

namespace Samples

/-- C137, a case: the number 7, in 32 bytes, is the key; with any bytes after it the same key is made, and those are left. -/
example (rest : Bytes) : ∃ vs s g, (Request.generatePrivateKey (some 0)).EndsFixed realHashes pkg (ready (smallBody 7 ++ rest)) (.ok vs s) ∧
    view s vs = some g ∧ s.rd = rest ∧
    ∀ more, ∃ vs' s', (Request.generatePrivateKey (some 0)).EndsFixed realHashes pkg
      { ready (smallBody 7 ++ rest) with rd := smallBody 7 ++ more } (.ok vs' s') ∧ view s' vs' = some g ∧ s'.rd = more := by
  obtain ⟨h1, h2, h3, -⟩ := C127_init realHashes pkg (smallBody 7 ++ rest)
  have r0 : FixedRun realHashes pkg [] (ready (smallBody 7 ++ rest)) [] [] := .start (nets := []) h1
  have h7 : (smallBody 7).length = 32 ∧ 1 ≤ bigEndian (smallBody 7) ∧ bigEndian (smallBody 7) < Spec.n := by decide +kernel
  have hf : FirstKey (ready (smallBody 7 ++ rest)).rd (smallBody 7) rest := .here h7.1 h7.2.1 h7.2.2
  obtain ⟨o, he, ⟨body, rest', wif, s, a, hf', rfl, hk, -, ha⟩ | ⟨hno, -⟩⟩ :=
    C127_generate realHashes pkg (ready (smallBody 7 ++ rest)) h2 (some 0) MainNetwork h3 [0x80] main_prefix
  swap
  · exact (hno ⟨_, _, hf⟩).elim
  obtain ⟨rfl, rfl⟩ := hf.unique hf'
  have hv : view s [.priv (some a)] = some (.priv ⟨some (bigEndian (smallBody 7) : Int), hexEncode (smallBody 7), wif, some MainNetwork⟩) := by
    change (privAt s (some a)).map Spec.Answer.priv = _
    rw [ha.priv (h3.kept hk)]
    rfl
  obtain ⟨used, e1, e2⟩ := C137_fixed refPkg.1 refPkg.2.1 refPkg.2.2 r0 (.generatePrivateKey (some 0)) trivial (.inr ⟨MainNetwork, h3⟩) _ _ _ he hv
  obtain rfl : used = smallBody 7 := by
    rw [show s.rd = rest from hk.rd] at e1
    exact List.append_cancel_right e1.symm
  refine ⟨_, s, _, he, hv, hk.rd, fun more => ?_⟩
  obtain ⟨vs', s', g1, g2, g3, -⟩ := e2 more
  exact ⟨vs', s', g1, g2, g3⟩

end Samples

end Btc
