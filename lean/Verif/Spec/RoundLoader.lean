import Verif.Spec.Trace
/-!
# What an observer reads from round-loader accounts
-/
namespace Verif.RL
open Verif

/-- Account `k` belongs to the round loader and holds the initialized settings `s`. -/
def SettingsAt (env : Env) (w : World) (k : Pubkey) (s : Settings) : Prop :=
  (w.acc k).owner = env.rlId ∧ Holds settingsC settingsLen (w.acc k) s ∧ s.isInitialized = true

/-- Account `k` belongs to the round loader and holds relay round `r`. -/
def RoundAt (env : Env) (w : World) (k : Pubkey) (r : RelayRound) : Prop :=
  (w.acc k).owner = env.rlId ∧ Holds relayRoundC relayRoundLen (w.acc k) r ∧ r.isInitialized = true

/-- Account `k` belongs to the round loader and holds the finalized proposal `p`. -/
def FinalAt (env : Env) (w : World) (k : Pubkey) (p : Proposal) : Prop :=
  (w.acc k).owner = env.rlId ∧ Holds proposalC proposalLen (w.acc k) p ∧ p.isInitialized = true

/-- `q` is the same finalized proposal as `p` at a later time: only votes were added and possibly the executed flag. -/
structure Later (p q : Proposal) : Prop where
  /-- everything except status and votes is equal: proposed round, author, event identity, required votes, … -/
  frozen : q = { p with status := q.status, signers := q.signers }
  /-- same number of vote slots -/
  slots : q.signers.length = p.signers.length
  /-- a cast vote stays -/
  kept : ∀ (i : Nat) (v : Vote), p.signers[i]? = some v → v ≠ Vote.none → q.signers[i]? = some v
  /-- executed stays executed -/
  executed : p.status = .executed → q.status = .executed

theorem Later.refl (p : Proposal) : Later p p := ⟨rfl, rfl, fun _ _ h _ => h, id⟩

theorem Later.trans {p q r : Proposal} (h : Later p q) (h' : Later q r) : Later p r where
  frozen := by
    have h1 := h.frozen
    have h2 := h'.frozen
    rw [h2, h1]
  slots := h'.slots.trans h.slots
  kept i v hi hv := h'.kept i v (h.kept i v hi hv) hv
  executed h0 := h'.executed (h.executed h0)

/-- Votes not cast yet. -/
def unvoted (p : Proposal) : Nat := p.signers.count Vote.none

end Verif.RL
