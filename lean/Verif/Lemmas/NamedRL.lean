import Verif.Lemmas.TPInv
import Verif.Lemmas.RLInv
import Verif.Spec.PlacesRL
import Verif.Spec.RoundLoader
/-!
# A proposal that the instruction does not name
-/
namespace Verif.RL
open Codec Verif

variable {env : Env} {L : Pubkey → Prop} {ctx : Ctx} {w w' : World} {i : Instr} {k : Pubkey}

/-- A new account is not yet a proposal. -/
theorem zeros_not_proposal {p : Proposal} {n : U8} {pn : Option U8} {r : Bytes} (h : proposalC.dec (zeros proposalLen) = some (p, r))
    (hk : p.accountKind = .proposal n pn) : False := by
  have e := proposalC.eq_of_dec h
  have h1 : (zeros proposalLen)[1]? = some 2#8 := by
    rw [e]
    obtain ⟨a, b⟩ := p
    cases hk
    cases a <;> rfl
  have h2 : (zeros proposalLen)[1]? = some 0#8 := rfl
  rw [h1] at h2
  cases h2

/-- A proposal not named by the instruction keeps every byte and every lamport. -/
theorem proposal_unnamed {p : Proposal} {n : U8} {pn : Option U8} (hd : env.Distinct) (hp : ctx.program = env.rlId) (h : run env ctx i w = .ok w')
    (ho : (w.acc k).owner = env.rlId) (hh : Holds proposalC proposalLen (w.acc k) p) (hk : p.accountKind = .proposal n pn)
    (hn : namedProposal ctx i ≠ some k) :
    (w'.acc k).owner = (w.acc k).owner ∧ (w'.acc k).data = (w.acc k).data ∧ (w.acc k).lamports ≤ (w'.acc k).lamports := by
  obtain ⟨b, r, hb, hlen, hdec⟩ := hh
  obtain ⟨ho', b', hb', hl', rfl⟩ := (run_ops h).track (k := k) (P := fun b' l => (w.acc k).lamports ≤ l ∧ b' = b)
    (by rw [hp]; exact hd.rlSys) (by rw [hp]; exact hd.rlSpl) (fun b l l' h1 hle => ⟨Nat.le_trans h1.1 hle, h1.2⟩)
    (fun x n b l l' hW _ _ => by
      cases hW with
      | pay k v x hi hpl => exact absurd hpl hn)
    (fun hW => by cases hW)
    (fun b1 b2 l hW hlen' e => by
      obtain ⟨e1, e⟩ := e
      subst e
      cases hW with
      | initSettings => rw [zeros_length] at hlen; cases hlen
      | updateSettings _ _ _ _ _ _ _ _ _ _ _ _ hl' => rw [hl'] at hlen; cases hlen
      | roundSettings _ _ _ _ _ _ _ _ _ hl' => rw [hl'] at hlen; cases hlen
      | round => rw [zeros_length] at hlen; cases hlen
      | fresh => exact (zeros_not_proposal hdec hk).elim
      | data _ _ _ _ _ _ _ _ hpl => exact absurd hpl hn
      | final _ _ _ _ _ _ _ _ _ _ _ _ _ _ _ _ _ _ _ _ hpl => exact absurd hpl hn
      | vote _ _ _ _ _ _ _ _ _ _ _ _ _ _ _ _ _ _ _ _ _ _ _ _ _ _ hpl => exact absurd hpl hn
      | exec _ _ _ _ _ _ _ _ _ _ hpl => exact absurd hpl hn)
    (by rw [hp]; exact ho) ⟨b, hb, Nat.le_refl _, rfl⟩
  exact ⟨by rw [ho', hp, ho], by rw [hb', hb], hl'⟩

end Verif.RL
