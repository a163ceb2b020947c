import Verif.Spec.Signers
/-!
# Specification: whose signatures install a relay round

C89.
-/
namespace Verif
open Verif

/-- In this step `x` signs the vote `v` on the proposal `k`. -/
def RL.SignsVote (k x : Pubkey) (v : Vote) (e : Ev) : Prop :=
  ∃ ctx, e.act = .rl ctx (.voteForProposal v) ∧ ctx.accounts[1]? = some k ∧ ctx.isSigner x = true

/-- Every vote on the proposal `k` names the relay round at `kr`. -/
def RL.VotedIn (tr : List Ev) (k kr : Pubkey) : Prop :=
  ∀ e ∈ tr, ∀ ctx v, e.act = .rl ctx (.voteForProposal v) → ctx.accounts[1]? = some k → ctx.accounts[2]? = some kr

end Verif
