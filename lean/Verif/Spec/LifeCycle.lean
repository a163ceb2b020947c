import Verif.Spec.TokenProxy
/-!
# Specification: the end of a withdrawal
-/
namespace Verif.TP
open Verif

/-- The step removes the account `k`: it closes the withdrawal, or the chain collects the account because it has no lamports. -/
inductive Removes (k : Pubkey) (e : Ev) : Prop
  | close (ctx : Ctx) (h : e.act = .tp ctx .closeWithdrawal) (hk : ctx.accounts[0]? = some k)
  | purge (h : e.act = .purge) (hl : (e.pre.acc k).lamports = 0)

/-- Nothing was released yet. -/
def WStatus.owed : WStatus → Bool
  | .new | .waitingForApprove | .pending => true
  | _ => false

/-- The votes of the record reach the number it requires. -/
def Quorum (p : GenericProposal) : Prop := p.requiredVotes.toNat ≤ p.signers.count .confirm

end Verif.TP
