import Verif.Spec.TokenProxy
/-!
# Approvals within a day
-/
namespace Verif.TP
open Verif

/-- The step approves the withdrawal in account `kw`, of the token with settings `kt`. -/
def Approves (kt kw : Pubkey) (e : Ev) : Prop :=
  ∃ ctx i, e.act = .tp ctx i ∧ (i = .approveWithdrawSol ∨ i = .approveWithdrawEver) ∧ ctx.accounts[2]? = some kw ∧ ctx.accounts[4]? = some kt

/-- The bytes of an event are not both those of an event of a Solana token and those of an event of an Everscale token. -/
def OneKind (ev : Bytes) : Prop := ∀ x y, wSolEventC.wf x = true → wEverEventC.wf y = true → wSolEventC.enc x = ev → wEverEventC.enc y ≠ ev

end Verif.TP
