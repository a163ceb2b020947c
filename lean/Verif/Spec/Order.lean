import Verif.Spec.Local
/-!
# Specification: instructions whose order does not matter
-/
namespace Verif
namespace Call

/-- The instruction is the vote of relay `x` on the withdrawal `k`. -/
def VotesWithdrawal (x k : Pubkey) (c : Call) : Prop :=
  ∃ ctx d v, c = .tp ctx d ∧ TP.Instr.codec.decAll d = some (.voteForWithdrawRequest v) ∧ ctx.accounts[0]? = some x ∧ ctx.accounts[1]? = some k

/-- The instruction is the vote of relay `x`, a member of the relay round at `kr`, on the round proposal `k`. -/
def VotesProposal (x k kr : Pubkey) (c : Call) : Prop :=
  ∃ ctx d v, c = .rl ctx d ∧ RL.Instr.codec.decAll d = some (.voteForProposal v) ∧ ctx.accounts[0]? = some x ∧ ctx.accounts[1]? = some k ∧
    ctx.accounts[2]? = some kr

/-- The votes of two relays on the same withdrawal, or on the same round proposal with the same relay round. The votes need not be the same. -/
inductive SameBallot (a b : Call) : Prop
  | withdrawal {x y k : Pubkey} (ha : a.VotesWithdrawal x k) (hb : b.VotesWithdrawal y k) (hxy : x ≠ y) (hx : x ≠ k) (hy : y ≠ k)
  | proposal {x y k kr : Pubkey} (ha : a.VotesProposal x k kr) (hb : b.VotesProposal y k kr) (hxy : x ≠ y) (hx : x ≠ k) (hy : y ≠ k)

/-- Two instructions that may be swapped: they have nothing to do with each other, or they are votes on the same thing. -/
def MaySwap (a b : Call) : Prop := a.Apart b ∨ a.SameBallot b

end Call
end Verif
