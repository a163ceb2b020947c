import Verif.RoundLoader.Processor
/-!
# Specification: which proposal an instruction of the round loader is about

C87. The account list of each instruction has at most one place for a proposal, as the comments in `round-loader/src/instruction.rs` list them.
-/
namespace Verif.RL

/-- The place of the proposal in the account list, counted from 0. -/
def proposalPlace : Instr → Option Nat
  | .writeProposal .. => some 0
  | .finalizeProposal => some 1
  | .voteForProposal _ => some 1
  | .executeProposal => some 2
  | .executeProposalByAdmin => some 3
  | _ => none

/-- The account in this place. -/
def namedProposal (ctx : Ctx) (i : Instr) : Option Pubkey :=
  match proposalPlace i with
  | some n => ctx.accounts[n]?
  | none => none

end Verif.RL
