import Verif.Spec.RoundLoader
import Verif.RoundLoader.Processor
/-!
# Specification: where a proposal comes from

C94.
-/
namespace Verif.RL
open Verif

/-- In step `e`, `a` signs the creation of the proposal `k`, for the round number `rn`, the Everscale event `q` and the digest `d` of its content; no
lamports are in the account before. -/
def Proposes (e : Ev) (k a : Pubkey) (rn : U32) (q : PDA) (d : Pubkey) : Prop :=
  ∃ ctx, e.act = .rl ctx (.createProposal rn q d) ∧ ctx.accounts[2]? = some k ∧ ctx.isSigner a = true ∧ (e.pre.acc k).lamports = 0

/-- Step `e` finalizes the proposal `k`. -/
def Finalizes (e : Ev) (k : Pubkey) : Prop := ∃ ctx, e.act = .rl ctx .finalizeProposal ∧ ctx.accounts[1]? = some k

end Verif.RL
