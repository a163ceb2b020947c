import Verif.TokenProxy.Processor
import Verif.Spec.Day
import Verif.Spec.Local
/-!
# Specification: more permissions than needed
-/
namespace Verif

/-- The same call of the same program, with at least the signatures and permissions to write of `ctx`. The time may be another one. -/
structure Grants (ctx ctx' : Ctx) : Prop where
  program : ctx'.program = ctx.program
  accounts : ctx'.accounts = ctx.accounts
  signers : ∀ k ∈ ctx.signers, k ∈ ctx'.signers
  writables : ∀ k ∈ ctx.writables, k ∈ ctx'.writables

/-- How the two times have to be related for an instruction of the token proxy to do the same at both: requests look at the time (the
relay round may have expired), payouts and approvals at the day, all others at nothing. -/
def TP.Instr.AsGoodAt (i : TP.Instr) (t t' : I64) : Prop :=
  match i with
  | .withdrawMultiTokenEverRequest .. | .withdrawMultiTokenSolRequest .. => t' = t
  | .withdrawMultiTokenEver | .withdrawMultiTokenSol | .approveWithdrawEver | .approveWithdrawSol => t' = t ∨ ∃ d, OnDay d t ∧ OnDay d t'
  | _ => True

namespace Call

def withCtx : Call → Ctx → Call
  | rl _ d, c => rl c d
  | tp _ d, c => tp c d
  | np _ d, c => np c d

/-- What the program called by `c` sees if `c` is sent in one transaction with `tx`: an account signs, or may be written, if it does for any of
them. -/
def within (tx : List Call) (c : Call) : Call :=
  c.withCtx { c.ctx with signers := tx.flatMap (·.ctx.signers), writables := tx.flatMap (·.ctx.writables) }

end Call
end Verif
