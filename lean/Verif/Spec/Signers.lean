import Verif.Spec.TokenProxy
import Verif.Spec.RoundLoader
/-!
# Specification: whose signatures release money

C88.
-/
namespace Verif
open Verif

/-- In this step `x` signs the vote `v` on the withdrawal `k`. -/
def TP.SignsVote (k x : Pubkey) (v : Vote) (e : Ev) : Prop :=
  ∃ ctx, e.act = .tp ctx (.voteForWithdrawRequest v) ∧ ctx.accounts[1]? = some k ∧ ctx.isSigner x = true

/-- During the history nobody passes the relay round at `kr` to `WriteProposal` as if it were a proposal (C03), and `kr` is not an account of the
token proxy. -/
structure RoundKept (env : Env) (tr : List Ev) (kr : Pubkey) : Prop where
  unwritten : ∀ e ∈ tr, ∀ ctx o bs, e.act = .rl ctx (.writeProposal o bs) → ctx.accounts[0]? ≠ some kr
  foreign : ∀ e ∈ tr, (e.pre.acc kr).owner ≠ env.tpId

/-- Somebody signs an instruction of one of the two programs in this step. -/
def Signs (x : Pubkey) (e : Ev) : Prop :=
  match e.act with
  | .rl ctx _ => ctx.isSigner x = true
  | .tp ctx _ => ctx.isSigner x = true
  | _ => False

end Verif
