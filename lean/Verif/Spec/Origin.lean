import Verif.Spec.RoundLoader
import Verif.RoundLoader.Processor
/-!
# Specification: where a relay round comes from

C90.
-/
namespace Verif.RL
open Verif

/-- Step `e` installs the relay round `r`, on whose authority. -/
inductive Installs (env : Env) (e : Ev) (r : RelayRound) : Prop
  /-- the round submitter signs its content -/
  | submitter (ctx : Ctx) (num end_ : U32) (relays : List Pubkey) (ks : Pubkey) (s : Settings) (hact : e.act = .rl ctx (.createRelayRound num relays end_))
      (hk : IsAddr env env.rlId settingsSeeds ks) (hs : Holds settingsC settingsLen (e.pre.acc ks) s) (hi : s.isInitialized = true)
      (hsig : ctx.isSigner s.roundSubmitter = true) (hn : r.roundNumber = num) (hr : r.relays = relays) (he : r.roundEnd = end_ + s.roundTtl)
  /-- a finalized proposal has enough confirmations -/
  | voted (ctx : Ctx) (k ks : Pubkey) (p : Proposal) (s : Settings) (hact : e.act = .rl ctx .executeProposal) (hk : ctx.accounts[2]? = some k)
      (hp : FinalAt env e.pre k p) (hst : p.status = .new) (hq : p.requiredVotes.toNat ≤ p.signers.count .confirm)
      (hks : IsAddr env env.rlId settingsSeeds ks) (hs : Holds settingsC settingsLen (e.pre.acc ks) s) (hi : s.isInitialized = true)
      (hn : r.roundNumber = p.event.roundNum) (hr : r.relays = p.event.relays) (he : r.roundEnd = p.event.roundEnd + s.roundTtl)
  /-- the round submitter signs for the proposal -/
  | admin (ctx : Ctx) (k ks : Pubkey) (p : Proposal) (s : Settings) (hact : e.act = .rl ctx .executeProposalByAdmin) (hk : ctx.accounts[3]? = some k)
      (hp : Holds proposalC proposalLen (e.pre.acc k) p) (hpi : p.isInitialized = true)
      (hks : IsAddr env env.rlId settingsSeeds ks) (hs : Holds settingsC settingsLen (e.pre.acc ks) s) (hi : s.isInitialized = true)
      (hsig : ctx.isSigner s.roundSubmitter = true)
      (hn : r.roundNumber = p.event.roundNum) (hr : r.relays = p.event.relays) (he : r.roundEnd = p.event.roundEnd + s.roundTtl)

/-- Nobody passes the account `kr` to `WriteProposal`. -/
def Unwritten (tr : List Ev) (kr : Pubkey) : Prop :=
  ∀ e ∈ tr, ∀ ctx o bs, e.act = .rl ctx (.writeProposal o bs) → ctx.accounts[0]? ≠ some kr

end Verif.RL
