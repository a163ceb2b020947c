import Verif.Spec.Closing
/-!
# Specification: lamports held by the records of the bridge
-/
namespace Verif

/-- The balance that keeps an account of `n` bytes exempt from rent, as the programs compute it. -/
def Env.minimum (env : Env) (n : Nat) : Nat := max 1 (env.rent n)

/-- The step takes 20000 lamports from the account `k`: a vote of a relay, who signed, on a proposal for a new round. -/
def RL.Takes (k : Pubkey) (e : Ev) : Prop :=
  ∃ ctx v voter, e.act = .rl ctx (.voteForProposal v) ∧ ctx.accounts[0]? = some voter ∧ ctx.accounts[1]? = some k ∧ ctx.isSigner voter = true ∧
    (e.pre.acc k).lamports = (e.post.acc k).lamports + 20000 ∧ (e.post.acc voter).lamports = (e.pre.acc voter).lamports + 20000

namespace TP

/-- The ways in which a step can take lamports from an account `k` of the token proxy. -/
inductive Takes (env : Env) (k : Pubkey) (e : Ev) : Prop
  /-- a relay, who signed, votes and is paid 20000 lamports -/
  | vote (ctx : Ctx) (v : Vote) (voter : Pubkey) (hact : e.act = .tp ctx (.voteForWithdrawRequest v)) (h0 : ctx.accounts[0]? = some voter)
      (h1 : ctx.accounts[1]? = some k) (hsig : ctx.isSigner voter = true)
      (hpaid : (e.pre.acc k).lamports = (e.post.acc k).lamports + 20000)
      (hgot : (e.post.acc voter).lamports = (e.pre.acc voter).lamports + 20000)
  /-- the author of a deposit, who signed, closes it -/
  | deposit (ctx : Ctx) (g : GenericDeposit) (hact : e.act = .tp ctx .closeDeposit) (h1 : ctx.accounts[1]? = some k)
      (hg : ∃ b r, (e.pre.acc k).data = .raw b ∧ genericDepositC.dec b = some (g, r)) (hsig : ctx.isSigner g.author = true)
      (hgone : Emptied env k g.author e.pre e.post)
  /-- a finished withdrawal is closed in favour of its author -/
  | withdrawal (ctx : Ctx) (p : GenericProposal) (md : WMeta) (hact : e.act = .tp ctx .closeWithdrawal) (h0 : ctx.accounts[0]? = some k)
      (hp : ∃ b r, (e.pre.acc k).data = .raw b ∧ GenericProposal.codec.dec b = some (p, r)) (hmd : wmetaC.decAll p.metaData = some md)
      (hf : md.status.final = true) (hgone : Emptied env k p.author e.pre e.post)
  /-- the manager or the upgrade authority withdraws from the multi vault -/
  | multiVault (ctx : Ctx) (n : U64) (hact : e.act = .tp ctx (.withdrawMultiVault n)) (h2 : ctx.accounts[2]? = some k)
      (ha : IsAddr env env.tpId multiVaultSeeds k)
      (hrole : RoleSigns env ctx e.pre (·.manager) ∨ UpgradeAuthoritySigns env ctx e.pre)
      (hpaid : (e.pre.acc k).lamports = (e.post.acc k).lamports + n.toNat)

end TP
end Verif
