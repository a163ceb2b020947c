import Verif.Spec.TokenProxy
/-!
# Specification: where a token comes from

C93.
-/
namespace Verif.TP
open Verif

/-- In step `e` the settings `k` of a token with this kind, name and symbol appear. -/
inductive Introduces (env : Env) (k : Pubkey) (e : Ev) (t : TokenSettings) : Prop
  /-- the first deposit of a token of Solana, signed by the depositor, says its name and symbol -/
  | sol (ctx : Ctx) (sd : U128) (a v : U64) (rc : EverAddress) (ev : Pubkey) (py : Bytes) (au mint vault : Pubkey)
      (hact : e.act = .tp ctx (.depositMultiTokenSol sd t.name t.symbol a rc v ev py)) (hau : ctx.accounts[1]? = some au) (hsig : ctx.isSigner au = true)
      (hv : ctx.accounts[3]? = some vault) (hm : ctx.accounts[5]? = some mint) (hk : ctx.accounts[7]? = some k)
      (haddr : IsAddr env env.tpId (tokenSettingsSolSeeds mint) k) (hvault : IsAddr env env.tpId (vaultSeeds mint) vault) (hkind : t.kind = .solana mint vault)
  /-- the first payout of a token of Everscale; the event of the withdrawal says its address on Everscale, name, symbol and decimals -/
  | ever (ctx : Ctx) (kw mint : Pubkey) (r : Withdrawal WEverEvent) (hact : e.act = .tp ctx .withdrawMultiTokenEver) (hkw : ctx.accounts[0]? = some kw)
      (hk : ctx.accounts[3]? = some k) (hw : WithdrawalOf wEverEventC env ctx e.pre kw r)
      (haddr : IsAddr env env.tpId (tokenSettingsEverSeeds env r.event.token) k) (hmint : IsAddr env env.tpId (mintSeeds env r.event.token) mint)
      (hkind : t.kind = .ever mint r.event.token r.event.decimals) (hname : t.name = r.event.name) (hsymbol : t.symbol = r.event.symbol)

/-- In step `e` the manager of the bridge or the upgrade authority renames a token of Solana as `t` is called. -/
def Renames (env : Env) (t : TokenSettings) (e : Ev) : Prop :=
  ∃ ctx, e.act = .tp ctx (.updateTokenName t.symbol t.name) ∧ (RoleSigns env ctx e.pre (·.manager) ∨ UpgradeAuthoritySigns env ctx e.pre) ∧
    ∃ mint vault, t.kind = .solana mint vault

end Verif.TP
