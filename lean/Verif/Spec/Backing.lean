import Verif.Spec.Vault
/-!
# Specification: what backs the tokens of the bridge
-/
namespace Verif.TP
open Codec Verif

/-- Why `n` tokens leave the vault `kv` by the step `e`. -/
inductive VaultOut (env : Env) (kv : Pubkey) (n : Nat) (e : Ev) : Prop
  /-- payout of a confirmed withdrawal of the token to which the vault belongs: the amount of its event less the fee -/
  | payout (ctx : Ctx) (kw kt rc v : Pubkey) (r : Withdrawal WSolEvent) (t : TokenSettings) (fee : U64)
      (hact : e.act = .tp ctx .withdrawMultiTokenSol) (hw : WithdrawalOf wSolEventC env ctx e.pre kw r) (hc : Confirmed r)
      (hst : r.md.status = .new ∨ r.md.status = .pending) (ht : TokenOf env ctx e.pre kt t) (hk : t.kind = .solana r.event.mint v)
      (hv : IsAddr env ctx.program (vaultSeeds r.event.mint) kv)
      (hf : feeOf t.feeWithdrawalInfo (r.event.amount.setWidth 64) = .ok fee) (hn : n + fee.toNat = r.event.amount.toNat % 2 ^ 64)
      (hm : Moves kv rc n e.pre e.post) (hdone : WithdrawalOf wSolEventC env ctx e.post kw (r.withStatus (doneStatus r.event.payload)))
  /-- payout of an approved withdrawal -/
  | approved (ctx : Ctx) (kw kt rc v : Pubkey) (r : Withdrawal WSolEvent) (t : TokenSettings) (fee : U64)
      (hact : e.act = .tp ctx .approveWithdrawSol) (hw : WithdrawalOf wSolEventC env ctx e.pre kw r)
      (hrole : RoleSigns env ctx e.pre (·.withdrawalManager) ∨ UpgradeAuthoritySigns env ctx e.pre)
      (hst : r.md.status = .waitingForApprove) (ht : TokenOf env ctx e.pre kt t) (hk : t.kind = .solana r.event.mint v)
      (hv : IsAddr env ctx.program (vaultSeeds r.event.mint) kv)
      (hf : feeOf t.feeWithdrawalInfo (r.event.amount.setWidth 64) = .ok fee) (hn : n + fee.toNat = r.event.amount.toNat % 2 ^ 64)
      (hm : Moves kv rc n e.pre e.post) (hdone : WithdrawalOf wSolEventC env ctx e.post kw (r.withStatus (doneStatus r.event.payload)))
  /-- withdrawal of fees: they were recorded before, and are no longer -/
  | fee (ctx : Ctx) (kt rc mint v : Pubkey) (t : TokenSettings) (a sup : U64) (hact : e.act = .tp ctx (.withdrawSolFee a))
      (hrole : RoleSigns env ctx e.pre (·.manager) ∨ UpgradeAuthoritySigns env ctx e.pre)
      (ht : TokenOf env ctx e.pre kt t) (hk : t.kind = .solana mint v) (hv : IsAddr env ctx.program (vaultSeeds mint) kv)
      (hn : n = a.toNat) (hs : t.feeSupply.toNat = sup.toNat + n) (ht' : Holds tokenSettingsC recLen (e.post.acc kt) { t with feeSupply := sup })
      (hm : Moves kv rc n e.pre e.post)
  /-- should the address of the vault also be that of the proxy account of `c` for `m`, its owner `c` can take tokens -/
  | proxy (ctx : Ctx) (rc m c : Pubkey) (a : U64) (hact : e.act = .tp ctx (.withdrawProxy a)) (hsig : ctx.isSigner c = true)
      (ha : IsAddr env ctx.program (proxySeeds m c) kv) (hn : n = a.toNat) (hm : Moves kv rc n e.pre e.post)

/-- What the step `e` deposits into the vault `kv`. -/
def lodged (kv : Pubkey) (e : Ev) : Nat :=
  match e.act with
  | .tp ctx (.depositMultiTokenSol _ _ _ a _ _ _ _) => if ctx.accounts[3]? = some kv then a.toNat else 0
  | _ => 0

/-- What leaves the vault by the step `e`. -/
def drawn (kv : Pubkey) (e : Ev) : Nat := bal e.pre kv - bal e.post kv

/-- What else the vault gains: the surplus of fills, and gifts. -/
def gained (kv : Pubkey) (e : Ev) : Nat := bal e.post kv - bal e.pre kv - lodged kv e

/-- The fees recorded in the settings of a token. -/
def fees (w : World) (kt : Pubkey) : Nat :=
  match (w.acc kt).data with
  | .raw b => match tokenSettingsC.dec b with
    | some (t, _) => t.feeSupply.toNat
    | none => 0
  | _ => 0

/-- The tokens of an Everscale token that exist on Solana: the supply of its mint `km`, and the fees recorded in its settings `kt`, for which
tokens may still be minted. -/
def backing (w : World) (km kt : Pubkey) : Nat := supply w km + fees w kt

/-- The step `e` gives the withdrawal `r` in account `kw` of the bridge the status `st`. -/
structure StatusSet (env : Env) (kw : Pubkey) (r : Withdrawal WEverEvent) (st : WStatus) (e : Ev) : Prop where
  before : (e.pre.acc kw).owner = env.tpId
  after : (e.post.acc kw).owner = env.tpId
  record : Holds (withdrawalC wEverEventC) recLen (e.post.acc kw) (r.withStatus st)

/-- What the step `e` does to the backing of the token with mint `km` and settings `kt`. -/
inductive EverFlow (env : Env) (km kt : Pubkey) (token : EverAddress) (e : Ev) : Prop
  /-- a deposit burns the whole amount; the fee is recorded -/
  | deposit (ctx : Ctx) (sd : U128) (a : U64) (rc : EverAddress) (v : U64) (ev : Pubkey) (py : Bytes) (ct : Pubkey) (t : TokenSettings) (fee net : U64)
      (hact : e.act = .tp ctx (.depositMultiTokenEver sd a rc v ev py)) (hc : ctx.accounts[2]? = some ct)
      (hm : ctx.accounts[4]? = some km) (hk : ctx.accounts[6]? = some kt) (ht : TokenOf env ctx e.pre kt t)
      (hf : feeOf t.feeDepositInfo a = .ok fee) (hn : net.toNat + fee.toNat = a.toNat) (hb : Burns ct km a.toNat e.pre e.post)
      (h : backing e.post km kt + net.toNat = backing e.pre km kt)
  /-- a payout of a confirmed withdrawal mints the amount less the fee; the fee is recorded -/
  | payout (ctx : Ctx) (kw rc : Pubkey) (r : Withdrawal WEverEvent) (t : TokenSettings) (m : MintAcc) (amount fee net : U64)
      (hact : e.act = .tp ctx .withdrawMultiTokenEver) (h0 : ctx.accounts[0]? = some kw)
      (h1 : ctx.accounts[1]? = some km) (h3 : ctx.accounts[3]? = some kt) (hset : StatusSet env kw r (doneStatus r.event.payload) e)
      (hw : WithdrawalOf wEverEventC env ctx e.pre kw r) (htok : r.event.token = token)
      (hc : Confirmed r) (hst : r.md.status = .new) (ht : EverTokenAt env ctx e.pre r.event km kt t m)
      (ha : getWithdrawalAmount r.event.amount r.event.decimals m.decimals = .ok amount)
      (hf : feeOf t.feeWithdrawalInfo amount = .ok fee) (hn : net.toNat + fee.toNat = amount.toNat) (hm : Mints km rc net.toNat e.pre e.post)
      (h : backing e.post km kt = backing e.pre km kt + amount.toNat)
  /-- a confirmed withdrawal above the limits: the fee is recorded, nothing is minted yet -/
  | waits (ctx : Ctx) (kw : Pubkey) (r : Withdrawal WEverEvent) (t : TokenSettings) (m : MintAcc) (amount fee net : U64)
      (hact : e.act = .tp ctx .withdrawMultiTokenEver) (h0 : ctx.accounts[0]? = some kw)
      (h1 : ctx.accounts[1]? = some km) (h3 : ctx.accounts[3]? = some kt) (hset : StatusSet env kw r .waitingForApprove e)
      (hw : WithdrawalOf wEverEventC env ctx e.pre kw r) (htok : r.event.token = token)
      (hc : Confirmed r) (hst : r.md.status = .new) (ht : EverTokenAt env ctx e.pre r.event km kt t m)
      (ha : getWithdrawalAmount r.event.amount r.event.decimals m.decimals = .ok amount)
      (hf : feeOf t.feeWithdrawalInfo amount = .ok fee) (hn : net.toNat + fee.toNat = amount.toNat)
      (hl : ¬ Within t (epochOf ctx.now) net.toNat) (hm : NoTokens e.pre e.post)
      (h : backing e.post km kt = backing e.pre km kt + fee.toNat)
  /-- its approval mints the amount less the fee of the day of the approval -/
  | approved (ctx : Ctx) (kw rc : Pubkey) (r : Withdrawal WEverEvent) (t : TokenSettings) (m : MintAcc) (amount fee net : U64)
      (hact : e.act = .tp ctx .approveWithdrawEver) (h2 : ctx.accounts[2]? = some kw)
      (h4 : ctx.accounts[4]? = some kt) (hset : StatusSet env kw r (doneStatus r.event.payload) e)
      (hw : WithdrawalOf wEverEventC env ctx e.pre kw r) (htok : r.event.token = token)
      (hst : r.md.status = .waitingForApprove) (ht : EverTokenAt env ctx e.pre r.event km kt t m)
      (ha : getWithdrawalAmount r.event.amount r.event.decimals m.decimals = .ok amount)
      (hf : feeOf t.feeWithdrawalInfo amount = .ok fee) (hn : net.toNat + fee.toNat = amount.toNat) (hm : Mints km rc net.toNat e.pre e.post)
      (h : backing e.post km kt = backing e.pre km kt + net.toNat)
  /-- a withdrawal of fees mints what is no longer recorded -/
  | fee (ctx : Ctx) (a : U64) (rc : Pubkey) (hact : e.act = .tp ctx (.withdrawEverFee a)) (hm : Mints km rc a.toNat e.pre e.post)
      (hf : fees e.post kt + a.toNat = fees e.pre kt) (h : backing e.post km kt = backing e.pre km kt)
  /-- somebody burns tokens of their own outside of the bridge -/
  | burnt (hact : e.act = .ext) (h : backing e.post km kt < backing e.pre km kt)
  /-- should the mint of another token have the same address: an instruction for that token -/
  | clash (ctx : Ctx) (i : Instr) (kt' : Pubkey) (t : TokenSettings) (mi : Pubkey) (token' : EverAddress) (d : U8) (hact : e.act = .tp ctx i)
      (hin : kt' ∈ ctx.accounts) (ht : TokenOf env ctx e.pre kt' t) (hk : t.kind = .ever mi token' d) (hne : token' ≠ token) (ha : IsAddr env env.tpId (mintSeeds env token') km)
  /-- anything else changes neither supply nor recorded fees -/
  | same (hs : supply e.post km = supply e.pre km) (hf : fees e.post kt = fees e.pre kt)

end Verif.TP
