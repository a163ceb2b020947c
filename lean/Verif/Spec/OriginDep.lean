import Verif.Spec.Closing
import Verif.Spec.Deposits
import Verif.Props.Arith
/-!
# Specification: where a deposit record comes from

C92.
-/
namespace Verif.TP
open Verif Props

/-- In step `e` the author of the deposit record `g` signs the instruction with seed `sd` that makes it at `k`. -/
inductive Deposits (env : Env) (k : Pubkey) (sd : U128) (e : Ev) (g : GenericDeposit) : Prop
  /-- a deposit of a token of Everscale: the tokens are burned, and the amount less the fee is recorded in the decimals of Everscale -/
  | ever (ctx : Ctx) (a v : U64) (rc : EverAddress) (ev : Pubkey) (py : Bytes) (src mint kt mk : Pubkey) (t : TokenSettings) (token : EverAddress)
      (d : U8) (m : MintAcc) (fee net : Nat) (credit : U128)
      (hact : e.act = .tp ctx (.depositMultiTokenEver sd a rc v ev py)) (hau : ctx.accounts[1]? = some g.author) (hsrc : ctx.accounts[2]? = some src)
      (hk : ctx.accounts[3]? = some k) (hsig : ctx.isSigner g.author = true) (ht : TokenOf env ctx e.pre kt t) (hkind : t.kind = .ever mk token d)
      (hmint : IsAddr env env.tpId (mintSeeds env token) mint) (hm : (e.pre.acc mint).data = .mint m)
      (hfee : feeSpec t.feeDepositInfo.multiplier.toNat t.feeDepositInfo.divisor.toNat a.toNat = some fee) (hnet : net + fee = a.toNat)
      (hcredit : d.toNat ≤ m.decimals.toNat + 38 → m.decimals.toNat ≤ d.toNat + 38 → credit.toNat = toEverSpec net d.toNat m.decimals.toNat)
      (hpaid : Burns src mint a.toNat e.pre e.post) (hev : g.event = depositEverEventC.enc ⟨token, credit, rc, v, ev, py⟩)
  /-- a deposit of a token of Solana: the amount less the fee is recorded -/
  | sol (ctx : Ctx) (name symbol : Bytes) (a v : U64) (rc : EverAddress) (ev : Pubkey) (py : Bytes) (mint kt : Pubkey) (t : TokenSettings) (dec : U8)
      (fee : Nat) (credit : U128)
      (hact : e.act = .tp ctx (.depositMultiTokenSol sd name symbol a rc v ev py)) (hau : ctx.accounts[1]? = some g.author)
      (hk : ctx.accounts[4]? = some k) (hmint : ctx.accounts[5]? = some mint) (hsig : ctx.isSigner g.author = true) (ht : TokenOf env ctx e.post kt t)
      (hfee : feeSpec t.feeDepositInfo.multiplier.toNat t.feeDepositInfo.divisor.toNat a.toNat = some fee) (hcredit : credit.toNat + fee = a.toNat)
      (hev : g.event = depositSolEventC.enc ⟨mint, t.name, t.symbol, dec, credit, rc, v, ev, py⟩)
  /-- a pending withdrawal that its author cancels: at most its amount is recorded, and no tokens move -/
  | cancel (ctx : Ctx) (v : U64) (rc : EverAddress) (ev : Pubkey) (py : Bytes) (kw : Pubkey) (r : Withdrawal WSolEvent) (name symbol : Bytes) (dec : U8)
      (credit : U128) (hact : e.act = .tp ctx (.cancelWithdrawSol sd rc v ev py)) (hau : ctx.accounts[1]? = some g.author)
      (hk : ctx.accounts[4]? = some k) (hsig : ctx.isSigner g.author = true) (hw : WithdrawalOf wSolEventC env ctx e.pre kw r)
      (hown : (e.pre.acc kw).owner = env.tpId) (hst : r.md.status = .pending) (hwa : r.author = g.author) (hcredit : credit.toNat ≤ r.event.amount.toNat)
      (hw' : WithdrawalOf wSolEventC env ctx e.post kw (r.withStatus .cancelled)) (hno : NoTokens e.pre e.post)
      (hev : g.event = depositSolEventC.enc ⟨r.event.mint, name, symbol, dec, credit, rc, v, ev, py⟩)
  /-- somebody fills pending withdrawals from their own tokens: the amount less the fee is recorded -/
  | fill (ctx : Ctx) (a v : U64) (rc : EverAddress) (ev : Pubkey) (py : Bytes) (kt mint vault : Pubkey) (t : TokenSettings) (dec : U8)
      (fee : Nat) (credit : U128) (hact : e.act = .tp ctx (.fillWithdrawSol sd rc a v ev py)) (hau : ctx.accounts[1]? = some g.author)
      (hk : ctx.accounts[4]? = some k) (hsig : ctx.isSigner g.author = true) (ht : TokenOf env ctx e.pre kt t) (hkind : t.kind = .solana mint vault)
      (hfee : feeSpec t.feeWithdrawalInfo.multiplier.toNat t.feeWithdrawalInfo.divisor.toNat a.toNat = some fee) (hcredit : credit.toNat + fee = a.toNat)
      (hev : g.event = depositSolEventC.enc ⟨mint, t.name, t.symbol, dec, credit, rc, v, ev, py⟩)

end Verif.TP
