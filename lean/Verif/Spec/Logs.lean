import Verif.Spec.Deposits
import Verif.Spec.TokenProxy
/-!
# Log records

What the token proxy writes into the log, as a reader of the log sees it.
-/
namespace Verif.TP
open Codec

/-- A record of the log. -/
inductive Record
  | deposit (x : DepositLog)
  | request (x : WithdrawRequestLog)
  | token (x : TokenSettingsLog)
  | status (x : StatusLog)
  | fee (x : UpdateFeeLog)
  | name (x : UpdateNameLog)
  | liquidity (x : LiquidityLog)
  deriving DecidableEq

/-- The bytes in the log. -/
def Record.enc : Record → Bytes
  | .deposit x => depositLogC.enc x
  | .request x => withdrawRequestLogC.enc x
  | .token x => tokenSettingsLogC.enc x
  | .status x => statusLogC.enc x
  | .fee x => updateFeeLogC.enc x
  | .name x => updateNameLogC.enc x
  | .liquidity x => liquidityLogC.enc x

/-- Between `w` and `w'` exactly the records `l` were logged, in this order. -/
def Logged (l : List Record) (w w' : World) : Prop := w'.logs = w.logs ++ l.map Record.enc

/-- The token settings in account `k`, as the log describes them: a token of Solana has a vault, a token of Everscale an address and two
numbers of decimals. -/
def describes (x : TokenSettingsLog) (t : TokenSettings) : Prop :=
  x.symbol = t.symbol ∧ x.name = t.name ∧ x.fee = t.feeDepositInfo ∧ x.fee = t.feeWithdrawalInfo ∧
    match t.kind with
    | .solana m v => x.mint = m ∧ x.vault = some v ∧ x.everDecimals = none ∧ x.solanaDecimals = none ∧ x.root = none
    | .ever m a d => x.mint = m ∧ x.vault = none ∧ x.everDecimals = some d ∧ x.root = some a

/-- Account `k` holds a withdrawal with status `s`. -/
def HasStatus (w : World) (k : Pubkey) (s : WStatus) : Prop :=
  (∃ r, Holds (withdrawalC wSolEventC) recLen (w.acc k) r ∧ r.md.status = s) ∨
    (∃ r, Holds (withdrawalC wEverEventC) recLen (w.acc k) r ∧ r.md.status = s)

/-- Account `k` holds a transfer to Everscale that looks as `x` says. -/
def HasDeposit (env : Env) (w : World) (k : Pubkey) (x : DepositLog) : Prop :=
  (∃ n au len ml e, Holds (depositC depositSolEventC) recLen (w.acc k) ⟨true, .deposit n, au, len, e, ml, x.seed⟩ ∧ e.amount = x.transferAmount ∧
    e.recipient = x.recipient ∧ e.value = x.value ∧ e.expectedEvers = x.expectedEvers ∧ x.eventData = key.enc (env.hash (depositSolEventC.enc e))) ∨
  (∃ n au len ml e, Holds (depositC depositEverEventC) recLen (w.acc k) ⟨true, .deposit n, au, len, e, ml, x.seed⟩ ∧ e.amount = x.transferAmount ∧
    e.recipient = x.recipient ∧ e.value = x.value ∧ e.expectedEvers = x.expectedEvers ∧ x.eventData = key.enc (env.hash (depositEverEventC.enc e)))

/-- What a record claims about the state of the chain. -/
def Record.Claims (env : Env) (w : World) : Record → Prop
  | .deposit x => HasDeposit env w x.account x
  | .request x => ∃ p md, WithdrawalAt env w x.account p md ∧ md.status = .new ∧ md.bounty.toNat = 0 ∧ x.bounty.toNat = 0 ∧
      p.pda = ⟨x.eventTimestamp, x.eventTransactionLt, x.eventConfiguration⟩ ∧ x.eventData = key.enc (env.hash p.event) ∧
      ((∃ e, p.event = wSolEventC.enc e ∧ x.token = env.keyString e.mint ∧ x.recipient = e.recipient ∧ x.amount = e.amount) ∨
       (∃ e, p.event = wEverEventC.enc e ∧ x.token = e.token.show ∧ x.recipient = e.recipient ∧ x.amount = e.amount))
  | .token x => (∃ t, Holds tokenSettingsC recLen (w.acc x.account) t ∧ describes x t) ∧
      ∀ d, x.solanaDecimals = some d → ∃ m, (w.acc x.mint).data = .mint m ∧ m.decimals = d
  | .status x => HasStatus w x.account x.status
  | .fee x => ∃ t, Holds tokenSettingsC recLen (w.acc x.tokenSettings) t ∧
      (match x.feeType with | .deposit => t.feeDepositInfo | .withdrawal => t.feeWithdrawalInfo) = ⟨x.multiplier, x.divisor⟩
  | .name x => ∃ t, Holds tokenSettingsC recLen (w.acc x.tokenSettings) t ∧ t.symbol = x.symbol ∧ t.name = x.name
  | .liquidity x => HasStatus w x.withdrawal .processed ∧ ∃ y, HasDeposit env w x.deposit y

/-- Instructions that never log anything. -/
def Instr.silent : Instr → Bool
  | .voteForWithdrawRequest _ | .init _ _ _ | .changeGuardian _ | .changeManager _ | .changeWithdrawalManager _ | .changeDepositLimit _
  | .changeWithdrawalLimits _ _ | .enableEmergencyMode | .disableEmergencyMode | .enableTokenEmergencyMode | .disableTokenEmergencyMode
  | .approveWithdrawSol | .withdrawEverFee _ | .withdrawSolFee _ | .changeBountyForWithdrawSol _ | .withdrawProxy _ | .closeDeposit
  | .closeWithdrawal | .withdrawMultiVault _ => true
  | _ => false

/-- Which records an instruction logs, and about which accounts. -/
inductive Announces (ctx : Ctx) (w : World) : Instr → List Record → Prop
  | silent {i : Instr} (h : i.silent = true) : Announces ctx w i []
  | depositEver {sd : U128} {a : U64} {r : EverAddress} {v : U64} {e : Pubkey} {p : Bytes} {x : DepositLog} (h3 : ctx.accounts[3]? = some x.account)
      (hx : x.seed = sd ∧ x.recipient = r ∧ x.value = v ∧ x.expectedEvers = e) : Announces ctx w (.depositMultiTokenEver sd a r v e p) [.deposit x]
  | depositSol {sd : U128} {n y : Bytes} {a : U64} {r : EverAddress} {v : U64} {e kt : Pubkey} {p : Bytes} {x : DepositLog}
      (h4 : ctx.accounts[4]? = some x.account) (h7 : ctx.accounts[7]? = some kt) (hk : (w.acc kt).lamports ≠ 0)
      (hx : x.seed = sd ∧ x.recipient = r ∧ x.value = v ∧ x.expectedEvers = e) : Announces ctx w (.depositMultiTokenSol sd n y a r v e p) [.deposit x]
  /-- the first deposit of a token -/
  | firstSol {sd : U128} {n y : Bytes} {a : U64} {r : EverAddress} {v : U64} {e : Pubkey} {p : Bytes} {t : TokenSettingsLog} {x : DepositLog}
      (h4 : ctx.accounts[4]? = some x.account) (h7 : ctx.accounts[7]? = some t.account) (hk : (w.acc t.account).lamports = 0)
      (ht : t.name = n ∧ t.symbol = y) (hx : x.seed = sd ∧ x.recipient = r ∧ x.value = v ∧ x.expectedEvers = e) :
      Announces ctx w (.depositMultiTokenSol sd n y a r v e p) [.token t, .deposit x]
  | requestEver {pda : PDA} {t : EverAddress} {n y : Bytes} {d : U8} {r : Pubkey} {a : U128} {p : Bytes} {att : U64} {x : WithdrawRequestLog}
      (h2 : ctx.accounts[2]? = some x.account) (hk : (w.acc x.account).lamports = 0) (hx : x.recipient = r ∧ x.amount = a ∧ x.token = t.show) :
      Announces ctx w (.withdrawMultiTokenEverRequest pda t n y d r a p att) [.request x]
  /-- the request is known already, or its account cannot be opened because it is also the proxy account -/
  | knownEver {pda : PDA} {t : EverAddress} {n y : Bytes} {d : U8} {r : Pubkey} {a : U128} {p : Bytes} {att : U64} {k : Pubkey}
      (h2 : ctx.accounts[2]? = some k) (hk : (w.acc k).lamports ≠ 0 ∨ ctx.accounts[8]? = some k) :
      Announces ctx w (.withdrawMultiTokenEverRequest pda t n y d r a p att) []
  | requestSol {pda : PDA} {r : Pubkey} {a : U128} {p : Bytes} {att : U64} {x : WithdrawRequestLog}
      (h2 : ctx.accounts[2]? = some x.account) (hk : (w.acc x.account).lamports = 0) (hx : x.recipient = r ∧ x.amount = a) :
      Announces ctx w (.withdrawMultiTokenSolRequest pda r a p att) [.request x]
  | knownSol {pda : PDA} {r : Pubkey} {a : U128} {p : Bytes} {att : U64} {k : Pubkey}
      (h2 : ctx.accounts[2]? = some k) (hk : (w.acc k).lamports ≠ 0 ∨ ctx.accounts[9]? = some k) :
      Announces ctx w (.withdrawMultiTokenSolRequest pda r a p att) []
  | sol {k : Pubkey} {s : WStatus} {r : Withdrawal WSolEvent} (h0 : ctx.accounts[0]? = some k)
      (hr : Holds (withdrawalC wSolEventC) recLen (w.acc k) r) (hq : Confirmed r) : Announces ctx w .withdrawMultiTokenSol [.status ⟨k, s⟩]
  | unconfirmedSol {k : Pubkey} {r : Withdrawal WSolEvent} (h0 : ctx.accounts[0]? = some k)
      (hr : Holds (withdrawalC wSolEventC) recLen (w.acc k) r) (hq : ¬ Confirmed r) : Announces ctx w .withdrawMultiTokenSol []
  /-- without a payer the first withdrawal of a token does nothing -/
  | idle {kt : Pubkey} (h3 : ctx.accounts[3]? = some kt) (hk : (w.acc kt).lamports = 0) (h9 : ctx.accounts[9]? = none) :
      Announces ctx w .withdrawMultiTokenEver []
  | ever {k kt : Pubkey} {s : WStatus} {r : Withdrawal WEverEvent} {l : List Record} (h0 : ctx.accounts[0]? = some k) (h3 : ctx.accounts[3]? = some kt)
      (hr : Holds (withdrawalC wEverEventC) recLen (w.acc k) r)
      (hl : ((w.acc kt).lamports ≠ 0 ∧ l = []) ∨ ((w.acc kt).lamports = 0 ∧ ∃ t : TokenSettingsLog, t.account = kt ∧ l = [.token t]))
      (hq : Confirmed r ∧ r.md.status = .new) : Announces ctx w .withdrawMultiTokenEver (l ++ [.status ⟨k, s⟩])
  | unconfirmedEver {k kt : Pubkey} {r : Withdrawal WEverEvent} {l : List Record} (h0 : ctx.accounts[0]? = some k) (h3 : ctx.accounts[3]? = some kt)
      (hr : Holds (withdrawalC wEverEventC) recLen (w.acc k) r)
      (hl : ((w.acc kt).lamports ≠ 0 ∧ l = []) ∨ ((w.acc kt).lamports = 0 ∧ ∃ t : TokenSettingsLog, t.account = kt ∧ l = [.token t]))
      (hq : ¬ (Confirmed r ∧ r.md.status = .new)) : Announces ctx w .withdrawMultiTokenEver l
  | approveEver {k : Pubkey} {s : WStatus} (h2 : ctx.accounts[2]? = some k) : Announces ctx w .approveWithdrawEver [.status ⟨k, s⟩]
  | fee {f : FeeType} {m d : U64} {k : Pubkey} (h1 : ctx.accounts[1]? = some k) : Announces ctx w (.updateFee f m d) [.fee ⟨k, f, m, d⟩]
  | name {y n : Bytes} {k : Pubkey} (h1 : ctx.accounts[1]? = some k) : Announces ctx w (.updateTokenName y n) [.name ⟨k, y, n⟩]
  /-- the record of the new transfer names the account of the withdrawal -/
  | cancel {sd : U128} {r : EverAddress} {v : U64} {e : Pubkey} {p : Bytes} {x : DepositLog} (h3 : ctx.accounts[3]? = some x.account)
      (hx : x.seed = sd ∧ x.recipient = r ∧ x.value = v ∧ x.expectedEvers = e) :
      Announces ctx w (.cancelWithdrawSol sd r v e p) [.deposit x, .status ⟨x.account, .cancelled⟩]
  | fill {sd : U128} {r : EverAddress} {a v : U64} {e : Pubkey} {p : Bytes} {x : DepositLog} {l : List (Pubkey × Pubkey)} {kv : Pubkey}
      (h4 : ctx.accounts[4]? = some x.account) (hl : ctx.accounts.drop 11 = (l.flatMap fun y => [y.1, y.2]) ++ [kv])
      (hx : x.seed = sd ∧ x.recipient = r ∧ x.value = v ∧ x.expectedEvers = e) :
      Announces ctx w (.fillWithdrawSol sd r a v e p)
        ((l.flatMap fun y => [.status ⟨y.1, .processed⟩, .liquidity ⟨x.account, y.1⟩]) ++ [.deposit x])

end Verif.TP
