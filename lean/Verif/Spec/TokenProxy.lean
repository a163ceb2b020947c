import Verif.Spec.Trace
/-!
# What an observer reads from token proxy accounts
-/
namespace Verif.TP
open Verif

/-- The account exists (accounts without lamports are removed at the end of a transaction). -/
def Live (w : World) (k : Pubkey) : Prop := 1 ≤ (w.acc k).lamports

/-- Account `k` belongs to the token proxy and holds the settings `s`. -/
def SettingsAt (env : Env) (w : World) (k : Pubkey) (s : Settings) : Prop :=
  (w.acc k).owner = env.tpId ∧ Holds settingsC recLen (w.acc k) s ∧ s.isInitialized = true ∧
    ∃ n pn, s.accountKind = .settings n pn

/-- Account `k` belongs to the token proxy and holds the settings `t` of a token. -/
def TokenAt (env : Env) (w : World) (k : Pubkey) (t : TokenSettings) : Prop :=
  (w.acc k).owner = env.tpId ∧ Holds tokenSettingsC recLen (w.acc k) t ∧ t.isInitialized = true ∧
    ∃ n m, t.accountKind = .tokenSettings n m

/-- The balance of a token account (0 if it is none). -/
def bal (w : World) (k : Pubkey) : Nat :=
  match (w.acc k).data with
  | .token t => t.amount.toNat
  | _ => 0

/-- The supply of a mint (0 if it is none). -/
def supply (w : World) (k : Pubkey) : Nat :=
  match (w.acc k).data with
  | .mint m => m.supply.toNat
  | _ => 0

/-- Where the instructions that emergency mode stops (deposits, withdrawals, approvals, cancel, fill) expect the settings of the
token. -/
def tokenPos : Instr → Option Nat
  | .depositMultiTokenEver .. => some 6
  | .depositMultiTokenSol .. => some 7
  | .withdrawMultiTokenEver => some 3
  | .withdrawMultiTokenSol => some 3
  | .approveWithdrawEver => some 4
  | .approveWithdrawSol => some 4
  | .cancelWithdrawSol .. => some 6
  | .fillWithdrawSol .. => some 7
  | _ => none

/-- Nothing but the data of `k` (and the logs) changes. -/
def OnlyData (k : Pubkey) (w w' : World) : Prop :=
  (∀ j, j ≠ k → w'.acc j = w.acc j) ∧ (w'.acc k).owner = (w.acc k).owner ∧ (w'.acc k).lamports = (w.acc k).lamports

/-- The settings of the token proxy as the running instruction finds them. -/
def SettingsOf (env : Env) (ctx : Ctx) (w : World) (k : Pubkey) (s : Settings) : Prop :=
  IsAddr env ctx.program settingsSeeds k ∧ Holds settingsC recLen (w.acc k) s ∧ s.isInitialized = true

/-- The addresses at which the settings of a token live: those derived from its mint or from its address on Everscale. -/
def tokenSeeds (env : Env) : TokenKind → List Bytes
  | .ever _ token _ => tokenSettingsEverSeeds env token
  | .solana mint _ => tokenSettingsSolSeeds mint

/-- The settings of a token as the running instruction finds them. -/
def TokenOf (env : Env) (ctx : Ctx) (w : World) (k : Pubkey) (t : TokenSettings) : Prop :=
  IsAddr env ctx.program (tokenSeeds env t.kind) k ∧ Holds tokenSettingsC recLen (w.acc k) t ∧ t.isInitialized = true

/-- All token balances and supplies are what they were. -/
def NoTokens (w w' : World) : Prop := ∀ k, bal w' k = bal w k ∧ supply w' k = supply w k

/-- `n` tokens move from `src` to `dst`; all other balances and all supplies are what they were. -/
def Moves (src dst : Pubkey) (n : Nat) (w w' : World) : Prop :=
  n ≤ bal w src ∧ ∀ k, bal w' k + (if k = src then n else 0) = bal w k + (if k = dst then n else 0) ∧ supply w' k = supply w k

/-- `n` tokens of `mint` appear in `dst`; all other balances and supplies are what they were. -/
def Mints (mint dst : Pubkey) (n : Nat) (w w' : World) : Prop :=
  ∀ k, bal w' k = bal w k + (if k = dst then n else 0) ∧ supply w' k = supply w k + (if k = mint then n else 0)

/-- `n` tokens of `mint` in `src` disappear; all other balances and supplies are what they were. -/
def Burns (src mint : Pubkey) (n : Nat) (w w' : World) : Prop :=
  ∀ k, bal w' k + (if k = src then n else 0) = bal w k ∧ supply w' k + (if k = mint then n else 0) = supply w k

/-- Token account `k` holds tokens of `mint`. -/
def IsToken (env : Env) (w : World) (k mint : Pubkey) : Prop :=
  (w.acc k).owner = env.splId ∧ ∃ t, (w.acc k).data = .token t ∧ t.mint = mint

/-! ## Withdrawals -/

/-- What anyone reads from a withdrawal record, whatever its kind of token: the event and the meta data as bytes. -/
def Withdrawal.view {E : Type} (ec : Codec E) (x : Withdrawal E) : GenericProposal :=
  ⟨x.isInitialized, x.accountKind, x.author, x.roundNumber, x.requiredVotes, x.pda, ec.enc x.event, wmetaC.enc x.md, x.signers⟩

/-- Account `k` belongs to the token proxy and holds the withdrawal `p` with meta data `md` (status, bounty, day of the request). -/
def WithdrawalAt (env : Env) (w : World) (k : Pubkey) (p : GenericProposal) (md : WMeta) : Prop :=
  (w.acc k).owner = env.tpId ∧ Holds GenericProposal.codec recLen (w.acc k) p ∧ p.isInitialized = true ∧
    (∃ n pn, p.accountKind = .proposal n pn) ∧ wmetaC.decAll p.metaData = some md

/-- No longer event can be read from the bytes `ev` followed by other bytes, whichever kind of event the reader expects. -/
def OneReading (ev : Bytes) : Prop :=
  (∀ rest e r, rest.length ≤ recLen → wEverEventC.dec (ev ++ rest) = some (e, r) → wEverEventC.enc e = ev) ∧
  (∀ rest e r, rest.length ≤ recLen → wSolEventC.dec (ev ++ rest) = some (e, r) → wSolEventC.enc e = ev)

/-- The withdrawals opened at `k` during the history `tr` are for events with one reading. -/
def Readable (env : Env) (k : Pubkey) (tr : List Ev) : Prop :=
  ∀ e ∈ tr, (∀ p md, ¬ WithdrawalAt env e.pre k p md) → ∀ p md, WithdrawalAt env e.post k p md → OneReading p.event

/-- A history from the deployment of the programs to `w`, in which account `k` can be followed: it is locked, and withdrawals opened in it
are for events with one reading. -/
structure History (env : Env) (L : Pubkey → Prop) (k : Pubkey) (tr : List Ev) (w : World) : Prop where
  run : ∃ w0, Genesis env L w0 ∧ Run env L true w0 tr w
  locked : L k
  readable : Readable env k tr

/-- A withdrawal in this status never changes again. -/
def WStatus.final : WStatus → Bool
  | .processed | .cancelled => true
  | _ => false

/-! ## Requests -/

/-- The account stays what it is; it may receive lamports. -/
def Kept (a a' : Account) : Prop := a'.data = a.data ∧ a'.owner = a.owner ∧ a.lamports ≤ a'.lamports

/-- A genuine relay round that has not expired, as the running instruction finds it, and the settings of the round loader. -/
structure OpenRound (env : Env) (ctx : Ctx) (w : World) (ks kr : Pubkey) (s : RL.Settings) (r : RL.RelayRound) : Prop where
  settings : IsAddr env env.rlId settingsSeeds ks ∧ Holds RL.settingsC RL.settingsLen (w.acc ks) s ∧ s.isInitialized = true
  round : IsAddr env env.rlId (relayRoundSeeds r.roundNumber) kr ∧ Holds RL.relayRoundC RL.relayRoundLen (w.acc kr) r ∧ r.isInitialized = true
  open_ : (ctx.now.setWidth 32).toNat < r.roundEnd.toNat

/-- Account `k` is a fresh withdrawal for `event`: status new, one empty vote slot per relay of the round `r`, the required count of
votes, and lamports for its rent and for reimbursing every relay. -/
def Opened (env : Env) (ctx : Ctx) (w' : World) (k author : Pubkey) (s : RL.Settings) (r : RL.RelayRound) (pda : PDA) (event : Bytes) : Prop :=
  (∃ (n : U8) (pn : Option U8) (votes : U32), votes.toNat = max (2 * r.relays.length / 3 + 1) s.minRequiredVotes.toNat ∧
    WithdrawalAt env w' k ⟨true, .proposal n pn, author, r.roundNumber, votes, pda, event, wmetaC.enc ⟨.new, 0#64, epochOf ctx.now⟩,
      List.replicate r.relays.length Vote.none⟩ ⟨.new, 0#64, epochOf ctx.now⟩) ∧
  (w'.acc k).lamports = max 1 (env.rent recLen) + 20000 * r.relays.length

/-! ## Payouts -/

/-- A withdrawal record, of tokens with events encoded by `ec`, as the running instruction finds it. -/
def WithdrawalOf {E : Type} (ec : Codec E) (env : Env) (ctx : Ctx) (w : World) (k : Pubkey) (r : Withdrawal E) : Prop :=
  IsAddr env ctx.program (proposalSeeds r.roundNumber r.pda (env.hash (ec.enc r.event))) k ∧
    Holds (withdrawalC ec) recLen (w.acc k) r ∧ r.isInitialized = true ∧ ∃ n pn, r.accountKind = .proposal n pn

/-- Enough relays have confirmed the withdrawal. -/
def Confirmed {E : Type} (r : Withdrawal E) : Prop := r.requiredVotes.toNat ≤ r.signers.count .confirm

/-- Account `rc` may receive tokens of `mint` for `who`: a token account that belongs to `who` or, if the event carries a payload, the
proxy account of `who`. -/
def Receiver (env : Env) (ctx : Ctx) (w : World) (payload : Bytes) (mint who rc : Pubkey) : Prop :=
  (payload = [] ∧ ∃ t, (w.acc rc).data = .token t ∧ t.owner = who) ∨
    (payload ≠ [] ∧ IsAddr env ctx.program (proxySeeds mint who) rc)

/-- What was released of a token on `day` so far. -/
def releasedOn (t : TokenSettings) (day : I64) : Nat := if t.withdrawalEpoch = day then t.withdrawalDailyAmount.toNat else 0

/-- A withdrawal of `net` with the fee `fee` on `day` is booked. -/
structure Booked (day : I64) (fee net : Nat) (t t' : TokenSettings) : Prop where
  fee : t'.feeSupply.toNat = t.feeSupply.toNat + fee
  daily : t'.withdrawalDailyAmount.toNat = releasedOn t day + net
  day : t'.withdrawalEpoch = day
  rest : t' = { t with feeSupply := t'.feeSupply, withdrawalDailyAmount := t'.withdrawalDailyAmount, withdrawalEpoch := t'.withdrawalEpoch }

/-- An approval on `day` of a withdrawal of `net` requested on `asked` no longer counts towards the limit of that day. -/
def Released (day asked : I64) (net : Nat) (t t' : TokenSettings) : Prop :=
  if asked = day then t.withdrawalDailyAmount.toNat = t'.withdrawalDailyAmount.toNat + net ∧
    t' = { t with withdrawalDailyAmount := t'.withdrawalDailyAmount }
  else t' = t

/-- `net` may be released on `day` without approval. -/
def Within (t : TokenSettings) (day : I64) (net : Nat) : Prop :=
  net ≤ t.withdrawalLimit.toNat ∧ releasedOn t day + net ≤ t.withdrawalDailyLimit.toNat

/-- All accounts are what they were. -/
def SameAccounts (w w' : World) : Prop := ∀ k, w'.acc k = w.acc k

/-- The status of a withdrawal that was paid: done, or waiting for its payload to be executed. -/
def doneStatus (payload : Bytes) : WStatus := if payload = [] then .processed else .waitingForExecute

/-- What a payout of `net` tokens of a Solana token from the vault `kv` to `rc` does, by the status it leaves: with too little in the vault
nothing, else the tokens move. `pm` is the mint for which the proxy account of the recipient was derived. -/
inductive SolOut (env : Env) (ctx : Ctx) (kv rc pm : Pubkey) (r : Withdrawal WSolEvent) (net : Nat) (w w' : World) : WStatus → Prop
  | short (hr : Receiver env ctx w r.event.payload pm r.event.recipient rc) (hb : bal w kv < net) (h : NoTokens w w') :
      SolOut env ctx kv rc pm r net w w' .pending
  | paid (hr : Receiver env ctx w r.event.payload pm r.event.recipient rc) (h : Moves kv rc net w w')
      (hm : ∃ m, IsToken env w kv m ∧ IsToken env w rc m) : SolOut env ctx kv rc pm r net w w' (doneStatus r.event.payload)

/-- What a payout of `net` tokens of an Everscale token to `rc` does. -/
def EverOut (env : Env) (ctx : Ctx) (mint rc : Pubkey) (r : Withdrawal WEverEvent) (net : Nat) (w w' : World) : Prop :=
  Receiver env ctx w r.event.payload mint r.event.recipient rc ∧ Mints mint rc net w w' ∧ IsToken env w rc mint

/-- The token of an Everscale withdrawal: its settings in `kt`, and its mint. -/
def EverTokenAt (env : Env) (ctx : Ctx) (w : World) (e : WEverEvent) (mint kt : Pubkey) (t : TokenSettings) (m : MintAcc) : Prop :=
  TokenOf env ctx w kt t ∧ (∃ mi d, t.kind = .ever mi e.token d) ∧ t.emergency = false ∧ IsAddr env ctx.program (mintSeeds env e.token) mint ∧
    (w.acc mint).data = .mint m

/-- Accounts that hold anything are kept. -/
def KeepsFull (w w' : World) : Prop := ∀ j, (w.acc j).data.len ≠ 0 → w'.acc j = w.acc j

/-- The first withdrawal of a token from Everscale creates its mint and its settings and nothing else that holds anything. -/
structure Deployed (env : Env) (ctx : Ctx) (e : WEverEvent) (mint kt : Pubkey) (w w' : World) : Prop where
  absent : (w.acc mint).data.len = 0 ∧ (w.acc kt).data.len = 0 ∧ (w.acc mint).lamports = 0
  mintAddr : IsAddr env ctx.program (mintSeeds env e.token) mint
  newMint : (w'.acc mint).data = .mint ⟨some mint, 0#64, if e.decimals.toNat < 9 then e.decimals else 9#8, none⟩ ∧ (w'.acc mint).owner = env.splId
  newToken : ∃ n n2, Holds tokenSettingsC recLen (w'.acc kt) (freshTokenSettings n n2 (.ever mint e.token e.decimals) e.name e.symbol)
  ownerToken : (w'.acc kt).owner = ctx.program
  full : KeepsFull w w'
  supply : ∀ k, supply w' k = supply w k
  quiet : mint ≠ env.nativeMint → NoTokens w w'

/-! ## The life of a withdrawal -/

/-- The permitted changes of status. -/
inductive Edge : WStatus → WStatus → Prop
  | approveLater : Edge .new .waitingForApprove
  | paid : Edge .new .processed
  | paidProxy : Edge .new .waitingForExecute
  | short : Edge .new .pending
  | approved : Edge .waitingForApprove .processed
  | approvedProxy : Edge .waitingForApprove .waitingForExecute
  | approvedShort : Edge .waitingForApprove .pending
  | later : Edge .pending .processed
  | laterProxy : Edge .pending .waitingForExecute
  | cancelled : Edge .pending .cancelled
  | executed : Edge .waitingForExecute .processed

/-- The step releases funds on account of the withdrawal `k`: it is paid out, by withdrawing or by approving, it is filled or refunded. -/
inductive Releases (k : Pubkey) (e : Ev) : Prop
  | withdrawSol (ctx : Ctx) (h : e.act = .tp ctx .withdrawMultiTokenSol) (hk : ctx.accounts[0]? = some k) (ht : ¬ NoTokens e.pre e.post)
  | withdrawEver (ctx : Ctx) (h : e.act = .tp ctx .withdrawMultiTokenEver) (hk : ctx.accounts[0]? = some k)
      (ht : ∃ m, supply e.post m ≠ supply e.pre m)
  | approveSol (ctx : Ctx) (h : e.act = .tp ctx .approveWithdrawSol) (hk : ctx.accounts[2]? = some k) (ht : ¬ NoTokens e.pre e.post)
  | approveEver (ctx : Ctx) (h : e.act = .tp ctx .approveWithdrawEver) (hk : ctx.accounts[2]? = some k)
      (ht : ∃ m, supply e.post m ≠ supply e.pre m)
  | cancel (ctx : Ctx) (sd : U128) (rc : EverAddress) (v : U64) (ev : Pubkey) (py : Bytes) (h : e.act = .tp ctx (.cancelWithdrawSol sd rc v ev py))
      (hk : ctx.accounts[3]? = some k)
  | fill (ctx : Ctx) (sd : U128) (rc : EverAddress) (a v : U64) (ev : Pubkey) (py : Bytes) (n : Nat)
      (h : e.act = .tp ctx (.fillWithdrawSol sd rc a v ev py)) (hk : ctx.accounts[11 + 2 * n]? = some k)
      (hr : ∃ rt, ctx.accounts[11 + 2 * n + 1]? = some rt)

/-! ## Fees over a history -/

/-- Fees of the token with settings `k` that a step pays out. -/
def feeTaken (k : Pubkey) (e : Ev) : Nat :=
  match e.act with
  | .tp ctx (.withdrawEverFee a) => if ctx.accounts[3]? = some k then a.toNat else 0
  | .tp ctx (.withdrawSolFee a) => if ctx.accounts[2]? = some k then a.toNat else 0
  | _ => 0

/-- The amount of a deposit. -/
def depositAmount : Instr → Option U64
  | .depositMultiTokenEver _ a _ _ _ _ => some a
  | .depositMultiTokenSol _ _ _ a _ _ _ _ => some a
  | _ => none

/-- A step charges the fee `n` to the token with settings `k`: nothing, or the fee of a deposit or a withdrawal by the rate then in
force. -/
inductive Charge (env : Env) (k : Pubkey) (e : Ev) : Nat → Prop
  | none : Charge env k e 0
  | deposit (ctx : Ctx) (i : Instr) (t : TokenSettings) (a fee : U64) (hact : e.act = .tp ctx i) (ht : TokenAt env e.pre k t)
      (ha : depositAmount i = some a) (hf : feeOf t.feeDepositInfo a = .ok fee) : Charge env k e fee.toNat
  | withdrawal (ctx : Ctx) (i : Instr) (t : TokenSettings) (a fee : U64) (hact : e.act = .tp ctx i)
      (hi : i = .withdrawMultiTokenEver ∨ i = .withdrawMultiTokenSol) (ht : TokenAt env e.pre k t)
      (hf : feeOf t.feeWithdrawalInfo a = .ok fee) : Charge env k e fee.toNat

/-- The steps of a history charge `n` in total. -/
inductive Charges (env : Env) (k : Pubkey) : List Ev → Nat → Prop
  | nil : Charges env k [] 0
  | step {tr : List Ev} {n m : Nat} (e : Ev) (h : Charges env k tr n) (hc : Charge env k e m) : Charges env k (tr ++ [e]) (n + m)

/-! ## Configuration of tokens -/

/-- What the manager configures for a token: limits, fee rates, name and symbol. -/
def config (t : TokenSettings) : (U64 × U64 × U64) × (FeeInfo × FeeInfo) × (Bytes × Bytes) :=
  ((t.depositLimit, t.withdrawalLimit, t.withdrawalDailyLimit), (t.feeDepositInfo, t.feeWithdrawalInfo), (t.name, t.symbol))

/-- What each configuring instruction makes of the settings `t` of a token. -/
inductive ConfigChange (t : TokenSettings) : Instr → TokenSettings → Prop
  | depositLimit (n : U64) : ConfigChange t (.changeDepositLimit n) { t with depositLimit := n }
  | withdrawalLimits (a b : Option U64) : ConfigChange t (.changeWithdrawalLimits a b)
      { t with withdrawalLimit := a.getD t.withdrawalLimit, withdrawalDailyLimit := b.getD t.withdrawalDailyLimit }
  | depositFee (m d : U64) : ConfigChange t (.updateFee .deposit m d) { t with feeDepositInfo := ⟨m, d⟩ }
  | withdrawalFee (m d : U64) : ConfigChange t (.updateFee .withdrawal m d) { t with feeWithdrawalInfo := ⟨m, d⟩ }
  | name (y n : Bytes) : ConfigChange t (.updateTokenName y n) { t with symbol := y, name := n }

/-- The instructions that configure tokens. -/
def configures : Instr → Bool
  | .changeDepositLimit _ | .changeWithdrawalLimits _ _ | .updateFee _ _ _ | .updateTokenName _ _ => true
  | _ => false

end Verif.TP
