import Verif.TokenProxy.Utils
/-!
# `token-proxy/src/processor.rs`

One function per instruction. `ctx.program` is `program_id`. Account positions are those of the source. Programs called
with `invoke(…, accounts)` receive all accounts of the instruction.

Simplification, everywhere: `sol_log_data(&[&x.try_to_vec()?])` is modelled as never failing (`try_to_vec` fails only
for vectors of more than `2^32 - 1` elements, which do not fit in an instruction or account).
-/
namespace Verif.TP
open Codec Verif

/-! ## Views without length check

`Proposal::unpack_from_slice` and `Deposit::unpack_from_slice` decode a prefix of the data, whatever its length and
`is_initialized` flag. On SPL and program data accounts (kept parsed here) they are modelled as failing. -/

/-- `T::unpack_from_slice`. `bridge-derive/src/lib.rs:34-37`, `token-proxy/src/state.rs:134-137`. -/
def decRaw {α : Type} (c : Codec α) (d : Data) : Except Err α :=
  match d with
  | .raw b =>
    match c.dec b with
    | some (a, _) => .ok a
    | none => .error .borshIo
  | _ => .error .borshIo

/-- `value.pack_into_slice(&mut data)`. `bridge-derive/src/lib.rs:28-32`, `token-proxy/src/state.rs:128-132`. -/
def packRaw {α : Type} (ctx : Ctx) (c : Codec α) (a : α) (k : Pubkey) (w : World) : Except Err World :=
  match (w.acc k).data with
  | .raw b => do
    let b' ← packBytes c a b
    setData ctx k (.raw b') w
  | _ => .error .externalDataModified

/-- Load the generic view of a withdrawal and check its address, `processor.rs:1415-1439`, `4405-4428`. -/
def loadGeneric (env : Env) (ctx : Ctx) (k : Pubkey) (w : World) : Except Err GenericProposal := do
  let p ← decRaw GenericProposal.codec (w.acc k).data
  let (n, _) ← orErr p.accountKind.intoProposal (.custom .invalidTokenKind)
  validateProposal env ctx.program p.roundNumber p.pda (env.hash p.event) n k
  .ok p

/-- Store settings, e.g. `processor.rs:2285-2288` -/
def putSettings (ctx : Ctx) (s : Settings) (k : Pubkey) (w : World) : Except Err World := pack ctx settingsC recLen s k w
/-- Store token settings, e.g. `processor.rs:597-600` -/
def putToken (ctx : Ctx) (s : TokenSettings) (k : Pubkey) (w : World) : Except Err World :=
  pack ctx tokenSettingsC recLen s k w
/-- Store a withdrawal record, e.g. `processor.rs:1828-1831` -/
def putWithdrawal {E : Type} (ctx : Ctx) (ec : Codec E) (r : Withdrawal E) (k : Pubkey) (w : World) : Except Err World :=
  pack ctx (withdrawalC ec) recLen r k w
/-- Store a deposit record, e.g. `processor.rs:583-586` -/
def putDeposit {E : Type} (ctx : Ctx) (ec : Codec E) (r : Deposit E) (k : Pubkey) (w : World) : Except Err World :=
  pack ctx (depositC ec) recLen r k w

/-! ## Initialization -/

/-- `process_initialize`, `processor.rs:302-406` -/
def processInitialize (env : Env) (ctx : Ctx) (guardian manager withdrawalManager : Pubkey) (w : World) :
    Except Err World := do
  let funder ← acct ctx 0
  let initializer ← acct ctx 1
  let settings ← acct ctx 2
  let multiVault ← acct ctx 3
  let programdata ← acct ctx 4
  let _system ← acct ctx 5
  let rent ← acct ctx 6
  sysvar env.rentId rent
  require (ctx.isSigner initializer = true) .missingRequiredSignature
  let (pd, pdNonce) ← findAddr env [seedKey ctx.program] env.loaderId
  require (pd = programdata) .invalidArgument
  validateInitializer initializer (w.acc programdata).data
  let sNonce ← deriveAt env ctx settingsSeeds settings
  let w ← createPda env ctx funder settings settingsSeeds sNonce recLen ctx.program w
  let w ← putSettings ctx
    { isInitialized := true, accountKind := .settings sNonce pdNonce, emergency := false, guardian := guardian,
      manager := manager, withdrawalManager := withdrawalManager } settings w
  let mNonce ← deriveAt env ctx multiVaultSeeds multiVault
  let w ← createPda env ctx funder multiVault multiVaultSeeds mNonce recLen ctx.program w
  pack ctx multiVaultC recLen { isInitialized := true, accountKind := .multiVault mNonce } multiVault w

/-! ## Deposits -/

/-- `process_deposit_multi_token_ever`, `processor.rs:409-604` -/
def processDepositEver (env : Env) (ctx : Ctx) (seed : U128) (amount : U64) (recipient : EverAddress) (value : U64)
    (evers : Pubkey) (payload : Bytes) (w : World) : Except Err World := do
  let funder ← acct ctx 0
  let creator ← acct ctx 1
  let creatorToken ← acct ctx 2
  let deposit ← acct ctx 3
  let mint ← acct ctx 4
  let multiVault ← acct ctx 5
  let tokenSettings ← acct ctx 6
  let settings ← acct ctx 7
  let _system ← acct ctx 8
  let _token ← acct ctx 9
  let rent ← acct ctx 10
  sysvar env.rentId rent
  require (ctx.isSigner creator = true) .missingRequiredSignature
  let _ ← loadSettingsNoEmergency env ctx settings w
  let t ← loadEver env ctx tokenSettings w
  require (t.ts.emergency = false) (.custom .emergencyEnabled)
  validatePda env ctx.program (mintSeeds env t.token) t.mintNonce mint
  let m ← mintOf (w.acc mint).data
  loadMultiVault env ctx multiVault w
  let w ← splBurn env ctx ctx.signs creatorToken mint creator amount w
  let dNonce ← deriveAt env ctx (depositSeeds seed) deposit
  let w ← createPda env ctx funder deposit (depositSeeds seed) dNonce recLen ctx.program w
  let fee ← feeOf t.ts.feeDepositInfo amount
  let supply ← orErr (checkedAdd t.ts.feeSupply fee) (.custom .overflow)
  let pure_ ← orErr (checkedSub amount fee) (.custom .overflow)
  let transfer ← getDepositAmount pure_ t.decimals m.decimals
  let event : DepositEverEvent := ⟨t.token, transfer, recipient, value, evers, payload⟩
  let w := w.log (depositLog env depositEverEventC deposit recipient transfer seed value evers event)
  let w ← putDeposit ctx depositEverEventC (depositRecord dNonce creator event.lenField event seed) deposit w
  let w ← putToken ctx { t.ts with feeSupply := supply } tokenSettings w
  sysTransfer env ctx ctx.signs funder multiVault value.toNat w

/-- First deposit of a Solana token: create its vault and its settings, `processor.rs:676-771`. -/
def deploySol (env : Env) (ctx : Ctx) (funder vault mint tokenSettings : Pubkey) (name symbol : Bytes) (w : World) :
    Except Err World := do
  let vNonce ← deriveAt env ctx (vaultSeeds mint) vault
  let w ← createPda env ctx funder vault (vaultSeeds mint) vNonce 165 env.splId w
  let w ← splInitAccount env ctx vault mint vault w
  let tNonce ← deriveAt env ctx (tokenSettingsSolSeeds mint) tokenSettings
  let w ← createPda env ctx funder tokenSettings (tokenSettingsSolSeeds mint) tNonce recLen ctx.program w
  let w := w.log (tokenSettingsLogC.enc ⟨tokenSettings, symbol, name, mint, some vault, none, none, none, FeeInfo.default⟩)
  putToken ctx (freshTokenSettings tNonce vNonce (.solana mint vault) name symbol) tokenSettings w

/-- Vault and token settings are created at the first deposit, `processor.rs:668-768`. -/
def deployOnce (env : Env) (ctx : Ctx) (funder vault mint tokenSettings : Pubkey) (name symbol : Bytes) (w : World) :
    Except Err World :=
  if (w.acc tokenSettings).lamports = 0 then deploySol env ctx funder vault mint tokenSettings name symbol w else .ok w

/-- `process_deposit_multi_token_sol`, `processor.rs:607-947`. The mint and vault checks (797, 805) fail only if both the
address and the owner are wrong. -/
def processDepositSol (env : Env) (ctx : Ctx) (seed : U128) (name symbol : Bytes) (amount : U64)
    (recipient : EverAddress) (value : U64) (evers : Pubkey) (payload : Bytes) (w : World) : Except Err World := do
  let funder ← acct ctx 0
  let creator ← acct ctx 1
  let creatorToken ← acct ctx 2
  let vault ← acct ctx 3
  let deposit ← acct ctx 4
  let mint ← acct ctx 5
  let multiVault ← acct ctx 6
  let tokenSettings ← acct ctx 7
  let settings ← acct ctx 8
  let _system ← acct ctx 9
  let _token ← acct ctx 10
  let rent ← acct ctx 11
  sysvar env.rentId rent
  require (ctx.isSigner creator = true) .missingRequiredSignature
  let _ ← loadSettingsNoEmergency env ctx settings w
  require (name.length ≤ maxNameLen) (.custom .tokenNameLenLimit)
  require (symbol.length ≤ maxNameLen) (.custom .tokenSymbolLenLimit)
  let w ← deployOnce env ctx funder vault mint tokenSettings name symbol w
  let t ← loadSol env ctx tokenSettings w
  require (t.ts.emergency = false) (.custom .emergencyEnabled)
  require (mint = t.mint ∨ (w.acc mint).owner = env.splId) .invalidArgument
  let m ← mintOf (w.acc mint).data
  require (vault = t.vault ∨ (w.acc vault).owner = env.splId) .invalidArgument
  loadMultiVault env ctx multiVault w
  let v ← tokenOf (w.acc vault).data
  let total ← orErr (checkedAdd v.amount amount) (.custom .overflow)
  require (total.toNat ≤ t.ts.depositLimit.toNat) (.custom .depositLimit)
  let w ← splTransfer env ctx ctx.signs creatorToken vault creator amount w
  let w ← sysTransfer env ctx ctx.signs funder multiVault value.toNat w
  let dNonce ← deriveAt env ctx (depositSeeds seed) deposit
  let w ← createPda env ctx funder deposit (depositSeeds seed) dNonce recLen ctx.program w
  let fee ← feeOf t.ts.feeDepositInfo amount
  let supply ← orErr (checkedAdd t.ts.feeSupply fee) (.custom .overflow)
  let pure_ ← orErr (checkedSub amount fee) (.custom .overflow)
  let transfer : U128 := pure_.setWidth 128
  let event : DepositSolEvent :=
    ⟨mint, t.ts.name, t.ts.symbol, m.decimals, transfer, recipient, value, evers, payload⟩
  let w := w.log (depositLog env depositSolEventC deposit recipient transfer seed value evers event)
  let w ← putDeposit ctx depositSolEventC (depositRecord dNonce creator event.lenField event seed) deposit w
  putToken ctx { t.ts with feeSupply := supply } tokenSettings w

/-! ## Withdrawal requests -/

/-- Load settings and a relay round of the round loader and check that the round has not expired,
`processor.rs:987-1032`, `1225-1270`. `clock.unix_timestamp as u32` truncates. -/
def loadRound (env : Env) (ctx : Ctx) (rlSettings relayRound : Pubkey) (w : World) :
    Except Err (RL.Settings × RL.RelayRound) := do
  let s ← unpack RL.settingsC RL.settingsLen (·.isInitialized) (w.acc rlSettings).data
  let (n, _) ← orErr s.accountKind.intoSettings (.custom .invalidTokenKind)
  validateSettings env env.rlId n rlSettings
  let r ← unpack RL.relayRoundC RL.relayRoundLen (·.isInitialized) (w.acc relayRound).data
  let n ← orErr r.accountKind.intoRelayRound (.custom .invalidTokenKind)
  validateRelayRound env env.rlId r.roundNumber n relayRound
  require ((ctx.now.setWidth 32).toNat < r.roundEnd.toNat) (.custom .relayRoundExpired)
  .ok (s, r)

/-- Create the withdrawal account and fund the votes, `processor.rs:1086-1166`, `1312-1390`. If the address already holds
lamports nothing happens. -/
def openWithdrawal {E : Type} (env : Env) (ctx : Ctx) (ec : Codec E) (funder author withdrawal : Pubkey)
    (rs : RL.Settings) (rr : RL.RelayRound) (pda : PDA) (len : U32) (event : E) (proxyNonce : Option U8)
    (token : Bytes) (recipient : Pubkey) (amount : U128) (w : World) : Except Err World := do
  let h := env.hash (ec.enc event)
  let seeds := proposalSeeds rr.roundNumber pda h
  let nonce ← deriveAt env ctx seeds withdrawal
  if (w.acc withdrawal).lamports = 0 then do
    let w ← createPda env ctx funder withdrawal seeds nonce recLen ctx.program w
    let w ← putWithdrawal ctx ec
      (withdrawalRecord nonce proxyNonce author rr.roundNumber (RL.requiredVotes rr.relays.length rs.minRequiredVotes)
        pda len event (epochOf ctx.now) rr.relays.length) withdrawal w
    let w := w.log (withdrawRequestLogC.enc
      ⟨withdrawal, token, recipient, amount, pda.eventTimestamp, pda.eventTransactionLt, pda.eventConfiguration,
       key.enc h, 0#64⟩)
    sysTransfer env ctx ctx.signs funder withdrawal (relayReparation * rr.relays.length) w
  else .ok w

/-- With a payload, create the proxy account and give it the attached lamports, `processor.rs:1047-1084`,
`1277-1310`. `expected` is the mint the passed mint account must be. -/
def openProxy (env : Env) (ctx : Ctx) (payload : Bytes) (expected recipient funder system : Pubkey) (i : Nat)
    (attached : U64) (w : World) : Except Err (Option U8 × World) :=
  if payload = [] then .ok (none, w)
  else do
    let proxy ← acct ctx i
    let mint ← acct ctx (i + 1)
    let spl ← acct ctx (i + 2)
    require (expected = mint) .invalidArgument
    let (nonce, w) ← createProxyAccount env ctx recipient funder proxy mint system spl w
    let w ← sysTransfer env ctx ctx.signs funder proxy attached.toNat w
    .ok (some nonce, w)

/-- The mint of an Everscale token (and its nonce), looked up only if there is a payload, `processor.rs:1038-1048`. -/
def requestMint (env : Env) (ctx : Ctx) (payload : Bytes) (token : EverAddress) : Except Err (Pubkey × U8) :=
  if payload = [] then .ok (0#256, 0#8) else findAddr env (mintSeeds env token) ctx.program

/-- `process_withdraw_multi_token_ever_request`, `processor.rs:950-1169` -/
def processEverRequest (env : Env) (ctx : Ctx) (pda : PDA) (token : EverAddress) (name symbol : Bytes) (decimals : U8)
    (recipient : Pubkey) (amount : U128) (payload : Bytes) (attached : U64) (w : World) : Except Err World := do
  let funder ← acct ctx 0
  let author ← acct ctx 1
  let withdrawal ← acct ctx 2
  let rlSettings ← acct ctx 3
  let relayRound ← acct ctx 4
  let system ← acct ctx 5
  let rent ← acct ctx 6
  sysvar env.rentId rent
  let clock ← acct ctx 7
  sysvar env.clockId clock
  require (ctx.isSigner author = true) .missingRequiredSignature
  require (name.length ≤ maxNameLen) (.custom .tokenNameLenLimit)
  require (symbol.length ≤ maxNameLen) (.custom .tokenSymbolLenLimit)
  let (rs, rr) ← loadRound env ctx rlSettings relayRound w
  let (mintKey, _) ← requestMint env ctx payload token
  let (proxyNonce, w) ← openProxy env ctx payload mintKey recipient funder system 8 attached w
  let event : WEverEvent := ⟨token, name, symbol, decimals, amount, recipient, payload⟩
  openWithdrawal env ctx wEverEventC funder author withdrawal rs rr pda event.lenField event proxyNonce
    token.show recipient amount w

/-- `process_withdraw_multi_token_sol_request`, `processor.rs:1172-1393` -/
def processSolRequest (env : Env) (ctx : Ctx) (pda : PDA) (recipient : Pubkey) (amount : U128) (payload : Bytes)
    (attached : U64) (w : World) : Except Err World := do
  let funder ← acct ctx 0
  let author ← acct ctx 1
  let withdrawal ← acct ctx 2
  let tokenSettings ← acct ctx 3
  let rlSettings ← acct ctx 4
  let relayRound ← acct ctx 5
  let system ← acct ctx 6
  let rent ← acct ctx 7
  sysvar env.rentId rent
  let clock ← acct ctx 8
  sysvar env.clockId clock
  require (ctx.isSigner author = true) .missingRequiredSignature
  let t ← loadSol env ctx tokenSettings w
  let (rs, rr) ← loadRound env ctx rlSettings relayRound w
  let (proxyNonce, w) ← openProxy env ctx payload t.mint recipient funder system 9 attached w
  let event : WSolEvent := ⟨t.mint, amount, recipient, payload⟩
  openWithdrawal env ctx wSolEventC funder author withdrawal rs rr pda event.lenField event proxyNonce
    (env.keyString t.mint) recipient amount w

/-! ## Voting -/

/-- `process_vote_for_withdraw_request`, `processor.rs:1395-1479` -/
def processVote (env : Env) (ctx : Ctx) (vote : Vote) (w : World) : Except Err World := do
  let relay ← acct ctx 0
  let withdrawal ← acct ctx 1
  let relayRound ← acct ctx 2
  require (ctx.isSigner relay = true) .missingRequiredSignature
  require (vote ≠ Vote.none) (.custom .invalidVote)
  let p ← loadGeneric env ctx withdrawal w
  let r ← unpack RL.relayRoundC RL.relayRoundLen (·.isInitialized) (w.acc relayRound).data
  let n ← orErr r.accountKind.intoRelayRound (.custom .invalidTokenKind)
  validateRelayRound env env.rlId p.roundNumber n relayRound
  let i ← orErr (r.relays.findIdx? (fun k => k == relay)) (.custom .invalidRelay)
  let old ← orErr p.signers[i]? .panic
  if old = Vote.none then do
    let w ← packRaw ctx GenericProposal.codec { p with signers := p.signers.set i vote } withdrawal w
    moveLamports ctx withdrawal relay relayReparation w
  else .ok w

/-! ## Paying withdrawals -/

/-- `sig_count >= required_votes`, `processor.rs:1700-1706`; the count is cast to `u32`. -/
def hasQuorum {E : Type} (r : Withdrawal E) : Prop :=
  r.requiredVotes.toNat ≤ (BitVec.ofNat 32 (confirmCount r.signers) : U32).toNat

instance {E : Type} (r : Withdrawal E) : Decidable (hasQuorum r) := by unfold hasQuorum; infer_instance

/-- Start of a new day resets the daily counter, `processor.rs:1708-1714`. -/
def resetEpoch (ts : TokenSettings) (epoch : I64) : TokenSettings :=
  if ts.withdrawalEpoch = epoch then ts else { ts with withdrawalEpoch := epoch, withdrawalDailyAmount := 0#64 }

/-- The recipient of a payout: without payload a token account of the recipient, with payload the recipient's proxy
account, `processor.rs:1745-1760`, `1779-1794`. -/
def checkRecipient (env : Env) (ctx : Ctx) (payload : Bytes) (kind : AccountKind) (mint recipient account : Pubkey)
    (w : World) : Except Err Unit :=
  if payload = [] then do
    let t ← tokenOf (w.acc account).data
    require (t.owner = recipient) .invalidArgument
  else do
    let (_, pn) ← orErr kind.intoProposal (.custom .invalidTokenKind)
    let pn ← orErr pn (.custom .invalidTokenKind)
    validatePda env ctx.program (proxySeeds mint recipient) pn account

/-- Status after a payout: processed, or waiting for the payload. `token-proxy/src/processor.rs:1810-1811,2050-2051,3016`. -/
def paidStatus (payload : Bytes) : WStatus := if payload = [] then .processed else .waitingForExecute

/-- Mint and settings of an Everscale token at its first withdrawal, `processor.rs:1543-1664`. -/
def deployEver (env : Env) (ctx : Ctx) (funder mint tokenSettings : Pubkey) (e : WEverEvent) (w : World) :
    Except Err World := do
  let dec : U8 := if e.decimals.toNat < 9 then e.decimals else 9#8
  let mNonce ← deriveAt env ctx (mintSeeds env e.token) mint
  let w ← createPda env ctx funder mint (mintSeeds env e.token) mNonce 82 env.splId w
  let w ← splInitMint env ctx mint mint dec w
  let w ← ataCreate env ctx funder e.recipient mint w
  let tNonce ← deriveAt env ctx (tokenSettingsEverSeeds env e.token) tokenSettings
  let w ← createPda env ctx funder tokenSettings (tokenSettingsEverSeeds env e.token) tNonce recLen ctx.program w
  let w := w.log (tokenSettingsLogC.enc
    ⟨tokenSettings, e.symbol, e.name, mint, none, some e.decimals, some dec, some e.token, FeeInfo.default⟩)
  putToken ctx (freshTokenSettings tNonce mNonce (.ever mint e.token e.decimals) e.name e.symbol) tokenSettings w

/-- Above a limit the withdrawal waits for approval, else the tokens are minted, `processor.rs:1752-1815`. `ts` already
carries the new daily amount. -/
def settleEver (env : Env) (ctx : Ctx) (r : Withdrawal WEverEvent) (ts : TokenSettings) (mint recipient : Pubkey)
    (transfer : U64) (w : World) : Except Err (World × WStatus) :=
  if ts.withdrawalLimit.toNat < transfer.toNat ∨ ts.withdrawalDailyLimit.toNat < ts.withdrawalDailyAmount.toNat then
    .ok (w, .waitingForApprove)
  else do
    checkRecipient env ctx r.event.payload r.accountKind mint r.event.recipient recipient w
    let w ← makeEverTransfer env ctx mint recipient ts transfer w
    .ok (w, paidStatus r.event.payload)

/-- The part of `process_withdraw_multi_token_ever` after the token exists, `processor.rs:1666-1834`. -/
def payEver (env : Env) (ctx : Ctx) (withdrawal mint recipient tokenSettings : Pubkey) (r : Withdrawal WEverEvent)
    (w : World) : Except Err World := do
  let t ← loadEver env ctx tokenSettings w
  require (t.ts.emergency = false) (.custom .emergencyEnabled)
  validatePda env ctx.program (mintSeeds env t.token) t.mintNonce mint
  require (t.token = r.event.token) .invalidArgument
  let m ← mintOf (w.acc mint).data
  if hasQuorum r ∧ r.md.status = .new then do
    let ts := resetEpoch t.ts (epochOf ctx.now)
    let amount ← getWithdrawalAmount r.event.amount r.event.decimals m.decimals
    let fee ← feeOf ts.feeWithdrawalInfo amount
    let supply ← orErr (checkedAdd ts.feeSupply fee) (.custom .overflow)
    let transfer ← orErr (checkedSub amount fee) (.custom .overflow)
    let daily ← orErr (checkedAdd ts.withdrawalDailyAmount transfer) (.custom .overflow)
    let ts := { ts with feeSupply := supply, withdrawalDailyAmount := daily }
    let (w, status) ← settleEver env ctx r ts mint recipient transfer w
    let w ← putToken ctx ts tokenSettings w
    let w := w.log (statusLog withdrawal status)
    putWithdrawal ctx wEverEventC (r.withStatus status) withdrawal w
  else .ok w

/-- `process_withdraw_multi_token_ever`, `processor.rs:1481-1834` -/
def processWithdrawEver (env : Env) (ctx : Ctx) (w : World) : Except Err World := do
  let withdrawal ← acct ctx 0
  let mint ← acct ctx 1
  let recipient ← acct ctx 2
  let tokenSettings ← acct ctx 3
  let settings ← acct ctx 4
  let _system ← acct ctx 5
  let _token ← acct ctx 6
  let rent ← acct ctx 7
  sysvar env.rentId rent
  let clock ← acct ctx 8
  sysvar env.clockId clock
  let _ ← loadSettingsNoEmergency env ctx settings w
  let r ← loadWithdrawal wEverEventC env ctx withdrawal w
  if (w.acc tokenSettings).lamports = 0 then
    match ctx.accounts[9]? with
    | none => .ok w
    | some funder => do
      let w ← deployEver env ctx funder mint tokenSettings r.event w
      payEver env ctx withdrawal mint recipient tokenSettings r w
  else payEver env ctx withdrawal mint recipient tokenSettings r w

/-- Pay from the vault if it holds enough, else leave the withdrawal pending, `processor.rs:1988-2058`, `2066-2128`,
`3169-3232`. Returns the new status. -/
def payFromVault (env : Env) (ctx : Ctx) (r : Withdrawal WSolEvent) (ts : TokenSettings) (proxyMint vault recipient : Pubkey)
    (transfer : U64) (w : World) : Except Err (World × WStatus) := do
  checkRecipient env ctx r.event.payload r.accountKind proxyMint r.event.recipient recipient w
  let v ← tokenOf (w.acc vault).data
  if v.amount.toNat < transfer.toNat then .ok (w, .pending)
  else do
    let w ← makeSolTransfer env ctx vault recipient ts transfer w
    .ok (w, paidStatus r.event.payload)

/-- Above a limit the withdrawal waits for approval, else it is paid, `processor.rs:1969-2053`. `ts` already carries
the new daily amount. -/
def payIfAllowed (env : Env) (ctx : Ctx) (r : Withdrawal WSolEvent) (ts : TokenSettings) (proxyMint vault recipient : Pubkey)
    (transfer : U64) (w : World) : Except Err (World × WStatus) :=
  if ts.withdrawalLimit.toNat < transfer.toNat ∨ ts.withdrawalDailyLimit.toNat < ts.withdrawalDailyAmount.toNat then
    .ok (w, .waitingForApprove)
  else payFromVault env ctx r ts proxyMint vault recipient transfer w

/-- The payment of a confirmed withdrawal by its status, `processor.rs:1952-2134`: a new one is checked against the
limits and booked in the token settings, a pending one is only tried again. -/
def settleSol (env : Env) (ctx : Ctx) (r : Withdrawal WSolEvent) (t : SolToken) (proxyMint vault recipient tokenSettings : Pubkey)
    (fee transfer : U64) (w : World) : Except Err (World × WStatus) :=
  match r.md.status with
  | .new => do
    let ts := resetEpoch t.ts (epochOf ctx.now)
    let daily ← orErr (checkedAdd ts.withdrawalDailyAmount transfer) (.custom .overflow)
    let supply ← orErr (checkedAdd ts.feeSupply fee) (.custom .overflow)
    let ts := { ts with feeSupply := supply, withdrawalDailyAmount := daily }
    let (w, status) ← payIfAllowed env ctx r ts proxyMint vault recipient transfer w
    let w ← putToken ctx ts tokenSettings w
    .ok (w, status)
  | .pending => payFromVault env ctx r t.ts proxyMint vault recipient transfer w
  | s => .ok (w, s)

/-- `process_withdraw_multi_token_sol`, `processor.rs:1836-2151` -/
def processWithdrawSol (env : Env) (ctx : Ctx) (w : World) : Except Err World := do
  let withdrawal ← acct ctx 0
  let vault ← acct ctx 1
  let recipient ← acct ctx 2
  let tokenSettings ← acct ctx 3
  let mint ← acct ctx 4
  let settings ← acct ctx 5
  let _token ← acct ctx 6
  let clock ← acct ctx 7
  sysvar env.clockId clock
  let _ ← loadSettingsNoEmergency env ctx settings w
  let r ← loadWithdrawal wSolEventC env ctx withdrawal w
  let t ← loadSol env ctx tokenSettings w
  require (t.ts.emergency = false) (.custom .emergencyEnabled)
  validatePda env ctx.program (vaultSeeds t.mint) t.vaultNonce vault
  require (t.mint = r.event.mint) .invalidArgument
  if hasQuorum r then do
    let amount : U64 := r.event.amount.setWidth 64
    let fee ← feeOf t.ts.feeWithdrawalInfo amount
    let transfer ← orErr (checkedSub amount fee) (.custom .overflow)
    let (w, status) ← settleSol env ctx r t mint vault recipient tokenSettings fee transfer w
    let w := w.log (statusLog withdrawal status)
    putWithdrawal ctx wSolEventC (r.withStatus status) withdrawal w
  else .ok w

/-! ## Payload execution

The instructions in the payload are arbitrary; their joint effect is the parameter `cpi`, which is told which derived
address the program signs for. An empty list of instructions calls nothing. -/

/-- Run the payload with the signature of the proxy account derived from `mint`, `recipient` and `nonce`,
`processor.rs:2170-2190`, `2216-2236`. -/
def runPayload (env : Env) (ctx : Ctx) (cpi : Pubkey → World → Except Err World) (mint recipient : Pubkey)
    (nonce : Option U8) (payload : Bytes) (w : World) : Except Err World := do
  let n ← orErr (env.payloadLen payload) (.custom .deserializePayload)
  if n = 0 then .ok w
  else do
    let proxy ← orErr (env.createAddr (proxySeeds mint recipient ++ [[nonce.getD 0#8]]) ctx.program) .invalidSeeds
    cpi proxy w

/-- `process_execute_payload_ever`, `processor.rs:2153-2197` -/
def processExecutePayloadEver (env : Env) (ctx : Ctx) (cpi : Pubkey → World → Except Err World) (w : World) :
    Except Err World := do
  let withdrawal ← acct ctx 0
  let r ← unpack (withdrawalC wEverEventC) recLen (·.isInitialized) (w.acc withdrawal).data
  if r.md.status = .waitingForExecute then do
    let (mint, _) ← findAddr env (mintSeeds env r.event.token) ctx.program
    let (_, nonce) ← orErr r.accountKind.intoProposal (.custom .invalidTokenKind)
    let w ← runPayload env ctx cpi mint r.event.recipient nonce r.event.payload w
    putWithdrawal ctx wEverEventC (r.withStatus .processed) withdrawal w
  else .ok w

/-- `process_execute_payload_sol`, `processor.rs:2199-2241` -/
def processExecutePayloadSol (env : Env) (ctx : Ctx) (cpi : Pubkey → World → Except Err World) (w : World) :
    Except Err World := do
  let withdrawal ← acct ctx 0
  let r ← unpack (withdrawalC wSolEventC) recLen (·.isInitialized) (w.acc withdrawal).data
  if r.md.status = .waitingForExecute then do
    let (_, nonce) ← orErr r.accountKind.intoProposal (.custom .invalidTokenKind)
    let w ← runPayload env ctx cpi r.event.mint r.event.recipient nonce r.event.payload w
    putWithdrawal ctx wSolEventC (r.withStatus .processed) withdrawal w
  else .ok w

/-! ## Administration -/

/-- Change one role; upgrade authority only. `process_change_guardian` 2243-2291, `process_change_manager` 2293-2341,
`process_change_withdrawal_manager` 2343-2391. All in `token-proxy/src/processor.rs`. -/
def processChangeRole (env : Env) (ctx : Ctx) (f : Settings → Settings) (w : World) : Except Err World := do
  let authority ← acct ctx 0
  let settings ← acct ctx 1
  let programdata ← acct ctx 2
  require (ctx.isSigner authority = true) .missingRequiredSignature
  let (s, pd) ← loadSettings env ctx settings w
  authorizeOwner env ctx authority programdata pd w
  putSettings ctx (f s) settings w

/-- Change token settings as the manager or the upgrade authority. `process_change_deposit_limit` 2393-2474,
`process_change_withdrawal_limits` 2476-2564. All in `token-proxy/src/processor.rs`. -/
def processChangeLimits (env : Env) (ctx : Ctx) (f : TokenSettings → TokenSettings) (w : World) : Except Err World := do
  let authority ← acct ctx 0
  let tokenSettings ← acct ctx 1
  let settings ← acct ctx 2
  require (ctx.isSigner authority = true) .missingRequiredSignature
  let (s, pd) ← loadSettings env ctx settings w
  authorize env ctx s.manager authority pd 3 w
  let ts ← loadToken env ctx tokenSettings w
  putToken ctx (f ts) tokenSettings w

/-- `process_enable_emergency_mode`, `processor.rs:2566-2619` -/
def processEnableEmergency (env : Env) (ctx : Ctx) (w : World) : Except Err World := do
  let authority ← acct ctx 0
  let settings ← acct ctx 1
  require (ctx.isSigner authority = true) .missingRequiredSignature
  let (s, pd) ← loadSettings env ctx settings w
  authorize env ctx s.guardian authority pd 2 w
  putSettings ctx { s with emergency := true } settings w

/-- `process_disable_emergency_mode`, `processor.rs:2621-2668` -/
def processDisableEmergency (env : Env) (ctx : Ctx) (w : World) : Except Err World := do
  let authority ← acct ctx 0
  let settings ← acct ctx 1
  let programdata ← acct ctx 2
  require (ctx.isSigner authority = true) .missingRequiredSignature
  let (s, pd) ← loadSettings env ctx settings w
  authorizeOwner env ctx authority programdata pd w
  putSettings ctx { s with emergency := false } settings w

/-- `process_enable_token_emergency_mode`, `processor.rs:2670-2752` -/
def processEnableTokenEmergency (env : Env) (ctx : Ctx) (w : World) : Except Err World := do
  let authority ← acct ctx 0
  let tokenSettings ← acct ctx 1
  let settings ← acct ctx 2
  require (ctx.isSigner authority = true) .missingRequiredSignature
  let (s, pd) ← loadSettings env ctx settings w
  authorize env ctx s.guardian authority pd 3 w
  let ts ← loadToken env ctx tokenSettings w
  putToken ctx { ts with emergency := true } tokenSettings w

/-- `process_disable_token_emergency_mode`, `processor.rs:2754-2830` -/
def processDisableTokenEmergency (env : Env) (ctx : Ctx) (w : World) : Except Err World := do
  let authority ← acct ctx 0
  let tokenSettings ← acct ctx 1
  let settings ← acct ctx 2
  let programdata ← acct ctx 3
  require (ctx.isSigner authority = true) .missingRequiredSignature
  let (_, pd) ← loadSettings env ctx settings w
  authorizeOwner env ctx authority programdata pd w
  let ts ← loadToken env ctx tokenSettings w
  putToken ctx { ts with emergency := false } tokenSettings w

/-- Set one of the two fee rates, `processor.rs:3330-3347` -/
def setFee (f : FeeType) (fi : FeeInfo) (ts : TokenSettings) : TokenSettings :=
  match f with
  | .deposit => { ts with feeDepositInfo := fi }
  | .withdrawal => { ts with feeWithdrawalInfo := fi }

/-- `process_update_fee`, `processor.rs:3270-3366` -/
def processUpdateFee (env : Env) (ctx : Ctx) (f : FeeType) (multiplier divisor : U64) (w : World) : Except Err World := do
  let authority ← acct ctx 0
  let tokenSettings ← acct ctx 1
  let settings ← acct ctx 2
  require (ctx.isSigner authority = true) .missingRequiredSignature
  let (s, pd) ← loadSettings env ctx settings w
  authorize env ctx s.manager authority pd 3 w
  let ts ← loadToken env ctx tokenSettings w
  let w := w.log (updateFeeLogC.enc ⟨tokenSettings, f, multiplier, divisor⟩)
  putToken ctx (setFee f ⟨multiplier, divisor⟩ ts) tokenSettings w

/-- `process_update_token_name`, `processor.rs:3368-3449`; Solana tokens only -/
def processUpdateTokenName (env : Env) (ctx : Ctx) (symbol name : Bytes) (w : World) : Except Err World := do
  let authority ← acct ctx 0
  let tokenSettings ← acct ctx 1
  let settings ← acct ctx 2
  require (ctx.isSigner authority = true) .missingRequiredSignature
  let (s, pd) ← loadSettings env ctx settings w
  authorize env ctx s.manager authority pd 3 w
  let t ← loadSol env ctx tokenSettings w
  let w := w.log (updateNameLogC.enc ⟨tokenSettings, symbol, name⟩)
  putToken ctx { t.ts with symbol := symbol, name := name } tokenSettings w

/-! ## Approval of withdrawals above the limits -/

/-- Take back the amount from the daily counter if the request was made today, `processor.rs:3020-3033`,
`3242-3255`. -/
def releaseDaily (ctx : Ctx) (md : WMeta) (ts : TokenSettings) (transfer : U64) (tokenSettings : Pubkey) (w : World) :
    Except Err World :=
  if md.epoch = epochOf ctx.now then do
    let daily ← orErr (checkedSub ts.withdrawalDailyAmount transfer) (.custom .overflow)
    putToken ctx { ts with withdrawalDailyAmount := daily } tokenSettings w
  else .ok w

/-- `process_approve_withdraw_ever`, `processor.rs:2832-3048` -/
def processApproveEver (env : Env) (ctx : Ctx) (w : World) : Except Err World := do
  let authority ← acct ctx 0
  let mint ← acct ctx 1
  let withdrawal ← acct ctx 2
  let recipient ← acct ctx 3
  let tokenSettings ← acct ctx 4
  let settings ← acct ctx 5
  let _token ← acct ctx 6
  let clock ← acct ctx 7
  sysvar env.clockId clock
  require (ctx.isSigner authority = true) .missingRequiredSignature
  let (s, pd) ← loadSettingsNoEmergency env ctx settings w
  let r ← loadWithdrawal wEverEventC env ctx withdrawal w
  require (r.md.status = .waitingForApprove) (.custom .invalidWithdrawalStatus)
  let t ← loadEver env ctx tokenSettings w
  require (t.ts.emergency = false) (.custom .emergencyEnabled)
  validatePda env ctx.program (mintSeeds env t.token) t.mintNonce mint
  require (t.token = r.event.token) .invalidArgument
  authorize env ctx s.withdrawalManager authority pd 8 w
  let m ← mintOf (w.acc mint).data
  let amount ← getWithdrawalAmount r.event.amount r.event.decimals m.decimals
  let fee ← feeOf t.ts.feeWithdrawalInfo amount
  let transfer ← orErr (checkedSub amount fee) (.custom .overflow)
  checkRecipient env ctx r.event.payload r.accountKind mint r.event.recipient recipient w
  let w ← makeEverTransfer env ctx mint recipient t.ts transfer w
  let w ← releaseDaily ctx r.md t.ts transfer tokenSettings w
  let w := w.log (statusLog withdrawal (paidStatus r.event.payload))
  putWithdrawal ctx wEverEventC (r.withStatus (paidStatus r.event.payload)) withdrawal w

/-- `process_approve_withdraw_sol`, `processor.rs:3050-3268` -/
def processApproveSol (env : Env) (ctx : Ctx) (w : World) : Except Err World := do
  let authority ← acct ctx 0
  let vault ← acct ctx 1
  let withdrawal ← acct ctx 2
  let recipient ← acct ctx 3
  let tokenSettings ← acct ctx 4
  let settings ← acct ctx 5
  let _token ← acct ctx 6
  let clock ← acct ctx 7
  sysvar env.clockId clock
  require (ctx.isSigner authority = true) .missingRequiredSignature
  let (s, pd) ← loadSettingsNoEmergency env ctx settings w
  let r ← loadWithdrawal wSolEventC env ctx withdrawal w
  require (r.md.status = .waitingForApprove) (.custom .invalidWithdrawalStatus)
  authorize env ctx s.withdrawalManager authority pd 8 w
  let t ← loadSol env ctx tokenSettings w
  require (t.ts.emergency = false) (.custom .emergencyEnabled)
  validatePda env ctx.program (vaultSeeds t.mint) t.vaultNonce vault
  require (t.mint = r.event.mint) .invalidArgument
  let amount : U64 := r.event.amount.setWidth 64
  let fee ← feeOf t.ts.feeWithdrawalInfo amount
  let transfer ← orErr (checkedSub amount fee) (.custom .overflow)
  let (w, status) ← payFromVault env ctx r t.ts t.mint vault recipient transfer w
  let w ← releaseDaily ctx r.md t.ts transfer tokenSettings w
  putWithdrawal ctx wSolEventC (r.withStatus status) withdrawal w

/-! ## Fees -/

/-- `process_withdraw_ever_fee`, `processor.rs:3451-3564` -/
def processWithdrawEverFee (env : Env) (ctx : Ctx) (amount : U64) (w : World) : Except Err World := do
  let authority ← acct ctx 0
  let mint ← acct ctx 1
  let recipient ← acct ctx 2
  let tokenSettings ← acct ctx 3
  let settings ← acct ctx 4
  let _token ← acct ctx 5
  require (ctx.isSigner authority = true) .missingRequiredSignature
  let (s, pd) ← loadSettings env ctx settings w
  authorize env ctx s.manager authority pd 6 w
  let t ← loadEver env ctx tokenSettings w
  validatePda env ctx.program (mintSeeds env t.token) t.mintNonce mint
  require ((w.acc mint).owner = env.splId) .invalidArgument
  require ((w.acc recipient).owner = env.splId) .invalidArgument
  require (amount.toNat ≤ t.ts.feeSupply.toNat) (.custom .insufficientBalance)
  let w ← makeEverTransfer env ctx mint recipient t.ts amount w
  let supply ← orErr (checkedSub t.ts.feeSupply amount) (.custom .overflow)
  putToken ctx { t.ts with feeSupply := supply } tokenSettings w

/-- `process_withdraw_sol_fee`, `processor.rs:3566-3684` -/
def processWithdrawSolFee (env : Env) (ctx : Ctx) (amount : U64) (w : World) : Except Err World := do
  let authority ← acct ctx 0
  let vault ← acct ctx 1
  let tokenSettings ← acct ctx 2
  let recipient ← acct ctx 3
  let settings ← acct ctx 4
  let _token ← acct ctx 5
  require (ctx.isSigner authority = true) .missingRequiredSignature
  let (s, pd) ← loadSettings env ctx settings w
  authorize env ctx s.manager authority pd 6 w
  let t ← loadSol env ctx tokenSettings w
  validatePda env ctx.program (vaultSeeds t.mint) t.vaultNonce vault
  require ((w.acc vault).owner = env.splId) .invalidArgument
  require ((w.acc recipient).owner = env.splId) .invalidArgument
  require (amount.toNat ≤ t.ts.feeSupply.toNat) (.custom .insufficientBalance)
  let v ← tokenOf (w.acc vault).data
  require (amount.toNat ≤ v.amount.toNat) (.custom .insufficientVaultBalance)
  let w ← makeSolTransfer env ctx vault recipient t.ts amount w
  let supply ← orErr (checkedSub t.ts.feeSupply amount) (.custom .overflow)
  putToken ctx { t.ts with feeSupply := supply } tokenSettings w

/-! ## Pending Solana withdrawals -/

/-- `process_change_bounty_for_withdraw_sol`, `processor.rs:3686-3742` -/
def processChangeBounty (env : Env) (ctx : Ctx) (bounty : U64) (w : World) : Except Err World := do
  let author ← acct ctx 0
  let withdrawal ← acct ctx 1
  require (ctx.isSigner author = true) .missingRequiredSignature
  let r ← loadWithdrawal wSolEventC env ctx withdrawal w
  require (r.md.status = .pending) (.custom .invalidWithdrawalStatus)
  require (r.author = author ∨ r.event.recipient = author) .illegalOwner
  putWithdrawal ctx wSolEventC { r with md := { r.md with bounty := bounty } } withdrawal w

/-- The fee computed on `u128`, `processor.rs:3913-3919`. -/
def feeOf128 (f : FeeInfo) (amount : U128) : Except Err U128 := do
  let q ← orErr (checkedDiv amount (f.divisor.setWidth 128)) (.custom .overflow)
  let p ← orErr (checkedMul q (f.multiplier.setWidth 128)) (.custom .overflow)
  .ok (if p = 0#128 then 1#128 else p)

/-- `process_cancel_withdraw_sol`, `processor.rs:3744-3978`. The increased `fee_supply` is computed (and may overflow) but
never stored. -/
def processCancel (env : Env) (ctx : Ctx) (seed : U128) (recipient : EverAddress) (value : U64) (evers : Pubkey)
    (payload : Bytes) (w : World) : Except Err World := do
  let funder ← acct ctx 0
  let author ← acct ctx 1
  let mint ← acct ctx 2
  let withdrawal ← acct ctx 3
  let deposit ← acct ctx 4
  let settings ← acct ctx 5
  let tokenSettings ← acct ctx 6
  let _system ← acct ctx 7
  let rent ← acct ctx 8
  let multiVault ← acct ctx 9
  sysvar env.rentId rent
  require (ctx.isSigner author = true) .missingRequiredSignature
  let _ ← loadSettingsNoEmergency env ctx settings w
  let r ← loadWithdrawal wSolEventC env ctx withdrawal w
  require (r.author = author) .illegalOwner
  require (r.md.status = .pending) (.custom .invalidWithdrawalStatus)
  let t ← loadSol env ctx tokenSettings w
  require (t.ts.emergency = false) (.custom .emergencyEnabled)
  loadMultiVault env ctx multiVault w
  let w ← sysTransfer env ctx ctx.signs funder multiVault value.toNat w
  require (mint = t.mint ∨ (w.acc mint).owner = env.splId) .invalidArgument
  let m ← mintOf (w.acc mint).data
  require (t.mint = r.event.mint) .invalidArgument
  let dNonce ← deriveAt env ctx (depositSeeds seed) deposit
  let w ← createPda env ctx funder deposit (depositSeeds seed) dNonce recLen ctx.program w
  let fee ← feeOf128 t.ts.feeDepositInfo r.event.amount
  require (fee.toNat < 2 ^ 64) (.custom .overflow)
  let _ ← orErr (checkedAdd t.ts.feeSupply (fee.setWidth 64)) (.custom .overflow)
  let transfer ← orErr (checkedSub r.event.amount fee) (.custom .overflow)
  let event : DepositSolEvent :=
    ⟨t.mint, t.ts.name, t.ts.symbol, m.decimals, transfer, recipient, value, evers, payload⟩
  let w := w.log (depositLog env depositSolEventC withdrawal recipient transfer seed value evers event)
  let w ← putDeposit ctx depositSolEventC (depositRecord dNonce author event.lenField event seed) deposit w
  let w := w.log (statusLog withdrawal .cancelled)
  putWithdrawal ctx wSolEventC (r.withStatus .cancelled) withdrawal w

/-- One round of the loop of `process_fill_withdraw_sol`, `processor.rs:4098-4203`. Returns the fee and the amount
without fee. -/
def fillOne (env : Env) (ctx : Ctx) (author authorToken deposit : Pubkey) (t : SolToken) (withdrawal recipientToken : Pubkey)
    (w : World) : Except Err (U64 × U64 × World) := do
  let r ← loadWithdrawal wSolEventC env ctx withdrawal w
  require (r.md.status = .pending) (.custom .invalidWithdrawalStatus)
  require (t.mint = r.event.mint) .invalidArgument
  let rt ← tokenOf (w.acc recipientToken).data
  require (rt.owner = r.event.recipient) .invalidArgument
  require ((w.acc recipientToken).owner = env.splId) .invalidArgument
  require (r.event.amount.toNat < 2 ^ 64) (.custom .overflow)
  let amount : U64 := r.event.amount.setWidth 64
  let fee ← feeOf t.ts.feeWithdrawalInfo amount
  let pure_ ← orErr (checkedSub amount fee) (.custom .overflow)
  let transfer ← orErr (checkedSub pure_ r.md.bounty) (.custom .overflow)
  let w ← splTransfer env ctx ctx.signs authorToken recipientToken author transfer w
  let w := w.log (statusLog withdrawal .processed)
  let w ← putWithdrawal ctx wSolEventC (r.withStatus .processed) withdrawal w
  let w := w.log (liquidityLogC.enc ⟨deposit, withdrawal⟩)
  .ok (fee, pure_, w)

/-- The loop of `process_fill_withdraw_sol`, `processor.rs:4098-4203`: consumes accounts two at a time. The sums wrap
(release build). Returns the remaining accounts, the two sums and the state. -/
def fillLoop (env : Env) (ctx : Ctx) (author authorToken deposit : Pubkey) (t : SolToken) :
    List Pubkey → U64 → U64 → World → Except Err (List Pubkey × U64 × U64 × World)
  | withdrawal :: recipientToken :: rest, feeSum, sum, w => do
    let (fee, pure_, w) ← fillOne env ctx author authorToken deposit t withdrawal recipientToken w
    fillLoop env ctx author authorToken deposit t rest (feeSum + fee) (sum + pure_) w
  | rest, feeSum, sum, w => .ok (rest, feeSum, sum, w)

/-- `process_fill_withdraw_sol`, `processor.rs:3980-4310` -/
def processFill (env : Env) (ctx : Ctx) (seed : U128) (recipient : EverAddress) (amount value : U64) (evers : Pubkey)
    (payload : Bytes) (w : World) : Except Err World := do
  let funder ← acct ctx 0
  let author ← acct ctx 1
  let authorToken ← acct ctx 2
  let mint ← acct ctx 3
  let deposit ← acct ctx 4
  let settings ← acct ctx 5
  let _system ← acct ctx 6
  let tokenSettings ← acct ctx 7
  let _token ← acct ctx 8
  let rent ← acct ctx 9
  let multiVault ← acct ctx 10
  sysvar env.rentId rent
  require (ctx.isSigner author = true) .missingRequiredSignature
  let _ ← loadSettingsNoEmergency env ctx settings w
  let t ← loadSol env ctx tokenSettings w
  require (t.ts.emergency = false) (.custom .emergencyEnabled)
  loadMultiVault env ctx multiVault w
  let w ← sysTransfer env ctx ctx.signs funder multiVault value.toNat w
  require (mint = t.mint ∨ (w.acc mint).owner = env.splId) .invalidArgument
  let m ← mintOf (w.acc mint).data
  let dNonce ← deriveAt env ctx (depositSeeds seed) deposit
  let (rest, feeSum, sum, w) ← fillLoop env ctx author authorToken deposit t (ctx.accounts.drop 11) 0#64 0#64 w
  let w ← createPda env ctx funder deposit (depositSeeds seed) dNonce recLen ctx.program w
  require ((feeSum + sum).toNat ≤ amount.toNat) .insufficientFunds
  let vault ← orErr rest[0]? .notEnoughAccountKeys
  validatePda env ctx.program (vaultSeeds t.mint) t.vaultNonce vault
  let v ← tokenOf (w.acc vault).data
  let total ← orErr (checkedAdd v.amount amount) (.custom .overflow)
  require (total.toNat ≤ t.ts.depositLimit.toNat) (.custom .depositLimit)
  let w ← splTransfer env ctx ctx.signs authorToken vault author (amount - sum) w
  let fee ← feeOf t.ts.feeWithdrawalInfo amount
  let pure_ ← orErr (checkedSub amount fee) (.custom .overflow)
  let transfer : U128 := pure_.setWidth 128
  let event : DepositSolEvent :=
    ⟨t.mint, t.ts.name, t.ts.symbol, m.decimals, transfer, recipient, value, evers, payload⟩
  let w := w.log (depositLog env depositSolEventC deposit recipient transfer seed value evers event)
  putDeposit ctx depositSolEventC (depositRecord dNonce author event.lenField event seed) deposit w

/-! ## Proxy accounts, closing, multi vault -/

/-- `process_withdraw_proxy`, `processor.rs:4312-4362` -/
def processWithdrawProxy (env : Env) (ctx : Ctx) (amount : U64) (w : World) : Except Err World := do
  let creator ← acct ctx 0
  let recipient ← acct ctx 1
  let proxy ← acct ctx 2
  let mint ← acct ctx 3
  require (ctx.isSigner creator = true) .missingRequiredSignature
  let nonce ← deriveAt env ctx (proxySeeds mint creator) proxy
  let sg ← pdaSigns env ctx (proxySeeds mint creator ++ [[nonce]])
  splTransfer env ctx sg proxy recipient proxy amount w

/-- `process_close_deposit`, `processor.rs:4364-4397` -/
def processCloseDeposit (env : Env) (ctx : Ctx) (w : World) : Except Err World := do
  let author ← acct ctx 0
  let deposit ← acct ctx 1
  require (ctx.isSigner author = true) .missingRequiredSignature
  let d ← decRaw genericDepositC (w.acc deposit).data
  let seed ← orErr (u128.decAll d.metaData) .borshIo
  let nonce ← orErr d.accountKind.intoDeposit (.custom .invalidTokenKind)
  validateDeposit env ctx.program seed nonce deposit
  require (author = d.author) .invalidArgument
  deleteAccount env ctx deposit author w

/-- `process_close_withdrawal`, `processor.rs:4399-4444`; nobody has to sign. -/
def processCloseWithdrawal (env : Env) (ctx : Ctx) (w : World) : Except Err World := do
  let withdrawal ← acct ctx 0
  let author ← acct ctx 1
  let p ← loadGeneric env ctx withdrawal w
  require (author = p.author) .invalidArgument
  let md ← orErr (wmetaC.decAll p.metaData) .borshIo
  require (md.status = .processed ∨ md.status = .cancelled) (.custom .invalidWithdrawalStatus)
  deleteAccount env ctx withdrawal author w

/-- `process_withdraw_multi_vault`, `processor.rs:4446-4513` -/
def processWithdrawMultiVault (env : Env) (ctx : Ctx) (amount : U64) (w : World) : Except Err World := do
  let authority ← acct ctx 0
  let recipient ← acct ctx 1
  let multiVault ← acct ctx 2
  let settings ← acct ctx 3
  require (ctx.isSigner authority = true) .missingRequiredSignature
  let (s, pd) ← loadSettings env ctx settings w
  authorize env ctx s.manager authority pd 4 w
  loadMultiVault env ctx multiVault w
  moveLamports ctx multiVault recipient amount.toNat w

/-! ## Dispatch -/

/-- Dispatch on the decoded instruction, `processor.rs:22-301`. `cpi` is the effect of payload instructions. -/
def run (env : Env) (ctx : Ctx) (cpi : Pubkey → World → Except Err World) (i : Instr) (w : World) : Except Err World :=
  match i with
  | .voteForWithdrawRequest v => processVote env ctx v w
  | .withdrawMultiTokenEver => processWithdrawEver env ctx w
  | .withdrawMultiTokenSol => processWithdrawSol env ctx w
  | .executePayloadEver => processExecutePayloadEver env ctx cpi w
  | .executePayloadSol => processExecutePayloadSol env ctx cpi w
  | .init g m wm => processInitialize env ctx g m wm w
  | .depositMultiTokenEver s a r v e p => processDepositEver env ctx s a r v e p w
  | .depositMultiTokenSol s n y a r v e p => processDepositSol env ctx s n y a r v e p w
  | .withdrawMultiTokenEverRequest pda t n y d r a p att => processEverRequest env ctx pda t n y d r a p att w
  | .withdrawMultiTokenSolRequest pda r a p att => processSolRequest env ctx pda r a p att w
  | .changeGuardian k => processChangeRole env ctx (fun s => { s with guardian := k }) w
  | .changeManager k => processChangeRole env ctx (fun s => { s with manager := k }) w
  | .changeWithdrawalManager k => processChangeRole env ctx (fun s => { s with withdrawalManager := k }) w
  | .changeDepositLimit n => processChangeLimits env ctx (fun t => { t with depositLimit := n }) w
  | .changeWithdrawalLimits a b =>
    processChangeLimits env ctx (fun t =>
      { t with withdrawalLimit := a.getD t.withdrawalLimit, withdrawalDailyLimit := b.getD t.withdrawalDailyLimit }) w
  | .enableEmergencyMode => processEnableEmergency env ctx w
  | .disableEmergencyMode => processDisableEmergency env ctx w
  | .enableTokenEmergencyMode => processEnableTokenEmergency env ctx w
  | .disableTokenEmergencyMode => processDisableTokenEmergency env ctx w
  | .approveWithdrawEver => processApproveEver env ctx w
  | .approveWithdrawSol => processApproveSol env ctx w
  | .updateFee f m d => processUpdateFee env ctx f m d w
  | .updateTokenName y n => processUpdateTokenName env ctx y n w
  | .withdrawEverFee a => processWithdrawEverFee env ctx a w
  | .withdrawSolFee a => processWithdrawSolFee env ctx a w
  | .changeBountyForWithdrawSol b => processChangeBounty env ctx b w
  | .cancelWithdrawSol s r v e p => processCancel env ctx s r v e p w
  | .fillWithdrawSol s r a v e p => processFill env ctx s r a v e p w
  | .withdrawProxy a => processWithdrawProxy env ctx a w
  | .closeDeposit => processCloseDeposit env ctx w
  | .closeWithdrawal => processCloseWithdrawal env ctx w
  | .withdrawMultiVault a => processWithdrawMultiVault env ctx a w

/-- `Processor::process`, `processor.rs:16-21`: decode all instruction bytes, then dispatch. -/
def process (env : Env) (ctx : Ctx) (cpi : Pubkey → World → Except Err World) (instructionData : Bytes) (w : World) :
    Except Err World := do
  let i ← orErr (Instr.codec.decAll instructionData) .borshIo
  run env ctx cpi i w

end Verif.TP
