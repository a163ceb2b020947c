import Verif.TokenProxy.State
import Verif.RoundLoader.Processor
import Verif.Bridge.Text
/-!
# `token-proxy/src/utils.rs` and the helper functions of `token-proxy/src/processor.rs`
-/
namespace Verif.TP
open Codec Verif

/-! ## Seeds -/

/-- Hash of an Everscale token address, used as a seed (`utils.rs:20-21`) -/
def tokenHash (env : Env) (token : EverAddress) : Pubkey := env.hash (everAddressC.enc token)

/-- `utils.rs:12-14` -/
def multiVaultSeeds : List Bytes := [ascii "multivault"]
/-- `utils.rs:16-22` -/
def tokenSettingsEverSeeds (env : Env) (token : EverAddress) : List Bytes :=
  [ascii "settings", seedKey (tokenHash env token)]
/-- `utils.rs:24-26` -/
def tokenSettingsSolSeeds (mint : Pubkey) : List Bytes := [ascii "settings", seedKey mint]
/-- `utils.rs:28-31` -/
def mintSeeds (env : Env) (token : EverAddress) : List Bytes := [ascii "mint", seedKey (tokenHash env token)]
/-- `utils.rs:33-35` -/
def vaultSeeds (mint : Pubkey) : List Bytes := [ascii "vault", seedKey mint]
/-- `utils.rs:41-51` -/
def proxySeeds (mint recipient : Pubkey) : List Bytes := [ascii "proxy", seedKey mint, seedKey recipient]

/-! ## Loading and validating accounts

The source repeats these fragments in every instruction; one representative range is cited. -/

/-- Load the token proxy settings, `processor.rs:439-450`. Returns the record and the program data nonce. -/
def loadSettings (env : Env) (ctx : Ctx) (k : Pubkey) (w : World) : Except Err (Settings × U8) := do
  let s ← unpack settingsC recLen (·.isInitialized) (w.acc k).data
  let (n, pd) ← orErr s.accountKind.intoSettings (.custom .invalidTokenKind)
  validateSettings env ctx.program n k
  .ok (s, pd)

/-- Like `loadSettings`, and fail in emergency mode, `processor.rs:452-454`. -/
def loadSettingsNoEmergency (env : Env) (ctx : Ctx) (k : Pubkey) (w : World) : Except Err (Settings × U8) := do
  let r ← loadSettings env ctx k w
  require (r.1.emergency = false) (.custom .emergencyEnabled)
  .ok r

/-- Token settings of an Everscale token, with the fields taken apart. `token-proxy/src/state.rs:91-108,461-472`. -/
structure EverToken where
  ts : TokenSettings
  token : EverAddress
  decimals : U8
  mintNonce : U8

/-- Token settings of a Solana token, with the fields taken apart. `token-proxy/src/state.rs:91-108,461-472`. -/
structure SolToken where
  ts : TokenSettings
  mint : Pubkey
  vault : Pubkey
  vaultNonce : U8

/-- Load token settings of an Everscale token, `processor.rs:457-474`, `utils.rs:58-78`. -/
def loadEver (env : Env) (ctx : Ctx) (k : Pubkey) (w : World) : Except Err EverToken := do
  let ts ← unpack tokenSettingsC recLen (·.isInitialized) (w.acc k).data
  let (_, token, dec) ← orErr ts.kind.intoEver (.custom .invalidTokenKind)
  let (n, mn) ← orErr ts.accountKind.intoTokenSettings (.custom .invalidTokenKind)
  validatePda env ctx.program (tokenSettingsEverSeeds env token) n k
  .ok ⟨ts, token, dec, mn⟩

/-- Load token settings of a Solana token, `processor.rs:773-790`, `utils.rs:80-98`. -/
def loadSol (env : Env) (ctx : Ctx) (k : Pubkey) (w : World) : Except Err SolToken := do
  let ts ← unpack tokenSettingsC recLen (·.isInitialized) (w.acc k).data
  let (mint, vault) ← orErr ts.kind.intoSolana (.custom .invalidTokenKind)
  let (n, vn) ← orErr ts.accountKind.intoTokenSettings (.custom .invalidTokenKind)
  validatePda env ctx.program (tokenSettingsSolSeeds mint) n k
  .ok ⟨ts, mint, vault, vn⟩

/-- Seeds of the token settings account of either kind. `token-proxy/src/utils.rs:16-30,58-100`. -/
def tokenSettingsSeeds (env : Env) : TokenKind → List Bytes
  | .ever _ token _ => tokenSettingsEverSeeds env token
  | .solana mint _ => tokenSettingsSolSeeds mint

/-- Load token settings of either kind, `processor.rs:2439-2464`. -/
def loadToken (env : Env) (ctx : Ctx) (k : Pubkey) (w : World) : Except Err TokenSettings := do
  let ts ← unpack tokenSettingsC recLen (·.isInitialized) (w.acc k).data
  let (n, _) ← orErr ts.accountKind.intoTokenSettings (.custom .invalidTokenKind)
  validatePda env ctx.program (tokenSettingsSeeds env ts.kind) n k
  .ok ts

/-- Validate the multi vault account, `processor.rs:487-493`, `utils.rs:142-158`. -/
def loadMultiVault (env : Env) (ctx : Ctx) (k : Pubkey) (w : World) : Except Err Unit := do
  let v ← unpack multiVaultC recLen (·.isInitialized) (w.acc k).data
  let n ← orErr v.accountKind.intoMultiVault (.custom .invalidTokenKind)
  validatePda env ctx.program multiVaultSeeds n k

/-- Load and validate a withdrawal record, `processor.rs:1520-1541`, `1871-1892`. -/
def loadWithdrawal {E : Type} (ec : Codec E) (env : Env) (ctx : Ctx) (k : Pubkey) (w : World) :
    Except Err (Withdrawal E) := do
  let r ← unpack (withdrawalC ec) recLen (·.isInitialized) (w.acc k).data
  let (n, _) ← orErr r.accountKind.intoProposal (.custom .invalidTokenKind)
  validateProposal env ctx.program r.roundNumber r.pda (env.hash (ec.enc r.event)) n k
  .ok r

/-- The signer must hold `role`; otherwise account number `i` must be the program data account and the signer its
upgrade authority, `processor.rs:2423-2436`. -/
def authorize (env : Env) (ctx : Ctx) (role authority : Pubkey) (pdNonce : U8) (i : Nat) (w : World) :
    Except Err Unit :=
  if authority = role then .ok ()
  else do
    let pd ← acct ctx i
    validateProgramdata env ctx.program pdNonce pd
    validateInitializer authority (w.acc pd).data

/-- The signer must be the upgrade authority of the program data account `pd`, `processor.rs:2272-2281`. -/
def authorizeOwner (env : Env) (ctx : Ctx) (authority pd : Pubkey) (pdNonce : U8) (w : World) : Except Err Unit := do
  validateProgramdata env ctx.program pdNonce pd
  validateInitializer authority (w.acc pd).data

/-- Derive the address from `seeds`, require it to be `k`, return the nonce, `processor.rs:338-344`. -/
def deriveAt (env : Env) (ctx : Ctx) (seeds : List Bytes) (k : Pubkey) : Except Err U8 := do
  let (a, n) ← findAddr env seeds ctx.program
  require (a = k) .invalidArgument
  .ok n

/-! ## Arithmetic -/

/-- The fee: `1.max(amount / divisor * multiplier)`, `processor.rs:533-539`. -/
def feeOf (f : FeeInfo) (amount : U64) : Except Err U64 := do
  let q ← orErr (checkedDiv amount f.divisor) (.custom .overflow)
  let p ← orErr (checkedMul q f.multiplier) (.custom .overflow)
  .ok (if p = 0#64 then 1#64 else p)

/-- `10u128.pow(n)`, wrapping in release builds. `token-proxy/src/processor.rs:4594` and `4599`. -/
def pow10 (n : Nat) : U128 := BitVec.ofNat 128 (10 ^ n)

/-- `get_withdrawal_amount`, `processor.rs:4588-4606`; the final `as u64` truncates. -/
def getWithdrawalAmount (amount : U128) (everDecimals solDecimals : U8) : Except Err U64 :=
  if solDecimals.toNat < everDecimals.toNat then do
    let a ← orErr (checkedDiv amount (pow10 (everDecimals.toNat - solDecimals.toNat))) (.custom .overflow)
    .ok (a.setWidth 64)
  else do
    let a ← orErr (checkedMul amount (pow10 (solDecimals.toNat - everDecimals.toNat))) (.custom .overflow)
    .ok (a.setWidth 64)

/-- `get_deposit_amount`, `processor.rs:4608-4626` -/
def getDepositAmount (amount : U64) (everDecimals solDecimals : U8) : Except Err U128 :=
  if solDecimals.toNat < everDecimals.toNat then
    orErr (checkedMul (amount.setWidth 128) (pow10 (everDecimals.toNat - solDecimals.toNat))) (.custom .overflow)
  else
    orErr (checkedDiv (amount.setWidth 128) (pow10 (solDecimals.toNat - everDecimals.toNat))) (.custom .overflow)

/-- `clock.unix_timestamp / SECONDS_PER_DAY as i64` (truncating division), e.g. `processor.rs:1035` -/
def epochOf (now : I64) : I64 := now.sdiv 86400#64

/-! ## Token movements -/

/-- `make_ever_transfer`, `processor.rs:4516-4550`: mint to the recipient, signed by the mint address. -/
def makeEverTransfer (env : Env) (ctx : Ctx) (mint recipient : Pubkey) (ts : TokenSettings) (amount : U64)
    (w : World) : Except Err World := do
  let (_, token, _) ← orErr ts.kind.intoEver (.custom .invalidTokenKind)
  let (_, mn) ← orErr ts.accountKind.intoTokenSettings (.custom .invalidTokenKind)
  let sg ← pdaSigns env ctx (mintSeeds env token ++ [[mn]])
  splMintTo env ctx sg mint recipient mint amount w

/-- `make_sol_transfer`, `processor.rs:4552-4586`: transfer from the vault, signed by the vault address. -/
def makeSolTransfer (env : Env) (ctx : Ctx) (vault recipient : Pubkey) (ts : TokenSettings) (amount : U64)
    (w : World) : Except Err World := do
  let (mint, _) ← orErr ts.kind.intoSolana (.custom .invalidTokenKind)
  let (_, vn) ← orErr ts.accountKind.intoTokenSettings (.custom .invalidTokenKind)
  let sg ← pdaSigns env ctx (vaultSeeds mint ++ [[vn]])
  splTransfer env ctx sg vault recipient vault amount w

/-- `delete_account`, `processor.rs:4628-4642`: all lamports to `author`, then the account is zeroed and handed to the
system program. With `author` the account itself the books would not balance, which the runtime rejects. -/
def deleteAccount (env : Env) (ctx : Ctx) (k author : Pubkey) (w : World) : Except Err World := do
  require (author ≠ k) .unbalanced
  let n := (w.acc k).lamports
  let w ← moveLamports ctx k author n w
  zeroAccount env ctx k w

/-- `create_proxy_account`, `processor.rs:4644-4724` (`initialize_immutable_owner` has no effect on plain SPL
accounts). Returns the nonce. -/
def createProxyAccount (env : Env) (ctx : Ctx) (recipient funder proxy mint system spl : Pubkey) (w : World) :
    Except Err (U8 × World) := do
  let (a, nonce) ← findAddr env (proxySeeds mint recipient) ctx.program
  require (a = proxy) .invalidSeeds
  require ((w.acc proxy).owner = env.systemId) .illegalOwner
  if (w.acc proxy).data.len = 0 then do
    require (system = env.systemId ∧ spl = env.splId) .missingAccount
    let sg ← pdaSigns env ctx (proxySeeds mint recipient ++ [[nonce]])
    let w ← createPdaFunded env ctx sg funder proxy 165 spl w
    let w ← splInitAccount env ctx proxy mint proxy w
    .ok (nonce, w)
  else .ok (nonce, w)

/-! ## Records -/

/-- A fresh token settings record, `processor.rs:733-751`, `1626-1645`. -/
def freshTokenSettings (nonce nonce2 : U8) (kind : TokenKind) (name symbol : Bytes) : TokenSettings :=
  { isInitialized := true, accountKind := .tokenSettings nonce nonce2, kind := kind, name := name, symbol := symbol,
    depositLimit := BitVec.allOnes 64, withdrawalLimit := BitVec.allOnes 64,
    withdrawalDailyLimit := BitVec.allOnes 64, withdrawalDailyAmount := 0#64, withdrawalEpoch := 0#64,
    emergency := false, feeSupply := 0#64, feeDepositInfo := FeeInfo.default, feeWithdrawalInfo := FeeInfo.default }

/-- A deposit record, `processor.rs:553-566`, `903-919`; `DepositTokenMetaWithLen::new`. -/
def depositRecord {E : Type} (nonce : U8) (author : Pubkey) (len : U32) (e : E) (seed : U128) : Deposit E :=
  { isInitialized := true, accountKind := .deposit nonce, author := author, eventLen := len, event := e,
    metaLen := 16#32, seed := seed }

/-- The log record of a deposit, `processor.rs:568-581`. -/
def depositLog (env : Env) {E : Type} (ec : Codec E) (account : Pubkey) (recipient : EverAddress) (amount seed : U128)
    (value : U64) (evers : Pubkey) (e : E) : Bytes :=
  depositLogC.enc ⟨account, recipient, amount, seed, value, evers, key.enc (env.hash (ec.enc e))⟩

/-- A fresh withdrawal record, `processor.rs:1119-1133`, `1345-1359`; `WithdrawalTokenMetaWithLen::new(0, epoch)`. -/
def withdrawalRecord {E : Type} (nonce : U8) (proxyNonce : Option U8) (author : Pubkey) (round votes : U32) (pda : PDA)
    (len : U32) (e : E) (epoch : I64) (relays : Nat) : Withdrawal E :=
  { isInitialized := true, accountKind := .proposal nonce proxyNonce, author := author, roundNumber := round,
    requiredVotes := votes, pda := pda, eventLen := len, event := e, metaLen := 17#32,
    md := ⟨.new, 0#64, epoch⟩, signers := List.replicate relays Vote.none }

/-- `Withdrawal` with another status. `token-proxy/src/state.rs:418-423`. -/
def Withdrawal.withStatus {E : Type} (r : Withdrawal E) (s : WStatus) : Withdrawal E :=
  { r with md := { r.md with status := s } }

/-- Log record of a status change, e.g. `processor.rs:1821-1825`. -/
def statusLog (k : Pubkey) (s : WStatus) : Bytes := statusLogC.enc ⟨k, s⟩

end Verif.TP
