import Verif.Client.Bridge
import Verif.Bridge.Text
import Verif.NativeProxy.Processor
/-!
# The JavaScript packages: `wasm/src/lib.rs` and `round-loader/src/wasm.rs`

The functions take text and produce instructions. Strings are their UTF-8 bytes. The parsers of other crates are parameters (`Text`).
Not modelled: the conversion of the result to a JavaScript object (`serde_wasm_bindgen::to_value`) and the text of error messages; a
rejected argument is the error `invalidArgument`.
-/
namespace Verif.Js
open Verif Codec

/-- Parsers of the libraries the packages use. Used in `wasm/src/lib.rs:1-1814`. -/
structure Text where
  /-- `Pubkey::from_str` (base 58) -/
  pubkey : Bytes → Option Pubkey
  /-- `general_purpose::STANDARD.decode` (base 64) -/
  base64 : Bytes → Option Bytes
  /-- `uuid::Uuid::from_str(..).as_u128()` -/
  uuid : Bytes → Option U128

variable (env : Env) (tx : Text)

/-- `.handle_error()?` on a parser's result. Used in `wasm/src/lib.rs:1-1814`. -/
def arg {α : Type} (o : Option α) : Except Err α := orErr o .invalidArgument

/-- `u128::from_str`: an optional plus sign, at least one digit, in range. Used in `wasm/src/lib.rs:1-1814`. -/
def parseU128 (s : Bytes) : Option U128 :=
  let digits := match s with
    | 43#8 :: r => r
    | r => r
  if digits = [] then none else
  match parseDigits 0 digits with
  | some n => if n < 2 ^ 128 then some (BitVec.ofNat 128 n) else none
  | none => none

/-- `UInt256::from_be_bytes(n.to_be_bytes().as_slice())`. `wasm/src/lib.rs:393` and `bridge-utils/src/types.rs:134-140`. -/
def evers (n : U64) : Except Err Pubkey := orErr (key.decAll (uint256FromBe (u64.enc n).reverse)) .panic

/-- `FeeType::from_str`, `token-proxy/src/state.rs:509-519` -/
def feeType (s : Bytes) : Option TP.FeeType :=
  if s = ascii "Deposit" then some .deposit else if s = ascii "Withdrawal" then some .withdrawal else none

/-- The choice between the two kinds of tokens, as in `get_token_settings_request`, `wasm/src/lib.rs:25-35`. -/
def tokenSettingsAddr (token : Bytes) (isSol : Bool) : Except Err Pubkey :=
  if isSol = true then do
    let mint ← arg (tx.pubkey token)
    TP.Client.tokenSettingsSolAddr env mint
  else do
    let t ← arg (EverAddress.parse token)
    TP.Client.tokenSettingsEverAddr env t

/-! ## `wasm/src/lib.rs`: setup, requests, votes and payouts -/

/-- `initialize_settings_ix`, `wasm/src/lib.rs:37-79` -/
def initializeIx (funder initializer guardian withdrawalManager manager : Bytes) : Except Err Ix := do
  let settings ← TP.Client.settingsAddr env
  let pd ← programdataAddr env env.tpId
  let guardian ← arg (tx.pubkey guardian)
  let withdrawalManager ← arg (tx.pubkey withdrawalManager)
  let manager ← arg (tx.pubkey manager)
  let funder ← arg (tx.pubkey funder)
  let initializer ← arg (tx.pubkey initializer)
  let multiVault ← TP.Client.multiVaultAddr env
  let data ← packed TP.Instr.codec (.init guardian manager withdrawalManager)
  .ok ⟨env.tpId, [.new funder true, .new initializer true, .new settings false, .new multiVault false, .readonly pd false,
    .readonly env.systemId false, .readonly env.rentId false], data⟩

/-- The accounts added when a request has a payload, `wasm/src/lib.rs:137-144`. -/
def everExtra (e : TP.WEverEvent) : Except Err (List Meta) :=
  if e.payload = [] then .ok [] else do
    let mint ← TP.Client.mintAddr env e.token
    let proxy ← TP.Client.proxyAddr env mint e.recipient
    .ok [Meta.new proxy false, Meta.new mint false, Meta.new env.splId false]

/-- `withdrawal_multi_token_ever_request_ix`, `wasm/src/lib.rs:80-169` -/
def everRequestIx (funder author name symbol : Bytes) (decimals : U8) (timestamp : U32) (lt : U64) (configuration token recipient amount : Bytes)
    (round : U32) (payload : Bytes) (attached : U64) : Except Err Ix := do
  let funder ← arg (tx.pubkey funder)
  let author ← arg (tx.pubkey author)
  let recipient ← arg (tx.pubkey recipient)
  let configuration ← arg (tx.pubkey configuration)
  let token ← arg (EverAddress.parse token)
  let payload ← arg (tx.base64 payload)
  let amount ← arg (parseU128 amount)
  let relayRound ← addrOf env (relayRoundSeeds round) env.rlId
  let withdrawal ← TP.Client.withdrawalEverAddr env round ⟨timestamp, lt, configuration⟩ ⟨token, name, symbol, decimals, amount, recipient, payload⟩
  let rlSettings ← addrOf env settingsSeeds env.rlId
  let extra ← everExtra env ⟨token, name, symbol, decimals, amount, recipient, payload⟩
  let data ← packed TP.Instr.codec (.withdrawMultiTokenEverRequest ⟨timestamp, lt, configuration⟩ token name symbol decimals recipient amount payload attached)
  .ok ⟨env.tpId, [.new funder true, .new author true, .new withdrawal false, .readonly rlSettings false, .readonly relayRound false,
    .readonly env.systemId false, .readonly env.rentId false, .readonly env.clockId false] ++ extra, data⟩

/-- The accounts added when a request has a payload, `wasm/src/lib.rs:221-227`. -/
def solExtra (e : TP.WSolEvent) : Except Err (List Meta) :=
  if e.payload = [] then .ok [] else do
    let proxy ← TP.Client.proxyAddr env e.mint e.recipient
    .ok [Meta.new proxy false, Meta.new e.mint false, Meta.new env.splId false]

/-- `withdrawal_multi_token_sol_request_ix`, `wasm/src/lib.rs:171-251` -/
def solRequestIx (funder author mint : Bytes) (timestamp : U32) (lt : U64) (configuration recipient amount : Bytes) (round : U32) (payload : Bytes)
    (attached : U64) : Except Err Ix := do
  let funder ← arg (tx.pubkey funder)
  let author ← arg (tx.pubkey author)
  let mint ← arg (tx.pubkey mint)
  let recipient ← arg (tx.pubkey recipient)
  let configuration ← arg (tx.pubkey configuration)
  let tokenSettings ← TP.Client.tokenSettingsSolAddr env mint
  let payload ← arg (tx.base64 payload)
  let amount ← arg (parseU128 amount)
  let relayRound ← addrOf env (relayRoundSeeds round) env.rlId
  let withdrawal ← TP.Client.withdrawalSolAddr env round ⟨timestamp, lt, configuration⟩ ⟨mint, amount, recipient, payload⟩
  let rlSettings ← addrOf env settingsSeeds env.rlId
  let extra ← solExtra env ⟨mint, amount, recipient, payload⟩
  let data ← packed TP.Instr.codec (.withdrawMultiTokenSolRequest ⟨timestamp, lt, configuration⟩ recipient amount payload attached)
  .ok ⟨env.tpId, [.new funder true, .new author true, .new withdrawal false, .readonly tokenSettings false, .readonly rlSettings false,
    .readonly relayRound false, .readonly env.systemId false, .readonly env.rentId false, .readonly env.clockId false] ++ extra, data⟩

/-- `withdrawal_multi_token_ever_ix`, `wasm/src/lib.rs:253-290` -/
def withdrawEverIx (withdrawal recipientToken token : Bytes) : Except Err Ix := do
  let withdrawal ← arg (tx.pubkey withdrawal)
  let recipientToken ← arg (tx.pubkey recipientToken)
  let token ← arg (EverAddress.parse token)
  let settings ← TP.Client.settingsAddr env
  let mint ← TP.Client.mintAddr env token
  let tokenSettings ← TP.Client.tokenSettingsEverAddr env token
  let data ← packed TP.Instr.codec .withdrawMultiTokenEver
  .ok ⟨env.tpId, [.new withdrawal false, .new mint false, .new recipientToken false, .new tokenSettings false, .readonly settings false,
    .readonly env.systemId false, .readonly env.splId false, .readonly env.rentId false, .readonly env.clockId false], data⟩

/-- `create_ever_token_ix`, `wasm/src/lib.rs:291-336` -/
def createEverIx (funder withdrawal recipient token : Bytes) : Except Err Ix := do
  let funder ← arg (tx.pubkey funder)
  let withdrawal ← arg (tx.pubkey withdrawal)
  let recipient ← arg (tx.pubkey recipient)
  let token ← arg (EverAddress.parse token)
  let settings ← TP.Client.settingsAddr env
  let mint ← TP.Client.mintAddr env token
  let tokenSettings ← TP.Client.tokenSettingsEverAddr env token
  let recipientToken ← ataAddr env recipient mint
  let data ← packed TP.Instr.codec .withdrawMultiTokenEver
  .ok ⟨env.tpId, [.new withdrawal false, .new mint false, .new recipientToken false, .new tokenSettings false, .readonly settings false,
    .readonly env.systemId false, .readonly env.splId false, .readonly env.rentId false, .readonly env.clockId false,
    .new funder true, .readonly recipient false, .readonly env.ataId false], data⟩

/-- `withdrawal_multi_token_sol_ix`, `wasm/src/lib.rs:337-373` -/
def withdrawSolIx (withdrawal recipientToken mint : Bytes) : Except Err Ix := do
  let withdrawal ← arg (tx.pubkey withdrawal)
  let mint ← arg (tx.pubkey mint)
  let recipientToken ← arg (tx.pubkey recipientToken)
  let settings ← TP.Client.settingsAddr env
  let vault ← TP.Client.vaultAddr env mint
  let tokenSettings ← TP.Client.tokenSettingsSolAddr env mint
  let data ← packed TP.Instr.codec .withdrawMultiTokenSol
  .ok ⟨env.tpId, [.new withdrawal false, .new vault false, .new recipientToken false, .new tokenSettings false, .readonly mint false,
    .readonly settings false, .readonly env.splId false, .readonly env.clockId false], data⟩

/-- `vote_for_withdraw_request_ix`, `wasm/src/lib.rs:644-673`: always a confirmation. -/
def voteIx (voter withdrawal : Bytes) (round : U32) : Except Err Ix := do
  let voter ← arg (tx.pubkey voter)
  let withdrawal ← arg (tx.pubkey withdrawal)
  let relayRound ← addrOf env (relayRoundSeeds round) env.rlId
  let data ← packed TP.Instr.codec (.voteForWithdrawRequest .confirm)
  .ok ⟨env.tpId, [.new voter true, .new withdrawal false, .readonly relayRound false], data⟩

/-- The common form of `execute_payload_sol_ix`, `wasm/src/lib.rs:580-610`, and `execute_payload_ever_ix`, `612-642`. -/
def executePayloadIx (i : TP.Instr) (withdrawal recipient mint recipientToken : Bytes) : Except Err Ix := do
  let withdrawal ← arg (tx.pubkey withdrawal)
  let recipient ← arg (tx.pubkey recipient)
  let mint ← arg (tx.pubkey mint)
  let proxy ← TP.Client.proxyAddr env mint recipient
  let recipientToken ← arg (tx.pubkey recipientToken)
  let data ← packed TP.Instr.codec i
  .ok ⟨env.tpId, [.new withdrawal false, .new proxy false, .new recipientToken false, .readonly env.splId false], data⟩

/-- `execute_payload_sol_ix`, `wasm/src/lib.rs:580-610` -/
def executePayloadSolIx := executePayloadIx env tx .executePayloadSol
/-- `execute_payload_ever_ix`, `wasm/src/lib.rs:612-642` -/
def executePayloadEverIx := executePayloadIx env tx .executePayloadEver

/-! ## `wasm/src/lib.rs`: deposits -/

/-- `deposit_native_sol_ix`, `wasm/src/lib.rs:374-442`; `program` is the identifier of the native proxy. -/
def depositNativeIx (program : Pubkey) (funder author seed : Bytes) (amount : U64) (recipient : Bytes) (value expected : U64) (payload : Bytes) :
    Except Err Ix := do
  let seed ← arg (tx.uuid seed)
  let funder ← arg (tx.pubkey funder)
  let author ← arg (tx.pubkey author)
  let recipient ← arg (EverAddress.parse recipient)
  let expected ← evers expected
  let authorToken ← ataAddr env author env.nativeMint
  let vault ← TP.Client.vaultAddr env env.nativeMint
  let settings ← TP.Client.settingsAddr env
  let multiVault ← TP.Client.multiVaultAddr env
  let tokenSettings ← TP.Client.tokenSettingsSolAddr env env.nativeMint
  let deposit ← TP.Client.depositAddr env seed
  let payload ← arg (tx.base64 payload)
  let data ← packed NP.Instr.codec (.deposit seed amount recipient value expected payload)
  .ok ⟨program, [.new funder true, .new author true, .new authorToken false, .new vault false, .new deposit false, .new env.nativeMint false,
    .new multiVault false, .new tokenSettings false, .readonly settings false, .readonly env.systemId false, .readonly env.splId false,
    .readonly env.rentId false, .readonly env.tpId false, .readonly env.ataId false], data⟩

/-- `deposit_multi_token_ever_ix`, `wasm/src/lib.rs:444-507` -/
def depositEverIx (funder author authorToken token seed : Bytes) (amount : U64) (recipient : Bytes) (value expected : U64) (payload : Bytes) :
    Except Err Ix := do
  let seed ← arg (tx.uuid seed)
  let funder ← arg (tx.pubkey funder)
  let author ← arg (tx.pubkey author)
  let recipient ← arg (EverAddress.parse recipient)
  let token ← arg (EverAddress.parse token)
  let authorToken ← arg (tx.pubkey authorToken)
  let expected ← evers expected
  let mint ← TP.Client.mintAddr env token
  let settings ← TP.Client.settingsAddr env
  let multiVault ← TP.Client.multiVaultAddr env
  let tokenSettings ← TP.Client.tokenSettingsEverAddr env token
  let deposit ← TP.Client.depositAddr env seed
  let payload ← arg (tx.base64 payload)
  let data ← packed TP.Instr.codec (.depositMultiTokenEver seed amount recipient value expected payload)
  .ok ⟨env.tpId, [.new funder true, .new author true, .new authorToken false, .new deposit false, .new mint false, .new multiVault false,
    .new tokenSettings false, .readonly settings false, .readonly env.systemId false, .readonly env.splId false, .readonly env.rentId false], data⟩

/-- `deposit_multi_token_sol_ix`, `wasm/src/lib.rs:509-578` -/
def depositSolIx (funder author authorToken mint seed name symbol : Bytes) (amount : U64) (recipient : Bytes) (value expected : U64) (payload : Bytes) :
    Except Err Ix := do
  let seed ← arg (tx.uuid seed)
  let mint ← arg (tx.pubkey mint)
  let funder ← arg (tx.pubkey funder)
  let author ← arg (tx.pubkey author)
  let authorToken ← arg (tx.pubkey authorToken)
  let recipient ← arg (EverAddress.parse recipient)
  let expected ← evers expected
  let vault ← TP.Client.vaultAddr env mint
  let settings ← TP.Client.settingsAddr env
  let multiVault ← TP.Client.multiVaultAddr env
  let tokenSettings ← TP.Client.tokenSettingsSolAddr env mint
  let deposit ← TP.Client.depositAddr env seed
  let payload ← arg (tx.base64 payload)
  let data ← packed TP.Instr.codec (.depositMultiTokenSol seed name symbol amount recipient value expected payload)
  .ok ⟨env.tpId, [.new funder true, .new author true, .new authorToken false, .new vault false, .new deposit false, .new mint false,
    .new multiVault false, .new tokenSettings false, .readonly settings false, .readonly env.systemId false, .readonly env.splId false,
    .readonly env.rentId false], data⟩

/-! ## `wasm/src/lib.rs`: administration -/

/-- The common form of `change_guardian_ix`, `wasm/src/lib.rs:675-701`, and `change_withdrawal_manager_ix`, `703-732`. -/
def changeRoleIx (i : Pubkey → TP.Instr) (authority new : Bytes) : Except Err Ix := do
  let settings ← TP.Client.settingsAddr env
  let pd ← programdataAddr env env.tpId
  let authority ← arg (tx.pubkey authority)
  let new ← arg (tx.pubkey new)
  let data ← packed TP.Instr.codec (i new)
  .ok ⟨env.tpId, [.new authority true, .new settings false, .readonly pd false], data⟩

/-- `change_guardian_ix`, `wasm/src/lib.rs:675-701` -/
def changeGuardianIx := changeRoleIx env tx .changeGuardian
/-- `change_withdrawal_manager_ix`, `wasm/src/lib.rs:703-732` -/
def changeWithdrawalManagerIx := changeRoleIx env tx .changeWithdrawalManager

/-- The common form of `change_deposit_limit_ix`, `wasm/src/lib.rs:734-770`, and `change_withdrawal_limits_ix`, `772-812`. -/
def changeLimitIx (i : TP.Instr) (authority token : Bytes) (isSol : Bool) : Except Err Ix := do
  let settings ← TP.Client.settingsAddr env
  let authority ← arg (tx.pubkey authority)
  let tokenSettings ← tokenSettingsAddr env tx token isSol
  let pd ← programdataAddr env env.tpId
  let data ← packed TP.Instr.codec i
  .ok ⟨env.tpId, [.new authority true, .new tokenSettings false, .readonly settings false, .readonly pd false], data⟩

/-- `change_deposit_limit_ix`, `wasm/src/lib.rs:734-770` -/
def changeDepositLimitIx (authority token : Bytes) (isSol : Bool) (limit : U64) : Except Err Ix :=
  changeLimitIx env tx (.changeDepositLimit limit) authority token isSol
/-- `change_withdrawal_limits_ix`, `wasm/src/lib.rs:772-812` -/
def changeWithdrawalLimitsIx (authority token : Bytes) (isSol : Bool) (limit daily : Option U64) : Except Err Ix :=
  changeLimitIx env tx (.changeWithdrawalLimits limit daily) authority token isSol

/-- `enable_emergency_ix`, `wasm/src/lib.rs:814-834` -/
def enableEmergencyIx (authority : Bytes) : Except Err Ix := do
  let settings ← TP.Client.settingsAddr env
  let authority ← arg (tx.pubkey authority)
  let data ← packed TP.Instr.codec .enableEmergencyMode
  .ok ⟨env.tpId, [.new authority true, .new settings false], data⟩

/-- The common form of `enable_emergency_by_owner_ix`, `wasm/src/lib.rs:836-858`, and `disable_emergency_ix`, `860-882`. -/
def emergencyByOwnerIx (i : TP.Instr) (authority : Bytes) : Except Err Ix := do
  let settings ← TP.Client.settingsAddr env
  let pd ← programdataAddr env env.tpId
  let authority ← arg (tx.pubkey authority)
  let data ← packed TP.Instr.codec i
  .ok ⟨env.tpId, [.new authority true, .new settings false, .readonly pd false], data⟩

/-- `enable_emergency_by_owner_ix`, `wasm/src/lib.rs:836-858` -/
def enableEmergencyByOwnerIx := emergencyByOwnerIx env tx .enableEmergencyMode
/-- `disable_emergency_ix`, `wasm/src/lib.rs:860-882` -/
def disableEmergencyIx := emergencyByOwnerIx env tx .disableEmergencyMode

/-- `enable_token_emergency_ix`, `wasm/src/lib.rs:884-916`: the settings come before the token settings. -/
def enableTokenEmergencyIx (authority token : Bytes) (isSol : Bool) : Except Err Ix := do
  let settings ← TP.Client.settingsAddr env
  let tokenSettings ← tokenSettingsAddr env tx token isSol
  let authority ← arg (tx.pubkey authority)
  let data ← packed TP.Instr.codec .enableTokenEmergencyMode
  .ok ⟨env.tpId, [.new authority true, .readonly settings false, .new tokenSettings false], data⟩

/-- `enable_token_emergency_by_owner_ix`, `wasm/src/lib.rs:918-952` -/
def enableTokenEmergencyByOwnerIx (authority token : Bytes) (isSol : Bool) : Except Err Ix := do
  let settings ← TP.Client.settingsAddr env
  let tokenSettings ← tokenSettingsAddr env tx token isSol
  let pd ← programdataAddr env env.tpId
  let authority ← arg (tx.pubkey authority)
  let data ← packed TP.Instr.codec .enableTokenEmergencyMode
  .ok ⟨env.tpId, [.new authority true, .readonly settings false, .new tokenSettings false, .readonly pd false], data⟩

/-- `disable_token_emergency_ix`, `wasm/src/lib.rs:954-986`: without the settings. -/
def disableTokenEmergencyIx (authority token : Bytes) (isSol : Bool) : Except Err Ix := do
  let tokenSettings ← tokenSettingsAddr env tx token isSol
  let pd ← programdataAddr env env.tpId
  let authority ← arg (tx.pubkey authority)
  let data ← packed TP.Instr.codec .disableTokenEmergencyMode
  .ok ⟨env.tpId, [.new authority true, .new tokenSettings false, .readonly pd false], data⟩

/-- `update_fee`, `wasm/src/lib.rs:1067-1106` -/
def updateFeeIx (authority token : Bytes) (isSol : Bool) (fee : Bytes) (multiplier divisor : U64) : Except Err Ix := do
  let authority ← arg (tx.pubkey authority)
  let tokenSettings ← tokenSettingsAddr env tx token isSol
  let settings ← TP.Client.settingsAddr env
  let fee ← arg (feeType fee)
  let data ← packed TP.Instr.codec (.updateFee fee multiplier divisor)
  .ok ⟨env.tpId, [.new authority true, .new tokenSettings false, .readonly settings false], data⟩

/-- `update_token_name`, `wasm/src/lib.rs:1108-1138` -/
def updateTokenNameIx (authority token symbol name : Bytes) : Except Err Ix := do
  let authority ← arg (tx.pubkey authority)
  let mint ← arg (tx.pubkey token)
  let tokenSettings ← TP.Client.tokenSettingsSolAddr env mint
  let settings ← TP.Client.settingsAddr env
  let data ← packed TP.Instr.codec (.updateTokenName symbol name)
  .ok ⟨env.tpId, [.new authority true, .new tokenSettings false, .readonly settings false], data⟩

/-- `approve_withdrawal_ever`, `wasm/src/lib.rs:1140-1178` -/
def approveEverIx (authority withdrawal recipientToken mint token : Bytes) : Except Err Ix := do
  let authority ← arg (tx.pubkey authority)
  let withdrawal ← arg (tx.pubkey withdrawal)
  let recipientToken ← arg (tx.pubkey recipientToken)
  let mint ← arg (tx.pubkey mint)
  let settings ← TP.Client.settingsAddr env
  let token ← arg (EverAddress.parse token)
  let tokenSettings ← TP.Client.tokenSettingsEverAddr env token
  let data ← packed TP.Instr.codec .approveWithdrawEver
  .ok ⟨env.tpId, [.new authority true, .new mint false, .new withdrawal false, .new recipientToken false, .new tokenSettings false,
    .readonly settings false, .readonly env.splId false, .readonly env.clockId false], data⟩

/-- `approve_withdrawal_sol`, `wasm/src/lib.rs:1180-1217` -/
def approveSolIx (authority withdrawal recipientToken mint : Bytes) : Except Err Ix := do
  let authority ← arg (tx.pubkey authority)
  let withdrawal ← arg (tx.pubkey withdrawal)
  let recipientToken ← arg (tx.pubkey recipientToken)
  let mint ← arg (tx.pubkey mint)
  let settings ← TP.Client.settingsAddr env
  let vault ← TP.Client.vaultAddr env mint
  let tokenSettings ← TP.Client.tokenSettingsSolAddr env mint
  let data ← packed TP.Instr.codec .approveWithdrawSol
  .ok ⟨env.tpId, [.new authority true, .new vault false, .new withdrawal false, .new recipientToken false, .new tokenSettings false,
    .readonly settings false, .readonly env.splId false, .readonly env.clockId false], data⟩

/-- `withdrawal_ever_fee_ix`, `wasm/src/lib.rs:1425-1461` -/
def withdrawEverFeeIx (authority mint recipientToken token : Bytes) (amount : U64) : Except Err Ix := do
  let authority ← arg (tx.pubkey authority)
  let mint ← arg (tx.pubkey mint)
  let recipientToken ← arg (tx.pubkey recipientToken)
  let settings ← TP.Client.settingsAddr env
  let token ← arg (EverAddress.parse token)
  let tokenSettings ← TP.Client.tokenSettingsEverAddr env token
  let data ← packed TP.Instr.codec (.withdrawEverFee amount)
  .ok ⟨env.tpId, [.new authority true, .new mint false, .new recipientToken false, .new tokenSettings false, .readonly settings false,
    .readonly env.splId false], data⟩

/-- `withdrawal_sol_fee_ix`, `wasm/src/lib.rs:1463-1497` -/
def withdrawSolFeeIx (authority recipientToken mint : Bytes) (amount : U64) : Except Err Ix := do
  let authority ← arg (tx.pubkey authority)
  let recipientToken ← arg (tx.pubkey recipientToken)
  let mint ← arg (tx.pubkey mint)
  let settings ← TP.Client.settingsAddr env
  let vault ← TP.Client.vaultAddr env mint
  let tokenSettings ← TP.Client.tokenSettingsSolAddr env mint
  let data ← packed TP.Instr.codec (.withdrawSolFee amount)
  .ok ⟨env.tpId, [.new authority true, .new vault false, .new tokenSettings false, .new recipientToken false, .readonly settings false,
    .readonly env.splId false], data⟩

/-- `withdrawal_multi_vault_ix`, `wasm/src/lib.rs:1394-1423` -/
def withdrawMultiVaultIx (authority recipient : Bytes) (amount : U64) : Except Err Ix := do
  let authority ← arg (tx.pubkey authority)
  let recipient ← arg (tx.pubkey recipient)
  let settings ← TP.Client.settingsAddr env
  let multiVault ← TP.Client.multiVaultAddr env
  let data ← packed TP.Instr.codec (.withdrawMultiVault amount)
  .ok ⟨env.tpId, [.new authority true, .new recipient false, .new multiVault false, .readonly settings false, .readonly env.systemId false], data⟩

/-! ## `wasm/src/lib.rs`: pending withdrawals, proxies, closing -/

/-- `change_bounty_for_withdrawal_sol_ix`, `wasm/src/lib.rs:1369-1392` -/
def changeBountyIx (author withdrawal : Bytes) (bounty : U64) : Except Err Ix := do
  let author ← arg (tx.pubkey author)
  let withdrawal ← arg (tx.pubkey withdrawal)
  let data ← packed TP.Instr.codec (.changeBountyForWithdrawSol bounty)
  .ok ⟨env.tpId, [.new author true, .new withdrawal false], data⟩

/-- `cancel_withdrawal_sol`, `wasm/src/lib.rs:1219-1278` -/
def cancelIx (funder author withdrawal mint seed recipient : Bytes) (value expected : U64) (payload : Bytes) : Except Err Ix := do
  let seed ← arg (tx.uuid seed)
  let mint ← arg (tx.pubkey mint)
  let funder ← arg (tx.pubkey funder)
  let author ← arg (tx.pubkey author)
  let recipient ← arg (EverAddress.parse recipient)
  let withdrawal ← arg (tx.pubkey withdrawal)
  let settings ← TP.Client.settingsAddr env
  let multiVault ← TP.Client.multiVaultAddr env
  let deposit ← TP.Client.depositAddr env seed
  let tokenSettings ← TP.Client.tokenSettingsSolAddr env mint
  let expected ← evers expected
  let payload ← arg (tx.base64 payload)
  let data ← packed TP.Instr.codec (.cancelWithdrawSol seed recipient value expected payload)
  .ok ⟨env.tpId, [.new funder true, .new author true, .new mint false, .new withdrawal false, .new deposit false, .readonly settings false,
    .readonly tokenSettings false, .readonly env.systemId false, .readonly env.rentId false, .new multiVault false], data⟩

/-- The accounts added for the withdrawals of a fill, `wasm/src/lib.rs:1351-1360`. -/
def fillMetas (mint : Pubkey) : List (Bytes × Bytes) → Except Err (List Meta)
  | [] => .ok []
  | (withdrawal, to) :: rest => do
    let withdrawal ← arg (tx.pubkey withdrawal)
    let to ← arg (tx.pubkey to)
    let recipientToken ← ataAddr env to mint
    let more ← fillMetas mint rest
    .ok (Meta.new withdrawal false :: Meta.new recipientToken false :: more)

/-- The vault added at the end of a fill, `wasm/src/lib.rs:1362-1365`. -/
def fillVault : Option Bytes → Except Err (List Meta)
  | none => .ok []
  | some v => do
    let vault ← arg (tx.pubkey v)
    .ok [Meta.new vault false]

/-- `fill_withdrawal_sol`, `wasm/src/lib.rs:1287-1367` -/
def fillIx (funder author mint seed recipient : Bytes) (amount : U64) (withdrawals : List (Bytes × Bytes)) (vault : Option Bytes) (value expected : U64)
    (payload : Bytes) : Except Err Ix := do
  let seed ← arg (tx.uuid seed)
  let mint ← arg (tx.pubkey mint)
  let funder ← arg (tx.pubkey funder)
  let author ← arg (tx.pubkey author)
  let recipient ← arg (EverAddress.parse recipient)
  let authorToken ← ataAddr env author mint
  let settings ← TP.Client.settingsAddr env
  let multiVault ← TP.Client.multiVaultAddr env
  let deposit ← TP.Client.depositAddr env seed
  let tokenSettings ← TP.Client.tokenSettingsSolAddr env mint
  let expected ← evers expected
  let payload ← arg (tx.base64 payload)
  let data ← packed TP.Instr.codec (.fillWithdrawSol seed recipient amount value expected payload)
  let pairs ← fillMetas env tx mint withdrawals
  let last ← fillVault tx vault
  .ok ⟨env.tpId, [.new funder true, .new author true, .new authorToken false, .new mint false, .new deposit false, .readonly settings false,
    .readonly env.systemId false, .readonly tokenSettings false, .readonly env.splId false, .readonly env.rentId false,
    .new multiVault false] ++ pairs ++ last, data⟩

/-- `withdrawal_proxy_ix`, `wasm/src/lib.rs:988-1019` -/
def withdrawProxyIx (recipient recipientToken mint : Bytes) (amount : U64) : Except Err Ix := do
  let mint ← arg (tx.pubkey mint)
  let recipient ← arg (tx.pubkey recipient)
  let recipientToken ← arg (tx.pubkey recipientToken)
  let proxy ← TP.Client.proxyAddr env mint recipient
  let data ← packed TP.Instr.codec (.withdrawProxy amount)
  .ok ⟨env.tpId, [.new recipient true, .new recipientToken false, .new proxy false, .readonly mint false, .readonly env.splId false], data⟩

/-- `close_deposit`, `wasm/src/lib.rs:1021-1040` -/
def closeDepositIx (author deposit : Bytes) : Except Err Ix := do
  let author ← arg (tx.pubkey author)
  let deposit ← arg (tx.pubkey deposit)
  let data ← packed TP.Instr.codec .closeDeposit
  .ok ⟨env.tpId, [.new author true, .new deposit false], data⟩

/-- `close_withdrawal`, `wasm/src/lib.rs:1042-1065` -/
def closeWithdrawalIx (withdrawal author : Bytes) : Except Err Ix := do
  let withdrawal ← arg (tx.pubkey withdrawal)
  let author ← arg (tx.pubkey author)
  let data ← packed TP.Instr.codec .closeWithdrawal
  .ok ⟨env.tpId, [.new withdrawal false, .new author false], data⟩

/-! ## `wasm/src/lib.rs`: addresses -/

/-- `get_proposal_sol_address`, `wasm/src/lib.rs:1513-1544` -/
def proposalSolAddr (round timestamp : U32) (lt : U64) (configuration mint recipient amount payload : Bytes) : Except Err Pubkey := do
  let recipient ← arg (tx.pubkey recipient)
  let configuration ← arg (tx.pubkey configuration)
  let amount ← arg (parseU128 amount)
  let mint ← arg (tx.pubkey mint)
  let payload ← arg (tx.base64 payload)
  TP.Client.withdrawalSolAddr env round ⟨timestamp, lt, configuration⟩ ⟨mint, amount, recipient, payload⟩

/-- `get_proposal_ever_address`, `wasm/src/lib.rs:1557-1595` -/
def proposalEverAddr (round timestamp : U32) (lt : U64) (configuration token recipient amount name symbol : Bytes) (decimals : U8) (payload : Bytes) :
    Except Err Pubkey := do
  let recipient ← arg (tx.pubkey recipient)
  let configuration ← arg (tx.pubkey configuration)
  let amount ← arg (parseU128 amount)
  let token ← arg (EverAddress.parse token)
  let payload ← arg (tx.base64 payload)
  TP.Client.withdrawalEverAddr env round ⟨timestamp, lt, configuration⟩ ⟨token, name, symbol, decimals, amount, recipient, payload⟩

/-- `get_mint_address_request`, `wasm/src/lib.rs:18-23` -/
def mintAddr (token : Bytes) : Except Err Pubkey := do
  let token ← arg (EverAddress.parse token)
  TP.Client.mintAddr env token

/-- `get_proxy_address_payload`, `wasm/src/lib.rs:1546-1555` -/
def proxyAddr (mint recipient : Bytes) : Except Err Pubkey := do
  let recipient ← arg (tx.pubkey recipient)
  let mint ← arg (tx.pubkey mint)
  TP.Client.proxyAddr env mint recipient

/-! ## `round-loader/src/wasm.rs` -/

/-- `initialize_ix`, `round-loader/src/wasm.rs:26-67` -/
def rlInitializeIx (funder initializer : Bytes) (genesis : U32) (submitter : Bytes) (minVotes ttl : U32) : Except Err Ix := do
  let funder ← arg (tx.pubkey funder)
  let initializer ← arg (tx.pubkey initializer)
  let submitter ← arg (tx.pubkey submitter)
  let settings ← RL.Client.settingsAddr env
  let pd ← programdataAddr env env.rlId
  let data ← packed RL.Instr.codec (.init genesis submitter minVotes ttl)
  .ok ⟨env.rlId, [.new funder true, .new initializer true, .new settings false, .readonly pd false, .readonly env.systemId false,
    .readonly env.rentId false], data⟩

/-- `Option<String>` mapped through the parser and transposed, `round-loader/src/wasm.rs:84-87`. -/
def optKey : Option Bytes → Except Err (Option Pubkey)
  | none => .ok none
  | some s => do
    let k ← arg (tx.pubkey s)
    .ok (some k)

/-- `update_settings_ix`, `round-loader/src/wasm.rs:69-110` -/
def rlUpdateSettingsIx (author : Bytes) (round : Option U32) (submitter : Option Bytes) (minVotes ttl : Option U32) : Except Err Ix := do
  let author ← arg (tx.pubkey author)
  let settings ← RL.Client.settingsAddr env
  let pd ← programdataAddr env env.rlId
  let submitter ← optKey tx submitter
  let data ← packed RL.Instr.codec (.updateSettings round submitter minVotes ttl)
  .ok ⟨env.rlId, [.new author true, .new settings false, .readonly pd false], data⟩

/-- The relays of a new round; a string that is no key panics (`unwrap`), `round-loader/src/wasm.rs:127-131`. -/
def keys : List Bytes → Except Err (List Pubkey)
  | [] => .ok []
  | s :: rest => do
    let k ← orErr (tx.pubkey s) .panic
    let more ← keys rest
    .ok (k :: more)

/-- `create_relay_round_ix`, `round-loader/src/wasm.rs:112-155` -/
def rlCreateRelayRoundIx (funder creator : Bytes) (round roundEnd : U32) (relays : List Bytes) : Except Err Ix := do
  let funder ← arg (tx.pubkey funder)
  let creator ← arg (tx.pubkey creator)
  let settings ← RL.Client.settingsAddr env
  let relayRound ← RL.Client.roundAddr env round
  let relays ← keys tx relays
  let data ← packed RL.Instr.codec (.createRelayRound round relays roundEnd)
  .ok ⟨env.rlId, [.new funder true, .new creator true, .new settings false, .new relayRound false, .readonly env.systemId false,
    .readonly env.rentId false], data⟩

/-- `execute_ix`, `round-loader/src/wasm.rs:157-191` -/
def rlExecuteIx (funder proposal : Bytes) (round : U32) : Except Err Ix := do
  let funder ← arg (tx.pubkey funder)
  let proposal ← arg (tx.pubkey proposal)
  let settings ← RL.Client.settingsAddr env
  let relayRound ← RL.Client.roundAddr env round
  let data ← packed RL.Instr.codec .executeProposal
  .ok ⟨env.rlId, [.new funder true, .new settings false, .new proposal false, .new relayRound false, .readonly env.systemId false,
    .readonly env.rentId false], data⟩

/-- `execute_by_admin_ix`, `round-loader/src/wasm.rs:193-230` -/
def rlExecuteByAdminIx (funder creator proposal : Bytes) (round : U32) : Except Err Ix := do
  let funder ← arg (tx.pubkey funder)
  let creator ← arg (tx.pubkey creator)
  let proposal ← arg (tx.pubkey proposal)
  let settings ← RL.Client.settingsAddr env
  let relayRound ← RL.Client.roundAddr env round
  let data ← packed RL.Instr.codec .executeProposalByAdmin
  .ok ⟨env.rlId, [.new funder true, .new creator true, .new settings false, .new proposal false, .new relayRound false,
    .readonly env.systemId false, .readonly env.rentId false], data⟩

end Verif.Js
