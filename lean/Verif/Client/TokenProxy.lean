import Verif.Client.Instruction
import Verif.TokenProxy.Processor
/-!
# `token-proxy/src/bindings.rs`
-/
namespace Verif.TP.Client
open Verif

variable (env : Env)

/-! ## Addresses -/

/-- `get_settings_address`, `bindings.rs:16-19` -/
def settingsAddr : Except Err Pubkey := addrOf env settingsSeeds env.tpId
/-- `get_multivault_address`, `bindings.rs:21-24` -/
def multiVaultAddr : Except Err Pubkey := addrOf env multiVaultSeeds env.tpId
/-- `get_token_settings_ever_address`, `bindings.rs:26-29` -/
def tokenSettingsEverAddr (token : EverAddress) : Except Err Pubkey := addrOf env (tokenSettingsEverSeeds env token) env.tpId
/-- `get_token_settings_sol_address`, `bindings.rs:31-34` -/
def tokenSettingsSolAddr (mint : Pubkey) : Except Err Pubkey := addrOf env (tokenSettingsSolSeeds mint) env.tpId
/-- `get_mint_address`, `bindings.rs:36-39` -/
def mintAddr (token : EverAddress) : Except Err Pubkey := addrOf env (mintSeeds env token) env.tpId
/-- `get_vault_address`, `bindings.rs:41-44` -/
def vaultAddr (mint : Pubkey) : Except Err Pubkey := addrOf env (vaultSeeds mint) env.tpId
/-- `get_deposit_address`, `bindings.rs:46-49` -/
def depositAddr (seed : U128) : Except Err Pubkey := addrOf env (depositSeeds seed) env.tpId
/-- `get_proxy_address`, `bindings.rs:51-54` -/
def proxyAddr (mint recipient : Pubkey) : Except Err Pubkey := addrOf env (proxySeeds mint recipient) env.tpId

/-- `get_withdrawal_ever_address`, `bindings.rs:57-95` -/
def withdrawalEverAddr (round : U32) (pda : PDA) (e : WEverEvent) : Except Err Pubkey := do
  let b ← packed wEverEventC e
  addrOf env (proposalSeeds round pda (env.hash b)) env.tpId

/-- `get_withdrawal_sol_address`, `bindings.rs:98-130` -/
def withdrawalSolAddr (round : U32) (pda : PDA) (e : WSolEvent) : Except Err Pubkey := do
  let b ← packed wSolEventC e
  addrOf env (proposalSeeds round pda (env.hash b)) env.tpId

/-! ## Setup and deposits -/

/-- `initialize_settings_ix`, `bindings.rs:132-164` -/
def initializeIx (funder initializer guardian manager withdrawalManager : Pubkey) : Except Err Ix := do
  let settings ← settingsAddr env
  let pd ← programdataAddr env env.tpId
  let multiVault ← multiVaultAddr env
  let data ← packed Instr.codec (.init guardian manager withdrawalManager)
  .ok ⟨env.tpId, [.new funder true, .new initializer true, .new settings false, .new multiVault false, .readonly pd false,
    .readonly env.systemId false, .readonly env.rentId false], data⟩

/-- `deposit_multi_token_ever_ix`, `bindings.rs:167-213` -/
def depositEverIx (funder author authorToken : Pubkey) (token : EverAddress) (seed : U128) (amount : U64) (recipient : EverAddress)
    (value : U64) (evers : Pubkey) (payload : Bytes) : Except Err Ix := do
  let mint ← mintAddr env token
  let settings ← settingsAddr env
  let multiVault ← multiVaultAddr env
  let tokenSettings ← tokenSettingsEverAddr env token
  let deposit ← depositAddr env seed
  let data ← packed Instr.codec (.depositMultiTokenEver seed amount recipient value evers payload)
  .ok ⟨env.tpId, [.new funder true, .new author true, .new authorToken false, .new deposit false, .new mint false, .new multiVault false,
    .new tokenSettings false, .readonly settings false, .readonly env.systemId false, .readonly env.splId false,
    .readonly env.rentId false], data⟩

/-- `deposit_multi_token_sol_ix`, `bindings.rs:216-268` -/
def depositSolIx (funder author authorToken mint : Pubkey) (seed : U128) (name symbol : Bytes) (amount : U64) (recipient : EverAddress)
    (value : U64) (evers : Pubkey) (payload : Bytes) : Except Err Ix := do
  let vault ← vaultAddr env mint
  let settings ← settingsAddr env
  let multiVault ← multiVaultAddr env
  let tokenSettings ← tokenSettingsSolAddr env mint
  let deposit ← depositAddr env seed
  let data ← packed Instr.codec (.depositMultiTokenSol seed name symbol amount recipient value evers payload)
  .ok ⟨env.tpId, [.new funder true, .new author true, .new authorToken false, .new vault false, .new deposit false, .new mint false,
    .new multiVault false, .new tokenSettings false, .readonly settings false, .readonly env.systemId false, .readonly env.splId false,
    .readonly env.rentId false], data⟩

/-! ## Requests, votes and payouts -/

/-- `withdrawal_multi_token_ever_request_ix`, `bindings.rs:271-346` -/
def everRequestIx (funder author : Pubkey) (round : U32) (pda : PDA) (e : WEverEvent) (attached : U64) : Except Err Ix := do
  let withdrawal ← withdrawalEverAddr env round pda e
  let rlSettings ← addrOf env settingsSeeds env.rlId
  let relayRound ← addrOf env (relayRoundSeeds round) env.rlId
  let extra ← if e.payload = [] then .ok [] else do
    let mint ← mintAddr env e.token
    let proxy ← proxyAddr env mint e.recipient
    .ok [Meta.new proxy false, Meta.new mint false, Meta.new env.splId false]
  let data ← packed Instr.codec (.withdrawMultiTokenEverRequest pda e.token e.name e.symbol e.decimals e.recipient e.amount e.payload attached)
  .ok ⟨env.tpId, [.new funder true, .new author true, .new withdrawal false, .readonly rlSettings false, .readonly relayRound false,
    .readonly env.systemId false, .readonly env.rentId false, .readonly env.clockId false] ++ extra, data⟩

/-- `withdrawal_multi_token_sol_request_ix`, `bindings.rs:349-417` -/
def solRequestIx (funder author : Pubkey) (pda : PDA) (round : U32) (e : WSolEvent) (attached : U64) : Except Err Ix := do
  let withdrawal ← withdrawalSolAddr env round pda e
  let tokenSettings ← tokenSettingsSolAddr env e.mint
  let rlSettings ← addrOf env settingsSeeds env.rlId
  let relayRound ← addrOf env (relayRoundSeeds round) env.rlId
  let extra ← if e.payload = [] then .ok [] else do
    let proxy ← proxyAddr env e.mint e.recipient
    .ok [Meta.new proxy false, Meta.new e.mint false, Meta.new env.splId false]
  let data ← packed Instr.codec (.withdrawMultiTokenSolRequest pda e.recipient e.amount e.payload attached)
  .ok ⟨env.tpId, [.new funder true, .new author true, .new withdrawal false, .readonly tokenSettings false, .readonly rlSettings false,
    .readonly relayRound false, .readonly env.systemId false, .readonly env.rentId false, .readonly env.clockId false] ++ extra, data⟩

/-- `vote_for_withdrawal_request_ix`, `bindings.rs:419-441` -/
def voteIx (voter withdrawal : Pubkey) (round : U32) (vote : Vote) : Except Err Ix := do
  let relayRound ← addrOf env (relayRoundSeeds round) env.rlId
  let data ← packed Instr.codec (.voteForWithdrawRequest vote)
  .ok ⟨env.tpId, [.new voter true, .new withdrawal false, .readonly relayRound false], data⟩

/-- Accounts common to the four builders of `WithdrawMultiTokenEver`. `token-proxy/src/bindings.rs:443-582`. -/
def everMetas (settings mint tokenSettings withdrawal recipientToken : Pubkey) : List Meta :=
  [.new withdrawal false, .new mint false, .new recipientToken false, .new tokenSettings false, .readonly settings false,
   .readonly env.systemId false, .readonly env.splId false, .readonly env.rentId false, .readonly env.clockId false]

/-- `withdrawal_ever_ix`, `bindings.rs:443-471` -/
def withdrawEverIx (withdrawal recipientToken : Pubkey) (token : EverAddress) : Except Err Ix := do
  let settings ← settingsAddr env
  let mint ← mintAddr env token
  let tokenSettings ← tokenSettingsEverAddr env token
  let data ← packed Instr.codec .withdrawMultiTokenEver
  .ok ⟨env.tpId, everMetas env settings mint tokenSettings withdrawal recipientToken, data⟩

/-- `withdrawal_ever_with_payload_ix`, `bindings.rs:473-503` -/
def withdrawEverPayloadIx (withdrawal recipient : Pubkey) (token : EverAddress) : Except Err Ix := do
  let settings ← settingsAddr env
  let mint ← mintAddr env token
  let tokenSettings ← tokenSettingsEverAddr env token
  let proxy ← proxyAddr env mint recipient
  let data ← packed Instr.codec .withdrawMultiTokenEver
  .ok ⟨env.tpId, everMetas env settings mint tokenSettings withdrawal proxy, data⟩

/-- `create_ever_token_ix`, `bindings.rs:505-541` -/
def createEverTokenIx (funder withdrawal recipient : Pubkey) (token : EverAddress) : Except Err Ix := do
  let settings ← settingsAddr env
  let mint ← mintAddr env token
  let tokenSettings ← tokenSettingsEverAddr env token
  let recipientToken ← ataAddr env recipient mint
  let data ← packed Instr.codec .withdrawMultiTokenEver
  .ok ⟨env.tpId, everMetas env settings mint tokenSettings withdrawal recipientToken ++
    [.new funder true, .readonly recipient false, .readonly env.ataId false], data⟩

/-- `create_ever_token_with_payload_ix`, `bindings.rs:543-582` -/
def createEverTokenPayloadIx (funder withdrawal recipient : Pubkey) (token : EverAddress) : Except Err Ix := do
  let settings ← settingsAddr env
  let mint ← mintAddr env token
  let tokenSettings ← tokenSettingsEverAddr env token
  let proxy ← proxyAddr env mint recipient
  let recipientToken ← ataAddr env recipient mint
  let data ← packed Instr.codec .withdrawMultiTokenEver
  .ok ⟨env.tpId, everMetas env settings mint tokenSettings withdrawal proxy ++
    [.new funder true, .new recipientToken false, .readonly recipient false, .readonly env.ataId false], data⟩

/-- `withdrawal_sol_ix`, `bindings.rs:584-611` -/
def withdrawSolIx (withdrawal recipientToken mint : Pubkey) : Except Err Ix := do
  let settings ← settingsAddr env
  let vault ← vaultAddr env mint
  let tokenSettings ← tokenSettingsSolAddr env mint
  let data ← packed Instr.codec .withdrawMultiTokenSol
  .ok ⟨env.tpId, [.new withdrawal false, .new vault false, .new recipientToken false, .new tokenSettings false, .readonly mint false,
    .readonly settings false, .readonly env.splId false, .readonly env.clockId false], data⟩

/-- `withdrawal_sol_with_payload_ix`, `bindings.rs:613-642` -/
def withdrawSolPayloadIx (withdrawal recipient mint : Pubkey) : Except Err Ix := do
  let proxy ← proxyAddr env mint recipient
  withdrawSolIx env withdrawal proxy mint

/-! ## Administration -/

/-- The common form of `change_guardian_ix`, `bindings.rs:644-661`, `change_manager_ix`, `663-680`, and `change_withdrawal_manager_ix`,
`682-701`. -/
def changeRoleIx (i : Instr) (owner : Pubkey) : Except Err Ix := do
  let settings ← settingsAddr env
  let pd ← programdataAddr env env.tpId
  let data ← packed Instr.codec i
  .ok ⟨env.tpId, [.new owner true, .new settings false, .readonly pd false], data⟩

/-- `change_guardian_ix`, `bindings.rs:644-661` -/
def changeGuardianIx (owner new : Pubkey) : Except Err Ix := changeRoleIx env (.changeGuardian new) owner
/-- `change_manager_ix`, `bindings.rs:663-680` -/
def changeManagerIx (owner new : Pubkey) : Except Err Ix := changeRoleIx env (.changeManager new) owner
/-- `change_withdrawal_manager_ix`, `bindings.rs:682-701` -/
def changeWithdrawalManagerIx (owner new : Pubkey) : Except Err Ix := changeRoleIx env (.changeWithdrawalManager new) owner

/-- The common form of the builders whose accounts are the authority, the token settings and the settings.
`token-proxy/src/bindings.rs:703-749,858-877,985-1034`. -/
def tokenAdminIx (i : Instr) (authority tokenSettings : Pubkey) : Except Err Ix := do
  let settings ← settingsAddr env
  let data ← packed Instr.codec i
  .ok ⟨env.tpId, [.new authority true, .new tokenSettings false, .readonly settings false], data⟩

/-- The same with the program data account. `token-proxy/src/bindings.rs:751-801,879-923`. -/
def tokenOwnerIx (i : Instr) (owner tokenSettings : Pubkey) : Except Err Ix := do
  let settings ← settingsAddr env
  let pd ← programdataAddr env env.tpId
  let data ← packed Instr.codec i
  .ok ⟨env.tpId, [.new owner true, .new tokenSettings false, .readonly settings false, .readonly pd false], data⟩

/-- `change_deposit_limit_ix`, `bindings.rs:703-723` -/
def changeDepositLimitIx (manager tokenSettings : Pubkey) (limit : U64) : Except Err Ix :=
  tokenAdminIx env (.changeDepositLimit limit) manager tokenSettings
/-- `change_withdrawal_limits_ix`, `bindings.rs:725-749` -/
def changeWithdrawalLimitsIx (manager tokenSettings : Pubkey) (limit daily : Option U64) : Except Err Ix :=
  tokenAdminIx env (.changeWithdrawalLimits limit daily) manager tokenSettings
/-- `change_deposit_limit_by_owner_ix`, `bindings.rs:751-773` -/
def changeDepositLimitByOwnerIx (owner tokenSettings : Pubkey) (limit : U64) : Except Err Ix :=
  tokenOwnerIx env (.changeDepositLimit limit) owner tokenSettings
/-- `change_withdrawal_limits_by_owner_ix`, `bindings.rs:775-801` -/
def changeWithdrawalLimitsByOwnerIx (owner tokenSettings : Pubkey) (limit daily : Option U64) : Except Err Ix :=
  tokenOwnerIx env (.changeWithdrawalLimits limit daily) owner tokenSettings

/-- `enable_emergency_ix`, `bindings.rs:803-818` -/
def enableEmergencyIx (guardian : Pubkey) : Except Err Ix := do
  let settings ← settingsAddr env
  let data ← packed Instr.codec .enableEmergencyMode
  .ok ⟨env.tpId, [.new guardian true, .new settings false], data⟩
/-- `enable_emergency_by_owner_ix`, `bindings.rs:820-837` -/
def enableEmergencyByOwnerIx (owner : Pubkey) : Except Err Ix := changeRoleIx env .enableEmergencyMode owner
/-- `disable_emergency_ix`, `bindings.rs:839-856` -/
def disableEmergencyIx (owner : Pubkey) : Except Err Ix := changeRoleIx env .disableEmergencyMode owner
/-- `enable_emergency_token_ix`, `bindings.rs:858-877` -/
def enableTokenEmergencyIx (guardian tokenSettings : Pubkey) : Except Err Ix :=
  tokenAdminIx env .enableTokenEmergencyMode guardian tokenSettings
/-- `enable_emergency_token_by_owner_ix`, `bindings.rs:879-900` -/
def enableTokenEmergencyByOwnerIx (owner tokenSettings : Pubkey) : Except Err Ix :=
  tokenOwnerIx env .enableTokenEmergencyMode owner tokenSettings
/-- `disable_emergency_token_ix`, `bindings.rs:902-923` -/
def disableTokenEmergencyIx (owner tokenSettings : Pubkey) : Except Err Ix :=
  tokenOwnerIx env .disableTokenEmergencyMode owner tokenSettings

/-- `approve_withdrawal_ever_ix`, `bindings.rs:925-953` -/
def approveEverIx (authority withdrawal recipientToken mint : Pubkey) (token : EverAddress) : Except Err Ix := do
  let settings ← settingsAddr env
  let tokenSettings ← tokenSettingsEverAddr env token
  let data ← packed Instr.codec .approveWithdrawEver
  .ok ⟨env.tpId, [.new authority true, .new mint false, .new withdrawal false, .new recipientToken false, .new tokenSettings false,
    .readonly settings false, .readonly env.splId false, .readonly env.clockId false], data⟩

/-- `approve_withdrawal_sol_ix`, `bindings.rs:955-983` -/
def approveSolIx (authority withdrawal recipientToken mint : Pubkey) : Except Err Ix := do
  let settings ← settingsAddr env
  let vault ← vaultAddr env mint
  let tokenSettings ← tokenSettingsSolAddr env mint
  let data ← packed Instr.codec .approveWithdrawSol
  .ok ⟨env.tpId, [.new authority true, .new vault false, .new withdrawal false, .new recipientToken false, .new tokenSettings false,
    .readonly settings false, .readonly env.splId false, .readonly env.clockId false], data⟩

/-- `update_fee_ix`, `bindings.rs:985-1011` -/
def updateFeeIx (authority tokenSettings : Pubkey) (f : FeeType) (multiplier divisor : U64) : Except Err Ix :=
  tokenAdminIx env (.updateFee f multiplier divisor) authority tokenSettings
/-- `update_token_name_ix`, `bindings.rs:1013-1034` -/
def updateTokenNameIx (authority tokenSettings : Pubkey) (symbol name : Bytes) : Except Err Ix :=
  tokenAdminIx env (.updateTokenName symbol name) authority tokenSettings

/-- `withdrawal_ever_fee_ix`, `bindings.rs:1036-1062` -/
def withdrawEverFeeIx (authority mint recipientToken : Pubkey) (token : EverAddress) (amount : U64) : Except Err Ix := do
  let settings ← settingsAddr env
  let tokenSettings ← tokenSettingsEverAddr env token
  let data ← packed Instr.codec (.withdrawEverFee amount)
  .ok ⟨env.tpId, [.new authority true, .new mint false, .new recipientToken false, .new tokenSettings false, .readonly settings false,
    .readonly env.splId false], data⟩

/-- `withdrawal_sol_fee_ix`, `bindings.rs:1064-1090` -/
def withdrawSolFeeIx (authority recipientToken mint : Pubkey) (amount : U64) : Except Err Ix := do
  let settings ← settingsAddr env
  let vault ← vaultAddr env mint
  let tokenSettings ← tokenSettingsSolAddr env mint
  let data ← packed Instr.codec (.withdrawSolFee amount)
  .ok ⟨env.tpId, [.new authority true, .new vault false, .new tokenSettings false, .new recipientToken false, .readonly settings false,
    .readonly env.splId false], data⟩

/-! ## Pending withdrawals -/

/-- `change_bounty_for_withdrawal_sol_ix`, `bindings.rs:1092-1109` -/
def changeBountyIx (author withdrawal : Pubkey) (bounty : U64) : Except Err Ix := do
  let data ← packed Instr.codec (.changeBountyForWithdrawSol bounty)
  .ok ⟨env.tpId, [.new author true, .new withdrawal false], data⟩

/-- `cancel_withdrawal_sol_ix`, `bindings.rs:1111-1153` -/
def cancelIx (funder author withdrawal mint : Pubkey) (seed : U128) (recipient : EverAddress) (value : U64) (evers : Pubkey)
    (payload : Bytes) : Except Err Ix := do
  let settings ← settingsAddr env
  let multiVault ← multiVaultAddr env
  let deposit ← depositAddr env seed
  let tokenSettings ← tokenSettingsSolAddr env mint
  let data ← packed Instr.codec (.cancelWithdrawSol seed recipient value evers payload)
  .ok ⟨env.tpId, [.new funder true, .new author true, .new mint false, .new withdrawal false, .new deposit false, .readonly settings false,
    .readonly tokenSettings false, .readonly env.systemId false, .readonly env.rentId false, .new multiVault false], data⟩

/-- The accounts added for the withdrawals of a fill, `bindings.rs:1200-1206`. -/
def fillMetas (mint : Pubkey) : List (Pubkey × Pubkey) → Except Err (List Meta)
  | [] => .ok []
  | (withdrawal, to) :: rest => do
    let recipientToken ← ataAddr env to mint
    let more ← fillMetas mint rest
    .ok (Meta.new withdrawal false :: Meta.new recipientToken false :: more)

/-- `fill_withdrawal_sol_ix`, `bindings.rs:1155-1218` -/
def fillIx (funder author mint : Pubkey) (seed : U128) (recipient : EverAddress) (amount : U64) (withdrawals : List (Pubkey × Pubkey))
    (vault : Option Pubkey) (value : U64) (evers : Pubkey) (payload : Bytes) : Except Err Ix := do
  let authorToken ← ataAddr env author mint
  let settings ← settingsAddr env
  let multiVault ← multiVaultAddr env
  let deposit ← depositAddr env seed
  let tokenSettings ← tokenSettingsSolAddr env mint
  let data ← packed Instr.codec (.fillWithdrawSol seed recipient amount value evers payload)
  let pairs ← fillMetas env mint withdrawals
  .ok ⟨env.tpId, [.new funder true, .new author true, .new authorToken false, .new mint false, .new deposit false, .readonly settings false,
    .readonly env.systemId false, .readonly tokenSettings false, .readonly env.splId false, .readonly env.rentId false,
    .new multiVault false] ++ pairs ++ (vault.toList.map fun v => Meta.new v false), data⟩

/-! ## Proxy accounts, closing, multi vault -/

/-- `withdrawal_proxy_ix`, `bindings.rs:1220-1243` -/
def withdrawProxyIx (recipient recipientToken mint : Pubkey) (amount : U64) : Except Err Ix := do
  let proxy ← proxyAddr env mint recipient
  let data ← packed Instr.codec (.withdrawProxy amount)
  .ok ⟨env.tpId, [.new recipient true, .new recipientToken false, .new proxy false, .readonly mint false, .readonly env.splId false], data⟩

/-- `close_deposit_ix`, `bindings.rs:1245-1258` -/
def closeDepositIx (author deposit : Pubkey) : Except Err Ix := do
  let data ← packed Instr.codec .closeDeposit
  .ok ⟨env.tpId, [.new author true, .new deposit false], data⟩

/-- `close_withdrawal_ix`, `bindings.rs:1260-1276` -/
def closeWithdrawalIx (withdrawal author : Pubkey) : Except Err Ix := do
  let data ← packed Instr.codec .closeWithdrawal
  .ok ⟨env.tpId, [.new withdrawal false, .new author false], data⟩

/-- `withdrawal_multi_vault_ix`, `bindings.rs:1278-1301` -/
def withdrawMultiVaultIx (authority recipient : Pubkey) (amount : U64) : Except Err Ix := do
  let settings ← settingsAddr env
  let multiVault ← multiVaultAddr env
  let data ← packed Instr.codec (.withdrawMultiVault amount)
  .ok ⟨env.tpId, [.new authority true, .new recipient false, .new multiVault false, .readonly settings false, .readonly env.systemId false], data⟩

end Verif.TP.Client
