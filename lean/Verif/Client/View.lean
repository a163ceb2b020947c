import Verif.Client.Wasm
import Verif.TokenProxy.State
import Verif.RoundLoader.State
/-!
# The JavaScript packages: what they show of accounts

`wasm/src/lib.rs:1499-1511,1596-1794` and `round-loader/src/wasm.rs:228-308`. The functions take the data of an account. As for the other functions, the
conversion of the result to a JavaScript object (`serde_wasm_bindgen::to_value`) is not modelled.
-/
namespace Verif.Js
open Verif Codec

/-- `to_string` of an unsigned number. Used in `wasm/src/lib.rs:1596-1794`. -/
def showNat (n : Nat) : Bytes := if n < 10 then [BitVec.ofNat 8 (48 + n)] else showNat (n / 10) ++ [BitVec.ofNat 8 (48 + n % 10)]

/-- `i64::to_string`. Used in `wasm/src/lib.rs:1596-1794`. -/
def showI64 (i : I64) : Bytes := if i.toInt < 0 then 45#8 :: showNat i.toInt.natAbs else showNat i.toInt.natAbs

/-- `WasmSettings`, `wasm/src/lib.rs:1690-1696` -/
structure Settings where
  emergency : Bool
  guardian : Pubkey
  withdrawalManager : Pubkey
  manager : Pubkey

/-- `unpack_settings`, `wasm/src/lib.rs:1499-1511` -/
def viewSettings (data : Bytes) : Except Err Settings := do
  let s ← unpack TP.settingsC TP.recLen (·.isInitialized) (.raw data)
  .ok ⟨s.emergency, s.guardian, s.withdrawalManager, s.manager⟩

/-- `WasmTokenKind`, `wasm/src/lib.rs:1763-1774` -/
inductive TokenKind
  | ever (mint token : Bytes) (decimals : U8)
  | solana (mint vault : Bytes)

/-- `WasmTokenKind::from`, `wasm/src/lib.rs:1776-1794` -/
def tokenKind (env : Env) : TP.TokenKind → TokenKind
  | .ever mint token decimals => .ever (env.keyString mint) token.show decimals
  | .solana mint vault => .solana (env.keyString mint) (env.keyString vault)

/-- `WasmTokenSettings`, `wasm/src/lib.rs:1698-1714` -/
structure TokenSettings where
  isInitialized : Bool
  accountKind : AccountKind
  kind : TokenKind
  depositLimit : Bytes
  withdrawalLimit : Bytes
  withdrawalDailyLimit : Bytes
  withdrawalDailyAmount : Bytes
  withdrawalEpoch : Bytes
  emergency : Bool
  name : Bytes
  symbol : Bytes
  feeSupply : U64
  feeDepositInfo : TP.FeeInfo
  feeWithdrawalInfo : TP.FeeInfo

/-- `unpack_token_settings`, `wasm/src/lib.rs:1596-1618` -/
def viewToken (env : Env) (data : Bytes) : Except Err TokenSettings := do
  let t ← unpack TP.tokenSettingsC TP.recLen (·.isInitialized) (.raw data)
  .ok ⟨t.isInitialized, t.accountKind, tokenKind env t.kind, showNat t.depositLimit.toNat, showNat t.withdrawalLimit.toNat,
    showNat t.withdrawalDailyLimit.toNat, showNat t.withdrawalDailyAmount.toNat, showI64 t.withdrawalEpoch, t.emergency, t.name, t.symbol,
    t.feeSupply, t.feeDepositInfo, t.feeWithdrawalInfo⟩

/-- `unpack_withdrawal_multitoken_ever`, `wasm/src/lib.rs:1620-1637`: all fields, under the same names -/
def viewWithdrawalEver (data : Bytes) : Except Err (TP.Withdrawal TP.WEverEvent) :=
  unpack (TP.withdrawalC TP.wEverEventC) TP.recLen (·.isInitialized) (.raw data)

/-- `unpack_withdrawal_multitoken_sol`, `wasm/src/lib.rs:1639-1656` -/
def viewWithdrawalSol (data : Bytes) : Except Err (TP.Withdrawal TP.WSolEvent) :=
  unpack (TP.withdrawalC TP.wSolEventC) TP.recLen (·.isInitialized) (.raw data)

/-- `WasmDepositMultiTokenEver`, `WasmDepositMultiTokenSol`, `WasmDepositTokenMeta`, `wasm/src/lib.rs:1742-1761`. `eventLen` is the length field of the
event. -/
structure Deposit (E : Type) where
  isInitialized : Bool
  accountKind : AccountKind
  eventLen : U32
  event : E
  seed : Bytes

/-- `unpack_deposit_ever`, `wasm/src/lib.rs:1658-1672`, and `unpack_deposit_sol`, `wasm/src/lib.rs:1674-1688` -/
def viewDeposit {E : Type} (ec : Codec E) (data : Bytes) : Except Err (Deposit E) := do
  let d ← unpack (TP.depositC ec) TP.recLen (·.isInitialized) (.raw data)
  .ok ⟨d.isInitialized, d.accountKind, d.eventLen, d.event, showNat d.seed.toNat⟩

namespace RL

/-- `unpack_settings`, `round-loader/src/wasm.rs:228-242`: all fields -/
def viewSettings (data : Bytes) : Except Err Verif.RL.Settings :=
  unpack Verif.RL.settingsC Verif.RL.settingsLen (·.isInitialized) (.raw data)

/-- `unpack_relay_round`, `round-loader/src/wasm.rs:244-257`: all fields -/
def viewRound (data : Bytes) : Except Err Verif.RL.RelayRound :=
  unpack Verif.RL.relayRoundC Verif.RL.relayRoundLen (·.isInitialized) (.raw data)

/-- `unpack_relay_round_proposal`, `round-loader/src/wasm.rs:259-276`: all fields -/
def viewProposal (data : Bytes) : Except Err Verif.RL.Proposal :=
  unpack Verif.RL.proposalC Verif.RL.proposalLen (·.isInitialized) (.raw data)

end RL
end Verif.Js
