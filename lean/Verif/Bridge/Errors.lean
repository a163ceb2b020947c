import Verif.Base.Runtime
/-!
# Numeric error codes (`bridge-utils/src/errors.rs`)
-/
namespace Verif
namespace BridgeError

/-- `e as u32` of `From<SolanaBridgeError> for ProgramError`, `errors.rs:43-47`: the declaration index. -/
def code : BridgeError → U32
  | depositLimit => 0
  | invalidTokenKind => 1
  | relayRoundExpired => 2
  | invalidRelayRound => 3
  | invalidRelay => 4
  | emergencyEnabled => 5
  | invalidWithdrawalStatus => 6
  | insufficientBalance => 7
  | insufficientVaultBalance => 8
  | relayAlreadyVoted => 9
  | overflow => 10
  | tokenNameLenLimit => 11
  | tokenSymbolLenLimit => 12
  | invalidVote => 13
  | votesOverflow => 14
  | invalidTokenSettingsName => 15
  | deserializePayload => 16

/-- `TryFrom<u32>::try_from`, `errors.rs:49-72` -/
def ofCode (n : U32) : Option BridgeError :=
  if n = 0 then some depositLimit
  else if n = 1 then some invalidTokenKind
  else if n = 2 then some relayRoundExpired
  else if n = 3 then some invalidRelayRound
  else if n = 4 then some invalidRelay
  else if n = 5 then some emergencyEnabled
  else if n = 6 then some invalidWithdrawalStatus
  else if n = 7 then some insufficientVaultBalance
  else if n = 8 then some relayAlreadyVoted
  else if n = 9 then some overflow
  else if n = 10 then some tokenNameLenLimit
  else if n = 11 then some tokenSymbolLenLimit
  else if n = 12 then some invalidVote
  else if n = 13 then some votesOverflow
  else none

end BridgeError
end Verif
