import Verif.TokenProxy.Processor
/-!
# Specification: which token and which transfers an instruction is about

C86, C87. The account list of each instruction has one place for the settings of a token, as the comments in `token-proxy/src/instruction.rs` list them.
-/
namespace Verif.TP

/-- The place of the token's settings in the account list, counted from 0. Votes, closing, roles and the emergency mode of the whole bridge are
about no token; requests of Everscale tokens name none, requests of Solana tokens only read it. -/
def tokenPlace : Instr → Option Nat
  | .depositMultiTokenEver .. => some 6
  | .depositMultiTokenSol .. => some 7
  | .withdrawMultiTokenEver => some 3
  | .withdrawMultiTokenSol => some 3
  | .approveWithdrawEver => some 4
  | .approveWithdrawSol => some 4
  | .withdrawEverFee _ => some 3
  | .withdrawSolFee _ => some 2
  | .changeDepositLimit _ => some 1
  | .changeWithdrawalLimits .. => some 1
  | .enableTokenEmergencyMode => some 1
  | .disableTokenEmergencyMode => some 1
  | .updateFee .. => some 1
  | .updateTokenName .. => some 1
  | .cancelWithdrawSol .. => some 6
  | .fillWithdrawSol .. => some 7
  | _ => none

/-- The account in this place. -/
def namedToken (ctx : Ctx) (i : Instr) : Option Pubkey :=
  match tokenPlace i with
  | some n => ctx.accounts[n]?
  | none => none

/-- The first, third, … of the accounts that come in pairs. -/
def firsts : List Pubkey → List Pubkey
  | a :: _ :: l => a :: firsts l
  | _ => []

/-- The withdrawals an instruction names: one in a fixed place, or for a fill the first of each pair of accounts after the eleven fixed ones. -/
def namedRequests (ctx : Ctx) : Instr → List Pubkey
  | .voteForWithdrawRequest _ => ctx.accounts[1]?.toList
  | .withdrawMultiTokenEver => ctx.accounts[0]?.toList
  | .withdrawMultiTokenSol => ctx.accounts[0]?.toList
  | .approveWithdrawEver => ctx.accounts[2]?.toList
  | .approveWithdrawSol => ctx.accounts[2]?.toList
  | .executePayloadEver => ctx.accounts[0]?.toList
  | .executePayloadSol => ctx.accounts[0]?.toList
  | .changeBountyForWithdrawSol _ => ctx.accounts[1]?.toList
  | .cancelWithdrawSol .. => ctx.accounts[3]?.toList
  | .fillWithdrawSol .. => firsts (ctx.accounts.drop 11)
  | .closeWithdrawal => ctx.accounts[0]?.toList
  | _ => []

end Verif.TP
