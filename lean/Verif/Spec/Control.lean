import Verif.Spec.Client
/-!
# The instructions of the owner

C85: whatever has happened, the upgrade authority sets every parameter to any value. An upgrade authority signs alone and names the accounts of the
parameters.
-/
namespace Verif

namespace TP

/-- The owner's call that names the settings `ks`, or the token `kt` and the settings. -/
def Order (env : Env) (owner pd ks : Pubkey) (kt : Option Pubkey) (now : I64) : Ctx :=
  match kt with
  | none => ⟨env.tpId, [owner, ks, pd], [owner], [ks], now⟩
  | some kt => ⟨env.tpId, [owner, kt, ks, pd], [owner], [kt], now⟩

/-- The instructions `is` succeed one after another, in the same call. -/
inductive Obeyed (env : Env) (ctx : Ctx) (cpi : Pubkey → World → Except Err World) : List Instr → World → World → Prop
  | nil (w : World) : Obeyed env ctx cpi [] w w
  | cons {i : Instr} {is : List Instr} {w w1 w2 : World} (h : run env ctx cpi i w = .ok w1) (hs : Obeyed env ctx cpi is w1 w2) :
      Obeyed env ctx cpi (i :: is) w w2

/-- The parameters of the bridge: two records of settings that differ only in these. -/
structure SameBridge (s s' : Settings) : Prop where
  init : s'.isInitialized = s.isInitialized
  kind : s'.accountKind = s.accountKind

/-- What the owner does to get the settings `s`. -/
def ordersFor (s : Settings) : List Instr :=
  [.changeGuardian s.guardian, .changeManager s.manager, .changeWithdrawalManager s.withdrawalManager,
   if s.emergency then .enableEmergencyMode else .disableEmergencyMode]

/-- The parameters of a token: two records that differ only in these. What the token is, its name, the fees collected and the count of the day
are no parameters. -/
structure SameToken (t t' : TokenSettings) : Prop where
  init : t'.isInitialized = t.isInitialized
  account : t'.accountKind = t.accountKind
  kind : t'.kind = t.kind
  name : t'.name = t.name
  symbol : t'.symbol = t.symbol
  supply : t'.feeSupply = t.feeSupply
  epoch : t'.withdrawalEpoch = t.withdrawalEpoch
  daily : t'.withdrawalDailyAmount = t.withdrawalDailyAmount

/-- What the owner does to get the parameters of `t`. -/
def ordersForToken (t : TokenSettings) : List Instr :=
  [.changeDepositLimit t.depositLimit, .changeWithdrawalLimits (some t.withdrawalLimit) (some t.withdrawalDailyLimit),
   .updateFee .deposit t.feeDepositInfo.multiplier t.feeDepositInfo.divisor,
   .updateFee .withdrawal t.feeWithdrawalInfo.multiplier t.feeWithdrawalInfo.divisor,
   if t.emergency then .enableTokenEmergencyMode else .disableTokenEmergencyMode]

end TP
end Verif
