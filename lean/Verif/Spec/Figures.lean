import Verif.Spec.TokenProxy
/-!
# The published figures
-/
namespace Verif.TP

/-- The terms every new token starts with: 0.05 % fee in both directions, no limits, in operation. -/
structure Standard (t : TokenSettings) : Prop where
  depositMultiplier : t.feeDepositInfo.multiplier.toNat = 5
  depositDivisor : t.feeDepositInfo.divisor.toNat = 10000
  withdrawalMultiplier : t.feeWithdrawalInfo.multiplier.toNat = 5
  withdrawalDivisor : t.feeWithdrawalInfo.divisor.toNat = 10000
  depositLimit : t.depositLimit.toNat = 18446744073709551615
  withdrawalLimit : t.withdrawalLimit.toNat = 18446744073709551615
  withdrawalDailyLimit : t.withdrawalDailyLimit.toNat = 18446744073709551615
  running : t.emergency = false

/-- The least fee is 1, otherwise 5 for every full 10000. -/
def standardFee (amount : Nat) : Nat := max 1 (amount / 10000 * 5)

end Verif.TP
