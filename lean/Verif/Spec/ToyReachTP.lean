import Verif.Spec.ToyReach
/-!
# States of the toy chain with the token proxy that can occur
-/
set_option maxRecDepth 100000
namespace Verif.Toy
open Verif

theorem reach_tpInit : Reach env L (get tpInit) := reach_tp reach_round1 rfl (by decide +kernel) (by decide +kernel)
theorem reach_tpDeposited : Reach env L (get tpDeposited) := reach_tp reach_tpInit rfl (by decide +kernel) (by decide +kernel)
theorem reach_tpReq : Reach env L (get tpReq) := reach_tp reach_tpDeposited rfl (by decide +kernel) (by decide +kernel)
theorem reach_tpVote1 : Reach env L (get tpVote1) := reach_tp reach_tpReq rfl (by decide +kernel) (by decide +kernel)
theorem reach_tpVote2 : Reach env L (get tpVote2) := reach_tp reach_tpVote1 rfl (by decide +kernel) (by decide +kernel)
theorem reach_tpVote3 : Reach env L (get tpVote3) := reach_tp reach_tpVote2 rfl (by decide +kernel) (by decide +kernel)
theorem reach_tpPaid : Reach env L (get tpPaid) := reach_tp reach_tpVote3 rfl (by decide +kernel) (by decide +kernel)
theorem reach_tpClosed : Reach env L (get tpClosed) := reach_tp reach_tpPaid rfl (by decide +kernel) (by decide +kernel)
theorem reach_tpReqB : Reach env L (get tpReqB) := reach_tp reach_tpDeposited rfl (by decide +kernel) (by decide +kernel)
theorem reach_tpBig1 : Reach env L (get tpBig1) := reach_tp reach_tpReqB rfl (by decide +kernel) (by decide +kernel)
theorem reach_tpBig2 : Reach env L (get tpBig2) := reach_tp reach_tpBig1 rfl (by decide +kernel) (by decide +kernel)
theorem reach_tpBig3 : Reach env L (get tpBig3) := reach_tp reach_tpBig2 rfl (by decide +kernel) (by decide +kernel)
theorem reach_tpPending : Reach env L (get tpPending) := reach_tp reach_tpBig3 rfl (by decide +kernel) (by decide +kernel)
theorem reach_tpBounty : Reach env L (get tpBounty) := reach_tp reach_tpPending rfl (by decide +kernel) (by decide +kernel)
theorem reach_tpCancelled : Reach env L (get tpCancelled) := reach_tp reach_tpBounty rfl (by decide +kernel) (by decide +kernel)
theorem reach_tpFilled : Reach env L (get tpFilled) := reach_tp reach_tpBounty rfl (by decide +kernel) (by decide +kernel)
theorem reach_tpLimited : Reach env L (get tpLimited) := reach_tp reach_tpVote3 rfl (by decide +kernel) (by decide +kernel)
theorem reach_tpWaiting : Reach env L (get tpWaiting) := reach_tp reach_tpLimited rfl (by decide +kernel) (by decide +kernel)
theorem reach_tpApproved : Reach env L (get tpApproved) := reach_tp reach_tpWaiting rfl (by decide +kernel) (by decide +kernel)
theorem reach_tpReqP : Reach env L (get tpReqP) := reach_tp reach_tpDeposited rfl (by decide +kernel) (by decide +kernel)
theorem reach_tpP1 : Reach env L (get tpP1) := reach_tp reach_tpReqP rfl (by decide +kernel) (by decide +kernel)
theorem reach_tpP2 : Reach env L (get tpP2) := reach_tp reach_tpP1 rfl (by decide +kernel) (by decide +kernel)
theorem reach_tpP3 : Reach env L (get tpP3) := reach_tp reach_tpP2 rfl (by decide +kernel) (by decide +kernel)
theorem reach_tpPaidP : Reach env L (get tpPaidP) := reach_tp reach_tpP3 rfl (by decide +kernel) (by decide +kernel)
theorem reach_tpReqE : Reach env L (get tpReqE) := reach_tp reach_tpDeposited rfl (by decide +kernel) (by decide +kernel)
theorem reach_tpE1 : Reach env L (get tpE1) := reach_tp reach_tpReqE rfl (by decide +kernel) (by decide +kernel)
theorem reach_tpE2 : Reach env L (get tpE2) := reach_tp reach_tpE1 rfl (by decide +kernel) (by decide +kernel)
theorem reach_tpE3 : Reach env L (get tpE3) := reach_tp reach_tpE2 rfl (by decide +kernel) (by decide +kernel)
theorem reach_tpPaidE : Reach env L (get tpPaidE) := reach_tp reach_tpE3 rfl (by decide +kernel) (by decide +kernel)
theorem reach_tpDepE : Reach env L (get tpDepE) := reach_tp reach_tpPaidE rfl (by decide +kernel) (by decide +kernel)
theorem reach_tpEmerg : Reach env L (get tpEmerg) := reach_tp reach_tpDeposited rfl (by decide +kernel) (by decide +kernel)
theorem reach_tpTokEmerg : Reach env L (get tpTokEmerg) := reach_tp reach_tpDeposited rfl (by decide +kernel) (by decide +kernel)
theorem reach_tpNewGuardian : Reach env L (get tpNewGuardian) := reach_tp reach_tpEmerg rfl (by decide +kernel) (by decide +kernel)
theorem reach_tpEmergOff : Reach env L (get tpEmergOff) := reach_tp reach_tpNewGuardian rfl (by decide +kernel) (by decide +kernel)
theorem reach_tpNewFee : Reach env L (get tpNewFee) := reach_tp reach_tpDeposited rfl (by decide +kernel) (by decide +kernel)
theorem reach_tpNewLimit : Reach env L (get tpNewLimit) := reach_tp reach_tpNewFee rfl (by decide +kernel) (by decide +kernel)
theorem reach_tpFeeOut : Reach env L (get tpFeeOut) := reach_tp reach_tpPaid rfl (by decide +kernel) (by decide +kernel)
theorem reach_tpFeeOutE : Reach env L (get tpFeeOutE) := reach_tp reach_tpDepE rfl (by decide +kernel) (by decide +kernel)
theorem reach_tpJunkDep : Reach env L (get tpJunkDep) := reach_tp reach_tpTokEmerg rfl (by decide +kernel) (by decide +kernel)
theorem reach_tpBypass : Reach env L (get tpBypass) := reach_tp reach_tpJunkDep rfl (by decide +kernel) (by decide +kernel)
theorem reach_tpFake : Reach env L (get tpFake) := reach_tp reach_tpDeposited rfl (by decide +kernel) (by decide +kernel)

end Verif.Toy
