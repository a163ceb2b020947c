import Verif.Spec.ToyDep
/-!
# The example chain: closing records, proxy accounts
-/
set_option maxRecDepth 100000
namespace Verif.Toy
open Verif TP

/-- alice closes the record of their deposit -/
def closeDepCtx : Ctx := tctx [alice, tpDep 1] [alice]
def tpDepClosed : Except Err World := tp tpDeposited closeDepCtx .closeDeposit
theorem reach_tpDepClosed : Reach env L (get tpDepClosed) := reach_tp reach_tpDeposited rfl (by decide +kernel) (by decide +kernel)

/-- bob takes 400 of the 999 gold in their proxy account -/
def proxyCtx : Ctx := tctx [bob, bobGold, tpProxy, gold, env.splId] [bob]
def tpProxyOut : Except Err World := tp tpPaidP proxyCtx (.withdrawProxy 400)
theorem reach_tpProxyOut : Reach env L (get tpProxyOut) := reach_tp reach_tpPaidP rfl (by decide +kernel) (by decide +kernel)

/-- alice sets a bounty above the amount of the pending withdrawal -/
def bountyCtx : Ctx := tctx [alice, wd2] [alice]
def tpBountyBig : Except Err World := tp tpPending bountyCtx (.changeBountyForWithdrawSol 1000000)
theorem reach_tpBountyBig : Reach env L (get tpBountyBig) := reach_tp reach_tpPending rfl (by decide +kernel) (by decide +kernel)

end Verif.Toy
