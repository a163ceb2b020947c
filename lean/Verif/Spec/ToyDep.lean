import Verif.Spec.ToyReachTP
/-!
# More deposits on the example chain
-/
set_option maxRecDepth 100000
namespace Verif.Toy
open Verif TP

/-- The first deposit of junk, with a limit of 60000 for gold and 50000 in its vault. -/
def tpLimJunk : Except Err World := trick tpNewLimit 10 junk1 tpJunkVault junk tpJunk 100
theorem reach_tpLimJunk : Reach env L (get tpLimJunk) := reach_tp reach_tpNewLimit rfl (by decide +kernel) (by decide +kernel)

/-- A deposit of 20000 gold that names the settings of junk. -/
def tpOver : Except Err World := trick tpLimJunk 11 aliceGold tpVault gold tpJunk 20000
theorem reach_tpOver : Reach env L (get tpOver) := reach_tp reach_tpLimJunk rfl (by decide +kernel) (by decide +kernel)


/-! ## A withdrawal of a token of Everscale above the limit; the fee is lowered before it is approved -/
theorem reach_tpDeployed : Reach env L (get tpDeployed) := reach_tp reach_tpReqE rfl (by decide +kernel) (by decide +kernel)
def starManCtx : Ctx := tctx [manager, tpStar, tpSettings] [manager]
def approveCtxE : Ctx := tctx [wmanager, starMint, wd5, bobStar, tpStar, tpSettings, env.splId, env.clockId] [wmanager]
/-- the manager limits payouts of the star token to 100 -/
def tpS0 : Except Err World := tp tpDeployed starManCtx (.changeWithdrawalLimits (some 100) none)
theorem reach_tpS0 : Reach env L (get tpS0) := reach_tp reach_tpDeployed rfl (by decide +kernel) (by decide +kernel)
/-- votes -/
def tpS1 : Except Err World := vote tpS0 wd5 0
theorem reach_tpS1 : Reach env L (get tpS1) := reach_tp reach_tpS0 rfl (by decide +kernel) (by decide +kernel)
/-- votes -/
def tpS2 : Except Err World := vote tpS1 wd5 1
theorem reach_tpS2 : Reach env L (get tpS2) := reach_tp reach_tpS1 rfl (by decide +kernel) (by decide +kernel)
/-- votes -/
def tpS3 : Except Err World := vote tpS2 wd5 2
theorem reach_tpS3 : Reach env L (get tpS3) := reach_tp reach_tpS2 rfl (by decide +kernel) (by decide +kernel)
/-- the withdrawal waits for approval; its fee of 35 is recorded -/
def tpSWait : Except Err World := tp tpS3 everCtx .withdrawMultiTokenEver
theorem reach_tpSWait : Reach env L (get tpSWait) := reach_tp reach_tpS3 rfl (by decide +kernel) (by decide +kernel)
/-- the fee is lowered -/
def tpSFee : Except Err World := tp tpSWait starManCtx (.updateFee .withdrawal 1 100000)
theorem reach_tpSFee : Reach env L (get tpSFee) := reach_tp reach_tpSWait rfl (by decide +kernel) (by decide +kernel)
/-- the withdrawal is approved, on a later day -/
def tpSDone : Except Err World := tp tpSFee { approveCtxE with now := 200000 } .approveWithdrawEver
theorem reach_tpSDone : Reach env L (get tpSDone) := reach_tp reach_tpSFee rfl (by decide +kernel) (by decide +kernel)

/-! ## A token of Everscale created with wrong decimals -/
def ev10 : WEverEvent := ⟨star, starName, starSymbol, 18, 1, bob, []⟩
def pda10 : PDA := ⟨77, 1, 2⟩
def wd10 : Pubkey := everAddr pda10 ev10
/-- alice requests a withdrawal of the star token with 18 decimals; there is no such event on Everscale -/
def tpW0 : Except Err World := 
  tp tpDeposited (tctx [funder, alice, wd10, rlSettings, rlRound 1, env.systemId, env.rentId, env.clockId] [funder, alice])
    (.withdrawMultiTokenEverRequest pda10 star starName starSymbol 18 bob 1 [] 0)
theorem reach_tpW0 : Reach env L (get tpW0) := reach_tp reach_tpDeposited rfl (by decide +kernel) (by decide +kernel)
/-- this creates the token, without any vote -/
def tpW1 : Except Err World := 
  tp tpW0 (tctx [wd10, starMint, bobStar, tpStar, tpSettings, env.systemId, env.splId, env.rentId, env.clockId, funder, bob, env.ataId] [funder]) .withdrawMultiTokenEver
theorem reach_tpW1 : Reach env L (get tpW1) := reach_tp reach_tpW0 rfl (by decide +kernel) (by decide +kernel)
/-- a genuine withdrawal of 70000, with 9 decimals -/
def tpW2 : Except Err World := 
  tp tpW1 (tctx [funder, alice, wd5, rlSettings, rlRound 1, env.systemId, env.rentId, env.clockId] [funder, alice])
    (.withdrawMultiTokenEverRequest pda1 star starName starSymbol 9 bob 70000 [] 0)
theorem reach_tpW2 : Reach env L (get tpW2) := reach_tp reach_tpW1 rfl (by decide +kernel) (by decide +kernel)
/-- votes -/
def tpW3 : Except Err World := vote tpW2 wd5 0
theorem reach_tpW3 : Reach env L (get tpW3) := reach_tp reach_tpW2 rfl (by decide +kernel) (by decide +kernel)
/-- votes -/
def tpW4 : Except Err World := vote tpW3 wd5 1
theorem reach_tpW4 : Reach env L (get tpW4) := reach_tp reach_tpW3 rfl (by decide +kernel) (by decide +kernel)
/-- votes -/
def tpW5 : Except Err World := vote tpW4 wd5 2
theorem reach_tpW5 : Reach env L (get tpW5) := reach_tp reach_tpW4 rfl (by decide +kernel) (by decide +kernel)
/-- the payout -/
def tpW6 : Except Err World := tp tpW5 everCtx .withdrawMultiTokenEver
theorem reach_tpW6 : Reach env L (get tpW6) := reach_tp reach_tpW5 rfl (by decide +kernel) (by decide +kernel)
def depCtxE : Ctx := tctx [funder, bob, bobStar, tpDep 4, starMint, tpMulti, tpStar, tpSettings, env.systemId, env.splId, env.rentId] [funder, bob]
/-- bob deposits 20000 of the token -/
def tpW7 : Except Err World := tp tpW6 depCtxE (.depositMultiTokenEver 4 20000 home 7 0 [])
theorem reach_tpW7 : Reach env L (get tpW7) := reach_tp reach_tpW6 rfl (by decide +kernel) (by decide +kernel)

end Verif.Toy
