import Verif.Spec.Toy
import Verif.Spec.Trace
/-!
# The token proxy on the toy chain

Concrete runs used by the `example`s and counterexamples.
-/
namespace Verif.Toy
open Verif TP

def alice : Pubkey := 1004
def bob : Pubkey := 1005
def carol : Pubkey := 1006
def guardian : Pubkey := 1010
def manager : Pubkey := 1011
def wmanager : Pubkey := 1012

def tpProgramdata : Pubkey := addr [seedKey env.tpId] env.loaderId
def tpSettings : Pubkey := addr settingsSeeds env.tpId
def tpMulti : Pubkey := addr multiVaultSeeds env.tpId
/-- the Solana token of the examples, and token accounts of alice, bob and carol -/
def gold : Pubkey := 500
def aliceGold : Pubkey := 501
def bobGold : Pubkey := 502
def carolGold : Pubkey := 503
def tpGold : Pubkey := addr (tokenSettingsSolSeeds gold) env.tpId
def tpVault : Pubkey := addr (vaultSeeds gold) env.tpId
def tpDep (n : U128) : Pubkey := addr (depositSeeds n) env.tpId
def home : EverAddress := ⟨0, 77⟩

def tctx (accounts signers : List Pubkey) : Ctx := ctx env.tpId accounts signers

/-- One more instruction of the token proxy. -/
def tp (a : Except Err World) (c : Ctx) (i : TP.Instr) : Except Err World := a >>= fun w => TP.run env c noCpi i w

def initCtx : Ctx := tctx [funder, authority, tpSettings, tpMulti, tpProgramdata, env.systemId, env.rentId] [funder, authority]
/-- the token proxy is initialized -/
def tpInit : Except Err World := tp rlRound1 initCtx (.init guardian manager wmanager)

def depCtx (n : U128) : Ctx :=
  tctx [funder, alice, aliceGold, tpVault, tpDep n, gold, tpMulti, tpGold, tpSettings, env.systemId, env.splId, env.rentId] [funder, alice]
/-- alice deposits 50000 -/
def tpDeposited : Except Err World :=
  tp tpInit (depCtx 1) (.depositMultiTokenSol 1 (ascii "Gold") (ascii "GLD") 50000 home 7 0 [])

/-- address of a withdrawal in round 1 -/
def solAddr (p : PDA) (e : WSolEvent) : Pubkey := addr (proposalSeeds 1 p (env.hash (wSolEventC.enc e))) env.tpId
def everAddr (p : PDA) (e : WEverEvent) : Pubkey := addr (proposalSeeds 1 p (env.hash (wEverEventC.enc e))) env.tpId

def reqCtx (k : Pubkey) : Ctx :=
  tctx [funder, alice, k, tpGold, rlSettings, rlRound 1, env.systemId, env.rentId, env.clockId] [funder, alice]
def voteCtx (k : Pubkey) (i : Nat) : Ctx := tctx [relay i, k, rlRound 1] [relay i]
def vote (a : Except Err World) (k : Pubkey) (i : Nat) : Except Err World :=
  tp a (voteCtx k i) (.voteForWithdrawRequest .confirm)
def solCtx (k to : Pubkey) : Ctx := tctx [k, tpVault, to, tpGold, gold, tpSettings, env.splId, env.clockId] []

/-! ## An ordinary withdrawal: 1000 to bob -/
def pda1 : PDA := ⟨1, 2, 3⟩
def ev1 : WSolEvent := ⟨gold, 1000, bob, []⟩
def wd1 : Pubkey := solAddr pda1 ev1
def tpReq : Except Err World := tp tpDeposited (reqCtx wd1) (.withdrawMultiTokenSolRequest pda1 bob 1000 [] 0)
def tpVote1 : Except Err World := vote tpReq wd1 0
def tpVote2 : Except Err World := vote tpVote1 wd1 1
def tpVote3 : Except Err World := vote tpVote2 wd1 2
def tpPaid : Except Err World := tp tpVote3 (solCtx wd1 bobGold) .withdrawMultiTokenSol
def tpClosed : Except Err World := tp tpPaid (tctx [wd1, alice] []) .closeWithdrawal

/-! ## More than the vault holds: 90000 to bob -/
def ev2' : WSolEvent := ⟨gold, 90000, bob, []⟩
def wd2 : Pubkey := solAddr pda1 ev2'
def tpReqB : Except Err World := tp tpDeposited (reqCtx wd2) (.withdrawMultiTokenSolRequest pda1 bob 90000 [] 0)
def tpBig1 : Except Err World := vote tpReqB wd2 0
def tpBig2 : Except Err World := vote tpBig1 wd2 1
def tpBig3 : Except Err World := vote tpBig2 wd2 2
def tpPending : Except Err World := tp tpBig3 (solCtx wd2 bobGold) .withdrawMultiTokenSol
def tpBounty : Except Err World := tp tpPending (tctx [alice, wd2] [alice]) (.changeBountyForWithdrawSol 100)
def cancelCtx (n : U128) : Ctx :=
  tctx [funder, alice, gold, wd2, tpDep n, tpSettings, tpGold, env.systemId, env.rentId, tpMulti] [funder, alice]
def tpCancelled : Except Err World := tp tpBounty (cancelCtx 2) (.cancelWithdrawSol 2 home 7 0 [])
def fillCtx (n : U128) : Ctx :=
  tctx [funder, carol, carolGold, gold, tpDep n, tpSettings, env.systemId, tpGold, env.splId, env.rentId, tpMulti, wd2, bobGold, tpVault]
    [funder, carol]
def tpFilled : Except Err World := tp tpBounty (fillCtx 3) (.fillWithdrawSol 3 home 95000 7 0 [])

/-! ## Above the limit: 1000 to bob with limit 100 -/
def tpLimited : Except Err World :=
  tp tpVote3 (tctx [manager, tpGold, tpSettings] [manager]) (.changeWithdrawalLimits (some 100) none)
def tpWaiting : Except Err World := tp tpLimited (solCtx wd1 bobGold) .withdrawMultiTokenSol
def approveCtx : Ctx := tctx [wmanager, tpVault, wd1, bobGold, tpGold, tpSettings, env.splId, env.clockId] [wmanager]
def tpApproved : Except Err World := tp tpWaiting approveCtx .approveWithdrawSol

/-! ## With a payload: 1000 to bob -/
def ev4 : WSolEvent := ⟨gold, 1000, bob, [9]⟩
def wd4 : Pubkey := solAddr pda1 ev4
def tpProxy : Pubkey := addr (proxySeeds gold bob) env.tpId
def reqCtx4 : Ctx :=
  tctx [funder, alice, wd4, tpGold, rlSettings, rlRound 1, env.systemId, env.rentId, env.clockId, tpProxy, gold, env.splId] [funder, alice]
def tpReqP : Except Err World := tp tpDeposited reqCtx4 (.withdrawMultiTokenSolRequest pda1 bob 1000 [9] 5)
def tpP1 : Except Err World := vote tpReqP wd4 0
def tpP2 : Except Err World := vote tpP1 wd4 1
def tpP3 : Except Err World := vote tpP2 wd4 2
def tpPaidP : Except Err World := tp tpP3 (solCtx wd4 tpProxy) .withdrawMultiTokenSol

/-! ## A token of Everscale: 7000 to bob, then a deposit -/
def star : EverAddress := ⟨0, 99⟩
def tpStar : Pubkey := addr (tokenSettingsEverSeeds env star) env.tpId
def starMint : Pubkey := addr (mintSeeds env star) env.tpId
/-- name and symbol of the star token: 32 and 10 letters S; with these its events cannot be read as events of a Solana token -/
def starName : Bytes := List.replicate 32 0x53#8
def starSymbol : Bytes := List.replicate 10 0x53#8
def ev5 : WEverEvent := ⟨star, starName, starSymbol, 9, 70000, bob, []⟩
def wd5 : Pubkey := everAddr pda1 ev5
def bobStar : Pubkey := addr (ataSeeds env bob starMint) env.ataId
def tpReqE : Except Err World :=
  tp tpDeposited (tctx [funder, alice, wd5, rlSettings, rlRound 1, env.systemId, env.rentId, env.clockId] [funder, alice])
    (.withdrawMultiTokenEverRequest pda1 star starName starSymbol 9 bob 70000 [] 0)
def tpE1 : Except Err World := vote tpReqE wd5 0
def tpE2 : Except Err World := vote tpE1 wd5 1
def tpE3 : Except Err World := vote tpE2 wd5 2
def everCtx : Ctx :=
  tctx [wd5, starMint, bobStar, tpStar, tpSettings, env.systemId, env.splId, env.rentId, env.clockId, funder, bob, env.ataId] [funder]
def tpPaidE : Except Err World := tp tpE3 everCtx .withdrawMultiTokenEver
def tpDepE : Except Err World :=
  tp tpPaidE (tctx [funder, bob, bobStar, tpDep 4, starMint, tpMulti, tpStar, tpSettings, env.systemId, env.splId, env.rentId] [funder, bob])
    (.depositMultiTokenEver 4 20000 home 7 0 [])

/-! ## Administration -/
def tpEmerg : Except Err World := tp tpDeposited (tctx [guardian, tpSettings] [guardian]) .enableEmergencyMode
def tpTokEmerg : Except Err World := tp tpDeposited (tctx [guardian, tpGold, tpSettings] [guardian]) .enableTokenEmergencyMode
def roleCtx : Ctx := tctx [authority, tpSettings, tpProgramdata] [authority]
def tpNewGuardian : Except Err World := tp tpEmerg roleCtx (.changeGuardian stranger)
def tpEmergOff : Except Err World := tp tpNewGuardian roleCtx .disableEmergencyMode
def managerCtx : Ctx := tctx [manager, tpGold, tpSettings] [manager]
def tpNewFee : Except Err World := tp tpDeposited managerCtx (.updateFee .deposit 3 1000)
def tpNewLimit : Except Err World := tp tpNewFee managerCtx (.changeDepositLimit 60000)
def solFeeCtx : Ctx := tctx [manager, tpVault, tpGold, bobGold, tpSettings, env.splId] [manager]
/-- the manager takes 2 of the fees of the deposit and the payout -/
def tpFeeOut : Except Err World := tp tpPaid solFeeCtx (.withdrawSolFee 2)
def everFeeCtx : Ctx := tctx [manager, starMint, bobStar, tpStar, tpSettings, env.splId] [manager]
def tpFeeOutE : Except Err World := tp tpDepE everFeeCtx (.withdrawEverFee 2)

/-! ## Tricks: another token's settings, another vault -/
/-- a mint of alice's, and two of their token accounts -/
def junk : Pubkey := 510
def junk1 : Pubkey := 511
def junk2 : Pubkey := 512
def tpJunk : Pubkey := addr (tokenSettingsSolSeeds junk) env.tpId
def tpJunkVault : Pubkey := addr (vaultSeeds junk) env.tpId
/-- `depositMultiTokenSol` with chosen token account, vault, mint and token settings -/
def trickCtx (n : U128) (src vault mint ts : Pubkey) : Ctx :=
  tctx [funder, alice, src, vault, tpDep n, mint, tpMulti, ts, tpSettings, env.systemId, env.splId, env.rentId] [funder, alice]
def trick (a : Except Err World) (n : U128) (src vault mint ts : Pubkey) (x : U64) : Except Err World :=
  tp a (trickCtx n src vault mint ts) (.depositMultiTokenSol n (ascii "Junk") (ascii "JNK") x home 7 0 [])
/-- gold is in emergency mode; alice deposits junk -/
def tpJunkDep : Except Err World := trick tpTokEmerg 10 junk1 tpJunkVault junk tpJunk 100
/-- alice deposits gold with the settings of junk -/
def tpBypass : Except Err World := trick tpJunkDep 11 aliceGold tpVault gold tpJunk 1000
/-- alice "deposits" gold by moving junk between their own accounts -/
def tpFake : Except Err World := trick tpDeposited 12 junk1 junk2 gold tpGold 40000

/-! ## A payload executed while a vote is missing: round 2 has four relays and needs three votes -/
def tqInit : Except Err World := tp rlExecuted initCtx (.init guardian manager wmanager)
def tqDeposited : Except Err World :=
  tp tqInit (depCtx 1) (.depositMultiTokenSol 1 (ascii "Gold") (ascii "GLD") 50000 home 7 0 [])
def wd6 : Pubkey := addr (proposalSeeds 2 pda1 (env.hash (wSolEventC.enc ev4))) env.tpId
def reqCtx6 : Ctx :=
  tctx [funder, alice, wd6, tpGold, rlSettings, rlRound 2, env.systemId, env.rentId, env.clockId, tpProxy, gold, env.splId] [funder, alice]
def tqReq : Except Err World := tp tqDeposited reqCtx6 (.withdrawMultiTokenSolRequest pda1 bob 1000 [9] 5)
def voteCtx6 (i : Nat) : Ctx := tctx [relay i, wd6, rlRound 2] [relay i]
def vote6 (a : Except Err World) (i : Nat) : Except Err World := tp a (voteCtx6 i) (.voteForWithdrawRequest .confirm)
def tqVote1 : Except Err World := vote6 tqReq 0
def tqVote2 : Except Err World := vote6 tqVote1 1
def tqVote3 : Except Err World := vote6 tqVote2 2
def tqPaid : Except Err World := tp tqVote3 (solCtx wd6 tpProxy) .withdrawMultiTokenSol
/-- relay 3 votes, from within the payload -/
def tqInner : Except Err World := vote6 tqPaid 3
def execCtx6 : Ctx := tctx [wd6] []
/-- the payload is executed -/
def tqDone : Except Err World := tqPaid >>= fun w => tqInner >>= fun c => TP.run env execCtx6 (cpiTo tpProxy c) .executePayloadSol w

/-! ## An old round: round 2 is the current one, the request is made with round 1 -/
def oldCtx : Ctx := tctx [funder, alice, wd5, rlSettings, rlRound 1, env.systemId, env.rentId, env.clockId] [funder, alice]
def tqOld : Except Err World := tp rlExecuted oldCtx (.withdrawMultiTokenEverRequest pda1 star starName starSymbol 9 bob 70000 [] 0)

/-! ## The same event twice: wd1 was paid and closed -/
/-- the end of a transaction -/
def sweep (w : World) : World := { w with acc := fun k => if (w.acc k).lamports = 0 then ⟨0, env.systemId, .raw []⟩ else w.acc k }
def tpSwept : Except Err World := tpClosed >>= fun w => .ok (sweep w)
def tpReq' : Except Err World := tp tpSwept (reqCtx wd1) (.withdrawMultiTokenSolRequest pda1 bob 1000 [] 0)
def tpVote1' : Except Err World := vote tpReq' wd1 0
def tpVote2' : Except Err World := vote tpVote1' wd1 1
def tpVote3' : Except Err World := vote tpVote2' wd1 2
def tpPaid' : Except Err World := tp tpVote3' (solCtx wd1 bobGold) .withdrawMultiTokenSol

/-! ## An amount above 64 bits: 2^64 + 1000 to bob -/
def huge : U128 := 18446744073709552616
def ev7 : WSolEvent := ⟨gold, huge, bob, []⟩
def wd7 : Pubkey := solAddr pda1 ev7
def tpReqH : Except Err World := tp tpDeposited (reqCtx wd7) (.withdrawMultiTokenSolRequest pda1 bob huge [] 0)
def tpH1 : Except Err World := vote tpReqH wd7 0
def tpH2 : Except Err World := vote tpH1 wd7 1
def tpH3 : Except Err World := vote tpH2 wd7 2
def tpPaidH : Except Err World := tp tpH3 (solCtx wd7 bobGold) .withdrawMultiTokenSol

/-! ## The token of Everscale is created before anyone voted -/
def tpDeployed : Except Err World := tp tpReqE everCtx .withdrawMultiTokenEver

end Verif.Toy
