import Verif.Spec.ToyReachW
import Verif.Spec.ToyReachTP
/-!
# More histories of the toy chain
-/
set_option maxRecDepth 100000
namespace Verif.Toy
open Verif

/-- The chain can go on from `w0` to `w`, with `k` readable. -/
def Goes (k : Pubkey) (w0 w : World) : Prop := ∃ tr, Run env L true w0 tr w ∧ TP.Readable env k tr

theorem goes_refl (k : Pubkey) (w : World) : Goes k w w := ⟨[], .nil _ _, fun _ h => absurd h List.not_mem_nil⟩

theorem goes_tp {k : Pubkey} {w0 : World} {a : Except Err World} {c : Ctx} {i : TP.Instr} (h : Goes k w0 (get a)) (hp : c.program = env.tpId)
    (hs : (c.signers.all (fun k => Nat.blt k.toNat 2000)) = true)
    (hok : (isOk (tp a c i) && plain k (get (tp a c i))) = true) : Goes k w0 (get (tp a c i)) := by
  obtain ⟨tr, hr, hrd⟩ := h
  simp only [Bool.and_eq_true] at hok
  exact ⟨_, .tp c i hr hp (free hs) (get_tp hok.1), readable_snoc hrd hok.2⟩

theorem goes_sweep {k : Pubkey} {w0 : World} {a : Except Err World} (h : Goes k w0 (get a)) (hok : isOk a = true)
    (hpl : plain k (get (a >>= fun w => .ok (sweep w))) = true) : Goes k w0 (get (a >>= fun w => .ok (sweep w))) := by
  obtain ⟨tr, hr, hrd⟩ := h
  cases a with
  | error e => cases hok
  | ok w => exact ⟨_, .purge hr (sweep_ok _), readable_snoc hrd hpl⟩

/-! ## Between the two payouts of the same event -/
theorem goes_tpClosed : Goes wd1 (get tpPaid) (get tpClosed) := goes_tp (goes_refl _ _) rfl (by decide +kernel) (by decide +kernel)
theorem goes_tpSwept : Goes wd1 (get tpPaid) (get tpSwept) := goes_sweep goes_tpClosed (by decide +kernel) (by decide +kernel)
theorem goes_tpReq' : Goes wd1 (get tpPaid) (get tpReq') := goes_tp goes_tpSwept rfl (by decide +kernel) (by decide +kernel)
theorem goes_tpVote1' : Goes wd1 (get tpPaid) (get tpVote1') := goes_tp goes_tpReq' rfl (by decide +kernel) (by decide +kernel)
theorem goes_tpVote2' : Goes wd1 (get tpPaid) (get tpVote2') := goes_tp goes_tpVote1' rfl (by decide +kernel) (by decide +kernel)
theorem goes_tpVote3' : Goes wd1 (get tpPaid) (get tpVote3') := goes_tp goes_tpVote2' rfl (by decide +kernel) (by decide +kernel)

/-! ## The manager drops the deposit fee before a pending withdrawal is cancelled -/
def tpCheap : Except Err World := tp tpPending managerCtx (.updateFee .deposit 0 1000)
def tpCancelledCheap : Except Err World := tp tpCheap (cancelCtx 2) (.cancelWithdrawSol 2 home 7 0 [])
theorem reach_tpCheap : Reach env L (get tpCheap) := reach_tp reach_tpPending rfl (by decide +kernel) (by decide +kernel)

/-! ## Two withdrawals whose amounts together exceed 64 bits -/
def big : U128 := 9223372036854775809
def ev8 : TP.WSolEvent := ⟨gold, big, bob, []⟩
def pda9 : PDA := ⟨1, 2, 4⟩
def wd8 : Pubkey := solAddr pda1 ev8
def wd9 : Pubkey := solAddr pda9 ev8
def later (c : Ctx) : Ctx := { c with now := 200000 }
def tpFree : Except Err World := tp tpDeposited managerCtx (.updateFee .withdrawal 0 1000)
def tpF1 : Except Err World := tp tpFree (reqCtx wd8) (.withdrawMultiTokenSolRequest pda1 bob big [] 0)
def tpF2 : Except Err World := vote tpF1 wd8 0
def tpF3 : Except Err World := vote tpF2 wd8 1
def tpF4 : Except Err World := vote tpF3 wd8 2
def tpF5 : Except Err World := tp tpF4 (solCtx wd8 bobGold) .withdrawMultiTokenSol
def tpF6 : Except Err World := tp tpF5 (reqCtx wd9) (.withdrawMultiTokenSolRequest pda9 bob big [] 0)
def tpF7 : Except Err World := vote tpF6 wd9 0
def tpF8 : Except Err World := vote tpF7 wd9 1
def tpF9 : Except Err World := vote tpF8 wd9 2
/-- a day later -/
def tpF10 : Except Err World := tp tpF9 (later (solCtx wd9 bobGold)) .withdrawMultiTokenSol
def tpF11 : Except Err World := tp tpF10 (tctx [alice, wd8] [alice]) (.changeBountyForWithdrawSol 9223372036854775808)
def tpF12 : Except Err World := tp tpF11 (tctx [alice, wd9] [alice]) (.changeBountyForWithdrawSol 9223372036854775808)
def fillCtx2 : Ctx :=
  tctx [funder, carol, carolGold, gold, tpDep 3, tpSettings, env.systemId, tpGold, env.splId, env.rentId, tpMulti, wd8, bobGold, wd9, bobGold, tpVault]
    [funder, carol]
def tpFilled2 : Except Err World := tp tpF12 fillCtx2 (.fillWithdrawSol 3 home 1000 7 0 [])

theorem reach_tpFree : Reach env L (get tpFree) := reach_tp reach_tpDeposited rfl (by decide +kernel) (by decide +kernel)
theorem reach_tpF1 : Reach env L (get tpF1) := reach_tp reach_tpFree rfl (by decide +kernel) (by decide +kernel)
theorem reach_tpF2 : Reach env L (get tpF2) := reach_tp reach_tpF1 rfl (by decide +kernel) (by decide +kernel)
theorem reach_tpF3 : Reach env L (get tpF3) := reach_tp reach_tpF2 rfl (by decide +kernel) (by decide +kernel)
theorem reach_tpF4 : Reach env L (get tpF4) := reach_tp reach_tpF3 rfl (by decide +kernel) (by decide +kernel)
theorem reach_tpF5 : Reach env L (get tpF5) := reach_tp reach_tpF4 rfl (by decide +kernel) (by decide +kernel)
theorem reach_tpF6 : Reach env L (get tpF6) := reach_tp reach_tpF5 rfl (by decide +kernel) (by decide +kernel)
theorem reach_tpF7 : Reach env L (get tpF7) := reach_tp reach_tpF6 rfl (by decide +kernel) (by decide +kernel)
theorem reach_tpF8 : Reach env L (get tpF8) := reach_tp reach_tpF7 rfl (by decide +kernel) (by decide +kernel)
theorem reach_tpF9 : Reach env L (get tpF9) := reach_tp reach_tpF8 rfl (by decide +kernel) (by decide +kernel)
theorem reach_tpF10 : Reach env L (get tpF10) := reach_tp reach_tpF9 rfl (by decide +kernel) (by decide +kernel)
theorem reach_tpF11 : Reach env L (get tpF11) := reach_tp reach_tpF10 rfl (by decide +kernel) (by decide +kernel)
theorem reach_tpF12 : Reach env L (get tpF12) := reach_tp reach_tpF11 rfl (by decide +kernel) (by decide +kernel)

end Verif.Toy
