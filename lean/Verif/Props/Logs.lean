import Verif.Lemmas.LogStatus
import Verif.Spec.ToyReachW
import Verif.Spec.ToyMore
import Verif.Spec.ToyClientTP
import Verif.Spec.ToyTactic
import Verif.Spec.ToyNative
import Verif.Spec.ToyForge
/-!
# The log tells the truth

C81: which records an instruction writes into the log, in which order and about which accounts, and that everything a record says holds afterwards.
-/
set_option linter.unusedSimpArgs false
set_option maxRecDepth 100000
namespace Verif.Props
open Verif TP Codec

variable {env : Env} {ctx : Ctx} {w w' : World} {cpi : Pubkey → World → Except Err World}

/-- C81: every instruction, other than a cancellation and the execution of a payload, logs the records `Announces` lists, and nothing else, and everything
these records say is true of the state it leaves. -/
theorem C81_log_partial {i : Instr} (hp : ctx.program = env.tpId) (hi : ¬ executes i) (hc : ∀ sd rc v e p, i ≠ .cancelWithdrawSol sd rc v e p)
    (h : TP.run env ctx cpi i w = .ok w') : ∃ l, Logged l w w' ∧ Announces ctx w i l ∧ ∀ x ∈ l, x.Claims env w' := by
  obtain ⟨l, h1, h2, h3⟩ := run_says hp hi h
  exact ⟨l, h1, h2, h3 hc⟩

/-- The full claim of C81 is false: the record that a cancellation logs about the new transfer names the account of the withdrawal, which holds no transfer.
Apart from the account it describes the new transfer, and the record about the withdrawal is true. -/
theorem C81_cancel {sd : U128} {rc : EverAddress} {v : U64} {e : Pubkey} {p : Bytes} (h : TP.run env ctx cpi (.cancelWithdrawSol sd rc v e p) w = .ok w') :
    ∃ x d, ctx.accounts[3]? = some x.account ∧ ctx.accounts[4]? = some d ∧ Logged [.deposit x, .status ⟨x.account, .cancelled⟩] w w' ∧
      ¬ Record.Claims env w' (.deposit x) ∧ Record.Claims env w' (.deposit { x with account := d }) ∧
      Record.Claims env w' (.status ⟨x.account, .cancelled⟩) := by
  obtain ⟨f, au, mi, kw, dp, kt, mv, r, t, tv, m, fee, tr, -, -, -, h3, h4, -, -, -, hwo, -, -, -, -, -, -, -, -, -, -, -, -, -, hmade, hst, -, -, -, hl, -⟩ :=
    cancel_fx h
  obtain ⟨n, pn, hk⟩ := hwo.2.2.2
  refine ⟨⟨kw, rc, tr, sd, v, e, key.enc (env.hash (depositSolEventC.enc ⟨r.event.mint, t.name, t.symbol, m.decimals, tr, rc, v, e, p⟩))⟩, dp, h3, h4, ?_,
    HasDeposit.no hst hk, ?_, .inl ⟨_, hst, rfl⟩⟩
  · unfold Logged
    rw [hl]
    simp only [World.log, List.append_assoc]
    rfl
  · obtain ⟨n, len, ml, hd⟩ := hmade.record
    exact .inl ⟨n, _, len, ml, _, hd, rfl, rfl, rfl, rfl, rfl⟩

/-- C81: executing a payload adds nothing to what the payload logs. -/
theorem C81_payload {i : Instr} (hi : executes i) (h : TP.run env ctx cpi i w = .ok w') :
    ∃ w1, (w1 = w ∨ ∃ proxy, cpi proxy w = .ok w1) ∧ w'.logs = w1.logs := payload_mute hi h

/-- C81: the round loader logs nothing. -/
theorem C81_round_loader {i : RL.Instr} (h : RL.run env ctx i w = .ok w') : w'.logs = w.logs :=
  (RL.run_ops h).mute fun _ hw => nomatch hw

/-- C81: a deposit of SOL logs what the deposit of the wrapped SOL in it logs. -/
theorem C81_native_proxy {sd : U128} {a v : U64} {rc : EverAddress} {ev : Pubkey} {py : Bytes} (h : NP.run env ctx (.deposit sd a rc v ev py) w = .ok w') :
    ∃ inner w1 l, inner.program = env.tpId ∧ w1.logs = w.logs ∧ Logged l w w' ∧
      Announces inner w1 (.depositMultiTokenSol sd NP.wsolName NP.wsolSymbol a rc v ev py) l ∧ ∀ x ∈ l, x.Claims env w' := by
  obtain ⟨f, cr, ct, w1, kv, d, mv, kt, ks, inner, h0, h1, h2, -, -, hcr, hf, -, -, hwr, hrel, hrun, hwrap⟩ := NP.deposit_fx h
  have e := NP.wrap_mute hwrap
  obtain ⟨l, hl, ha, hc⟩ := C81_log_partial hrel.program (by rintro (h | h) <;> cases h) (by intros; intro h; cases h) hrun
  refine ⟨inner, w1, l, hrel.program, e, ?_, ha, hc⟩
  unfold Logged at hl ⊢
  rw [hl, e]

/-- C81: whoever follows the log sees every change of the status of a withdrawal, except those by an approval of a withdrawal of a Solana token and by the
execution of a payload. -/
theorem C81_status_partial {i : Instr} {k : Pubkey} {p p' : GenericProposal} {md md' : WMeta} (hd : env.Distinct) (hp : ctx.program = env.tpId)
    (h : TP.run env ctx noCpi i w = .ok w') (hi : ¬ executes i) (hi' : i ≠ .approveWithdrawSol) (h0 : WithdrawalAt env w k p md) (ho : OneReading p.event)
    (h1 : WithdrawalAt env w' k p' md') (hne : md'.status ≠ md.status) :
    ∃ l, Logged l w w' ∧ Announces ctx w i l ∧ .status ⟨k, md'.status⟩ ∈ l := run_status hd hp h hi hi' h0 ho h1 hne

/-- The exceptions are real: an approval pays a withdrawal of a Solana token, in a state the bridge can reach, and the log does not grow. -/
theorem C81_unannounced : ∃ (env : Env) (L : Pubkey → Prop) (w w' : World) (ctx : Ctx) (k : Pubkey) (p p' : GenericProposal) (md md' : WMeta),
    env.Distinct ∧ Reach env L w ∧ L k ∧ ctx.program = env.tpId ∧ TP.run env ctx noCpi .approveWithdrawSol w = .ok w' ∧
      WithdrawalAt env w k p md ∧ OneReading p.event ∧ md.status = .waitingForApprove ∧ WithdrawalAt env w' k p' md' ∧ md'.status = .processed ∧
      w'.logs = w.logs := by
  obtain ⟨p, md, hw, hP⟩ := Toy.tfind_withdrawal (w := Toy.get Toy.tpWaiting) (k := Toy.wd1) (P := fun _ md => md.status == .waitingForApprove) ?_
  obtain ⟨p', md', hw', hP'⟩ := Toy.tfind_withdrawal (w := Toy.get Toy.tpApproved) (k := Toy.wd1) (P := fun _ md => md.status == .processed) ?_
  obtain hpl : Toy.plain Toy.wd1 (Toy.get Toy.tpWaiting) = true := ?_
  obtain hr := Toy.get_tp (a := Toy.tpWaiting) (c := Toy.approveCtx) (i := .approveWithdrawSol) ?_
  exact ⟨Toy.env, Toy.L, Toy.get Toy.tpWaiting, Toy.get Toy.tpApproved, Toy.approveCtx, Toy.wd1, p, p', md, md', Toy.distinct, Toy.reach_tpWaiting,
    (show Toy.wd1 ∈ Toy.locked by simp [Toy.locked]), rfl, hr, hw, Toy.plain_ok hpl hw, eq_of_beq hP, hw', eq_of_beq hP', silent_mute rfl hr⟩
  checked

/-! ## Cases -/

/-- A fill of one withdrawal: the withdrawal is processed, by this deposit, and the deposit is made. -/
example : ∃ l, Logged l (Toy.get Toy.tpBounty) (Toy.get Toy.tpFilled) ∧
    Announces (Toy.fillCtx 3) (Toy.get Toy.tpBounty) (.fillWithdrawSol 3#128 Toy.home 95000#64 7#64 0#256 []) l ∧
    ∀ x ∈ l, x.Claims Toy.env (Toy.get Toy.tpFilled) := by
  obtain hr := Toy.get_tp (a := Toy.tpBounty) (c := Toy.fillCtx 3) (i := .fillWithdrawSol 3 Toy.home 95000 7 0 []) ?_
  exact C81_log_partial rfl (by rintro (h | h) <;> cases h) (by intros; intro h; cases h) hr
  checked

/-- The first deposit of a token logs its settings, then the deposit. -/
example : ∃ t x, Logged [.token t, .deposit x] (Toy.get Toy.tpInit) (Toy.get Toy.tpDeposited) ∧ t.account = Toy.tpGold ∧ x.account = Toy.tpDep 1 ∧
    Record.Claims Toy.env (Toy.get Toy.tpDeposited) (.token t) ∧ Record.Claims Toy.env (Toy.get Toy.tpDeposited) (.deposit x) := by
  obtain hr := Toy.get_tp (a := Toy.tpInit) (c := Toy.depCtx 1) (i := .depositMultiTokenSol 1 (ascii "Gold") (ascii "GLD") 50000 Toy.home 7 0 []) ?_
  obtain hz : Nat.beq ((Toy.get Toy.tpInit).acc Toy.tpGold).lamports 0 = true := ?_
  · obtain ⟨l, hl, ha, hc⟩ := C81_log_partial rfl (by rintro (h | h) <;> cases h) (by intros; intro h; cases h) hr
    cases ha with
    | silent h => cases h
    | depositSol h4 h7 hk hx => cases h7; exact (hk (Nat.eq_of_beq_eq_true hz)).elim
    | firstSol h4 h7 hk ht hx =>
      exact ⟨_, _, hl, (Option.some.inj h7).symm, (Option.some.inj h4).symm, hc _ (by simp), hc _ (by simp)⟩
  checked

/-- The first withdrawal of a token of Everscale. -/
example : ∃ l, Logged l (Toy.get Toy.tpE3) (Toy.get Toy.tpPaidE) ∧ Announces Toy.everCtx (Toy.get Toy.tpE3) .withdrawMultiTokenEver l ∧
    ∀ x ∈ l, x.Claims Toy.env (Toy.get Toy.tpPaidE) := by
  obtain hr := Toy.get_tp (a := Toy.tpE3) (c := Toy.everCtx) (i := .withdrawMultiTokenEver) ?_
  exact C81_log_partial rfl (by rintro (h | h) <;> cases h) (by intros; intro h; cases h) hr
  checked

/-- A cancellation. -/
example : ∃ x d, (Toy.cancelCtx 2).accounts[3]? = some x.account ∧ (Toy.cancelCtx 2).accounts[4]? = some d ∧
    Logged [.deposit x, .status ⟨x.account, .cancelled⟩] (Toy.get Toy.tpCheap) (Toy.get Toy.tpCancelledCheap) ∧
    ¬ Record.Claims Toy.env (Toy.get Toy.tpCancelledCheap) (.deposit x) := by
  obtain hr := Toy.get_tp (a := Toy.tpCheap) (c := Toy.cancelCtx 2) (i := .cancelWithdrawSol 2 Toy.home 7 0 []) ?_
  · obtain ⟨x, d, h3, h4, hl, hn, -⟩ := C81_cancel hr
    exact ⟨x, d, h3, h4, hl, hn⟩
  checked

/-- A payout that is announced. -/
example : ∃ l, Logged l (Toy.get Toy.tpVote3) (Toy.get Toy.tpPaid) ∧ Announces (Toy.solCtx Toy.wd1 Toy.bobGold) (Toy.get Toy.tpVote3) .withdrawMultiTokenSol l ∧
    .status ⟨Toy.wd1, .processed⟩ ∈ l := by
  obtain ⟨p, md, hw, hP⟩ := Toy.tfind_withdrawal (w := Toy.get Toy.tpVote3) (k := Toy.wd1) (P := fun _ md => md.status == .new) ?_
  obtain ⟨p', md', hw', hP'⟩ := Toy.tfind_withdrawal (w := Toy.get Toy.tpPaid) (k := Toy.wd1) (P := fun _ md => md.status == .processed) ?_
  obtain hpl : Toy.plain Toy.wd1 (Toy.get Toy.tpVote3) = true := ?_
  obtain hr := Toy.get_tp (a := Toy.tpVote3) (c := Toy.solCtx Toy.wd1 Toy.bobGold) (i := .withdrawMultiTokenSol) ?_
  · rw [← eq_of_beq hP']
    exact C81_status_partial Toy.distinct rfl hr (by rintro (h | h) <;> cases h) nofun hw (Toy.plain_ok hpl hw) hw'
      (by rw [eq_of_beq hP, eq_of_beq hP']; simp)
  checked

/-- A payload. -/
example : ∃ w1, (w1 = Toy.get Toy.tpPaidP ∨ ∃ proxy, cpiTo Toy.tpProxy (Toy.get Toy.tpSpent) proxy (Toy.get Toy.tpPaidP) = .ok w1) ∧
    (Toy.get Toy.tpExecuted).logs = w1.logs := C81_payload (.inr rfl) Toy.exec_done

/-- A relay votes for a new round. -/
example : (Toy.get Toy.rlVoted1).logs = (Toy.get Toy.rlFinalized).logs :=
  C81_round_loader (Toy.get_bind (a := Toy.rlFinalized) (f := fun w => RL.run Toy.env (Toy.rlVoteCtx 0) (.voteForProposal .confirm) w) (by decide +kernel))

/-- A deposit of SOL. -/
example : ∃ inner w1 l, inner.program = Toy.env.tpId ∧ w1.logs = (Toy.get Toy.npReady).logs ∧ Logged l (Toy.get Toy.npReady) (Toy.get Toy.npFirst) ∧
    Announces inner w1 (.depositMultiTokenSol 1#128 NP.wsolName NP.wsolSymbol 70000#64 Toy.home 7#64 0#256 []) l ∧
    ∀ x ∈ l, x.Claims Toy.env (Toy.get Toy.npFirst) := C81_native_proxy Toy.np_first

end Verif.Props
