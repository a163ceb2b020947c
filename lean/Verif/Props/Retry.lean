import Verif.Lemmas.RetryTP
import Verif.Lemmas.LiveTP
import Verif.Props.Local
import Verif.Spec.ToyNative
import Verif.Spec.ToyReachTP
import Verif.Spec.ToyTactic
/-!
# C79: sending an instruction again
-/
namespace Verif.Props
open Verif TP

variable {env : Env} {ctx ctx' : Ctx} {w w1 v v' : World}

/-- From an instruction that changes nothing in `w1` to one in a state that has the same accounts as far as they are given. -/
private theorem in_later_state {S : List Pubkey} {f : World → Except Err World} (hl : LocalTo S f) (hv : ∀ k ∈ S, v.acc k = w1.acc k)
    (h : ∀ w2, f w1 = .ok w2 → w2.acc = w1.acc) (h2 : f v = .ok v') : SameAccounts v v' := by
  rcases hl w1 v (fun k hk => (hv k hk).symm) with ⟨e, -, he⟩ | ⟨w2, v2, l, h3, h4, h5, h6, -, -⟩
  · rw [h2] at he; cases he
  · rw [h2] at h4; cases h4
    intro k
    by_cases hk : k ∈ S
    · rw [← h5 k hk, h w2 h3, hv k hk]
    · exact (h6 k hk).2

/-- C79 (round loader): an instruction that was executed and is sent again — signed by whomever, at whatever time, as long as the accounts given
to it are what the first execution left — fails or changes no account. -/
theorem C79_round_loader {d : Bytes} (hc : SameCall ctx ctx') (h1 : RL.process env ctx d w = .ok w1) (hv : ∀ k ∈ ctx.accounts, v.acc k = w1.acc k)
    (h2 : RL.process env ctx' d v = .ok v') : SameAccounts v v' := by
  refine in_later_state (C71_round_loader (ctx := ctx') (d := d)) (by rw [hc.accounts]; exact hv) (fun w2 h3 => ?_) h2
  simp only [RL.process, bind_ok, orErr_ok] at h1 h3
  obtain ⟨i, hi, h1⟩ := h1
  obtain ⟨j, hj, h3⟩ := h3
  rw [hi] at hj; cases hj
  exact RL.run_again hc h1 h3

/-- C79 (token proxy, at once): whatever the payload executed in between or in the second execution does. -/
theorem C79_at_once {cpi cpi' : Pubkey → World → Except Err World} {d : Bytes} (hd : env.Distinct) (hp : ctx.program = env.tpId) (hc : SameCall ctx ctx')
    (hi : ∀ i, Instr.codec.decAll d = some i → i.collects = false ∧
      ∀ n p, i.proxyAt = some n → ctx.accounts[n]? = some p → (w.acc p).owner = env.systemId → (w.acc p).data.len = 0)
    (h1 : TP.process env ctx cpi d w = .ok w1) (h2 : TP.process env ctx' cpi' d w1 = .ok v') : SameAccounts w1 v' := by
  simp only [TP.process, bind_ok, orErr_ok] at h1 h2
  obtain ⟨i, hi1, h1⟩ := h1
  obtain ⟨j, hj, h2⟩ := h2
  rw [hi1] at hj; cases hj
  obtain ⟨a, b⟩ := hi i hi1
  exact fun k => congrFun (TP.run_again hc (by rw [hp]; exact hd.tpSys) hd.sysSpl.symm a b h1 h2) k

/-- C79 (token proxy): an instruction that was executed and is sent again — signed by whomever, at whatever time, as long as the accounts given
to it are what the first execution left — fails or changes no account. The exceptions are the four instructions that hand out a given amount
(`C79_fee_twice`). -/
theorem C79_token_proxy {cpi cpi' : Pubkey → World → Except Err World} {d : Bytes} (hd : env.Distinct) (hp : ctx.program = env.tpId) (hc : SameCall ctx ctx')
    (hi : ∀ i, Instr.codec.decAll d = some i → i.collects = false ∧
      ∀ n p, i.proxyAt = some n → ctx.accounts[n]? = some p → (w.acc p).owner = env.systemId → (w.acc p).data.len = 0)
    (hl : ∀ k, LocalTo ctx.accounts (cpi' k)) (h1 : TP.process env ctx cpi d w = .ok w1) (hv : ∀ k ∈ ctx.accounts, v.acc k = w1.acc k)
    (h2 : TP.process env ctx' cpi' d v = .ok v') : SameAccounts v v' :=
  in_later_state (C71_token_proxy (by rw [hc.accounts]; exact hl)) (by rw [hc.accounts]; exact hv)
    (fun _ h3 => funext (C79_at_once hd hp hc hi h1 h3)) h2

/-- C79 (native proxy): the same deposit of SOL is refused. -/
theorem C79_native_proxy {d : Bytes} (hc : SameCall ctx ctx') (h1 : NP.process env ctx d w = .ok w1) (hv : ∀ k ∈ ctx.accounts, v.acc k = w1.acc k) :
    ∃ e, NP.process env ctx' d v = .error e := by
  have key : ∀ w2, NP.process env ctx' d w1 ≠ .ok w2 := by
    intro w2 h2
    simp only [NP.process, bind_ok, orErr_ok] at h1 h2
    obtain ⟨i, hi, h1⟩ := h1
    obtain ⟨j, hj, h2⟩ := h2
    rw [hi] at hj; cases hj
    cases i with
    | deposit sd a rc x ev py =>
      obtain ⟨f, cr, ct, u, kv, dp, mv, kt, ks, inner, -, -, -, -, -, -, -, -, -, -, hr, hin, -⟩ := NP.deposit_fx h1
      obtain ⟨f', cr', ct', u', kv', dp', mv', kt', ks', inner', -, -, -, -, -, -, -, -, -, hw, hr', hin', -⟩ := NP.deposit_fx h2
      obtain ⟨_, _, _, _, dp1, _, _, _, _, _, _, _, _, _, _, _, -, -, -, -, a4, -, -, -, -, -, -, -, -, -, -, -, -, -, -, -, -, -, -, -, -, -, hm, -⟩ :=
        depositSol_fx hin
      obtain ⟨_, _, _, _, dp2, _, _, _, _, _, _, _, _, _, _, _, -, -, -, -, b4, -, -, -, -, -, -, -, -, -, -, -, -, -, -, -, -, -, -, -, -, -, hm', -⟩ :=
        depositSol_fx hin'
      rw [hr.accounts] at a4
      rw [hr'.accounts] at b4
      cases a4; cases b4
      cases hr.deposit.unique hr'.deposit
      obtain ⟨n, l, m, hh⟩ := hm.record
      have h0 := hm'.vacant.2
      by_cases hk : dp = ct'
      · subst hk
        obtain ⟨t, res, -, ht, -⟩ := hw.synced
        rw [ht] at h0
        cases h0
      · rw [hw.rest dp hk] at h0
        exact not_vacant (by decide) hh h0
  rcases C71_native_proxy (env := env) (ctx := ctx') (d := d) w1 v (fun k hk => (hv k (by rw [← hc.accounts]; exact hk)).symm) with
    ⟨e, -, he⟩ | ⟨w2, v2, l, h3, -⟩
  · exact ⟨e, he⟩
  · exact (key w2 h3).elim

/-! ## Non-vacuity -/

private theorem toy_again {c c' : Ctx} {i : Instr} {w w1 w2 : World} (hp : c.program = Toy.env.tpId) (hc : SameCall c c') (hw : Instr.codec.wf i = true)
    (hi : i.collects = false) (hn : i.proxyAt = none) (h1 : TP.run Toy.env c noCpi i w = .ok w1) (h2 : TP.run Toy.env c' noCpi i w1 = .ok w2) :
    SameAccounts w1 w2 :=
  C79_at_once (cpi := noCpi) (cpi' := noCpi) Toy.distinct hp hc (d := Instr.codec.enc i)
    (fun j hj => by
      rw [Instr.codec.decAll_enc _ hw] at hj
      cases hj
      exact ⟨hi, fun n p h => by rw [hn] at h; cases h⟩)
    (by rw [process_enc hw]; exact h1) (by rw [process_enc hw]; exact h2)

private theorem toy_np {c : Ctx} {i : NP.Instr} {w w1 : World} (hw : NP.Instr.codec.wf i = true) (h : NP.run Toy.env c i w = .ok w1) :
    ∃ e, NP.process Toy.env c (NP.Instr.codec.enc i) w1 = .error e :=
  C79_native_proxy ⟨rfl, rfl⟩ (by simp only [NP.process, Codec.decAll_enc _ _ hw, orErr, bind, Except.bind]; exact h) (fun _ _ => rfl)

private def tomorrow : Ctx := { Toy.solCtx Toy.wd1 Toy.bobGold with signers := [], now := 90000 }

/-- paying bob's withdrawal again the next day, and by nobody in particular, is accepted and pays nothing -/
example : ∃ w2, TP.run Toy.env (Toy.solCtx Toy.wd1 Toy.bobGold) noCpi .withdrawMultiTokenSol (Toy.get Toy.tpVote3) = .ok (Toy.get Toy.tpPaid) ∧
    TP.run Toy.env tomorrow noCpi .withdrawMultiTokenSol (Toy.get Toy.tpPaid) = .ok w2 ∧
    SameAccounts (Toy.get Toy.tpPaid) w2 := by
  obtain h1 := Toy.get_tp (a := Toy.tpVote3) (c := Toy.solCtx Toy.wd1 Toy.bobGold) (i := .withdrawMultiTokenSol) ?_
  obtain h2 := Toy.get_ok (r := TP.run Toy.env tomorrow noCpi .withdrawMultiTokenSol
    (Toy.get Toy.tpPaid)) ?_
  exact ⟨_, h1, h2, toy_again (c := Toy.solCtx Toy.wd1 Toy.bobGold) (c' := tomorrow) (i := .withdrawMultiTokenSol) rfl ⟨rfl, rfl⟩ rfl rfl rfl h1 h2⟩
  checked

/-- a relay that votes twice is paid once -/
example : ∃ w2, TP.run Toy.env (Toy.voteCtx Toy.wd1 0) noCpi (.voteForWithdrawRequest .confirm) (Toy.get Toy.tpReq) = .ok (Toy.get Toy.tpVote1) ∧
    TP.run Toy.env (Toy.voteCtx Toy.wd1 0) noCpi (.voteForWithdrawRequest .confirm) (Toy.get Toy.tpVote1) = .ok w2 ∧
    SameAccounts (Toy.get Toy.tpVote1) w2 := by
  obtain h1 := Toy.get_tp (a := Toy.tpReq) (c := Toy.voteCtx Toy.wd1 0) (i := .voteForWithdrawRequest .confirm) ?_
  obtain h2 := Toy.get_ok (r := TP.run Toy.env (Toy.voteCtx Toy.wd1 0) noCpi (.voteForWithdrawRequest .confirm) (Toy.get Toy.tpVote1)) ?_
  exact ⟨_, h1, h2, toy_again rfl ⟨rfl, rfl⟩ rfl rfl rfl h1 h2⟩
  checked

/-- the same request twice opens one withdrawal -/
example : ∃ w2, TP.run Toy.env (Toy.reqCtx Toy.wd1) noCpi (.withdrawMultiTokenSolRequest Toy.pda1 Toy.bob 1000 [] 0) (Toy.get Toy.tpDeposited) =
      .ok (Toy.get Toy.tpReq) ∧
    TP.run Toy.env (Toy.reqCtx Toy.wd1) noCpi (.withdrawMultiTokenSolRequest Toy.pda1 Toy.bob 1000 [] 0) (Toy.get Toy.tpReq) = .ok w2 ∧
    SameAccounts (Toy.get Toy.tpReq) w2 := by
  obtain h1 := Toy.get_tp (a := Toy.tpDeposited) (c := Toy.reqCtx Toy.wd1) (i := .withdrawMultiTokenSolRequest Toy.pda1 Toy.bob 1000 [] 0) ?_
  obtain h2 := Toy.get_ok (r := TP.run Toy.env (Toy.reqCtx Toy.wd1) noCpi (.withdrawMultiTokenSolRequest Toy.pda1 Toy.bob 1000 [] 0) (Toy.get Toy.tpReq)) ?_
  exact ⟨_, h1, h2, toy_again rfl ⟨rfl, rfl⟩ rfl rfl rfl h1 h2⟩
  checked

/-- the deposit of SOL sent again is refused -/
example : ∃ e, NP.process Toy.env (Toy.npCtx 1) (NP.Instr.codec.enc (.deposit 1 70000 Toy.home 7 0 [])) (Toy.get Toy.npFirst) = .error e :=
  toy_np rfl Toy.np_first

/-- a relay that votes twice on a new round is paid once -/
example : ∃ w2, RL.process Toy.env (Toy.rlVoteCtx 2) (RL.Instr.codec.enc (.voteForProposal .confirm)) (Toy.get Toy.rlVoted) = .ok w2 ∧
    SameAccounts (Toy.get Toy.rlVoted) w2 := by
  obtain h1 := Toy.get_bind (a := Toy.rlVoted2) (f := RL.run Toy.env (Toy.rlVoteCtx 2) (.voteForProposal .confirm)) ?_
  obtain h2 := Toy.get_ok (r := RL.process Toy.env (Toy.rlVoteCtx 2) (RL.Instr.codec.enc (.voteForProposal .confirm)) (Toy.get Toy.rlVoted)) ?_
  refine ⟨_, h2, C79_round_loader ⟨rfl, rfl⟩ (w := Toy.get Toy.rlVoted2) (w1 := Toy.get Toy.rlVoted) ?_ (fun _ _ => rfl) h2⟩
  · rw [RL.process_enc rfl]; exact h1
  checked

/-- C79, the exception: fees are handed out again each time. -/
theorem C79_fee_twice : ∃ (env : Env) (ctx : Ctx) (w w1 w2 : World), env.Distinct ∧ ctx.program = env.tpId ∧
    TP.run env ctx noCpi (.withdrawSolFee 2) w = .ok w1 ∧ TP.run env ctx noCpi (.withdrawSolFee 2) w1 = .ok w2 ∧
    ∃ k, bal w1 k = bal w k + 2 ∧ bal w2 k = bal w1 k + 2 := by
  obtain h1 := Toy.get_tp (a := Toy.tpPaid) (c := Toy.solFeeCtx) (i := .withdrawSolFee 2) ?_
  obtain h2 := Toy.get_ok (r := TP.run Toy.env Toy.solFeeCtx noCpi (.withdrawSolFee 2) (Toy.get Toy.tpFeeOut)) ?_
  obtain h3 := Nat.eq_of_beq_eq_true (n := bal (Toy.get Toy.tpFeeOut) Toy.bobGold) (m := bal (Toy.get Toy.tpPaid) Toy.bobGold + 2) ?_
  obtain h4 := Nat.eq_of_beq_eq_true (n := bal (Toy.get (TP.run Toy.env Toy.solFeeCtx noCpi (.withdrawSolFee 2) (Toy.get Toy.tpFeeOut))) Toy.bobGold)
    (m := bal (Toy.get Toy.tpFeeOut) Toy.bobGold + 2) ?_
  exact ⟨Toy.env, Toy.solFeeCtx, _, _, _, Toy.distinct, rfl, h1, h2, Toy.bobGold, h3, h4⟩
  checked

end Verif.Props
