import Verif.Lemmas.Bill
/-!
# Bills of the instructions of the round loader
-/
namespace Verif.RL
open Codec Verif

variable {env : Env} {ctx : Ctx} {w w' : World} {i : Instr}

theorem openRound_bill {f ks kr : Pubkey} {s : Settings} {num : U32} {relays : List Pubkey} {e : U32}
    (h : openRound env ctx f ks kr s num relays e w = .ok w') : Settled [⟨f, kr, env.minimum relayRoundLen⟩] w w' := by
  obtain ⟨n, w1, w2, -, h1, h2, h3⟩ := openRound_ok h
  exact ((createPda_bill h1).right (pack_lam h2)).right (pack_lam h3)

theorem run_bill (h : run env ctx i w = .ok w') : ∃ bill, Price env ctx w i bill ∧ Settled bill w w' := by
  cases i with
  | init g s m t =>
    simp only [run, processInitialize, bind_ok, acct_ok, require_ok, sysvar_ok, exists_const, TP.ex_unit, Prod.exists] at h
    obtain ⟨f, h0, _, -, k, h2, _, -, _, -, _, -, -, -, _, _, -, -, -, _, _, -, -, w1, hc, hp⟩ := h
    exact ⟨_, .init g s m t h0 h2, (createPda_bill hc).right (pack_lam hp)⟩
  | updateSettings n s m t =>
    simp only [run, processUpdateSettings, bind_ok, acct_ok, require_ok, sysvar_ok, exists_const, TP.ex_unit, Prod.exists] at h
    obtain ⟨_, -, _, -, _, -, -, _, -, _, _, -, -, -, -, -, hp⟩ := h
    exact ⟨_, .update n s m t, (pack_lam hp).settled⟩
  | createRelayRound n rs e =>
    simp only [run, processCreateRelayRound, bind_ok, acct_ok, require_ok, sysvar_ok, exists_const, TP.ex_unit] at h
    obtain ⟨f, h0, _, -, _, -, k, h3, _, -, _, -, -, -, _, -, -, -, ho⟩ := h
    exact ⟨_, .round n rs e h0 h3, openRound_bill ho⟩
  | createProposal n p d =>
    simp only [run, processCreateProposal, bind_ok, acct_ok, require_ok, sysvar_ok, exists_const, TP.ex_unit, Prod.exists] at h
    obtain ⟨f, h0, _, -, k, h2, _, -, _, -, -, -, _, _, -, -, h⟩ := h
    by_cases hk : (w.acc k).lamports = 0
    · simp only [hk, if_true, bind_ok] at h
      obtain ⟨w1, hc, hp⟩ := h
      exact ⟨_, .proposal n p d h0 h2 hk, (createPda_bill hc).right (pack_lam hp)⟩
    · simp only [hk, if_false, Except.ok.injEq] at h
      subst h
      exact ⟨_, .known n p d h2 hk, Settled.rfl⟩
  | writeProposal o b =>
    refine ⟨_, .write o b, ?_⟩
    obtain ⟨k, b, b', -, -, -, -, -, rfl⟩ := writeProposal_ok h
    exact setDataRaw_lam.settled
  | finalizeProposal =>
    simp only [run, processFinalizeProposal, bind_ok, acct_ok, require_ok, sysvar_ok, exists_const, TP.ex_unit] at h
    obtain ⟨f, h0, k, h1, _, -, kr, h3, _, -, s, -, p, -, -, -, r, hr, w1, hp, ht⟩ := h
    exact ⟨_, .finalize h0 h1 h3 (loadRelayRound_ok.1 hr).1, Settled.left (pack_lam hp) (sysTransfer_bill ht)⟩
  | voteForProposal v =>
    simp only [run, processVote, bind_ok, acct_ok, require_ok, sysvar_ok, exists_const, TP.ex_unit, orErr_ok, unpack_holds] at h
    obtain ⟨relay, h0, k, h1, kr, h2, -, -, p, ⟨hp, -⟩, -, r, hr, j, hj, old, hold, h⟩ := h
    have hr := (loadRelayRound_ok.1 hr).1
    by_cases ho : old = Vote.none
    · subst ho
      simp only [if_true, bind_ok] at h
      obtain ⟨w1, hpk, hm⟩ := h
      exact ⟨_, .vote v h0 h1 h2 hp hr hj hold, Settled.left (pack_lam hpk) (moveLamports_bill hm)⟩
    · simp only [ho, if_false, Except.ok.injEq] at h
      subst h
      exact ⟨_, .again v h0 h1 h2 hp hr hj hold ho, Settled.rfl⟩
  | executeProposal =>
    simp only [run, processExecute, bind_ok, acct_ok, require_ok, sysvar_ok, exists_const, TP.ex_unit, unpack_holds] at h
    obtain ⟨f, h0, _, -, kp, h2, k, h3, _, -, _, -, -, s, -, p, ⟨hp, -⟩, -, h⟩ := h
    rw [confirm_toNat hp] at h
    by_cases hq : p.status = .new ∧ p.requiredVotes.toNat ≤ p.signers.count .confirm
    · simp only [hq, and_self, if_true, bind_ok] at h
      obtain ⟨w1, ho, hpk⟩ := h
      exact ⟨_, .execute h0 h2 h3 hp hq.1 hq.2, (openRound_bill ho).right (pack_lam hpk)⟩
    · simp only [hq, if_false] at h
      exact ⟨_, .idle h2 hp hq, (pack_lam h).settled⟩
  | executeProposalByAdmin =>
    simp only [run, processExecuteByAdmin, bind_ok, acct_ok, require_ok, sysvar_ok, exists_const, TP.ex_unit] at h
    obtain ⟨f, h0, _, -, _, -, _, -, k, h4, _, -, _, -, -, -, s, -, -, p, -, w1, ho, hpk⟩ := h
    exact ⟨_, .admin h0 h4, (openRound_bill ho).right (pack_lam hpk)⟩

end Verif.RL
