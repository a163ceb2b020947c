import Verif.Spec.ToyTactic
import Verif.Spec.ToyMore
import Verif.Lemmas.WLife
import Verif.Lemmas.RLHist
/-!
# Decisions nobody can ever take

Whether the number of votes a decision needs can be reached (C67).
-/
set_option linter.unusedSimpArgs false
set_option maxRecDepth 100000
namespace Verif.Props
open Verif TP

variable {env : Env} {L : Pubkey → Prop} {ctx : Ctx} {cpi : Pubkey → World → Except Err World} {w w' : World} {k : Pubkey}

/-! ## C67 -/

/-- C67, the part that holds: the number of votes that a decision of `n` relays needs can be reached if and only if there is a relay and the
configured minimum is not above `n`. -/
theorem C67_required_partial {n : Nat} {m : U32} (hn : n * 2 / 3 + 1 < 2 ^ 32) :
    (RL.requiredVotes n m).toNat ≤ n ↔ 1 ≤ n ∧ m.toNat ≤ n := by
  unfold RL.requiredVotes
  simp only [BitVec.toNat_ofNat, Nat.mod_eq_of_lt hn]
  split
  · omega
  · simp only [BitVec.toNat_ofNat, Nat.mod_eq_of_lt hn]
    omega

/-- C67: a withdrawal that needs more confirmations than it has vote slots stays new in every later state, and nothing is ever released for
it. -/
theorem C67_never_paid {t1 t2 : List Ev} {p : GenericProposal} {md : WMeta} (hd : env.Distinct) (h : History env L k t1 w)
    (h0 : WithdrawalAt env w k p md) (hn : md.status = .new) (hs : p.signers.length < p.requiredVotes.toNat)
    (hr : Run env L true w t2 w') (hrd : Readable env k t2) :
    (∃ p' md', WithdrawalAt env w' k p' md' ∧ md'.status = .new ∧ p'.event = p.event ∧ p'.requiredVotes = p.requiredVotes ∧
      p'.signers.length = p.signers.length) ∧ ∀ e ∈ t2, ¬ Releases k e := by
  obtain ⟨-, hev⟩ := (h.append hr hrd).evs hd
  have := hr.fold (P := fun w t => (∃ p' md', WithdrawalAt env w k p' md' ∧ md'.status = .new ∧ p'.event = p.event ∧
      p'.requiredVotes = p.requiredVotes ∧ p'.signers.length = p.signers.length) ∧ ∀ e ∈ t, ¬ Releases k e) []
    ⟨⟨p, md, h0, hn, rfl, rfl, rfl⟩, by simp⟩ ?_
  · simpa using this
  rintro e he t ⟨⟨q, mq, g0, gn, g1, g2, g3⟩, ht⟩
  obtain ⟨hi, hi', hv⟩ := hev e (List.mem_append_right _ he)
  have hnq : ¬ Quorum q := by
    intro hq
    unfold Quorum at hq
    have := List.count_le_length (a := Vote.confirm) (l := q.signers)
    rw [g2] at hq
    omega
  have next : ∃ p' md', WithdrawalAt env e.post k p' md' ∧ md'.status = .new ∧ p'.event = p.event ∧
      p'.requiredVotes = p.requiredVotes ∧ p'.signers.length = p.signers.length := by
    cases hv with
    | absent h h' => exact (h _ _ g0).elim
    | request ctx i p md hact hp hs hr h h' ha => exact (h _ _ g0).elim
    | keep p2 md2 h h' =>
      obtain ⟨rfl, rfl⟩ := h.unique g0
      exact ⟨_, _, h', gn, g1, g2, g3⟩
    | change ctx i p2 md2 p3 md3 hact hp hs hr h h' hc =>
      obtain ⟨rfl, rfl⟩ := h.unique g0
      obtain ⟨e1, e2, -⟩ := hc.rest
      refine ⟨_, _, h', ?_, by rw [e1]; exact g1, by rw [e1]; exact g2, e2.1.symm.trans g3⟩
      exact Classical.byContradiction fun hh => hnq (hc.quorum g0 gn hh)
    | payload ctx i p2 md2 sg hact hp hs hi hk h hb h' hg =>
      obtain ⟨rfl, rfl⟩ := h.unique g0
      rw [gn] at hb
      rcases hb with hb | hb <;> cases hb
    | close ctx p2 md2 hact hp hs hr h hf h' =>
      obtain ⟨rfl, rfl⟩ := h.unique g0
      rw [gn] at hf; cases hf
    | purge p2 md2 hact h hf hl h' =>
      obtain ⟨rfl, rfl⟩ := h.unique g0
      rw [gn] at hf; cases hf
  refine ⟨next, ?_⟩
  intro e' he'
  rcases List.mem_append.1 he' with he' | he'
  · exact ht e' he'
  · cases List.mem_singleton.1 he'
    intro hrl
    obtain ⟨p1, md1, p2, md2, -, -, h2, ho⟩ := released_status hd (hr.evs hd e he) hv hi hi' hrl
    obtain ⟨p3, md3, h3, hn3, -⟩ := next
    obtain ⟨rfl, rfl⟩ := h2.unique h3
    rw [hn3] at ho; cases ho

/-- C67: a finalized relay round proposal that needs more confirmations than it has vote slots has no effect, in no later state. -/
theorem C67_never_executed {t : List Ev} {p : RL.Proposal} {w1 w2 : World} (hd : env.Distinct) (hw : Reach env L w)
    (hf : RL.FinalAt env w k p) (hs : p.signers.length < p.requiredVotes.toNat) (hr : Run env L true w t w1)
    (hk : ctx.accounts[2]? = some k) (h : RL.run env ctx .executeProposal w1 = .ok w2) : w2 = w1 := by
  obtain ⟨q, hq, hl⟩ := RL.final_steps hd (hr.rlSteps hd) (RL.good_reach hd hw) hf
  obtain ⟨kp, q', hkp, hh, -, -, ⟨e, -⟩ | ⟨-, hc, -⟩⟩ := RL.execute_fx h
  · exact e
  · rw [hk] at hkp; cases hkp
    cases hh.unique hq.2.1
    have h1 := List.count_le_length (a := Vote.confirm) (l := q.signers)
    have h2 : q.requiredVotes = p.requiredVotes := by rw [hl.frozen]
    rw [h2] at hc
    rw [hl.slots] at h1
    omega

/-- the authority raises the minimum of votes above the number of relays -/
private def rlStrict : Except Err World := Toy.tpDeposited >>= fun w =>
  RL.run Toy.env (Toy.ctx Toy.env.rlId [Toy.authority, Toy.rlSettings, Toy.rlProgramdata] [Toy.authority]) (.updateSettings none none (some 4) none) w
private def tpReqStrict : Except Err World := Toy.tp rlStrict (Toy.reqCtx Toy.wd1) (.withdrawMultiTokenSolRequest Toy.pda1 Toy.bob 1000 [] 0)
private theorem followed_strict : Toy.Followed Toy.wd1 (Toy.get tpReqStrict) :=
  Toy.followed_tp (a := rlStrict) (Toy.followed_rl Toy.followed_tpDeposited rfl (by decide +kernel) (by decide +kernel)) rfl (by decide +kernel)
    (by decide +kernel)

/-- C67 is false: the minimum the authority configures may exceed the number of relays, and a withdrawal requested then can never be paid. -/
theorem C67_unpayable : ∃ env L k t w p md, Env.Distinct env ∧ History env L k t w ∧ WithdrawalAt env w k p md ∧ md.status = .new ∧
    ∀ t2 w2, Run env L true w t2 w2 → Readable env k t2 → ∀ e ∈ t2, ¬ Releases k e := by
  obtain ⟨t, h⟩ := followed_strict.history ?_
  obtain ⟨p, md, h1, h2⟩ := Toy.tfind_withdrawal (P := fun p md => decide (md.status = .new) && Nat.blt p.signers.length p.requiredVotes.toNat)
    (w := Toy.get tpReqStrict) (k := Toy.wd1) ?_
  simp only [Bool.and_eq_true, decide_eq_true_eq] at h2
  exact ⟨Toy.env, Toy.L, Toy.wd1, t, _, p, md, Toy.distinct, h, h1, h2.1, fun t2 w2 hr hrd =>
    (C67_never_paid Toy.distinct h h1 h2.1 (Nat.le_of_ble_eq_true h2.2) hr hrd).2⟩
  checked

private def rlStrictLoaded : Except Err World := Toy.rlLoaded >>= fun w =>
  RL.run Toy.env (Toy.ctx Toy.env.rlId [Toy.authority, Toy.rlSettings, Toy.rlProgramdata] [Toy.authority]) (.updateSettings none none (some 4) none) w
private def rlStrictFinal : Except Err World := rlStrictLoaded >>= fun w =>
  RL.run Toy.env (Toy.ctx Toy.env.rlId [Toy.funder, Toy.prop2, Toy.rlSettings, Toy.rlRound 1, Toy.env.systemId] [Toy.funder]) .finalizeProposal w
private theorem reach_strict : Reach Toy.env Toy.L (Toy.get rlStrictFinal) :=
  Toy.reach_bind (a := rlStrictLoaded) (Toy.reach_bind Toy.reach_loaded rfl (by decide +kernel) (by decide +kernel)) rfl (by decide +kernel)
    (by decide +kernel)

/-- C67 is false: likewise a proposal finalized then can never be executed. -/
theorem C67_unexecutable : ∃ env L k w p, Env.Distinct env ∧ Reach env L w ∧ RL.FinalAt env w k p ∧ p.status = .new ∧
    ∀ t w1 w2 ctx, Run env L true w t w1 → ctx.accounts[2]? = some k → RL.run env ctx .executeProposal w1 = .ok w2 → w2 = w1 := by
  obtain ⟨p, h1, h2, h3⟩ := Toy.find (c := RL.proposalC) (len := RL.proposalLen)
    (P := fun p => p.isInitialized && (decide (p.status = .new) && Nat.blt p.signers.length p.requiredVotes.toNat))
    (w := Toy.get rlStrictFinal) (k := Toy.prop2) (by decide +kernel)
  simp only [Bool.and_eq_true, decide_eq_true_eq] at h3
  exact ⟨Toy.env, Toy.L, Toy.prop2, _, p, Toy.distinct, reach_strict, ⟨h1, h2, h3.1⟩, h3.2.1, fun t w1 w2 ctx hr hk h =>
    C67_never_executed Toy.distinct reach_strict ⟨h1, h2, h3.1⟩ (Nat.le_of_ble_eq_true h3.2.2) hr hk h⟩

/-- the rounds of three relays of the example, with the minimum 1 -/
example : (RL.requiredVotes 3 1#32).toNat ≤ 3 := (C67_required_partial (by decide)).2 ⟨by decide, by decide⟩

end Verif.Props
