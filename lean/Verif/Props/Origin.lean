import Verif.Lemmas.Origin
import Verif.Spec.ToySteps
import Verif.Spec.ToyClient
/-!
# C90: every relay round has a known origin
-/
set_option maxRecDepth 100000
namespace Verif.Props
open Verif RL Codec

variable {env : Env} {L : Pubkey → Prop} {kr : Pubkey} {w : World}

/-- C90: every relay round was installed in an earlier step, when its account did not exist, at the address of its number: by the round submitter, who
signed its relays or signed for a proposal, or by a finalized proposal with enough confirmations. Its number, its end, the number of its relays and the
first two relays are as installed then; and all of it is, unless somebody passed it to `WriteProposal` (C03). -/
theorem C90_origin {w0 : World} {tr : List Ev} {r : RelayRound} (hd : env.Distinct) (hg : Genesis env L w0) (hr : Run env L true w0 tr w)
    (h : RoundAt env w kr r) :
    ∃ e ∈ tr, ∃ r0, Installs env e r0 ∧ IsAddr env env.rlId (relayRoundSeeds r.roundNumber) kr ∧ Vacant env (e.pre.acc kr) ∧ RoundAt env e.post kr r0 ∧
      r.roundNumber = r0.roundNumber ∧ r.roundEnd = r0.roundEnd ∧ r.relays.length = r0.relays.length ∧ r.relays.take 2 = r0.relays.take 2 ∧
      (Unwritten tr kr → r = r0) := by
  obtain ⟨e, he, r0, h1, h2, h3, h4, h5, h6⟩ := round_origin hd hg hr h
  have hn : r.roundNumber = r0.roundNumber := by rw [h5.same]
  exact ⟨e, he, r0, h1, by rw [hn]; exact h2, h3, h4, hn, by rw [h5.same], h5.length, h5.first, h6⟩

/-- C90: there is only one such step: two steps of a history do not both open the same account as a relay round. -/
theorem C90_once {w0 : World} {t1 t2 : List Ev} {e e' : Ev} {r : RelayRound} (hd : env.Distinct) (hg : Genesis env L w0)
    (hr : Run env L true w0 (t1 ++ e :: t2) w) (h : RoundAt env e.post kr r) (he' : e' ∈ t2) : ¬ Vacant env (e'.pre.acc kr) := by
  obtain ⟨a, b, rfl⟩ := List.append_of_mem he'
  have hb := Run.before (t1 := t1 ++ e :: a) (t2 := b) (e := e') hr (by simp)
  obtain ⟨q, hq⟩ := round_stays hd hg hb e (by simp) r h
  exact fun hv => hd.rlSys (hq.1.symm.trans hv.2.2)

/-- Round 2 of the example was installed by vote, round 1 by the submitter. -/
example : ∃ w0 tr r1 r2, Genesis Toy.env Toy.L w0 ∧ Run Toy.env Toy.L true w0 tr (Toy.get Toy.rlExecuted) ∧
    RoundAt Toy.env (Toy.get Toy.rlExecuted) (Toy.rlRound 1) r1 ∧ r1.relays.length = 3 ∧
    RoundAt Toy.env (Toy.get Toy.rlExecuted) (Toy.rlRound 2) r2 ∧ r2.relays.length = 4 := by
  obtain ⟨r1, h1, b1⟩ := Toy.find_round (w := Toy.get Toy.rlExecuted) (k := Toy.rlRound 1) (P := fun r => Nat.beq r.relays.length 3) (by decide +kernel)
  obtain ⟨r2, h2, b2⟩ := Toy.find_round (w := Toy.get Toy.rlExecuted) (k := Toy.rlRound 2) (P := fun r => Nat.beq r.relays.length 4) (by decide +kernel)
  obtain ⟨w0, tr, hg, hr⟩ := Toy.reach_executed
  exact ⟨w0, tr, r1, r2, hg, hr, h1, Nat.eq_of_beq_eq_true b1, h2, Nat.eq_of_beq_eq_true b2⟩

/-- A step that installs round 2, after which `C90_once` applies to every later step. -/
example : ∃ w0 t1 e w r, Genesis Toy.env Toy.L w0 ∧ Run Toy.env Toy.L true w0 (t1 ++ e :: []) w ∧ RoundAt Toy.env e.post (Toy.rlRound 2) r ∧
    Vacant Toy.env (e.pre.acc (Toy.rlRound 2)) ∧ e.act = .rl Toy.rlExecuteCtx .executeProposal := by
  obtain ⟨r2, h2, -⟩ := Toy.find_round (w := Toy.get Toy.rlExecuted) (k := Toy.rlRound 2) (P := fun r => Nat.beq r.relays.length 4) (by decide +kernel)
  have hrun : RL.run Toy.env Toy.rlExecuteCtx .executeProposal (Toy.get Toy.rlVoted) = .ok (Toy.get Toy.rlExecuted) :=
    Toy.get_bind (a := Toy.rlVoted) (by decide +kernel)
  obtain ⟨w0, tr, hg, hr⟩ := Toy.reach_voted
  exact ⟨w0, tr, ⟨_, _, _⟩, _, r2, hg, Run.rl _ _ hr rfl (Toy.free (by decide +kernel)) hrun, h2, Toy.vacant (by decide +kernel), rfl⟩

end Verif.Props
