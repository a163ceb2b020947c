import Verif.Lemmas.OriginProp
import Verif.Spec.ToySteps
import Verif.Spec.ToyClient
/-!
# C94: every finalized proposal has a known origin
-/
set_option maxRecDepth 100000
namespace Verif.Props
open Verif RL Codec

variable {env : Env} {L : Pubkey → Prop} {k : Pubkey} {w : World}

/-- C94: every finalized proposal was created in an earlier step, which its author signed, and finalized in a later one. The event it names is the one the
author signed. Its address is the address of the round number, the event and the digest which the author signed; and it is also the address of the same
round number, the same event and the hash of the content the proposal has now, although anybody can write this content: other content than the author
signed for needs another digest with the same address. -/
theorem C94_origin {w0 : World} {tr : List Ev} {p : Proposal} (hd : env.Distinct) (hg : Genesis env L w0) (hr : Run env L true w0 tr w)
    (h : FinalAt env w k p) :
    ∃ t1 e t2 rn d, tr = t1 ++ e :: t2 ∧ Proposes e k p.author rn p.pda d ∧ IsAddr env env.rlId (proposalSeeds rn p.pda d) k ∧
      IsAddr env env.rlId (proposalSeeds rn p.pda (env.hash (eventC.enc p.event))) k ∧ ∃ e' ∈ t2, Finalizes e' k :=
  proposal_origin hd hg hr h

/-- C94: so what was voted into a relay round was signed for: the proposal that `ExecuteProposal` carries out was created by its author for the address of
its content. -/
theorem C94_voted {w0 : World} {tr : List Ev} {e : Ev} {ctx : Ctx} {p : Proposal} (hd : env.Distinct) (hg : Genesis env L w0)
    (hr : Run env L true w0 tr w) (he : e ∈ tr) (hact : e.act = .rl ctx .executeProposal) (hk : ctx.accounts[2]? = some k)
    (hp : Holds proposalC proposalLen (e.pre.acc k) p) (hch : e.post ≠ e.pre) :
    ∃ t1 e1 t2 rn d, tr = t1 ++ e1 :: t2 ∧ e ∈ t2 ∧ Proposes e1 k p.author rn p.pda d ∧ IsAddr env env.rlId (proposalSeeds rn p.pda d) k ∧
      IsAddr env env.rlId (proposalSeeds rn p.pda (env.hash (eventC.enc p.event))) k := by
  obtain ⟨-, hev⟩ := hist_mem hd hg hr e he
  obtain ⟨a, b, rfl⟩ := List.append_of_mem he
  have hb := Run.before (t1 := a) (t2 := b) (e := e) hr (by simp)
  obtain ⟨act, pre, post⟩ := e
  simp only at hact
  subst hact
  obtain ⟨kp, p', hk', hh, hini, -, hor⟩ := execute_fx hev.2.2
  rw [hk] at hk'
  cases hk'
  have e1 := hh.unique hp
  subst e1
  rcases hor with ⟨h1, -⟩ | ⟨-, -, ho, -⟩
  · exact (hch h1).elim
  · obtain ⟨t1, e1, t2, rn, d, rfl, h1, h2, h3, -⟩ := proposal_origin hd hg hb ⟨ho.trans hev.1, hh, hini⟩
    exact ⟨t1, e1, t2 ++ ⟨.rl ctx .executeProposal, pre, post⟩ :: b, rn, d, by simp, by simp, h1, h2, h3⟩

/-- The proposal of the example, finalized and with three votes. -/
example : ∃ w0 tr p, Genesis Toy.env Toy.L w0 ∧ Run Toy.env Toy.L true w0 tr (Toy.get Toy.rlVoted) ∧
    FinalAt Toy.env (Toy.get Toy.rlVoted) Toy.prop2 p ∧ p.event.relays.length = 4 := by
  obtain ⟨p, h1, b1⟩ := Toy.find_final (w := Toy.get Toy.rlVoted) (k := Toy.prop2) (P := fun p => Nat.beq p.event.relays.length 4) (by decide +kernel)
  obtain ⟨w0, tr, hg, hr⟩ := Toy.reach_voted
  exact ⟨w0, tr, p, hg, hr, h1, Nat.eq_of_beq_eq_true b1⟩

/-- It is carried out. -/
example : ∃ w0 tr e p w, Genesis Toy.env Toy.L w0 ∧ Run Toy.env Toy.L true w0 tr w ∧ e ∈ tr ∧ e.act = .rl Toy.rlExecuteCtx .executeProposal ∧
    Toy.rlExecuteCtx.accounts[2]? = some Toy.prop2 ∧ Holds proposalC proposalLen (e.pre.acc Toy.prop2) p ∧ e.post ≠ e.pre := by
  obtain ⟨p, h1, -⟩ := Toy.find_final (w := Toy.get Toy.rlVoted) (k := Toy.prop2) (P := fun p => Nat.beq p.event.relays.length 4) (by decide +kernel)
  obtain ⟨r2, h2, -⟩ := Toy.find_round (w := Toy.get Toy.rlExecuted) (k := Toy.rlRound 2) (P := fun r => Nat.beq r.relays.length 4) (by decide +kernel)
  have hv : Vacant Toy.env ((Toy.get Toy.rlVoted).acc (Toy.rlRound 2)) := Toy.vacant (by decide +kernel)
  have hrun : RL.run Toy.env Toy.rlExecuteCtx .executeProposal (Toy.get Toy.rlVoted) = .ok (Toy.get Toy.rlExecuted) :=
    Toy.get_bind (a := Toy.rlVoted) (by decide +kernel)
  obtain ⟨w0, tr, hg, hr⟩ := Toy.reach_voted
  refine ⟨w0, tr ++ [⟨.rl Toy.rlExecuteCtx .executeProposal, Toy.get Toy.rlVoted, Toy.get Toy.rlExecuted⟩],
    ⟨.rl Toy.rlExecuteCtx .executeProposal, Toy.get Toy.rlVoted, Toy.get Toy.rlExecuted⟩, p, _, hg,
    Run.rl _ _ hr rfl (Toy.free (by decide +kernel)) hrun, by simp, rfl, by decide +kernel, h1.2.1, fun e => ?_⟩
  simp only at e
  rw [e] at h2
  have := h2.1.symm.trans hv.2.2
  revert this
  decide +kernel

end Verif.Props
