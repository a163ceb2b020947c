import Verif.Lemmas.RLLive
import Verif.Spec.ToyReach
/-!
# Round proposals (C04 to C11, C36 for the round loader)
-/
set_option maxRecDepth 100000
namespace Verif.Props
open Verif Verif.RL

/-! ## C04: finalized proposals are frozen -/

/-- C04: over every history a finalized proposal stays where it is, and its proposed round, author, event identity, round, required
vote count and number of vote slots stay the same. -/
theorem C04_frozen {env : Env} {L : Pubkey → Prop} (hd : env.Distinct) {w w1 : World} {tr : List Ev} {k : Pubkey} {p : Proposal}
    (hw : Reach env L w) (h : FinalAt env w k p) (hr : Run env L true w tr w1) :
    ∃ q, FinalAt env w1 k q ∧ q.event.roundNum = p.event.roundNum ∧ q.event.relays = p.event.relays ∧
      q.event.roundEnd = p.event.roundEnd ∧ q.author = p.author ∧ q.pda = p.pda ∧ q.roundNumber = p.roundNumber ∧
      q.requiredVotes = p.requiredVotes ∧ q.signers.length = p.signers.length ∧
      q = { p with status := q.status, signers := q.signers } := by
  obtain ⟨q, hq, hl⟩ := final_steps hd (hr.rlSteps hd) (good_reach hd hw) h
  refine ⟨q, hq, ?_, ?_, ?_, ?_, ?_, ?_, ?_, hl.slots, hl.frozen⟩ <;> rw [hl.frozen]

/-- The toy proposal after finalization, three votes, and execution. -/
theorem toy_final : ∃ p, FinalAt Toy.env (Toy.get Toy.rlFinalized) Toy.prop2 p ∧ p.event = Toy.ev2 ∧ p.requiredVotes = 3#32 ∧
    p.signers = [.none, .none, .none] ∧ p.roundNumber = 1#32 := by
  obtain ⟨p, h, h1⟩ := Toy.find_final (P := fun p => Nat.beq p.event.roundNum.toNat 2 &&
      (Nat.beq p.event.roundEnd.toNat 9000 && (p.event.relays.map (·.toNat) == [1100, 1101, 1102, 1103] &&
      (Nat.beq p.requiredVotes.toNat 3 && (p.signers == [.none, .none, .none] && Nat.beq p.roundNumber.toNat 1)))))
    (w := Toy.get Toy.rlFinalized) (k := Toy.prop2) (by decide +kernel)
  simp only [Bool.and_eq_true] at h1
  obtain ⟨a, b, c, d, e, f⟩ := h1
  refine ⟨p, h, ?_, BitVec.eq_of_toNat_eq (Nat.eq_of_beq_eq_true d), eq_of_beq e, BitVec.eq_of_toNat_eq (Nat.eq_of_beq_eq_true f)⟩
  obtain ⟨⟩ := p
  rename_i ev _ _ _
  obtain ⟨n, rs, en⟩ := ev
  have h1 : n = 2#32 := BitVec.eq_of_toNat_eq (Nat.eq_of_beq_eq_true a)
  have h2 : en = 9000#32 := BitVec.eq_of_toNat_eq (Nat.eq_of_beq_eq_true b)
  have h3 : rs = [Toy.relay 0, Toy.relay 1, Toy.relay 2, Toy.relay 3] :=
    List.map_inj_right (fun _ _ h => BitVec.eq_of_toNat_eq h) |>.1 (eq_of_beq c)
  subst h1; subst h2; subst h3; rfl

example : ∃ w p, Reach Toy.env Toy.L w ∧ FinalAt Toy.env w Toy.prop2 p ∧ p.event = Toy.ev2 :=
  let ⟨p, h, h1, _⟩ := toy_final
  ⟨_, p, Toy.reach_finalized, h, h1⟩

/-! ## C05: the required count is more than two thirds -/

/-- C05: `FinalizeProposal` fixes, for the `n` relays of the round account it is given, `n` empty slots and a required count that is
more than two thirds of `n` and at least the configured minimum. -/
theorem C05_finalize {env : Env} {ctx : Ctx} {w w' : World} (h : run env ctx .finalizeProposal w = .ok w') :
    ∃ kp ks kr s r q, ctx.accounts[1]? = some kp ∧ ctx.accounts[3]? = some kr ∧ IsAddr env ctx.program settingsSeeds ks ∧
      Holds settingsC settingsLen (w.acc ks) s ∧ s.isInitialized = true ∧
      IsAddr env ctx.program (relayRoundSeeds r.roundNumber) kr ∧ Holds relayRoundC relayRoundLen (w.acc kr) r ∧ r.isInitialized = true ∧
      (w'.acc kp).owner = ctx.program ∧ Holds proposalC proposalLen (w'.acc kp) q ∧ q.isInitialized = true ∧ q.status = .new ∧
      q.signers = List.replicate r.relays.length .none ∧
      2 * r.relays.length < 3 * q.requiredVotes.toNat ∧ s.minRequiredVotes.toNat ≤ q.requiredVotes.toNat ∧
      q.requiredVotes.toNat = max (2 * r.relays.length / 3 + 1) s.minRequiredVotes.toNat := by
  obtain ⟨kp, ks, kr, p, s, r, h1, -, h3, hsa, hs, hsi, -, -, -, -, hr, hri, hra, hq, ho, -⟩ := finalize_fx h
  have hlt := relays_lt hr
  have hv : (requiredVotes r.relays.length s.minRequiredVotes).toNat = max (2 * r.relays.length / 3 + 1) s.minRequiredVotes.toNat := by
    have h : (BitVec.ofNat 32 (r.relays.length * 2 / 3 + 1)).toNat = 2 * r.relays.length / 3 + 1 := by
      rw [BitVec.toNat_ofNat, Nat.mod_eq_of_lt (by omega), Nat.mul_comm]
    simp only [RL.requiredVotes, h]
    split <;> omega
  exact ⟨kp, ks, kr, s, r, _, h1, h3, hsa, hs, hsi, hra, hr, hri, ho, hq, rfl, rfl, rfl, by simp only [hv]; omega,
    by simp only [hv]; omega, hv⟩

/-- C05: in every reachable state every finalized proposal requires more than two thirds of its own vote slots. -/
theorem C05_reachable {env : Env} {L : Pubkey → Prop} (hd : env.Distinct) {w : World} {k : Pubkey} {p : Proposal}
    (hw : Reach env L w) (h : FinalAt env w k p) : 2 * p.signers.length < 3 * p.requiredVotes.toNat :=
  ((good_reach hd hw).sound h.2.1 h.2.2 h.1).quorum

example : ∃ w', RL.run Toy.env (Toy.ctx Toy.env.rlId [Toy.funder, Toy.prop2, Toy.rlSettings, Toy.rlRound 1, Toy.env.systemId] [Toy.funder])
    .finalizeProposal (Toy.get Toy.rlLoaded) = .ok w' := ⟨_, Toy.get_bind (a := Toy.rlLoaded) (by decide +kernel)⟩

/-! ## C06: executing needs a quorum -/

/-- C06: if `ExecuteProposal` changes anything, the proposal it was given is finalized, belongs to the program, is at the address derived
from its content, was not executed, and had its required number of `Confirm` votes; the round account of the proposed number did not
exist and now holds exactly the proposed round (its end extended by the configured ttl); the current round number is the proposed one;
the proposal is marked executed; and the data of no other account changed. -/
theorem C06_execute_needs_quorum {env : Env} {ctx : Ctx} {w w' : World} (h : run env ctx .executeProposal w = .ok w') (hne : w' ≠ w) :
    ∃ kp p, ctx.accounts[2]? = some kp ∧ Holds proposalC proposalLen (w.acc kp) p ∧ p.isInitialized = true ∧ p.status = .new ∧
      (w.acc kp).owner = ctx.program ∧
      IsAddr env ctx.program (proposalSeeds p.roundNumber p.pda (env.hash (eventC.enc p.event))) kp ∧
      p.requiredVotes.toNat ≤ p.signers.count .confirm ∧
      ∃ ks kr s n, IsAddr env ctx.program settingsSeeds ks ∧ Holds settingsC settingsLen (w.acc ks) s ∧ s.isInitialized = true ∧
        IsAddr env ctx.program (relayRoundSeeds p.event.roundNum) kr ∧ Vacant env (w.acc kr) ∧ (w'.acc kr).owner = ctx.program ∧
        Holds relayRoundC relayRoundLen (w'.acc kr)
          ⟨true, .relayRound n, p.event.roundNum, p.event.roundEnd + s.roundTtl, p.event.relays⟩ ∧
        Holds settingsC settingsLen (w'.acc ks) { s with currentRoundNumber := p.event.roundNum } ∧
        Holds proposalC proposalLen (w'.acc kp) { p with status := .executed } ∧
        ∀ x, x ≠ ks → x ≠ kp → x ≠ kr → (w'.acc x).data = (w.acc x).data ∧ (w'.acc x).owner = (w.acc x).owner := by
  obtain ⟨kp, p, hkp, hh, hi, ha, ⟨e, -⟩ | ⟨hst, hq, ho, ks, kr, s, x⟩⟩ := execute_fx h
  · exact (hne e).elim
  · obtain ⟨n, hn⟩ := x.round
    exact ⟨kp, p, hkp, hh, hi, hst, ho, ha, hq, ks, kr, s, n, x.setAddr, x.settings, x.setInit, x.roundAddr, x.vacant, x.owner, hn,
      x.current, x.done, x.others⟩

/-- The toy proposal is executed and changes the chain. -/
example : ∃ w', RL.run Toy.env Toy.rlExecuteCtx .executeProposal (Toy.get Toy.rlVoted) = .ok w' ∧ w' ≠ Toy.get Toy.rlVoted := by
  refine ⟨_, Toy.get_bind (a := Toy.rlVoted) (by decide +kernel), ?_⟩
  intro h
  obtain ⟨r, hr, -⟩ := Toy.find_round (P := fun _ => true) (w := Toy.get Toy.rlExecuted) (k := Toy.rlRound 2) (by decide +kernel)
  have h1 := hr.1
  have h2 : Nat.beq ((Toy.get Toy.rlVoted).acc (Toy.rlRound 2)).owner.toNat 0 = true := by decide +kernel
  have e : Toy.get Toy.rlExecuted = Toy.get Toy.rlVoted := h
  rw [e] at h1
  rw [h1] at h2
  revert h2; decide

/-- With two of three votes nothing happens. -/
example : Toy.chk relayRoundC relayRoundLen (fun _ => true) (Toy.get (Toy.rlVoted2 >>= fun w => RL.run Toy.env Toy.rlExecuteCtx .executeProposal w))
    (Toy.rlRound 2) = false ∧ Toy.isOk (Toy.rlVoted2 >>= fun w => RL.run Toy.env Toy.rlExecuteCtx .executeProposal w) = true := by decide +kernel

/-! ## C07: votes belong to relays of the proposal's round (false) -/

/-- C07, what does hold: every vote in slot `j` of a finalized proposal was cast by a step of the history: a `VoteForProposal` for this
account with this vote, signed by the `j`-th relay of some relay round, found at its derived address, while the slot was empty. If that
address is locked and not an account of the token proxy, the round is one of the round loader. Missing: that it is the proposal's round. -/
theorem C07_votes_cast_partial {env : Env} {L : Pubkey → Prop} (hd : env.Distinct) {w0 w : World} {tr : List Ev}
    (hg : Genesis env L w0) (hr : Run env L true w0 tr w) {k : Pubkey} {p : Proposal} {j : Nat} {v : Vote}
    (h : FinalAt env w k p) (hj : p.signers[j]? = some v) (hv : v ≠ .none) :
    ∃ e ∈ tr, ∃ ctx kr r relay q, e.act = .rl ctx (.voteForProposal v) ∧ ctx.accounts[1]? = some k ∧ ctx.accounts[2]? = some kr ∧
      IsAddr env env.rlId (relayRoundSeeds r.roundNumber) kr ∧ Holds relayRoundC relayRoundLen (e.pre.acc kr) r ∧
      r.isInitialized = true ∧ r.relays[j]? = some relay ∧ ctx.isSigner relay = true ∧ FinalAt env e.pre k q ∧
      q.signers[j]? = some .none ∧ Later q p ∧
      (L kr → (e.pre.acc kr).owner ≠ env.tpId → RoundAt env e.pre kr r) := by
  rcases vote_steps hd (hr.rlSteps hd) (good_genesis hg) hv h hj with ⟨q, hq, -⟩ | ⟨e, he, ctx, i, ha, hc, q, hq, hqj, hl⟩
  · exact (hg.owner k).1 hq.1 |>.elim
  · obtain ⟨rfl, hk, kr, rr, relay, hkr, hrr, hri, hra, hrel, hsig⟩ := hc
    obtain ⟨-, hev⟩ := hist_mem hd hg hr e he
    have hp : ctx.program = env.rlId := by
      obtain ⟨act, pre, post⟩ := e
      simp only at ha; subst ha; exact hev.1
    rw [hp] at hra
    refine ⟨e, he, ctx, kr, rr, relay, q, ha, hk, hkr, hra, hrr, hri, hrel, hsig, hq, hqj, hl, fun hL ht => ⟨?_, hrr, hri⟩⟩
    have hreach : Reach env L w0 := ⟨w0, [], hg, .nil _ _⟩
    exact ((hreach.pre hr e he).clean_round hL hrr hri).resolve_left ht

/-- C07 is false: `VoteForProposal` accepts any relay round account. Here proposal `k` was finalized for round 1, whose relays do not
include `voter`; `voter`, the only signer, confirms it in slot 0 with the account of round 5. -/
theorem C07_foreign_vote : ∃ env L w w' ctx k kr voter p q r, Env.Distinct env ∧ Reach env L w ∧ ctx.program = env.rlId ∧
    ctx.signers = [voter] ∧ FinalAt env w k p ∧ IsAddr env env.rlId (relayRoundSeeds p.roundNumber) kr ∧ RoundAt env w kr r ∧
    voter ∉ r.relays ∧ run env ctx (.voteForProposal .confirm) w = .ok w' ∧ FinalAt env w' k q ∧
    p.signers[0]? = some .none ∧ q.signers[0]? = some .confirm := by
  obtain ⟨p, h1, h2⟩ := Toy.find_final (P := fun p => Nat.beq p.roundNumber.toNat 1 && p.signers[0]? == some .none)
    (w := Toy.get Toy.rlOther) (k := Toy.prop2) (by decide +kernel)
  obtain ⟨q, h3, h4⟩ := Toy.find_final (P := fun p => p.signers[0]? == some .confirm)
    (w := Toy.get Toy.rlOtherVoted) (k := Toy.prop2) (by decide +kernel)
  obtain ⟨r, h5, h6⟩ := Toy.find_round (P := fun r => !(r.relays.map (·.toNat)).contains 1003)
    (w := Toy.get Toy.rlOther) (k := Toy.rlRound 1) (by decide +kernel)
  simp only [Bool.and_eq_true] at h2
  refine ⟨Toy.env, Toy.L, _, _, Toy.rlOtherCtx, _, Toy.rlRound 1, Toy.stranger, p, q, r, Toy.distinct, Toy.reach_other, rfl, rfl, h1, ?_, h5, ?_,
    Toy.get_bind (a := Toy.rlOther) (by decide +kernel), h3, eq_of_beq h2.2, eq_of_beq h4⟩
  · rw [show p.roundNumber = 1#32 from BitVec.eq_of_toNat_eq (Nat.eq_of_beq_eq_true h2.1)]
    exact Toy.isAddr _ _
  · intro hm
    have : (r.relays.map (·.toNat)).contains 1003 = true := by
      rw [List.contains_eq_mem, decide_eq_true_eq]
      exact List.mem_map_of_mem (f := (·.toNat)) hm
    rw [this] at h6; cases h6

/-! ## C08: votes are cast once -/

/-- C08 (round proposals): a successful vote either changes nothing at all, because the slot already has a vote, or changes exactly one
slot, from empty to the requested `Confirm` or `Reject`, and no data of any other account. -/
theorem C08_vote_once {env : Env} {ctx : Ctx} {v : Vote} {w w' : World} (h : run env ctx (.voteForProposal v) w = .ok w') :
    (v = .confirm ∨ v = .reject) ∧ ∃ kp p j, ctx.accounts[1]? = some kp ∧ Holds proposalC proposalLen (w.acc kp) p ∧ p.isInitialized = true ∧
      ((∃ old, p.signers[j]? = some old ∧ old ≠ .none ∧ w' = w) ∨
       (p.signers[j]? = some .none ∧ (w.acc kp).owner = ctx.program ∧
        Holds proposalC proposalLen (w'.acc kp) { p with signers := p.signers.set j v } ∧
        ∀ x, x ≠ kp → (w'.acc x).data = (w.acc x).data ∧ (w'.acc x).owner = (w.acc x).owner)) := by
  obtain ⟨vk, kp, kr, p0, rr, j0, old, h0, h1, h2, hsig, hx, hh, hini, ha, hrr, hri, hra, hrel, hold, hor⟩ := vote_fx h
  refine ⟨?_, kp, p0, j0, h1, hh, hini, ?_⟩
  · cases v
    · exact (hx rfl).elim
    · exact .inl rfl
    · exact .inr rfl
  · rcases hor with ⟨h1, h2⟩ | ⟨rfl, ho, hq, hacc⟩
    · exact .inl ⟨old, hold, h1, h2⟩
    · exact .inr ⟨hold, ho, hq, fun x hx => ⟨(hacc x).2.1 hx, (hacc x).1⟩⟩

/-- C08 (round proposals): over every history a cast vote stays. -/
theorem C08_vote_stays {env : Env} {L : Pubkey → Prop} (hd : env.Distinct) {w w1 : World} {tr : List Ev} {k : Pubkey} {p : Proposal}
    {j : Nat} {v : Vote} (hw : Reach env L w) (h : FinalAt env w k p) (hj : p.signers[j]? = some v) (hv : v ≠ .none)
    (hr : Run env L true w tr w1) : ∃ q, FinalAt env w1 k q ∧ q.signers[j]? = some v := by
  obtain ⟨q, hq, hl⟩ := final_steps hd (hr.rlSteps hd) (good_reach hd hw) h
  exact ⟨q, hq, hl.kept j v hj hv⟩

example : ∃ w p, Reach Toy.env Toy.L w ∧ FinalAt Toy.env w Toy.prop2 p ∧ p.signers[1]? = some .confirm ∧ p.signers[2]? = some .none := by
  obtain ⟨p, h1, h2⟩ := Toy.find_final (P := fun p => p.signers[1]? == some .confirm && p.signers[2]? == some .none)
    (w := Toy.get Toy.rlVoted2) (k := Toy.prop2) (by decide +kernel)
  simp only [Bool.and_eq_true] at h2
  exact ⟨_, p, Toy.reach_voted2, h1, eq_of_beq h2.1, eq_of_beq h2.2⟩

example : ∃ w', RL.run Toy.env (Toy.rlVoteCtx 2) (.voteForProposal .confirm) (Toy.get Toy.rlVoted2) = .ok w' :=
  ⟨_, Toy.get_bind (a := Toy.rlVoted2) (by decide +kernel)⟩

/-! ## C09: executed at most once -/

/-- C09: after an `ExecuteProposal` took effect, every later `ExecuteProposal` on that account, in every later state, changes
nothing; and an `ExecuteProposalByAdmin` on it fails. -/
theorem C09_execute_once {env : Env} {L : Pubkey → Prop} (hd : env.Distinct) {w w' w1 w2 : World} {tr : List Ev} {ctx ctx' : Ctx}
    {kp : Pubkey} (hw : Reach env L w') (hp : ctx.program = env.rlId) (hp' : ctx'.program = env.rlId)
    (h : run env ctx .executeProposal w = .ok w') (hne : w' ≠ w) (hk : ctx.accounts[2]? = some kp) (hr : Run env L true w' tr w1) :
    (ctx'.accounts[2]? = some kp → run env ctx' .executeProposal w1 = .ok w2 → w2 = w1) ∧
    (ctx'.accounts[3]? = some kp → run env ctx' .executeProposalByAdmin w1 ≠ .ok w2) := by
  obtain ⟨kp', p, hkp, hh, hi, ha, ⟨e, -⟩ | ⟨hst, hq, ho, ks, kr, s, x⟩⟩ := execute_fx h
  · exact (hne e).elim
  rw [hk] at hkp; cases hkp
  have hf : FinalAt env w' kp { p with status := .executed } := ⟨x.propOwner.trans (ho.trans hp), x.done, hi⟩
  obtain ⟨q, hq', hl⟩ := final_steps hd (hr.rlSteps hd) (good_reach hd hw) hf
  constructor
  · intro hk' h'
    obtain ⟨kp2, p2, hkp2, hh2, -, -, ⟨e, -⟩ | ⟨hst2, -⟩⟩ := execute_fx h'
    · exact e
    · rw [hk'] at hkp2; cases hkp2
      rw [hh2.unique hq'.2.1, hl.executed rfl] at hst2
      cases hst2
  · intro hk' h'
    obtain ⟨ks2, kp2, kr2, s2, p2, hkp2, -, x2⟩ := admin_fx h'
    rw [hk'] at hkp2; cases hkp2
    have e : p2 = q := x2.proposal.unique hq'.2.1
    have hra2 := x2.roundAddr
    rw [e, hl.frozen, hp'] at hra2
    have hra := x.roundAddr
    rw [hp] at hra
    have ek : kr2 = kr := hra2.unique hra
    obtain ⟨n, hn⟩ := x.round
    obtain ⟨r', hr', -⟩ := round_steps hd (hr.rlSteps hd) (good_reach hd hw) (k := kr) ⟨x.owner.trans hp, hn, rfl⟩
    have hv := x2.vacant
    rw [ek] at hv
    exact hd.rlSys (hr'.1.symm.trans hv.2.2)

example : ∃ w', RL.run Toy.env Toy.rlExecuteCtx .executeProposal (Toy.get Toy.rlExecuted) = .ok w' :=
  ⟨_, Toy.get_ok (by decide +kernel)⟩

/-! ## C10: finalization cannot strand a proposal (false) -/

/-- C10 is false. If whoever finalizes proposal `kp` passes a relay round whose number, with the proposal's content, does not derive the
address `kp`, then in every later history every vote on it and every `ExecuteProposal` of it fails. -/
theorem C10_stranded {env : Env} {L : Pubkey → Prop} (hd : env.Distinct) {w w' w1 w2 : World} {tr : List Ev} {ctx ctx' : Ctx}
    {kp kr : Pubkey} {r : RelayRound} {p : Proposal} (hw : Reach env L w') (hp : ctx.program = env.rlId)
    (h : run env ctx .finalizeProposal w = .ok w') (hkp : ctx.accounts[1]? = some kp) (hkr : ctx.accounts[3]? = some kr)
    (hr : Holds relayRoundC relayRoundLen (w.acc kr) r) (hpr : Holds proposalC proposalLen (w.acc kp) p)
    (hother : ¬ IsAddr env env.rlId (proposalSeeds r.roundNumber p.pda (env.hash (eventC.enc p.event))) kp)
    (hrun : Run env L true w' tr w1) (hp' : ctx'.program = env.rlId) :
    (ctx'.accounts[1]? = some kp → ∀ v, run env ctx' (.voteForProposal v) w1 ≠ .ok w2) ∧
    (ctx'.accounts[2]? = some kp → run env ctx' .executeProposal w1 ≠ .ok w2) := by
  obtain ⟨kp', ks, kr', p', s, r', h1, -, h3, hsa, hs, hsi, hp1, -, -, -, hr1, hri, hra, hq, ho, -⟩ := finalize_fx h
  rw [hkp] at h1; cases h1
  rw [hkr] at h3; cases h3
  cases hr.unique hr1
  cases hpr.unique hp1
  obtain ⟨q, hq', hl⟩ := final_steps hd (hrun.rlSteps hd) (good_reach hd hw) (k := kp) ⟨ho.trans hp, hq, rfl⟩
  have e1 : q.roundNumber = r.roundNumber := by rw [hl.frozen]
  have e2 : q.pda = p.pda := by rw [hl.frozen]
  have e3 : q.event = p.event := by rw [hl.frozen]
  constructor
  · intro hk v hv
    obtain ⟨vk, kp2, kr2, p2, rr, j, old, -, hk2, -, -, -, hh, -, ha, -⟩ := vote_fx hv
    rw [hk] at hk2; cases hk2
    cases hh.unique hq'.2.1
    rw [e1, e2, e3, hp'] at ha
    exact hother ha
  · intro hk hv
    obtain ⟨kp2, p2, hk2, hh, -, ha, -⟩ := execute_fx hv
    rw [hk] at hk2; cases hk2
    cases hh.unique hq'.2.1
    rw [e1, e2, e3, hp'] at ha
    exact hother ha

/-- C10 is false on the toy chain: the stranger, who has no role, finalizes the proposal created for round 1 with the account of round 5;
from then on nobody can vote on it or execute it. -/
theorem C10_stranger_strands : ∃ env L w w' ctx kp, Env.Distinct env ∧ Reach env L w ∧ Reach env L w' ∧ ctx.program = env.rlId ∧
    run env ctx .finalizeProposal w = .ok w' ∧ ctx.signers = [Toy.stranger] ∧ ctx.accounts[1]? = some kp ∧
    ∀ tr w1 w2 ctx', Run env L true w' tr w1 → ctx'.program = env.rlId →
      (ctx'.accounts[1]? = some kp → ∀ v, run env ctx' (.voteForProposal v) w1 ≠ .ok w2) ∧
      (ctx'.accounts[2]? = some kp → run env ctx' .executeProposal w1 ≠ .ok w2) := by
  have hrun : RL.run Toy.env Toy.rlStrandCtx .finalizeProposal (Toy.get Toy.rlLoaded5) = .ok (Toy.get Toy.rlStranded) :=
    Toy.get_bind (a := Toy.rlLoaded5) (by decide +kernel)
  refine ⟨Toy.env, Toy.L, Toy.get Toy.rlLoaded5, Toy.get Toy.rlStranded, Toy.rlStrandCtx, Toy.prop2, Toy.distinct, Toy.reach_loaded5,
    Toy.reach_stranded, rfl, hrun, rfl, rfl, ?_⟩
  intro tr w1 w2 ctx' hr hp'
  obtain ⟨r, -, h5, h6⟩ := Toy.find (c := relayRoundC) (len := relayRoundLen) (P := fun r => Nat.beq r.roundNumber.toNat 5)
    (w := Toy.get Toy.rlLoaded5) (k := Toy.rlRound 5) (by decide +kernel)
  obtain ⟨p, -, h7, h8⟩ := Toy.find (c := proposalC) (len := proposalLen)
    (P := fun p => !(Nat.beq (Toy.addr (proposalSeeds 5#32 p.pda (Toy.env.hash (eventC.enc p.event))) Toy.env.rlId).toNat Toy.prop2.toNat))
    (w := Toy.get Toy.rlLoaded5) (k := Toy.prop2) (by decide +kernel)
  refine C10_stranded Toy.distinct (kr := Toy.rlRound 5) Toy.reach_stranded rfl hrun rfl rfl h5 h7 ?_ hr hp'
  rw [show r.roundNumber = 5#32 from BitVec.eq_of_toNat_eq (Nat.eq_of_beq_eq_true h6)]
  intro ha
  have := ha.unique (Toy.isAddr _ _)
  rw [← this] at h8
  simp at h8

/-- C10, what does hold: a finalized proposal at the address derived from its content (so: finalized with the account of the round it was
created for) accepts in every reachable state the vote of a relay of that round whose slot is empty. Missing: the case of finalization with
another round. -/
theorem C10_votable_partial {env : Env} {L : Pubkey → Prop} (hd : env.Distinct) {w : World} {ctx : Ctx} {kp kr voter : Pubkey}
    {p : Proposal} {r : RelayRound} {j : Nat} {v : Vote} (hw : Reach env L w) (hp : ctx.program = env.rlId)
    (h0 : ctx.accounts[0]? = some voter) (h1 : ctx.accounts[1]? = some kp) (h2 : ctx.accounts[2]? = some kr)
    (hs : ctx.isSigner voter = true) (hwp : ctx.isWritable kp = true) (hwv : ctx.isWritable voter = true)
    (hf : FinalAt env w kp p) (hh : Home env kp p) (hr : RoundAt env w kr r) (hrh : RoundHome env kr r)
    (hj : r.relays.findIdx? (fun k => k == voter) = some j) (hn : p.signers[j]? = some .none) (hv : v = .confirm ∨ v = .reject)
    (hmax : (w.acc voter).lamports + 20000 < 2 ^ 64) :
    ∃ w', run env ctx (.voteForProposal v) w = .ok w' ∧ FinalAt env w' kp { p with signers := p.signers.set j v } :=
  vote_succeeds (good_reach hd hw) hp h0 h1 h2 hs hwp hwv hf hh hr hrh hj hn (by rcases hv with rfl | rfl <;> decide) hmax

/-- C10, what does hold: such a proposal with a quorum can be executed by anyone who pays the rent, as long as the proposed round does not
exist yet and has at most 100 relays. -/
theorem C10_executable_partial {env : Env} {ctx : Ctx} {w : World} {f ks kp kr : Pubkey} {p : Proposal} {s : Settings}
    {n pn m : U8} (hd : env.Distinct) (hp : ctx.program = env.rlId)
    (hacc : ctx.accounts = [f, ks, kp, kr, env.systemId, env.rentId]) (hwr : ∀ k ∈ [f, ks, kp, kr], ctx.isWritable k = true)
    (hsig : ctx.isSigner f = true) (hs : SettingsAt env w ks s) (hsk : s.accountKind = .settings n pn)
    (hsa : findAddr env settingsSeeds env.rlId = .ok (ks, n)) (hf : FinalAt env w kp p) (hh : Home env kp p) (hst : p.status = .new)
    (hq : p.requiredVotes.toNat ≤ p.signers.count .confirm)
    (hra : findAddr env (relayRoundSeeds p.event.roundNum) env.rlId = .ok (kr, m)) (hv : Vacant env (w.acc kr))
    (h100 : p.event.relays.length ≤ 100) (hfo : (w.acc f).owner = env.systemId) (hfd : (w.acc f).data.len = 0)
    (hle : max 1 (env.rent relayRoundLen) ≤ (w.acc f).lamports) (hmax : env.rent relayRoundLen < 2 ^ 64) (hne : f ≠ kr) :
    ∃ w' r, run env ctx .executeProposal w = .ok w' ∧ RoundAt env w' kr r ∧ r.roundNumber = p.event.roundNum ∧
      r.relays = p.event.relays ∧ r.roundEnd = p.event.roundEnd + s.roundTtl := by
  obtain ⟨w', hr⟩ := execute_succeeds hd hp (by rw [hacc]; rfl) (by rw [hacc]; rfl) (by rw [hacc]; rfl) (by rw [hacc]; rfl)
    (by rw [hacc]; rfl) (by rw [hacc]; rfl) (hwr f (by simp)) (hwr ks (by simp)) (hwr kp (by simp)) (hwr kr (by simp)) hsig hs hsk hsa hf hh
    hst hq hra hv h100 hfo hfd hle hmax hne
  obtain ⟨kp', p', hkp, hh', hi, ha, ⟨e, h2 | h2⟩ | ⟨-, -, ho, ks', kr', s', x⟩⟩ := execute_fx hr
  all_goals
    rw [hacc] at hkp; cases hkp
    cases hh'.unique hf.2.1
  · rw [hst] at h2; cases h2
  · omega
  · have e1 : kr' = kr := x.roundAddr.unique (by rw [hp]; exact ⟨m, hra⟩)
    have e2 : ks' = ks := x.setAddr.unique (by rw [hp]; exact ⟨n, hsa⟩)
    subst e1; subst e2
    cases x.settings.unique hs.2.1
    obtain ⟨n', hn⟩ := x.round
    exact ⟨w', _, hr, ⟨x.owner.trans hp, hn, rfl⟩, rfl, rfl, rfl⟩

/-! ## C11: execution by the administrator -/

/-- C11: every successful `ExecuteProposalByAdmin` is signed by the configured round submitter; it creates exactly the round stored in the
given finalized proposal account, makes it current, and marks the proposal executed. -/
theorem C11_admin_execute {env : Env} {ctx : Ctx} {w w' : World} (h : run env ctx .executeProposalByAdmin w = .ok w') :
    ∃ ks kp kr s p n, ctx.accounts[3]? = some kp ∧ IsAddr env ctx.program settingsSeeds ks ∧ Holds settingsC settingsLen (w.acc ks) s ∧
      s.isInitialized = true ∧ ctx.isSigner s.roundSubmitter = true ∧ Holds proposalC proposalLen (w.acc kp) p ∧ p.isInitialized = true ∧
      IsAddr env ctx.program (relayRoundSeeds p.event.roundNum) kr ∧ Vacant env (w.acc kr) ∧ (w'.acc kr).owner = ctx.program ∧
      Holds relayRoundC relayRoundLen (w'.acc kr)
        ⟨true, .relayRound n, p.event.roundNum, p.event.roundEnd + s.roundTtl, p.event.relays⟩ ∧
      Holds settingsC settingsLen (w'.acc ks) { s with currentRoundNumber := p.event.roundNum } ∧
      Holds proposalC proposalLen (w'.acc kp) { p with status := .executed } ∧
      ∀ x, x ≠ ks → x ≠ kp → x ≠ kr → (w'.acc x).data = (w.acc x).data ∧ (w'.acc x).owner = (w.acc x).owner := by
  obtain ⟨ks, kp, kr, s, p, hkp, hsig, x⟩ := admin_fx h
  obtain ⟨n, hn⟩ := x.round
  exact ⟨ks, kp, kr, s, p, n, hkp, x.setAddr, x.settings, x.setInit, hsig, x.proposal, x.final, x.roundAddr, x.vacant, x.owner, hn, x.current,
    x.done, x.others⟩

example : ∃ w', RL.run Toy.env (Toy.ctx Toy.env.rlId
    [Toy.funder, Toy.submitter, Toy.rlSettings, Toy.prop2, Toy.rlRound 2, Toy.env.systemId, Toy.env.rentId] [Toy.funder, Toy.submitter])
    .executeProposalByAdmin (Toy.get Toy.rlFinalized) = .ok w' := ⟨_, Toy.get_ok (by decide +kernel)⟩

/-! ## C36: reimbursement of voting relays (round proposals) -/

/-- C36 (round proposals): a vote that takes effect moves exactly 20000 lamports from the proposal to the voter; all other balances
stay. -/
theorem C36_vote_reimbursed {env : Env} {ctx : Ctx} {v : Vote} {w w' : World} (h : run env ctx (.voteForProposal v) w = .ok w')
    (hne : w' ≠ w) : ∃ voter kp, ctx.accounts[0]? = some voter ∧ ctx.accounts[1]? = some kp ∧ ctx.isSigner voter = true ∧
      (voter ≠ kp → (w'.acc kp).lamports + 20000 = (w.acc kp).lamports ∧ (w'.acc voter).lamports = (w.acc voter).lamports + 20000) ∧
      ∀ x, x ≠ kp → x ≠ voter → (w'.acc x).lamports = (w.acc x).lamports := by
  obtain ⟨vk, kp, kr, p0, rr, j0, old, h0, h1, h2, hsig, hx, hh, hini, ha, hrr, hri, hra, hrel, hold, hor⟩ := vote_fx h
  rcases hor with ⟨-, h⟩ | ⟨rfl, ho, hq, hacc⟩
  · exact (hne h).elim
  · refine ⟨vk, kp, h0, h1, hsig, fun hv => ⟨?_, ?_⟩, fun x x1 x2 => ?_⟩
    · have := (hacc kp).2.2.1
      have h3 := (hacc kp).2.2.2 rfl
      rw [if_pos rfl, if_neg hv.symm] at this
      omega
    · have := (hacc vk).2.2.1
      rw [if_pos rfl, if_neg hv] at this
      omega
    · have := (hacc x).2.2.1
      rw [if_neg x1, if_neg x2] at this
      omega

/-- C36 (round proposals): in every reachable state a finalized proposal holds at least 20000 lamports for every slot that has not
voted. -/
theorem C36_proposal_funded {env : Env} {L : Pubkey → Prop} (hd : env.Distinct) {w : World} {k : Pubkey} {p : Proposal}
    (hw : Reach env L w) (h : FinalAt env w k p) : 20000 * p.signers.count .none ≤ (w.acc k).lamports := by
  have := ((good_reach hd hw).sound h.2.1 h.2.2 h.1).funded
  simp only [relayReparation, unvoted] at this
  omega

end Verif.Props
