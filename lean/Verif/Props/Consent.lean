import Verif.Lemmas.Consent
import Verif.Spec.ToyAlone
import Verif.Spec.ToyTactic
/-!
# C89: whose signatures install a relay round
-/
set_option maxRecDepth 100000
namespace Verif.Props
open Verif RL Codec

variable {env : Env} {L : Pubkey → Prop} {k : Pubkey} {w : World}

/-- C89, what does hold: when `ExecuteProposal` installs a relay round, and all votes on the proposal named the relay round of the proposal, then more
than two thirds of the relays of this round, all different, have each signed a confirmation of this proposal before. Missing: votes that name another
relay round, and relay rounds overwritten by `WriteProposal`, for which this is false. -/
theorem C89_signatures_partial {t1 t2 : List Ev} {e : Ev} {ctx : Ctx} {w0 : World} (hd : env.Distinct) (hg : Genesis env L w0)
    (hr : Run env L true w0 (t1 ++ e :: t2) w) (hact : e.act = .rl ctx .executeProposal) (hne : e.post ≠ e.pre) :
    ∃ k p, ctx.accounts[2]? = some k ∧ FinalAt env e.pre k p ∧
      ∀ kr, IsAddr env env.rlId (relayRoundSeeds p.roundNumber) kr → L kr → RoundKept env t1 kr → VotedIn t1 k kr →
      ∃ (r : RelayRound) (l : List Pubkey), RoundAt env e.pre kr r ∧ l.Nodup ∧ 2 * r.relays.length < 3 * l.length ∧ p.requiredVotes.toNat ≤ l.length ∧
        ∀ x ∈ l, x ∈ r.relays ∧ ∃ e' ∈ t1, SignsVote k x .confirm e' := by
  have hmem : e ∈ t1 ++ e :: t2 := by simp
  obtain ⟨hgood, hev⟩ := hist_mem hd hg hr e hmem
  obtain ⟨hp, hrun⟩ : ctx.program = env.rlId ∧ run env ctx .executeProposal e.pre = .ok e.post := by
    obtain ⟨act, pre, post⟩ := e
    simp only at hact; subst hact; exact ⟨hev.1, hev.2.2⟩
  obtain ⟨k, p, hk, hh, hini, -, hor⟩ := execute_fx hrun
  obtain ⟨-, hq, ho, -⟩ := hor.resolve_left (fun h => hne h.1)
  have hf : FinalAt env e.pre k p := ⟨ho.trans hp, hh, hini⟩
  refine ⟨k, p, hk, hf, fun kr ha hL hkept hvote => ?_⟩
  have hb := Run.before hr rfl
  obtain ⟨r, hR, hlen, hs⟩ := signed hd hg hb hL hkept hvote hf ha
  have h23 := (hgood.sound hf.2.1 hf.2.2 hf.1).quorum
  obtain ⟨l, l1, l2, l3⟩ := TP.voters_of (s := p.signers) (n := 0) (f := fun x => r.relays.findIdx? (fun y => y == x))
    (Q := fun x => ∃ e' ∈ t1, SignsVote k x .confirm e') (fun j hj => by
      obtain ⟨x, hx, hs⟩ := hs j _ hj nofun
      exact ⟨x, by rw [hx, Nat.zero_add], hs⟩)
  rw [← l2] at hq
  refine ⟨r, l, hR, l1, by omega, hq, fun x hx => ?_⟩
  obtain ⟨hs, j, -, hj⟩ := l3 x hx
  obtain ⟨hlt, he, -⟩ := List.findIdx?_eq_some_iff_getElem.1 hj
  have : r.relays[j] = x := by simpa using he
  exact ⟨this ▸ List.getElem_mem hlt, hs⟩

/-- C89 is false: the same three relays have served in rounds 1, 2 and 3, only in another order each time, and each round needs all three to agree. One
of them alone installs round 4, which consists of keys of their own, and it becomes the current round. Nobody else signs anything. -/
theorem C89_alone : ∃ env L w w' tr ks s s' k1 k2 k3 k4 r1 r2 r3 r4 x, Env.Distinct env ∧ Reach env L w ∧ Run env L true w tr w' ∧
    SettingsAt env w ks s ∧ s.currentRoundNumber = r3.roundNumber ∧ RoundAt env w k1 r1 ∧ RoundAt env w k2 r2 ∧ RoundAt env w k3 r3 ∧
    r1.relays.Perm r3.relays ∧ r2.relays.Perm r3.relays ∧ r3.relays.length = 3 ∧ r3.relays.Nodup ∧ x ∈ r3.relays ∧ x ≠ s.roundSubmitter ∧
    (∀ e ∈ tr, ∀ y, Signs y e → y = x) ∧
    RoundAt env w' k4 r4 ∧ (∀ y ∈ r4.relays, y ∉ r3.relays) ∧ r4.relays.length = 3 ∧ SettingsAt env w' ks s' ∧ s'.currentRoundNumber = r4.roundNumber := by
  have hs1 : (Toy.play (Toy.get Toy.rlRound1) Toy.rotated).isSome = true := by decide +kernel
  obtain ⟨⟨es1, w1⟩, hp1⟩ := Option.isSome_iff_exists.1 hs1
  have hb1 : Toy.threeRounds = w1 := by unfold Toy.threeRounds; rw [hp1]
  obtain ⟨hr1, -⟩ := Toy.play_run hp1 (by decide +kernel)
  have hs2 : (Toy.play Toy.threeRounds Toy.alone).isSome = true := by decide +kernel
  obtain ⟨⟨es, w2⟩, hp2⟩ := Option.isSome_iff_exists.1 hs2
  have hb2 : Toy.afterAlone = w2 := by unfold Toy.afterAlone; rw [hp2]
  obtain ⟨hr2, hacts⟩ := Toy.play_run hp2 (by decide +kernel)
  obtain ⟨r1, a1, b1⟩ := Toy.find_round (w := Toy.threeRounds) (k := Toy.rlRound 1)
    (P := fun r => decide (r.relays = [Toy.relay 0, Toy.relay 1, Toy.relay 2])) (by decide +kernel)
  obtain ⟨r2, a2, b2⟩ := Toy.find_round (w := Toy.threeRounds) (k := Toy.rlRound 2)
    (P := fun r => decide (r.relays = [Toy.relay 2, Toy.relay 0, Toy.relay 1])) (by decide +kernel)
  obtain ⟨r3, a3, b3⟩ := Toy.find_round (w := Toy.threeRounds) (k := Toy.rlRound 3)
    (P := fun r => decide (r.relays = [Toy.relay 1, Toy.relay 2, Toy.relay 0]) && Nat.beq r.roundNumber.toNat 3) (by decide +kernel)
  obtain ⟨r4, a4, b4⟩ := Toy.find_round (w := Toy.afterAlone) (k := Toy.rlRound 4)
    (P := fun r => decide (r.relays = [Toy.ownKey 0, Toy.ownKey 1, Toy.ownKey 2]) && Nat.beq r.roundNumber.toNat 4) (by decide +kernel)
  obtain ⟨s, a5, b5⟩ := Toy.find_settings (w := Toy.threeRounds) (k := Toy.rlSettings)
    (P := fun s => Nat.beq s.currentRoundNumber.toNat 3 && Nat.beq s.roundSubmitter.toNat 1001) (by decide +kernel)
  obtain ⟨s', a6, b6⟩ := Toy.find_settings (w := Toy.afterAlone) (k := Toy.rlSettings)
    (P := fun s => Nat.beq s.currentRoundNumber.toNat 4) (by decide +kernel)
  simp only [Bool.and_eq_true, decide_eq_true_eq] at b1 b2 b3 b4 b5
  have num : ∀ {x y : U32} {n : Nat}, Nat.beq x.toNat n = true → Nat.beq y.toNat n = true → x = y := fun h1 h2 =>
    BitVec.eq_of_toNat_eq ((Nat.eq_of_beq_eq_true h1).trans (Nat.eq_of_beq_eq_true h2).symm)
  have hreach : Reach Toy.env Toy.L Toy.threeRounds := by
    obtain ⟨w0, t0, hg, h0⟩ := Toy.reach_round1
    rw [hb1]
    exact ⟨w0, _, hg, h0.append hr1⟩
  rw [← hb2] at hr2
  have sub : s.roundSubmitter = Toy.submitter := BitVec.eq_of_toNat_eq (Nat.eq_of_beq_eq_true b5.2)
  have quiet : (Toy.alone.all fun a => match a with
      | .rl c _ => c.signers.all (fun x => Nat.beq x.toNat 1100)
      | _ => false) = true := by decide +kernel
  refine ⟨Toy.env, Toy.L, Toy.threeRounds, Toy.afterAlone, es, Toy.rlSettings, s, s', _, _, _, _, r1, r2, r3, r4, Toy.relay 0, Toy.distinct, hreach, hr2,
    a5, num b5.1 b3.2, a1, a2, a3, ?_, ?_, ?_, ?_, ?_, ?_, ?_, a4, ?_, ?_, a6, num b6 b4.2⟩
  · rw [b1, b3.1]; decide +kernel
  · rw [b2, b3.1]; decide +kernel
  · rw [b3.1]; rfl
  · rw [b3.1]; decide +kernel
  · rw [b3.1]; decide +kernel
  · rw [sub]; decide +kernel
  · intro e he y hy
    have ha := List.mem_map_of_mem (f := fun e : Ev => e.act) he
    rw [hacts] at ha
    have := List.all_eq_true.1 quiet _ ha
    obtain ⟨act, pre, post⟩ := e
    cases act with
    | rl c i =>
      have hm : y ∈ c.signers := by simp [Signs, Ctx.isSigner] at hy; exact hy.2
      exact BitVec.eq_of_toNat_eq (Nat.eq_of_beq_eq_true (List.all_eq_true.1 this y hm))
    | tp c i => cases this
    | ext => cases this
    | purge => cases this
  · intro y hy hy'
    have hch : ([Toy.ownKey 0, Toy.ownKey 1, Toy.ownKey 2].all fun y => ([Toy.relay 1, Toy.relay 2, Toy.relay 0].all fun x =>
      !(Nat.beq y.toNat x.toNat))) = true := by decide +kernel
    rw [b4.1] at hy
    rw [b3.1] at hy'
    have := List.all_eq_true.1 (List.all_eq_true.1 hch y hy) y hy'
    simp at this
  · rw [b4.1]; rfl

/-- The ordinary course: round 1 is created, a proposal for round 2 is loaded, finalized and confirmed by the three relays. -/
private def course : List Act :=
  [.rl (Toy.ctx Toy.env.rlId [Toy.funder, Toy.authority, Toy.rlSettings, Toy.rlProgramdata, Toy.env.systemId, Toy.env.rentId] [Toy.funder, Toy.authority])
      (.init 0 Toy.submitter 1 10),
    .rl (Toy.ctx Toy.env.rlId [Toy.funder, Toy.submitter, Toy.rlSettings, Toy.rlRound 1, Toy.env.systemId, Toy.env.rentId] [Toy.funder, Toy.submitter])
      (.createRelayRound 1 Toy.relays3 5000),
    .rl (Toy.ctx Toy.env.rlId [Toy.funder, Toy.stranger, Toy.prop2, Toy.env.systemId, Toy.env.rentId] [Toy.funder, Toy.stranger])
      (.createProposal 1 Toy.pda2 Toy.ev2Hash),
    .rl (Toy.ctx Toy.env.rlId [Toy.prop2] []) (.writeProposal 0 (Codec.u32.enc 140#32 ++ RL.eventC.enc Toy.ev2)),
    .rl (Toy.ctx Toy.env.rlId [Toy.funder, Toy.prop2, Toy.rlSettings, Toy.rlRound 1, Toy.env.systemId] [Toy.funder]) .finalizeProposal,
    .rl (Toy.rlVoteCtx 0) (.voteForProposal .confirm), .rl (Toy.rlVoteCtx 1) (.voteForProposal .confirm),
    .rl (Toy.rlVoteCtx 2) (.voteForProposal .confirm)]

private def courseOk : Bool := match Toy.play Toy.genesis course with
  | some (es, w) => es.all (fun e => !(Nat.beq (e.pre.acc (Toy.rlRound 1)).owner.toNat 8)) &&
      (Toy.isOk (RL.run Toy.env Toy.rlExecuteCtx .executeProposal w) && (Nat.beq (w.acc (Toy.rlRound 2)).owner.toNat 0 &&
      Nat.beq ((Toy.get (RL.run Toy.env Toy.rlExecuteCtx .executeProposal w)).acc (Toy.rlRound 2)).owner.toNat 7))
  | none => false

/-- The proposal is then executed, in a history to which `C89_signatures_partial` applies. -/
example : ∃ t1 e w ctx, Genesis Toy.env Toy.L Toy.genesis ∧ Run Toy.env Toy.L true Toy.genesis (t1 ++ e :: []) w ∧ e.act = .rl ctx .executeProposal ∧
    e.post ≠ e.pre ∧ ctx.accounts[2]? = some Toy.prop2 ∧ Toy.L (Toy.rlRound 1) ∧ RoundKept Toy.env t1 (Toy.rlRound 1) ∧
    VotedIn t1 Toy.prop2 (Toy.rlRound 1) := by
  have hok : courseOk = true := by decide +kernel
  unfold courseOk at hok
  split at hok
  · rename_i es w hplay
    simp only [Bool.and_eq_true] at hok
    obtain ⟨h1, h2, h3, h4⟩ := hok
    obtain ⟨hrun, hacts⟩ := Toy.play_run hplay (by decide +kernel)
    refine ⟨es, ⟨_, w, _⟩, _, _, Toy.genesis_ok, Run.rl _ _ hrun rfl (Toy.free (by decide +kernel)) (Toy.get_ok h2), rfl, fun hno => ?_, rfl,
      by simp [Toy.L, Toy.locked], ⟨?_, ?_⟩, ?_⟩
    · simp only at hno
      rw [hno] at h4
      have := (Nat.eq_of_beq_eq_true h3).symm.trans (Nat.eq_of_beq_eq_true h4)
      cases this
    · intro e he ctx o bs hact hk
      have ha := List.mem_map_of_mem (f := fun e : Ev => e.act) he
      rw [hacts, hact] at ha
      have hch : (course.all fun a => match a with
        | .rl c (.writeProposal _ _) => (c.accounts[0]?.map fun k => Nat.beq k.toNat Toy.prop2.toNat) == some true
        | _ => true) = true := by decide +kernel
      have := List.all_eq_true.1 hch _ ha
      simp only [hk] at this
      revert this
      decide +kernel
    · intro e he ho
      have := List.all_eq_true.1 h1 e he
      rw [ho] at this
      exact absurd this (by decide)
    · intro e he ctx v hact hk
      have ha := List.mem_map_of_mem (f := fun e : Ev => e.act) he
      rw [hacts, hact] at ha
      have hch : (course.all fun a => match a with
        | .rl c (.voteForProposal _) => (c.accounts[2]?.map fun k => Nat.beq k.toNat (Toy.rlRound 1).toNat) == some true
        | _ => true) = true := by decide +kernel
      have := List.all_eq_true.1 hch _ ha
      simp only [beq_iff_eq, Option.map_eq_some_iff] at this
      obtain ⟨k', h1, h2⟩ := this
      rw [h1, BitVec.eq_of_toNat_eq (Nat.eq_of_beq_eq_true h2)]
  · cases hok

end Verif.Props
