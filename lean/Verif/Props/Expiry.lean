import Verif.Props.Rounds
import Verif.Props.Requests
import Verif.Props.Proposals
/-!
# The end of a relay round

What the end of a relay round means for new withdrawals (C68) and for the decisions of its relays (C69).
-/
set_option linter.unusedSimpArgs false
set_option maxRecDepth 100000
namespace Verif.Props
open Verif TP

variable {env : Env} {L : Pubkey → Prop} {ctx : Ctx} {cpi : Pubkey → World → Except Err World} {w w' : World} {k : Pubkey}

/-! ## C69 -/

/-- C69 is false: the round loader never looks at the clock, so whatever relays can decide they can decide at any time, also after the end
of their round. -/
theorem C69_no_clock (t : I64) (i : RL.Instr) : RL.run env { ctx with now := t } i w = RL.run env ctx i w := by
  cases i <;> rfl

/-- C69 is false: votes for withdrawals do not depend on the time either. -/
theorem C69_votes (t : I64) (v : Vote) :
    run env { ctx with now := t } cpi (.voteForWithdrawRequest v) w = run env ctx cpi (.voteForWithdrawRequest v) w := rfl

/-- round 1 of the example ended at 5010; its three relays elect a new round at the time 10^9 -/
theorem C69_late : ∃ env L w w' ctx kp kr kn r q, Env.Distinct env ∧ Reach env L w ∧ ctx.program = env.rlId ∧
    RL.run env ctx .executeProposal w = .ok w' ∧ ctx.accounts[2]? = some kp ∧ RL.RoundAt env w kr r ∧
    (∃ p, RL.FinalAt env w kp p ∧ p.roundNumber = r.roundNumber) ∧ r.roundEnd.toNat < ctx.now.toNat ∧
    (∀ r, ¬ RL.RoundAt env w kn r) ∧ RL.RoundAt env w' kn q := by
  obtain ⟨r, h1, h2, h3⟩ := Toy.find (c := RL.relayRoundC) (len := RL.relayRoundLen)
    (P := fun r => r.isInitialized && (Nat.beq r.roundNumber.toNat 1 && Nat.ble r.roundEnd.toNat 5010)) (w := Toy.get Toy.rlVoted) (k := Toy.rlRound 1)
    (by decide +kernel)
  obtain ⟨p, g1, g2, g3⟩ := Toy.find (c := RL.proposalC) (len := RL.proposalLen)
    (P := fun p => p.isInitialized && Nat.beq p.roundNumber.toNat 1) (w := Toy.get Toy.rlVoted) (k := Toy.prop2) (by decide +kernel)
  obtain ⟨q, k1, k2, k3⟩ := Toy.find (c := RL.relayRoundC) (len := RL.relayRoundLen)
    (P := fun r => r.isInitialized) (w := Toy.get Toy.rlExecuted) (k := Toy.rlRound 2) (by decide +kernel)
  simp only [Bool.and_eq_true] at h3 g3
  refine ⟨Toy.env, Toy.L, Toy.get Toy.rlVoted, Toy.get Toy.rlExecuted, { Toy.rlExecuteCtx with now := 1000000000 }, Toy.prop2, Toy.rlRound 1, Toy.rlRound 2,
    r, q, Toy.distinct, Toy.reach_voted, rfl, ?_, rfl, ⟨h1, h2, h3.1⟩, ⟨p, ⟨g1, g2, g3.1⟩, ?_⟩, ?_, ?_, ⟨k1, k2, k3⟩⟩
  · rw [C69_no_clock]
    exact Toy.get_bind (a := Toy.rlVoted) (by decide +kernel)
  · exact BitVec.eq_of_toNat_eq ((Nat.eq_of_beq_eq_true g3.2).trans (Nat.eq_of_beq_eq_true h3.2.1).symm)
  · exact Nat.lt_of_le_of_lt (Nat.le_of_ble_eq_true h3.2.2) (by decide)
  · intro r h
    have : Nat.beq ((Toy.get Toy.rlVoted).acc (Toy.rlRound 2)).owner.toNat Toy.env.rlId.toNat = false := by decide +kernel
    rw [h.1] at this
    exact absurd this (by decide)

/-! ## C68 -/

/-- C68, the part that holds: before the year 2106 an accepted request uses a round whose end has not come. -/
theorem C68_sol_partial {pda : PDA} {to : Pubkey} {a : U128} {py : Bytes} {att : U64} (hd : env.Distinct) (hp : ctx.program = env.tpId)
    (h : run env ctx noCpi (.withdrawMultiTokenSolRequest pda to a py att) w = .ok w') (ht : ctx.now.toNat < 2 ^ 32) :
    ∃ kr r, ctx.accounts[5]? = some kr ∧ IsAddr env env.rlId (relayRoundSeeds r.roundNumber) kr ∧
      Holds RL.relayRoundC RL.relayRoundLen (w.acc kr) r ∧ ctx.now.toNat < r.roundEnd.toNat := by
  obtain ⟨au, kw, kt, ks, kr, t, mint, v, s, r, -, -, -, -, -, -, -, h5, ho, -⟩ := C14_request_sol hd hp h
  have := ho.open_
  rw [BitVec.toNat_setWidth, Nat.mod_eq_of_lt ht] at this
  exact ⟨kr, r, h5, ho.round.1, ho.round.2.1, this⟩

/-- C68, the part that holds, for Everscale tokens. -/
theorem C68_ever_partial {pda : PDA} {t : EverAddress} {n y : Bytes} {d : U8} {to : Pubkey} {a : U128} {py : Bytes} {att : U64} (hd : env.Distinct)
    (hp : ctx.program = env.tpId) (h : run env ctx noCpi (.withdrawMultiTokenEverRequest pda t n y d to a py att) w = .ok w')
    (ht : ctx.now.toNat < 2 ^ 32) :
    ∃ kr r, ctx.accounts[4]? = some kr ∧ IsAddr env env.rlId (relayRoundSeeds r.roundNumber) kr ∧
      Holds RL.relayRoundC RL.relayRoundLen (w.acc kr) r ∧ ctx.now.toNat < r.roundEnd.toNat := by
  obtain ⟨au, kw, ks, kr, s, r, -, -, -, -, h4, ho, -⟩ := C14_request_ever hd hp h
  have := ho.open_
  rw [BitVec.toNat_setWidth, Nat.mod_eq_of_lt ht] at this
  exact ⟨kr, r, h4, ho.round.1, ho.round.2.1, this⟩

/-- C68, the part that holds: a round that is created ends at the requested end plus the configured time, if that is below 2^32. -/
theorem C68_end_partial {num e : U32} {relays : List Pubkey} (h : RL.run env ctx (.createRelayRound num relays e) w = .ok w') :
    ∃ ks kr s r, IsAddr env ctx.program settingsSeeds ks ∧ Holds RL.settingsC RL.settingsLen (w.acc ks) s ∧
      IsAddr env ctx.program (relayRoundSeeds num) kr ∧ Holds RL.relayRoundC RL.relayRoundLen (w'.acc kr) r ∧
      (e.toNat + s.roundTtl.toNat < 2 ^ 32 → r.roundEnd.toNat = e.toNat + s.roundTtl.toNat) := by
  obtain ⟨ks, kr, s, n, h1, h2, -, -, -, h3, -, -, h4, -⟩ := C02_create_round h
  exact ⟨ks, kr, s, _, h1, h2, h3, h4, fun hl => by simp only [BitVec.toNat_add]; exact Nat.mod_eq_of_lt hl⟩

/-- the request of the example, sent long after the end of round 1 -/
private def lateCtx : Ctx := { Toy.reqCtx Toy.wd1 with now := 4294968296 }

/-- C68 is false: the time is cut to 32 bits, and a request is accepted with a round whose end has passed. -/
theorem C68_expired : ∃ env L w w' ctx pda to a py att kw kr r p md, Env.Distinct env ∧ Reach env L w ∧ ctx.program = env.tpId ∧
    run env ctx noCpi (.withdrawMultiTokenSolRequest pda to a py att) w = .ok w' ∧ ctx.accounts[5]? = some kr ∧ RL.RoundAt env w kr r ∧
    r.roundEnd.toNat < ctx.now.toNat ∧ ctx.now.toNat < 2 ^ 63 ∧ (∀ p md, ¬ WithdrawalAt env w kw p md) ∧ WithdrawalAt env w' kw p md := by
  obtain ⟨r, h1, h2, h3⟩ := Toy.find (c := RL.relayRoundC) (len := RL.relayRoundLen)
    (P := fun r => r.isInitialized && Nat.ble r.roundEnd.toNat 5010) (w := Toy.get Toy.tpDeposited) (k := Toy.rlRound 1) (by decide +kernel)
  obtain ⟨p, md, g1, -⟩ := Toy.tfind_withdrawal (P := fun _ _ => true)
    (w := Toy.get (Toy.tp Toy.tpDeposited lateCtx (.withdrawMultiTokenSolRequest Toy.pda1 Toy.bob 1000 [] 0))) (k := Toy.wd1) (by decide +kernel)
  simp only [Bool.and_eq_true] at h3
  refine ⟨Toy.env, Toy.L, _, _, lateCtx, Toy.pda1, Toy.bob, 1000, [], 0, Toy.wd1, Toy.rlRound 1, r, p, md, Toy.distinct, Toy.reach_tpDeposited, rfl,
    Toy.get_tp (a := Toy.tpDeposited) (by decide +kernel), rfl, ⟨h1, h2, h3.1⟩, Nat.lt_of_le_of_lt (Nat.le_of_ble_eq_true h3.2) (by decide), by decide,
    ?_, g1⟩
  intro p md h
  have : Nat.beq ((Toy.get Toy.tpDeposited).acc Toy.wd1).owner.toNat Toy.env.tpId.toNat = false := by decide +kernel
  rw [h.1] at this
  exact absurd this (by decide)

private def rlWrapped : Except Err World := Toy.rlInit >>= fun w =>
  RL.run Toy.env (Toy.ctx Toy.env.rlId [Toy.funder, Toy.submitter, Toy.rlSettings, Toy.rlRound 1, Toy.env.systemId, Toy.env.rentId]
    [Toy.funder, Toy.submitter]) (.createRelayRound 1 Toy.relays3 4294967290) w

/-- C68 is false: the end of a round may overflow, and then the round has ended long before the requested end. -/
theorem C68_overflow : ∃ env L w w' ctx kr num relays r, ∃ e : U32, Env.Distinct env ∧ Reach env L w ∧ ctx.program = env.rlId ∧
    RL.run env ctx (.createRelayRound num relays e) w = .ok w' ∧ RL.RoundAt env w' kr r ∧ r.roundNumber = num ∧ r.roundEnd.toNat < 10 ∧
    10 < e.toNat := by
  obtain ⟨r, h1, h2, h3⟩ := Toy.find (c := RL.relayRoundC) (len := RL.relayRoundLen)
    (P := fun r => r.isInitialized && (Nat.beq r.roundNumber.toNat 1 && Nat.blt r.roundEnd.toNat 10)) (w := Toy.get rlWrapped) (k := Toy.rlRound 1)
    (by decide +kernel)
  simp only [Bool.and_eq_true] at h3
  exact ⟨Toy.env, Toy.L, _, _, _, Toy.rlRound 1, 1, _, r, 4294967290, Toy.distinct, Toy.reach_init, rfl,
    Toy.get_bind (a := Toy.rlInit) (by decide +kernel), ⟨h1, h2, h3.1⟩, BitVec.eq_of_toNat_eq (Nat.eq_of_beq_eq_true h3.2.1),
    Nat.le_of_ble_eq_true h3.2.2, by decide⟩

/-- the request of the example is accepted in time -/
example : ∃ w', run Toy.env (Toy.reqCtx Toy.wd1) noCpi (.withdrawMultiTokenSolRequest Toy.pda1 Toy.bob 1000 [] 0) (Toy.get Toy.tpDeposited) = .ok w' ∧
    (Toy.reqCtx Toy.wd1).now.toNat < 2 ^ 32 :=
  ⟨_, Toy.get_tp (a := Toy.tpDeposited) (by decide +kernel), by decide⟩

example : ∃ w', RL.run Toy.env (Toy.ctx Toy.env.rlId [Toy.funder, Toy.submitter, Toy.rlSettings, Toy.rlRound 1, Toy.env.systemId, Toy.env.rentId]
    [Toy.funder, Toy.submitter]) (.createRelayRound 1 Toy.relays3 5000) (Toy.get Toy.rlInit) = .ok w' :=
  ⟨_, Toy.get_bind (a := Toy.rlInit) (by decide +kernel)⟩

end Verif.Props
