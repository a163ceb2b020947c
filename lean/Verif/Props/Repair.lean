import Verif.Lemmas.Repair
import Verif.Props.Confirm
import Verif.Spec.ToySteps
import Verif.Spec.ToyClient
/-!
# C95: what others write into a proposal can be overwritten
-/
set_option maxRecDepth 100000
namespace Verif.Props
open Verif RL Codec

variable {env : Env} {L : Pubkey → Prop} {k a f ks kr : Pubkey} {w : World} {s : Settings} {r : RelayRound} {q : PDA} {ev : Event} {len : U32} {t : I64}

/-- C95: a proposal was created for the digest of `ev`, and since then anything has happened, so anybody may have written anything into it; it is not
finalized. Then the event, preceded by its length and filled up with zeros, can be written over what is there, in parts of any size and order, and every
part is accepted; and after that the proposal can be finalized against its round, by anybody who pays for it: it has the event, the creator as author,
and no votes. -/
theorem C95_repair {w0 : World} {tr : List Ev} {e : Ev} {parts : List Part} (hd : env.Distinct) (hg : Genesis env L w0) (hr : Run env L true w0 tr w)
    (he : e ∈ tr) (hc : Creates e k a r.roundNumber q (env.hash (eventC.enc ev))) (hnf : ¬ ∃ p, FinalAt env w k p)
    (hs : Ready env w ks s) (hrr : RoundReady env w kr r) (h100 : ev.relays.length ≤ 100) (hp : Covers (paddedBytes len ev) parts)
    (hf : Wallet env w f (relayReparation * r.relays.length)) (hmax : (w.acc k).lamports + relayReparation * r.relays.length < 2 ^ 64) :
    ∃ ix w1 w2 p, Written env k parts w w1 ∧ RL.Client.finalizeProposalIx env f k r.roundNumber = .ok ix ∧
      RL.process env (ix.ctx t) ix.data w1 = .ok w2 ∧ ProposalReady env w2 k p ∧ p.isInitialized = true ∧ p.event = ev ∧ p.pda = q ∧ p.author = a ∧
      p.roundNumber = r.roundNumber ∧ p.status = .new ∧ p.signers = List.replicate r.relays.length .none ∧
      p.requiredVotes = requiredVotes r.relays.length s.minRequiredVotes ∧
      (∀ j, j ≠ k → (w2.acc j).data = (w.acc j).data ∧ (w2.acc j).owner = (w.acc j).owner) ∧
      (w2.acc k).lamports = (w.acc k).lamports + relayReparation * r.relays.length ∧
      (w2.acc f).lamports + relayReparation * r.relays.length = (w.acc f).lamports ∧
      ∀ j, j ≠ k → j ≠ f → (w2.acc j).lamports = (w.acc j).lamports := by
  obtain ⟨n, hn, hdr | hfin⟩ := draft_kept hd hg hr e he hc
  · obtain ⟨w1, hw, hpr, hl, hoth⟩ := repaired (len := len) hdr hn h100 hp
    have hks : ks ≠ k := by rintro rfl; exact hdr.notLen hs.here.2.1 (by decide)
    have hkr : kr ≠ k := by rintro rfl; exact hdr.notLen hrr.here.2.1 (by decide)
    have hfk : f ≠ k := by rintro rfl; exact hd.rlSys (hdr.1.symm.trans hf.system)
    have eff : Eff [k] w w1 := fun j hj => by rw [hoth j (by simpa using hj)]; exact ⟨rfl, rfl⟩
    have hs1 : Ready env w1 ks s := ⟨⟨(eff ks (by simpa using hks)).2.trans hs.here.1, holds_eff eff (by simpa using hks) hs.here.2.1, hs.here.2.2⟩, hs.addr⟩
    have hr1 : RoundReady env w1 kr r :=
      ⟨⟨(eff kr (by simpa using hkr)).2.trans hrr.here.1, holds_eff eff (by simpa using hkr) hrr.here.2.1, hrr.here.2.2⟩, hrr.addr⟩
    obtain ⟨ix, w2, hb, hrun, hq, eff2, lam⟩ := finalize_sent (now := t) hd hs1 hr1 hpr rfl rfl h100
      ⟨by rw [hoth f hfk]; exact hf.system, by rw [hoth f hfk]; exact hf.empty, by rw [hoth f hfk]; exact hf.rich⟩ (by rw [hl]; exact hmax)
    refine ⟨ix, w1, w2, _, hw, hb, hrun, hq, rfl, rfl, rfl, rfl, rfl, rfl, rfl, rfl, fun j hj => ?_, ?_, ?_, fun j hj hjf => ?_⟩
    · have h1 := eff j (by simpa using hj)
      have h2 := eff2 j (by simpa using hj)
      exact ⟨h2.1.trans h1.1, h2.2.trans h1.2⟩
    · rw [lam, if_neg hfk.symm, if_pos rfl, hl]; omega
    · have := hf.rich
      rw [lam, if_pos rfl, if_neg hfk, hoth f hfk]; omega
    · rw [lam, if_neg hjf, if_neg hj, hoth j hj]; omega
  · exact (hnf hfin).elim

/-- C95: so from every such state the round can still be installed: the event is written over what is there, the proposal is finalized, relays of its round
who make a quorum vote, in any order, and the round is opened as proposed and becomes the current one. -/
theorem C95_install {w0 : World} {tr : List Ev} {e : Ev} {parts : List Part} {kn : Pubkey} {t' : I64} {l : List (Pubkey × I64)} (hd : env.Distinct)
    (hg : Genesis env L w0) (hr : Run env L true w0 tr w) (he : e ∈ tr) (hc : Creates e k a r.roundNumber q (env.hash (eventC.enc ev)))
    (hnf : ¬ ∃ p, FinalAt env w k p) (hs : Ready env w ks s) (hrr : RoundReady env w kr r)
    (hkn : IsAddr env env.rlId (relayRoundSeeds ev.roundNum) kn) (hvn : Vacant env (w.acc kn)) (hnl : kn ∉ l.map (·.1))
    (h100 : ev.relays.length ≤ 100) (hp : Covers (paddedBytes len ev) parts)
    (hf : Wallet env w f (relayReparation * r.relays.length + max 1 (env.rent relayRoundLen)))
    (hmax : (w.acc k).lamports + relayReparation * r.relays.length < 2 ^ 64) (hmax2 : env.rent relayRoundLen < 2 ^ 64)
    (hl : CanVote w k r.relays (List.replicate r.relays.length .none) l) (hq : (requiredVotes r.relays.length s.minRequiredVotes).toNat ≤ l.length) :
    ∃ ix1 ix2 w1 w2 w3 w4 n, Written env k parts w w1 ∧ RL.Client.finalizeProposalIx env f k r.roundNumber = .ok ix1 ∧
      RL.process env (ix1.ctx t) ix1.data w1 = .ok w2 ∧ Voted env k r.roundNumber .confirm l w2 w3 ∧
      RL.Client.executeIx env f k ev.roundNum = .ok ix2 ∧ RL.process env (ix2.ctx t') ix2.data w3 = .ok w4 ∧
      RoundReady env w4 kn ⟨true, .relayRound n, ev.roundNum, ev.roundEnd + s.roundTtl, ev.relays⟩ ∧
      Ready env w4 ks { s with currentRoundNumber := ev.roundNum } := by
  have hfr := hf.rich
  obtain ⟨ix1, w1, w2, p, hw, hb1, hp1, hpr, hpi, rfl, -, -, -, hpst, hps, hpv, hdat, hlk, hlf, hlam⟩ :=
    C95_repair (t := t) hd hg hr he hc hnf hs hrr h100 hp ⟨hf.system, hf.empty, by omega⟩ hmax
  have hdraft : (w.acc k).owner = env.rlId ∧ ∃ b, (w.acc k).data = .raw b ∧ b.length = proposalLen := by
    obtain ⟨n, -, ⟨h1, b, h2, h3, -⟩ | h⟩ := draft_kept hd hg hr e he hc
    · exact ⟨h1, b, h2, h3⟩
    · exact (hnf h).elim
  obtain ⟨hko, b, hkb, hkl⟩ := hdraft
  have hks : ks ≠ k := by
    rintro rfl
    obtain ⟨b', _, hb', hl', -⟩ := hs.here.2.1
    rw [hkb] at hb'; cases hb'
    rw [hkl] at hl'; cases hl'
  have hkr : kr ≠ k := by
    rintro rfl
    obtain ⟨b', _, hb', hl', -⟩ := hrr.here.2.1
    rw [hkb] at hb'; cases hb'
    rw [hkl] at hl'; cases hl'
  have hfk : f ≠ k := by rintro rfl; exact hd.rlSys (hko.symm.trans hf.system)
  have hnk : kn ≠ k := by rintro rfl; exact hd.rlSys (hko.symm.trans hvn.2.2)
  have hfn : kn ≠ f := by
    rintro rfl
    rw [hvn.1] at hfr; omega
  have heff : Eff [k] w w2 := fun j hj => hdat j (by simpa using hj)
  have hs2 : Ready env w2 ks s := ⟨⟨(hdat ks hks).2.trans hs.here.1, holds_eff heff (by simpa using hks) hs.here.2.1, hs.here.2.2⟩, hs.addr⟩
  have hr2 : RoundReady env w2 kr r := ⟨⟨(hdat kr hkr).2.trans hrr.here.1, holds_eff heff (by simpa using hkr) hrr.here.2.1, hrr.here.2.2⟩, hrr.addr⟩
  have hv2 : Vacant env (w2.acc kn) :=
    ⟨by rw [hlam kn hnk hfn]; exact hvn.1, by rw [(hdat kn hnk).1]; exact hvn.2.1, by rw [(hdat kn hnk).2]; exact hvn.2.2⟩
  have hll : l.length ≤ r.relays.length := by simpa using hl.le
  have hl2 : CanVote w2 k r.relays p.signers l := by
    refine ⟨hl.different, by rw [hps]; exact hl.member, hl.other, fun x hx => ?_⟩
    have h1 := hl.room x hx
    by_cases ex : x.1 = f
    · rw [ex] at h1 ⊢; omega
    · rw [hlam x.1 (hl.other x hx) ex]; exact h1
  have hcount : p.signers.count .confirm = 0 := by rw [hps, List.count_replicate]; rfl
  have hfund : relayReparation * l.length ≤ (w2.acc k).lamports := by
    rw [hlk]; exact Nat.le_trans (Nat.mul_le_mul_left _ hll) (by omega)
  obtain ⟨sn, pn, pd2, hsk, hsn, hpn⟩ := hs.addr
  have hwf : RL.Instr.codec.wf .executeProposal = true := rfl
  have hb2 : RL.Client.executeIx env f k p.event.roundNum = .ok ⟨env.rlId, [.new f true, .new ks false, .new k false, .new kn false,
      .readonly env.systemId false, .readonly env.rentId false], RL.Instr.codec.enc .executeProposal⟩ := by
    simp only [RL.Client.executeIx, RL.Client.settingsAddr, RL.Client.roundAddr, bind_ok, addrOf_ok, packed_ok, Except.ok.injEq]
    exact ⟨ks, ⟨sn, hsn⟩, kn, hkn, _, ⟨hwf, rfl⟩, rfl⟩
  obtain ⟨w3, w4, votes, n, h1, h2, -, h4, h5, -⟩ := open_round (now := t') hd hfund hs2 hpr hpi hpst hr2 hl2 (by rw [hpv, hcount]; omega) hkn hv2 hnl h100
    ⟨by rw [(hdat f hfk).2]; exact hf.system, by rw [(hdat f hfk).1]; exact hf.empty, by omega⟩ hmax2 hb2
  exact ⟨ix1, _, w1, w2, w3, w4, n, hw, hb1, hp1, h1, hb2, h2, h4, ⟨h5, sn, pn, pd2, hsk, hsn, hpn⟩⟩

/-! ## On the toy chain -/

/-- Somebody writes rubbish into the proposal of the example. -/
def toySpoiled : Except Err World := do
  let w ← Toy.rlCreated
  RL.run Toy.env (Toy.ctx Toy.env.rlId [Toy.prop2] []) (.writeProposal 0 (List.replicate 40 255#8)) w

/-- Somebody writes rubbish behind the place of the event. -/
def toyBehind : Except Err World := do
  let w ← Toy.rlCreated
  RL.run Toy.env (Toy.ctx Toy.env.rlId [Toy.prop2] []) (.writeProposal 144 (List.replicate 40 255#8)) w

/-- The event is written after that. -/
def toyOver : Except Err World := do
  let w ← toyBehind
  RL.run Toy.env (Toy.ctx Toy.env.rlId [Toy.prop2] []) (.writeProposal 0 (uploadBytes 140 Toy.ev2)) w

/-- As it is, it cannot be finalized. -/
example : Toy.isOk (RL.run Toy.env (Toy.ctx Toy.env.rlId [Toy.funder, Toy.prop2, Toy.rlSettings, Toy.rlRound 1, Toy.env.systemId] [Toy.funder])
    .finalizeProposal (Toy.get toySpoiled)) = false := by decide +kernel

def toyFirst (w : World) (k : Pubkey) : Bool :=
  match (w.acc k).data with
  | .raw (b :: _) => Nat.beq b.toNat 0
  | _ => false

theorem toy_unfinal {w : World} {k : Pubkey} (h : toyFirst w k = true) : ¬ ∃ p, FinalAt Toy.env w k p := by
  rintro ⟨p, -, ⟨b, r, hb, -, hdd⟩, hi⟩
  have h1 := proposal_head hdd
  rw [hi] at h1
  unfold toyFirst at h
  rw [hb] at h
  cases b with
  | nil => cases h1
  | cons x t =>
    simp only [List.getElem?_cons_zero, Option.some.injEq] at h1
    simp [h1] at h

theorem covers_one {T : Bytes} {t : I64} : Covers T [⟨0, T, t⟩] := by
  refine ⟨fun x hx => ?_, fun i hi => ⟨_, List.mem_singleton_self _, Nat.zero_le _, ?_⟩⟩
  · rw [List.mem_singleton] at hx
    subst hx
    exact ⟨by simp, by simp⟩
  · show i < 0 + T.length
    omega

/-- The zeros are needed: after somebody has written behind the place of the event, the event alone is accepted but the proposal cannot be finalized. -/
theorem C95_zeros_needed : ∃ w1 w2, Reach Toy.env Toy.L w1 ∧
    RL.run Toy.env (Toy.ctx Toy.env.rlId [Toy.prop2] []) (.writeProposal 144 (List.replicate 40 255#8)) (Toy.get Toy.rlCreated) = .ok w1 ∧
    RL.run Toy.env (Toy.ctx Toy.env.rlId [Toy.prop2] []) (.writeProposal 0 (uploadBytes 140 Toy.ev2)) w1 = .ok w2 ∧
    ∀ w3, RL.run Toy.env (Toy.ctx Toy.env.rlId [Toy.funder, Toy.prop2, Toy.rlSettings, Toy.rlRound 1, Toy.env.systemId] [Toy.funder])
      .finalizeProposal w2 ≠ .ok w3 := by
  have e1 : RL.run Toy.env (Toy.ctx Toy.env.rlId [Toy.prop2] []) (.writeProposal 144 (List.replicate 40 255#8)) (Toy.get Toy.rlCreated) =
      .ok (Toy.get toyBehind) := Toy.get_bind (a := Toy.rlCreated) (by decide +kernel)
  have e2 : RL.run Toy.env (Toy.ctx Toy.env.rlId [Toy.prop2] []) (.writeProposal 0 (uploadBytes 140 Toy.ev2)) (Toy.get toyBehind) =
      .ok (Toy.get toyOver) := Toy.get_bind (a := toyBehind) (by decide +kernel)
  refine ⟨_, _, ?_, e1, e2, fun w3 h => ?_⟩
  · exact Toy.reach_bind (a := Toy.rlCreated) Toy.reach_created rfl (by decide +kernel) (by decide +kernel)
  · have h1 : Toy.isOk (RL.run Toy.env (Toy.ctx Toy.env.rlId [Toy.funder, Toy.prop2, Toy.rlSettings, Toy.rlRound 1, Toy.env.systemId] [Toy.funder])
        .finalizeProposal (Toy.get toyOver)) = false := by decide +kernel
    rw [h] at h1
    cases h1

/-- The history of the spoiled proposal. -/
theorem toy_spoiled : ∃ w0 tr e, Genesis Toy.env Toy.L w0 ∧ Run Toy.env Toy.L true w0 tr (Toy.get toySpoiled) ∧ e ∈ tr ∧
    Creates e Toy.prop2 Toy.stranger 1 Toy.pda2 (Toy.env.hash (eventC.enc Toy.ev2)) := by
  have hv : Vacant Toy.env ((Toy.get Toy.rlRound1).acc Toy.prop2) := Toy.vacant (by decide +kernel)
  have run1 : RL.run Toy.env (Toy.ctx Toy.env.rlId [Toy.funder, Toy.stranger, Toy.prop2, Toy.env.systemId, Toy.env.rentId] [Toy.funder, Toy.stranger])
      (.createProposal 1 Toy.pda2 Toy.ev2Hash) (Toy.get Toy.rlRound1) = .ok (Toy.get Toy.rlCreated) := Toy.get_bind (a := Toy.rlRound1) (by decide +kernel)
  have run2 : RL.run Toy.env (Toy.ctx Toy.env.rlId [Toy.prop2] []) (.writeProposal 0 (List.replicate 40 255#8)) (Toy.get Toy.rlCreated) =
      .ok (Toy.get toySpoiled) := Toy.get_bind (a := Toy.rlCreated) (by decide +kernel)
  obtain ⟨w0, tr, hg, h0⟩ := Toy.reach_round1
  have hrun := Run.rl _ _ (Run.rl _ _ h0 rfl (Toy.free (by decide +kernel)) run1) rfl (Toy.free (by decide +kernel)) run2
  exact ⟨w0, _, ⟨.rl (Toy.ctx Toy.env.rlId [Toy.funder, Toy.stranger, Toy.prop2, Toy.env.systemId, Toy.env.rentId] [Toy.funder, Toy.stranger])
      (.createProposal 1 Toy.pda2 Toy.ev2Hash), Toy.get Toy.rlRound1, Toy.get Toy.rlCreated⟩, hg, hrun, by simp, _, rfl, rfl, rfl, hv.1⟩

/-- It is repaired. -/
example : ∃ ix w1 w2 p, Written Toy.env Toy.prop2 [⟨0, paddedBytes 140 Toy.ev2, 1100⟩] (Toy.get toySpoiled) w1 ∧
    RL.Client.finalizeProposalIx Toy.env Toy.funder Toy.prop2 1 = .ok ix ∧ RL.process Toy.env (ix.ctx 1200) ix.data w1 = .ok w2 ∧
    ProposalReady Toy.env w2 Toy.prop2 p ∧ p.isInitialized = true ∧ p.event = Toy.ev2 ∧ p.author = Toy.stranger := by
  obtain ⟨s, hs, -⟩ := Toy.rl_ready (P := fun _ => true) (w := Toy.get toySpoiled) (by decide +kernel)
  obtain ⟨r, hr, hn, hR⟩ := Toy.rl_round (P := fun r => Nat.beq r.relays.length 3) (n := 1) (w := Toy.get toySpoiled) (by decide +kernel)
  have h3 : r.relays.length = 3 := Nat.eq_of_beq_eq_true hR
  have hf := Toy.wallet (w := Toy.get toySpoiled) (k := Toy.funder) (n := relayReparation * 3) (by decide +kernel)
  have hl : Nat.blt (((Toy.get toySpoiled).acc Toy.prop2).lamports + relayReparation * 3) (2 ^ 64) = true := by decide +kernel
  have hun := toy_unfinal (w := Toy.get toySpoiled) (k := Toy.prop2) (by decide +kernel)
  obtain ⟨w0, tr, e, hg, hrun, he, hcr⟩ := toy_spoiled
  obtain ⟨ix, w1, w2, p, h1, h2, h4, h5, h6, h7, -, h8, -⟩ := C95_repair (r := r) (q := Toy.pda2) (ev := Toy.ev2) (len := 140) (a := Toy.stranger)
    (f := Toy.funder) (t := 1200) (parts := [⟨0, paddedBytes 140 Toy.ev2, 1100⟩])
    Toy.distinct hg hrun he (by rw [hn]; exact hcr) hun hs hr (by decide) covers_one (by rw [h3]; exact hf)
    (by rw [h3]; exact Nat.le_of_ble_eq_true hl)
  rw [hn] at h2
  exact ⟨ix, w1, w2, p, h1, h2, h4, h5, h6, h7, h8⟩

/-- And the round is installed. -/
example : ∃ ix1 ix2 w1 w2 w3 w4 n, ∃ s : Settings, Written Toy.env Toy.prop2 [⟨0, paddedBytes 140 Toy.ev2, 1100⟩] (Toy.get toySpoiled) w1 ∧
    RL.Client.finalizeProposalIx Toy.env Toy.funder Toy.prop2 1 = .ok ix1 ∧ RL.process Toy.env (ix1.ctx 1200) ix1.data w1 = .ok w2 ∧
    Voted Toy.env Toy.prop2 1 .confirm [(Toy.relay 2, 1000), (Toy.relay 0, 2000), (Toy.relay 1, 1500)] w2 w3 ∧
    RL.Client.executeIx Toy.env Toy.funder Toy.prop2 2 = .ok ix2 ∧ RL.process Toy.env (ix2.ctx 2500) ix2.data w3 = .ok w4 ∧
    RoundReady Toy.env w4 (Toy.rlRound 2) ⟨true, .relayRound n, 2, 9000 + s.roundTtl, Toy.ev2.relays⟩ ∧
    Ready Toy.env w4 Toy.rlSettings { s with currentRoundNumber := 2 } := by
  obtain ⟨s, hs, hS⟩ := Toy.rl_ready (P := fun s => Nat.ble (requiredVotes 3 s.minRequiredVotes).toNat 3) (w := Toy.get toySpoiled) (by decide +kernel)
  obtain ⟨r, hr, hn, hR⟩ := Toy.rl_round (P := fun r => decide (r.relays = [Toy.relay 0, Toy.relay 1, Toy.relay 2])) (n := 1) (w := Toy.get toySpoiled)
    (by decide +kernel)
  have hR := of_decide_eq_true hR
  have h3 : r.relays.length = 3 := by rw [hR]; rfl
  have hf := Toy.wallet (w := Toy.get toySpoiled) (k := Toy.funder) (n := relayReparation * 3 + max 1 (Toy.env.rent relayRoundLen)) (by decide +kernel)
  have hl : Nat.blt (((Toy.get toySpoiled).acc Toy.prop2).lamports + relayReparation * 3) (2 ^ 64) = true := by decide +kernel
  have hun := toy_unfinal (w := Toy.get toySpoiled) (k := Toy.prop2) (by decide +kernel)
  have hvn : Vacant Toy.env ((Toy.get toySpoiled).acc (Toy.rlRound 2)) := Toy.vacant (by decide +kernel)
  have hc := toy_canVote (w := Toy.get toySpoiled) (k := Toy.prop2) (votes := List.replicate r.relays.length .none) hR (by rw [hR]; rfl) (by decide +kernel)
    (by decide +kernel)
  obtain ⟨w0, tr, e, hg, hrun, he, hcr⟩ := toy_spoiled
  obtain ⟨ix1, ix2, w1, w2, w3, w4, n, h⟩ := C95_install (r := r) (q := Toy.pda2) (ev := Toy.ev2) (len := 140) (a := Toy.stranger) (f := Toy.funder)
    (t := 1200) (t' := 2500) (kn := Toy.rlRound 2) (parts := [⟨0, paddedBytes 140 Toy.ev2, 1100⟩])
    Toy.distinct hg hrun he (by rw [hn]; exact hcr) hun hs hr (Toy.isAddr _ _) hvn (by decide) (by decide) covers_one (by rw [h3]; exact hf)
    (by rw [h3]; exact Nat.le_of_ble_eq_true hl) (by decide) hc (by rw [h3]; exact Nat.le_of_ble_eq_true hS)
  rw [hn] at h
  exact ⟨ix1, ix2, w1, w2, w3, w4, n, s, h⟩

end Verif.Props
