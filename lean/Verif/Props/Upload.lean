import Verif.Lemmas.Upload
import Verif.Props.Confirm
/-!
# A new round can be proposed and installed

C74: whoever pays for it can upload the proposal of a new round in parts, in any order; the relays of the current round can then vote and the round be
opened. Nobody else acts in between.
-/
set_option maxRecDepth 100000
namespace Verif.Props
open Verif TP Codec

variable {env : Env} {w w' w1 w2 : World} {k kr ks kn f a : Pubkey} {now t1 t2 t3 : I64} {s : RL.Settings} {r : RL.RelayRound} {e : RL.Event} {pda : PDA}
  {len : U32} {parts : List RL.Part}

/-- C74: a proposal is created, written in parts and finalized. Every step is accepted; afterwards the proposal holds the event, has a slot for every
relay of the round and requires a quorum of them; the payer has paid the rent and the costs of the votes, and nothing else has changed. -/
theorem C74_upload (hd : env.Distinct) (hs : RL.Ready env w ks s) (hr : RL.RoundReady env w kr r)
    (hk : IsAddr env env.rlId (proposalSeeds r.roundNumber pda (env.hash (RL.eventC.enc e))) k) (hv : Vacant env (w.acc k))
    (h100 : e.relays.length ≤ 100) (hc : RL.Covers (RL.uploadBytes len e) parts)
    (hf : Wallet env w f (max 1 (env.rent RL.proposalLen) + relayReparation * r.relays.length))
    (hmax : max 1 (env.rent RL.proposalLen) + relayReparation * r.relays.length < 2 ^ 64) :
    ∃ ix1 ix2 w1 w2 w3 q, RL.Client.createProposalIx env f a r.roundNumber pda (RL.eventC.enc e) = .ok ix1 ∧
      RL.process env (ix1.ctx t1) ix1.data w = .ok w1 ∧ RL.Written env k parts w1 w2 ∧
      RL.Client.finalizeProposalIx env f k r.roundNumber = .ok ix2 ∧ RL.process env (ix2.ctx t2) ix2.data w2 = .ok w3 ∧
      RL.ProposalReady env w3 k q ∧ q.isInitialized = true ∧ q.event = e ∧ q.pda = pda ∧ q.author = a ∧ q.roundNumber = r.roundNumber ∧
      q.status = .new ∧ q.signers = List.replicate r.relays.length .none ∧
      q.requiredVotes = RL.requiredVotes r.relays.length s.minRequiredVotes ∧
      (w3.acc k).lamports = max 1 (env.rent RL.proposalLen) + relayReparation * r.relays.length ∧
      (w3.acc f).lamports + max 1 (env.rent RL.proposalLen) + relayReparation * r.relays.length = (w.acc f).lamports ∧
      (∀ j, j ≠ k → (w3.acc j).data = (w.acc j).data ∧ (w3.acc j).owner = (w.acc j).owner) ∧
      ∀ j, j ≠ k → j ≠ f → (w3.acc j).lamports = (w.acc j).lamports := by
  obtain ⟨pn, hpn⟩ := hk
  have hfk : f ≠ k := by
    rintro rfl
    have := hf.rich; rw [hv.1] at this; omega
  have hfr := hf.rich
  obtain ⟨ix1, w1, hb1, hp1, self1, eff1, lam1⟩ := RL.create_sent (a := a) (now := t1) hpn hv ⟨hf.system, hf.empty, by omega⟩ (by omega)
  have hfl : (RL.freshBytes pn a r.roundNumber pda).length = RL.proposalLen := by
    have : (RL.proposalC.enc (RL.freshProposal pn a r.roundNumber pda)).length ≤ RL.proposalLen := by
      simp [RL.proposalC, RL.freshProposal, RL.eventC, vec, encAll, RL.proposalLen]
    rw [RL.freshBytes, List.length_append, List.length_drop, RL.zeros_len]; exact Nat.add_sub_of_le this
  have hf0 : (RL.freshBytes pn a r.roundNumber pda)[0]? = some 0#8 := by
    simp only [RL.freshBytes, RL.proposalC, enc_iso, enc_pair, RL.freshProposal]
    simp [Codec.bool]
  have hT : RL.loadBegin + (RL.uploadBytes len e).length ≤ RL.loadEnd := by
    have : (RL.uploadBytes len e).length = 16 + 32 * e.relays.length := by
      simp only [RL.uploadBytes, RL.eventC, enc_iso, enc_pair, List.length_append, RL.len_relays]; simp; omega
    show 88 + _ ≤ 3304
    omega
  have hle : RL.loadEnd ≤ RL.proposalLen := by decide
  obtain ⟨w2, hw, self2, oth2⟩ := RL.writes_sent (env := env) (k := k) (l := parts) (w := w1) hfl hf0 hT hc.piece (by rw [self1]) (by rw [self1]) hfl
    (fun i hi => by
      have hwl : (RL.wholeBytes (RL.freshBytes pn a r.roundNumber pda) (RL.uploadBytes len e))[i]? =
        if RL.loadBegin ≤ i ∧ i < RL.loadBegin + (RL.uploadBytes len e).length then (RL.uploadBytes len e)[i - RL.loadBegin]?
        else (RL.freshBytes pn a r.roundNumber pda)[i]? := RL.write_at (by omega)
      rw [hwl] at hi
      split at hi
      · rename_i hin
        obtain ⟨x, hx, h1, h2⟩ := hc.all (i - RL.loadBegin) (by omega)
        exact ⟨x, hx, by omega, by omega⟩
      · exact absurd rfl hi)
  obtain ⟨m, t, hdec⟩ := RL.whole_dec (a := a) (n := r.roundNumber) (pda := pda) (pn := pn) (len := len) h100
  have hlen : (RL.wholeBytes (RL.freshBytes pn a r.roundNumber pda) (RL.uploadBytes len e)).length = RL.proposalLen := by
    simp only [RL.wholeBytes, List.length_append, List.length_take, List.length_drop]; omega
  have hready : RL.ProposalReady env w2 k { RL.freshProposal pn a r.roundNumber pda with eventLen := len, event := e, metaLen := m } :=
    ⟨by rw [self2, self1], ⟨_, t, by rw [self2], hlen, hdec⟩, pn, none, rfl, hpn⟩
  have eff12 : Eff [k] w w2 := fun j hj => by
    rw [oth2 j (by simpa using hj)]; exact eff1 j hj
  have hks : ks ≠ k := by rintro rfl; exact hd.rlSys (hs.here.1.symm.trans hv.2.2)
  have hkr : kr ≠ k := by rintro rfl; exact hd.rlSys (hr.here.1.symm.trans hv.2.2)
  have hs2 : RL.Ready env w2 ks s := ⟨⟨(eff12 ks (by simpa using hks)).2.trans hs.here.1, holds_eff eff12 (by simpa using hks) hs.here.2.1, hs.here.2.2⟩, hs.addr⟩
  have hr2 : RL.RoundReady env w2 kr r := ⟨⟨(eff12 kr (by simpa using hkr)).2.trans hr.here.1, holds_eff eff12 (by simpa using hkr) hr.here.2.1, hr.here.2.2⟩, hr.addr⟩
  have hlf : (w2.acc f).lamports = (w.acc f).lamports - max 1 (env.rent RL.proposalLen) := by
    rw [oth2 f hfk, lam1 f hfk, if_pos rfl]
  have hlk : (w2.acc k).lamports = max 1 (env.rent RL.proposalLen) := by rw [self2, self1]
  obtain ⟨ix2, w3, hb2, hp2, hq, eff3, lam3⟩ := RL.finalize_sent (now := t2) hd hs2 hr2 hready rfl rfl h100
    (Wallet.eff (m := relayReparation * r.relays.length) hf eff12 (by simpa using hfk) (by omega)) (by omega)
  refine ⟨ix1, ix2, w1, w2, w3, _, hb1, hp1, hw, hb2, hp2, hq, rfl, rfl, rfl, rfl, rfl, rfl, rfl, rfl, ?_, ?_, fun j hj => ?_, fun j hj hjf => ?_⟩
  · rw [lam3, if_neg hfk.symm, if_pos rfl, hlk]; omega
  · rw [lam3, if_pos rfl, if_neg hfk, hlf]; omega
  · have h1 := eff12 j (by simpa using hj)
    have h3 := eff3 j (by simpa using hj)
    exact ⟨h3.1.trans h1.1, h3.2.trans h1.2⟩
  · rw [lam3, if_neg hjf, if_neg hj, oth2 j hj, lam1 j hj, if_neg hjf]; omega

/-- C74: after the upload relays of the round who make a quorum vote, in any order, and the round is opened: the new round is the proposed one, its end
is later by the configured time, and it is the current round. -/
theorem C74_install {l : List (Pubkey × I64)} (hd : env.Distinct) (hs : RL.Ready env w ks s) (hr : RL.RoundReady env w kr r)
    (hk : IsAddr env env.rlId (proposalSeeds r.roundNumber pda (env.hash (RL.eventC.enc e))) k) (hv : Vacant env (w.acc k))
    (hkn : IsAddr env env.rlId (relayRoundSeeds e.roundNum) kn) (hvn : Vacant env (w.acc kn)) (hnk : kn ≠ k) (hnl : kn ∉ l.map (·.1))
    (h100 : e.relays.length ≤ 100) (hc : RL.Covers (RL.uploadBytes len e) parts)
    (hf : Wallet env w f (max 1 (env.rent RL.proposalLen) + relayReparation * r.relays.length + max 1 (env.rent RL.relayRoundLen)))
    (hmax : max 1 (env.rent RL.proposalLen) + relayReparation * r.relays.length < 2 ^ 64) (hmax2 : env.rent RL.relayRoundLen < 2 ^ 64)
    (hl : CanVote w k r.relays (List.replicate r.relays.length .none) l)
    (hq : (RL.requiredVotes r.relays.length s.minRequiredVotes).toNat ≤ l.length) :
    ∃ ix1 ix2 ix3 w1 w2 w3 w4 w5 n, RL.Client.createProposalIx env f a r.roundNumber pda (RL.eventC.enc e) = .ok ix1 ∧
      RL.process env (ix1.ctx t1) ix1.data w = .ok w1 ∧ RL.Written env k parts w1 w2 ∧
      RL.Client.finalizeProposalIx env f k r.roundNumber = .ok ix2 ∧ RL.process env (ix2.ctx t2) ix2.data w2 = .ok w3 ∧
      RL.Voted env k r.roundNumber .confirm l w3 w4 ∧
      RL.Client.executeIx env f k e.roundNum = .ok ix3 ∧ RL.process env (ix3.ctx t3) ix3.data w4 = .ok w5 ∧
      RL.RoundReady env w5 kn ⟨true, .relayRound n, e.roundNum, e.roundEnd + s.roundTtl, e.relays⟩ ∧
      RL.Ready env w5 ks { s with currentRoundNumber := e.roundNum } := by
  have hfr := hf.rich
  obtain ⟨ix1, ix2, w1, w2, w3, q, hb1, hp1, hw, hb2, hp2, hq1, hqi, rfl, -, -, hqr, hqst, hqs, hqv, hlk, hlf, hdat, hlam⟩ :=
    C74_upload (a := a) (f := f) (t1 := t1) (t2 := t2) hd hs hr hk hv h100 hc ⟨hf.system, hf.empty, by omega⟩ hmax
  have hks : ks ≠ k := by rintro rfl; exact hd.rlSys (hs.here.1.symm.trans hv.2.2)
  have hkr : kr ≠ k := by rintro rfl; exact hd.rlSys (hr.here.1.symm.trans hv.2.2)
  have hfk : f ≠ k := by
    rintro rfl
    rw [hv.1] at hfr; omega
  have hfn : kn ≠ f := by
    rintro rfl
    rw [hvn.1] at hfr; omega
  have heff : Eff [k] w w3 := fun j hj => hdat j (by simpa using hj)
  have hs3 : RL.Ready env w3 ks s := ⟨⟨(hdat ks hks).2.trans hs.here.1, holds_eff heff (by simpa using hks) hs.here.2.1, hs.here.2.2⟩, hs.addr⟩
  have hr3 : RL.RoundReady env w3 kr r := ⟨⟨(hdat kr hkr).2.trans hr.here.1, holds_eff heff (by simpa using hkr) hr.here.2.1, hr.here.2.2⟩, hr.addr⟩
  have hv3 : Vacant env (w3.acc kn) := ⟨by rw [hlam kn hnk hfn]; exact hvn.1, by rw [(hdat kn hnk).1]; exact hvn.2.1, by rw [(hdat kn hnk).2]; exact hvn.2.2⟩
  have hll : l.length ≤ r.relays.length := by simpa using hl.le
  have hl3 : CanVote w3 k r.relays q.signers l := by
    refine ⟨hl.different, by rw [hqs]; exact hl.member, hl.other, fun x hx => ?_⟩
    have h1 := hl.room x hx
    by_cases ex : x.1 = f
    · rw [ex] at h1 ⊢; omega
    · rw [hlam x.1 (hl.other x hx) ex]; exact h1
  have hcount : q.signers.count .confirm = 0 := by rw [hqs, List.count_replicate]; rfl
  have hfund : relayReparation * l.length ≤ (w3.acc k).lamports := by
    rw [hlk]; exact Nat.le_trans (Nat.mul_le_mul_left _ hll) (by omega)
  obtain ⟨sn, pn, pd2, hsk, hsn, hpn⟩ := hs.addr
  have hwf : RL.Instr.codec.wf .executeProposal = true := rfl
  have hb3 : RL.Client.executeIx env f k q.event.roundNum = .ok ⟨env.rlId, [.new f true, .new ks false, .new k false, .new kn false,
      .readonly env.systemId false, .readonly env.rentId false], RL.Instr.codec.enc .executeProposal⟩ := by
    simp only [RL.Client.executeIx, RL.Client.settingsAddr, RL.Client.roundAddr, bind_ok, addrOf_ok, packed_ok, Except.ok.injEq]
    exact ⟨ks, ⟨sn, hsn⟩, kn, hkn, _, ⟨hwf, rfl⟩, rfl⟩
  obtain ⟨w4, w5, votes, n, h1, h2, -, h4, h5, -⟩ := open_round (now := t3) hd hfund hs3 hq1 hqi hqst hr3 hl3 (by rw [hqv, hcount]; omega) hkn hv3 hnl h100
    (Wallet.eff hf heff (by simpa using hfk) (by omega)) hmax2 hb3
  refine ⟨ix1, ix2, _, w1, w2, w3, w4, w5, n, hb1, hp1, hw, hb2, hp2, h1, hb3, h2, h4, ⟨h5, sn, pn, pd2, hsk, hsn, hpn⟩⟩

/-! ## On the toy chain -/

/-- The proposal of round 2 in two parts, the end first. They overlap. -/
def toyParts : List RL.Part :=
  [⟨100, (RL.uploadBytes 140 Toy.ev2).drop 100, 1100⟩, ⟨0, (RL.uploadBytes 140 Toy.ev2).take 110, 1200⟩]

theorem toy_covers : RL.Covers (RL.uploadBytes 140 Toy.ev2) toyParts := by
  have hl : (RL.uploadBytes 140 Toy.ev2).length = 144 := by decide +kernel
  refine ⟨fun x hx => ?_, fun i hi => ?_⟩
  · simp only [toyParts, List.mem_cons, List.not_mem_nil, or_false] at hx
    rcases hx with rfl | rfl
    · exact ⟨by decide +kernel, by decide +kernel⟩
    · exact ⟨by decide +kernel, by decide +kernel⟩
  · by_cases h : i < 110
    · exact ⟨_, List.mem_cons_of_mem _ (List.mem_cons_self ..), Nat.zero_le _, by
        show i < 0 + ((RL.uploadBytes 140 Toy.ev2).take 110).length
        rw [List.length_take, hl]; omega⟩
    · refine ⟨_, List.mem_cons_self .., ?_, ?_⟩
      · show 100 ≤ i; omega
      · show i < 100 + ((RL.uploadBytes 140 Toy.ev2).drop 100).length
        rw [List.length_drop, hl]; omega

/-- After round 1 is opened, a stranger proposes round 2 and it becomes the current round. -/
example : ∃ ix1 ix2 ix3 w1 w2 w3 w4 w5, ∃ (s : RL.Settings) (n : U8),
    RL.Client.createProposalIx Toy.env Toy.funder Toy.stranger 1 Toy.pda2 (RL.eventC.enc Toy.ev2) = .ok ix1 ∧
    RL.process Toy.env (ix1.ctx 1000) ix1.data (Toy.get Toy.rlRound1) = .ok w1 ∧ RL.Written Toy.env Toy.prop2 toyParts w1 w2 ∧
    RL.Client.finalizeProposalIx Toy.env Toy.funder Toy.prop2 1 = .ok ix2 ∧ RL.process Toy.env (ix2.ctx 1300) ix2.data w2 = .ok w3 ∧
    RL.Voted Toy.env Toy.prop2 1 .confirm [(Toy.relay 2, 1000), (Toy.relay 0, 2000), (Toy.relay 1, 1500)] w3 w4 ∧
    RL.Client.executeIx Toy.env Toy.funder Toy.prop2 2 = .ok ix3 ∧ RL.process Toy.env (ix3.ctx 2500) ix3.data w4 = .ok w5 ∧
    RL.RoundReady Toy.env w5 (Toy.rlRound 2) ⟨true, .relayRound n, 2, 9000 + s.roundTtl, Toy.ev2.relays⟩ ∧
    RL.Ready Toy.env w5 Toy.rlSettings { s with currentRoundNumber := 2 } := by
  obtain ⟨s, hs, hS⟩ := Toy.rl_ready (P := fun s => Nat.ble (RL.requiredVotes 3 s.minRequiredVotes).toNat 3) (w := Toy.get Toy.rlRound1) ?_
  obtain ⟨r, hr, hn, hR⟩ := Toy.rl_round (P := fun r => decide (r.relays = [Toy.relay 0, Toy.relay 1, Toy.relay 2])) (n := 1) (w := Toy.get Toy.rlRound1) ?_
  obtain hv := Toy.vacant (w := Toy.get Toy.rlRound1) (k := Toy.prop2) ?_
  obtain hvn := Toy.vacant (w := Toy.get Toy.rlRound1) (k := Toy.rlRound 2) ?_
  have hR := of_decide_eq_true hR
  have h3 : r.relays.length = 3 := by rw [hR]; rfl
  obtain hc := toy_canVote (w := Toy.get Toy.rlRound1) (k := Toy.prop2) (votes := List.replicate r.relays.length .none) hR (by rw [hR]; rfl) ?_ ?_
  obtain hf := Toy.wallet (w := Toy.get Toy.rlRound1) (k := Toy.funder)
    (n := max 1 (Toy.env.rent RL.proposalLen) + relayReparation * 3 + max 1 (Toy.env.rent RL.relayRoundLen)) ?_
  obtain hnk := Toy.same_ne (a := Toy.rlRound 2) (b := Toy.prop2) ?_
  obtain ⟨ix1, ix2, ix3, w1, w2, w3, w4, w5, n, h⟩ := C74_install (a := Toy.stranger) (f := Toy.funder) (t1 := 1000) (t2 := 1300) (t3 := 2500)
    (e := Toy.ev2) (len := 140) (parts := toyParts) (pda := Toy.pda2) (k := Toy.prop2) (kn := Toy.rlRound 2) Toy.distinct hs hr (by rw [hn]; exact Toy.isAddr _ _) hv (Toy.isAddr _ _) hvn hnk (by decide)
    (by decide) toy_covers (by rw [h3]; exact hf) (by rw [h3]; decide) (by decide) hc (by rw [h3]; exact Nat.le_of_ble_eq_true hS)
  rw [hn] at h
  exact ⟨ix1, ix2, ix3, w1, w2, w3, w4, w5, s, n, h⟩
  checked

end Verif.Props
