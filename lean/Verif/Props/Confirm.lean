import Verif.Props.ClientPay
import Verif.Props.ClientRL
import Verif.Props.Proposals
import Verif.Lemmas.LiveDep
import Verif.Lemmas.VotesHist
import Verif.Spec.ToyTactic
import Verif.Spec.ToyReachW
/-!
# The relays can always carry through what enough of them agree on

C62: in every history, whatever has been voted so far, the relays that have not voted can send their votes one after the other; all are accepted,
and once the votes suffice anybody can have the withdrawal paid or the new round opened.
-/
set_option linter.unusedSimpArgs false
set_option maxRecDepth 100000
namespace Verif.Props
open Verif TP Codec Client

variable {env : Env} {L : Pubkey → Prop} {tr : List Ev} {ix : Ix} {now : I64} {w w' : World} {cpi : Pubkey → World → Except Err World}
  {k kr : Pubkey} {rr : RL.RelayRound} {l : List (Pubkey × I64)}

/-! ## Withdrawals -/

/-- C62: in every history, whatever has been voted on an unfinished withdrawal, a vote finds it at its address and it can pay for the votes of all the
relays of its round that have not voted. -/
theorem C62_ready {p : GenericProposal} {md : WMeta} (hd : env.Distinct) (h : History env L k tr w) (hw : WithdrawalAt env w k p md)
    (hf : md.status ≠ .processed ∧ md.status ≠ .cancelled) (hc : CanVote w k rr.relays p.signers l) :
    GenReady env w k p ∧ relayReparation * l.length ≤ (w.acc k).lamports :=
  ⟨History.ready hd h hw, History.funds hd h hw (by revert hf; cases md.status <;> simp [WStatus.final]) hc⟩

/-- C62: in every history, whatever has been voted on an unfinished withdrawal, the relays of its round that have not voted can vote: the votes the
client builds for them are accepted in whatever order they are sent, each is recorded in the slot of its relay, the other votes stay, every relay
gets its 20000 lamports back, and nothing else changes. -/
theorem C62_votes {p : GenericProposal} {md : WMeta} {v : Vote} (hd : env.Distinct) (h : History env L k tr w) (hw : WithdrawalAt env w k p md)
    (hf : md.status ≠ .processed ∧ md.status ≠ .cancelled) (hr : RL.RoundReady env w kr rr) (hn : rr.roundNumber = p.roundNumber)
    (hv : v = .confirm ∨ v = .reject) (hc : CanVote w k rr.relays p.signers l) :
    ∃ w' votes, Voted env cpi k p.roundNumber v l w w' ∧ WithdrawalAt env w' k { p with signers := votes } md ∧
      Cast rr.relays v l p.signers votes ∧ OnlyVotes k l w w' := by
  obtain ⟨hg, hm⟩ := C62_ready hd h hw hf hc
  have hv' : v ≠ .none := by rcases hv with rfl | rfl <;> decide
  obtain ⟨w', votes, h1, h2, h3, h4⟩ := votes_sent (cpi := cpi) hd.rlTp hv' hg hr hn hc hm
  obtain ⟨-, -, hi, hk, hm⟩ := hw
  exact ⟨w', votes, h1, ⟨h2.owner, h2.holds, hi, hk, hm⟩, h3, h4⟩

theorem Ready.ne_wd {E : Type} {ec : Codec E} {ks : Pubkey} {s : Settings} {r : Withdrawal E} (hs : Ready env w ks s) (hw : WdReady ec env w k r) :
    ks ≠ k := by
  rintro rfl
  obtain ⟨_, _, _, h1, -⟩ := hs.addr
  obtain ⟨_, _, h2, -⟩ := hw.addr
  have := (Head.unique (head_settings hs.here.2.1) (head_withdrawal hw.holds)).2
  rw [h1, h2] at this; cases this

/-- The payout of a Solana token is as possible after the votes as before. -/
theorem SolPayout.voted {mint ks kt kv to : Pubkey} {s : Settings} {t : TokenSettings} {v : TokenAcc} {r : Withdrawal WSolEvent} {fee net : U64}
    {votes : List Vote} (hd : env.Distinct) (hg : SolPayout env w mint ks kt kv k to s t v r fee net) (hto : to ∉ l.map (·.1))
    (ho : OnlyVotes k l w w') (hw : WdReady wSolEventC env w' k { r with signers := votes }) :
    SolPayout env w' mint ks kt kv k to s t v { r with signers := votes } fee net := by
  have hks : ks ≠ k := Ready.ne_wd hg.hSettings hg.hWd
  have hkt : kt ≠ k := by
    rintro rfl
    obtain ⟨_, _, h1, -⟩ := hg.hToken.addr
    obtain ⟨_, _, h2, -⟩ := hg.hWd.addr
    exact token_ne_wd hg.hToken.here.2.1 hg.hWd.holds h1 h2
  have hkv : kv ≠ k := by rintro rfl; exact hd.tpSpl (hg.hWd.owner.symm.trans hg.hToken.vault.1)
  have hkto : to ≠ k := by rintro rfl; exact hd.tpSpl (hg.hWd.owner.symm.trans hg.hPayable.owner)
  have hmono : (w.acc kv).lamports ≤ (w'.acc kv).lamports := by
    by_cases e : kv ∈ l.map (·.1)
    · obtain ⟨x, hx, rfl⟩ := List.mem_map.1 e
      rw [ho.reimbursed x hx]; omega
    · rw [ho.rest kv hkv e]; exact Nat.le_refl _
  refine ⟨hg.hSettings.eff ho.eff (by simpa using hks), hg.hRunning, ?_, hg.hTokenRunning, hw, hg.hMint, ?_, hg.hFee, hg.hNet, ?_⟩
  · obtain ⟨h1, h2, h3, h4, h5⟩ := hg.hToken
    exact ⟨h1.eff ho.eff (by simpa using hkt), h2, h3, by rw [ho.owner, ho.data kv hkv]; exact h4, fun h => Nat.le_trans (h5 h) hmono⟩
  · rcases hg.hTo with ⟨h1, d, h2, h3⟩ | h
    · exact .inl ⟨h1, d, by rw [ho.data to hkto]; exact h2, h3⟩
    · exact .inr h
  · obtain ⟨h1, h2, h3⟩ := hg.hPayable
    exact ⟨by rw [ho.owner]; exact h1, by rw [ho.data to hkto]; exact h2, by rw [ho.rest to hkto hto]; exact h3⟩

/-- C62: if the relays in the list make up what is missing to the quorum, then after their votes anybody can have the new withdrawal of a Solana
token paid: the built payout is accepted and the tokens go from the vault to the recipient. The conditions are those of C60, and those that
`C62_ready` shows for every history. -/
theorem C62_sol {mint ks kt kv to : Pubkey} {s : Settings} {t : TokenSettings} {v : TokenAcc} {r : Withdrawal WSolEvent} {fee net : U64}
    (hd : env.Distinct) (hg : SolPayout env w mint ks kt kv k to s t v r fee net) (hst : r.md.status = .new)
    (hready : GenReady env w k (r.view wSolEventC)) (hm : relayReparation * l.length ≤ (w.acc k).lamports)
    (hr : RL.RoundReady env w kr rr) (hn : rr.roundNumber = r.roundNumber) (hc : CanVote w k rr.relays r.signers l)
    (hq : r.requiredVotes.toNat ≤ r.signers.count .confirm + l.length) (hto : to ∉ l.map (·.1))
    (hlim : Within t (epochOf now) net.toNat) (hfee : t.feeSupply.toNat + fee.toNat < 2 ^ 64) (hb : net.toNat ≤ bal w kv)
    (hix : TP.Client.withdrawSolIx env k to mint = .ok ix) :
    ∃ w1 w2 votes, Voted env cpi k r.roundNumber .confirm l w w1 ∧ TP.process env (ix.ctx now) cpi ix.data w1 = .ok w2 ∧
      NoTokens w w1 ∧ Moves kv to net.toNat w1 w2 ∧ Cast rr.relays .confirm l r.signers votes ∧
      WdReady wSolEventC env w2 k ({ r with signers := votes }.withStatus (doneStatus r.event.payload)) := by
  obtain ⟨w1, votes, h1, h2, h3, h4⟩ := votes_sent (cpi := cpi) hd.rlTp (v := .confirm) (by decide) hready hr hn hc hm
  have hw1 := WdReady.voted hg.hWd hready h2 h3.length
  have hg1 := SolPayout.voted hd hg hto h4 hw1
  have hbal : NoTokens w w1 := fun x => by
    by_cases e : x = k
    · subst e
      obtain ⟨b, _, hb, -⟩ := hg.hWd.holds
      obtain ⟨b', _, hb', -⟩ := hw1.holds
      simp only [bal, supply, hb, hb', and_self]
    · simp only [bal, supply, h4.data x e, and_self]
  obtain ⟨-, w2, h5, h6, h7⟩ := C60_sol_paid (cpi := cpi) (now := now) hd hg1
    (show r.requiredVotes.toNat ≤ votes.count .confirm by rw [h3.count]; exact hq)
    (.inl ⟨hst, hlim, hfee⟩) (by rw [(hbal _).1]; exact hb) hix
  exact ⟨w1, w2, votes, h1, h5, hbal, h6, h3, h7⟩

/-- The payout of an Everscale token is as possible after the votes as before. -/
theorem EverPayout.voted {token : EverAddress} {ks kt km to : Pubkey} {s : Settings} {t : TokenSettings} {m : MintAcc} {r : Withdrawal WEverEvent}
    {fee net : U64} {votes : List Vote} (hd : env.Distinct) (hg : EverPayout env w token ks kt km k to s t m r fee net)
    (ho : OnlyVotes k l w w') (hw : WdReady wEverEventC env w' k { r with signers := votes }) :
    EverPayout env w' token ks kt km k to s t m { r with signers := votes } fee net := by
  have hks : ks ≠ k := Ready.ne_wd hg.hSettings hg.hWd
  have hkt : kt ≠ k := by
    rintro rfl
    obtain ⟨_, _, h1, -⟩ := hg.hToken.addr
    obtain ⟨_, _, h2, -⟩ := hg.hWd.addr
    exact token_ne_wd hg.hToken.here.2.1 hg.hWd.holds h1 h2
  have hkm : km ≠ k := by rintro rfl; exact hd.tpSpl (hg.hWd.owner.symm.trans hg.hToken.mint.1)
  have hkto : to ≠ k := by rintro rfl; exact hd.tpSpl (hg.hWd.owner.symm.trans hg.hMintable.owner)
  have hmono : (w.acc kt).lamports ≤ (w'.acc kt).lamports := by
    by_cases e : kt ∈ l.map (·.1)
    · obtain ⟨x, hx, rfl⟩ := List.mem_map.1 e
      rw [ho.reimbursed x hx]; omega
    · rw [ho.rest kt hkt e]; exact Nat.le_refl _
  refine ⟨hg.hSettings.eff ho.eff (by simpa using hks), hg.hRunning, ?_, fun e => hg.hAlive (by omega), hg.hTokenRunning, hw, hg.hEvent, ?_,
    hg.hDecimals, hg.hFits, hg.hFee, hg.hNet, ?_, hg.hSupply⟩
  · obtain ⟨h1, h2, h3, h4⟩ := hg.hToken
    exact ⟨h1.eff ho.eff (by simpa using hkt), h2, h3, by rw [ho.owner, ho.data km hkm]; exact h4⟩
  · rcases hg.hTo with ⟨h1, d, h2, h3⟩ | h
    · exact .inl ⟨h1, d, by rw [ho.data to hkto]; exact h2, h3⟩
    · exact .inr h
  · obtain ⟨h1, h2⟩ := hg.hMintable
    exact ⟨by rw [ho.owner]; exact h1, by rw [ho.data to hkto]; exact h2⟩

/-- C62: the same for a withdrawal of an Everscale token, which is minted to the recipient. -/
theorem C62_ever {token : EverAddress} {ks kt km to : Pubkey} {s : Settings} {t : TokenSettings} {m : MintAcc} {r : Withdrawal WEverEvent}
    {fee net : U64} (hd : env.Distinct) (hg : EverPayout env w token ks kt km k to s t m r fee net) (hst : r.md.status = .new)
    (hready : GenReady env w k (r.view wEverEventC)) (hm : relayReparation * l.length ≤ (w.acc k).lamports)
    (hr : RL.RoundReady env w kr rr) (hn : rr.roundNumber = r.roundNumber) (hc : CanVote w k rr.relays r.signers l)
    (hq : r.requiredVotes.toNat ≤ r.signers.count .confirm + l.length)
    (hlim : Within t (epochOf now) net.toNat) (hfee : t.feeSupply.toNat + fee.toNat < 2 ^ 64)
    (hix : TP.Client.withdrawEverIx env k to token = .ok ix) :
    ∃ w1 w2 votes, Voted env cpi k r.roundNumber .confirm l w w1 ∧ TP.process env (ix.ctx now) cpi ix.data w1 = .ok w2 ∧
      NoTokens w w1 ∧ Mints km to net.toNat w1 w2 ∧ Cast rr.relays .confirm l r.signers votes ∧
      WdReady wEverEventC env w2 k ({ r with signers := votes }.withStatus (doneStatus r.event.payload)) := by
  obtain ⟨w1, votes, h1, h2, h3, h4⟩ := votes_sent (cpi := cpi) hd.rlTp (v := .confirm) (by decide) hready hr hn hc hm
  have hw1 := WdReady.voted hg.hWd hready h2 h3.length
  have hg1 := EverPayout.voted hd hg h4 hw1
  have hbal : NoTokens w w1 := fun x => by
    by_cases e : x = k
    · subst e
      obtain ⟨b, _, hb, -⟩ := hg.hWd.holds
      obtain ⟨b', _, hb', -⟩ := hw1.holds
      simp only [bal, supply, hb, hb', and_self]
    · simp only [bal, supply, h4.data x e, and_self]
  obtain ⟨-, w2, h5, h6, h7⟩ := C60_ever_paid (cpi := cpi) (now := now) hd hg1
    (show r.requiredVotes.toNat ≤ votes.count .confirm by rw [h3.count]; exact hq) hst hlim hfee hix
  exact ⟨w1, w2, votes, h1, h5, hbal, h6, h3, h7⟩

/-! ## New rounds -/

/-- The same with the costs of the votes on the proposal. -/
theorem open_round {f ks kn : Pubkey} {s : RL.Settings} {p : RL.Proposal} (hd : env.Distinct) (hfund : relayReparation * l.length ≤ (w.acc k).lamports) (hs : RL.Ready env w ks s)
    (hp : RL.ProposalReady env w k p) (hi : p.isInitialized = true) (hst : p.status = .new) (hr : RL.RoundReady env w kr rr)
    (hc : CanVote w k rr.relays p.signers l) (hq : p.requiredVotes.toNat ≤ p.signers.count .confirm + l.length)
    (hkn : IsAddr env env.rlId (relayRoundSeeds p.event.roundNum) kn) (hv : Vacant env (w.acc kn)) (hvn : kn ∉ l.map (·.1))
    (h100 : p.event.relays.length ≤ 100) (hf : Wallet env w f (max 1 (env.rent RL.relayRoundLen))) (hmax : env.rent RL.relayRoundLen < 2 ^ 64)
    (hix : RL.Client.executeIx env f k p.event.roundNum = .ok ix) :
    ∃ w1 w2 votes n, RL.Voted env k rr.roundNumber .confirm l w w1 ∧ RL.process env (ix.ctx now) ix.data w1 = .ok w2 ∧
      Cast rr.relays .confirm l p.signers votes ∧
      RL.RoundReady env w2 kn ⟨true, .relayRound n, p.event.roundNum, p.event.roundEnd + s.roundTtl, p.event.relays⟩ ∧
      RL.SettingsAt env w2 ks { s with currentRoundNumber := p.event.roundNum } ∧
      RL.ProposalReady env w2 k { p with signers := votes, status := .executed } := by
  have hkk : kr ≠ k := by
    rintro rfl
    obtain ⟨b, _, hb, hl, -⟩ := hr.here.2.1
    obtain ⟨b', _, hb', hl', -⟩ := hp.holds
    rw [hb] at hb'; cases hb'
    rw [hl] at hl'; cases hl'
  obtain ⟨w1, votes, h1, h2, h3, h4⟩ := RL.votes_sent (v := .confirm) (by decide) hkk hp hi hr hc hfund
  have hks : ks ≠ k := by rintro rfl; exact RL.settings_ne hs.here.2.1 hp.holds
  have hnk : kn ≠ k := by rintro rfl; exact hd.rlSys (hp.owner.symm.trans hv.2.2)
  have hfk : f ≠ k := by rintro rfl; exact hd.rlSys (hp.owner.symm.trans hf.system)
  have hs1 : RL.Ready env w1 ks s := ⟨⟨(h4.owner ks).trans hs.here.1, by
    have := hs.here.2.1
    unfold Holds at this ⊢
    rw [h4.data ks hks]; exact this, hs.here.2.2⟩, hs.addr⟩
  have hv1 : Vacant env (w1.acc kn) := ⟨by rw [h4.rest kn hnk hvn]; exact hv.1, by rw [h4.data kn hnk]; exact hv.2.1, by rw [h4.owner]; exact hv.2.2⟩
  have hf1 : Wallet env w1 f (max 1 (env.rent RL.relayRoundLen)) := by
    refine Wallet.eff hf h4.eff (by simpa using hfk) (Nat.le_trans hf.rich ?_)
    by_cases e : f ∈ l.map (·.1)
    · obtain ⟨x, hx, rfl⟩ := List.mem_map.1 e
      rw [h4.reimbursed x hx]; omega
    · rw [h4.rest f hfk e]; exact Nat.le_refl _
  have hq1 : p.requiredVotes.toNat ≤ votes.count .confirm := by rw [h3.count]; exact hq
  obtain ⟨w2, hx⟩ := C52_rl_execute (now := now) (p := { p with signers := votes }) hix hd hs1 h2 hi hst hq1 hkn hv1 h100 hf1 hmax
  have hx' := hx
  simp only [RL.Client.executeIx, RL.Client.settingsAddr, RL.Client.roundAddr, bind_ok, addrOf_ok, packed_ok, Except.ok.injEq] at hix
  obtain ⟨ks', -, kr', -, _, ⟨hwf, rfl⟩, rfl⟩ := hix
  rw [RL.process_enc hwf] at hx'
  obtain ⟨kp', p', hkp, hh', -, ha, ⟨e, h5 | h5⟩ | ⟨-, -, ho, ks', kr', s', x⟩⟩ := RL.execute_fx hx'
  all_goals
    cases hkp
    cases hh'.unique h2.holds
  · rw [hst] at h5; cases h5
  · exact absurd h5 (Nat.not_lt.2 hq1)
  · obtain ⟨sn, _, _, -, hsa, -⟩ := hs.addr
    obtain rfl : kr' = kn := x.roundAddr.unique hkn
    obtain rfl : ks' = ks := x.setAddr.unique ⟨sn, hsa⟩
    cases x.settings.unique hs1.here.2.1
    obtain ⟨n, hn, hna⟩ := x.bump
    exact ⟨w1, w2, votes, n, h1, hx, h3, ⟨⟨x.owner, hn, rfl⟩, n, rfl, hna⟩, ⟨x.setOwner.trans hs1.here.1, x.current, hs1.here.2.2⟩,
      ⟨x.propOwner.trans h2.owner, x.done, hp.addr⟩⟩

/-- C62: in every reachable state, whatever has been voted on a finalized proposal of a new round, the relays of a round that have not voted can
vote, and if that makes a quorum anybody who pays the rent can then open the round. -/
theorem C62_round {f ks kn : Pubkey} {s : RL.Settings} {p : RL.Proposal} (hd : env.Distinct) (h : Reach env L w) (hs : RL.Ready env w ks s)
    (hp : RL.ProposalReady env w k p) (hi : p.isInitialized = true) (hst : p.status = .new) (hr : RL.RoundReady env w kr rr)
    (hc : CanVote w k rr.relays p.signers l) (hq : p.requiredVotes.toNat ≤ p.signers.count .confirm + l.length)
    (hkn : IsAddr env env.rlId (relayRoundSeeds p.event.roundNum) kn) (hv : Vacant env (w.acc kn)) (hvn : kn ∉ l.map (·.1))
    (h100 : p.event.relays.length ≤ 100) (hf : Wallet env w f (max 1 (env.rent RL.relayRoundLen))) (hmax : env.rent RL.relayRoundLen < 2 ^ 64)
    (hix : RL.Client.executeIx env f k p.event.roundNum = .ok ix) :
    ∃ w1 w2 votes n, RL.Voted env k rr.roundNumber .confirm l w w1 ∧ RL.process env (ix.ctx now) ix.data w1 = .ok w2 ∧
      Cast rr.relays .confirm l p.signers votes ∧
      RL.RoundReady env w2 kn ⟨true, .relayRound n, p.event.roundNum, p.event.roundEnd + s.roundTtl, p.event.relays⟩ ∧
      RL.SettingsAt env w2 ks { s with currentRoundNumber := p.event.roundNum } ∧
      RL.ProposalReady env w2 k { p with signers := votes, status := .executed } := by
  have hfund : relayReparation * l.length ≤ (w.acc k).lamports := by
    have h1 := C36_proposal_funded hd h ⟨hp.owner, hp.holds, hi⟩
    have h2 := Nat.mul_le_mul_left 20000 hc.le
    simp only [relayReparation]
    omega
  exact open_round hd hfund hs hp hi hst hr hc hq hkn hv hvn h100 hf hmax hix

/-! ## On the toy chain -/

theorem toy_canVote {w : World} {k : Pubkey} {relays : List Pubkey} {votes : List Vote} (hr : relays = [Toy.relay 0, Toy.relay 1, Toy.relay 2])
    (hv : votes = [.none, .none, .none]) (hk : (Toy.same (Toy.relay 0) k || Toy.same (Toy.relay 1) k || Toy.same (Toy.relay 2) k) = false)
    (hl : (Nat.blt ((w.acc (Toy.relay 0)).lamports + 20000) (2 ^ 64) && Nat.blt ((w.acc (Toy.relay 1)).lamports + 20000) (2 ^ 64) &&
      Nat.blt ((w.acc (Toy.relay 2)).lamports + 20000) (2 ^ 64)) = true) :
    CanVote w k relays votes [(Toy.relay 2, 1000), (Toy.relay 0, 2000), (Toy.relay 1, 1500)] := by
  subst hr hv
  simp only [Bool.or_eq_false_iff] at hk
  simp only [Bool.and_eq_true] at hl
  refine ⟨by decide, ?_, ?_, ?_⟩
  · intro x hx
    simp only [List.mem_cons, List.not_mem_nil, or_false] at hx
    rcases hx with rfl | rfl | rfl
    · exact ⟨2, by decide, rfl⟩
    · exact ⟨0, by decide, rfl⟩
    · exact ⟨1, by decide, rfl⟩
  · intro x hx
    simp only [List.mem_cons, List.not_mem_nil, or_false] at hx
    rcases hx with rfl | rfl | rfl
    · exact Toy.same_ne hk.2
    · exact Toy.same_ne hk.1.1
    · exact Toy.same_ne hk.1.2
  · intro x hx
    simp only [List.mem_cons, List.not_mem_nil, or_false] at hx
    rcases hx with rfl | rfl | rfl
    · exact Nat.le_of_ble_eq_true hl.2
    · exact Nat.le_of_ble_eq_true hl.1.1
    · exact Nat.le_of_ble_eq_true hl.1.2

private def three (r : List Pubkey) : Bool := decide (r = [Toy.relay 0, Toy.relay 1, Toy.relay 2])
private def unvoted (v : List Vote) : Bool := decide (v = [.none, .none, .none])

/-- three relays vote on a new withdrawal, in any order and at any time -/
example : ∃ w', Voted Toy.env noCpi Toy.wd1 1 .confirm [(Toy.relay 2, 1000), (Toy.relay 0, 2000), (Toy.relay 1, 1500)] (Toy.get Toy.tpReq) w' ∧
    ∃ p md, WithdrawalAt Toy.env w' Toy.wd1 p md ∧ p.signers.count .confirm = 3 := by
  obtain ⟨tr, h⟩ := Toy.followed_tpReq.history ?_
  obtain ⟨p, md, hw, hP⟩ := Toy.tfind_withdrawal (P := fun p md => unvoted p.signers && (Nat.beq p.roundNumber.toNat 1 && md.status == .new))
    (w := Toy.get Toy.tpReq) (k := Toy.wd1) ?_
  obtain ⟨r, hr, hn, hR⟩ := Toy.rl_round (P := fun r => three r.relays) (n := 1) (w := Toy.get Toy.tpReq) ?_
  simp only [Bool.and_eq_true, unvoted, three, decide_eq_true_eq] at hP hR
  have e : p.roundNumber = 1 := BitVec.eq_of_toNat_eq (Nat.eq_of_beq_eq_true hP.2.1)
  have es : md.status = .new := eq_of_beq hP.2.2
  obtain hc := toy_canVote (w := Toy.get Toy.tpReq) (k := Toy.wd1) hR hP.1 ?_ ?_
  obtain ⟨w', votes, h1, h2, h3, -⟩ := C62_votes (cpi := noCpi) Toy.distinct h hw (by rw [es]; exact ⟨by decide, by decide⟩) hr (hn.trans e.symm) (.inl rfl) hc
  refine ⟨w', e ▸ h1, _, md, h2, ?_⟩
  · show votes.count .confirm = 3
    rw [h3.count, hP.1]; rfl
  checked

/-- and then it is paid -/
example : ∃ ix w1 w2, Voted Toy.env noCpi Toy.wd1 1 .confirm [(Toy.relay 2, 1000), (Toy.relay 0, 2000), (Toy.relay 1, 1500)] (Toy.get Toy.tpReq) w1 ∧
    TP.Client.withdrawSolIx Toy.env Toy.wd1 Toy.bobGold Toy.gold = .ok ix ∧
    TP.process Toy.env (ix.ctx 3000) noCpi ix.data w1 = .ok w2 ∧ Moves Toy.tpVault Toy.bobGold 999 w1 w2 := by
  obtain ⟨ix, h⟩ := Toy.ix (r := TP.Client.withdrawSolIx Toy.env Toy.wd1 Toy.bobGold Toy.gold) ?_
  obtain ⟨tr, hh⟩ := Toy.followed_tpReq.history ?_
  obtain ⟨s, t, v, r, hg, -, -, hP, -, hR⟩ := toy_sol (w := Toy.get Toy.tpReq) (k := Toy.wd1) (to := Toy.bobGold)
    (P := fun t => Nat.ble 999 t.withdrawalLimit.toNat && (Nat.ble (t.withdrawalDailyAmount.toNat + 999) t.withdrawalDailyLimit.toNat &&
      Nat.blt (t.feeSupply.toNat + 1) (2 ^ 64))) (Q := fun _ => true)
    (R := fun r => decide (r.md.status = .new) && (Nat.ble r.requiredVotes.toNat 3 && (unvoted r.signers && Nat.beq r.roundNumber.toNat 1)))
    ?_ ?_ ?_ ?_ ?_ ?_
  obtain ⟨rr, hr, hn, hR2⟩ := Toy.rl_round (P := fun r => three r.relays) (n := 1) (w := Toy.get Toy.tpReq) ?_
  simp only [Bool.and_eq_true, decide_eq_true_eq, unvoted, three] at hP hR hR2
  have e : r.roundNumber = 1 := BitVec.eq_of_toNat_eq (Nat.eq_of_beq_eq_true hR.2.2.2)
  obtain hc := toy_canVote (w := Toy.get Toy.tpReq) (k := Toy.wd1) hR2 hR.2.2.1 ?_ ?_
  obtain hb := Nat.le_of_ble_eq_true (n := 999) (m := bal (Toy.get Toy.tpReq) Toy.tpVault) ?_
  have hw := History.sol Toy.distinct hh hg.hWd
  obtain ⟨hready, hm⟩ := C62_ready (rr := rr) Toy.distinct hh hw (by rw [hR.1]; exact ⟨by decide, by decide⟩) hc
  obtain ⟨w1, w2, votes, h1, h2, -, h4, -⟩ := C62_sol (cpi := noCpi) (now := 3000) Toy.distinct hg hR.1 hready hm hr (hn.trans e.symm) hc
    (Nat.le_trans (Nat.le_of_ble_eq_true hR.2.1) (Nat.le_add_left _ _)) (by decide)
    ⟨Nat.le_of_ble_eq_true hP.1, Nat.le_trans (Nat.add_le_add_right (by unfold releasedOn; split <;> omega) _) (Nat.le_of_ble_eq_true hP.2.1)⟩
    (Nat.le_of_ble_eq_true hP.2.2) hb h
  refine ⟨ix, w1, w2, e ▸ h1, h, h2, h4⟩
  checked

/-- a token of Everscale -/
example : ∃ ix w1 w2, Voted Toy.env noCpi Toy.wd5 1 .confirm [(Toy.relay 2, 1000), (Toy.relay 0, 2000), (Toy.relay 1, 1500)] (Toy.get Toy.tpDeployed) w1 ∧
    TP.Client.withdrawEverIx Toy.env Toy.wd5 Toy.bobStar Toy.star = .ok ix ∧
    TP.process Toy.env (ix.ctx 3000) noCpi ix.data w1 = .ok w2 ∧ Mints Toy.starMint Toy.bobStar 69965 w1 w2 := by
  obtain ⟨ix, h⟩ := Toy.ix (r := TP.Client.withdrawEverIx Toy.env Toy.wd5 Toy.bobStar Toy.star) ?_
  obtain ⟨s, t, v, r, hg, -, -, hP, -, hR⟩ := toy_ever (w := Toy.get Toy.tpDeployed) (fee := 35) (net := 69965) (m := 5) (d := 10000)
    (P := fun t => Nat.ble 69965 t.withdrawalLimit.toNat && (Nat.ble (t.withdrawalDailyAmount.toNat + 69965) t.withdrawalDailyLimit.toNat &&
      Nat.blt (t.feeSupply.toNat + 35) (2 ^ 64))) (Q := fun _ => true)
    (R := fun r => decide (r.md.status = .new) && (Nat.ble r.requiredVotes.toNat 3 && (unvoted r.signers && (Nat.beq r.roundNumber.toNat 1 &&
      (Nat.beq r.eventLen.toNat (wEverEventC.enc r.event).length && Nat.beq r.metaLen.toNat 17))))) rfl rfl ?_ ?_ ?_ ?_ ?_ ?_ ?_
  obtain ⟨rr, hr, hn, hR2⟩ := Toy.rl_round (P := fun r => three r.relays) (n := 1) (w := Toy.get Toy.tpDeployed) ?_
  simp only [Bool.and_eq_true, decide_eq_true_eq, unvoted, three] at hP hR hR2
  have e : r.roundNumber = 1 := BitVec.eq_of_toNat_eq (Nat.eq_of_beq_eq_true hR.2.2.2.1)
  obtain hc := toy_canVote (w := Toy.get Toy.tpDeployed) (k := Toy.wd5) hR2 hR.2.2.1 ?_ ?_
  obtain hm := Nat.le_of_ble_eq_true (n := 60000) (m := ((Toy.get Toy.tpDeployed).acc Toy.wd5).lamports) ?_
  have hready : GenReady Toy.env (Toy.get Toy.tpDeployed) Toy.wd5 (r.view wEverEventC) := by
    obtain ⟨b, u, hb, hl, hdec⟩ := hg.hWd.holds
    obtain ⟨hwf, e⟩ := ((withdrawalC wEverEventC).law _ _ _).1 hdec
    refine ⟨hg.hWd.owner, ⟨b, u, hb, hl, ?_⟩, hg.hWd.addr⟩
    rw [e]
    exact Exact.view ⟨Nat.eq_of_beq_eq_true hR.2.2.2.2.1, BitVec.eq_of_toNat_eq (Nat.eq_of_beq_eq_true hR.2.2.2.2.2)⟩ hwf u
  obtain ⟨w1, w2, votes, h1, h2, -, h4, -⟩ := C62_ever (cpi := noCpi) (now := 3000) (l := [(Toy.relay 2, 1000), (Toy.relay 0, 2000), (Toy.relay 1, 1500)]) Toy.distinct hg hR.1 hready (show relayReparation * 3 ≤ _ from hm) hr (hn.trans e.symm) hc
    (Nat.le_trans (Nat.le_of_ble_eq_true hR.2.1) (Nat.le_add_left _ _))
    ⟨Nat.le_of_ble_eq_true hP.1, Nat.le_trans (Nat.add_le_add_right (by unfold releasedOn; split <;> omega) _) (Nat.le_of_ble_eq_true hP.2.1)⟩
    (Nat.le_of_ble_eq_true hP.2.2) h
  refine ⟨ix, w1, w2, e ▸ h1, h, h2, h4⟩
  checked

/-- the relays of round 1 open round 2 -/
example : ∃ ix w1 w2, RL.Voted Toy.env Toy.prop2 1 .confirm [(Toy.relay 2, 1000), (Toy.relay 0, 2000), (Toy.relay 1, 1500)] (Toy.get Toy.rlFinalized) w1 ∧
    RL.Client.executeIx Toy.env Toy.funder Toy.prop2 2 = .ok ix ∧
    RL.process Toy.env (ix.ctx 3000) ix.data w1 = .ok w2 ∧ ∃ r, RL.RoundReady Toy.env w2 (Toy.rlRound 2) r := by
  obtain ⟨s, hs, -⟩ := Toy.rl_ready (P := fun _ => true) (w := Toy.get Toy.rlFinalized) ?_
  obtain ⟨p, hp, hP⟩ := Toy.rl_proposal (P := fun p => p.isInitialized && (Nat.beq p.event.roundNum.toNat 2 && (decide (p.status = .new) &&
    (Nat.ble p.requiredVotes.toNat 3 && (Nat.ble p.event.relays.length 100 && unvoted p.signers))))) (w := Toy.get Toy.rlFinalized) (k := Toy.prop2) ?_
  obtain ⟨rr, hr, hn, hR2⟩ := Toy.rl_round (P := fun r => three r.relays) (n := 1) (w := Toy.get Toy.rlFinalized) ?_
  obtain ⟨ix, h⟩ := Toy.ix (r := RL.Client.executeIx Toy.env Toy.funder Toy.prop2 2) ?_
  simp only [Bool.and_eq_true, decide_eq_true_eq, unvoted, three] at hP hR2
  have e : p.event.roundNum = 2 := BitVec.eq_of_toNat_eq (Nat.eq_of_beq_eq_true hP.2.1)
  obtain hc := toy_canVote (w := Toy.get Toy.rlFinalized) (k := Toy.prop2) hR2 hP.2.2.2.2.2 ?_ ?_
  obtain hv := Toy.vacant (w := Toy.get Toy.rlFinalized) (k := Toy.rlRound 2) ?_
  obtain hf := Toy.wallet (w := Toy.get Toy.rlFinalized) (k := Toy.funder) (n := max 1 (Toy.env.rent RL.relayRoundLen)) ?_
  obtain ⟨w1, w2, votes, n, h1, h2, -, h4, -⟩ := C62_round (now := 3000) Toy.distinct Toy.reach_finalized hs hp hP.1 hP.2.2.1 hr hc
    (Nat.le_trans (Nat.le_of_ble_eq_true hP.2.2.2.1) (Nat.le_add_left _ _)) (by rw [e]; exact Toy.isAddr _ _) hv (by decide)
    (Nat.le_of_ble_eq_true hP.2.2.2.2.1) hf (by decide) (by rw [e]; exact h)
  refine ⟨ix, w1, w2, hn ▸ h1, h, h2, _, h4⟩
  checked

end Verif.Props
