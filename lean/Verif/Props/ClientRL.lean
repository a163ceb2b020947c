import Verif.Spec.ToyTactic
import Verif.Lemmas.LiveRL
import Verif.Spec.ToyClient
/-!
# C52: client builders of the round loader

Each builder is shown to produce an instruction that decodes to what was asked for, and that the program accepts whenever the accounts of
the bridge are in place and the caller has the right and the means to do it. Acceptance pins the account list: the program rejects any other
derived address.
-/
set_option linter.unusedSimpArgs false
set_option maxRecDepth 100000
namespace Verif.Props
open Verif Codec RL

variable {env : Env} {w : World} {ix : Ix} {now : I64}

/-- The instruction goes to the round loader and its data decodes to `i`. -/
def SaysRL (env : Env) (ix : Ix) (i : RL.Instr) : Prop := ix.program = env.rlId ∧ RL.Instr.codec.decAll ix.data = some i

/-- C52, data: every builder of the round loader addresses the round loader, and the program decodes the instruction with the arguments given. -/
theorem C52_rl_data :
    (∀ f a g s m t, RL.Client.initializeIx env f a g s m t = .ok ix → SaysRL env ix (.init g s m t)) ∧
    (∀ a r s m t, RL.Client.updateSettingsIx env a r s m t = .ok ix → SaysRL env ix (.updateSettings r s m t)) ∧
    (∀ f c n e rs, RL.Client.createRelayRoundIx env f c n e rs = .ok ix → SaysRL env ix (.createRelayRound n rs e)) ∧
    (∀ f c n p ev, RL.Client.createProposalIx env f c n p ev = .ok ix → SaysRL env ix (.createProposal n p (env.hash ev))) ∧
    (∀ p o bs, RL.Client.writeProposalIx env p o bs = .ok ix → SaysRL env ix (.writeProposal o bs)) ∧
    (∀ f p n, RL.Client.finalizeProposalIx env f p n = .ok ix → SaysRL env ix .finalizeProposal) ∧
    (∀ r p n v, RL.Client.voteIx env r p n v = .ok ix → SaysRL env ix (.voteForProposal v)) ∧
    (∀ f p n, RL.Client.executeIx env f p n = .ok ix → SaysRL env ix .executeProposal) ∧
    (∀ f c p n, RL.Client.executeByAdminIx env f c p n = .ok ix → SaysRL env ix .executeProposalByAdmin) := by
  refine ⟨?_, ?_, ?_, ?_, ?_, ?_, ?_, ?_, ?_⟩ <;> intros <;> rename_i h <;>
    simp only [RL.Client.initializeIx, RL.Client.updateSettingsIx, RL.Client.createRelayRoundIx, RL.Client.createProposalIx,
      RL.Client.writeProposalIx, RL.Client.finalizeProposalIx, RL.Client.voteIx, RL.Client.executeIx, RL.Client.executeByAdminIx,
      bind_ok, packed_ok, Except.ok.injEq] at h <;>
    first
    | (obtain ⟨_, _, _, _, _, ⟨hwf, rfl⟩, rfl⟩ := h; exact ⟨rfl, decAll_enc _ _ hwf⟩)
    | (obtain ⟨_, _, _, ⟨hwf, rfl⟩, rfl⟩ := h; exact ⟨rfl, decAll_enc _ _ hwf⟩)
    | (obtain ⟨_, ⟨hwf, rfl⟩, rfl⟩ := h; exact ⟨rfl, decAll_enc _ _ hwf⟩)

/-- a vote on the toy chain, for instance, is built and decodes -/
example : ∃ ix, RL.Client.voteIx Toy.env (Toy.relay 0) Toy.prop2 1 .confirm = .ok ix ∧ SaysRL Toy.env ix (.voteForProposal .confirm) := by
  obtain ⟨ix, h⟩ := Toy.ix (r := RL.Client.voteIx Toy.env (Toy.relay 0) Toy.prop2 1 .confirm) (by decide +kernel)
  exact ⟨ix, h, C52_rl_data.2.2.2.2.2.2.1 _ _ _ _ h⟩

/-- C52: the built `Initialize` succeeds when the initializer is the upgrade authority and the settings do not exist. -/
theorem C52_rl_initialize {f a ks pd sub : Pubkey} {g m t : U32} (h : RL.Client.initializeIx env f a g sub m t = .ok ix)
    (hks : IsAddr env env.rlId settingsSeeds ks) (hv : Vacant env (w.acc ks)) (hup : Upgrades env w env.rlId pd a)
    (hf : Wallet env w f (max 1 (env.rent settingsLen))) (hmax : env.rent settingsLen < 2 ^ 64) :
    ∃ w', RL.process env (ix.ctx now) ix.data w = .ok w' := by
  simp only [RL.Client.initializeIx, RL.Client.settingsAddr, programdataAddr, bind_ok, addrOf_ok, packed_ok, Except.ok.injEq] at h
  obtain ⟨ks', hks', pd', hpd', _, ⟨hwf, rfl⟩, rfl⟩ := h
  obtain ⟨n, hn⟩ := hks
  obtain ⟨pn, hpn⟩ := hup.addr
  obtain rfl := hks'.eq hn
  obtain rfl := hpd'.eq hpn
  have hne : f ≠ ks' := by
    rintro rfl
    have := hf.rich; rw [hv.1] at this; omega
  rw [process_enc hwf]
  generalize hc : Ix.ctx _ now = ctx
  have hprog : ctx.program = env.rlId := by rw [← hc]; rfl
  obtain ⟨w1, hw1, self1, -, -⟩ := createPda_live (ctx := ctx) (o := ctx.program) (space := settingsLen) (by rw [hprog]; exact hn) hv hne
    (by rw [← hc]; built) (by rw [← hc]; built) (by rw [← hc]; built) (by rw [← hc]; built) hf hmax
  obtain ⟨w2, hw2, -⟩ := pack_live (ctx := ctx) (c := settingsC) (len := settingsLen) (k := ks') (w := w1)
    (a := ⟨true, .settings n pn, g, sub, m, t⟩) (by rw [self1]) (zeros_len _) (wf_settings _) (len_settings n pn rfl)
    (by rw [← hc]; built) (by rw [self1])
  refine ⟨w2, ?_⟩
  simp only [run, processInitialize, bind_ok, acct_ok, sysvar_ok, require_ok, exists_const, Prod.exists, validateInitializer_ok, hprog]
  subst hc
  exact ⟨f, rfl, a, rfl, ks', rfl, pd', rfl, env.systemId, rfl, env.rentId, rfl, rfl, by built,
    pd', pn, hpn, rfl, hup.data, ks', n, hn, rfl, w1, hw1, hw2⟩

/-- on the toy chain -/
example : ∃ ix w', RL.Client.initializeIx Toy.env Toy.funder Toy.authority 0 Toy.submitter 1 10 = .ok ix ∧
    RL.process Toy.env (ix.ctx 1000) ix.data (Toy.genesis) = .ok w' := by
  obtain ⟨ix, h⟩ := Toy.ix (r := RL.Client.initializeIx Toy.env Toy.funder Toy.authority 0 Toy.submitter 1 10) ?_
  obtain ⟨w', hw⟩ := C52_rl_initialize (w := Toy.genesis) (now := 1000) h (Toy.isAddr _ _) (Toy.vacant ?_) (Toy.upgrades ?_) (Toy.wallet ?_) ?_
  exact ⟨ix, w', h, hw⟩
  checked

/-- C52: the built `UpdateSettings` succeeds for the upgrade authority. -/
theorem C52_rl_updateSettings {a ks pd : Pubkey} {s : Settings} {r m t : Option U32} {sub : Option Pubkey}
    (h : RL.Client.updateSettingsIx env a r sub m t = .ok ix) (hs : RL.Ready env w ks s) (hup : Upgrades env w env.rlId pd a) :
    ∃ w', RL.process env (ix.ctx now) ix.data w = .ok w' := by
  simp only [RL.Client.updateSettingsIx, RL.Client.settingsAddr, programdataAddr, bind_ok, addrOf_ok, packed_ok, Except.ok.injEq] at h
  obtain ⟨ks', hks', pd', hpd', _, ⟨hwf, rfl⟩, rfl⟩ := h
  obtain ⟨⟨ho, ⟨b, tl, hb, hl, hdec⟩, hi⟩, n, pn, pd2, hk, hn, hpn⟩ := hs
  obtain rfl := hks'.eq hn
  obtain rfl := hup.addr.eq hpn
  obtain rfl := hpd'.eq hpn
  rw [process_enc hwf]
  generalize hc : Ix.ctx _ now = ctx
  have hprog : ctx.program = env.rlId := by rw [← hc]; rfl
  obtain ⟨w2, hw2, -⟩ := pack_live (ctx := ctx) (c := settingsC) (len := settingsLen) (k := ks') (w := w)
    (a := { s with
      currentRoundNumber := r.getD s.currentRoundNumber
      roundSubmitter := sub.getD s.roundSubmitter
      minRequiredVotes := m.getD s.minRequiredVotes
      roundTtl := t.getD s.roundTtl }) hb hl (wf_settings _) (len_settings n pn hk) (by rw [← hc]; built) (ho.trans hprog.symm)
  refine ⟨w2, ?_⟩
  simp only [run, processUpdateSettings, bind_ok, acct_ok, require_ok, exists_const, Prod.exists, validateInitializer_ok, hprog, unpack_holds,
    orErr_ok, intoSettings_some, validateSettings, validatePda_ok, validateProgramdata_ok]
  subst hc
  exact ⟨a, rfl, ks', rfl, pd', rfl, by built, s, ⟨⟨b, tl, hb, hl, hdec⟩, hi⟩, n, pn, hk, hn, ho, hpn, hup.data, hw2⟩

/-- on the toy chain -/
example : ∃ ix w', RL.Client.updateSettingsIx Toy.env Toy.authority (some 3) none (some 2) none = .ok ix ∧
    RL.process Toy.env (ix.ctx 1000) ix.data (Toy.get Toy.rlInit) = .ok w' := by
  obtain ⟨s, hs, -⟩ := Toy.rl_ready (P := fun _ => true) (w := Toy.get Toy.rlInit) ?_
  obtain ⟨ix, h⟩ := Toy.ix (r := RL.Client.updateSettingsIx Toy.env Toy.authority (some 3) none (some 2) none) ?_
  obtain ⟨w', hw⟩ := C52_rl_updateSettings (now := 1000) h hs (Toy.upgrades ?_)
  exact ⟨ix, w', h, hw⟩
  checked

/-- C52: the built `CreateRelayRound` succeeds for the round submitter, if the round does not exist yet and is not older than the current one. -/
theorem C52_rl_createRelayRound {f a ks kr : Pubkey} {s : Settings} {n e : U32} {rs : List Pubkey}
    (h : RL.Client.createRelayRoundIx env f a n e rs = .ok ix) (hd : env.Distinct) (hs : RL.Ready env w ks s) (hsub : s.roundSubmitter = a)
    (hkr : IsAddr env env.rlId (relayRoundSeeds n) kr) (hv : Vacant env (w.acc kr)) (hn : s.currentRoundNumber.toNat ≤ n.toNat)
    (h100 : rs.length ≤ 100) (hf : Wallet env w f (max 1 (env.rent relayRoundLen))) (hmax : env.rent relayRoundLen < 2 ^ 64) :
    ∃ w', RL.process env (ix.ctx now) ix.data w = .ok w' := by
  simp only [RL.Client.createRelayRoundIx, RL.Client.settingsAddr, RL.Client.roundAddr, bind_ok, addrOf_ok, packed_ok, Except.ok.injEq] at h
  obtain ⟨ks', hks', kr', hkr', _, ⟨hwf, rfl⟩, rfl⟩ := h
  obtain ⟨sn, pn, pd2, hk, hsn, hpn⟩ := hs.addr
  obtain rfl := hks'.eq hsn
  obtain ⟨rn, hrn⟩ := hkr
  obtain rfl := hkr'.eq hrn
  rw [process_enc hwf]
  generalize hc : Ix.ctx _ now = ctx
  have hprog : ctx.program = env.rlId := by rw [← hc]; rfl
  obtain ⟨w1, hw1, -⟩ := openRound_live (ctx := ctx) (e := e) (relays := rs) hd hprog hs ⟨rn, hrn⟩ hv h100
    (by rw [← hc]; built) (by rw [← hc]; built) (by rw [← hc]; built) (by rw [← hc]; built) (by rw [← hc]; built) hf hmax
  refine ⟨w1, ?_⟩
  simp only [run, processCreateRelayRound, bind_ok, acct_ok, sysvar_ok, require_ok, exists_const]
  have hl := loadSettings_live hprog hs
  subst hc
  exact ⟨f, rfl, a, rfl, ks', rfl, kr', rfl, env.systemId, rfl, env.rentId, rfl, rfl, by built, s, hl, hsub, by omega, hw1⟩

/-- on the toy chain -/
example : ∃ ix w', RL.Client.createRelayRoundIx Toy.env Toy.funder Toy.submitter 2 9000 Toy.relays3 = .ok ix ∧
    RL.process Toy.env (ix.ctx 1000) ix.data (Toy.get Toy.rlRound1) = .ok w' := by
  obtain ⟨s, hs, hP⟩ := Toy.rl_ready (P := fun s => Nat.beq s.roundSubmitter.toNat 1001 && Nat.ble s.currentRoundNumber.toNat 2) (w := Toy.get Toy.rlRound1) ?_
  simp only [Bool.and_eq_true] at hP
  have hsub : s.roundSubmitter = Toy.submitter := BitVec.eq_of_toNat_eq (Nat.eq_of_beq_eq_true hP.1)
  obtain ⟨ix, h⟩ := Toy.ix (r := RL.Client.createRelayRoundIx Toy.env Toy.funder Toy.submitter 2 9000 Toy.relays3) ?_
  obtain ⟨w', hw⟩ := C52_rl_createRelayRound (now := 1000) h Toy.distinct hs hsub (Toy.isAddr _ _) (Toy.vacant ?_) (Nat.le_of_ble_eq_true hP.2)
    ?_ (Toy.wallet ?_) ?_
  exact ⟨ix, w', h, hw⟩
  checked

/-- C52: the built `CreateProposal` succeeds for anyone who can pay the rent, if the proposal does not exist yet. -/
theorem C52_rl_createProposal {f a kp : Pubkey} {n : U32} {pda : PDA} {event : Bytes}
    (h : RL.Client.createProposalIx env f a n pda event = .ok ix)
    (hkp : IsAddr env env.rlId (proposalSeeds n pda (env.hash event)) kp) (hv : Vacant env (w.acc kp))
    (hf : Wallet env w f (max 1 (env.rent proposalLen))) (hmax : env.rent proposalLen < 2 ^ 64) :
    ∃ w', RL.process env (ix.ctx now) ix.data w = .ok w' ∧ (w'.acc kp).owner = env.rlId := by
  simp only [RL.Client.createProposalIx, RL.Client.proposalAddr, bind_ok, addrOf_ok, packed_ok, Except.ok.injEq] at h
  obtain ⟨kp', hkp', _, ⟨hwf, rfl⟩, rfl⟩ := h
  obtain ⟨pn, hpn⟩ := hkp
  obtain rfl := hkp'.eq hpn
  have hne : f ≠ kp' := by
    rintro rfl
    have := hf.rich; rw [hv.1] at this; omega
  rw [process_enc hwf]
  generalize hc : Ix.ctx _ now = ctx
  have hprog : ctx.program = env.rlId := by rw [← hc]; rfl
  obtain ⟨w1, hw1, self1, -, -⟩ := createPda_live (ctx := ctx) (o := ctx.program) (space := proposalLen) (by rw [hprog]; exact hpn) hv hne
    (by rw [← hc]; built) (by rw [← hc]; built) (by rw [← hc]; built) (by rw [← hc]; built) hf hmax
  obtain ⟨w2, hw2, -, ho2, -⟩ := pack_live (ctx := ctx) (c := proposalC) (len := proposalLen) (k := kp') (w := w1)
    (a := freshProposal pn a n pda) (by rw [self1]) (zeros_len _) (by simp [proposalC, freshProposal, eventC])
    (by simp [proposalC, freshProposal, eventC, proposalLen, vec, encAll])
    (by rw [← hc]; built) (by rw [self1])
  refine ⟨w2, ?_, by rw [ho2, self1, hprog]⟩
  simp only [run, processCreateProposal, bind_ok, acct_ok, sysvar_ok, require_ok, exists_const, Prod.exists, hprog]
  subst hc
  refine ⟨f, rfl, a, rfl, kp', rfl, env.systemId, rfl, env.rentId, rfl, rfl, by built, kp', pn, hpn, rfl, ?_⟩
  rw [if_pos hv.1]
  simp only [bind_ok]
  exact ⟨w1, hw1, hw2⟩

/-- on the toy chain -/
example : ∃ ix w', RL.Client.createProposalIx Toy.env Toy.funder Toy.stranger 1 Toy.pda2 (RL.eventC.enc Toy.ev2) = .ok ix ∧
    RL.process Toy.env (ix.ctx 1000) ix.data (Toy.get Toy.rlRound1) = .ok w' := by
  obtain ⟨ix, h⟩ := Toy.ix (r := RL.Client.createProposalIx Toy.env Toy.funder Toy.stranger 1 Toy.pda2 (RL.eventC.enc Toy.ev2)) ?_
  obtain ⟨w', hw, -⟩ := C52_rl_createProposal (w := Toy.get Toy.rlRound1) (now := 1000) h (Toy.isAddr _ _) (Toy.vacant ?_) (Toy.wallet ?_) ?_
  exact ⟨ix, w', h, hw⟩
  checked

/-- C52: the built `WriteProposal` succeeds on a proposal that is not finalized, within the bounds of the event. -/
theorem C52_rl_writeProposal {kp : Pubkey} {p : Proposal} {o : U32} {bs : Bytes} (h : RL.Client.writeProposalIx env kp o bs = .ok ix)
    (hp : RL.ProposalReady env w kp p) (hi : p.isInitialized = false) (hb : loadBegin + o.toNat + bs.length ≤ loadEnd) :
    ∃ w', RL.process env (ix.ctx now) ix.data w = .ok w' := by
  simp only [RL.Client.writeProposalIx, bind_ok, packed_ok, Except.ok.injEq] at h
  obtain ⟨_, ⟨hwf, rfl⟩, rfl⟩ := h
  rw [process_enc hwf]
  obtain ⟨b, t, hd, hl, hdec⟩ := hp.holds
  have hu : unpackUnchecked proposalC proposalLen (w.acc kp).data = .ok p := unpackUnchecked_ok.2 ⟨b, t, hd, hl, hdec⟩
  refine ⟨w.setDataRaw kp (.raw (b.take (loadBegin + o.toNat) ++ bs ++ b.drop (loadBegin + o.toNat + bs.length))), ?_⟩
  simp only [run, processWriteProposal, bind_ok, acct_ok]
  refine ⟨kp, rfl, ?_⟩
  rw [hu]
  simp only [bind_ok, require_ok, exists_const, hd, writeProposalData, Except.ok.injEq]
  exact ⟨hi, _, ⟨hb, Nat.le_trans hb (hl.symm ▸ (by decide : loadEnd ≤ proposalLen)), rfl⟩, setData_ok.2 ⟨.inr ⟨by built, hp.owner⟩, rfl⟩⟩

/-- on the toy chain: the event's end is rewritten in place -/
example : ∃ ix w', RL.Client.writeProposalIx Toy.env Toy.prop2 0 (Codec.u32.enc 140#32) = .ok ix ∧
    RL.process Toy.env (ix.ctx 1000) ix.data (Toy.get Toy.rlLoaded) = .ok w' := by
  obtain ⟨p, hp, hi⟩ := Toy.rl_proposal (P := fun p => !p.isInitialized) (w := Toy.get Toy.rlLoaded) (k := Toy.prop2) ?_
  obtain ⟨ix, h⟩ := Toy.ix (r := RL.Client.writeProposalIx Toy.env Toy.prop2 0 (Codec.u32.enc 140#32)) ?_
  obtain ⟨w', hw⟩ := C52_rl_writeProposal (now := 1000) h hp (by simpa using hi) ?_
  exact ⟨ix, w', h, hw⟩
  checked

/-- C52: the built `FinalizeProposal` succeeds when the event is written and the round exists. -/
theorem C52_rl_finalize {f ks kr kp : Pubkey} {s : Settings} {r : RelayRound} {p : Proposal}
    (h : RL.Client.finalizeProposalIx env f kp r.roundNumber = .ok ix) (hd : env.Distinct) (hs : RL.Ready env w ks s)
    (hr : RL.RoundReady env w kr r) (hp : RL.ProposalReady env w kp p) (hi : p.isInitialized = false) (h100 : p.event.relays.length ≤ 100)
    (hf : Wallet env w f (relayReparation * r.relays.length)) (hmax : (w.acc kp).lamports + relayReparation * r.relays.length < 2 ^ 64) :
    ∃ w', RL.process env (ix.ctx now) ix.data w = .ok w' := by
  simp only [RL.Client.finalizeProposalIx, RL.Client.settingsAddr, RL.Client.roundAddr, bind_ok, addrOf_ok, packed_ok, Except.ok.injEq] at h
  obtain ⟨ks', hks', kr', hkr', _, ⟨hwf, rfl⟩, rfl⟩ := h
  obtain ⟨sn, pn, pd2, hk, hsn, hpn⟩ := hs.addr
  obtain rfl := hks'.eq hsn
  obtain ⟨rn, hrk, hrn⟩ := hr.addr
  obtain rfl := hkr'.eq hrn
  rw [process_enc hwf]
  generalize hc : Ix.ctx _ now = ctx
  have hprog : ctx.program = env.rlId := by rw [← hc]; rfl
  have hr100 := round_fits hr.here.2.1 rn hrk
  obtain ⟨qwf, qlen⟩ := hp.fit
  obtain ⟨w1, hw1, eff1, hlam1, ho1⟩ := putProposal_live (ctx := ctx) hprog hp (by rw [← hc]; built)
    (q := { p with
      isInitialized := true
      roundNumber := r.roundNumber
      requiredVotes := requiredVotes r.relays.length s.minRequiredVotes
      signers := List.replicate r.relays.length Vote.none
      metaLen := 1#32
      status := .new })
    (by
      simp only [proposalC, wf_iso, wf_pair, wf_vec, Bool.and_eq_true, decide_eq_true_eq] at qwf ⊢
      refine ⟨by simp, by simp, by simp, by simp, by simp, by simp, by simp, qwf.2.2.2.2.2.2.2.1, by simp, by simp, by simp; omega, ?_⟩
      simp)
    (by
      have := len_kind p.accountKind
      simp only [proposalC, enc_iso, enc_pair, List.length_append, len_votes, proposalLen, eventC, len_relays, List.length_replicate]
      simp; omega)
  have hfk : f ≠ kp := by
    rintro rfl
    exact hd.rlSys (hp.owner.symm.trans hf.system)
  obtain ⟨w2, hw2, -⟩ := sysTransfer_live (env := env) (ctx := ctx) (w := w1) (src := f) (dst := kp) (n := relayReparation * r.relays.length)
    (by rw [← hc]; built) (by rw [← hc]; built) (by rw [← hc]; built) (by rw [← hc]; built)
    ⟨by rw [(eff1 f (by simpa using hfk)).2]; exact hf.system, by rw [(eff1 f (by simpa using hfk)).1]; exact hf.empty,
      by rw [hlam1]; exact hf.rich⟩ hfk (by rw [hlam1]; exact hmax)
  refine ⟨w2, ?_⟩
  simp only [run, processFinalizeProposal, bind_ok, acct_ok, sysvar_ok, require_ok, exists_const, unpackUnchecked_ok]
  have hl := loadSettings_live hprog hs
  have hl2 := loadRelayRound_live hprog hr
  have hl3 := checkProposal_live hprog hp
  subst hc
  exact ⟨f, rfl, kp, rfl, ks', rfl, kr', rfl, env.systemId, rfl, s, hl, p, hp.holds, (), hl3, hi, r, hl2, w1, hw1, hw2⟩

/-- on the toy chain -/
example : ∃ ix w', RL.Client.finalizeProposalIx Toy.env Toy.funder Toy.prop2 1 = .ok ix ∧
    RL.process Toy.env (ix.ctx 1000) ix.data (Toy.get Toy.rlLoaded) = .ok w' := by
  obtain ⟨s, hs, -⟩ := Toy.rl_ready (P := fun _ => true) (w := Toy.get Toy.rlLoaded) (by decide +kernel)
  obtain ⟨r, hr, hn, hR⟩ := Toy.rl_round (P := fun r => Nat.beq r.relays.length 3) (w := Toy.get Toy.rlLoaded) (n := 1) (by decide +kernel)
  obtain ⟨p, hp, hP'⟩ := Toy.rl_proposal (P := fun p => !p.isInitialized && Nat.ble p.event.relays.length 100) (w := Toy.get Toy.rlLoaded) (k := Toy.prop2) (by decide +kernel)
  simp only [Bool.and_eq_true] at hP'
  have hl : r.relays.length = 3 := Nat.eq_of_beq_eq_true hR
  obtain ⟨ix, h⟩ := Toy.ix (r := RL.Client.finalizeProposalIx Toy.env Toy.funder Toy.prop2 1) (by decide +kernel)
  obtain ⟨w', hw⟩ := C52_rl_finalize (now := 1000) (r := r) (by rw [hn]; exact h) Toy.distinct hs hr hp (by simpa using hP'.1)
    (Nat.le_of_ble_eq_true hP'.2) (by rw [hl]; exact Toy.wallet (by decide +kernel)) (by rw [hl]; decide +kernel)
  exact ⟨ix, w', h, hw⟩

/-- C52: the built vote succeeds for a relay of the round that has not voted. -/
theorem C52_rl_vote {k kr kp : Pubkey} {r : RelayRound} {p : Proposal} {v : Vote} {j : Nat}
    (h : RL.Client.voteIx env k kp r.roundNumber v = .ok ix) (hr : RL.RoundReady env w kr r) (hp : RL.ProposalReady env w kp p)
    (hi : p.isInitialized = true) (hv : v ≠ .none) (hj : r.relays.findIdx? (fun x => x == k) = some j) (hn : p.signers[j]? = some .none)
    (hkk : k ≠ kp) (hfund : relayReparation ≤ (w.acc kp).lamports) (hmax : (w.acc k).lamports + relayReparation < 2 ^ 64) :
    ∃ w', RL.process env (ix.ctx now) ix.data w = .ok w' := by
  simp only [RL.Client.voteIx, RL.Client.roundAddr, bind_ok, addrOf_ok, packed_ok, Except.ok.injEq] at h
  obtain ⟨kr', hkr', _, ⟨hwf, rfl⟩, rfl⟩ := h
  obtain ⟨rn, hrk, hrn⟩ := hr.addr
  obtain rfl := hkr'.eq hrn
  rw [process_enc hwf]
  generalize hc : Ix.ctx _ now = ctx
  have hprog : ctx.program = env.rlId := by rw [← hc]; rfl
  obtain ⟨qwf, qlen⟩ := hp.fit
  have hset : (p.signers.set j v).length = p.signers.length := by simp
  obtain ⟨w1, hw1, eff1, hlam1, ho1⟩ := putProposal_live (ctx := ctx) hprog hp (by rw [← hc]; built)
    (q := { p with signers := p.signers.set j v }) (wf_proposal qwf p.status _ hset)
    (by rw [len_proposal p p.status _ hset]; exact qlen)
  obtain ⟨w2, hw2, -⟩ := moveLamports_live (ctx := ctx) (w := w1) (a := kp) (b := k) (n := relayReparation) (by rw [hlam1]; exact hfund)
    (by rw [← hc]; built) (by rw [← hc]; built) (by rw [ho1, hp.owner, hprog]) hkk.symm (by rw [hlam1]; exact hmax)
  refine ⟨w2, ?_⟩
  simp only [run, RL.processVote, bind_ok, acct_ok, require_ok, exists_const, unpack_holds, orErr_ok]
  have hl2 := loadRelayRound_live hprog hr
  have hl3 := checkProposal_live hprog hp
  subst hc
  refine ⟨k, rfl, kp, rfl, kr', rfl, by built, hv, p, ⟨hp.holds, hi⟩, (), hl3, r, hl2, j, hj, .none, hn, ?_⟩
  rw [if_pos rfl]
  simp only [bind_ok]
  exact ⟨w1, hw1, hw2⟩

/-- on the toy chain -/
example : ∃ ix w', RL.Client.voteIx Toy.env (Toy.relay 1) Toy.prop2 1 .confirm = .ok ix ∧
    RL.process Toy.env (ix.ctx 1000) ix.data (Toy.get Toy.rlVoted1) = .ok w' := by
  obtain ⟨r, hr, hn, hR⟩ := Toy.rl_round (P := fun r => r.relays.findIdx? (fun x => x == Toy.relay 1) == some 1) (w := Toy.get Toy.rlVoted1) (n := 1) ?_
  obtain ⟨p, hp, hP'⟩ := Toy.rl_proposal (P := fun p => p.isInitialized && p.signers[1]? == some .none) (w := Toy.get Toy.rlVoted1) (k := Toy.prop2) ?_
  simp only [Bool.and_eq_true] at hP'
  obtain ⟨ix, h⟩ := Toy.ix (r := RL.Client.voteIx Toy.env (Toy.relay 1) Toy.prop2 1 .confirm) ?_
  obtain ⟨w', hw⟩ := C52_rl_vote (now := 1000) (r := r) (j := 1) (by rw [hn]; exact h) hr hp hP'.1 (by decide) (by simpa using hR)
    (by simpa using hP'.2) ?_ ?_ ?_
  exact ⟨ix, w', h, hw⟩
  checked

/-- C52: the built `ExecuteProposal` succeeds on a confirmed proposal whose round does not exist yet. -/
theorem C52_rl_execute {f ks kr kp : Pubkey} {s : Settings} {p : Proposal}
    (h : RL.Client.executeIx env f kp p.event.roundNum = .ok ix) (hd : env.Distinct) (hs : RL.Ready env w ks s)
    (hp : RL.ProposalReady env w kp p) (hi : p.isInitialized = true) (hst : p.status = .new)
    (hq : p.requiredVotes.toNat ≤ p.signers.count .confirm) (hkr : IsAddr env env.rlId (relayRoundSeeds p.event.roundNum) kr)
    (hv : Vacant env (w.acc kr)) (h100 : p.event.relays.length ≤ 100) (hf : Wallet env w f (max 1 (env.rent relayRoundLen)))
    (hmax : env.rent relayRoundLen < 2 ^ 64) : ∃ w', RL.process env (ix.ctx now) ix.data w = .ok w' := by
  simp only [RL.Client.executeIx, RL.Client.settingsAddr, RL.Client.roundAddr, bind_ok, addrOf_ok, packed_ok, Except.ok.injEq] at h
  obtain ⟨ks', hks', kr', hkr', _, ⟨hwf, rfl⟩, rfl⟩ := h
  obtain ⟨sn, pn, pd2, hk, hsn, hpn⟩ := hs.addr
  obtain rfl := hks'.eq hsn
  obtain ⟨rn, hrn⟩ := hkr
  obtain rfl := hkr'.eq hrn
  rw [process_enc hwf]
  generalize hc : Ix.ctx _ now = ctx
  have hprog : ctx.program = env.rlId := by rw [← hc]; rfl
  obtain ⟨w1, hw1, eff1⟩ := openRound_live (ctx := ctx) (e := p.event.roundEnd) (relays := p.event.relays) hd hprog hs ⟨rn, hrn⟩ hv h100
    (by rw [← hc]; built) (by rw [← hc]; built) (by rw [← hc]; built) (by rw [← hc]; built) (by rw [← hc]; built) hf hmax
  have hne : kp ∉ [kr', ks'] := by
    simp only [List.mem_cons, List.not_mem_nil, or_false, not_or]
    refine ⟨?_, ?_⟩
    · rintro rfl; exact hd.rlSys (hp.owner.symm.trans hv.2.2)
    · rintro rfl; exact settings_ne hs.here.2.1 hp.holds
  obtain ⟨qwf, qlen⟩ := hp.fit
  obtain ⟨w2, hw2, -⟩ := putProposal_live (ctx := ctx) hprog (hp.eff eff1 hne) (by rw [← hc]; built)
    (q := { p with status := .executed }) (wf_proposal qwf .executed _ rfl) (by rw [len_proposal p .executed _ rfl]; exact qlen)
  refine ⟨w2, ?_⟩
  simp only [run, processExecute, bind_ok, acct_ok, sysvar_ok, exists_const, unpack_holds]
  have hl := loadSettings_live hprog hs
  have hl3 := checkProposal_live hprog hp
  subst hc
  refine ⟨f, rfl, ks', rfl, kp, rfl, kr', rfl, env.systemId, rfl, env.rentId, rfl, rfl, s, hl, p, ⟨hp.holds, hi⟩, (), hl3, ?_⟩
  rw [if_pos ⟨hst, by rw [confirm_toNat hp.holds]; exact hq⟩]
  simp only [bind_ok]
  exact ⟨w1, hw1, hw2⟩

/-- on the toy chain -/
example : ∃ ix w', RL.Client.executeIx Toy.env Toy.funder Toy.prop2 2 = .ok ix ∧
    RL.process Toy.env (ix.ctx 1000) ix.data (Toy.get Toy.rlVoted) = .ok w' := by
  obtain ⟨s, hs, -⟩ := Toy.rl_ready (P := fun _ => true) (w := Toy.get Toy.rlVoted) ?_
  obtain ⟨p, hp, hP'⟩ := Toy.rl_proposal (P := fun p => p.isInitialized && (Nat.beq p.event.roundNum.toNat 2 && (decide (p.status = .new) && (Nat.ble p.requiredVotes.toNat (p.signers.count .confirm) &&
      Nat.ble p.event.relays.length 100)))) (w := Toy.get Toy.rlVoted) (k := Toy.prop2) ?_
  simp only [Bool.and_eq_true] at hP'
  have hn : p.event.roundNum = 2 := BitVec.eq_of_toNat_eq (Nat.eq_of_beq_eq_true hP'.2.1)
  obtain ⟨ix, h⟩ := Toy.ix (r := RL.Client.executeIx Toy.env Toy.funder Toy.prop2 2) ?_
  obtain ⟨w', hw⟩ := C52_rl_execute (now := 1000) (p := p) (by rw [hn]; exact h) Toy.distinct hs hp hP'.1 (by simpa using hP'.2.2.1)
    (Nat.le_of_ble_eq_true hP'.2.2.2.1) (by rw [hn]; exact Toy.isAddr _ _) (Toy.vacant ?_) (Nat.le_of_ble_eq_true hP'.2.2.2.2)
    (Toy.wallet ?_) ?_
  exact ⟨ix, w', h, hw⟩
  checked

/-- C52: the built `ExecuteProposalByAdmin` succeeds for the round submitter. -/
theorem C52_rl_executeByAdmin {f a ks kr kp : Pubkey} {s : Settings} {p : Proposal}
    (h : RL.Client.executeByAdminIx env f a kp p.event.roundNum = .ok ix) (hd : env.Distinct) (hs : RL.Ready env w ks s)
    (hsub : s.roundSubmitter = a) (hp : RL.ProposalReady env w kp p) (hi : p.isInitialized = true)
    (hkr : IsAddr env env.rlId (relayRoundSeeds p.event.roundNum) kr)
    (hv : Vacant env (w.acc kr)) (h100 : p.event.relays.length ≤ 100) (hf : Wallet env w f (max 1 (env.rent relayRoundLen)))
    (hmax : env.rent relayRoundLen < 2 ^ 64) : ∃ w', RL.process env (ix.ctx now) ix.data w = .ok w' := by
  simp only [RL.Client.executeByAdminIx, RL.Client.settingsAddr, RL.Client.roundAddr, bind_ok, addrOf_ok, packed_ok, Except.ok.injEq] at h
  obtain ⟨ks', hks', kr', hkr', _, ⟨hwf, rfl⟩, rfl⟩ := h
  obtain ⟨sn, pn, pd2, hk, hsn, hpn⟩ := hs.addr
  obtain rfl := hks'.eq hsn
  obtain ⟨rn, hrn⟩ := hkr
  obtain rfl := hkr'.eq hrn
  rw [process_enc hwf]
  generalize hc : Ix.ctx _ now = ctx
  have hprog : ctx.program = env.rlId := by rw [← hc]; rfl
  obtain ⟨w1, hw1, eff1⟩ := openRound_live (ctx := ctx) (e := p.event.roundEnd) (relays := p.event.relays) hd hprog hs ⟨rn, hrn⟩ hv h100
    (by rw [← hc]; built) (by rw [← hc]; built) (by rw [← hc]; built) (by rw [← hc]; built) (by rw [← hc]; built) hf hmax
  have hne : kp ∉ [kr', ks'] := by
    simp only [List.mem_cons, List.not_mem_nil, or_false, not_or]
    refine ⟨?_, ?_⟩
    · rintro rfl; exact hd.rlSys (hp.owner.symm.trans hv.2.2)
    · rintro rfl; exact settings_ne hs.here.2.1 hp.holds
  obtain ⟨qwf, qlen⟩ := hp.fit
  obtain ⟨w2, hw2, -⟩ := putProposal_live (ctx := ctx) hprog (hp.eff eff1 hne) (by rw [← hc]; built)
    (q := { p with status := .executed }) (wf_proposal qwf .executed _ rfl) (by rw [len_proposal p .executed _ rfl]; exact qlen)
  refine ⟨w2, ?_⟩
  simp only [run, processExecuteByAdmin, bind_ok, acct_ok, sysvar_ok, require_ok, exists_const, unpack_holds]
  have hl := loadSettings_live hprog hs
  subst hc
  exact ⟨f, rfl, a, rfl, ks', rfl, kp, rfl, kr', rfl, env.systemId, rfl, env.rentId, rfl, rfl, by built, s, hl, hsub, p, ⟨hp.holds, hi⟩,
    w1, hw1, hw2⟩

/-- on the toy chain -/
example : ∃ ix w', RL.Client.executeByAdminIx Toy.env Toy.funder Toy.submitter Toy.prop2 2 = .ok ix ∧
    RL.process Toy.env (ix.ctx 1000) ix.data (Toy.get Toy.rlFinalized) = .ok w' := by
  obtain ⟨s, hs, hP⟩ := Toy.rl_ready (P := fun s => Nat.beq s.roundSubmitter.toNat 1001 && Nat.ble s.currentRoundNumber.toNat 2) (w := Toy.get Toy.rlFinalized) ?_
  simp only [Bool.and_eq_true] at hP
  have hsub : s.roundSubmitter = Toy.submitter := BitVec.eq_of_toNat_eq (Nat.eq_of_beq_eq_true hP.1)
  obtain ⟨p, hp, hP'⟩ := Toy.rl_proposal (P := fun p => p.isInitialized && (Nat.beq p.event.roundNum.toNat 2 && Nat.ble p.event.relays.length 100)) (w := Toy.get Toy.rlFinalized) (k := Toy.prop2) ?_
  simp only [Bool.and_eq_true] at hP'
  have hn : p.event.roundNum = 2 := BitVec.eq_of_toNat_eq (Nat.eq_of_beq_eq_true hP'.2.1)
  obtain ⟨ix, h⟩ := Toy.ix (r := RL.Client.executeByAdminIx Toy.env Toy.funder Toy.submitter Toy.prop2 2) ?_
  obtain ⟨w', hw⟩ := C52_rl_executeByAdmin (now := 1000) (p := p) (by rw [hn]; exact h) Toy.distinct hs hsub hp hP'.1
    (by rw [hn]; exact Toy.isAddr _ _) (Toy.vacant ?_) (Nat.le_of_ble_eq_true hP'.2.2)
    (Toy.wallet ?_) ?_
  exact ⟨ix, w', h, hw⟩
  checked

end Verif.Props
