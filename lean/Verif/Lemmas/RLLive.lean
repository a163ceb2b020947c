import Verif.Lemmas.RLHist
/-!
# Finalizing, and instructions that succeed
-/
namespace Verif.RL
open Codec Verif

/-- What a successful `FinalizeProposal` does. -/
theorem finalize_fx {env : Env} {ctx : Ctx} {w w' : World} (h : run env ctx .finalizeProposal w = .ok w') :
    ∃ kp ks kr p s r, ctx.accounts[1]? = some kp ∧ ctx.accounts[2]? = some ks ∧ ctx.accounts[3]? = some kr ∧
      IsAddr env ctx.program settingsSeeds ks ∧ Holds settingsC settingsLen (w.acc ks) s ∧ s.isInitialized = true ∧
      Holds proposalC proposalLen (w.acc kp) p ∧ p.isInitialized = false ∧ (w.acc kp).owner = ctx.program ∧
      IsAddr env ctx.program (proposalSeeds p.roundNumber p.pda (env.hash (eventC.enc p.event))) kp ∧
      Holds relayRoundC relayRoundLen (w.acc kr) r ∧ r.isInitialized = true ∧
      IsAddr env ctx.program (relayRoundSeeds r.roundNumber) kr ∧
      Holds proposalC proposalLen (w'.acc kp) { p with
        isInitialized := true, roundNumber := r.roundNumber,
        requiredVotes := requiredVotes r.relays.length s.minRequiredVotes,
        signers := List.replicate r.relays.length Vote.none, metaLen := 1#32, status := .new } ∧
      (w'.acc kp).owner = ctx.program ∧
      ∀ x, x ≠ kp → (w'.acc x).data = (w.acc x).data ∧ (w'.acc x).owner = (w.acc x).owner := by
  simp only [run, processFinalizeProposal, bind_ok, acct_ok, require_ok, exists_const, checkProposal_ok] at h
  obtain ⟨f, -, kp, hkp, ks, hks, kr, hkr, -, -, s, hs, p, hp, ⟨n, pn, hk, ha⟩, hini, r, hr, w1, h1, h2⟩ := h
  obtain ⟨hs', hsi, sn, spn, -, hsa⟩ := loadSettings_ok.1 hs
  obtain ⟨hr', hri, m, hkm, hra⟩ := loadRelayRound_ok.1 hr
  have hp' := holds_iff.2 hp
  have ho := pack_owner h1 hp' (by
    intro e
    have := congrArg Proposal.isInitialized e
    simp only [hini] at this; cases this)
  have hx := sysTransfer_acc h2
  refine ⟨kp, ks, kr, p, s, r, hkp, hks, hkr, ⟨_, hsa⟩, hs', hsi, hp', hini, ho.1, ⟨_, ha⟩, hr', hri, ⟨_, hra⟩, ?_, ?_, ?_⟩
  · obtain ⟨b, t, hb, hl, hd⟩ := pack_holds h1
    exact ⟨b, t, by rw [hx kp]; exact hb, hl, hd⟩
  · rw [hx kp]; exact (pack_acc h1 kp).1.trans ho.1
  · intro x hxk
    have := (pack_acc h1 x).2.2 hxk
    rw [hx x, this]; exact ⟨rfl, rfl⟩

/-- `k` is the address the program derives from the content of `p`, with the bump stored in it. -/
def Home (env : Env) (k : Pubkey) (p : Proposal) : Prop := ∃ n pn, p.accountKind = .proposal n pn ∧
  findAddr env (proposalSeeds p.roundNumber p.pda (env.hash (eventC.enc p.event))) env.rlId = .ok (k, n)

/-- `k` is the address the program derives from the number of round `r`, with the bump stored in it. -/
def RoundHome (env : Env) (k : Pubkey) (r : RelayRound) : Prop := ∃ n, r.accountKind = .relayRound n ∧
  findAddr env (relayRoundSeeds r.roundNumber) env.rlId = .ok (k, n)

theorem len_votes (l : List Vote) : ((vec voteC).enc l).length = 4 + l.length := by
  simp only [vec, List.length_append, len_u32]
  rw [encAll_length voteC 1 (fun v => by cases v <;> rfl)]; omega

theorem len_proposal (p : Proposal) (st : Status) (sg : List Vote) (h : sg.length = p.signers.length) :
    (proposalC.enc { p with status := st, signers := sg }).length = (proposalC.enc p).length := by
  simp [proposalC, len_votes, h]

theorem wf_proposal {p : Proposal} (hw : proposalC.wf p = true) (st : Status) (sg : List Vote) (h : sg.length = p.signers.length) :
    proposalC.wf { p with status := st, signers := sg } = true := by
  simp only [proposalC, wf_iso, wf_pair, wf_vec, Bool.and_eq_true, decide_eq_true_eq] at hw ⊢
  refine ⟨hw.1, hw.2.1, hw.2.2.1, hw.2.2.2.1, hw.2.2.2.2.1, hw.2.2.2.2.2.1, hw.2.2.2.2.2.2.1, hw.2.2.2.2.2.2.2.1,
    hw.2.2.2.2.2.2.2.2.1, ?_, ?_, ?_⟩
  · simp
  · rw [h]; exact hw.2.2.2.2.2.2.2.2.2.2.1
  · rw [List.all_eq_true]; intro v _; cases v <;> rfl

theorem pack_mk {α : Type} {ctx : Ctx} {c : Codec α} {len : Nat} {a : α} {k : Pubkey} {w : World} {b : Bytes}
    (hb : (w.acc k).data = .raw b) (hl : b.length = len) (hwf : c.wf a = true) (hfit : (c.enc a).length ≤ len)
    (hw : ctx.isWritable k = true) (ho : (w.acc k).owner = ctx.program) :
    ∃ b', pack ctx c len a k w = .ok (w.setDataRaw k (.raw b')) := by
  refine ⟨_, pack_ok.2 ⟨b, _, hb, hl, ⟨hwf, by omega, rfl⟩, .inr ⟨hw, ho⟩, rfl⟩⟩

theorem pack_proposal {env : Env} {ctx : Ctx} {k : Pubkey} {w : World} {p : Proposal} (st : Status) (sg : List Vote)
    (hp : ctx.program = env.rlId) (h : FinalAt env w k p) (hs : sg.length = p.signers.length) (hw : ctx.isWritable k = true) :
    ∃ b', pack ctx proposalC proposalLen { p with status := st, signers := sg } k w = .ok (w.setDataRaw k (.raw b')) := by
  obtain ⟨ho, ⟨b, r, hb, hl, hd⟩, -⟩ := h
  obtain ⟨hwf, he⟩ := (proposalC.law _ _ _).1 hd
  refine pack_mk hb hl (wf_proposal hwf st sg hs) ?_ hw (ho.trans hp.symm)
  rw [len_proposal _ _ _ hs, ← hl, he]; simp

/-- A relay of the proposal's round whose slot is empty can vote. -/
theorem vote_succeeds {env : Env} {ctx : Ctx} {w : World} {kp kr voter : Pubkey} {p : Proposal} {r : RelayRound} {j : Nat}
    {v : Vote} (hg : Good env w) (hp : ctx.program = env.rlId) (h0 : ctx.accounts[0]? = some voter) (h1 : ctx.accounts[1]? = some kp)
    (h2 : ctx.accounts[2]? = some kr) (hs : ctx.isSigner voter = true) (hwp : ctx.isWritable kp = true)
    (hwv : ctx.isWritable voter = true) (hf : FinalAt env w kp p) (hh : Home env kp p) (hr : RoundAt env w kr r)
    (hrh : RoundHome env kr r) (hj : r.relays.findIdx? (fun k => k == voter) = some j) (hn : p.signers[j]? = some .none)
    (hv : v ≠ .none) (hmax : (w.acc voter).lamports + relayReparation < 2 ^ 64) :
    ∃ w', run env ctx (.voteForProposal v) w = .ok w' ∧ FinalAt env w' kp { p with signers := p.signers.set j v } := by
  obtain ⟨b', hpk⟩ := pack_proposal (ctx := ctx) p.status (p.signers.set j v) hp hf (by simp) hwp
  have hpk' : pack ctx proposalC proposalLen { p with signers := p.signers.set j v } kp w = .ok (w.setDataRaw kp (.raw b')) := hpk
  have hsound := (hg.sound hf.2.1 hf.2.2 hf.1).funded
  have hun : 1 ≤ unvoted p := List.count_pos_iff.2 (List.mem_of_getElem? hn)
  have hlam : relayReparation ≤ (w.acc kp).lamports := by
    have : relayReparation * 1 ≤ relayReparation * unvoted p := Nat.mul_le_mul_left _ hun
    omega
  have hmv : ∃ w', moveLamports ctx kp voter relayReparation (w.setDataRaw kp (.raw b')) = .ok w' := by
    simp only [moveLamports, debit, credit, bind_ok, require_ok, exists_const, Except.ok.injEq]
    refine ⟨_, _, ⟨?_, .inr hwp, .inr ?_, rfl⟩, ?_, .inr hwv, rfl⟩
    · simpa using hlam
    · simpa using hf.1.trans hp.symm
    · by_cases e : voter = kp
      · subst e
        have h64 : (w.acc voter).lamports < 2 ^ 64 := by omega
        simp; omega
      · simpa [e] using hmax
  obtain ⟨w', hmv⟩ := hmv
  have hrun : run env ctx (.voteForProposal v) w = .ok w' := by
    simp only [run, processVote, bind_ok, acct_ok, require_ok, exists_const, unpack_holds, orErr_ok, checkProposal_ok]
    obtain ⟨n, pn, hk, ha⟩ := hh
    obtain ⟨m, hkm, hra⟩ := hrh
    refine ⟨voter, h0, kp, h1, kr, h2, hs, hv, p, ⟨hf.2.1, hf.2.2⟩, ⟨n, pn, hk, by rw [hp]; exact ha⟩, r,
      loadRelayRound_ok.2 ⟨hr.2.1, hr.2.2, m, hkm, by rw [hp]; exact hra⟩, j, hj, .none, hn, ?_⟩
    rw [if_pos rfl]
    simp only [bind_ok]
    exact ⟨_, hpk', hmv⟩
  refine ⟨w', hrun, ?_⟩
  obtain ⟨-, -, -, -, -, hacc⟩ := moveLamports_ok hmv
  obtain ⟨bb, t, hbb, hl, hd⟩ := pack_holds hpk'
  refine ⟨?_, ⟨bb, t, ?_, hl, hd⟩, hf.2.2⟩
  · rw [hacc kp]; simpa using hf.1
  · rw [hacc kp]; exact hbb

theorem createPda_mk {env : Env} {ctx : Ctx} {f k : Pubkey} {seeds : List Bytes} {n : U8} {space : Nat} {o : Pubkey} {w : World}
    (ha : env.createAddr (seeds ++ [[n]]) ctx.program = some k) (hv : Vacant env (w.acc k)) (hne : f ≠ k)
    (hsys : env.systemId ∈ ctx.accounts) (hwk : ctx.isWritable k = true) (hwf : ctx.isWritable f = true) (hs : ctx.isSigner f = true)
    (hfo : (w.acc f).owner = env.systemId) (hfd : (w.acc f).data.len = 0) (hle : max 1 (env.rent space) ≤ (w.acc f).lamports)
    (hmax : env.rent space < 2 ^ 64) : ∃ w', createPda env ctx f k seeds n space o w = .ok w' := by
  simp only [createPda, bind_ok, pdaSigns, ha, Except.ok.injEq, exists_eq_left', sysCreate, require_ok, exists_const, sysTransfer_ok]
  refine ⟨_, by simp, hv.1, ⟨hv.2.1, hv.2.2⟩, hsys, ⟨hwf, hwk⟩, by simp [hs], ?_, ?_, ?_, ?_, rfl⟩
  · rw [World.set_other _ _ hne]; exact hfd
  · rw [World.set_other _ _ hne]; exact hle
  · rw [World.set_other _ _ hne]; exact .inr hfo
  · simp [hne.symm]; omega

/-- A proposal with a quorum can be executed while the proposed round does not exist and has at most 100 relays. -/
theorem execute_succeeds {env : Env} {ctx : Ctx} {w : World} {f ks kp kr : Pubkey} {p : Proposal} {s : Settings} {n pn m : U8}
    (hd : env.Distinct) (hp : ctx.program = env.rlId) (h0 : ctx.accounts[0]? = some f) (h1 : ctx.accounts[1]? = some ks)
    (h2 : ctx.accounts[2]? = some kp) (h3 : ctx.accounts[3]? = some kr) (h4 : ctx.accounts[4]? = some env.systemId)
    (h5 : ctx.accounts[5]? = some env.rentId) (hwf : ctx.isWritable f = true) (hws : ctx.isWritable ks = true)
    (hwp : ctx.isWritable kp = true) (hwr : ctx.isWritable kr = true) (hsig : ctx.isSigner f = true)
    (hs : SettingsAt env w ks s) (hsk : s.accountKind = .settings n pn) (hsa : findAddr env settingsSeeds env.rlId = .ok (ks, n))
    (hf : FinalAt env w kp p) (hh : Home env kp p) (hst : p.status = .new)
    (hq : p.requiredVotes.toNat ≤ p.signers.count .confirm) (hra : findAddr env (relayRoundSeeds p.event.roundNum) env.rlId = .ok (kr, m))
    (hv : Vacant env (w.acc kr)) (h100 : p.event.relays.length ≤ 100) (hfo : (w.acc f).owner = env.systemId)
    (hfd : (w.acc f).data.len = 0) (hle : max 1 (env.rent relayRoundLen) ≤ (w.acc f).lamports)
    (hmax : env.rent relayRoundLen < 2 ^ 64) (hne : f ≠ kr) : ∃ w', run env ctx .executeProposal w = .ok w' := by
  have hc : env.createAddr (relayRoundSeeds p.event.roundNum ++ [[m]]) ctx.program = some kr := by
    rw [hp]; exact findAddr_create hra
  obtain ⟨w1, hw1⟩ := createPda_mk (o := ctx.program) (space := relayRoundLen) hc hv hne (List.mem_of_getElem? h4) hwr hwf hsig hfo hfd hle hmax
  have self1 := createPda_self hc hw1
  have oth1 := createPda_acc hc hw1
  obtain ⟨b2, hp2⟩ := pack_mk (ctx := ctx) (c := relayRoundC) (len := relayRoundLen) (k := kr) (w := w1)
    (a := ⟨true, .relayRound m, p.event.roundNum, p.event.roundEnd + s.roundTtl, p.event.relays⟩) (b := zeros relayRoundLen)
    (by rw [self1]) (zeros_len _) (by
      simp only [relayRoundC, wf_iso, wf_pair, wf_vec, Bool.and_eq_true, decide_eq_true_eq]
      refine ⟨by simp, by simp, by simp, by simp, by omega, ?_⟩
      rw [List.all_eq_true]; intro v _; rfl) (by
      simp only [relayRoundC, enc_iso, enc_pair, List.length_append, vec, len_keys, relayRoundLen]
      simp; omega) hwr (by rw [self1])
  have hskr : ks ≠ kr := by
    rintro rfl
    exact hd.rlSys (hs.1.symm.trans hv.2.2)
  have hpkr : kp ≠ kr := by
    rintro rfl
    exact hd.rlSys (hf.1.symm.trans hv.2.2)
  have hpks : kp ≠ ks := by
    rintro rfl
    exact settings_ne hs.2.1 hf.2.1
  obtain ⟨hso, ⟨bs, ts, hbs, hls, hds⟩, hsi⟩ := hs
  obtain ⟨b3, hp3⟩ := pack_mk (ctx := ctx) (c := settingsC) (len := settingsLen) (k := ks) (w := w1.setDataRaw kr (.raw b2))
    (a := { s with currentRoundNumber := p.event.roundNum }) (b := bs)
    (by simp only [setDataRaw_acc, hskr, if_false]; rw [(oth1 ks hskr).1, hbs]) hls (by simp [settingsC]) (by
      simp [settingsC, hsk, settingsLen]) hws (by
      simp only [setDataRaw_acc, hskr, if_false]; rw [(oth1 ks hskr).2, hso, hp])
  have hf3 : FinalAt env ((w1.setDataRaw kr (.raw b2)).setDataRaw ks (.raw b3)) kp p := by
    simp only [FinalAt, setDataRaw_acc, hpks, hpkr, if_false]
    obtain ⟨ho, ⟨b, r, hb, hl, hdd⟩, hi⟩ := hf
    exact ⟨by rw [(oth1 kp hpkr).2]; exact ho, ⟨b, r, by rw [(oth1 kp hpkr).1]; exact hb, hl, hdd⟩, hi⟩
  obtain ⟨b4, hp4⟩ := pack_proposal (ctx := ctx) .executed p.signers hp hf3 rfl hwp
  refine ⟨((w1.setDataRaw kr (.raw b2)).setDataRaw ks (.raw b3)).setDataRaw kp (.raw b4), ?_⟩
  simp only [run, processExecute, bind_ok, acct_ok, sysvar_ok, exists_const, unpack_holds, checkProposal_ok]
  obtain ⟨n', pn', hk, ha⟩ := hh
  refine ⟨f, h0, ks, h1, kp, h2, kr, h3, env.systemId, h4, env.rentId, h5, rfl, s,
    loadSettings_ok.2 ⟨⟨bs, ts, hbs, hls, hds⟩, hsi, n, pn, hsk, by rw [hp]; exact hsa⟩, p, ⟨hf.2.1, hf.2.2⟩,
    ⟨n', pn', hk, by rw [hp]; exact ha⟩, ?_⟩
  rw [if_pos ⟨hst, by rw [confirm_toNat hf.2.1]; exact hq⟩]
  simp only [bind_ok]
  refine ⟨_, ?_, hp4⟩
  simp only [openRound, bind_ok, require_ok, exists_const, Prod.exists]
  exact ⟨kr, m, by rw [hp]; exact hra, rfl, w1, hw1, _, hp2, hp3⟩

end Verif.RL
