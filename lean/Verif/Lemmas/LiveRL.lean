import Verif.Lemmas.Live
/-!
# Instructions of the round loader that succeed: building blocks
-/
set_option linter.unusedSimpArgs false
namespace Verif
open Codec Verif

variable {env : Env} {ctx : Ctx} {w w' w1 : World}

theorem IsAddr.eq {p k k' : Pubkey} {seeds : List Bytes} {n : U8} (h : IsAddr env p seeds k) (h' : findAddr env seeds p = .ok (k', n)) : k = k' := by
  obtain ⟨m, h⟩ := h
  rw [h] at h'
  cases h'; rfl

theorem IsAddr.find {p k k' : Pubkey} {seeds : List Bytes} {n : U8} (h : IsAddr env p seeds k) (h' : findAddr env seeds p = .ok (k', n)) :
    findAddr env seeds p = .ok (k, n) := by rw [h.eq h']; exact h'

end Verif

namespace Verif.RL
open Codec Verif

variable {env : Env} {ctx : Ctx} {w w' w1 : World}

theorem process_enc {i : Instr} (h : Instr.codec.wf i = true) : process env ctx (Instr.codec.enc i) w = run env ctx i w := by
  simp only [process, Codec.decAll_enc _ _ h, orErr, bind, Except.bind]

theorem len_kind (k : AccountKind) : (AccountKind.codec.enc k).length ≤ 4 := by
  cases k with
  | proposal n p => cases p <;> simp
  | _ => simp

theorem len_settings {s : Settings} (n pn : U8) (h : s.accountKind = .settings n pn) : (settingsC.enc s).length ≤ settingsLen := by
  simp [settingsC, h, settingsLen]

theorem wf_settings (s : Settings) : settingsC.wf s = true := by simp [settingsC]

theorem len_relays (l : List Pubkey) : ((vec key).enc l).length = 4 + 32 * l.length := by
  simp [vec, len_keys]

theorem wf_round {r : RelayRound} (h : r.relays.length ≤ 100) : relayRoundC.wf r = true := by
  simp only [relayRoundC, wf_iso, wf_pair, wf_vec, Bool.and_eq_true, decide_eq_true_eq]
  refine ⟨by simp, by simp, by simp, by simp, by omega, ?_⟩
  rw [List.all_eq_true]; intro v _; rfl

theorem len_round {r : RelayRound} {n : U8} (h : r.relays.length ≤ 100) (hk : r.accountKind = .relayRound n) :
    (relayRoundC.enc r).length ≤ relayRoundLen := by
  simp only [relayRoundC, enc_iso, enc_pair, List.length_append, vec, len_keys, relayRoundLen, hk]
  simp; omega

theorem loadSettings_live {ks : Pubkey} {s : Settings} (hp : ctx.program = env.rlId) (h : Ready env w ks s) : loadSettings env ctx ks w = .ok s := by
  obtain ⟨⟨-, hh, hi⟩, n, pn, pd, hk, ha, -⟩ := h
  exact loadSettings_ok.2 ⟨hh, hi, n, pn, hk, by rw [hp]; exact ha⟩

theorem round_fits {kr : Pubkey} {r : RelayRound} (h : Holds relayRoundC relayRoundLen (w.acc kr) r) (n : U8)
    (hk : r.accountKind = .relayRound n) : r.relays.length ≤ 100 := by
  obtain ⟨b, t, -, hl, hdec⟩ := h
  have e := relayRoundC.eq_of_dec hdec
  have : (relayRoundC.enc r).length ≤ relayRoundLen := by rw [← hl, e]; simp
  simp only [relayRoundC, enc_iso, enc_pair, List.length_append, vec, len_keys, relayRoundLen, hk] at this
  simp at this; omega

theorem loadRelayRound_live {kr : Pubkey} {r : RelayRound} (hp : ctx.program = env.rlId) (h : RoundReady env w kr r) :
    loadRelayRound env ctx kr w = .ok r := by
  obtain ⟨⟨-, hh, hi⟩, n, hk, ha⟩ := h
  simp only [loadRelayRound, bind_ok, unpack_holds, orErr_ok, intoRelayRound_some, validateRelayRound, validatePda_ok, exists_const, Except.ok.injEq]
  exact ⟨r, ⟨hh, hi⟩, n, hk, by rw [hp]; exact ha, rfl⟩

theorem checkProposal_live {kp : Pubkey} {p : Proposal} (hp : ctx.program = env.rlId) (h : ProposalReady env w kp p) :
    checkProposal env ctx kp p = .ok () := by
  obtain ⟨n, pn, hk, ha⟩ := h.addr
  exact checkProposal_ok.2 ⟨n, pn, hk, by rw [hp]; exact ha⟩

/-- Storing a proposal in place of another, with as many entries. -/
theorem putProposal_live {kp : Pubkey} {p q : Proposal} (hp : ctx.program = env.rlId) (h : ProposalReady env w kp p) (hw : ctx.isWritable kp = true)
    (hwf : proposalC.wf q = true) (hfit : (proposalC.enc q).length ≤ proposalLen) :
    ∃ w1, pack ctx proposalC proposalLen q kp w = .ok w1 ∧ Eff [kp] w w1 ∧ (∀ j, (w1.acc j).lamports = (w.acc j).lamports) ∧
      (w1.acc kp).owner = (w.acc kp).owner := by
  obtain ⟨ho, ⟨b, t, hb, hl, hdec⟩, -⟩ := h
  obtain ⟨w1, h1, -, h2, h3, -, h5⟩ := pack_live hb hl hwf hfit hw (ho.trans hp.symm)
  exact ⟨w1, h1, h5, h3, h2⟩

theorem ProposalReady.fit {kp : Pubkey} {p : Proposal} (h : ProposalReady env w kp p) :
    proposalC.wf p = true ∧ (proposalC.enc p).length ≤ proposalLen := by
  obtain ⟨-, ⟨b, t, hb, hl, hdec⟩, -⟩ := h
  obtain ⟨hwf, he⟩ := (proposalC.law _ _ _).1 hdec
  exact ⟨hwf, by rw [← hl, he]; simp⟩

theorem ProposalReady.eff {kp : Pubkey} {p : Proposal} {D : List Pubkey} (h : ProposalReady env w kp p) (he : Eff D w w1) (hk : kp ∉ D) :
    ProposalReady env w1 kp p := ⟨(he kp hk).2.trans h.owner, holds_eff he hk h.holds, h.addr⟩

/-- Opening a round. -/
theorem openRound_live {f ks kr : Pubkey} {s : Settings} {number e : U32} {relays : List Pubkey}
    (hd : env.Distinct) (hp : ctx.program = env.rlId)
    (hs : Ready env w ks s) (ha : IsAddr env env.rlId (relayRoundSeeds number) kr) (hv : Vacant env (w.acc kr)) (h100 : relays.length ≤ 100)
    (hsys : env.systemId ∈ ctx.accounts) (hwr : ctx.isWritable kr = true) (hws : ctx.isWritable ks = true) (hwf : ctx.isWritable f = true)
    (hsf : ctx.isSigner f = true) (hf : Wallet env w f (max 1 (env.rent relayRoundLen))) (hmax : env.rent relayRoundLen < 2 ^ 64) :
    ∃ w1, openRound env ctx f ks kr s number relays e w = .ok w1 ∧ Eff [kr, ks] w w1 := by
  obtain ⟨m, ha⟩ := ha
  obtain ⟨⟨hso, ⟨bs, ts, hbs, hls, hds⟩, hsi⟩, n, pn, pd, hsk, hsa, -⟩ := hs
  have hne : f ≠ kr := by
    rintro rfl
    have := hf.rich; rw [hv.1] at this; omega
  have hskr : ks ≠ kr := by
    rintro rfl
    exact hd.rlSys (hso.symm.trans hv.2.2)
  obtain ⟨w1, hw1, self1, eff1, -⟩ := createPda_live (ctx := ctx) (o := ctx.program) (space := relayRoundLen) (by rw [hp]; exact ha) hv hne hsys hwr hwf
    hsf hf hmax
  obtain ⟨w2, hw2, -, ho2, -, oth2, eff2⟩ := pack_live (ctx := ctx) (c := relayRoundC) (len := relayRoundLen) (k := kr) (w := w1)
    (a := ⟨true, .relayRound m, number, e + s.roundTtl, relays⟩) (b := zeros relayRoundLen)
    (by rw [self1]) (zeros_len _) (wf_round h100) (len_round h100 rfl) hwr (by rw [self1])
  have e1 := eff1 ks (by simpa using hskr)
  obtain ⟨w3, hw3, -, -, -, -, eff3⟩ := pack_live (ctx := ctx) (c := settingsC) (len := settingsLen) (k := ks) (w := w2)
    (a := { s with currentRoundNumber := number }) (b := bs) (by rw [oth2 ks hskr, e1.1, hbs]) hls (wf_settings _) (len_settings n pn hsk) hws
    (by rw [oth2 ks hskr, e1.2, hso, hp])
  refine ⟨w3, ?_, ?_⟩
  · simp only [openRound, bind_ok, require_ok, exists_const, Prod.exists]
    exact ⟨kr, m, by rw [hp]; exact ha, rfl, w1, hw1, w2, hw2, hw3⟩
  · intro j hj
    simp only [List.mem_cons, List.not_mem_nil, or_false, not_or] at hj
    have a := eff1 j (by simpa using hj.1)
    have b := eff2 j (by simpa using hj.1)
    have c := eff3 j (by simpa using hj.2)
    exact ⟨c.1.trans (b.1.trans a.1), c.2.trans (b.2.trans a.2)⟩

end Verif.RL
