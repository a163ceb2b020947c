import Verif.Spec.PlacesRL
import Verif.Lemmas.Pack
import Verif.Spec.Views
/-!
# What each round-loader instruction does, operation by operation
-/
namespace Verif.RL
open Codec Verif

/-- The permitted operations of instruction `i` started in state `w0`. -/
inductive Why (env : Env) (ctx : Ctx) (w0 : World) (i : Instr) : Op → Prop
  | sys (src dst : Pubkey) (n : Nat) (hi : i = .finalizeProposal) : Why env ctx w0 i (.sys src dst n)
  | createSettings (f k : Pubkey) (n : U8) (g : U32) (s : Pubkey) (m t : U32) (hi : i = .init g s m t)
      (ha : findAddr env settingsSeeds ctx.program = .ok (k, n)) :
      Why env ctx w0 i (.create f k settingsSeeds n settingsLen ctx.program)
  | createRound (f k : Pubkey) (n : U8) (num : U32) (ha : findAddr env (relayRoundSeeds num) ctx.program = .ok (k, n)) :
      Why env ctx w0 i (.create f k (relayRoundSeeds num) n relayRoundLen ctx.program)
  | createProposal (f k : Pubkey) (n : U8) (r : U32) (p : PDA) (d : Pubkey) (hi : i = .createProposal r p d)
      (ha : findAddr env (proposalSeeds r p d) ctx.program = .ok (k, n)) :
      Why env ctx w0 i (.create f k (proposalSeeds r p d) n proposalLen ctx.program)
  | initSettings (k : Pubkey) (b' : Bytes) (n pn : U8) (g : U32) (s : Pubkey) (m t : U32) (hi : i = .init g s m t)
      (ha : findAddr env settingsSeeds ctx.program = .ok (k, n)) (hu : UpgradeAuthoritySigns env ctx w0)
      (hs : Stored settingsC ⟨true, .settings n pn, g, s, m, t⟩ (zeros settingsLen) b') :
      Why env ctx w0 i (.write k (zeros settingsLen) b')
  | updateSettings (k : Pubkey) (b b' r : Bytes) (n pn : U8) (s : Settings) (cr : Option U32) (sb : Option Pubkey)
      (mv ttl : Option U32) (hi : i = .updateSettings cr sb mv ttl) (hl : b.length = settingsLen)
      (hd : settingsC.dec b = some (s, r)) (hini : s.isInitialized = true) (hk : s.accountKind = .settings n pn)
      (ha : findAddr env settingsSeeds ctx.program = .ok (k, n)) (hu : UpgradeAuthoritySigns env ctx w0)
      (hs : Stored settingsC { s with
        currentRoundNumber := cr.getD s.currentRoundNumber
        roundSubmitter := sb.getD s.roundSubmitter
        minRequiredVotes := mv.getD s.minRequiredVotes
        roundTtl := ttl.getD s.roundTtl } b b') :
      Why env ctx w0 i (.write k b b')
  | roundSettings (k : Pubkey) (b b' r : Bytes) (n pn : U8) (s : Settings) (num : U32)
      (hi : (∃ a e, i = .createRelayRound num a e) ∨ i = .executeProposal ∨ i = .executeProposalByAdmin)
      (hl : b.length = settingsLen)
      (hd : settingsC.dec b = some (s, r)) (hini : s.isInitialized = true) (hk : s.accountKind = .settings n pn)
      (ha : findAddr env settingsSeeds ctx.program = .ok (k, n))
      (hs : Stored settingsC { s with currentRoundNumber := num } b b') :
      Why env ctx w0 i (.write k b b')
  | round (k : Pubkey) (b' : Bytes) (n : U8) (num e : U32) (relays : List Pubkey)
      (ha : findAddr env (relayRoundSeeds num) ctx.program = .ok (k, n))
      (hs : Stored relayRoundC ⟨true, .relayRound n, num, e, relays⟩ (zeros relayRoundLen) b') :
      Why env ctx w0 i (.write k (zeros relayRoundLen) b')
  | fresh (k : Pubkey) (b' : Bytes) (n : U8) (r : U32) (p : PDA) (d author : Pubkey) (hi : i = .createProposal r p d)
      (ha : findAddr env (proposalSeeds r p d) ctx.program = .ok (k, n))
      (hs : Stored proposalC (freshProposal n author r p) (zeros proposalLen) b') :
      Why env ctx w0 i (.write k (zeros proposalLen) b')
  | data (k : Pubkey) (b b' : Bytes) (off : U32) (bs : Bytes) (hi : i = .writeProposal off bs)
      (hg : ∀ p r, b.length = proposalLen → proposalC.dec b = some (p, r) → p.isInitialized = false)
      (hb : writeProposalData b off.toNat bs = .ok b') (hpl : namedProposal ctx i = some k) :
      Why env ctx w0 i (.write k b b')
  | final (k kr : Pubkey) (b b' r : Bytes) (p : Proposal) (n : U8) (pn : Option U8) (s : Settings) (rr : RelayRound)
      (hi : i = .finalizeProposal) (hl : b.length = proposalLen)
      (hd : proposalC.dec b = some (p, r)) (hini : p.isInitialized = false) (hk : p.accountKind = .proposal n pn)
      (ha : findAddr env (proposalSeeds p.roundNumber p.pda (env.hash (eventC.enc p.event))) ctx.program = .ok (k, n))
      (hr : Holds relayRoundC relayRoundLen (w0.acc kr) rr) (hri : rr.isInitialized = true)
      (hra : IsAddr env ctx.program (relayRoundSeeds rr.roundNumber) kr)
      (hs : Stored proposalC { p with
        isInitialized := true
        roundNumber := rr.roundNumber
        requiredVotes := requiredVotes rr.relays.length s.minRequiredVotes
        signers := List.replicate rr.relays.length Vote.none
        metaLen := 1#32
        status := .new } b b') (hpl : namedProposal ctx i = some k) :
      Why env ctx w0 i (.write k b b')
  | vote (k kr v : Pubkey) (b b' r : Bytes) (p : Proposal) (n : U8) (pn : Option U8) (j : Nat) (x : Vote) (rr : RelayRound)
      (hi : i = .voteForProposal x) (hx : x ≠ .none) (hl : b.length = proposalLen)
      (hd : proposalC.dec b = some (p, r)) (hini : p.isInitialized = true) (hk : p.accountKind = .proposal n pn)
      (ha : findAddr env (proposalSeeds p.roundNumber p.pda (env.hash (eventC.enc p.event))) ctx.program = .ok (k, n))
      (hr : Holds relayRoundC relayRoundLen (w0.acc kr) rr) (hri : rr.isInitialized = true)
      (hra : IsAddr env ctx.program (relayRoundSeeds rr.roundNumber) kr)
      (hv : rr.relays.findIdx? (fun k => k == v) = some j) (hsig : ctx.isSigner v = true)
      (hold : p.signers[j]? = some Vote.none)
      (hs : Stored proposalC { p with signers := p.signers.set j x } b b') (hpl : namedProposal ctx i = some k) :
      Why env ctx w0 i (.write k b b')
  | pay (k v : Pubkey) (x : Vote) (hi : i = .voteForProposal x) (hpl : namedProposal ctx i = some k) : Why env ctx w0 i (.move k v relayReparation)
  | exec (k : Pubkey) (b b' r : Bytes) (p : Proposal)
      (hi : i = .executeProposal ∨ i = .executeProposalByAdmin) (hl : b.length = proposalLen)
      (hd : proposalC.dec b = some (p, r)) (hini : p.isInitialized = true)
      (hs : Stored proposalC { p with status := .executed } b b') (hpl : namedProposal ctx i = some k) :
      Why env ctx w0 i (.write k b b')

theorem loadSettings_ok {env : Env} {ctx : Ctx} {k : Pubkey} {w : World} {s : Settings} :
    loadSettings env ctx k w = .ok s ↔ Holds settingsC settingsLen (w.acc k) s ∧ s.isInitialized = true ∧
      ∃ n pn, s.accountKind = .settings n pn ∧ findAddr env settingsSeeds ctx.program = .ok (k, n) := by
  simp only [loadSettings, bind_ok, unpack_ok, orErr_ok, validateSettings, validatePda_ok, exists_const, Except.ok.injEq,
    Prod.exists, intoSettings_some, Holds]
  constructor
  · rintro ⟨a, ⟨b, r, h1, h2, h3, h4⟩, n, pn, hk, ha, rfl⟩
    exact ⟨⟨b, r, h1, h2, h3⟩, h4, n, pn, hk, ha⟩
  · rintro ⟨⟨b, r, h1, h2, h3⟩, h4, n, pn, hk, ha⟩
    exact ⟨s, ⟨b, r, h1, h2, h3, h4⟩, n, pn, hk, ha, rfl⟩

theorem loadRelayRound_ok {env : Env} {ctx : Ctx} {k : Pubkey} {w : World} {s : RelayRound} :
    loadRelayRound env ctx k w = .ok s ↔ Holds relayRoundC relayRoundLen (w.acc k) s ∧ s.isInitialized = true ∧
      ∃ n, s.accountKind = .relayRound n ∧ findAddr env (relayRoundSeeds s.roundNumber) ctx.program = .ok (k, n) := by
  simp only [loadRelayRound, bind_ok, unpack_ok, orErr_ok, validateRelayRound, validatePda_ok, exists_const, Except.ok.injEq,
    intoRelayRound_some, Holds]
  constructor
  · rintro ⟨a, ⟨b, r, h1, h2, h3, h4⟩, n, hk, ha, rfl⟩
    exact ⟨⟨b, r, h1, h2, h3⟩, h4, n, hk, ha⟩
  · rintro ⟨⟨b, r, h1, h2, h3⟩, h4, n, hk, ha⟩
    exact ⟨s, ⟨b, r, h1, h2, h3, h4⟩, n, hk, ha, rfl⟩

theorem checkProposal_ok {env : Env} {ctx : Ctx} {k : Pubkey} {p : Proposal} {u : Unit} :
    checkProposal env ctx k p = .ok u ↔ ∃ n pn, p.accountKind = .proposal n pn ∧
      findAddr env (proposalSeeds p.roundNumber p.pda (env.hash (eventC.enc p.event))) ctx.program = .ok (k, n) := by
  simp only [checkProposal, bind_ok, orErr_ok, validateProposal, validatePda_ok, Prod.exists, intoProposal_some]

/-- Inversion of `openRound`. -/
theorem openRound_ok {env : Env} {ctx : Ctx} {f ks kr : Pubkey} {s : Settings} {num : U32} {relays : List Pubkey}
    {e : U32} {w w' : World} (h : openRound env ctx f ks kr s num relays e w = .ok w') :
    ∃ n w1 w2, findAddr env (relayRoundSeeds num) ctx.program = .ok (kr, n) ∧
      createPda env ctx f kr (relayRoundSeeds num) n relayRoundLen ctx.program w = .ok w1 ∧
      pack ctx relayRoundC relayRoundLen ⟨true, .relayRound n, num, e + s.roundTtl, relays⟩ kr w1 = .ok w2 ∧
      pack ctx settingsC settingsLen { s with currentRoundNumber := num } ks w2 = .ok w' := by
  simp only [openRound, bind_ok, require_ok, exists_const, Prod.exists] at h
  obtain ⟨a, n, ha, rfl, w1, h1, w2, h2, h3⟩ := h
  exact ⟨n, w1, w2, ha, h1, h2, h3⟩

/-- The three effects of `openRound` as operations; `hP` says what the settings account holds before. -/
theorem openRound_ops {env : Env} {ctx : Ctx} {f ks kr : Pubkey} {s : Settings} {num : U32} {relays : List Pubkey}
    {e : U32} {w0 w w' : World} {i : Instr} (h : openRound env ctx f ks kr s num relays e w = .ok w')
    (hs : loadSettings env ctx ks w = .ok s)
    (hi : (∃ a e, i = .createRelayRound num a e) ∨ i = .executeProposal ∨ i = .executeProposalByAdmin) :
    Ops env ctx (Why env ctx w0 i) w w' ∧ ks ≠ kr ∧ (w.acc kr).data.len = 0 ∧
      ∀ x, x ≠ ks → x ≠ kr → (w'.acc x).data = (w.acc x).data ∧ (w'.acc x).owner = (w.acc x).owner := by
  obtain ⟨n, w1, w2, ha, h1, h2, h3⟩ := openRound_ok h
  have hc := findAddr_create ha
  obtain ⟨⟨b, r, hb, hl, hd⟩, hini, sn, pn, hk, hsa⟩ := loadSettings_ok.1 hs
  obtain ⟨-, hlen, -⟩ := createPda_ok hc h1
  have hne : ks ≠ kr := by
    rintro rfl; rw [hb] at hlen; simp only [Data.len, hl] at hlen; cases hlen
  have hself := createPda_self hc h1
  refine ⟨?_, hne, hlen, ?_⟩
  · refine Ops.trans (Ops.one (.create f kr (relayRoundSeeds num) n relayRoundLen ctx.program)
      (.createRound f kr n num ha) ⟨hc, h1⟩) ?_
    refine Ops.trans (Ops.pack h2 ?_) (Ops.pack h3 ?_)
    · intro b b' hb hl hst
      rw [hself] at hb
      cases hb
      exact .round kr b' n num _ relays ha hst
    · intro b1 b' hb1 hl1 hst
      obtain ⟨c, c', hcb, -, -, -, rfl⟩ := pack_ok.1 h2
      simp only [setDataRaw_acc, hne, if_false] at hb1
      rw [(createPda_acc hc h1 ks hne).1, hb] at hb1
      cases hb1
      exact .roundSettings ks b b' r sn pn s num hi hl hd hini hk hsa hst
  · intro x hx1 hx2
    obtain ⟨c, c', hcb, -, -, -, rfl⟩ := pack_ok.1 h2
    obtain ⟨c1, c1', hcb1, -, -, -, rfl⟩ := pack_ok.1 h3
    simp only [setDataRaw_acc, hx1, hx2, if_false]
    exact createPda_acc hc h1 x hx2

/-- Inversion of `WriteProposal`. -/
theorem writeProposal_ok {env : Env} {ctx : Ctx} {off : U32} {bs : Bytes} {w w' : World}
    (h : run env ctx (.writeProposal off bs) w = .ok w') :
    ∃ k b b', ctx.accounts[0]? = some k ∧ (w.acc k).data = .raw b ∧
      (∀ p r, b.length = proposalLen → proposalC.dec b = some (p, r) → p.isInitialized = false) ∧
      writeProposalData b off.toNat bs = .ok b' ∧
      (b' = b ∨ (ctx.isWritable k = true ∧ (w.acc k).owner = ctx.program)) ∧ w' = w.setDataRaw k (.raw b') := by
  simp only [run, processWriteProposal, bind_ok, acct_ok] at h
  obtain ⟨k, hk, h⟩ := h
  have key : ∀ (hg : ∀ p, unpackUnchecked proposalC proposalLen (w.acc k).data = .ok p → p.isInitialized = false)
      (h : (match (w.acc k).data with
        | .raw b => (do
          let b' ← writeProposalData b off.toNat bs
          setData ctx k (.raw b') w)
        | _ => .error .externalDataModified) = .ok w'),
      ∃ b b', (w.acc k).data = .raw b ∧
        (∀ p r, b.length = proposalLen → proposalC.dec b = some (p, r) → p.isInitialized = false) ∧
        writeProposalData b off.toNat bs = .ok b' ∧
        (b' = b ∨ (ctx.isWritable k = true ∧ (w.acc k).owner = ctx.program)) ∧ w' = w.setDataRaw k (.raw b') := by
    intro hg h
    split at h
    · rename_i b hb
      simp only [bind_ok, setData_ok, hb, Data.raw.injEq] at h
      obtain ⟨b', hb', hor, rfl⟩ := h
      exact ⟨b, b', hb, fun p r hl hd => hg p (unpackUnchecked_ok.2 ⟨b, r, hb, hl, hd⟩), hb',
        hor.imp_left Eq.symm, rfl⟩
    · cases h
  obtain ⟨b, b', h⟩ : ∃ b b', _ := by
    split at h
    · rename_i p hp
      simp only [bind_ok, require_ok, exists_const] at h
      exact key (fun q hq => by rw [hp] at hq; cases hq; exact h.1) h.2
    · rename_i hp
      simp only [bind_ok, Except.ok.injEq, exists_const] at h
      exact key (fun q hq => by rw [hp] at hq; cases hq) h.2
  exact ⟨k, b, b', hk, h⟩

/-- Every successful round-loader instruction is a sequence of permitted operations. -/
theorem run_ops {env : Env} {ctx : Ctx} {i : Instr} {w w' : World} (h : run env ctx i w = .ok w') :
    Ops env ctx (Why env ctx w i) w w' := by
  cases i with
  | init g s m t =>
    simp only [run, processInitialize, bind_ok, acct_ok, sysvar_ok, require_ok, exists_const, Prod.exists,
      validateInitializer_ok] at h
    obtain ⟨f, -, ini, -, ks, -, kpd, -, -, -, rent, -, -, hsig, pd, pn, hpd, rfl, hauth, k, n, ha, rfl, w1, h1, h2⟩ := h
    have hc := findAddr_create ha
    refine Ops.trans (Ops.one (.create f k settingsSeeds n settingsLen ctx.program)
      (.createSettings f k n g s m t rfl ha) ⟨hc, h1⟩) (Ops.pack h2 ?_)
    intro b b' hb hl hst
    rw [createPda_self hc h1] at hb
    cases hb
    exact .initSettings k b' n pn g s m t rfl ha ⟨ini, pd, ⟨pn, hpd⟩, hauth, hsig⟩ hst
  | updateSettings cr sb mv ttl =>
    simp only [run, processUpdateSettings, bind_ok, acct_ok, require_ok, exists_const, Prod.exists, unpack_ok,
      validateInitializer_ok, orErr_ok, intoSettings_some, validateSettings, validatePda_ok, validateProgramdata_ok] at h
    obtain ⟨au, -, ks, -, kpd, -, hsig, s, ⟨b, r, hb, hl, hd, hini⟩, n, pn, hk, ha, ho, hpd, hauth, h⟩ := h
    refine Ops.pack h ?_
    intro b1 b' hb1 hl1 hst
    rw [hb] at hb1
    cases hb1
    exact .updateSettings ks b b' r n pn s cr sb mv ttl rfl hl hd hini hk ha ⟨au, kpd, ⟨pn, hpd⟩, hauth, hsig⟩ hst
  | createRelayRound num relays e =>
    simp only [run, processCreateRelayRound, bind_ok, acct_ok, sysvar_ok, require_ok, exists_const] at h
    obtain ⟨f, -, cr, -, ks, -, kr, -, -, -, rent, -, -, hsig, s, hs, hsub, hcur, h⟩ := h
    exact (openRound_ops h hs (.inl ⟨_, _, rfl⟩)).1
  | createProposal r p d =>
    simp only [run, processCreateProposal, bind_ok, acct_ok, sysvar_ok, require_ok, exists_const, Prod.exists] at h
    obtain ⟨f, -, cr, -, kp, -, -, -, rent, -, -, hsig, k, n, ha, rfl, h⟩ := h
    have hc := findAddr_create ha
    split at h
    · simp only [bind_ok] at h
      obtain ⟨w1, h1, h2⟩ := h
      refine Ops.trans (Ops.one (.create f k (proposalSeeds r p d) n proposalLen ctx.program)
        (.createProposal f k n r p d rfl ha) ⟨hc, h1⟩) (Ops.pack h2 ?_)
      intro b b' hb hl hst
      rw [createPda_self hc h1] at hb
      cases hb
      exact .fresh k b' n r p d cr rfl ha hst
    · cases h; exact .refl _
  | writeProposal off bs =>
    obtain ⟨k, b, b', hkp, hb, hg, hb', hor, rfl⟩ := writeProposal_ok h
    rcases hor with rfl | ⟨hw, ho⟩
    · rw [setDataRaw_self hb]; exact .refl _
    · refine Ops.one (.write k b b') (.data k b b' off bs rfl hg hb' hkp) ⟨hb, ?_, ho, hw, rfl⟩
      simp only [writeProposalData, bind_ok, require_ok, exists_const, Except.ok.injEq] at hb'
      obtain ⟨-, h2, rfl⟩ := hb'
      simp; omega
  | finalizeProposal =>
    simp only [run, processFinalizeProposal, bind_ok, acct_ok, require_ok, exists_const, unpackUnchecked_ok,
      checkProposal_ok] at h
    obtain ⟨f, -, kp, hkp, ks, -, kr, -, -, -, s, hs, p, ⟨b, r, hb, hl, hd⟩, ⟨n, pn, hk, ha⟩, hini, rr, hrr, w1, h1, h2⟩ := h
    refine Ops.trans (Ops.pack h1 ?_) (Ops.one (.sys f kp _) (.sys f kp _ rfl) h2)
    intro b1 b' hb1 hl1 hst
    rw [hb] at hb1
    cases hb1
    obtain ⟨hr, hri, m, hkm, hra⟩ := loadRelayRound_ok.1 hrr
    exact .final kp kr b b' r p n pn s rr rfl hl hd hini hk ha hr hri ⟨m, hra⟩ hst hkp
  | voteForProposal x =>
    simp only [run, processVote, bind_ok, acct_ok, require_ok, exists_const, unpack_ok, orErr_ok,
      checkProposal_ok] at h
    obtain ⟨v, -, kp, hkp, kr, -, hsig, hx, p, ⟨b, r, hb, hl, hd, hini⟩, ⟨n, pn, hk, ha⟩, rr, hrr, j, hj, old, hold, h⟩ := h
    obtain ⟨hr, hri, m, hkm, hra⟩ := loadRelayRound_ok.1 hrr
    split at h
    · rename_i e
      subst e
      simp only [bind_ok] at h
      obtain ⟨w1, h1, h2⟩ := h
      refine Ops.trans (Ops.pack h1 ?_) (Ops.one (.move kp v relayReparation) (.pay kp v x rfl hkp) h2)
      intro b1 b' hb1 hl1 hst
      rw [hb] at hb1
      cases hb1
      exact .vote kp kr v b b' r p n pn j x rr rfl hx hl hd hini hk ha hr hri ⟨m, hra⟩ hj hsig hold hst hkp
    · cases h; exact .refl _
  | executeProposal =>
    simp only [run, processExecute, bind_ok, acct_ok, sysvar_ok, exists_const, unpack_ok,
      checkProposal_ok] at h
    obtain ⟨f, -, ks, -, kp, hkp, kr, -, -, -, rent, -, -, s, hs, p, ⟨b, r, hb, hl, hd, hini⟩, ⟨n, pn, hk, ha⟩, h⟩ := h
    split at h
    · simp only [bind_ok] at h
      obtain ⟨w1, h1, h2⟩ := h
      obtain ⟨ho, hne, hlen, hx⟩ := openRound_ops (w0 := w) (i := .executeProposal) h1 hs (.inr (.inl rfl))
      refine Ops.trans ho (Ops.pack h2 ?_)
      intro b1 b' hb1 hl1 hst
      have hps : kp ≠ ks := by
        rintro rfl
        obtain ⟨⟨b2, r2, hb2, hl2, -⟩, -⟩ := loadSettings_ok.1 hs
        rw [hb] at hb2; cases hb2; rw [hl] at hl2; cases hl2
      have hpr : kp ≠ kr := by
        rintro rfl; rw [hb] at hlen; simp only [Data.len, hl] at hlen; cases hlen
      rw [(hx kp hps hpr).1, hb] at hb1
      cases hb1
      exact .exec kp b b' r p (.inl rfl) hl hd hini hst hkp
    · obtain ⟨b1, b', hb1, -, hst, -, rfl⟩ := pack_ok.1 h
      rw [hb] at hb1
      cases hb1
      rw [Stored_same hd hst, setDataRaw_self hb]; exact .refl _
  | executeProposalByAdmin =>
    simp only [run, processExecuteByAdmin, bind_ok, acct_ok, sysvar_ok, require_ok, exists_const, unpack_ok] at h
    obtain ⟨f, -, cr, -, ks, -, kp, hkp, kr, -, -, -, rent, -, -, hsig, s, hs, hsub, p, ⟨b, r, hb, hl, hd, hini⟩, w1, h1, h2⟩ := h
    obtain ⟨ho, hne, hlen, hx⟩ := openRound_ops (w0 := w) (i := .executeProposalByAdmin) h1 hs (.inr (.inr rfl))
    refine Ops.trans ho (Ops.pack h2 ?_)
    intro b1 b' hb1 hl1 hst
    have hps : kp ≠ ks := by
      rintro rfl
      obtain ⟨⟨b2, r2, hb2, hl2, -⟩, -⟩ := loadSettings_ok.1 hs
      rw [hb] at hb2; cases hb2; rw [hl] at hl2; cases hl2
    have hpr : kp ≠ kr := by
      rintro rfl; rw [hb] at hlen; simp only [Data.len, hl] at hlen; cases hlen
    rw [(hx kp hps hpr).1, hb] at hb1
    cases hb1
    exact .exec kp b b' r p (.inr rfl) hl hd hini hst hkp

end Verif.RL
