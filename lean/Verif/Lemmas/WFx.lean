import Verif.Lemmas.WRun
/-!
# Requests and votes on withdrawals: exact effects
-/
set_option linter.unusedSimpArgs false
namespace Verif.TP
open Codec Verif

variable {env : Env} {L : Pubkey → Prop} {ctx : Ctx} {w w' w0 : World} {k : Pubkey} {i : Instr}

theorem exact_new {E : Type} {ec : Codec E} {n : U8} {pn : Option U8} {au : Pubkey} {r v : U32} {pda : PDA} {e : E} {ep : I64}
    {m : Nat} {b b' : Bytes} {len : U32} (hlen : len = BitVec.ofNat 32 (ec.enc e).length) (hl : b.length = recLen)
    (hs : Stored (withdrawalC ec) (withdrawalRecord n pn au r v pda len e ep m) b b') :
    Exact ec (withdrawalRecord n pn au r v pda len e ep m) := by
  refine ⟨?_, rfl⟩
  have := hs.length
  rw [hs.eq] at this
  simp only [withdrawalC, enc_iso, enc_pair, List.length_append, withdrawalRecord, hl, recLen] at this
  show len.toNat = (ec.enc e).length
  rw [hlen]
  simp only [BitVec.toNat_ofNat]
  apply Nat.mod_eq_of_lt
  omega

/-- The last part of a request: nothing, or a new record with the reimbursements for all votes. -/
theorem open_fx {E : Type} {ec : Codec E} {f au : Pubkey} {rs : RL.Settings} {rr : RL.RelayRound} {pda : PDA}
    {len : U32} {e : E} {pn : Option U8} {tok : Bytes} {rec : Pubkey} {amt : U128} (hp : ctx.program = env.tpId)
    (hlen : len = BitVec.ofNat 32 (ec.enc e).length)
    (h : openWithdrawal env ctx ec f au k rs rr pda len e pn tok rec amt w = .ok w') :
    ∃ n, findAddr env (proposalSeeds rr.roundNumber pda (env.hash (ec.enc e))) ctx.program = .ok (k, n) ∧
    (((w.acc k).lamports ≠ 0 ∧ w' = w) ∨
     ((w.acc k).lamports = 0 ∧ (w.acc k).data.len = 0 ∧ (w.acc k).owner = env.systemId ∧
      WithdrawalAt env w' k (⟨true, .proposal n pn, au, rr.roundNumber, RL.requiredVotes rr.relays.length rs.minRequiredVotes, pda,
        ec.enc e, wmetaC.enc ⟨.new, 0#64, epochOf ctx.now⟩, List.replicate rr.relays.length Vote.none⟩) ⟨.new, 0#64, epochOf ctx.now⟩ ∧
      (w'.acc k).lamports = max 1 (env.rent recLen) + relayReparation * rr.relays.length ∧
      w'.logs = w.logs ++ [withdrawRequestLogC.enc ⟨k, tok, rec, amt, pda.eventTimestamp, pda.eventTransactionLt, pda.eventConfiguration,
          key.enc (env.hash (ec.enc e)), 0#64⟩])) := by
  obtain ⟨n, ha, hor⟩ := openWithdrawal_ok h
  refine ⟨n, ha, ?_⟩
  rcases hor with h | ⟨hl, w1, w2, l, h1, h2, rfl, h3⟩
  · exact .inl h
  right
  have hc := findAddr_create ha
  obtain ⟨-, hz, hsys, hne, -⟩ := createPda_ok hc h1
  have hself := createPda_self hc h1
  obtain ⟨b, b', hb, hbl, hst, hor, rfl⟩ := pack_ok.1 h2
  have hacc := sysTransfer_acc h3 k
  refine ⟨hl, hz, hsys, ?_, ?_, ?_⟩
  · have hx := exact_new hlen hbl hst
    have hw := wbytes_write hbl hst hx rfl ⟨n, pn, rfl⟩
    refine withdrawalAt_bytes.2 ⟨?_, b', ?_, hw⟩
    · rw [hacc]
      simp only [World.log, setDataRaw_acc, if_true, hself]
      exact hp
    · rw [hacc]
      simp only [World.log, setDataRaw_acc, if_true]
  · rw [hacc]
    simp only [World.log, setDataRaw_acc, if_true, hself, hne.symm, if_false, Nat.sub_zero]
  · obtain ⟨-, -, -, -, -, -, -, rfl⟩ := sysTransfer_ok.1 h3
    obtain ⟨-, -, -, -, -, -, -, -, -, -, -, rfl⟩ := createPda_ok hc h1
    rfl

/-- What an accepted request for an Everscale token establishes. -/
theorem everRequest_fx {pda : PDA} {t : EverAddress} {n y : Bytes} {d : U8} {r : Pubkey} {a : U128} {py : Bytes} {att : U64}
    (hp : ctx.program = env.tpId) (h : run env ctx noCpi (.withdrawMultiTokenEverRequest pda t n y d r a py att) w = .ok w') :
    ∃ f au kw ks kr rs rr pn w1 mk mn, ctx.accounts[0]? = some f ∧ ctx.accounts[1]? = some au ∧ ctx.accounts[2]? = some kw ∧
      ctx.accounts[3]? = some ks ∧ ctx.accounts[4]? = some kr ∧ ctx.isSigner au = true ∧ n.length ≤ maxNameLen ∧ y.length ≤ maxNameLen ∧
      loadRound env ctx ks kr w = .ok (rs, rr) ∧ requestMint env ctx py t = .ok (mk, mn) ∧
      openProxy env ctx py mk r f (ctx.accounts[5]?.getD 0) 8 att w = .ok (pn, w1) ∧
      ∃ nn, findAddr env (proposalSeeds rr.roundNumber pda (env.hash (wEverEventC.enc ⟨t, n, y, d, a, r, py⟩))) ctx.program = .ok (kw, nn) ∧
      (((w1.acc kw).lamports ≠ 0 ∧ w' = w1) ∨
       ((w1.acc kw).lamports = 0 ∧ (w1.acc kw).data.len = 0 ∧ (w1.acc kw).owner = env.systemId ∧
        WithdrawalAt env w' kw (⟨true, .proposal nn pn, au, rr.roundNumber, RL.requiredVotes rr.relays.length rs.minRequiredVotes, pda,
          wEverEventC.enc ⟨t, n, y, d, a, r, py⟩, wmetaC.enc ⟨.new, 0#64, epochOf ctx.now⟩, List.replicate rr.relays.length Vote.none⟩)
          ⟨.new, 0#64, epochOf ctx.now⟩ ∧
        (w'.acc kw).lamports = max 1 (env.rent recLen) + relayReparation * rr.relays.length ∧
        w'.logs = w1.logs ++ [withdrawRequestLogC.enc ⟨kw, t.show, r, a, pda.eventTimestamp, pda.eventTransactionLt,
          pda.eventConfiguration, key.enc (env.hash (wEverEventC.enc ⟨t, n, y, d, a, r, py⟩)), 0#64⟩])) := by
  simp only [run, processEverRequest, bind_ok, acct_ok, sysvar_ok, require_ok, exists_const, ex_unit, Prod.exists] at h
  obtain ⟨f, hf, au, hau, kw, hkw, ks, hks, kr, hkr, sy, hsy, rent, -, -, clock, -, -, hsig, hn, hy, rs, rr, hrr, mk, mn, hmk, pn, w1, h1, h2⟩ := h
  refine ⟨f, au, kw, ks, kr, rs, rr, pn, w1, mk, mn, hf, hau, hkw, hks, hkr, hsig, hn, hy, hrr, hmk, ?_, open_fx hp (Props.C45_lenField_wEver _) h2⟩
  rw [hsy]; exact h1

/-- What an accepted request for a Solana token establishes. -/
theorem solRequest_fx {pda : PDA} {r : Pubkey} {a : U128} {py : Bytes} {att : U64}
    (hp : ctx.program = env.tpId) (h : run env ctx noCpi (.withdrawMultiTokenSolRequest pda r a py att) w = .ok w') :
    ∃ f au kw kt ks kr t rs rr pn w1, ctx.accounts[0]? = some f ∧ ctx.accounts[1]? = some au ∧ ctx.accounts[2]? = some kw ∧
      ctx.accounts[3]? = some kt ∧ ctx.accounts[4]? = some ks ∧ ctx.accounts[5]? = some kr ∧ ctx.isSigner au = true ∧
      loadSol env ctx kt w = .ok t ∧ loadRound env ctx ks kr w = .ok (rs, rr) ∧
      openProxy env ctx py t.mint r f (ctx.accounts[6]?.getD 0) 9 att w = .ok (pn, w1) ∧
      ∃ nn, findAddr env (proposalSeeds rr.roundNumber pda (env.hash (wSolEventC.enc ⟨t.mint, a, r, py⟩))) ctx.program = .ok (kw, nn) ∧
      (((w1.acc kw).lamports ≠ 0 ∧ w' = w1) ∨
       ((w1.acc kw).lamports = 0 ∧ (w1.acc kw).data.len = 0 ∧ (w1.acc kw).owner = env.systemId ∧
        WithdrawalAt env w' kw (⟨true, .proposal nn pn, au, rr.roundNumber, RL.requiredVotes rr.relays.length rs.minRequiredVotes, pda,
          wSolEventC.enc ⟨t.mint, a, r, py⟩, wmetaC.enc ⟨.new, 0#64, epochOf ctx.now⟩, List.replicate rr.relays.length Vote.none⟩)
          ⟨.new, 0#64, epochOf ctx.now⟩ ∧
        (w'.acc kw).lamports = max 1 (env.rent recLen) + relayReparation * rr.relays.length ∧
        w'.logs = w1.logs ++ [withdrawRequestLogC.enc ⟨kw, env.keyString t.mint, r, a, pda.eventTimestamp, pda.eventTransactionLt,
          pda.eventConfiguration, key.enc (env.hash (wSolEventC.enc ⟨t.mint, a, r, py⟩)), 0#64⟩])) := by
  simp only [run, processSolRequest, bind_ok, acct_ok, sysvar_ok, require_ok, exists_const, ex_unit, Prod.exists] at h
  obtain ⟨f, hf, au, hau, kw, hkw, kt, hkt, ks, hks, kr, hkr, sy, hsy, rent, -, -, clock, -, -, hsig, t, ht, rs, rr, hrr, pn, w1, h1, h2⟩ := h
  refine ⟨f, au, kw, kt, ks, kr, t, rs, rr, pn, w1, hf, hau, hkw, hkt, hks, hkr, hsig, ht, hrr, ?_, open_fx hp (Props.C45_lenField_wSol _) h2⟩
  rw [hsy]; exact h1

/-- A vote: ignored, or it fills an empty slot and is paid for. -/
theorem vote_fx {v : Vote} (h : run env ctx noCpi (.voteForWithdrawRequest v) w = .ok w') :
    ∃ voter kp kr p rr j old, ctx.accounts[0]? = some voter ∧ ctx.accounts[1]? = some kp ∧ ctx.accounts[2]? = some kr ∧
      ctx.isSigner voter = true ∧ v ≠ .none ∧ (∃ b r, (w.acc kp).data = .raw b ∧ GenericProposal.codec.dec b = some (p, r)) ∧
      (∃ n pn, p.accountKind = .proposal n pn) ∧ IsAddr env ctx.program (proposalSeeds p.roundNumber p.pda (env.hash p.event)) kp ∧
      Holds RL.relayRoundC RL.relayRoundLen (w.acc kr) rr ∧ rr.isInitialized = true ∧
      IsAddr env env.rlId (relayRoundSeeds p.roundNumber) kr ∧ rr.relays.findIdx? (fun k => k == voter) = some j ∧
      rr.relays[j]? = some voter ∧ p.signers[j]? = some old ∧
      ((old ≠ .none ∧ w' = w) ∨ (old = .none ∧ (w.acc kp).owner = ctx.program ∧
        (∃ b r, (w'.acc kp).data = .raw b ∧ GenericProposal.codec.dec b = some ({ p with signers := p.signers.set j v }, r)) ∧
        w'.logs = w.logs ∧
        ∀ x, (w'.acc x).owner = (w.acc x).owner ∧ (x ≠ kp → (w'.acc x).data = (w.acc x).data) ∧
          (w'.acc x).lamports = (w.acc x).lamports - (if x = kp then 20000 else 0) + (if x = voter then 20000 else 0) ∧
          (x = kp → 20000 ≤ (w.acc x).lamports))) := by
  simp only [run, processVote, bind_ok, acct_ok, require_ok, exists_const, ex_unit, unpack_holds, orErr_ok, intoRelayRound_some,
    validateRelayRound, validatePda_ok, loadGeneric_ok] at h
  obtain ⟨vk, h0, kp, h1, kr, h2, hsig, hx, p, ⟨⟨b, r, hb, hdec⟩, n, pn, hk, ha⟩, rr, ⟨hr, hri⟩, m, hm, hra, j, hj, old, hold, h⟩ := h
  obtain ⟨hlt, he, -⟩ := List.findIdx?_eq_some_iff_getElem.1 hj
  refine ⟨vk, kp, kr, p, rr, j, old, h0, h1, h2, hsig, hx, ⟨b, r, hb, hdec⟩, ⟨n, pn, hk⟩, ⟨n, ha⟩, hr, hri, ⟨m, hra⟩, hj, ?_, hold, ?_⟩
  · rw [List.getElem?_eq_getElem hlt]; simpa using he
  · split at h
    · rename_i e
      simp only [bind_ok] at h
      obtain ⟨w1, h1, h2⟩ := h
      obtain ⟨hle, -, how, -, hlog, hacc⟩ := moveLamports_ok h2
      obtain ⟨b1, b', hb1, hst, hor, rfl⟩ := packRaw_ok.1 h1
      have how : (w.acc kp).owner = ctx.program := by
        rcases how with h | h
        · cases h
        · simpa using h
      refine .inr ⟨e, how, ⟨b', _, ?_, hst.dec⟩, hlog, ?_⟩
      · rw [hacc kp]; simp
      · intro x
        rw [hacc x]
        refine ⟨?_, fun hx => ?_, ?_, ?_⟩
        · simp only [setDataRaw_acc]; split <;> rename_i e <;> simp [e]
        · simp [hx]
        · simp only [relayReparation, setDataRaw_acc]
          by_cases e : x = kp
          · subst e; simp
          · simp [e]
        · rintro rfl; simpa [relayReparation] using hle
    · rename_i e
      cases h; exact .inl ⟨e, rfl⟩

/-- Only votes and closing take lamports from a withdrawal. -/
theorem w_lamports {p : GenericProposal} {md : WMeta} (hd : env.Distinct) (hp : ctx.program = env.tpId)
    (h : run env ctx noCpi i w = .ok w') (hv : ∀ v, i ≠ .voteForWithdrawRequest v) (hc : i ≠ .closeWithdrawal)
    (h0 : WithdrawalAt env w k p md) : (w.acc k).lamports ≤ (w'.acc k).lamports := by
  obtain ⟨ho0, ⟨b0, r0, hb0, hl0, hdec0⟩, hini0, ⟨nk, npn, hk0⟩, hm0⟩ := h0
  obtain ⟨q1, hq1⟩ := header_genericProposal hdec0
  obtain ⟨-, b, -, hl⟩ := (run_ops h).track (k := k) (P := fun _ l => (w.acc k).lamports ≤ l)
    (by rw [hp]; exact hd.tpSys) (by rw [hp]; exact hd.tpSpl) (fun _ _ _ h h' => Nat.le_trans h h')
    (fun x n b l l' hW hP hle => by
      cases hW with
      | votePay _ _ x hi => exact (hv _ hi).elim
      | multiPay _ _ n hi hu ha hm =>
        obtain ⟨v, ⟨b, r, hb, -, hdv⟩, -, n, hk, -⟩ := loadMultiVault_ok.1 hm
        obtain ⟨q2, hq2⟩ := header_multiVault hdv
        rw [hb0] at hb
        cases hb
        rw [hq1, hk0, hk] at hq2
        simp at hq2
      | closePay _ a n hi hk =>
        rcases hk with ⟨b, r, d, m, hb, hdd, hkd, -⟩ | ⟨hq, -⟩
        · obtain ⟨q2, hq2⟩ := header_genericDeposit hdd
          rw [hb0] at hb
          cases hb
          rw [hq1, hk0, hkd] at hq2
          simp at hq2
        · exact (hc hq).elim)
    (fun hW => by
      cases hW with
      | closeDeposit _ sd d b r hi ha hb hdd n hk hsig =>
        obtain ⟨q2, hq2⟩ := header_genericDeposit hdd
        rw [hb0] at hb
        cases hb
        rw [hq1, hk0, hk] at hq2
        simp at hq2
      | closeWithdrawal _ q md' hi hq hm hs => exact hc hi)
    (fun _ _ _ _ _ h => h) (by rw [hp]; exact ho0) ⟨b0, hb0, Nat.le_refl _⟩
  exact hl

end Verif.TP
