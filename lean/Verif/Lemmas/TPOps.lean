import Verif.Lemmas.TPWhy
import Verif.Spec.Trace
/-!
# Every token proxy instruction is a sequence of permitted operations
-/
set_option linter.unusedSimpArgs false

namespace Verif.TP
open Codec Verif

variable {env : Env} {ctx : Ctx} {w w' w0 : World}

theorem ex_unit {p : Unit → Prop} : (∃ u, p u) ↔ p () := ⟨fun ⟨_, h⟩ => h, fun h => ⟨_, h⟩⟩

theorem ops_init {g m wm : Pubkey} (h : processInitialize env ctx g m wm w = .ok w') :
    Ops env ctx (Why env ctx w (.init g m wm)) w w' := by
  simp only [processInitialize, bind_ok, acct_ok, sysvar_ok, require_ok, exists_const, ex_unit, Prod.exists, validateInitializer_ok,
    deriveAt_ok] at h
  obtain ⟨f, -, ini, -, ks, -, km, -, kpd, -, -, -, rent, -, -, hsig, pd, pn, hpd, rfl, hauth, sn, hsn, w1, h1, w2, h2, mn, hmn, w3, h3, h4⟩ := h
  obtain ⟨o1, k1, e1, z1⟩ := create_step (W := Why env ctx w (.init g m wm)) hsn h1 (.create _ _ _ _ _ _ .settings hsn)
  obtain ⟨o3, k3, e3, z3⟩ := create_step (W := Why env ctx w (.init g m wm)) hmn h3 (.create _ _ _ _ _ _ .multiVault hmn)
  refine o1.trans (Ops.trans ?_ (o3.trans ?_))
  · exact pack_zeros h2 z1 (fun b' hs => .new ks b' (.settings g m wm sn pn hsn ⟨ini, pd, ⟨pn, hpd⟩, hauth, hsig⟩ hs))
  · exact pack_zeros h4 z3 (fun b' hs => .new km b' (.multiVault g m wm mn hmn hs))

theorem ops_depositEver {sd : U128} {a : U64} {r : EverAddress} {v : U64} {e : Pubkey} {p : Bytes}
    (h : processDepositEver env ctx sd a r v e p w = .ok w') :
    Ops env ctx (Why env ctx w (.depositMultiTokenEver sd a r v e p)) w w' := by
  simp only [processDepositEver, bind_ok, acct_ok, sysvar_ok, require_ok, exists_const, ex_unit, deriveAt_ok, mintOf_ok,
    validatePda_ok, orErr_ok, checkedAdd_some, checkedSub_some] at h
  obtain ⟨f, -, cr, -, ct, -, dp, -, mi, -, mv, -, kt, hkt, ks, -, -, -, -, -, rent, -, -, hsig, ss, hss, t, ht, hem, hmint, m, hm, hmv,
    w1, h1, dn, hdn, w2, h2, fee, hfee, sup, hsup, pu, hpu, tr, htr, w3, h3, w4, h4, h5⟩ := h
  obtain ⟨o1, k1⟩ := step_keep (W := Why env ctx w (.depositMultiTokenEver sd a r v e p)) (.burn ctx.signs ct mi cr a) trivial
    (.burn ct mi cr a sd r v e p rfl) h1
  obtain ⟨o2, k2, e2, z2⟩ := create_step (W := Why env ctx w (.depositMultiTokenEver sd a r v e p)) hdn h2
    (.create _ _ _ _ _ _ (.deposit sd) hdn)
  have ht1 := loadToken_keep (loadEver_token ht) k1
  have hne : kt ≠ dp := holds_ne (loadToken_ok.1 ht1).1 e2
  have ht3 : loadToken env ctx kt w3 = .ok t.ts := loadToken_acc (loadToken_keep ht1 k2) (by rw [pack_other h3 hne]; rfl)
  have p3 := pack_zeros (env := env) (W := Why env ctx w (.depositMultiTokenEver sd a r v e p)) h3 z2
    (fun b' hs => .new dp b' (.depositEver sd a r v e p dn cr _ hdn hsig hs))
  refine o1.trans (o2.trans ((log_step _).trans (p3.trans (Ops.trans ?_ (Ops.one (.sys f mv v.toNat) (.sys ..) h5)))))
  · exact put_token ht3 h4 (.depositEver sd a r v e p fee sup hfee hsup hem) (.inl (loadEver_token ht)) hkt

theorem ops_deploySol {sd : U128} {n y : Bytes} {a : U64} {r : EverAddress} {v : U64} {e : Pubkey} {p : Bytes}
    {f vault mint kt : Pubkey} (hn : n.length ≤ maxNameLen) (hy : y.length ≤ maxNameLen) (h7 : ctx.accounts[7]? = some kt)
    (hl : (w0.acc kt).lamports = 0) (h : deploySol env ctx f vault mint kt n y w = .ok w') :
    Ops env ctx (Why env ctx w0 (.depositMultiTokenSol sd n y a r v e p)) w w' ∧ (w.acc kt).data.len = 0 := by
  simp only [deploySol, bind_ok, deriveAt_ok] at h
  obtain ⟨vn, hvn, w1, h1, w2, h2, tn, htn, w3, h3, h4⟩ := h
  obtain ⟨o1, k1, e1, z1⟩ := create_step (W := Why env ctx w0 (.depositMultiTokenSol sd n y a r v e p)) hvn h1
    (.create _ _ _ _ _ _ (.vault mint) hvn)
  obtain ⟨o3, k3, e3, z3⟩ := create_step (W := Why env ctx w0 (.depositMultiTokenSol sd n y a r v e p)) htn h3
    (.create _ _ _ _ _ _ (.tokenSol mint) htn)
  have o2 := o1.trans (Ops.one (.initAcc vault mint vault) (.initVault vault mint ⟨vn, hvn⟩) h2)
  exact ⟨o2.trans (o3.trans ((log_step _).trans (pack_zeros h4 z3 (fun b' hs => .new kt b'
      (.tokenSol sd n y a r v e p mint vault tn vn hn hy htn hvn hs h7 hl))))), Ops.len_back o2 kt e3⟩

theorem ops_depositSol {sd : U128} {n y : Bytes} {a : U64} {r : EverAddress} {v : U64} {e : Pubkey} {p : Bytes}
    (h : processDepositSol env ctx sd n y a r v e p w = .ok w') :
    Ops env ctx (Why env ctx w (.depositMultiTokenSol sd n y a r v e p)) w w' := by
  simp only [processDepositSol, bind_ok, acct_ok, sysvar_ok, require_ok, exists_const, ex_unit, deriveAt_ok, mintOf_ok, tokenOf_ok,
    orErr_ok, checkedAdd_some, checkedSub_some] at h
  obtain ⟨f, -, cr, -, ct, -, kv, -, dp, -, mi, -, mv, -, kt, h7, ks, -, -, -, -, -, rent, -, -, hsig, ss, hss, hn, hy, w0, h0, t, ht, hem,
    hmi, m, hm, hvo, hmv, tv, htv, tot, htot, hlim, w1, h1, w1', h1', dn, hdn, w2, h2, fee, hfee, sup, hsup, pu, hpu, w3, h3, h4⟩ := h
  have o0 : Ops env ctx (Why env ctx w (.depositMultiTokenSol sd n y a r v e p)) w w0 ∧
      (loadToken env ctx kt w = .ok t.ts ∨ (w.acc kt).data.len = 0) := by
    unfold deployOnce at h0
    split at h0
    · rename_i hl0
      obtain ⟨o, hl⟩ := ops_deploySol hn hy h7 hl0 h0
      exact ⟨o, .inr hl⟩
    · cases h0; exact ⟨.refl _, .inl (loadSol_token ht)⟩
  obtain ⟨o0, h0t⟩ := o0
  obtain ⟨o1, k1⟩ := step_keep (W := Why env ctx w (.depositMultiTokenSol sd n y a r v e p)) (.xfer ctx.signs ct kv cr a) trivial
    (.xfer ..) h1
  obtain ⟨o1', k1'⟩ := step_keep (W := Why env ctx w (.depositMultiTokenSol sd n y a r v e p)) (.sys f mv v.toNat) trivial
    (.sys ..) h1'
  obtain ⟨o2, k2, e2, z2⟩ := create_step (W := Why env ctx w (.depositMultiTokenSol sd n y a r v e p)) hdn h2
    (.create _ _ _ _ _ _ (.deposit sd) hdn)
  have ht1 := loadToken_keep (loadSol_token ht) (k1.trans k1')
  have hne : kt ≠ dp := holds_ne (loadToken_ok.1 ht1).1 e2
  have ht3 : loadToken env ctx kt w3 = .ok t.ts := loadToken_acc (loadToken_keep ht1 k2) (by rw [pack_other h3 hne]; rfl)
  have p3 := pack_zeros (env := env) (W := Why env ctx w (.depositMultiTokenSol sd n y a r v e p)) h3 z2
    (fun b' hs => .new dp b' (.depositSol sd _ dn cr _ (.inl ⟨_, _, _, _, _, _, _, rfl⟩) hdn hsig hs))
  refine o0.trans (o1.trans (o1'.trans (o2.trans ((log_step _).trans (p3.trans ?_)))))
  · exact put_token ht3 h4 (.depositSol sd n y a r v e p fee sup hfee hsup hem) h0t h7

theorem ops_openProxy {i : Instr} {payload : Bytes} {expected r f sys : Pubkey} {j : Nat} {att : U64} {pn : Option U8}
    (h : openProxy env ctx payload expected r f sys j att w = .ok (pn, w')) : Ops env ctx (Why env ctx w0 i) w w' := by
  rcases openProxy_ok h with ⟨-, -, rfl⟩ | ⟨-, p, n, w1, -, -, ha, -, h1, h2⟩
  · exact .refl _
  · refine Ops.trans ?_ (Ops.one (.sys f p att.toNat) (.sys ..) h2)
    rcases h1 with ⟨-, w2, h3, h4⟩ | ⟨-, rfl⟩
    · exact Ops.trans (Ops.one (.createFunded ctx.program (proxySeeds expected r ++ [[n]]) f p 165 env.splId)
        (.proxy f p expected r n ha) ⟨findAddr_create ha, h3⟩) (Ops.one (.initAcc p expected p) (.initProxy p expected r ⟨n, ha⟩) h4)
    · exact .refl _

theorem ops_openWithdrawal {E : Type} {ec : Codec E} {f au k : Pubkey} {rs : RL.Settings} {rr : RL.RelayRound} {pda : PDA}
    {len : U32} {e : E} {pn : Option U8} {tok : Bytes} {rec : Pubkey} {amt : U128} {i : Instr}
    (h : openWithdrawal env ctx ec f au k rs rr pda len e pn tok rec amt w = .ok w')
    (hN : ∀ n b', findAddr env (proposalSeeds rr.roundNumber pda (env.hash (ec.enc e))) ctx.program = .ok (k, n) →
      Stored (withdrawalC ec) (withdrawalRecord n pn au rr.roundNumber (RL.requiredVotes rr.relays.length rs.minRequiredVotes)
          pda len e (epochOf ctx.now) rr.relays.length) (zeros recLen) b' → New env ctx w0 k b' i) :
    Ops env ctx (Why env ctx w0 i) w w' := by
  obtain ⟨n, ha, h⟩ := openWithdrawal_ok h
  rcases h with ⟨-, rfl⟩ | ⟨-, w1, w2, l, h1, h2, -, h3⟩
  · exact .refl _
  · obtain ⟨o1, k1, e1, z1⟩ := create_step (W := Why env ctx w0 i) ha h1 (.create _ _ _ _ _ _ (.withdrawal _ _ _) ha)
    refine o1.trans (Ops.trans ?_ ((log_step l).trans (Ops.one (.sys ..) (.sys ..) h3)))
    exact pack_zeros h2 z1 (fun b' hs => .new k b' (hN n b' ha hs))

theorem ops_everRequest {pda : PDA} {t : EverAddress} {n y : Bytes} {d : U8} {r : Pubkey} {a : U128} {p : Bytes} {att : U64}
    (h : processEverRequest env ctx pda t n y d r a p att w = .ok w') :
    Ops env ctx (Why env ctx w (.withdrawMultiTokenEverRequest pda t n y d r a p att)) w w' := by
  simp only [processEverRequest, bind_ok, acct_ok, sysvar_ok, require_ok, exists_const, ex_unit, Prod.exists] at h
  obtain ⟨f, -, au, -, kw, hkw, krs, -, krr, -, sy, -, rent, -, -, clock, -, -, hsig, hn, hy, rs, rr, hrr, mk, mn, hmk, pn, w1, h1, h2⟩ := h
  refine (ops_openProxy h1).trans (ops_openWithdrawal h2 ?_)
  intro nn b' ha hs
  exact .ever pda t n y d r a p att nn pn au rs rr ⟨krs, krr, hrr⟩ ha hsig hs hkw

theorem ops_solRequest {pda : PDA} {r : Pubkey} {a : U128} {p : Bytes} {att : U64}
    (h : processSolRequest env ctx pda r a p att w = .ok w') :
    Ops env ctx (Why env ctx w (.withdrawMultiTokenSolRequest pda r a p att)) w w' := by
  simp only [processSolRequest, bind_ok, acct_ok, sysvar_ok, require_ok, exists_const, ex_unit, Prod.exists] at h
  obtain ⟨f, -, au, -, kw, hkw, kt, -, krs, -, krr, -, sy, -, rent, -, -, clock, -, -, hsig, t, ht, rs, rr, hrr, pn, w1, h1, h2⟩ := h
  refine (ops_openProxy h1).trans (ops_openWithdrawal h2 ?_)
  intro nn b' ha hs
  exact .sol pda r a p att nn pn au t.mint rs rr ⟨krs, krr, hrr⟩ ha hsig hs hkw

theorem ops_vote {x : Vote} (h : processVote env ctx x w = .ok w') :
    Ops env ctx (Why env ctx w (.voteForWithdrawRequest x)) w w' := by
  simp only [processVote, bind_ok, acct_ok, require_ok, exists_const, ex_unit, unpack_holds, orErr_ok, intoRelayRound_some,
    validateRelayRound, validatePda_ok, loadGeneric_ok] at h
  obtain ⟨v, -, k, hpk, kr, -, hsig, hx, p, ⟨⟨b, r, hb, hd⟩, n, pn, hk, ha⟩, rr, ⟨hr, hri⟩, m, hm, hra, j, hj, old, hold, h⟩ := h
  split at h
  · rename_i e
    subst e
    simp only [bind_ok] at h
    obtain ⟨w1, h1, h2⟩ := h
    refine Ops.trans ?_ (Ops.one (.move k v relayReparation)
      (.votePay k v x rfl ⟨p, loadGeneric_ok.2 ⟨⟨b, r, hb, hd⟩, n, pn, hk, ha⟩⟩ (mem_place hpk)) h2)
    obtain ⟨b1, b', hb1, hst, hor, rfl⟩ := packRaw_ok.1 h1
    rw [hb] at hb1
    cases hb1
    rcases hor with rfl | ⟨hw, ho⟩
    · rw [setDataRaw_self hb]; exact .refl _
    · exact Ops.one (.write k b b') (.vote k kr v b b' r p j x rr n pn rfl hb hx hd hk ha hr hri ⟨m, hra⟩ hj hsig hold hst (mem_place hpk))
        ⟨hb, hst.length, ho, hw, rfl⟩
  · cases h; exact .refl _

theorem ops_deployEver {kw f mint kt : Pubkey} {r : Withdrawal WEverEvent} (hr : loadWithdrawal wEverEventC env ctx kw w0 = .ok r)
    (hk3 : ctx.accounts[3]? = some kt) (hl : (w0.acc kt).lamports = 0) (h : deployEver env ctx f mint kt r.event w = .ok w') :
    Ops env ctx (Why env ctx w0 .withdrawMultiTokenEver) w w' ∧ (w.acc kw = w0.acc kw → loadWithdrawal wEverEventC env ctx kw w' = .ok r) ∧
      (w.acc kt).data.len = 0 := by
  simp only [deployEver, bind_ok, deriveAt_ok] at h
  obtain ⟨mn, hmn, w1, h1, w2, h2, w3, h3, tn, htn, w4, h4, h5⟩ := h
  obtain ⟨ka, an, w3', ha, h3a, h3b⟩ := ataCreate_ok h3
  obtain ⟨o1, k1, e1, z1⟩ := create_step (W := Why env ctx w0 .withdrawMultiTokenEver) hmn h1
    (.create _ _ _ _ _ _ (.mint _) hmn)
  obtain ⟨o2, k2⟩ := step_keep (W := Why env ctx w0 .withdrawMultiTokenEver) (.initMint mint mint _) trivial (.initMint _ _ _ ⟨mn, hmn⟩) h2
  obtain ⟨o3, k3⟩ := step_keep (W := Why env ctx w0 .withdrawMultiTokenEver)
    (.createFunded env.ataId (ataSeeds env r.event.recipient mint ++ [[an]]) f ka 165 env.splId) trivial
    (.ata _ _ _ _ _ ha) ⟨findAddr_create ha, h3a⟩
  obtain ⟨o3', k3'⟩ := step_keep (W := Why env ctx w0 .withdrawMultiTokenEver) (.initAcc ka mint r.event.recipient) trivial
    (.initAta _ _ _ ⟨an, ha⟩) h3b
  obtain ⟨o4, k4, e4, z4⟩ := create_step (W := Why env ctx w0 .withdrawMultiTokenEver) htn h4
    (.create _ _ _ _ _ _ (.tokenEver _) htn)
  have o34 := o1.trans (o2.trans (o3.trans o3'))
  refine ⟨o34.trans (o4.trans ((log_step _).trans
    (pack_zeros h5 z4 (fun b' hs => .new kt b' (.tokenEver kw r mint tn mn hr htn hmn hs hk3 hl))))), ?_, Ops.len_back o34 kt e4⟩
  · intro he
    have hr1 := loadWithdrawal_keep (loadWithdrawal_acc hr he) (k1.trans (k2.trans (k3.trans k3')))
    have hne : kw ≠ kt := holds_ne (loadWithdrawal_ok.1 hr1).1 e4
    exact loadWithdrawal_acc (loadWithdrawal_keep hr1 k4) (by rw [pack_other h5 hne]; rfl)

theorem ops_mint {i : Instr} {mint dst : Pubkey} {ts : TokenSettings} {n : U64} {t : EverAddress}
    (h : makeEverTransfer env ctx mint dst ts n w = .ok w')
    (hi : i = .withdrawMultiTokenEver ∨ i = .approveWithdrawEver ∨ i = .withdrawEverFee n)
    (ha : IsAddr env ctx.program (mintSeeds env t) mint) :
    Ops env ctx (Why env ctx w0 i) w w' ∧ Keep w w' := by
  obtain ⟨m, t', d, tn, mn, p, hk, hak, hp, h⟩ := makeEverTransfer_ok h
  exact step_keep (.mintTo (signsAs ctx p) mint dst mint n) trivial (.mintTo p mint dst n t hi ha) h

theorem ops_pay {i : Instr} {vault dst : Pubkey} {ts : TokenSettings} {n : U64} {m : Pubkey}
    (h : makeSolTransfer env ctx vault dst ts n w = .ok w')
    (hi : i = .withdrawMultiTokenSol ∨ i = .approveWithdrawSol ∨ i = .withdrawSolFee n)
    (ha : IsAddr env ctx.program (vaultSeeds m) vault) :
    Ops env ctx (Why env ctx w0 i) w w' ∧ Keep w w' := by
  obtain ⟨m', v, tn, vn, p, hk, hak, hp, h⟩ := makeSolTransfer_ok h
  exact step_keep (.xfer (signsAs ctx p) vault dst vault n) trivial (.vaultPay p vault dst m n hi ha) h

theorem ops_payEver {kw mint rec kt : Pubkey} {r : Withdrawal WEverEvent} (hr : loadWithdrawal wEverEventC env ctx kw w = .ok r)
    (hr0 : loadWithdrawal wEverEventC env ctx kw w0 = .ok r)
    (ht0 : (∀ x, loadToken env ctx kt w = .ok x → loadToken env ctx kt w0 = .ok x) ∨ (w0.acc kt).data.len = 0) (h3' : ctx.accounts[3]? = some kt) (hkw : ctx.accounts[0]? = some kw)
    (h : payEver env ctx kw mint rec kt r w = .ok w') : Ops env ctx (Why env ctx w0 .withdrawMultiTokenEver) w w' := by
  simp only [payEver, bind_ok, require_ok, exists_const, ex_unit, validatePda_ok, mintOf_ok] at h
  obtain ⟨t, ht, hem, hmint, htok, m, hm, h⟩ := h
  split at h
  · rename_i hq
    simp only [bind_ok, orErr_ok, checkedAdd_some, checkedSub_some, Prod.exists] at h
    obtain ⟨n, hn, fee, hfee, sup, hsup, tr, htr, daily, hdaily, w1, s, h1, w2, h2, h3⟩ := h
    have hfi : (resetEpoch t.ts (epochOf ctx.now)).feeWithdrawalInfo = t.ts.feeWithdrawalInfo ∧
        (resetEpoch t.ts (epochOf ctx.now)).feeSupply = t.ts.feeSupply := by unfold resetEpoch; split <;> exact ⟨rfl, rfl⟩
    rw [hfi.1] at hfee
    rw [hfi.2] at hsup
    have key : Ops env ctx (Why env ctx w0 .withdrawMultiTokenEver) w w1 ∧ Keep w w1 ∧
        (s = .waitingForApprove ∨ s = paidStatus r.event.payload) := by
      unfold settleEver at h1
      split at h1
      · simp only [Except.ok.injEq, Prod.mk.injEq] at h1
        obtain ⟨rfl, rfl⟩ := h1
        exact ⟨.refl _, .refl _, .inl rfl⟩
      · simp only [bind_ok, exists_const, ex_unit, Except.ok.injEq, Prod.mk.injEq] at h1
        obtain ⟨-, w3, hmm, rfl, rfl⟩ := h1
        obtain ⟨o, k⟩ := ops_mint (w0 := w0) hmm (.inl rfl) ⟨_, hmint⟩
        exact ⟨o, k, .inr rfl⟩
    obtain ⟨o1, k1, hs⟩ := key
    have ht1 := loadToken_keep (loadEver_token ht) k1
    have hr1 := loadWithdrawal_keep hr k1
    have hne := withdrawal_ne_token hr1 ht1
    have hr2 : loadWithdrawal wEverEventC env ctx kw w2 = .ok r := loadWithdrawal_acc hr1 (pack_other h2 hne)
    refine o1.trans (Ops.trans (put_token ht1 h2 ?_ (ht0.imp_left fun f => f _ (loadEver_token ht)) h3')
      ((log_step _).trans (put_ever (t := r) (loadWithdrawal_acc hr2 rfl) h3 ?_ hr0 (mem_place hkw))))
    · exact .withdraw _ (.inl rfl) n fee sup tr daily hfee hsup htr hdaily hem
    · exact .pay s hq.1 hq.2 hs
  · cases h; exact .refl _

theorem ops_withdrawEver (h : processWithdrawEver env ctx w = .ok w') :
    Ops env ctx (Why env ctx w .withdrawMultiTokenEver) w w' := by
  simp only [processWithdrawEver, bind_ok, acct_ok, sysvar_ok, exists_const, ex_unit] at h
  obtain ⟨kw, hkw, mi, -, rc, -, kt, h3, ks, -, -, -, -, -, rent, -, -, clock, -, -, ss, hss, r, hr, h⟩ := h
  split at h
  · rename_i hl0
    split at h
    · cases h; exact .refl _
    · simp only [bind_ok] at h
      obtain ⟨w1, h1, h2⟩ := h
      obtain ⟨o1, hr1, hl⟩ := ops_deployEver hr h3 hl0 h1
      exact o1.trans (ops_payEver (hr1 rfl) hr (.inr hl) h3 hkw h2)
  · exact ops_payEver hr hr (.inl fun _ h => h) h3 hkw h

theorem ops_payFromVault {i : Instr} {r : Withdrawal WSolEvent} {ts : TokenSettings} {pm vault rc m : Pubkey} {n : U64} {s : WStatus}
    (h : payFromVault env ctx r ts pm vault rc n w = .ok (w', s))
    (hi : i = .withdrawMultiTokenSol ∨ i = .approveWithdrawSol)
    (ha : IsAddr env ctx.program (vaultSeeds m) vault) :
    Ops env ctx (Why env ctx w0 i) w w' ∧ Keep w w' ∧ (s = .pending ∨ s = paidStatus r.event.payload) := by
  simp only [payFromVault, bind_ok, tokenOf_ok, exists_const, ex_unit] at h
  obtain ⟨-, v, hv, h⟩ := h
  split at h
  · simp only [Except.ok.injEq, Prod.mk.injEq] at h
    obtain ⟨rfl, rfl⟩ := h
    exact ⟨.refl _, .refl _, .inl rfl⟩
  · simp only [bind_ok, Except.ok.injEq, Prod.mk.injEq] at h
    obtain ⟨w1, h1, rfl, rfl⟩ := h
    obtain ⟨o, k⟩ := ops_pay (w0 := w0) h1 (hi.elim .inl (fun h => .inr (.inl h))) ha
    exact ⟨o, k, .inr rfl⟩

theorem ops_withdrawSol (h : processWithdrawSol env ctx w = .ok w') :
    Ops env ctx (Why env ctx w .withdrawMultiTokenSol) w w' := by
  simp only [processWithdrawSol, bind_ok, acct_ok, sysvar_ok, require_ok, exists_const, ex_unit, validatePda_ok] at h
  obtain ⟨kw, hkw, kv, -, rc, -, kt, hkt, mi, -, ks, -, -, -, clock, -, -, ss, hss, r, hr, t, ht, hem, hva, htm, h⟩ := h
  split at h
  · rename_i hq
    simp only [bind_ok, orErr_ok, checkedSub_some, Prod.exists] at h
    obtain ⟨fee, hfee, tr, htr, w1, s, h1, h2⟩ := h
    unfold settleSol at h1
    split at h1
    · rename_i hst
      simp only [bind_ok, orErr_ok, checkedAdd_some, Prod.exists, Except.ok.injEq, Prod.mk.injEq] at h1
      obtain ⟨daily, hdaily, sup, hsup, w2, s', h3, w3, h4, rfl, rfl⟩ := h1
      have hfi : (resetEpoch t.ts (epochOf ctx.now)).feeSupply = t.ts.feeSupply := by unfold resetEpoch; split <;> rfl
      rw [hfi] at hsup
      have key : Ops env ctx (Why env ctx w .withdrawMultiTokenSol) w w2 ∧ Keep w w2 ∧
          (s' = .waitingForApprove ∨ s' = .pending ∨ s' = paidStatus r.event.payload) := by
        unfold payIfAllowed at h3
        split at h3
        · simp only [Except.ok.injEq, Prod.mk.injEq] at h3
          obtain ⟨rfl, rfl⟩ := h3
          exact ⟨.refl _, .refl _, .inl rfl⟩
        · obtain ⟨o, k, hs⟩ := ops_payFromVault (w0 := w) h3 (.inl rfl) ⟨_, hva⟩
          exact ⟨o, k, .inr hs⟩
      obtain ⟨o1, k1, hs⟩ := key
      have ht1 := loadToken_keep (loadSol_token ht) k1
      have hr1 := loadWithdrawal_keep hr k1
      have hne := withdrawal_ne_token hr1 ht1
      have hr2 : loadWithdrawal wSolEventC env ctx kw w3 = .ok r := loadWithdrawal_acc hr1 (pack_other h4 hne)
      refine o1.trans (Ops.trans (put_token ht1 h4 ?_ (.inl (loadSol_token ht)) hkt)
        ((log_step _).trans (put_sol (t := r) (loadWithdrawal_acc hr2 rfl) h2 ?_ (fun _ => hr) (mem_place hkw))))
      · exact .withdraw _ (.inr rfl) _ fee sup tr daily hfee hsup htr hdaily hem
      · exact .pay _ hq hst hs
    · rename_i hst
      obtain ⟨o, k, hs⟩ := ops_payFromVault (w0 := w) h1 (.inl rfl) ⟨_, hva⟩
      have hr1 := loadWithdrawal_keep hr k
      refine o.trans ((log_step _).trans (put_sol (t := r) (loadWithdrawal_acc hr1 rfl) h2 ?_ (fun _ => hr) (mem_place hkw)))
      · exact .later s hq hst hs
    · simp only [Except.ok.injEq, Prod.mk.injEq] at h1
      obtain ⟨rfl, rfl⟩ := h1
      refine (log_step (statusLog kw r.md.status)).trans ?_
      obtain ⟨b, b', hb, hl, hst, -, rfl⟩ := pack_ok.1 h2
      obtain ⟨⟨b1, q, hb1, hl1, hd1⟩, -⟩ := loadWithdrawal_ok.1 hr
      have hb2 : (w.acc kw).data = .raw b := hb
      rw [hb1] at hb2
      cases hb2
      have : b' = b := Stored_same hd1 hst
      rw [this, setDataRaw_self hb]
      exact .refl _
  · cases h; exact .refl _

theorem ops_releaseDaily {i : Instr} {md : WMeta} {t : TokenSettings} {tr : U64} {kt : Pubkey}
    (hi : i = .approveWithdrawEver ∨ i = .approveWithdrawSol)
    (hu : RoleSigns env ctx w0 (·.withdrawalManager) ∨ UpgradeAuthoritySigns env ctx w0)
    (ht : loadToken env ctx kt w = .ok t) (ht0 : loadToken env ctx kt w0 = .ok t) (h4 : ctx.accounts[4]? = some kt) (h : releaseDaily ctx md t tr kt w = .ok w') :
    Ops env ctx (Why env ctx w0 i) w w' ∧ ∀ x, x ≠ kt → w'.acc x = w.acc x := by
  unfold releaseDaily at h
  split at h
  · simp only [bind_ok, orErr_ok, checkedSub_some] at h
    obtain ⟨daily, hd, h⟩ := h
    exact ⟨put_token ht h (.release i hi tr daily hd hu) (.inl ht0) (by rcases hi with rfl | rfl <;> exact h4), fun x hx => pack_other h hx⟩
  · cases h; exact ⟨.refl _, fun _ _ => rfl⟩

theorem ops_approveEver (h : processApproveEver env ctx w = .ok w') :
    Ops env ctx (Why env ctx w .approveWithdrawEver) w w' := by
  simp only [processApproveEver, bind_ok, acct_ok, sysvar_ok, require_ok, exists_const, ex_unit, validatePda_ok, mintOf_ok, orErr_ok,
    checkedSub_some, Prod.exists, loadSettingsNoEmergency_ok] at h
  obtain ⟨au, -, mi, -, kw, hkw, rc, -, kt, hkt, ks, -, -, -, clock, -, -, hsig, s, pn, ⟨hs, hse⟩, r, hr, hst, t, ht, hem, hmint, htok, hau, m,
    hm, n, hn, fee, hfee, tr, htr, hrc, w1, h1, w2, h2, h3⟩ := h
  have hu := role_signs (role := (·.withdrawalManager)) hs hau hsig
  obtain ⟨o1, k1⟩ := ops_mint (w0 := w) (i := .approveWithdrawEver) h1 (.inr (.inl rfl)) ⟨_, hmint⟩
  have ht1 := loadToken_keep (loadEver_token ht) k1
  have hr1 := loadWithdrawal_keep hr k1
  have hne := withdrawal_ne_token hr1 ht1
  obtain ⟨o2, k2⟩ := ops_releaseDaily (.inl rfl) hu ht1 (loadEver_token ht) hkt h2
  have hr2 : loadWithdrawal wEverEventC env ctx kw w2 = .ok r := loadWithdrawal_acc hr1 (k2 kw hne)
  exact o1.trans (o2.trans ((log_step _).trans (put_ever (t := r) (loadWithdrawal_acc hr2 rfl) h3 (.approve hst hu) hr (mem_place hkw))))

theorem ops_approveSol (h : processApproveSol env ctx w = .ok w') :
    Ops env ctx (Why env ctx w .approveWithdrawSol) w w' := by
  simp only [processApproveSol, bind_ok, acct_ok, sysvar_ok, require_ok, exists_const, ex_unit, validatePda_ok, orErr_ok,
    checkedSub_some, Prod.exists, loadSettingsNoEmergency_ok] at h
  obtain ⟨au, -, kv, -, kw, hkw, rc, -, kt, hkt, ks, -, -, -, clock, -, -, hsig, s, pn, ⟨hs, hse⟩, r, hr, hst, hau, t, ht, hem, hva, htok,
    fee, hfee, tr, htr, w1, st, h1, w2, h2, h3⟩ := h
  have hu := role_signs (role := (·.withdrawalManager)) hs hau hsig
  obtain ⟨o1, k1, hst'⟩ := ops_payFromVault (w0 := w) h1 (.inr rfl) ⟨_, hva⟩
  have ht1 := loadToken_keep (loadSol_token ht) k1
  have hr1 := loadWithdrawal_keep hr k1
  have hne := withdrawal_ne_token hr1 ht1
  obtain ⟨o2, k2⟩ := ops_releaseDaily (.inr rfl) hu ht1 (loadSol_token ht) hkt h2
  exact o1.trans (o2.trans (put_sol (t := r) (loadWithdrawal_acc hr1 (k2 kw hne)) h3 (.approve st hst hu hst') (fun _ => hr) (mem_place hkw)))

theorem ops_everFee {n : U64} (h : processWithdrawEverFee env ctx n w = .ok w') :
    Ops env ctx (Why env ctx w (.withdrawEverFee n)) w w' := by
  simp only [processWithdrawEverFee, bind_ok, acct_ok, require_ok, exists_const, ex_unit, validatePda_ok, orErr_ok,
    checkedSub_some, Prod.exists] at h
  obtain ⟨au, -, mi, -, rc, -, kt, hkt, ks, -, -, -, hsig, s, pn, hs, hau, t, ht, hmint, -, -, -, w1, h1, sup, hsup, h2⟩ := h
  have hu := role_signs (role := (·.manager)) hs hau hsig
  obtain ⟨o1, k1⟩ := ops_mint (w0 := w) (i := .withdrawEverFee n) h1 (.inr (.inr rfl)) ⟨_, hmint⟩
  exact o1.trans (put_token (loadToken_keep (loadEver_token ht) k1) h2 (.fee _ n sup (.inl rfl) hsup hu) (.inl (loadEver_token ht)) hkt)

theorem ops_solFee {n : U64} (h : processWithdrawSolFee env ctx n w = .ok w') :
    Ops env ctx (Why env ctx w (.withdrawSolFee n)) w w' := by
  simp only [processWithdrawSolFee, bind_ok, acct_ok, require_ok, exists_const, ex_unit, validatePda_ok, orErr_ok,
    checkedSub_some, Prod.exists, tokenOf_ok] at h
  obtain ⟨au, -, kv, -, kt, hkt, rc, -, ks, -, -, -, hsig, s, pn, hs, hau, t, ht, hva, -, -, -, v, hv, -, w1, h1, sup, hsup, h2⟩ := h
  have hu := role_signs (role := (·.manager)) hs hau hsig
  obtain ⟨o1, k1⟩ := ops_pay (w0 := w) (i := .withdrawSolFee n) h1 (.inr (.inr rfl)) ⟨_, hva⟩
  exact o1.trans (put_token (loadToken_keep (loadSol_token ht) k1) h2 (.fee _ n sup (.inr rfl) hsup hu) (.inl (loadSol_token ht)) hkt)

theorem ops_bounty {n : U64} (h : processChangeBounty env ctx n w = .ok w') :
    Ops env ctx (Why env ctx w (.changeBountyForWithdrawSol n)) w w' := by
  simp only [processChangeBounty, bind_ok, acct_ok, require_ok, exists_const, ex_unit] at h
  obtain ⟨au, -, kw, hkw, hsig, r, hr, hst, hau, h⟩ := h
  refine put_sol hr h (.bounty n hst ?_) (fun _ => hr) (mem_place hkw)
  rcases hau with e | e
  · exact .inl (by rw [e]; exact hsig)
  · exact .inr (by rw [e]; exact hsig)

theorem ops_cancel {sd : U128} {r : EverAddress} {v : U64} {e : Pubkey} {p : Bytes}
    (h : processCancel env ctx sd r v e p w = .ok w') : Ops env ctx (Why env ctx w (.cancelWithdrawSol sd r v e p)) w w' := by
  simp only [processCancel, bind_ok, acct_ok, sysvar_ok, require_ok, exists_const, ex_unit, deriveAt_ok, mintOf_ok, orErr_ok] at h
  obtain ⟨f, -, au, -, mi, -, kw, hkw, dp, -, ks, -, kt, -, -, -, rent, -, mv, -, -, hsig, ss, hss, x, hx, hau, hst, t, ht, hem, hmv, w1, h1, hmi,
    m, hm, htm, dn, hdn, w2, h2, fee, hfee, hfl, s', hs', tr, htr, w3, h3, h4⟩ := h
  obtain ⟨o1, k1⟩ := step_keep (W := Why env ctx w (.cancelWithdrawSol sd r v e p)) (.sys f mv v.toNat) trivial (.sys ..) h1
  obtain ⟨o2, k2, e2, z2⟩ := create_step (W := Why env ctx w (.cancelWithdrawSol sd r v e p)) hdn h2
    (.create _ _ _ _ _ _ (.deposit sd) hdn)
  have hx1 := loadWithdrawal_keep hx k1
  have hne : kw ≠ dp := holds_ne (loadWithdrawal_ok.1 hx1).1 e2
  have p3 := pack_zeros (env := env) (W := Why env ctx w (.cancelWithdrawSol sd r v e p)) h3 z2
    (fun b' hs => .new dp b' (.depositSol sd _ dn au _ (.inr (.inl ⟨_, _, _, _, rfl⟩)) hdn hsig hs))
  have hx3 : loadWithdrawal wSolEventC env ctx kw w3 = .ok x :=
    loadWithdrawal_acc (w := w2.log _) (loadWithdrawal_acc (loadWithdrawal_keep hx1 k2) rfl) (pack_other h3 hne)
  refine o1.trans (o2.trans ((log_step _).trans (p3.trans ((log_step _).trans (put_sol (t := x) (loadWithdrawal_acc hx3 rfl) h4 ?_ (fun _ => hx) (mem_place hkw))))))
  · exact .cancel sd r v e p hst (by rw [hau]; exact hsig)

theorem ops_fillOne {sd : U128} {rc : EverAddress} {a v : U64} {e : Pubkey} {p : Bytes} {au at_ dp kw rt : Pubkey} {t : SolToken}
    {fee pu : U64} (hkw : kw ∈ firsts (ctx.accounts.drop 11)) (h : fillOne env ctx au at_ dp t kw rt w = .ok (fee, pu, w')) :
    Ops env ctx (Why env ctx w0 (.fillWithdrawSol sd rc a v e p)) w w' := by
  simp only [fillOne, bind_ok, require_ok, exists_const, ex_unit, tokenOf_ok, orErr_ok, Except.ok.injEq, Prod.mk.injEq] at h
  obtain ⟨r, hr, hst, htm, tk, htk, -, -, -, fee, hfee, pu, hpu, tr, htr, w1, h1, w2, h2, rfl, rfl, rfl⟩ := h
  obtain ⟨o1, k1⟩ := step_keep (W := Why env ctx w0 (.fillWithdrawSol sd rc a v e p)) (.xfer ctx.signs at_ rt au tr) trivial (.xfer ..) h1
  have hr1 : loadWithdrawal wSolEventC env ctx kw w1 = .ok r := loadWithdrawal_keep hr k1
  exact o1.trans ((log_step _).trans (Ops.trans (put_sol (t := r) (loadWithdrawal_acc hr1 rfl) h2 (.fill sd rc a v e p hst)
    (fun h => (h _ _ _ _ _ _ rfl).elim) hkw) (log_step _)))

theorem ops_fillLoop {sd : U128} {rc : EverAddress} {a v : U64} {e : Pubkey} {p : Bytes} {au at_ dp : Pubkey} {t : SolToken} :
    ∀ (l : List Pubkey) {x y : U64} {w : World} {l' : List Pubkey} {x' y' : U64},
    (∀ k ∈ firsts l, k ∈ firsts (ctx.accounts.drop 11)) → fillLoop env ctx au at_ dp t l x y w = .ok (l', x', y', w') →
    Ops env ctx (Why env ctx w0 (.fillWithdrawSol sd rc a v e p)) w w'
  | kw :: rt :: rest, x, y, w, l', x', y', hm, h => by
    simp only [fillLoop, bind_ok, Prod.exists] at h
    obtain ⟨fee, pu, w1, h1, h2⟩ := h
    exact (ops_fillOne (hm _ (by simp [firsts])) h1).trans (ops_fillLoop rest (fun k hk => hm k (by simp [firsts, hk])) h2)
  | [], x, y, w, l', x', y', _, h => by
    simp only [fillLoop, Except.ok.injEq, Prod.mk.injEq] at h
    obtain ⟨-, -, -, rfl⟩ := h
    exact .refl _
  | [_], x, y, w, l', x', y', _, h => by
    simp only [fillLoop, Except.ok.injEq, Prod.mk.injEq] at h
    obtain ⟨-, -, -, rfl⟩ := h
    exact .refl _

theorem ops_fill {sd : U128} {r : EverAddress} {a v : U64} {e : Pubkey} {p : Bytes}
    (h : processFill env ctx sd r a v e p w = .ok w') : Ops env ctx (Why env ctx w (.fillWithdrawSol sd r a v e p)) w w' := by
  simp only [processFill, bind_ok, acct_ok, sysvar_ok, require_ok, exists_const, ex_unit, deriveAt_ok, mintOf_ok, orErr_ok, Prod.exists,
    validatePda_ok, tokenOf_ok] at h
  obtain ⟨f, -, au, -, at_, -, mi, -, dp, -, ks, -, -, -, kt, -, -, -, rent, -, mv, -, -, hsig, ss, sn, hss, t, ht, hem, hmv, w1, h1, hmi,
    m, hm, dn, hdn, rest, fs, sm, w2, h2, w3, h3, hle, kv, hkv, hva, tv, htv, tot, htot, hlim, w4, h4, fee, hfee, pu, hpu, h5⟩ := h
  obtain ⟨o1, k1⟩ := step_keep (W := Why env ctx w (.fillWithdrawSol sd r a v e p)) (.sys f mv v.toNat) trivial (.sys ..) h1
  obtain ⟨o3, k3, e3, z3⟩ := create_step (W := Why env ctx w (.fillWithdrawSol sd r a v e p)) hdn h3
    (.create _ _ _ _ _ _ (.deposit sd) hdn)
  obtain ⟨o4, k4⟩ := step_keep (W := Why env ctx w (.fillWithdrawSol sd r a v e p)) (.xfer ctx.signs at_ kv au (a - sm)) trivial (.xfer ..) h4
  have z4 := k4 dp _ z3 (by simp)
  exact o1.trans ((ops_fillLoop _ (fun _ h => h) h2).trans (o3.trans (o4.trans ((log_step _).trans
    (pack_zeros h5 z4 (fun b' hs => .new dp b' (.depositSol sd _ dn au _ (.inr (.inr ⟨_, _, _, _, _, rfl⟩)) hdn hsig hs)))))))

theorem ops_withdrawProxy {n : U64} (h : processWithdrawProxy env ctx n w = .ok w') :
    Ops env ctx (Why env ctx w (.withdrawProxy n)) w w' := by
  simp only [processWithdrawProxy, bind_ok, acct_ok, require_ok, exists_const, ex_unit, deriveAt_ok, pdaSigns_ok] at h
  obtain ⟨c, -, rc, -, px, -, mi, -, hsig, pn, hpn, sg, ⟨q, hq, rfl⟩, h⟩ := h
  rw [findAddr_create hpn] at hq
  cases hq
  exact Ops.one (.xfer (signsAs ctx px) px rc px n) (.proxyPay px rc mi c n rfl hsig ⟨pn, hpn⟩) h

theorem ops_closeDeposit (h : processCloseDeposit env ctx w = .ok w') : Ops env ctx (Why env ctx w .closeDeposit) w w' := by
  simp only [processCloseDeposit, bind_ok, acct_ok, require_ok, exists_const, ex_unit, decRaw_ok, orErr_ok, intoDeposit_some, validateDeposit,
    validatePda_ok] at h
  obtain ⟨au, -, k, -, hsig, d, ⟨b, r, hb, hd⟩, sd, hsd, n, hn, ha, rfl, h⟩ := h
  obtain ⟨-, w1, h1, h2⟩ := deleteAccount_ok h
  exact Ops.trans (Ops.one (.move k d.author _) (.closePay k d.author _ (.inl rfl) (.inl ⟨b, r, d, n, hb, hd, hn, rfl⟩) nofun) h1)
    (Ops.one (.close k) (.closeDeposit k sd d b r rfl ⟨n, ha⟩ hb hd n hn hsig) h2)

theorem ops_closeWithdrawal (h : processCloseWithdrawal env ctx w = .ok w') : Ops env ctx (Why env ctx w .closeWithdrawal) w w' := by
  simp only [processCloseWithdrawal, bind_ok, acct_ok, require_ok, exists_const, ex_unit, orErr_ok] at h
  obtain ⟨k, hpk, au, -, p, hp, rfl, md, hmd, hst, h⟩ := h
  obtain ⟨-, w1, h1, h2⟩ := deleteAccount_ok h
  exact Ops.trans (Ops.one (.move k p.author _) (.closePay k p.author _ (.inr rfl) (.inr ⟨rfl, p, hp, rfl⟩) (fun _ => mem_place hpk)) h1)
    (Ops.one (.close k) (.closeWithdrawal k p md rfl hp hmd hst (mem_place hpk)) h2)

theorem ops_multiVault {n : U64} (h : processWithdrawMultiVault env ctx n w = .ok w') :
    Ops env ctx (Why env ctx w (.withdrawMultiVault n)) w w' := by
  simp only [processWithdrawMultiVault, bind_ok, acct_ok, require_ok, exists_const, ex_unit, Prod.exists, loadMultiVault_ok] at h
  obtain ⟨au, -, rc, -, k, -, ks, -, hsig, s, pn, hs, hau, ⟨mvr, hmv, hmi, mn, hmk, hma⟩, h⟩ := h
  exact Ops.one (.move k rc n.toNat) (.multiPay k rc n rfl (role_signs (role := (·.manager)) hs hau hsig) ⟨mn, hma⟩
    (loadMultiVault_ok.2 ⟨mvr, hmv, hmi, mn, hmk, hma⟩)) h

theorem ops_role {f : Settings → Settings} {i : Instr} (h : processChangeRole env ctx f w = .ok w')
    (hc : ∀ s, UpgradeAuthoritySigns env ctx w → SettingsCh env ctx w s i (f s)) : Ops env ctx (Why env ctx w i) w w' := by
  simp only [processChangeRole, bind_ok, acct_ok, require_ok, exists_const, ex_unit, Prod.exists, authorizeOwner_ok] at h
  obtain ⟨au, -, ks, -, pd, -, hsig, s, pn, hs, ⟨hpd, hd⟩, h⟩ := h
  exact put_settings hs h (hc s ⟨au, pd, ⟨pn, hpd⟩, hd, hsig⟩) hs

theorem ops_limits {f : TokenSettings → TokenSettings} {i : Instr} (h : processChangeLimits env ctx f w = .ok w')
    (hc : ∀ t, (RoleSigns env ctx w (·.manager) ∨ UpgradeAuthoritySigns env ctx w) → TokenCh env ctx w t i (f t))
    (hpl : tokenPlace i = some 1) :
    Ops env ctx (Why env ctx w i) w w' := by
  simp only [processChangeLimits, bind_ok, acct_ok, require_ok, exists_const, ex_unit, Prod.exists] at h
  obtain ⟨au, -, kt, hkt, ks, -, hsig, s, pn, hs, hau, t, ht, h⟩ := h
  exact put_token ht h (hc t (role_signs (role := (·.manager)) hs hau hsig)) (.inl ht) (by unfold namedToken; rw [hpl]; exact hkt)

/-- Every successful token proxy instruction that runs no payload is a sequence of permitted operations. -/
theorem run_ops {i : Instr} (h : run env ctx noCpi i w = .ok w') : Ops env ctx (Why env ctx w i) w w' := by
  cases i with
  | voteForWithdrawRequest v => exact ops_vote h
  | withdrawMultiTokenEver => exact ops_withdrawEver h
  | withdrawMultiTokenSol => exact ops_withdrawSol h
  | executePayloadEver =>
    simp only [run, processExecutePayloadEver, bind_ok, acct_ok, unpack_holds] at h
    obtain ⟨k, hpk, r, ⟨hr, hri⟩, h⟩ := h
    split at h
    · rename_i hst
      simp only [bind_ok, Prod.exists, orErr_ok, runPayload] at h
      obtain ⟨m, mn, hm, n, pn, hk, w1, ⟨l, hl, h1⟩, h2⟩ := h
      split at h1
      · cases h1
        refine pack_ops h2 hr ?_
        intro b b' q hlen hd hs
        exact .ever k b b' q r _ hlen hd hri (fun hne => (hne rfl).elim) ⟨n, pn, intoProposal_some.1 hk⟩ hr (.exec hst) hs (mem_place hpk)
      · simp only [bind_ok, noCpi, error_ok, and_false, exists_false] at h1
    · cases h; exact .refl _
  | executePayloadSol =>
    simp only [run, processExecutePayloadSol, bind_ok, acct_ok, unpack_holds] at h
    obtain ⟨k, hpk, r, ⟨hr, hri⟩, h⟩ := h
    split at h
    · rename_i hst
      simp only [bind_ok, Prod.exists, orErr_ok, runPayload] at h
      obtain ⟨n, pn, hk, w1, ⟨l, hl, h1⟩, h2⟩ := h
      split at h1
      · cases h1
        refine pack_ops h2 hr ?_
        intro b b' q hlen hd hs
        exact .sol k b b' q r _ hlen hd hri (fun hne => (hne rfl).elim) ⟨n, pn, intoProposal_some.1 hk⟩ (fun _ => hr) (.exec hst) hs (mem_place hpk)
      · simp only [bind_ok, noCpi, error_ok, and_false, exists_false] at h1
    · cases h; exact .refl _
  | init g m wm => exact ops_init h
  | depositMultiTokenEver s a r v e p => exact ops_depositEver h
  | depositMultiTokenSol s n y a r v e p => exact ops_depositSol h
  | withdrawMultiTokenEverRequest pda t n y d r a p att => exact ops_everRequest h
  | withdrawMultiTokenSolRequest pda r a p att => exact ops_solRequest h
  | changeGuardian k => exact ops_role (f := fun s => { s with guardian := k }) h (fun s hu => .guardian k hu)
  | changeManager k => exact ops_role (f := fun s => { s with manager := k }) h (fun s hu => .manager k hu)
  | changeWithdrawalManager k => exact ops_role (f := fun s => { s with withdrawalManager := k }) h (fun s hu => .withdrawalManager k hu)
  | changeDepositLimit n => exact ops_limits (f := fun t => { t with depositLimit := n }) h (fun t hu => .depositLimit n hu) rfl
  | changeWithdrawalLimits a b => exact ops_limits (f := fun t => { t with
      withdrawalLimit := a.getD t.withdrawalLimit, withdrawalDailyLimit := b.getD t.withdrawalDailyLimit }) h (fun t hu => .limits a b hu) rfl
  | enableEmergencyMode =>
    simp only [run, processEnableEmergency, bind_ok, acct_ok, require_ok, exists_const, ex_unit, Prod.exists] at h
    obtain ⟨au, -, ks, -, hsig, s, pn, hs, hau, h⟩ := h
    exact put_settings hs h (.enable (guardian_signs hau hsig)) hs
  | disableEmergencyMode =>
    simp only [run, processDisableEmergency, bind_ok, acct_ok, require_ok, exists_const, ex_unit, Prod.exists, authorizeOwner_ok] at h
    obtain ⟨au, -, ks, -, pd, -, hsig, s, pn, hs, ⟨hpd, hd⟩, h⟩ := h
    exact put_settings hs h (.disable ⟨au, pd, ⟨pn, hpd⟩, hd, hsig⟩) hs
  | enableTokenEmergencyMode =>
    simp only [run, processEnableTokenEmergency, bind_ok, acct_ok, require_ok, exists_const, ex_unit, Prod.exists] at h
    obtain ⟨au, -, kt, hkt, ks, -, hsig, s, pn, hs, hau, t, ht, h⟩ := h
    exact put_token ht h (.enable (role_signs (role := (·.guardian)) hs hau hsig)) (.inl ht) hkt
  | disableTokenEmergencyMode =>
    simp only [run, processDisableTokenEmergency, bind_ok, acct_ok, require_ok, exists_const, ex_unit, Prod.exists, authorizeOwner_ok] at h
    obtain ⟨au, -, kt, hkt, ks, -, pd, -, hsig, s, pn, hs, ⟨hpd, hd⟩, t, ht, h⟩ := h
    exact put_token ht h (.disable ⟨au, pd, ⟨pn, hpd⟩, hd, hsig⟩) (.inl ht) hkt
  | approveWithdrawEver => exact ops_approveEver h
  | approveWithdrawSol => exact ops_approveSol h
  | updateFee f m d =>
    simp only [run, processUpdateFee, bind_ok, acct_ok, require_ok, exists_const, ex_unit, Prod.exists] at h
    obtain ⟨au, -, kt, hkt, ks, -, hsig, s, pn, hs, hau, t, ht, h⟩ := h
    exact (log_step _).trans (put_token (loadToken_acc ht rfl) h (.updateFee f m d (role_signs (role := (·.manager)) hs hau hsig)) (.inl ht) hkt)
  | updateTokenName y n =>
    simp only [run, processUpdateTokenName, bind_ok, acct_ok, require_ok, exists_const, ex_unit, Prod.exists] at h
    obtain ⟨au, -, kt, hkt, ks, -, hsig, s, pn, hs, hau, t, ht, h⟩ := h
    exact (log_step _).trans (put_token (loadToken_acc (loadSol_token ht) rfl) h
      (.name y n (role_signs (role := (·.manager)) hs hau hsig) _ _ (loadSol_ok.1 ht).2.2.1) (.inl (loadSol_token ht)) hkt)
  | withdrawEverFee a => exact ops_everFee h
  | withdrawSolFee a => exact ops_solFee h
  | changeBountyForWithdrawSol b => exact ops_bounty h
  | cancelWithdrawSol s r v e p => exact ops_cancel h
  | fillWithdrawSol s r a v e p => exact ops_fill h
  | withdrawProxy a => exact ops_withdrawProxy h
  | closeDeposit => exact ops_closeDeposit h
  | closeWithdrawal => exact ops_closeWithdrawal h
  | withdrawMultiVault a => exact ops_multiVault h

/-- What a payload execution does after the payload: it writes back the record it read before. -/
inductive Stale (env : Env) (ctx : Ctx) (p : Pubkey) (w1 c w2 : World) : Instr → Prop
  | ever (k m : Pubkey) (r : Withdrawal WEverEvent) (n : U8) (pn : Option U8) (l : Nat) (hk : ctx.accounts[0]? = some k)
      (hr : Holds (withdrawalC wEverEventC) recLen (w1.acc k) r) (hi : r.isInitialized = true)
      (hst : r.md.status = .waitingForExecute) (hm : IsAddr env ctx.program (mintSeeds env r.event.token) m)
      (hkind : r.accountKind = .proposal n pn) (hl : env.payloadLen r.event.payload = some l)
      (hp : env.createAddr (proxySeeds m r.event.recipient ++ [[pn.getD 0#8]]) ctx.program = some p)
      (h : putWithdrawal ctx wEverEventC (r.withStatus .processed) k c = .ok w2) : Stale env ctx p w1 c w2 .executePayloadEver
  | sol (k : Pubkey) (r : Withdrawal WSolEvent) (n : U8) (pn : Option U8) (l : Nat) (hk : ctx.accounts[0]? = some k)
      (hr : Holds (withdrawalC wSolEventC) recLen (w1.acc k) r) (hi : r.isInitialized = true)
      (hst : r.md.status = .waitingForExecute)
      (hkind : r.accountKind = .proposal n pn) (hl : env.payloadLen r.event.payload = some l)
      (hp : env.createAddr (proxySeeds r.event.mint r.event.recipient ++ [[pn.getD 0#8]]) ctx.program = some p)
      (h : putWithdrawal ctx wSolEventC (r.withStatus .processed) k c = .ok w2) : Stale env ctx p w1 c w2 .executePayloadSol

theorem payload_ok {i : Instr} {p : Pubkey} {w1 c w2 : World} (hno : ∀ x, run env ctx noCpi i w1 ≠ .ok x)
    (h : run env ctx (cpiTo p c) i w1 = .ok w2) : Stale env ctx p w1 c w2 i := by
  have other : (∀ cpi, run env ctx cpi i w1 = run env ctx noCpi i w1) → False := fun e => hno w2 (by rw [← e]; exact h)
  cases i with
  | executePayloadEver =>
    have hno' := hno w2
    simp only [run, processExecutePayloadEver, bind_ok, acct_ok, unpack_holds] at h
    simp only [run, processExecutePayloadEver] at hno'
    obtain ⟨k, hka, r, ⟨hr, hri⟩, h⟩ := h
    split at h
    · rename_i hst
      simp only [bind_ok, Prod.exists, orErr_ok, runPayload] at h
      obtain ⟨m, mn, hm, n, pn, hk, c1, ⟨l, hl, h1⟩, h2⟩ := h
      split at h1
      · rename_i hl0
        cases h1
        exact (hno' (by
          simp only [bind_ok, acct_ok, unpack_holds]
          refine ⟨k, hka, r, ⟨hr, hri⟩, ?_⟩
          rw [if_pos hst]
          simp only [bind_ok, Prod.exists, orErr_ok, runPayload]
          exact ⟨m, mn, hm, n, pn, hk, w1, ⟨l, hl, by rw [if_pos hl0]⟩, h2⟩)).elim
      · simp only [bind_ok, orErr_ok, cpiTo] at h1
        obtain ⟨q, hq, h1⟩ := h1
        split at h1
        · rename_i e
          subst e
          cases h1
          exact .ever k m r n pn l hka hr hri hst ⟨mn, hm⟩ (intoProposal_some.1 hk) hl hq h2
        · cases h1
    · rename_i hst
      exact (hno' (by
        simp only [bind_ok, acct_ok, unpack_holds]
        refine ⟨k, hka, r, ⟨hr, hri⟩, ?_⟩
        rw [if_neg hst]; exact h)).elim
  | executePayloadSol =>
    have hno' := hno w2
    simp only [run, processExecutePayloadSol, bind_ok, acct_ok, unpack_holds] at h
    simp only [run, processExecutePayloadSol] at hno'
    obtain ⟨k, hka, r, ⟨hr, hri⟩, h⟩ := h
    split at h
    · rename_i hst
      simp only [bind_ok, Prod.exists, orErr_ok, runPayload] at h
      obtain ⟨n, pn, hk, c1, ⟨l, hl, h1⟩, h2⟩ := h
      split at h1
      · rename_i hl0
        cases h1
        exact (hno' (by
          simp only [bind_ok, acct_ok, unpack_holds]
          refine ⟨k, hka, r, ⟨hr, hri⟩, ?_⟩
          rw [if_pos hst]
          simp only [bind_ok, Prod.exists, orErr_ok, runPayload]
          exact ⟨n, pn, hk, w1, ⟨l, hl, by rw [if_pos hl0]⟩, h2⟩)).elim
      · simp only [bind_ok, orErr_ok, cpiTo] at h1
        obtain ⟨q, hq, h1⟩ := h1
        split at h1
        · rename_i e
          subst e
          cases h1
          exact .sol k r n pn l hka hr hri hst (intoProposal_some.1 hk) hl hq h2
        · cases h1
    · rename_i hst
      exact (hno' (by
        simp only [bind_ok, acct_ok, unpack_holds]
        refine ⟨k, hka, r, ⟨hr, hri⟩, ?_⟩
        rw [if_neg hst]; exact h)).elim
  | _ => exact (other (fun _ => rfl)).elim

end Verif.TP
