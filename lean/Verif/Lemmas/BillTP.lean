import Verif.Lemmas.Bill
import Verif.Spec.Payload
/-!
# Bills of the instructions of the token proxy
-/
namespace Verif.TP
open Codec Verif

variable {env : Env} {ctx : Ctx} {w w1 w' : World} {cpi : Pubkey → World → Except Err World}

/-! ## Instructions that move no lamports -/

theorem releaseDaily_lam {md : WMeta} {ts : TokenSettings} {n : U64} {k : Pubkey} (h : releaseDaily ctx md ts n k w = .ok w') : SameLam w w' := by
  unfold releaseDaily at h
  split at h
  · simp only [bind_ok] at h
    obtain ⟨_, -, h⟩ := h
    exact pack_lam h
  · cases h; exact SameLam.rfl

theorem role_lam {f : Settings → Settings} (h : processChangeRole env ctx f w = .ok w') : SameLam w w' := by
  simp only [processChangeRole, bind_ok, acct_ok, require_ok, exists_const, ex_unit, Prod.exists] at h
  obtain ⟨_, -, _, -, _, -, -, _, _, -, -, h⟩ := h
  exact pack_lam h

theorem limits_lam {f : TokenSettings → TokenSettings} (h : processChangeLimits env ctx f w = .ok w') : SameLam w w' := by
  simp only [processChangeLimits, bind_ok, acct_ok, require_ok, exists_const, ex_unit, Prod.exists] at h
  obtain ⟨_, -, _, -, _, -, -, _, _, -, -, _, -, h⟩ := h
  exact pack_lam h

theorem gratis_lam {i : Instr} (hi : i.gratis = true) (h : run env ctx cpi i w = .ok w') : SameLam w w' := by
  cases i with
  | changeGuardian _ => simp only [run] at h; exact role_lam h
  | changeManager _ => simp only [run] at h; exact role_lam h
  | changeWithdrawalManager _ => simp only [run] at h; exact role_lam h
  | changeDepositLimit _ => simp only [run] at h; exact limits_lam h
  | changeWithdrawalLimits _ _ => simp only [run] at h; exact limits_lam h
  | enableEmergencyMode =>
    simp only [run, processEnableEmergency, bind_ok, acct_ok, require_ok, exists_const, ex_unit, Prod.exists] at h
    obtain ⟨_, -, _, -, -, _, _, -, -, h⟩ := h
    exact pack_lam h
  | disableEmergencyMode =>
    simp only [run, processDisableEmergency, bind_ok, acct_ok, require_ok, exists_const, ex_unit, Prod.exists] at h
    obtain ⟨_, -, _, -, _, -, -, _, _, -, -, h⟩ := h
    exact pack_lam h
  | enableTokenEmergencyMode =>
    simp only [run, processEnableTokenEmergency, bind_ok, acct_ok, require_ok, exists_const, ex_unit, Prod.exists] at h
    obtain ⟨_, -, _, -, _, -, -, _, _, -, -, _, -, h⟩ := h
    exact pack_lam h
  | disableTokenEmergencyMode =>
    simp only [run, processDisableTokenEmergency, bind_ok, acct_ok, require_ok, exists_const, ex_unit, Prod.exists] at h
    obtain ⟨_, -, _, -, _, -, _, -, -, _, _, -, -, _, -, h⟩ := h
    exact pack_lam h
  | approveWithdrawEver =>
    simp only [run, processApproveEver, bind_ok, acct_ok, sysvar_ok, require_ok, exists_const, ex_unit, Prod.exists, validatePda_ok, orErr_ok] at h
    obtain ⟨_, -, _, -, _, -, _, -, _, -, _, -, _, -, _, -, -, -, _, _, -, r, -, -, t, -, -, -, -, -, m, -, am, -, fee, -, tr, -, -, w1, h1, w2, h2, h3⟩ := h
    exact (makeEver_lam h1).trans ((releaseDaily_lam h2).trans (pack_lam (w := w2.log _) h3))
  | updateFee _ _ _ =>
    simp only [run, processUpdateFee, bind_ok, acct_ok, require_ok, exists_const, ex_unit, Prod.exists] at h
    obtain ⟨_, -, _, -, _, -, -, _, _, -, -, _, -, h⟩ := h
    exact pack_lam (w := w.log _) h
  | updateTokenName _ _ =>
    simp only [run, processUpdateTokenName, bind_ok, acct_ok, require_ok, exists_const, ex_unit, Prod.exists] at h
    obtain ⟨_, -, _, -, _, -, -, _, _, -, -, _, -, h⟩ := h
    exact pack_lam (w := w.log _) h
  | withdrawEverFee _ =>
    simp only [run, processWithdrawEverFee, bind_ok, acct_ok, require_ok, exists_const, ex_unit, Prod.exists, validatePda_ok, orErr_ok] at h
    obtain ⟨_, -, _, -, _, -, _, -, _, -, _, -, -, _, _, -, -, t, -, -, -, -, -, w1, h1, sup, -, h2⟩ := h
    exact (makeEver_lam h1).trans (pack_lam h2)
  | changeBountyForWithdrawSol _ =>
    simp only [run, processChangeBounty, bind_ok, acct_ok, require_ok, exists_const] at h
    obtain ⟨_, -, _, -, -, _, -, -, -, h⟩ := h
    exact pack_lam h
  | _ => cases hi

/-! ## Requests -/

theorem Settled.perm_self {f : Pubkey} {n m : Nat} (h : Settled [⟨f, f, n⟩] w w') : Settled [⟨f, f, m⟩] w w' :=
  h.congr fun k => by simp only [paidBy, paidTo]; omega

theorem openProxy_bill {payload : Bytes} {expected r f sys : Pubkey} {i : Nat} {att : U64} {pn : Option U8}
    (h : openProxy env ctx payload expected r f sys i att w = .ok (pn, w')) :
    (payload = [] ∧ w' = w) ∨ (payload ≠ [] ∧ ∃ p, ctx.accounts[i]? = some p ∧ Settled (proxyBill env w f p att.toNat) w w' ∧
      (w'.acc p).data.len ≠ 0) := by
  rcases openProxy_ok h with ⟨h1, -, h2⟩ | ⟨h1, p, n, w1, -, hp, -, -, h2, h3⟩
  · exact .inl ⟨h1, h2⟩
  · refine .inr ⟨h1, p, hp, ?_, ?_⟩
    · unfold proxyBill
      rcases h2 with ⟨hl, w2, h4, h5⟩ | ⟨hl, rfl⟩
      · rw [if_pos hl]
        exact ((createPdaFunded_bill h4).right (splInitAccount_lam h5)).trans (sysTransfer_bill h3)
      · rw [if_neg hl]
        refine (sysTransfer_bill h3).congr fun k => ?_
        simp only [paidBy, paidTo, ite_self]; omega
    · rw [sysTransfer_acc h3 p]
      rcases h2 with ⟨hl, w2, h4, h5⟩ | ⟨hl, rfl⟩
      · obtain ⟨-, -, -, -, -, -, -, rfl⟩ := splInitAccount_ok h5
        simp [World.setDataRaw, Data.len]
      · exact hl

theorem openWithdrawal_bill {E : Type} {ec : Codec E} {f au k : Pubkey} {rs : RL.Settings} {rr : RL.RelayRound} {pda : PDA}
    {len : U32} {e : E} {pn : Option U8} {tok : Bytes} {rec : Pubkey} {amt : U128}
    (h : openWithdrawal env ctx ec f au k rs rr pda len e pn tok rec amt w = .ok w') :
    ((w.acc k).lamports ≠ 0 ∧ w' = w) ∨
    ((w.acc k).lamports = 0 ∧ f ≠ k ∧ (w.acc k).data.len = 0 ∧ Settled (openBill env f k rr.relays.length) w w') := by
  obtain ⟨n, ha, h | ⟨h0, w1, w2, l, h1, h2, -, h3⟩⟩ := openWithdrawal_ok h
  · exact .inl h
  · obtain ⟨-, hl, -, hne, -⟩ := createPda_ok (findAddr_create ha) h1
    exact .inr ⟨h0, hne, hl, ((createPda_bill h1).right (pack_lam h2)).trans (Settled.left (w1 := w2.log l) (SameLam.rfl.log) (sysTransfer_bill h3))⟩

theorem request_bill {E : Type} {ec : Codec E} {f au k : Pubkey} {rs : RL.Settings} {rr : RL.RelayRound} {pda : PDA}
    {len : U32} {e : E} {pn : Option U8} {tok : Bytes} {rec : Pubkey} {amt : U128} {payload : Bytes} {expected r sys : Pubkey} {i : Nat} {att : U64}
    (h1 : openProxy env ctx payload expected r f sys i att w = .ok (pn, w1))
    (h2 : openWithdrawal env ctx ec f au k rs rr pda len e pn tok rec amt w1 = .ok w') :
    ∃ o l, proxyOf ctx i payload o ∧ RequestPrice env w f k att.toNat rr.relays.length o l ∧ Settled l w w' := by
  rcases openProxy_bill h1 with ⟨hp, rfl⟩ | ⟨hp, p, ha, hs, hd⟩
  · rcases openWithdrawal_bill h2 with ⟨hk, rfl⟩ | ⟨hk, -, -, hs⟩
    · exact ⟨none, _, .inl ⟨hp, rfl⟩, .known hk, Settled.rfl⟩
    · exact ⟨none, _, .inl ⟨hp, rfl⟩, .plain hk, hs⟩
  · refine ⟨some p, ?_⟩
    have ho : proxyOf ctx i payload (some p) := .inr ⟨hp, p, ha, rfl⟩
    have hk' := hs k
    simp only [proxyBill, paidBy, paidTo] at hk'
    rcases openWithdrawal_bill h2 with ⟨hk, rfl⟩ | ⟨hk, hne, hl, hs2⟩
    · refine ⟨_, ho, .knownPayload ?_, hs⟩
      by_cases e : p = k
      · exact .inr e
      · simp only [if_neg e] at hk'
        left; omega
    · have hpk : p ≠ k := by rintro rfl; exact hd hl
      simp only [if_neg hpk, if_neg hne] at hk'
      exact ⟨_, ho, .payload (by omega) hpk, hs.trans hs2⟩

/-! ## Deposits -/

theorem deploySol_bill {f kv m kt : Pubkey} {n y : Bytes} (h : deploySol env ctx f kv m kt n y w = .ok w') :
    Settled [⟨f, kv, env.minimum 165⟩, ⟨f, kt, env.minimum recLen⟩] w w' ∧ ∀ x, x ≠ kv → wrapsSol w' x = wrapsSol w x := by
  simp only [deploySol, bind_ok, deriveAt_ok] at h
  obtain ⟨vn, hv, w1, h1, w2, h2, tn, ht, w3, h3, h4⟩ := h
  refine ⟨((createPda_bill h1).right (splInitAccount_lam h2)).trans ((createPda_bill h3).right (pack_lam (w := w3.log _) h4)), fun x hx => ?_⟩
  rw [pack_wraps h4, show wrapsSol (w3.log _) x = wrapsSol w3 x from rfl, createPda_wraps (findAddr_create ht) h3]
  obtain ⟨-, -, -, -, -, -, -, rfl⟩ := splInitAccount_ok h2
  rw [← createPda_wraps (findAddr_create hv) h1 x]
  exact wrapsSol_data (by unfold World.setDataRaw; rw [World.set_acc, if_neg hx])

theorem depositSol_bill {sd : U128} {n y : Bytes} {a : U64} {r : EverAddress} {v : U64} {e : Pubkey} {p : Bytes}
    (h : run env ctx cpi (.depositMultiTokenSol sd n y a r v e p) w = .ok w') :
    ∃ bill, Price env ctx w w' (.depositMultiTokenSol sd n y a r v e p) bill ∧ Settled bill w w' := by
  simp only [run, processDepositSol, bind_ok, acct_ok, sysvar_ok, require_ok, exists_const, ex_unit, Prod.exists, mintOf_ok, tokenOf_ok, orErr_ok,
    deriveAt_ok] at h
  obtain ⟨f, h0, _, -, ct, h2, kv, h3, d, h4, m, -, mv, h6, kt, h7, _, -, _, -, _, -, _, -, -, -, _, _, -, -, -, w1, hdep, t, -, -, -, mi, -, -, -,
    tv, -, tot, -, -, w2, hx, w3, hs, dn, -, w4, hc, fee, -, sup, -, net, -, w5, hp, ht⟩ := h
  have hrest : ∀ x, Settled (tokenBill w ct [⟨ct, kv, a.toNat⟩]) w1 w2 → Settled x w w1 →
      Settled (x ++ tokenBill w ct [⟨ct, kv, a.toNat⟩] ++ [⟨f, mv, v.toNat⟩, ⟨f, d, env.minimum recLen⟩]) w w' := fun x b1 b2 =>
    (b2.trans b1).trans ((sysTransfer_bill hs).trans (((createPda_bill hc).right (pack_lam (w := w4.log _) hp)).right (pack_lam ht)))
  have hb := splTransfer_bill hx
  unfold deployOnce at hdep
  split at hdep
  · rename_i hk
    obtain ⟨b1, b2⟩ := deploySol_bill hdep
    refine ⟨_, .firstSol sd n y a r v e p h0 h2 h3 h4 h6 h7 hk, hrest _ ?_ b1⟩
    by_cases e1 : ct = kv
    · subst e1
      obtain ⟨-, -, -, -, -, -, -, s, d, s', -, -, -, -, -, -, -, ⟨-, rfl⟩ | ⟨hne, -⟩⟩ := splTransfer_ok hx
      · exact tokenBill_self
      · exact (hne rfl).elim
    · rw [← tokenBill_congr (b2 ct e1)]; exact hb
  · rename_i hk
    cases hdep
    exact ⟨_, .depositSol sd n y a r v e p h0 h2 h3 h4 h6 h7 hk, hrest [] hb Settled.rfl⟩

theorem depositEver_bill {sd : U128} {a : U64} {r : EverAddress} {v : U64} {e : Pubkey} {p : Bytes}
    (h : run env ctx cpi (.depositMultiTokenEver sd a r v e p) w = .ok w') :
    ∃ bill, Price env ctx w w' (.depositMultiTokenEver sd a r v e p) bill ∧ Settled bill w w' := by
  simp only [run, processDepositEver, bind_ok, acct_ok, sysvar_ok, require_ok, exists_const, ex_unit, Prod.exists, mintOf_ok, validatePda_ok, orErr_ok,
    deriveAt_ok] at h
  obtain ⟨f, h0, _, -, ct, h2, d, h3, m, -, mv, h5, kt, -, _, -, _, -, _, -, _, -, -, -, _, _, -, t, -, -, -, mi, -, -, w1, hb, dn, -, w2, hc, fee, -,
    sup, -, net, -, tr, -, w3, hp, w4, ht, hs⟩ := h
  exact ⟨_, .depositEver sd a r v e p h0 h3 h5, Settled.left (splBurn_lam hb)
    ((((createPda_bill hc).right (pack_lam (w := w2.log _) hp)).right (pack_lam ht)).trans (sysTransfer_bill hs))⟩

/-! ## Payouts -/

theorem settleEver_lam {r : Withdrawal WEverEvent} {ts : TokenSettings} {m rc : Pubkey} {n : U64} {s : WStatus}
    (h : settleEver env ctx r ts m rc n w = .ok (w', s)) : SameLam w w' := by
  unfold settleEver at h
  split at h
  · cases h; exact SameLam.rfl
  · simp only [bind_ok, ex_unit, Except.ok.injEq, Prod.mk.injEq] at h
    obtain ⟨-, w1, h1, rfl, -⟩ := h
    exact makeEver_lam h1

theorem payEver_lam {k m rc kt : Pubkey} {r : Withdrawal WEverEvent} (h : payEver env ctx k m rc kt r w = .ok w') : SameLam w w' := by
  simp only [payEver, bind_ok, require_ok, exists_const, ex_unit, validatePda_ok, mintOf_ok] at h
  obtain ⟨t, -, -, -, -, mi, -, h⟩ := h
  split at h
  · simp only [bind_ok, orErr_ok, Prod.exists] at h
    obtain ⟨am, -, fee, -, sup, -, tr, -, da, -, w1, s, h1, w2, h2, h3⟩ := h
    exact (settleEver_lam h1).trans ((pack_lam h2).trans (pack_lam (w := w2.log _) h3))
  · cases h; exact SameLam.rfl

theorem deployEver_bill {f m kt : Pubkey} {e : WEverEvent} (h : deployEver env ctx f m kt e w = .ok w') :
    ∃ to, IsAddr env env.ataId (ataSeeds env e.recipient m) to ∧
      Settled [⟨f, m, env.minimum 82⟩, ⟨f, to, env.minimum 165 - (w.acc to).lamports⟩, ⟨f, kt, env.minimum recLen⟩] w w' := by
  simp only [deployEver, bind_ok, deriveAt_ok] at h
  obtain ⟨mn, hm, w1, h1, w2, h2, w3, h3, tn, ht, w4, h4, h5⟩ := h
  obtain ⟨to, n, w5, hto, h6, h7⟩ := ataCreate_ok h3
  refine ⟨to, ⟨n, hto⟩, ?_⟩
  have b1 := (createPda_bill h1).right (splInitMint_lam h2)
  have b2 := (createPdaFunded_bill h6).right (splInitAccount_lam h7)
  have b3 := (createPda_bill h4).right (pack_lam (w := w4.log _) h5)
  have b2' : Settled [⟨f, to, env.minimum 165 - (w.acc to).lamports⟩] w2 w3 := by
    by_cases e1 : f = to
    · subst e1; exact Settled.perm_self b2
    · have e2 : m ≠ to := by
        rintro rfl
        have := (createPdaFunded_ok h6).1
        obtain ⟨-, -, -, -, -, -, rfl⟩ := splInitMint_ok h2
        simp [World.setDataRaw, Data.len] at this
      have := b1 to
      simp only [paidBy, paidTo, if_neg e1, if_neg e2, Nat.add_zero] at this
      rwa [this] at b2
  exact b1.trans (b2'.trans b3)

theorem withdrawEver_bill (h : run env ctx cpi .withdrawMultiTokenEver w = .ok w') :
    ∃ bill, Price env ctx w w' .withdrawMultiTokenEver bill ∧ Settled bill w w' := by
  simp only [run, processWithdrawEver, bind_ok, acct_ok, sysvar_ok, require_ok, exists_const, ex_unit, Prod.exists] at h
  obtain ⟨k, h0, m, h1, rc, -, kt, h3, _, -, _, -, _, -, _, -, -, _, -, -, _, _, -, r, hr, h⟩ := h
  split at h
  · rename_i hk
    split at h
    · rename_i h9
      cases h
      exact ⟨_, .withdrawEver h3 (.inr h9), Settled.rfl⟩
    · rename_i f h9
      simp only [bind_ok] at h
      obtain ⟨w1, hd, hp⟩ := h
      obtain ⟨to, hto, hb⟩ := deployEver_bill hd
      exact ⟨_, .firstEver h0 h1 h3 h9 hk (loadWithdrawal_ok.1 hr).1 hto, hb.right (payEver_lam hp)⟩
  · rename_i hk
    exact ⟨_, .withdrawEver h3 (.inl hk), (payEver_lam h).settled⟩

/-- Tokens from the vault, or nothing. -/
def Drawn (kv to : Pubkey) (w w' : World) : Prop :=
  ∃ l, (l = [] ∨ ∃ n, l = [⟨kv, to, n⟩]) ∧ TokensMove l w w' ∧ Settled (tokenBill w kv l) w w'

theorem Drawn.none {kv to : Pubkey} (h : SameLam w w') (h' : NoTokens w w') : Drawn kv to w w' :=
  ⟨[], .inl rfl, NoTokens_move h', by unfold tokenBill; split <;> exact h.settled⟩

theorem Drawn.right {kv to : Pubkey} (h : Drawn kv to w w1) (h1 : SameLam w1 w') (h2 : NoTokens w1 w') : Drawn kv to w w' := by
  obtain ⟨l, hl, ht, hs⟩ := h
  exact ⟨l, hl, ht.right h2, hs.right h1⟩

theorem makeSol_drawn {v r : Pubkey} {t : TokenSettings} {n : U64} (h : makeSolTransfer env ctx v r t n w = .ok w') : Drawn v r w w' := by
  obtain ⟨_, _, _, _, _, -, -, -, h1⟩ := makeSolTransfer_ok h
  exact ⟨_, .inr ⟨_, rfl⟩, Moves_move (moves_of h1), makeSol_bill h⟩

theorem payFromVault_drawn {r : Withdrawal WSolEvent} {ts : TokenSettings} {pm vault rc : Pubkey} {n : U64} {s : WStatus}
    (h : payFromVault env ctx r ts pm vault rc n w = .ok (w', s)) : Drawn vault rc w w' := by
  simp only [payFromVault, bind_ok, tokenOf_ok, exists_const, ex_unit] at h
  obtain ⟨-, v, -, h⟩ := h
  split at h
  · cases h; exact .none SameLam.rfl (.refl _)
  · simp only [bind_ok, Except.ok.injEq, Prod.mk.injEq] at h
    obtain ⟨w1, h1, rfl, -⟩ := h
    exact makeSol_drawn h1

theorem settleSol_drawn {r : Withdrawal WSolEvent} {t : SolToken} {pm vault rc kt : Pubkey} {fee n : U64} {s : WStatus}
    (h : settleSol env ctx r t pm vault rc kt fee n w = .ok (w', s)) : Drawn vault rc w w' := by
  unfold settleSol at h
  split at h
  · simp only [bind_ok, orErr_ok, Prod.exists, Except.ok.injEq, Prod.mk.injEq] at h
    obtain ⟨da, -, sup, -, w1, s1, h1, w2, h2, rfl, -⟩ := h
    refine Drawn.right ?_ (pack_lam h2) (.pack h2)
    unfold payIfAllowed at h1
    split at h1
    · cases h1; exact .none SameLam.rfl (.refl _)
    · exact payFromVault_drawn h1
  · exact payFromVault_drawn h
  · cases h; exact .none SameLam.rfl (.refl _)

theorem releaseDaily_none {md : WMeta} {ts : TokenSettings} {n : U64} {k : Pubkey} (h : releaseDaily ctx md ts n k w = .ok w') : NoTokens w w' := by
  unfold releaseDaily at h
  split at h
  · simp only [bind_ok] at h
    obtain ⟨_, -, h⟩ := h
    exact .pack h
  · cases h; exact .refl _

theorem withdrawSol_bill (h : run env ctx cpi .withdrawMultiTokenSol w = .ok w') :
    ∃ bill, Price env ctx w w' .withdrawMultiTokenSol bill ∧ Settled bill w w' := by
  simp only [run, processWithdrawSol, bind_ok, acct_ok, sysvar_ok, require_ok, exists_const, ex_unit, validatePda_ok] at h
  obtain ⟨k, -, kv, h1, rc, h2, kt, -, m, -, _, -, _, -, _, -, -, _, -, r, -, t, -, -, -, -, h⟩ := h
  have hd : Drawn kv rc w w' := by
    split at h
    · simp only [bind_ok, orErr_ok, Prod.exists] at h
      obtain ⟨fee, -, tr, -, w1, s, b1, b2⟩ := h
      exact (settleSol_drawn b1).right (pack_lam (w := w1.log _) b2) ((NoTokens.log _).trans (.pack b2))
    · cases h; exact .none SameLam.rfl (.refl _)
  obtain ⟨l, hl, ht, hs⟩ := hd
  exact ⟨_, .withdrawSol h1 h2 hl ht, hs⟩

theorem approveSol_bill (h : run env ctx cpi .approveWithdrawSol w = .ok w') :
    ∃ bill, Price env ctx w w' .approveWithdrawSol bill ∧ Settled bill w w' := by
  simp only [run, processApproveSol, bind_ok, acct_ok, sysvar_ok, require_ok, exists_const, ex_unit, validatePda_ok, orErr_ok, Prod.exists] at h
  obtain ⟨_, -, kv, h1, _, -, rc, h3, _, -, _, -, _, -, _, -, -, -, _, _, -, r, -, -, -, t, -, -, -, -, fee, -, tr, -, w1, s, b1, w2, b2, b3⟩ := h
  obtain ⟨l, hl, ht, hs⟩ := ((payFromVault_drawn b1).right (releaseDaily_lam b2) (releaseDaily_none b2)).right (pack_lam b3) (.pack b3)
  exact ⟨_, .approveSol h1 h3 hl ht, hs⟩

/-! ## Fills -/

/-- Tokens sent from `ct` to accounts in `l0`. -/
def Sent (ct : Pubkey) (l0 : List Pubkey) (w w' : World) : Prop :=
  ∃ l : List Payment, (∀ x ∈ l, x.src = ct ∧ x.dst ∈ l0) ∧ TokensMove l w w' ∧ Settled (tokenBill w ct l) w w' ∧ ∀ k, wrapsSol w' k = wrapsSol w k

theorem Sent.none {ct : Pubkey} {l0 : List Pubkey} (h : SameLam w w') (h' : NoTokens w w') (h'' : ∀ k, wrapsSol w' k = wrapsSol w k) : Sent ct l0 w w' :=
  ⟨[], (fun _ hx => nomatch hx), NoTokens_move h', by unfold tokenBill; split <;> exact h.settled, h''⟩

theorem Sent.one {sg : Pubkey → Bool} {ct to au : Pubkey} {n : U64} {l0 : List Pubkey} (h : splTransfer env ctx sg ct to au n w = .ok w') (hto : to ∈ l0) :
    Sent ct l0 w w' :=
  ⟨[⟨ct, to, n.toNat⟩], fun x hx => by rw [List.mem_singleton.1 hx]; exact ⟨rfl, hto⟩, Moves_move (moves_of h), splTransfer_bill h, xfer_wraps h⟩

theorem Sent.trans {ct : Pubkey} {l0 : List Pubkey} (h : Sent ct l0 w w1) (h' : Sent ct l0 w1 w') : Sent ct l0 w w' := by
  obtain ⟨l, hl, ht, hs, hw⟩ := h
  obtain ⟨l', hl', ht', hs', hw'⟩ := h'
  refine ⟨l ++ l', fun x hx => (List.mem_append.1 hx).elim (hl x) (hl' x), ht.trans ht', ?_, fun k => (hw' k).trans (hw k)⟩
  rw [tokenBill_append]
  rw [tokenBill_congr (hw ct)] at hs'
  exact hs.trans hs'

theorem Sent.mono {ct : Pubkey} {l0 l1 : List Pubkey} (h : Sent ct l0 w w') (hm : ∀ x ∈ l0, x ∈ l1) : Sent ct l1 w w' := by
  obtain ⟨l, hl, h⟩ := h
  exact ⟨l, fun x hx => ⟨(hl x hx).1, hm _ (hl x hx).2⟩, h⟩

theorem fillOne_sent {au ct dp : Pubkey} {t : SolToken} {kw rt : Pubkey} {x y : U64} (h : fillOne env ctx au ct dp t kw rt w = .ok (x, y, w')) :
    Sent ct [rt] w w' := by
  simp only [fillOne, bind_ok, require_ok, exists_const, tokenOf_ok, orErr_ok, Except.ok.injEq, Prod.mk.injEq] at h
  obtain ⟨r, -, -, -, _, -, -, -, -, fee, -, pu, -, tr, -, w1, h1, w2, h2, -, -, rfl⟩ := h
  refine (Sent.one h1 (List.mem_singleton.2 rfl)).trans ?_
  exact .none (SameLam.log (pack_lam (w := w1.log _) h2)) ((NoTokens.log _).trans ((NoTokens.pack h2).trans (.log _)))
    fun k => pack_wraps (w := w1.log _) h2 k

theorem fillLoop_sent {au ct dp : Pubkey} {t : SolToken} : ∀ (l : List Pubkey) {x y : U64} {w : World} {l' : List Pubkey} {x' y' : U64},
    fillLoop env ctx au ct dp t l x y w = .ok (l', x', y', w') → Sent ct l w w' ∧ ∀ x ∈ l', x ∈ l
  | kw :: rt :: rest, x, y, w, l', x', y', h => by
    simp only [fillLoop, bind_ok, Prod.exists] at h
    obtain ⟨fee, net, w1, h1, h2⟩ := h
    obtain ⟨hs, hm⟩ := fillLoop_sent rest h2
    exact ⟨((fillOne_sent h1).mono (by simp)).trans (hs.mono fun x hx => List.mem_cons_of_mem _ (List.mem_cons_of_mem _ hx)),
      fun x hx => List.mem_cons_of_mem _ (List.mem_cons_of_mem _ (hm x hx))⟩
  | [], x, y, w, l', x', y', h => by
    simp only [fillLoop, Except.ok.injEq, Prod.mk.injEq] at h
    obtain ⟨rfl, -, -, rfl⟩ := h
    exact ⟨.none SameLam.rfl (.refl _) fun _ => rfl, fun x hx => hx⟩
  | [a], x, y, w, l', x', y', h => by
    simp only [fillLoop, Except.ok.injEq, Prod.mk.injEq] at h
    obtain ⟨rfl, -, -, rfl⟩ := h
    exact ⟨.none SameLam.rfl (.refl _) fun _ => rfl, fun x hx => hx⟩

theorem fill_bill {sd : U128} {rc : EverAddress} {a v : U64} {ev : Pubkey} {py : Bytes}
    (h : run env ctx cpi (.fillWithdrawSol sd rc a v ev py) w = .ok w') :
    ∃ bill, Price env ctx w w' (.fillWithdrawSol sd rc a v ev py) bill ∧ Settled bill w w' := by
  simp only [run, processFill, bind_ok, acct_ok, sysvar_ok, require_ok, exists_const, ex_unit, deriveAt_ok, mintOf_ok, orErr_ok, Prod.exists,
    validatePda_ok, tokenOf_ok] at h
  obtain ⟨f, h0, au, -, ct, h2, mi, -, dp, h4, ks, -, -, -, kt, -, -, -, rent, -, mv, h10, -, -, ss, sn, -, t, -, -, -, w1, b1, -,
    m, -, dn, hdn, rest, fsum, sm, w2, b2, w3, b3, -, kv, hkv, -, tv, -, tot, -, -, w4, b4, fee, -, net, -, b5⟩ := h
  obtain ⟨⟨l1, hl1, ht1, hs1, hw1⟩, hm⟩ := fillLoop_sent _ b2
  obtain ⟨l2, hl2, ht2, hs2, hw2⟩ := Sent.one (l0 := ctx.accounts.drop 11) b4 (hm _ (List.mem_of_getElem? hkv))
  refine ⟨_, .fill (l := l1 ++ l2) sd rc a v ev py h0 h2 h4 h10 (fun x hx => (List.mem_append.1 hx).elim (hl1 x) (hl2 x)) ?_, ?_⟩
  · exact (TokensMove.left (.sys b1) ht1).trans ((TokensMove.left (.create (findAddr_create hdn) b3) ht2).right ((NoTokens.log _).trans (.pack b5)))
  · have e1 : tokenBill w1 ct l1 = tokenBill w ct l1 := tokenBill_congr (sys_wraps b1 ct)
    have e2 : tokenBill w3 ct l2 = tokenBill w ct l2 :=
      tokenBill_congr ((createPda_wraps (findAddr_create hdn) b3 ct).trans ((hw1 ct).trans (sys_wraps b1 ct)))
    rw [e1] at hs1
    rw [e2] at hs2
    rw [tokenBill_append]
    refine ((sysTransfer_bill b1).trans (hs1.trans ((createPda_bill b3).trans (hs2.right (pack_lam (w := w4.log _) b5))))).congr fun k => ?_
    simp only [paidBy_append, paidTo_append, paidBy, paidTo]
    omega

/-! ## All instructions -/

theorem run_bill {i : Instr} (hi : ¬ executes i) (h : run env ctx cpi i w = .ok w') : ∃ bill, Price env ctx w w' i bill ∧ Settled bill w w' := by
  by_cases hg : i.gratis = true
  · exact ⟨_, .gratis i hg, (gratis_lam hg h).settled⟩
  cases i with
  | executePayloadEver => exact (hi (.inl rfl)).elim
  | executePayloadSol => exact (hi (.inr rfl)).elim
  | voteForWithdrawRequest v =>
    simp only [run, processVote, bind_ok, acct_ok, require_ok, exists_const, orErr_ok, unpack_holds, ex_unit] at h
    obtain ⟨relay, h0, k, h1, kr, h2, -, -, p, hp, r, ⟨hr, -⟩, _, -, -, j, hj, old, hold, h⟩ := h
    have hp := (loadGeneric_ok.1 hp).1
    by_cases ho : old = Vote.none
    · subst ho
      simp only [if_true, bind_ok] at h
      obtain ⟨w1, hpk, hm⟩ := h
      exact ⟨_, .vote v h0 h1 h2 hp hr hj hold, Settled.left (packRaw_lam hpk) (moveLamports_bill hm)⟩
    · simp only [ho, if_false, Except.ok.injEq] at h
      subst h
      exact ⟨_, .again v h0 h1 h2 hp hr hj hold ho, Settled.rfl⟩
  | withdrawMultiTokenEver => exact withdrawEver_bill h
  | withdrawMultiTokenSol => exact withdrawSol_bill h
  | init g m wm =>
    simp only [run, processInitialize, bind_ok, acct_ok, sysvar_ok, require_ok, exists_const, ex_unit, Prod.exists, deriveAt_ok] at h
    obtain ⟨f, h0, _, -, s, h2, mv, h3, _, -, _, -, _, -, -, -, _, _, -, -, -, _, -, w1, c1, w2, p1, _, -, w3, c2, p2⟩ := h
    exact ⟨_, .init g m wm h0 h2 h3, ((createPda_bill c1).right (pack_lam p1)).trans ((createPda_bill c2).right (pack_lam p2))⟩
  | depositMultiTokenEver s a r v e p => exact depositEver_bill h
  | depositMultiTokenSol s n y a r v e p => exact depositSol_bill h
  | withdrawMultiTokenEverRequest pda t n y d r a p att =>
    simp only [run, processEverRequest, bind_ok, acct_ok, sysvar_ok, require_ok, exists_const, Prod.exists, loadRound_ok] at h
    obtain ⟨f, h0, _, -, k, h2, _, -, kr, h4, _, -, _, -, -, _, -, -, -, -, -, rs, rr, ⟨-, ⟨hr, -⟩, -⟩, _, _, -, pn, w1, b1, b2⟩ := h
    obtain ⟨o, l, ho, hl, hs⟩ := request_bill b1 b2
    exact ⟨l, .requestEver pda t n y d r a p att h0 h2 h4 hr ho hl, hs⟩
  | withdrawMultiTokenSolRequest pda r a p att =>
    simp only [run, processSolRequest, bind_ok, acct_ok, sysvar_ok, require_ok, exists_const, Prod.exists, loadRound_ok] at h
    obtain ⟨f, h0, _, -, k, h2, _, -, _, -, kr, h5, _, -, _, -, -, _, -, -, -, _, -, rs, rr, ⟨-, ⟨hr, -⟩, -⟩, pn, w1, b1, b2⟩ := h
    obtain ⟨o, l, ho, hl, hs⟩ := request_bill b1 b2
    exact ⟨l, .requestSol pda r a p att h0 h2 h5 hr ho hl, hs⟩
  | approveWithdrawSol => exact approveSol_bill h
  | withdrawSolFee n =>
    simp only [run, processWithdrawSolFee, bind_ok, acct_ok, require_ok, exists_const, ex_unit, Prod.exists, validatePda_ok, orErr_ok] at h
    obtain ⟨_, -, kv, h1, _, -, rc, h3, _, -, _, -, -, _, _, -, -, t, -, -, -, -, -, v, -, -, w1, b1, sup, -, b2⟩ := h
    exact ⟨_, .solFee n h1 h3, (makeSol_bill b1).right (pack_lam b2)⟩
  | cancelWithdrawSol sd r v e p =>
    simp only [run, processCancel, bind_ok, acct_ok, sysvar_ok, require_ok, exists_const, ex_unit, Prod.exists, orErr_ok, deriveAt_ok, mintOf_ok] at h
    obtain ⟨f, h0, _, -, _, -, _, -, d, h4, _, -, _, -, _, -, _, -, mv, h9, -, -, _, _, -, rc, -, -, -, t, -, -, -, w1, b1, -, m, -, -, dn, -, w2, b2,
      fee, -, -, _, -, tr, -, w3, b3, b4⟩ := h
    exact ⟨_, .cancel sd r v e p h0 h4 h9, (sysTransfer_bill b1).trans (((createPda_bill b2).right (pack_lam (w := w2.log _) b3)).right
      (pack_lam (w := w3.log _) b4))⟩
  | fillWithdrawSol sd r a v e p => exact fill_bill h
  | withdrawProxy n =>
    simp only [run, processWithdrawProxy, bind_ok, acct_ok, require_ok, exists_const, deriveAt_ok] at h
    obtain ⟨_, -, to, h1, p, h2, _, -, -, _, -, sg, -, b⟩ := h
    exact ⟨_, .proxy n h1 h2, splTransfer_bill b⟩
  | closeDeposit =>
    simp only [run, processCloseDeposit, bind_ok, acct_ok, require_ok, exists_const, ex_unit, orErr_ok] at h
    obtain ⟨a, h0, d, h1, -, _, -, _, -, _, -, -, -, b⟩ := h
    exact ⟨_, .closeDeposit h0 h1, deleteAccount_bill b⟩
  | closeWithdrawal =>
    simp only [run, processCloseWithdrawal, bind_ok, acct_ok, require_ok, exists_const, orErr_ok] at h
    obtain ⟨k, h0, a, h1, _, -, -, _, -, -, b⟩ := h
    exact ⟨_, .closeWithdrawal h0 h1, deleteAccount_bill b⟩
  | withdrawMultiVault n =>
    simp only [run, processWithdrawMultiVault, bind_ok, acct_ok, require_ok, exists_const, ex_unit, Prod.exists] at h
    obtain ⟨_, -, to, h1, m, h2, _, -, -, _, _, -, -, -, b⟩ := h
    exact ⟨_, .multiVault n h1 h2, moveLamports_bill b⟩
  | _ => exact (hg rfl).elim

end Verif.TP
