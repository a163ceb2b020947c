import Verif.Lemmas.TPBack
import Verif.Lemmas.RLFx
/-!
# Effects of whole token proxy instructions
-/
set_option linter.unusedSimpArgs false
namespace Verif.TP
open Codec Verif

variable {env : Env} {ctx : Ctx} {w w' : World} {cpi : Pubkey → World → Except Err World} {i : Instr}

theorem settingsOf {k : Pubkey} {s : Settings} {pn : U8} (h : loadSettings env ctx k w = .ok (s, pn)) : SettingsOf env ctx w k s := by
  obtain ⟨h1, h2, n, -, h3⟩ := loadSettings_ok.1 h
  exact ⟨⟨n, h3⟩, h1, h2⟩

theorem SettingsOf.role {k : Pubkey} {s : Settings} {role : Settings → Pubkey} (h : SettingsOf env ctx w k s)
    (hs : ctx.isSigner (role s) = true) : RoleSigns env ctx w role := ⟨k, s, h.1, h.2.1, h.2.2, hs⟩

theorem SettingsOf.unique {k k' : Pubkey} {s s' : Settings} (h : SettingsOf env ctx w k s) (h' : SettingsOf env ctx w k' s') :
    k = k' ∧ s = s' := by
  have := h.1.unique h'.1
  subst this
  exact ⟨rfl, h.2.1.unique h'.2.1⟩

theorem tokenSeeds_eq (t : TokenKind) : tokenSettingsSeeds env t = tokenSeeds env t := by cases t <;> rfl

theorem tokenOf {k : Pubkey} {t : TokenSettings} (h : loadToken env ctx k w = .ok t) : TokenOf env ctx w k t := by
  obtain ⟨h1, h2, n, m, -, h3⟩ := loadToken_ok.1 h
  exact ⟨⟨n, by rw [← tokenSeeds_eq]; exact h3⟩, h1, h2⟩

theorem ownerSigns {a pd : Pubkey} {pn : U8} {u : Unit} (hs : ctx.isSigner a = true) (h : authorizeOwner env ctx a pd pn w = .ok u) :
    UpgradeAuthoritySigns env ctx w := by
  obtain ⟨h1, h2⟩ := authorizeOwner_ok.1 h
  exact ⟨a, pd, ⟨pn, h1⟩, h2, hs⟩

theorem pack_only {α : Type} {c : Codec α} {len : Nat} {a : α} {k : Pubkey} (h : pack ctx c len a k w = .ok w') :
    OnlyData k w w' := ⟨fun j hj => (RL.pack_acc h j).2.2 hj, (RL.pack_acc h k).1, (RL.pack_acc h k).2.1⟩

theorem pack_logs {α : Type} {c : Codec α} {len : Nat} {a : α} {k : Pubkey} (h : pack ctx c len a k w = .ok w') :
    w'.logs = w.logs := by
  obtain ⟨b, b', hb, hl, hst, -, rfl⟩ := pack_ok.1 h
  rfl

theorem changeRole_fx {f : Settings → Settings} (h : processChangeRole env ctx f w = .ok w') :
    ∃ k s, SettingsOf env ctx w k s ∧ UpgradeAuthoritySigns env ctx w ∧ Holds settingsC recLen (w'.acc k) (f s) ∧ OnlyData k w w' ∧
      w'.logs = w.logs := by
  simp only [processChangeRole, bind_ok, acct_ok, require_ok, exists_const, ex_unit, Prod.exists] at h
  obtain ⟨a, -, k, -, pd, -, hs, s, pn, hl, ha, h⟩ := h
  exact ⟨k, s, settingsOf hl, ownerSigns hs ha, RL.pack_holds h, pack_only h, pack_logs h⟩

theorem authorized {a : Pubkey} {role : Settings → Pubkey} {k : Pubkey} {s : Settings} {pn : U8} {j : Nat} {u : Unit}
    (hl : loadSettings env ctx k w = .ok (s, pn)) (hs : ctx.isSigner a = true) (h : authorize env ctx (role s) a pn j w = .ok u) :
    RoleSigns env ctx w role ∨ UpgradeAuthoritySigns env ctx w := by
  rcases authorize_ok.1 h with rfl | ⟨-, pd, -, h1, h2⟩
  · exact .inl ((settingsOf hl).role hs)
  · exact .inr ⟨a, pd, ⟨pn, h1⟩, h2, hs⟩

/-- Effect of an instruction that rewrites the settings of a token. -/
def TokenFx (env : Env) (ctx : Ctx) (f : TokenSettings → TokenSettings) (k : Pubkey) (w w' : World) : Prop :=
  ∃ t, TokenOf env ctx w k t ∧ Holds tokenSettingsC recLen (w'.acc k) (f t) ∧ OnlyData k w w'

theorem changeLimits_fx {f : TokenSettings → TokenSettings} (h : processChangeLimits env ctx f w = .ok w') :
    (RoleSigns env ctx w (·.manager) ∨ UpgradeAuthoritySigns env ctx w) ∧
      ∃ k, ctx.accounts[1]? = some k ∧ TokenFx env ctx f k w w' := by
  simp only [processChangeLimits, bind_ok, acct_ok, require_ok, exists_const, ex_unit, Prod.exists] at h
  obtain ⟨a, -, k, hk, ks, -, hs, s, pn, hl, ha, t, ht, h⟩ := h
  exact ⟨authorized (role := (·.manager)) hl hs ha, k, hk, t, tokenOf ht, RL.pack_holds h, pack_only h⟩

theorem updateFee_fx {f : FeeType} {m d : U64} (h : processUpdateFee env ctx f m d w = .ok w') :
    (RoleSigns env ctx w (·.manager) ∨ UpgradeAuthoritySigns env ctx w) ∧
      ∃ k, ctx.accounts[1]? = some k ∧ TokenFx env ctx (setFee f ⟨m, d⟩) k w w' := by
  simp only [processUpdateFee, bind_ok, acct_ok, require_ok, exists_const, ex_unit, Prod.exists] at h
  obtain ⟨a, -, k, hk, ks, -, hs, s, pn, hl, ha, t, ht, h⟩ := h
  exact ⟨authorized (role := (·.manager)) hl hs ha, k, hk, t, tokenOf ht, RL.pack_holds h, (pack_only h : OnlyData k (w.log _) w')⟩

theorem updateTokenName_fx {y n : Bytes} (h : processUpdateTokenName env ctx y n w = .ok w') :
    (RoleSigns env ctx w (·.manager) ∨ UpgradeAuthoritySigns env ctx w) ∧
      ∃ k, ctx.accounts[1]? = some k ∧ TokenFx env ctx (fun t => { t with symbol := y, name := n }) k w w' := by
  simp only [processUpdateTokenName, bind_ok, acct_ok, require_ok, exists_const, ex_unit, Prod.exists] at h
  obtain ⟨a, -, k, hk, ks, -, hs, s, pn, hl, ha, t, ht, h⟩ := h
  exact ⟨authorized (role := (·.manager)) hl hs ha, k, hk, t.ts, tokenOf (loadSol_token ht), RL.pack_holds h, (pack_only h : OnlyData k (w.log _) w')⟩

theorem enableEmergency_fx (h : processEnableEmergency env ctx w = .ok w') :
    ∃ k s, SettingsOf env ctx w k s ∧ (ctx.isSigner s.guardian = true ∨ UpgradeAuthoritySigns env ctx w) ∧
      Holds settingsC recLen (w'.acc k) { s with emergency := true } ∧ OnlyData k w w' := by
  simp only [processEnableEmergency, bind_ok, acct_ok, require_ok, exists_const, ex_unit, Prod.exists] at h
  obtain ⟨a, -, k, hk, hs, s, pn, hl, ha, h⟩ := h
  refine ⟨k, s, settingsOf hl, ?_, RL.pack_holds h, pack_only h⟩
  rcases authorize_ok.1 ha with rfl | ⟨-, pd, -, h1, h2⟩
  · exact .inl hs
  · exact .inr ⟨a, pd, ⟨pn, h1⟩, h2, hs⟩

theorem disableEmergency_fx (h : processDisableEmergency env ctx w = .ok w') :
    ∃ k s, SettingsOf env ctx w k s ∧ UpgradeAuthoritySigns env ctx w ∧
      Holds settingsC recLen (w'.acc k) { s with emergency := false } ∧ OnlyData k w w' := by
  simp only [processDisableEmergency, bind_ok, acct_ok, require_ok, exists_const, ex_unit, Prod.exists] at h
  obtain ⟨a, -, k, hk, pd, -, hs, s, pn, hl, ha, h⟩ := h
  exact ⟨k, s, settingsOf hl, ownerSigns hs ha, RL.pack_holds h, pack_only h⟩

theorem enableToken_fx (h : processEnableTokenEmergency env ctx w = .ok w') :
    (RoleSigns env ctx w (·.guardian) ∨ UpgradeAuthoritySigns env ctx w) ∧
      ∃ k, ctx.accounts[1]? = some k ∧ TokenFx env ctx (fun t => { t with emergency := true }) k w w' := by
  simp only [processEnableTokenEmergency, bind_ok, acct_ok, require_ok, exists_const, ex_unit, Prod.exists] at h
  obtain ⟨a, -, k, hk, ks, -, hs, s, pn, hl, ha, t, ht, h⟩ := h
  exact ⟨authorized (role := (·.guardian)) hl hs ha, k, hk, t, tokenOf ht, RL.pack_holds h, pack_only h⟩

theorem disableToken_fx (h : processDisableTokenEmergency env ctx w = .ok w') :
    UpgradeAuthoritySigns env ctx w ∧
      ∃ k, ctx.accounts[1]? = some k ∧ TokenFx env ctx (fun t => { t with emergency := false }) k w w' := by
  simp only [processDisableTokenEmergency, bind_ok, acct_ok, require_ok, exists_const, ex_unit, Prod.exists] at h
  obtain ⟨a, -, k, hk, ks, -, pd, -, hs, s, pn, hl, ha, t, ht, h⟩ := h
  exact ⟨ownerSigns hs ha, k, hk, t, tokenOf ht, RL.pack_holds h, pack_only h⟩

/-- Instructions stopped by emergency mode read the settings and the settings of the token. -/
theorem stops (hi : (tokenPos i).isSome = true) (h : run env ctx cpi i w = .ok w') :
    (∃ k s, SettingsOf env ctx w k s ∧ s.emergency = false) ∧
      ∃ p k, tokenPos i = some p ∧ ctx.accounts[p]? = some k ∧
        ((w.acc k).lamports = 0 ∨ ∃ t, TokenOf env ctx w k t ∧ t.emergency = false) := by
  have S : ∀ {ks s pn}, loadSettingsNoEmergency env ctx ks w = .ok (s, pn) → ∃ k s, SettingsOf env ctx w k s ∧ s.emergency = false := by
    intro ks s pn h
    obtain ⟨h1, h2⟩ := loadSettingsNoEmergency_ok.1 h
    exact ⟨ks, s, settingsOf h1, h2⟩
  cases i <;> simp only [tokenPos, Option.isSome_none, Bool.false_eq_true] at hi <;> simp only [run] at h
  · -- withdraw ever
    simp only [processWithdrawEver, bind_ok, acct_ok, sysvar_ok, require_ok, exists_const, ex_unit, Prod.exists] at h
    obtain ⟨kw, -, mi, -, rc, -, kt, hkt, ks, -, -, -, -, -, rent, -, -, cl, -, -, s, pn, hs, r, hr, h⟩ := h
    refine ⟨S hs, 3, kt, rfl, hkt, ?_⟩
    split at h
    · rename_i hz; exact .inl hz
    · simp only [payEver, bind_ok, require_ok, exists_const, ex_unit] at h
      obtain ⟨t, ht, hem, -⟩ := h
      exact .inr ⟨t.ts, tokenOf (loadEver_token ht), hem⟩
  · -- withdraw sol
    simp only [processWithdrawSol, bind_ok, acct_ok, sysvar_ok, require_ok, exists_const, ex_unit, Prod.exists] at h
    obtain ⟨kw, -, kv, -, rc, -, kt, hkt, mi, -, ks, -, -, -, cl, -, -, s, pn, hs, r, hr, t, ht, hem, -⟩ := h
    exact ⟨S hs, 3, kt, rfl, hkt, .inr ⟨t.ts, tokenOf (loadSol_token ht), hem⟩⟩
  · -- deposit ever
    simp only [processDepositEver, bind_ok, acct_ok, sysvar_ok, require_ok, exists_const, ex_unit, Prod.exists] at h
    obtain ⟨f, -, cr, -, ct, -, dp, -, mi, -, mv, -, kt, hkt, ks, -, -, -, -, -, rent, -, -, hsig, s, pn, hs, t, ht, hem, -⟩ := h
    exact ⟨S hs, 6, kt, rfl, hkt, .inr ⟨t.ts, tokenOf (loadEver_token ht), hem⟩⟩
  · -- deposit sol
    simp only [processDepositSol, bind_ok, acct_ok, sysvar_ok, require_ok, exists_const, ex_unit, Prod.exists] at h
    obtain ⟨f, -, cr, -, ct, -, kv, -, dp, -, mi, -, mv, -, kt, hkt, ks, -, -, -, -, -, rent, -, -, hsig, s, pn, hs, hn, hy, w0, h0, t, ht,
      hem, -⟩ := h
    refine ⟨S hs, 7, kt, rfl, hkt, ?_⟩
    unfold deployOnce at h0
    split at h0
    · rename_i hz; exact .inl hz
    · cases h0; exact .inr ⟨t.ts, tokenOf (loadSol_token ht), hem⟩
  · -- approve ever
    simp only [processApproveEver, bind_ok, acct_ok, sysvar_ok, require_ok, exists_const, ex_unit, Prod.exists] at h
    obtain ⟨a, -, mi, -, kw, -, rc, -, kt, hkt, ks, -, -, -, cl, -, -, hsig, s, pn, hs, r, hr, hst, t, ht, hem, -⟩ := h
    exact ⟨S hs, 4, kt, rfl, hkt, .inr ⟨t.ts, tokenOf (loadEver_token ht), hem⟩⟩
  · -- approve sol
    simp only [processApproveSol, bind_ok, acct_ok, sysvar_ok, require_ok, exists_const, ex_unit, Prod.exists] at h
    obtain ⟨a, -, kv, -, kw, -, rc, -, kt, hkt, ks, -, -, -, cl, -, -, hsig, s, pn, hs, r, hr, hst, hau, t, ht, hem, -⟩ := h
    exact ⟨S hs, 4, kt, rfl, hkt, .inr ⟨t.ts, tokenOf (loadSol_token ht), hem⟩⟩
  · -- cancel
    simp only [processCancel, bind_ok, acct_ok, sysvar_ok, require_ok, exists_const, ex_unit, Prod.exists] at h
    obtain ⟨f, -, a, -, mi, -, kw, -, dp, -, ks, -, kt, hkt, -, -, rent, -, mv, -, -, hsig, s, pn, hs, r, hr, hau, hst, t, ht, hem, -⟩ := h
    exact ⟨S hs, 6, kt, rfl, hkt, .inr ⟨t.ts, tokenOf (loadSol_token ht), hem⟩⟩
  · -- fill
    simp only [processFill, bind_ok, acct_ok, sysvar_ok, require_ok, exists_const, ex_unit, Prod.exists] at h
    obtain ⟨f, -, a, -, at_, -, mi, -, dp, -, ks, -, -, -, kt, hkt, -, -, rent, -, mv, -, -, hsig, s, pn, hs, t, ht, hem, -⟩ := h
    exact ⟨S hs, 7, kt, rfl, hkt, .inr ⟨t.ts, tokenOf (loadSol_token ht), hem⟩⟩

/-- Approval: the authorization and the state of the withdrawal. -/
theorem approve_fx (h : run env ctx cpi .approveWithdrawEver w = .ok w' ∨ run env ctx cpi .approveWithdrawSol w = .ok w') :
    (RoleSigns env ctx w (·.withdrawalManager) ∨ UpgradeAuthoritySigns env ctx w) ∧
      ∃ k, ctx.accounts[2]? = some k ∧
        ((∃ r, loadWithdrawal wEverEventC env ctx k w = .ok r ∧ r.md.status = .waitingForApprove) ∨
         (∃ r, loadWithdrawal wSolEventC env ctx k w = .ok r ∧ r.md.status = .waitingForApprove)) := by
  rcases h with h | h <;> simp only [run] at h
  · simp only [processApproveEver, bind_ok, acct_ok, sysvar_ok, require_ok, exists_const, ex_unit, Prod.exists] at h
    obtain ⟨a, -, mi, -, kw, hkw, rc, -, kt, hkt, ks, -, -, -, cl, -, -, hsig, s, pn, hs, r, hr, hst, t, ht, hem, hm, htok, hau, -⟩ := h
    obtain ⟨h1, -⟩ := loadSettingsNoEmergency_ok.1 hs
    exact ⟨authorized (role := (·.withdrawalManager)) h1 hsig hau, kw, hkw, .inl ⟨r, hr, hst⟩⟩
  · simp only [processApproveSol, bind_ok, acct_ok, sysvar_ok, require_ok, exists_const, ex_unit, Prod.exists] at h
    obtain ⟨a, -, kv, -, kw, hkw, rc, -, kt, hkt, ks, -, -, -, cl, -, -, hsig, s, pn, hs, r, hr, hst, hau, -⟩ := h
    obtain ⟨h1, -⟩ := loadSettingsNoEmergency_ok.1 hs
    exact ⟨authorized (role := (·.withdrawalManager)) h1 hsig hau, kw, hkw, .inr ⟨r, hr, hst⟩⟩

/-- `Initialize` works only on a vacant address. -/
theorem init_vacant {g m wm : Pubkey} (h : run env ctx cpi (.init g m wm) w = .ok w') :
    ∃ k, IsAddr env ctx.program settingsSeeds k ∧ Vacant env (w.acc k) ∧ UpgradeAuthoritySigns env ctx w ∧
      (w'.acc k).owner = ctx.program ∧ Live w' k ∧
      ∃ n pn, Holds settingsC recLen (w'.acc k) ⟨true, .settings n pn, false, g, m, wm⟩ := by
  simp only [run, processInitialize, bind_ok, acct_ok, sysvar_ok, require_ok, exists_const, ex_unit, Prod.exists, validateInitializer_ok,
    deriveAt_ok] at h
  obtain ⟨f, -, ini, -, ks, -, km, -, kpd, -, -, -, rent, -, -, hsig, pd, pn, hpd, rfl, hauth, sn, hsn, w1, h1, w2, h2, mn, hmn, w3, h3, h4⟩ := h
  have ha := findAddr_create hsn
  have ha' := findAddr_create hmn
  obtain ⟨v1, v2, v3, -⟩ := createPda_ok ha h1
  have e1 := createPda_self ha h1
  have hh := RL.pack_holds h2
  have hne : ks ≠ km := by
    rintro rfl
    obtain ⟨v1', -⟩ := createPda_ok ha' h3
    have := (RL.pack_acc h2 ks).2.1
    rw [v1', e1] at this
    simp only at this
    omega
  obtain ⟨f1, f2, f3⟩ := RL.pack_acc h4 ks
  have f3 := f3 hne
  obtain ⟨-, -, -, hf, -, -, -, -, -, hfl, -, he3⟩ := createPda_ok ha' h3
  have hlen : (w2.acc ks).data.len = recLen := by
    obtain ⟨b, r, hb, hl, -⟩ := hh
    rw [hb]; exact hl
  have hfk : ks ≠ f := by
    rintro rfl
    rw [hlen] at hfl
    cases hfl
  have hl3 := createPda_acc ha' h3 ks hne
  refine ⟨ks, ⟨sn, hsn⟩, ⟨v1, v2, v3⟩, ⟨ini, pd, ⟨pn, hpd⟩, hauth, hsig⟩, ?_, ?_, sn, pn, ?_⟩
  · rw [f3, hl3.2, (RL.pack_acc h2 ks).1, e1]
  · unfold Live
    rw [f3, he3]
    simp only [setLamports_acc, hfk, if_false, World.set_other _ _ hne, (RL.pack_acc h2 ks).2.1, e1]
    omega
  · rw [f3]
    unfold Holds
    rw [hl3.1]; exact hh

end Verif.TP
