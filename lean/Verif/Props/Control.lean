import Verif.Lemmas.LiveTP
import Verif.Lemmas.TPFee
import Verif.Lemmas.RLHist
import Verif.Lemmas.RunPre
import Verif.Spec.Control
import Verif.Spec.ToyReachTP
import Verif.Spec.ToyReachW
import Verif.Spec.ToyClientTP
import Verif.Spec.ToyTactic
/-!
# C85: control of the bridge is never lost

Whatever users, relays, roles and other programs have done since the settings were created, the settings are still there, and the upgrade authority
sets every parameter to any value it likes, without anybody else's help.
-/
set_option linter.unusedSimpArgs false
set_option maxRecDepth 100000
namespace Verif.Props
open Verif TP Codec

variable {env : Env} {L : Pubkey → Prop} {ctx : Ctx} {cpi : Pubkey → World → Except Err World} {w w' w0 : World} {tr : List Ev} {top : Bool} {now : I64}

/-! ## The settings stay -/

private theorem settingsCh_kind {i : TP.Instr} {s s' : TP.Settings} (h : SettingsCh env ctx w s i s') : s'.accountKind = s.accountKind := by
  cases h <;> rfl

private theorem tokenCh_kind {i : TP.Instr} {t t' : TokenSettings} (h : TokenCh env ctx w t i t') :
    t'.accountKind = t.accountKind ∧ t'.kind = t.kind := by
  have hr : ∀ e, (resetEpoch t e).accountKind = t.accountKind ∧ (resetEpoch t e).kind = t.kind := by
    intro e; unfold resetEpoch; split <;> exact ⟨rfl, rfl⟩
  cases h with
  | updateFee f m d => cases f <;> exact ⟨rfl, rfl⟩
  | withdraw => exact hr _
  | _ => exact ⟨rfl, rfl⟩

/-- C85: the settings of the bridge stay usable. -/
theorem C85_stays {ks : Pubkey} {s0 : TP.Settings} (hd : env.Distinct) (hr : Run env L top w0 tr w) (hs : TP.Ready env w0 ks s0) (hl : Live w0 ks) :
    ∃ s, TP.Ready env w ks s ∧ SameBridge s0 s ∧ Live w ks := by
  obtain ⟨-, hlw, H⟩ := settings_hist hd hr hs.here hl
  have := hr.fold (P := fun w _ => ∃ s, SettingsAt env w ks s ∧ s.accountKind = s0.accountKind) [] ⟨s0, hs.here, rfl⟩ (by
    rintro e he - ⟨s, hs1, hk⟩
    obtain ⟨s1, s2, h1, h2, hc⟩ := H e he
    obtain rfl := hs1.2.1.unique h1.2.1
    refine ⟨s2, h2, ?_⟩
    rcases hc with rfl | ⟨_, _, -, -, -, -, hc⟩
    · exact hk
    · exact (settingsCh_kind hc).trans hk)
  obtain ⟨s, hs', hk⟩ := this
  obtain ⟨n, pn, pd, h1, h2, h3⟩ := hs.addr
  exact ⟨s, ⟨hs', n, pn, pd, hk.trans h1, h2, h3⟩, ⟨hs'.2.2.1.trans hs.here.2.2.1.symm, hk⟩, hlw⟩

/-- C85: the settings of a token stay usable, and they are of the same token. -/
theorem C85_token_stays {kt : Pubkey} {t0 : TokenSettings} (hd : env.Distinct) (hr : Run env L top w0 tr w) (ht : TokenReady env w0 kt t0)
    (hl : Live w0 kt) : ∃ t, TokenReady env w kt t ∧ t.kind = t0.kind ∧ Live w kt := by
  obtain ⟨-, hlw, H⟩ := token_hist hd hr ht.here hl
  have := hr.fold (P := fun w _ => ∃ t, TokenAt env w kt t ∧ t.accountKind = t0.accountKind ∧ t.kind = t0.kind) [] ⟨t0, ht.here, rfl, rfl⟩ (by
    rintro e he - ⟨t, hs1, hk⟩
    obtain ⟨s1, s2, h1, h2, hc⟩ := H e he
    obtain rfl := hs1.2.1.unique h1.2.1
    refine ⟨s2, h2, ?_⟩
    rcases hc with rfl | ⟨_, _, -, -, -, -, hc⟩
    · exact hk
    · exact ⟨(tokenCh_kind hc).1.trans hk.1, (tokenCh_kind hc).2.trans hk.2⟩)
  obtain ⟨t, ht', hk, hkd⟩ := this
  obtain ⟨n, m, h1, h2⟩ := ht.addr
  exact ⟨t, ⟨ht', n, m, hk.trans h1, by rw [hkd]; exact h2⟩, hkd, hlw⟩

/-- C85: the settings of the round loader stay usable. -/
theorem C85_rl_stays {ks : Pubkey} {s0 : RL.Settings} (hd : env.Distinct) (h0 : Reach env L w0) (hr : Run env L true w0 tr w) (hs : RL.Ready env w0 ks s0) : ∃ s, RL.Ready env w ks s := by
  obtain ⟨wg, tr0, hg, hr0⟩ := h0
  have := hr.fold (P := fun w _ => ∃ s, RL.SettingsAt env w ks s ∧ s.accountKind = s0.accountKind) [] ⟨s0, hs.here, rfl⟩ (by
    rintro e he - ⟨s, hs1, hk⟩
    obtain ⟨hgood, hev⟩ := RL.hist_mem hd hg (hr0.append hr) e (List.mem_append_right _ he)
    obtain ⟨q, hq, hc⟩ := RL.settings_ev hd hev hgood hs1
    refine ⟨q, hq, ?_⟩
    rcases hc with rfl | ⟨_, _, -, hc⟩
    · exact hk
    · exact hc.kind.trans hk)
  obtain ⟨s, hs', hk⟩ := this
  obtain ⟨n, pn, pd, h1, h2, h3⟩ := hs.addr
  exact ⟨s, ⟨hs', n, pn, pd, hk.trans h1, h2, h3⟩⟩

/-! ## The owner's instructions -/

private theorem put_ready {ks : Pubkey} {s s' : TP.Settings} (hp : ctx.program = env.tpId) (h : TP.Ready env w ks s) (hw : ctx.isWritable ks = true)
    (he : SameBridge s s') : ∃ w1, putSettings ctx s' ks w = .ok w1 ∧ TP.Ready env w1 ks s' ∧ ∀ j, j ≠ ks → w1.acc j = w.acc j := by
  obtain ⟨ho, ⟨b, t, hb, hl, hdec⟩, hi, n, pn, hk⟩ := h.here
  obtain ⟨w1, h1, h2, h3, -, h5, -⟩ := pack_live (c := TP.settingsC) (a := s') hb hl (by simp [TP.settingsC]) TP.len_settings hw (ho.trans hp.symm)
  obtain ⟨n', pn', pd', a1, a2, a3⟩ := h.addr
  exact ⟨w1, h1, ⟨⟨h3.trans ho, h2, he.init.trans hi, n, pn, he.kind.trans hk⟩, n', pn', pd', he.kind.trans a1, a2, a3⟩, h5⟩

private theorem put_token_ready {kt : Pubkey} {t t' : TokenSettings} (hp : ctx.program = env.tpId) (h : TokenReady env w kt t)
    (hw : ctx.isWritable kt = true) (he : SameToken t t') :
    ∃ w1, putToken ctx t' kt w = .ok w1 ∧ TokenReady env w1 kt t' ∧ ∀ j, j ≠ kt → w1.acc j = w.acc j := by
  obtain ⟨hf1, hf2⟩ := fits_of_holds h.here.2.1
  obtain ⟨g1, g2⟩ := token_fits hf1 hf2 he.account he.kind he.name he.symbol
  obtain ⟨ho, ⟨b, u, hb, hl, hdec⟩, hi, n, m, hk⟩ := h.here
  obtain ⟨w1, h1, h2, h3, -, h5, -⟩ := pack_live (c := tokenSettingsC) (a := t') hb hl g1 g2 hw (ho.trans hp.symm)
  obtain ⟨n', m', a1, a2⟩ := h.addr
  exact ⟨w1, h1, ⟨⟨h3.trans ho, h2, he.init.trans hi, n, m, he.account.trans hk⟩, n', m', he.account.trans a1, by rw [he.kind]; exact a2⟩, h5⟩

private theorem owner_ne {program pd owner k : Pubkey} {α : Type} {c : Codec α} {len : Nat} {x : α} (hu : Upgrades env w program pd owner)
    (h : Holds c len (w.acc k) x) : pd ≠ k := by
  rintro rfl
  obtain ⟨b, r, hb, -⟩ := h
  rw [hu.data] at hb; cases hb

private theorem upgrades_put {program pd owner k : Pubkey} {w1 : World} (hu : Upgrades env w program pd owner) (hne : pd ≠ k)
    (h : ∀ j, j ≠ k → w1.acc j = w.acc j) : Upgrades env w1 program pd owner :=
  ⟨hu.addr, by rw [h pd hne]; exact hu.data⟩

/-- One instruction of the owner on the settings. -/
private theorem order_step {ks pd owner : Pubkey} {s : TP.Settings} {i : TP.Instr} {f : TP.Settings → TP.Settings} (hs : TP.Ready env w ks s)
    (hu : Upgrades env w env.tpId pd owner) (hf : ∀ s, SameBridge s (f s))
    (hi : (∀ ctx w, TP.run env ctx cpi i w = processChangeRole env ctx f w) ∨ (i = .enableEmergencyMode ∧ f = fun s => { s with emergency := true })) :
    ∃ w1, TP.run env (Order env owner pd ks none now) cpi i w = .ok w1 ∧ TP.Ready env w1 ks (f s) ∧ Upgrades env w1 env.tpId pd owner ∧
      ∀ j, j ≠ ks → w1.acc j = w.acc j := by
  obtain ⟨n, pn, pd0, hk, hsn, hpn⟩ := hs.addr
  obtain ⟨pn', hpn'⟩ := hu.addr
  rw [hpn] at hpn'; cases hpn'
  obtain ⟨w1, h1, h2, h3⟩ := put_ready (ctx := Order env owner pd ks none now) rfl hs (by simp [Order, Ctx.isWritable]) (hf s)
  have hl : loadSettings env (Order env owner pd ks none now) ks w = .ok (s, pn) := by
    obtain ⟨pn2, pd2, a1, a2⟩ := loadSettings_live (ctx := Order env owner pd ks none now) rfl hs
    rw [show (Order env owner pd ks none now).program = env.tpId from rfl, hpn] at a2; cases a2; exact a1
  refine ⟨w1, ?_, h2, upgrades_put hu (owner_ne hu hs.here.2.1) h3, h3⟩
  rcases hi with hi | ⟨rfl, rfl⟩
  · rw [hi]
    simp only [processChangeRole, bind_ok, acct_ok, require_ok, exists_const, Prod.exists]
    exact ⟨owner, rfl, ks, rfl, pd, rfl, by simp [Order, Ctx.isSigner], s, pn, hl, (), authorizeOwner_ok.2 ⟨hpn, hu.data⟩, h1⟩
  · simp only [run, processEnableEmergency, bind_ok, acct_ok, require_ok, exists_const, Prod.exists]
    refine ⟨owner, rfl, ks, rfl, by simp [Order, Ctx.isSigner], s, pn, hl, (), authorize_ok.2 ?_, h1⟩
    by_cases e : owner = s.guardian
    · exact .inl e
    · exact .inr ⟨e, pd, rfl, hpn, hu.data⟩

/-- C85: the owner gets the settings `s'` it wants: guardian, manager, withdrawal manager and emergency mode. Nothing else changes. -/
theorem C85_bridge {ks pd owner : Pubkey} {s0 : TP.Settings} (hd : env.Distinct) (hr : Run env L top w0 tr w) (hs : TP.Ready env w0 ks s0)
    (hl : Live w0 ks) (hu : Upgrades env w env.tpId pd owner) (s' : TP.Settings) (he : SameBridge s0 s') :
    ∃ w', Obeyed env (Order env owner pd ks none now) cpi (ordersFor s') w w' ∧ TP.Ready env w' ks s' ∧ ∀ j, j ≠ ks → w'.acc j = w.acc j := by
  obtain ⟨s, hs, hss, -⟩ := C85_stays hd hr hs hl
  obtain ⟨w1, r1, s1, u1, e1⟩ := order_step (now := now) (cpi := cpi) (i := .changeGuardian s'.guardian) (f := fun s => { s with guardian := s'.guardian })
    hs hu (fun _ => ⟨rfl, rfl⟩) (.inl fun _ _ => rfl)
  obtain ⟨w2, r2, s2, u2, e2⟩ := order_step (now := now) (cpi := cpi) (i := .changeManager s'.manager) (f := fun s => { s with manager := s'.manager })
    s1 u1 (fun _ => ⟨rfl, rfl⟩) (.inl fun _ _ => rfl)
  obtain ⟨w3, r3, s3, u3, e3⟩ := order_step (now := now) (cpi := cpi) (i := .changeWithdrawalManager s'.withdrawalManager)
    (f := fun s => { s with withdrawalManager := s'.withdrawalManager }) s2 u2 (fun _ => ⟨rfl, rfl⟩) (.inl fun _ _ => rfl)
  obtain ⟨w4, r4, s4, u4, e4⟩ := order_step (now := now) (cpi := cpi) (i := if s'.emergency then .enableEmergencyMode else .disableEmergencyMode)
    (f := fun s => { s with emergency := s'.emergency }) s3 u3 (fun _ => ⟨rfl, rfl⟩) (by
      cases s'.emergency
      · exact .inl fun _ _ => rfl
      · exact .inr ⟨rfl, rfl⟩)
  refine ⟨w4, .cons r1 (.cons r2 (.cons r3 (.cons r4 (.nil _)))), ?_, fun j hj => (e4 j hj).trans ((e3 j hj).trans ((e2 j hj).trans (e1 j hj)))⟩
  have := he.init.trans hss.init.symm
  have := he.kind.trans hss.kind.symm
  have e : ({ s with guardian := s'.guardian, manager := s'.manager, withdrawalManager := s'.withdrawalManager, emergency := s'.emergency } : TP.Settings) = s' := by
    cases s; cases s'; simp_all
  rw [← e]; exact s4

/-- One instruction of the owner on a token. -/
private theorem token_step {ks kt pd owner : Pubkey} {s : TP.Settings} {t : TokenSettings} {i : TP.Instr} {f : TokenSettings → TokenSettings}
    (hs : TP.Ready env w ks s) (ht : TokenReady env w kt t) (hu : Upgrades env w env.tpId pd owner) (hf : SameToken t (f t))
    (hi : (∀ ctx w, TP.run env ctx cpi i w = processChangeLimits env ctx f w) ∨ (i = .enableTokenEmergencyMode ∧ f = fun t => { t with emergency := true }) ∨
      (i = .disableTokenEmergencyMode ∧ f = fun t => { t with emergency := false }) ∨ ∃ x m d, i = .updateFee x m d ∧ f = setFee x ⟨m, d⟩) :
    ∃ w1, TP.run env (Order env owner pd ks (some kt) now) cpi i w = .ok w1 ∧ TP.Ready env w1 ks s ∧ TokenReady env w1 kt (f t) ∧
      Upgrades env w1 env.tpId pd owner ∧ ∀ j, j ≠ kt → w1.acc j = w.acc j := by
  obtain ⟨n, pn, pd0, hk, hsn, hpn⟩ := hs.addr
  obtain ⟨pn', hpn'⟩ := hu.addr
  rw [hpn] at hpn'; cases hpn'
  have hne : ks ≠ kt := by
    rintro rfl
    obtain ⟨-, hh, -, n, pn, hk⟩ := hs.here
    obtain ⟨-, hh', -, n', m', hk'⟩ := ht.here
    have := (head_settings hh).unique (head_token hh')
    rw [hk, hk'] at this
    cases this.2
  have hl : loadSettings env (Order env owner pd ks (some kt) now) ks w = .ok (s, pn) := by
    obtain ⟨pn2, pd2, a1, a2⟩ := loadSettings_live (ctx := Order env owner pd ks (some kt) now) rfl hs
    rw [show (Order env owner pd ks (some kt) now).program = env.tpId from rfl, hpn] at a2; cases a2; exact a1
  have hlt := loadToken_live (ctx := Order env owner pd ks (some kt) now) rfl ht
  have hau : ∀ role, authorize env (Order env owner pd ks (some kt) now) role owner pn 3 w = .ok () := fun role => authorize_ok.2 (by
    by_cases e : owner = role
    · exact .inl e
    · exact .inr ⟨e, pd, rfl, hpn, hu.data⟩)
  have hrest : ∀ w1 : World, (∀ j, j ≠ kt → w1.acc j = w.acc j) → TP.Ready env w1 ks s ∧ Upgrades env w1 env.tpId pd owner := fun w1 h =>
    ⟨⟨by unfold TP.SettingsAt; rw [h ks hne]; exact hs.here, hs.addr⟩, upgrades_put hu (owner_ne hu ht.here.2.1) h⟩
  rcases hi with hi | ⟨rfl, rfl⟩ | ⟨rfl, rfl⟩ | ⟨x, m, d, rfl, rfl⟩
  · obtain ⟨w1, h1, h2, h3⟩ := put_token_ready (ctx := Order env owner pd ks (some kt) now) rfl ht (by simp [Order, Ctx.isWritable]) hf
    refine ⟨w1, ?_, (hrest w1 h3).1, h2, (hrest w1 h3).2, h3⟩
    rw [hi]
    simp only [processChangeLimits, bind_ok, acct_ok, require_ok, exists_const, Prod.exists]
    exact ⟨owner, rfl, kt, rfl, ks, rfl, by simp [Order, Ctx.isSigner], s, pn, hl, (), hau _, t, hlt, h1⟩
  · obtain ⟨w1, h1, h2, h3⟩ := put_token_ready (ctx := Order env owner pd ks (some kt) now) rfl ht (by simp [Order, Ctx.isWritable]) hf
    refine ⟨w1, ?_, (hrest w1 h3).1, h2, (hrest w1 h3).2, h3⟩
    simp only [run, processEnableTokenEmergency, bind_ok, acct_ok, require_ok, exists_const, Prod.exists]
    exact ⟨owner, rfl, kt, rfl, ks, rfl, by simp [Order, Ctx.isSigner], s, pn, hl, (), hau _, t, hlt, h1⟩
  · obtain ⟨w1, h1, h2, h3⟩ := put_token_ready (ctx := Order env owner pd ks (some kt) now) rfl ht (by simp [Order, Ctx.isWritable]) hf
    refine ⟨w1, ?_, (hrest w1 h3).1, h2, (hrest w1 h3).2, h3⟩
    simp only [run, processDisableTokenEmergency, bind_ok, acct_ok, require_ok, exists_const, Prod.exists]
    exact ⟨owner, rfl, kt, rfl, ks, rfl, pd, rfl, by simp [Order, Ctx.isSigner], s, pn, hl, (), authorizeOwner_ok.2 ⟨hpn, hu.data⟩, t, hlt, h1⟩
  · obtain ⟨w1, h1, h2, h3⟩ := put_token_ready (ctx := Order env owner pd ks (some kt) now) (w := w.log (updateFeeLogC.enc ⟨kt, x, m, d⟩)) rfl
      (⟨ht.here, ht.addr⟩) (by simp [Order, Ctx.isWritable]) hf
    refine ⟨w1, ?_, (hrest w1 h3).1, h2, (hrest w1 h3).2, h3⟩
    simp only [run, processUpdateFee, bind_ok, acct_ok, require_ok, exists_const, Prod.exists]
    exact ⟨owner, rfl, kt, rfl, ks, rfl, by simp [Order, Ctx.isSigner], s, pn, hl, (), hau _, t, hlt, h1⟩

/-- C85: the owner gets the parameters of a token it wants: the limits, both fees and the emergency mode of the token. Nothing else changes. -/
theorem C85_token {ks kt pd owner : Pubkey} {s0 : TP.Settings} {t0 : TokenSettings} (hd : env.Distinct) (hr : Run env L top w0 tr w)
    (hs : TP.Ready env w0 ks s0) (hl : Live w0 ks) (ht : TokenReady env w0 kt t0) (hlt : Live w0 kt) (hu : Upgrades env w env.tpId pd owner) :
    ∃ t, TokenReady env w kt t ∧ ∀ t', SameToken t t' →
      ∃ w', Obeyed env (Order env owner pd ks (some kt) now) cpi (ordersForToken t') w w' ∧ TokenReady env w' kt t' ∧
        ∀ j, j ≠ kt → w'.acc j = w.acc j := by
  obtain ⟨s, hs, -, -⟩ := C85_stays hd hr hs hl
  obtain ⟨t, ht, -, -⟩ := C85_token_stays hd hr ht hlt
  refine ⟨t, ht, fun t' he => ?_⟩
  obtain ⟨w1, r1, s1, t1, u1, e1⟩ := token_step (now := now) (cpi := cpi) (i := .changeDepositLimit t'.depositLimit)
    (f := fun t => { t with depositLimit := t'.depositLimit }) hs ht hu ⟨rfl, rfl, rfl, rfl, rfl, rfl, rfl, rfl⟩ (.inl fun _ _ => rfl)
  obtain ⟨w2, r2, s2, t2, u2, e2⟩ := token_step (now := now) (cpi := cpi) (i := .changeWithdrawalLimits (some t'.withdrawalLimit) (some t'.withdrawalDailyLimit))
    (f := fun t => { t with withdrawalLimit := t'.withdrawalLimit, withdrawalDailyLimit := t'.withdrawalDailyLimit }) s1 t1 u1
    ⟨rfl, rfl, rfl, rfl, rfl, rfl, rfl, rfl⟩ (.inl fun _ _ => rfl)
  obtain ⟨w3, r3, s3, t3, u3, e3⟩ := token_step (now := now) (cpi := cpi)
    (i := .updateFee .deposit t'.feeDepositInfo.multiplier t'.feeDepositInfo.divisor)
    (f := setFee .deposit ⟨t'.feeDepositInfo.multiplier, t'.feeDepositInfo.divisor⟩) s2 t2 u2 ⟨rfl, rfl, rfl, rfl, rfl, rfl, rfl, rfl⟩
    (.inr (.inr (.inr ⟨_, _, _, rfl, rfl⟩)))
  obtain ⟨w4, r4, s4, t4, u4, e4⟩ := token_step (now := now) (cpi := cpi)
    (i := .updateFee .withdrawal t'.feeWithdrawalInfo.multiplier t'.feeWithdrawalInfo.divisor)
    (f := setFee .withdrawal ⟨t'.feeWithdrawalInfo.multiplier, t'.feeWithdrawalInfo.divisor⟩) s3 t3 u3 ⟨rfl, rfl, rfl, rfl, rfl, rfl, rfl, rfl⟩
    (.inr (.inr (.inr ⟨_, _, _, rfl, rfl⟩)))
  obtain ⟨w5, r5, s5, t5, u5, e5⟩ := token_step (now := now) (cpi := cpi)
    (i := if t'.emergency then .enableTokenEmergencyMode else .disableTokenEmergencyMode)
    (f := fun t => { t with emergency := t'.emergency }) s4 t4 u4 ⟨rfl, rfl, rfl, rfl, rfl, rfl, rfl, rfl⟩ (by
      cases t'.emergency
      · exact .inr (.inr (.inl ⟨rfl, rfl⟩))
      · exact .inr (.inl ⟨rfl, rfl⟩))
  refine ⟨w5, .cons r1 (.cons r2 (.cons r3 (.cons r4 (.cons r5 (.nil _))))), ?_,
    fun j hj => (e5 j hj).trans ((e4 j hj).trans ((e3 j hj).trans ((e2 j hj).trans (e1 j hj))))⟩
  obtain ⟨a1, a2, a3, a4, a5, a6, a7, a8⟩ := he
  have e : ({ t with depositLimit := t'.depositLimit, withdrawalLimit := t'.withdrawalLimit, withdrawalDailyLimit := t'.withdrawalDailyLimit, feeDepositInfo := t'.feeDepositInfo, feeWithdrawalInfo := t'.feeWithdrawalInfo, emergency := t'.emergency } : TokenSettings) = t' := by
    cases t; cases t'; simp_all
  rw [← e]; exact t5

/-- C85: the owner of the round loader sets the current round, the submitter, the least number of votes and the life time of rounds. -/
theorem C85_rl {ks pd owner : Pubkey} {s0 : RL.Settings} (hd : env.Distinct) (h0 : Reach env L w0) (hr : Run env L true w0 tr w) (hs : RL.Ready env w0 ks s0) (hu : Upgrades env w env.rlId pd owner)
    (round votes ttl : U32) (submitter : Pubkey) :
    ∃ w' s, RL.run env ⟨env.rlId, [owner, ks, pd], [owner], [ks], now⟩ (.updateSettings (some round) (some submitter) (some votes) (some ttl)) w = .ok w' ∧
      RL.Ready env w' ks s ∧ s.currentRoundNumber = round ∧ s.roundSubmitter = submitter ∧ s.minRequiredVotes = votes ∧ s.roundTtl = ttl ∧
      ∀ j, j ≠ ks → w'.acc j = w.acc j := by
  obtain ⟨s, hs⟩ := C85_rl_stays hd h0 hr hs
  obtain ⟨⟨ho, ⟨b, tl, hb, hl, hdec⟩, hi⟩, n, pn, pd2, hk, hn, hpn⟩ := hs
  obtain ⟨pn', hpn'⟩ := hu.addr
  rw [hpn] at hpn'; cases hpn'
  let s1 : RL.Settings := { s with currentRoundNumber := round, roundSubmitter := submitter, minRequiredVotes := votes, roundTtl := ttl }
  obtain ⟨w2, h1, h2, h3, -, h5, -⟩ := pack_live (ctx := ⟨env.rlId, [owner, ks, pd], [owner], [ks], now⟩) (c := RL.settingsC) (len := RL.settingsLen) (k := ks) (w := w)
    (a := s1) hb hl (RL.wf_settings _) (RL.len_settings n pn hk) (by simp [Ctx.isWritable]) ho
  refine ⟨w2, s1, ?_, ⟨⟨h3.trans ho, h2, hi⟩, n, pn, pd, hk, hn, hpn⟩, rfl, rfl, rfl, rfl, h5⟩
  simp only [RL.run, RL.processUpdateSettings, bind_ok, acct_ok, require_ok, exists_const, Prod.exists, validateInitializer_ok, unpack_holds,
    orErr_ok, intoSettings_some, validateSettings, validatePda_ok, validateProgramdata_ok]
  exact ⟨owner, rfl, ks, rfl, pd, rfl, by simp [Ctx.isSigner], s, ⟨⟨b, tl, hb, hl, hdec⟩, hi⟩, n, pn, hk, hn, ho, hpn, hu.data, h1⟩

/-! ## On the toy chain -/

private theorem toy_bridge {w1 w2 : World} {c : Ctx} {i : TP.Instr} (h : TP.run Toy.env c noCpi i w1 = .ok w2) (hc : c.program = Toy.env.tpId)
    (hf : ∀ k ∈ c.signers, ¬ Toy.L k)
    (h1 : Toy.tchk TP.settingsC (fun s => s.isInitialized && (Toy.kindSettings s.accountKind && true)) w1 Toy.tpSettings = true)
    (h2 : Nat.ble 1 (w1.acc Toy.tpSettings).lamports = true)
    (h3 : Toy.tchk tokenSettingsC (fun s => s.isInitialized && (Toy.kindToken s.accountKind &&
      (Toy.same (Toy.addr (tokenSeeds Toy.env s.kind) Toy.env.tpId) Toy.tpGold && true))) w1 Toy.tpGold = true)
    (h4 : Nat.ble 1 (w1.acc Toy.tpGold).lamports = true) (h5 : Toy.isUpgrader w2 Toy.env.tpId Toy.authority = true) :
    (∃ s, TP.Ready Toy.env w1 Toy.tpSettings s ∧ ∃ w', Obeyed Toy.env (Order Toy.env Toy.authority Toy.tpProgramdata Toy.tpSettings none 1000) noCpi
      (ordersFor { s with guardian := Toy.alice, emergency := false }) w2 w' ∧
      TP.Ready Toy.env w' Toy.tpSettings { s with guardian := Toy.alice, emergency := false }) ∧
    ∃ t, TokenReady Toy.env w2 Toy.tpGold t ∧ ∃ w', Obeyed Toy.env (Order Toy.env Toy.authority Toy.tpProgramdata Toy.tpSettings (some Toy.tpGold) 1000) noCpi
      (ordersForToken { t with depositLimit := 9, emergency := true }) w2 w' ∧
      TokenReady Toy.env w' Toy.tpGold { t with depositLimit := 9, emergency := true } := by
  have hr : Run Toy.env Toy.L true w1 ([] ++ [⟨.tp c i, w1, w2⟩]) w2 := .tp c i (.nil _ _) hc hf h
  obtain ⟨s, hs, -⟩ := Toy.tp_ready (P := fun _ => true) h1
  obtain ⟨t, ht, -⟩ := Toy.tp_token (P := fun _ => true) h3
  have hl := Nat.le_of_ble_eq_true h2
  have hlt := Nat.le_of_ble_eq_true h4
  have hu := Toy.upgrades h5
  obtain ⟨w3, a1, a2, -⟩ := C85_bridge (now := 1000) (cpi := noCpi) Toy.distinct hr hs hl hu { s with guardian := Toy.alice, emergency := false } ⟨rfl, rfl⟩
  obtain ⟨t2, b1, b2⟩ := C85_token (now := 1000) (cpi := noCpi) Toy.distinct hr hs hl ht hlt hu
  obtain ⟨w4, b2, b3, -⟩ := b2 { t2 with depositLimit := 9, emergency := true } ⟨rfl, rfl, rfl, rfl, rfl, rfl, rfl, rfl⟩
  exact ⟨⟨s, hs, w3, a1, a2⟩, t2, b1, w4, b2, b3⟩

/-- The guardian has stopped the bridge; the owner appoints another guardian and opens it again, and stops one token. -/
example : (∃ s, TP.Ready Toy.env (Toy.get Toy.tpDeposited) Toy.tpSettings s ∧
      ∃ w', Obeyed Toy.env (Order Toy.env Toy.authority Toy.tpProgramdata Toy.tpSettings none 1000) noCpi
      (ordersFor { s with guardian := Toy.alice, emergency := false }) (Toy.get Toy.tpEmerg) w' ∧
      TP.Ready Toy.env w' Toy.tpSettings { s with guardian := Toy.alice, emergency := false }) ∧
    ∃ t, TokenReady Toy.env (Toy.get Toy.tpEmerg) Toy.tpGold t ∧
      ∃ w', Obeyed Toy.env (Order Toy.env Toy.authority Toy.tpProgramdata Toy.tpSettings (some Toy.tpGold) 1000) noCpi
      (ordersForToken { t with depositLimit := 9, emergency := true }) (Toy.get Toy.tpEmerg) w' ∧
      TokenReady Toy.env w' Toy.tpGold { t with depositLimit := 9, emergency := true } := by
  have hrun : TP.run Toy.env (Toy.tctx [Toy.guardian, Toy.tpSettings] [Toy.guardian]) noCpi .enableEmergencyMode (Toy.get Toy.tpDeposited) = .ok (Toy.get Toy.tpEmerg) :=
    Toy.get_tp (a := Toy.tpDeposited) (by decide +kernel)
  exact toy_bridge hrun rfl (Toy.free (by decide +kernel)) (by decide +kernel) (by decide +kernel) (by decide +kernel) (by decide +kernel) (by decide +kernel)

private theorem toy_rl {w1 w2 : World} {c : Ctx} {i : RL.Instr} (h0 : Reach Toy.env Toy.L w1) (h : RL.run Toy.env c i w1 = .ok w2)
    (hc : c.program = Toy.env.rlId) (hf : ∀ k ∈ c.signers, ¬ Toy.L k)
    (h1 : Toy.chk RL.settingsC RL.settingsLen (fun s => s.isInitialized && (Toy.kindSettings s.accountKind && true)) w1 Toy.rlSettings = true)
    (h5 : Toy.isUpgrader w2 Toy.env.rlId Toy.authority = true) :
    ∃ w' s, RL.run Toy.env ⟨Toy.env.rlId, [Toy.authority, Toy.rlSettings, Toy.addr [seedKey Toy.env.rlId] Toy.env.loaderId], [Toy.authority], [Toy.rlSettings], 1000⟩
      (.updateSettings (some 7) (some Toy.alice) (some 2) (some 60)) w2 = .ok w' ∧ RL.Ready Toy.env w' Toy.rlSettings s ∧ s.minRequiredVotes = 2 := by
  obtain ⟨s, hs, -⟩ := Toy.rl_ready (P := fun _ => true) h1
  have hr : Run Toy.env Toy.L true w1 ([] ++ [⟨.rl c i, w1, w2⟩]) w2 := .rl c i (.nil _ _) hc hf h
  obtain ⟨w', s', a1, a2, -, -, a3, -⟩ := C85_rl (now := 1000) Toy.distinct h0 hr hs (Toy.upgrades h5) 7 2 60 Toy.alice
  exact ⟨w', s', a1, a2, a3⟩

/-- After the relays have replaced themselves. -/
example : ∃ w' s, RL.run Toy.env ⟨Toy.env.rlId, [Toy.authority, Toy.rlSettings, Toy.addr [seedKey Toy.env.rlId] Toy.env.loaderId], [Toy.authority], [Toy.rlSettings], 1000⟩
      (.updateSettings (some 7) (some Toy.alice) (some 2) (some 60)) (Toy.get Toy.rlExecuted) = .ok w' ∧ RL.Ready Toy.env w' Toy.rlSettings s ∧
      s.minRequiredVotes = 2 := by
  have hrun : RL.run Toy.env Toy.rlExecuteCtx .executeProposal (Toy.get Toy.rlVoted) = .ok (Toy.get Toy.rlExecuted) := Toy.get_bind (a := Toy.rlVoted) (by decide +kernel)
  exact toy_rl Toy.reach_voted hrun rfl (Toy.free (by decide +kernel)) (by decide +kernel) (by decide +kernel)

end Verif.Props
