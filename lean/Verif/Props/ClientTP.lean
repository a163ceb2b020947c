import Verif.Spec.ToyTactic
import Verif.Lemmas.LiveTP
import Verif.Spec.ToyClientTP
import Verif.Props.Encoding
/-!
# C52: client builders of the token proxy, part 1: data, administration, votes and closing
-/
set_option linter.unusedSimpArgs false
set_option maxRecDepth 100000
namespace Verif.Props
open Verif Codec TP

variable {env : Env} {w : World} {ix : Ix} {now : I64}

/-- The instruction goes to the token proxy and its data decodes to `i`. -/
def SaysTP (env : Env) (ix : Ix) (i : TP.Instr) : Prop := ix.program = env.tpId ∧ TP.Instr.codec.decAll ix.data = some i

private theorem says_last {i : TP.Instr} {m : List Meta}
    (h : (packed Instr.codec i >>= fun d => (.ok ⟨env.tpId, m, d⟩ : Except Err Ix)) = .ok ix) : SaysTP env ix i := by
  simp only [bind_ok, packed_ok, Except.ok.injEq] at h
  obtain ⟨_, ⟨hwf, rfl⟩, rfl⟩ := h
  exact ⟨rfl, decAll_enc _ _ hwf⟩

private theorem says_mid {i : TP.Instr} {α : Type} {q : Except Err α} {m : α → List Meta}
    (h : (packed Instr.codec i >>= fun d => q >>= fun x => (.ok ⟨env.tpId, m x, d⟩ : Except Err Ix)) = .ok ix) : SaysTP env ix i := by
  simp only [bind_ok, packed_ok, Except.ok.injEq] at h
  obtain ⟨_, ⟨hwf, rfl⟩, _, _, rfl⟩ := h
  exact ⟨rfl, decAll_enc _ _ hwf⟩

private theorem says_bind {α : Type} {q : Except Err α} {f : α → Except Err Ix} {Q : Prop} (hq : ∀ x, f x = .ok ix → Q) (h : (q >>= f) = .ok ix) : Q := by
  obtain ⟨x, _, h⟩ := bind_ok.1 h
  exact hq x h

local macro "says" : tactic => `(tactic| repeat (first
    | exact says_last | exact says_mid | refine says_bind (fun _ => ?_) | split))

/-- C52, data: the builders of deposits, requests, votes and payouts say what was asked for. -/
theorem C52_tp_data :
    (∀ f a g m wm, TP.Client.initializeIx env f a g m wm = .ok ix → SaysTP env ix (.init g m wm)) ∧
    (∀ f a at' t s n r v e p, TP.Client.depositEverIx env f a at' t s n r v e p = .ok ix → SaysTP env ix (.depositMultiTokenEver s n r v e p)) ∧
    (∀ f a at' mi s nm y n r v e p, TP.Client.depositSolIx env f a at' mi s nm y n r v e p = .ok ix →
      SaysTP env ix (.depositMultiTokenSol s nm y n r v e p)) ∧
    (∀ f a n p e att, TP.Client.everRequestIx env f a n p e att = .ok ix →
      SaysTP env ix (.withdrawMultiTokenEverRequest p e.token e.name e.symbol e.decimals e.recipient e.amount e.payload att)) ∧
    (∀ f a p n e att, TP.Client.solRequestIx env f a p n e att = .ok ix →
      SaysTP env ix (.withdrawMultiTokenSolRequest p e.recipient e.amount e.payload att)) ∧
    (∀ k wd n v, TP.Client.voteIx env k wd n v = .ok ix → SaysTP env ix (.voteForWithdrawRequest v)) ∧
    (∀ wd to t, TP.Client.withdrawEverIx env wd to t = .ok ix → SaysTP env ix .withdrawMultiTokenEver) ∧
    (∀ wd to t, TP.Client.withdrawEverPayloadIx env wd to t = .ok ix → SaysTP env ix .withdrawMultiTokenEver) ∧
    (∀ f wd to t, TP.Client.createEverTokenIx env f wd to t = .ok ix → SaysTP env ix .withdrawMultiTokenEver) ∧
    (∀ f wd to t, TP.Client.createEverTokenPayloadIx env f wd to t = .ok ix → SaysTP env ix .withdrawMultiTokenEver) ∧
    (∀ wd to mi, TP.Client.withdrawSolIx env wd to mi = .ok ix → SaysTP env ix .withdrawMultiTokenSol) ∧
    (∀ wd to mi, TP.Client.withdrawSolPayloadIx env wd to mi = .ok ix → SaysTP env ix .withdrawMultiTokenSol) := by
  refine ⟨?_, ?_, ?_, ?_, ?_, ?_, ?_, ?_, ?_, ?_, ?_, ?_⟩ <;> intros <;> revert ‹_ = Except.ok ix› <;>
    simp only [TP.Client.initializeIx, TP.Client.depositEverIx, TP.Client.depositSolIx, TP.Client.everRequestIx, TP.Client.solRequestIx,
      TP.Client.voteIx, TP.Client.withdrawEverIx, TP.Client.withdrawEverPayloadIx, TP.Client.createEverTokenIx,
      TP.Client.createEverTokenPayloadIx, TP.Client.withdrawSolIx, TP.Client.withdrawSolPayloadIx] <;> says

/-- C52, data: the builders of administration say what was asked for. -/
theorem C52_tp_admin_data :
    (∀ o k, TP.Client.changeGuardianIx env o k = .ok ix → SaysTP env ix (.changeGuardian k)) ∧
    (∀ o k, TP.Client.changeManagerIx env o k = .ok ix → SaysTP env ix (.changeManager k)) ∧
    (∀ o k, TP.Client.changeWithdrawalManagerIx env o k = .ok ix → SaysTP env ix (.changeWithdrawalManager k)) ∧
    (∀ a t n, TP.Client.changeDepositLimitIx env a t n = .ok ix → SaysTP env ix (.changeDepositLimit n)) ∧
    (∀ a t n, TP.Client.changeDepositLimitByOwnerIx env a t n = .ok ix → SaysTP env ix (.changeDepositLimit n)) ∧
    (∀ a t n m, TP.Client.changeWithdrawalLimitsIx env a t n m = .ok ix → SaysTP env ix (.changeWithdrawalLimits n m)) ∧
    (∀ a t n m, TP.Client.changeWithdrawalLimitsByOwnerIx env a t n m = .ok ix → SaysTP env ix (.changeWithdrawalLimits n m)) ∧
    (∀ a, TP.Client.enableEmergencyIx env a = .ok ix → SaysTP env ix .enableEmergencyMode) ∧
    (∀ a, TP.Client.enableEmergencyByOwnerIx env a = .ok ix → SaysTP env ix .enableEmergencyMode) ∧
    (∀ a, TP.Client.disableEmergencyIx env a = .ok ix → SaysTP env ix .disableEmergencyMode) ∧
    (∀ a t, TP.Client.enableTokenEmergencyIx env a t = .ok ix → SaysTP env ix .enableTokenEmergencyMode) ∧
    (∀ a t, TP.Client.enableTokenEmergencyByOwnerIx env a t = .ok ix → SaysTP env ix .enableTokenEmergencyMode) ∧
    (∀ a t, TP.Client.disableTokenEmergencyIx env a t = .ok ix → SaysTP env ix .disableTokenEmergencyMode) ∧
    (∀ a t f m d, TP.Client.updateFeeIx env a t f m d = .ok ix → SaysTP env ix (.updateFee f m d)) ∧
    (∀ a t y n, TP.Client.updateTokenNameIx env a t y n = .ok ix → SaysTP env ix (.updateTokenName y n)) := by
  refine ⟨?_, ?_, ?_, ?_, ?_, ?_, ?_, ?_, ?_, ?_, ?_, ?_, ?_, ?_, ?_⟩ <;> intros <;> revert ‹_ = Except.ok ix› <;>
    simp only [TP.Client.changeGuardianIx, TP.Client.changeManagerIx, TP.Client.changeWithdrawalManagerIx, TP.Client.changeDepositLimitIx,
      TP.Client.changeDepositLimitByOwnerIx, TP.Client.changeWithdrawalLimitsIx, TP.Client.changeWithdrawalLimitsByOwnerIx,
      TP.Client.enableEmergencyIx, TP.Client.enableEmergencyByOwnerIx, TP.Client.disableEmergencyIx, TP.Client.enableTokenEmergencyIx,
      TP.Client.enableTokenEmergencyByOwnerIx, TP.Client.disableTokenEmergencyIx, TP.Client.updateFeeIx, TP.Client.updateTokenNameIx,
      TP.Client.changeRoleIx, TP.Client.tokenAdminIx, TP.Client.tokenOwnerIx] <;> says

/-- C52, data: the remaining builders say what was asked for. -/
theorem C52_tp_rest_data :
    (∀ a wd to mi t, TP.Client.approveEverIx env a wd to mi t = .ok ix → SaysTP env ix .approveWithdrawEver) ∧
    (∀ a wd to mi, TP.Client.approveSolIx env a wd to mi = .ok ix → SaysTP env ix .approveWithdrawSol) ∧
    (∀ a mi to t n, TP.Client.withdrawEverFeeIx env a mi to t n = .ok ix → SaysTP env ix (.withdrawEverFee n)) ∧
    (∀ a to mi n, TP.Client.withdrawSolFeeIx env a to mi n = .ok ix → SaysTP env ix (.withdrawSolFee n)) ∧
    (∀ a wd n, TP.Client.changeBountyIx env a wd n = .ok ix → SaysTP env ix (.changeBountyForWithdrawSol n)) ∧
    (∀ f a wd mi s r v e p, TP.Client.cancelIx env f a wd mi s r v e p = .ok ix → SaysTP env ix (.cancelWithdrawSol s r v e p)) ∧
    (∀ f a mi s r n wds va v e p, TP.Client.fillIx env f a mi s r n wds va v e p = .ok ix → SaysTP env ix (.fillWithdrawSol s r n v e p)) ∧
    (∀ k to mi n, TP.Client.withdrawProxyIx env k to mi n = .ok ix → SaysTP env ix (.withdrawProxy n)) ∧
    (∀ a d, TP.Client.closeDepositIx env a d = .ok ix → SaysTP env ix .closeDeposit) ∧
    (∀ wd a, TP.Client.closeWithdrawalIx env wd a = .ok ix → SaysTP env ix .closeWithdrawal) ∧
    (∀ a to n, TP.Client.withdrawMultiVaultIx env a to n = .ok ix → SaysTP env ix (.withdrawMultiVault n)) := by
  refine ⟨?_, ?_, ?_, ?_, ?_, ?_, ?_, ?_, ?_, ?_, ?_⟩ <;> intros <;> revert ‹_ = Except.ok ix› <;>
    simp only [TP.Client.approveEverIx, TP.Client.approveSolIx, TP.Client.withdrawEverFeeIx, TP.Client.withdrawSolFeeIx, TP.Client.changeBountyIx,
      TP.Client.cancelIx, TP.Client.fillIx, TP.Client.withdrawProxyIx, TP.Client.closeDepositIx, TP.Client.closeWithdrawalIx,
      TP.Client.withdrawMultiVaultIx] <;> says

/-- a deposit on the toy chain, for instance, is built and decodes -/
example : ∃ ix, TP.Client.depositEverIx Toy.env Toy.funder Toy.bob Toy.bobStar Toy.star 4 700 Toy.home 7 0 [] = .ok ix ∧
    SaysTP Toy.env ix (.depositMultiTokenEver 4 700 Toy.home 7 0 []) := by
  obtain ⟨ix, h⟩ := Toy.ix (r := TP.Client.depositEverIx Toy.env Toy.funder Toy.bob Toy.bobStar Toy.star 4 700 Toy.home 7 0 []) (by decide +kernel)
  exact ⟨ix, h, C52_tp_data.2.1 _ _ _ _ _ _ _ _ _ _ h⟩

variable {cpi : Pubkey → World → Except Err World}

/-- The token proxy carries the instruction out. -/
def Accepted (env : Env) (cpi : Pubkey → World → Except Err World) (now : I64) (w : World) (ix : Ix) : Prop :=
  ∃ w', TP.process env (ix.ctx now) cpi ix.data w = .ok w'

/-! ## Roles and emergency mode -/

private theorem role_ix {i : TP.Instr} {f : Settings → Settings} {ks pd owner : Pubkey} {s : Settings} (hs : TP.Ready env w ks s)
    (hu : Upgrades env w env.tpId pd owner) (hrun : ∀ ctx, TP.run env ctx cpi i w = processChangeRole env ctx f w)
    (h : TP.Client.changeRoleIx env i owner = .ok ix) : Accepted env cpi now w ix := by
  obtain ⟨n, pn, pd0, hk, hsn, hpn⟩ := hs.addr
  obtain ⟨pn', hpn'⟩ := hu.addr
  simp only [TP.Client.changeRoleIx, TP.Client.settingsAddr, programdataAddr, bind_ok, addrOf_ok, packed_ok, Except.ok.injEq] at h
  obtain ⟨ks', ⟨ns', hks'⟩, pd'', ⟨np', hpd⟩, _, ⟨hwf, rfl⟩, rfl⟩ := h
  rw [hsn] at hks'; rw [hpn] at hpd hpn'
  cases hks'; cases hpd; cases hpn'
  unfold Accepted
  rw [process_enc hwf]
  generalize hc : Ix.ctx _ now = ctx
  have hprog : ctx.program = env.tpId := by rw [← hc]; rfl
  obtain ⟨pn', pd', hl, hd⟩ := loadSettings_live hprog hs
  have ha : authorizeOwner env ctx owner pd pn' w = .ok () := authorizeOwner_ok.2 ⟨by
    rw [hprog] at hd ⊢; rw [hpn] at hd; cases hd; exact hpn, hu.data⟩
  obtain ⟨w1, h1, -⟩ := putSettings_live (s' := f s) hprog hs.here (by rw [← hc]; built)
  refine ⟨w1, ?_⟩
  rw [hrun]
  simp only [processChangeRole, bind_ok, acct_ok, require_ok, exists_const, Prod.exists]
  refine ⟨owner, by rw [← hc]; rfl, ks, by rw [← hc]; rfl, pd, by rw [← hc]; rfl, by rw [← hc]; built, s, pn', hl, (), ha, h1⟩

/-- C52: the builders of role changes are accepted from the upgrade authority. -/
theorem C52_tp_roles {ks pd owner : Pubkey} {s : Settings} (hs : TP.Ready env w ks s) (hu : Upgrades env w env.tpId pd owner) :
    (∀ k, TP.Client.changeGuardianIx env owner k = .ok ix → Accepted env cpi now w ix) ∧
    (∀ k, TP.Client.changeManagerIx env owner k = .ok ix → Accepted env cpi now w ix) ∧
    (∀ k, TP.Client.changeWithdrawalManagerIx env owner k = .ok ix → Accepted env cpi now w ix) ∧
    (TP.Client.disableEmergencyIx env owner = .ok ix → Accepted env cpi now w ix) :=
  ⟨fun k h => role_ix (f := fun s => { s with guardian := k }) hs hu (fun _ => rfl) h,
   fun k h => role_ix (f := fun s => { s with manager := k }) hs hu (fun _ => rfl) h,
   fun k h => role_ix (f := fun s => { s with withdrawalManager := k }) hs hu (fun _ => rfl) h,
   fun h => role_ix (f := fun s => { s with emergency := false }) hs hu (fun _ => rfl) h⟩

/-- on the toy chain -/
example : ∃ ix, TP.Client.changeManagerIx Toy.env Toy.authority Toy.alice = .ok ix ∧ Accepted Toy.env noCpi 1000 (Toy.get Toy.tpDeposited) ix := by
  obtain ⟨ix, h⟩ := Toy.ix (r := TP.Client.changeManagerIx Toy.env Toy.authority Toy.alice) ?_
  obtain ⟨s, hs, -⟩ := Toy.tp_ready (P := fun _ => true) (w := Toy.get Toy.tpDeposited) ?_
  refine ⟨ix, h, (C52_tp_roles hs (Toy.upgrades ?_)).2.1 _ h⟩
  checked

/-- C52: the builders of the emergency switch are accepted from the guardian and from the upgrade authority. -/
theorem C52_tp_emergency {ks : Pubkey} {s : Settings} (hs : TP.Ready env w ks s) :
    (TP.Client.enableEmergencyIx env s.guardian = .ok ix → Accepted env cpi now w ix) ∧
    (∀ pd owner, Upgrades env w env.tpId pd owner → TP.Client.enableEmergencyByOwnerIx env owner = .ok ix → Accepted env cpi now w ix) := by
  obtain ⟨n, pn, pd0, hk, hsn, hpn⟩ := hs.addr
  constructor
  · intro h
    simp only [TP.Client.enableEmergencyIx, TP.Client.settingsAddr, bind_ok, addrOf_ok, packed_ok, Except.ok.injEq] at h
    obtain ⟨ks', ⟨ns', hks'⟩, _, ⟨hwf, rfl⟩, rfl⟩ := h
    rw [hsn] at hks'; cases hks'
    unfold Accepted
    rw [process_enc hwf]
    generalize hc : Ix.ctx _ now = ctx
    have hprog : ctx.program = env.tpId := by rw [← hc]; rfl
    obtain ⟨pn', pd', hl, hd⟩ := loadSettings_live hprog hs
    obtain ⟨w1, h1, -⟩ := putSettings_live (s' := { s with emergency := true }) hprog hs.here (by rw [← hc]; built)
    refine ⟨w1, ?_⟩
    simp only [run, processEnableEmergency, bind_ok, acct_ok, require_ok, exists_const, Prod.exists]
    exact ⟨s.guardian, by rw [← hc]; rfl, ks, by rw [← hc]; rfl, by rw [← hc]; built, s, pn', hl, (), authorize_ok.2 (.inl rfl), h1⟩
  · intro pd owner hu h
    obtain ⟨pn', hpn'⟩ := hu.addr
    simp only [TP.Client.enableEmergencyByOwnerIx, TP.Client.changeRoleIx, TP.Client.settingsAddr, programdataAddr, bind_ok, addrOf_ok, packed_ok,
      Except.ok.injEq] at h
    obtain ⟨ks', ⟨ns', hks'⟩, pd'', ⟨np', hpd⟩, _, ⟨hwf, rfl⟩, rfl⟩ := h
    rw [hsn] at hks'; rw [hpn] at hpd hpn'
    cases hks'; cases hpd; cases hpn'
    unfold Accepted
    rw [process_enc hwf]
    generalize hc : Ix.ctx _ now = ctx
    have hprog : ctx.program = env.tpId := by rw [← hc]; rfl
    obtain ⟨pn', pd', hl, hd⟩ := loadSettings_live hprog hs
    have hpd : findAddr env [seedKey ctx.program] env.loaderId = .ok (pd0, pn') := by
      rw [hprog] at hd ⊢; rw [hpn] at hd; cases hd; exact hpn
    obtain ⟨w1, h1, -⟩ := putSettings_live (s' := { s with emergency := true }) hprog hs.here (by rw [← hc]; built)
    refine ⟨w1, ?_⟩
    simp only [run, processEnableEmergency, bind_ok, acct_ok, require_ok, exists_const, Prod.exists]
    refine ⟨owner, by rw [← hc]; rfl, ks, by rw [← hc]; rfl, by rw [← hc]; built, s, pn', hl, (), authorize_ok.2 ?_, h1⟩
    by_cases e : owner = s.guardian
    · exact .inl e
    · exact .inr ⟨e, pd0, by rw [← hc]; rfl, hpd, hu.data⟩

/-- on the toy chain -/
example : ∃ ix, TP.Client.enableEmergencyIx Toy.env Toy.guardian = .ok ix ∧ Accepted Toy.env noCpi 1000 (Toy.get Toy.tpDeposited) ix := by
  obtain ⟨ix, h⟩ := Toy.ix (r := TP.Client.enableEmergencyIx Toy.env Toy.guardian) ?_
  obtain ⟨s, hs, hg⟩ := Toy.tp_ready (P := fun s => Toy.same s.guardian Toy.guardian) (w := Toy.get Toy.tpDeposited) ?_
  exact ⟨ix, h, (C52_tp_emergency hs).1 (by rw [Toy.same_eq hg]; exact h)⟩
  checked

/-! ## Settings of a token -/

/-- What the instructions on the settings of a token have in common. -/
private def tokenOp (env : Env) (role : Settings → Pubkey) (f : TokenSettings → TokenSettings) (l : Pubkey → Option Bytes) (ctx : Ctx) (w : World) :
    Except Err World := do
  let authority ← acct ctx 0
  let tokenSettings ← acct ctx 1
  let settings ← acct ctx 2
  require (ctx.isSigner authority = true) .missingRequiredSignature
  let (s, pd) ← loadSettings env ctx settings w
  authorize env ctx (role s) authority pd 3 w
  let ts ← loadToken env ctx tokenSettings w
  putToken ctx (f ts) tokenSettings ((l tokenSettings).elim w w.log)

private theorem token_ix {i : TP.Instr} {role : Settings → Pubkey} {f : TokenSettings → TokenSettings} {l : Pubkey → Option Bytes}
    {ks kt : Pubkey} {s : Settings} {t : TokenSettings} (hs : TP.Ready env w ks s) (ht : TokenReady env w kt t)
    (hrun : ∀ ctx, TP.run env ctx cpi i w = tokenOp env role f l ctx w)
    (hf : ∀ t, (f t).accountKind = t.accountKind ∧ (f t).kind = t.kind ∧ (f t).name = t.name ∧ (f t).symbol = t.symbol) :
    (TP.Client.tokenAdminIx env i (role s) kt = .ok ix → Accepted env cpi now w ix) ∧
    (∀ pd owner, Upgrades env w env.tpId pd owner → TP.Client.tokenOwnerIx env i owner kt = .ok ix → Accepted env cpi now w ix) := by
  obtain ⟨n, pn, pd0, hk, hsn, hpn⟩ := hs.addr
  constructor
  · intro h
    simp only [TP.Client.tokenAdminIx, TP.Client.settingsAddr, bind_ok, addrOf_ok, packed_ok, Except.ok.injEq] at h
    obtain ⟨ks', ⟨ns', hks'⟩, _, ⟨hwf, rfl⟩, rfl⟩ := h
    rw [hsn] at hks'; cases hks'
    unfold Accepted
    rw [process_enc hwf]
    generalize hc : Ix.ctx _ now = ctx
    have hprog : ctx.program = env.tpId := by rw [← hc]; rfl
    obtain ⟨pn', pd', hl, hd⟩ := loadSettings_live hprog hs
    obtain ⟨f1, f2, f3, f4⟩ := hf t
    obtain ⟨w1, h1, -⟩ := putToken_live (w := (l kt).elim w w.log) (t' := f t) hprog (by cases l kt <;> exact ht.here) (by rw [← hc]; built) f1 f2 f3 f4
    refine ⟨w1, ?_⟩
    rw [hrun]
    simp only [tokenOp, bind_ok, acct_ok, require_ok, exists_const, Prod.exists]
    exact ⟨role s, by rw [← hc]; rfl, kt, by rw [← hc]; rfl, ks, by rw [← hc]; rfl, by rw [← hc]; built, s, pn', hl, (), authorize_ok.2 (.inl rfl),
      t, loadToken_live hprog ht, h1⟩
  · intro pd owner hu h
    obtain ⟨pn', hpn'⟩ := hu.addr
    simp only [TP.Client.tokenOwnerIx, TP.Client.settingsAddr, programdataAddr, bind_ok, addrOf_ok, packed_ok, Except.ok.injEq] at h
    obtain ⟨ks', ⟨ns', hks'⟩, pd'', ⟨np', hpd⟩, _, ⟨hwf, rfl⟩, rfl⟩ := h
    rw [hsn] at hks'; rw [hpn] at hpd hpn'
    cases hks'; cases hpd; cases hpn'
    unfold Accepted
    rw [process_enc hwf]
    generalize hc : Ix.ctx _ now = ctx
    have hprog : ctx.program = env.tpId := by rw [← hc]; rfl
    obtain ⟨pn', pd', hl, hd⟩ := loadSettings_live hprog hs
    have hpd : findAddr env [seedKey ctx.program] env.loaderId = .ok (pd0, pn') := by
      rw [hprog] at hd ⊢; rw [hpn] at hd; cases hd; exact hpn
    obtain ⟨f1, f2, f3, f4⟩ := hf t
    obtain ⟨w1, h1, -⟩ := putToken_live (w := (l kt).elim w w.log) (t' := f t) hprog (by cases l kt <;> exact ht.here) (by rw [← hc]; built) f1 f2 f3 f4
    refine ⟨w1, ?_⟩
    rw [hrun]
    simp only [tokenOp, bind_ok, acct_ok, require_ok, exists_const, Prod.exists]
    refine ⟨owner, by rw [← hc]; rfl, kt, by rw [← hc]; rfl, ks, by rw [← hc]; rfl, by rw [← hc]; built, s, pn', hl, (), authorize_ok.2 ?_,
      t, loadToken_live hprog ht, h1⟩
    by_cases e : owner = role s
    · exact .inl e
    · exact .inr ⟨e, pd0, by rw [← hc]; rfl, hpd, hu.data⟩

/-- C52: the builders that change the settings of a token are accepted from the manager, from the guardian for the emergency switch, and, with
the program data account, from the upgrade authority. -/
theorem C52_tp_token {ks kt : Pubkey} {s : Settings} {t : TokenSettings} (hs : TP.Ready env w ks s) (ht : TokenReady env w kt t) :
    (∀ n, TP.Client.changeDepositLimitIx env s.manager kt n = .ok ix → Accepted env cpi now w ix) ∧
    (∀ a b, TP.Client.changeWithdrawalLimitsIx env s.manager kt a b = .ok ix → Accepted env cpi now w ix) ∧
    (TP.Client.enableTokenEmergencyIx env s.guardian kt = .ok ix → Accepted env cpi now w ix) ∧
    (∀ f m d, TP.Client.updateFeeIx env s.manager kt f m d = .ok ix → Accepted env cpi now w ix) ∧
    (∀ pd owner, Upgrades env w env.tpId pd owner →
      (∀ n, TP.Client.changeDepositLimitByOwnerIx env owner kt n = .ok ix → Accepted env cpi now w ix) ∧
      (∀ a b, TP.Client.changeWithdrawalLimitsByOwnerIx env owner kt a b = .ok ix → Accepted env cpi now w ix) ∧
      (TP.Client.enableTokenEmergencyByOwnerIx env owner kt = .ok ix → Accepted env cpi now w ix) ∧
      (TP.Client.disableTokenEmergencyIx env owner kt = .ok ix → Accepted env cpi now w ix)) := by
  have hlim := fun n => token_ix (ix := ix) (now := now) (cpi := cpi) (i := .changeDepositLimit n) (role := (·.manager))
    (f := fun ts => { ts with depositLimit := n }) (l := fun _ => none) hs ht (fun _ => rfl) (fun _ => ⟨rfl, rfl, rfl, rfl⟩)
  have hwl := fun a b => token_ix (ix := ix) (now := now) (cpi := cpi) (i := .changeWithdrawalLimits a b) (role := (·.manager))
    (f := fun t => { t with withdrawalLimit := a.getD t.withdrawalLimit, withdrawalDailyLimit := b.getD t.withdrawalDailyLimit })
    (l := fun _ => none) hs ht (fun _ => rfl) (fun _ => ⟨rfl, rfl, rfl, rfl⟩)
  have hem := token_ix (ix := ix) (now := now) (cpi := cpi) (i := .enableTokenEmergencyMode) (role := (·.guardian))
    (f := fun ts => { ts with emergency := true }) (l := fun _ => none) hs ht (fun _ => rfl) (fun _ => ⟨rfl, rfl, rfl, rfl⟩)
  have hfee := fun f m d => token_ix (ix := ix) (now := now) (cpi := cpi) (i := .updateFee f m d) (role := (·.manager))
    (f := setFee f ⟨m, d⟩) (l := fun kt => some (updateFeeLogC.enc ⟨kt, f, m, d⟩)) hs ht (fun _ => rfl)
    (fun _ => by cases f <;> exact ⟨rfl, rfl, rfl, rfl⟩)
  refine ⟨fun n => (hlim n).1, fun a b => (hwl a b).1, hem.1, fun f m d => (hfee f m d).1, fun pd owner hu =>
    ⟨fun n => (hlim n).2 pd owner hu, fun a b => (hwl a b).2 pd owner hu, hem.2 pd owner hu, fun h => ?_⟩⟩
  obtain ⟨n, pn, pd0, hk, hsn, hpn⟩ := hs.addr
  obtain ⟨pn', hpn'⟩ := hu.addr
  simp only [TP.Client.disableTokenEmergencyIx, TP.Client.tokenOwnerIx, TP.Client.settingsAddr, programdataAddr, bind_ok, addrOf_ok, packed_ok,
    Except.ok.injEq] at h
  obtain ⟨ks', ⟨ns', hks'⟩, pd'', ⟨np', hpd⟩, _, ⟨hwf, rfl⟩, rfl⟩ := h
  rw [hsn] at hks'; rw [hpn] at hpd hpn'
  cases hks'; cases hpd; cases hpn'
  unfold Accepted
  rw [process_enc hwf]
  generalize hc : Ix.ctx _ now = ctx
  have hprog : ctx.program = env.tpId := by rw [← hc]; rfl
  obtain ⟨pn', pd', hl, hd⟩ := loadSettings_live hprog hs
  have hpd : findAddr env [seedKey ctx.program] env.loaderId = .ok (pd, pn') := by
    rw [hprog] at hd ⊢; rw [hpn] at hd; cases hd; exact hpn
  obtain ⟨w1, h1, -⟩ := putToken_live (t' := { t with emergency := false }) hprog ht.here (by rw [← hc]; built) rfl rfl rfl rfl
  refine ⟨w1, ?_⟩
  simp only [run, processDisableTokenEmergency, bind_ok, acct_ok, require_ok, exists_const, Prod.exists]
  exact ⟨owner, by rw [← hc]; rfl, kt, by rw [← hc]; rfl, ks, by rw [← hc]; rfl, pd, by rw [← hc]; rfl, by rw [← hc]; built, s, pn', hl,
    (), authorizeOwner_ok.2 ⟨hpd, hu.data⟩, t, loadToken_live hprog ht, h1⟩

/-- on the toy chain -/
example : ∃ ix, TP.Client.changeDepositLimitIx Toy.env Toy.manager Toy.tpGold 5 = .ok ix ∧ Accepted Toy.env noCpi 1000 (Toy.get Toy.tpDeposited) ix := by
  obtain ⟨ix, h⟩ := Toy.ix (r := TP.Client.changeDepositLimitIx Toy.env Toy.manager Toy.tpGold 5) ?_
  obtain ⟨s, hs, hm⟩ := Toy.tp_ready (P := fun s => Toy.same s.manager Toy.manager) (w := Toy.get Toy.tpDeposited) ?_
  obtain ⟨t, ht, -⟩ := Toy.tp_token (P := fun _ => true) (w := Toy.get Toy.tpDeposited) (k := Toy.tpGold) ?_
  exact ⟨ix, h, (C52_tp_token hs ht).1 _ (by rw [Toy.same_eq hm]; exact h)⟩
  checked

/-- C52: the built `UpdateTokenName` is accepted from the manager for a Solana token, as long as the names fit. -/
theorem C52_tp_updateTokenName {ks kt mint kv : Pubkey} {s : Settings} {t : TokenSettings} {v : TokenAcc} {y nm : Bytes} (hs : TP.Ready env w ks s)
    (ht : SolReady env w mint kt kv t v) (hl : nm.length + y.length ≤ 700)
    (h : TP.Client.updateTokenNameIx env s.manager kt y nm = .ok ix) : Accepted env cpi now w ix := by
  obtain ⟨n, pn, pd0, hk, hsn, hpn⟩ := hs.addr
  simp only [TP.Client.updateTokenNameIx, TP.Client.tokenAdminIx, TP.Client.settingsAddr, bind_ok, addrOf_ok, packed_ok, Except.ok.injEq] at h
  obtain ⟨ks', ⟨ns', hks'⟩, _, ⟨hwf, rfl⟩, rfl⟩ := h
  rw [hsn] at hks'; cases hks'
  unfold Accepted
  rw [process_enc hwf]
  generalize hc : Ix.ctx _ now = ctx
  have hprog : ctx.program = env.tpId := by rw [← hc]; rfl
  obtain ⟨pn', pd', hls, hd⟩ := loadSettings_live hprog hs
  obtain ⟨tn, vn, hlt, htk, -⟩ := loadSol_live hprog ht
  obtain ⟨hf1, -⟩ := fits_of_holds ht.here.2.1
  obtain ⟨hto, ⟨b, u, hb, hbl, -⟩, -⟩ := ht.here
  have hwf' : (pair str str).wf (y, nm) = true := hwf
  obtain ⟨w1, h1, -⟩ := pack_live (ctx := ctx) (w := w.log (updateNameLogC.enc ⟨kt, y, nm⟩)) (c := tokenSettingsC) (len := recLen)
    (a := { t with symbol := y, name := nm }) (k := kt) hb hbl (by
      simp only [tokenSettingsC, wf_iso, wf_pair, Bool.and_eq_true] at hf1 hwf' ⊢
      exact ⟨rfl, hf1.2.1, hf1.2.2.1, hwf'.2, hwf'.1, rfl, rfl, rfl, rfl, rfl, rfl, rfl, rfl, rfl⟩)
    (C44_tokenSettings_fits _ _ _ htk hl) (by rw [← hc]; built) (by rw [hprog]; exact hto)
  refine ⟨w1, ?_⟩
  simp only [run, processUpdateTokenName, bind_ok, acct_ok, require_ok, exists_const, Prod.exists]
  exact ⟨s.manager, by rw [← hc]; rfl, kt, by rw [← hc]; rfl, ks, by rw [← hc]; rfl, by rw [← hc]; built, s, pn', hls, (),
    authorize_ok.2 (.inl rfl), ⟨t, mint, kv, vn⟩, hlt, h1⟩

/-- on the toy chain -/
example : ∃ ix, TP.Client.updateTokenNameIx Toy.env Toy.manager Toy.tpGold (ascii "AU") (ascii "Aurum") = .ok ix ∧ Accepted Toy.env noCpi 1000 (Toy.get Toy.tpDeposited) ix := by
  obtain ⟨ix, h⟩ := Toy.ix (r := TP.Client.updateTokenNameIx Toy.env Toy.manager Toy.tpGold (ascii "AU") (ascii "Aurum")) ?_
  obtain ⟨s, hs, hm⟩ := Toy.tp_ready (P := fun s => Toy.same s.manager Toy.manager) (w := Toy.get Toy.tpDeposited) ?_
  obtain ⟨t, v, ht, -, -⟩ := Toy.tp_sol (P := fun _ => true) (Q := fun _ => true) (w := Toy.get Toy.tpDeposited) ?_ ?_
  refine ⟨ix, h, C52_tp_updateTokenName (y := ascii "AU") (nm := ascii "Aurum") hs ht ?_ (by rw [Toy.same_eq hm]; exact h)⟩
  checked

/-! ## Votes -/

/-- C52: the built vote is accepted from a relay of the round that has not voted. -/
theorem C52_tp_vote {k kr voter : Pubkey} {p : GenericProposal} {r : RL.RelayRound} {v : Vote} {j : Nat} (hp : GenReady env w k p)
    (hr : RL.RoundReady env w kr r) (hn : r.roundNumber = p.roundNumber) (hv : v ≠ .none)
    (hj : r.relays.findIdx? (fun x => x == voter) = some j) (hnv : p.signers[j]? = some .none) (hne : voter ≠ k)
    (hm : relayReparation ≤ (w.acc k).lamports) (hmax : (w.acc voter).lamports + relayReparation < 2 ^ 64)
    (h : TP.Client.voteIx env voter k p.roundNumber v = .ok ix) : Accepted env cpi now w ix := by
  obtain ⟨rn, hrk, hra⟩ := hr.addr
  simp only [TP.Client.voteIx, bind_ok, addrOf_ok, packed_ok, Except.ok.injEq] at h
  obtain ⟨kr', ⟨rn', hkr⟩, _, ⟨hwf, rfl⟩, rfl⟩ := h
  rw [← hn, hra] at hkr; cases hkr
  unfold Accepted
  rw [process_enc hwf]
  generalize hc : Ix.ctx _ now = ctx
  have hprog : ctx.program = env.tpId := by rw [← hc]; rfl
  obtain ⟨w1, h1, e1, o1, l1⟩ := packVotes_live (sg := p.signers.set j v) hprog hp (by simp) (by rw [← hc]; built)
  obtain ⟨w2, h2, -, -⟩ := moveLamports_live (ctx := ctx) (w := w1) (a := k) (b := voter) (n := relayReparation) (by rw [l1]; exact hm)
    (by rw [← hc]; built) (by rw [← hc]; built) (by rw [o1, hprog]; exact hp.owner) hne.symm (by rw [l1]; exact hmax)
  refine ⟨w2, ?_⟩
  simp only [run, processVote, bind_ok, acct_ok, require_ok, exists_const, Prod.exists, unpack_holds, orErr_ok, intoRelayRound_some,
    validateRelayRound, validatePda_ok]
  refine ⟨voter, by rw [← hc]; rfl, k, by rw [← hc]; rfl, kr, by rw [← hc]; rfl, by rw [← hc]; built, hv, p, loadGeneric_live hprog hp,
    r, ⟨hr.here.2.1, hr.here.2.2⟩, rn, hrk, by rw [← hn]; exact hra, j, hj, .none, hnv, ?_⟩
  rw [if_pos rfl]
  simp only [bind_ok]
  exact ⟨w1, h1, h2⟩

/-- on the toy chain -/
example : ∃ ix, TP.Client.voteIx Toy.env (Toy.relay 1) Toy.wd1 1 .confirm = .ok ix ∧ Accepted Toy.env noCpi 1000 (Toy.get Toy.tpVote1) ix := by
  obtain ⟨ix, h⟩ := Toy.ix (r := TP.Client.voteIx Toy.env (Toy.relay 1) Toy.wd1 1 .confirm) ?_
  obtain ⟨p, hp, hP⟩ := Toy.tp_gen (P := fun p => Nat.beq p.roundNumber.toNat 1 && decide (p.signers[1]? = some Vote.none)) (w := Toy.get Toy.tpVote1) (k := Toy.wd1)
    ?_
  obtain ⟨r, hr, hn, hR⟩ := Toy.rl_round (P := fun r => decide (r.relays.findIdx? (fun x => x == Toy.relay 1) = some 1)) (n := 1) (w := Toy.get Toy.tpVote1)
    ?_
  simp only [Bool.and_eq_true, decide_eq_true_eq] at hP hR
  have e : p.roundNumber = 1 := BitVec.eq_of_toNat_eq (Nat.eq_of_beq_eq_true hP.1)
  refine ⟨ix, h, C52_tp_vote (v := .confirm) hp hr (hn.trans e.symm) (by decide) hR hP.2 (Toy.same_ne ?_) (Nat.le_of_ble_eq_true ?_)
    (Nat.le_of_ble_eq_true ?_) (by rw [e]; exact h)⟩
  checked

/-! ## Closing -/

/-- C52: the built `CloseDeposit` is accepted from the author of the deposit. -/
theorem C52_tp_closeDeposit {k : Pubkey} {seed : U128} {d : GenericDeposit} (hd : DepReady env w k seed d) (hne : d.author ≠ k)
    (hmax : (w.acc d.author).lamports + (w.acc k).lamports < 2 ^ 64)
    (h : TP.Client.closeDepositIx env d.author k = .ok ix) : Accepted env cpi now w ix := by
  obtain ⟨ho, ⟨b, u, hb, hbl, hdec⟩, hmd, n, hk, ha⟩ := hd
  simp only [TP.Client.closeDepositIx, bind_ok, packed_ok, Except.ok.injEq] at h
  obtain ⟨_, ⟨hwf, rfl⟩, rfl⟩ := h
  unfold Accepted
  rw [process_enc hwf]
  generalize hc : Ix.ctx _ now = ctx
  have hprog : ctx.program = env.tpId := by rw [← hc]; rfl
  obtain ⟨w1, h1⟩ := deleteAccount_live hprog ho hne (by rw [← hc]; built) (by rw [← hc]; built) hmax
  refine ⟨w1, ?_⟩
  simp only [run, processCloseDeposit, bind_ok, acct_ok, require_ok, exists_const, decRaw_ok, orErr_ok, intoDeposit_some, validateDeposit,
    validatePda_ok]
  exact ⟨d.author, by rw [← hc]; rfl, k, by rw [← hc]; rfl, by rw [← hc]; built, d, ⟨b, u, hb, hdec⟩, seed, hmd, n, hk, by rw [hprog]; exact ha, rfl, h1⟩

/-- on the toy chain -/
example : ∃ ix, TP.Client.closeDepositIx Toy.env Toy.alice (Toy.tpDep 1) = .ok ix ∧ Accepted Toy.env noCpi 1000 (Toy.get Toy.tpDeposited) ix := by
  obtain ⟨ix, h⟩ := Toy.ix (r := TP.Client.closeDepositIx Toy.env Toy.alice (Toy.tpDep 1)) (by decide +kernel)
  obtain ⟨d, hd, ha⟩ := Toy.tp_dep (P := fun d => Toy.same d.author Toy.alice) (seed := 1) (w := Toy.get Toy.tpDeposited) (by decide +kernel)
  have ha := Toy.same_eq ha
  exact ⟨ix, h, C52_tp_closeDeposit hd (by rw [ha]; exact Toy.same_ne (by decide +kernel)) (by rw [ha]; exact Nat.le_of_ble_eq_true (by decide +kernel))
    (by rw [ha]; exact h)⟩

/-- C52: the built `CloseWithdrawal` is accepted for a processed or cancelled withdrawal. -/
theorem C52_tp_closeWithdrawal {k : Pubkey} {p : GenericProposal} {md : WMeta} (hp : GenReady env w k p) (hmd : wmetaC.decAll p.metaData = some md)
    (hst : md.status = .processed ∨ md.status = .cancelled) (hne : p.author ≠ k)
    (hmax : (w.acc p.author).lamports + (w.acc k).lamports < 2 ^ 64)
    (h : TP.Client.closeWithdrawalIx env k p.author = .ok ix) : Accepted env cpi now w ix := by
  simp only [TP.Client.closeWithdrawalIx, bind_ok, packed_ok, Except.ok.injEq] at h
  obtain ⟨_, ⟨hwf, rfl⟩, rfl⟩ := h
  unfold Accepted
  rw [process_enc hwf]
  generalize hc : Ix.ctx _ now = ctx
  have hprog : ctx.program = env.tpId := by rw [← hc]; rfl
  obtain ⟨w1, h1⟩ := deleteAccount_live hprog hp.owner hne (by rw [← hc]; built) (by rw [← hc]; built) hmax
  refine ⟨w1, ?_⟩
  simp only [run, processCloseWithdrawal, bind_ok, acct_ok, require_ok, exists_const, orErr_ok]
  exact ⟨k, by rw [← hc]; rfl, p.author, by rw [← hc]; rfl, p, loadGeneric_live hprog hp, rfl, md, hmd, hst, h1⟩

/-- on the toy chain -/
example : ∃ ix, TP.Client.closeWithdrawalIx Toy.env Toy.wd1 Toy.alice = .ok ix ∧ Accepted Toy.env noCpi 1000 (Toy.get Toy.tpPaid) ix := by
  obtain ⟨ix, h⟩ := Toy.ix (r := TP.Client.closeWithdrawalIx Toy.env Toy.wd1 Toy.alice) (by decide +kernel)
  obtain ⟨p, hp, hP⟩ := Toy.tp_gen (P := fun p => Toy.same p.author Toy.alice && (match wmetaC.decAll p.metaData with
    | some md => decide (md.status = .processed) | none => false)) (w := Toy.get Toy.tpPaid) (k := Toy.wd1) (by decide +kernel)
  simp only [Bool.and_eq_true] at hP
  obtain ⟨ha, hm⟩ := hP
  have ha := Toy.same_eq ha
  split at hm
  · rename_i md hmd
    exact ⟨ix, h, C52_tp_closeWithdrawal hp hmd (.inl (of_decide_eq_true hm)) (by rw [ha]; exact Toy.same_ne (by decide +kernel))
      (by rw [ha]; exact Nat.le_of_ble_eq_true (by decide +kernel)) (by rw [ha]; exact h)⟩
  · cases hm

/-! ## The multi vault, proxy accounts and bounties -/

/-- C52: the built `WithdrawMultiVault` is accepted from the manager. -/
theorem C52_tp_withdrawMultiVault {ks km to : Pubkey} {s : Settings} {n : U64} (hs : TP.Ready env w ks s) (hm : MultiReady env w km)
    (hn : n.toNat ≤ (w.acc km).lamports) (hne : km ≠ to) (hmax : (w.acc to).lamports + n.toNat < 2 ^ 64)
    (h : TP.Client.withdrawMultiVaultIx env s.manager to n = .ok ix) : Accepted env cpi now w ix := by
  obtain ⟨sn, pn, pd0, hk, hsn, hpn⟩ := hs.addr
  obtain ⟨mo, mv, mn, -, -, hmk, hma⟩ := id hm
  simp only [TP.Client.withdrawMultiVaultIx, TP.Client.settingsAddr, TP.Client.multiVaultAddr, bind_ok, addrOf_ok, packed_ok, Except.ok.injEq] at h
  obtain ⟨ks', ⟨ns', hks'⟩, km', ⟨nm', hkm'⟩, _, ⟨hwf, rfl⟩, rfl⟩ := h
  rw [hsn] at hks'; cases hks'
  rw [hma] at hkm'; cases hkm'
  unfold Accepted
  rw [process_enc hwf]
  generalize hc : Ix.ctx _ now = ctx
  have hprog : ctx.program = env.tpId := by rw [← hc]; rfl
  obtain ⟨pn', pd', hls, hd⟩ := loadSettings_live hprog hs
  obtain ⟨w2, h2, -, -⟩ := moveLamports_live (ctx := ctx) (w := w) (a := km) (b := to) (n := n.toNat) hn
    (by rw [← hc]; built) (by rw [← hc]; built) (by rw [hprog]; exact mo) hne hmax
  refine ⟨w2, ?_⟩
  simp only [run, processWithdrawMultiVault, bind_ok, acct_ok, require_ok, exists_const, Prod.exists]
  exact ⟨s.manager, by rw [← hc]; rfl, to, by rw [← hc]; rfl, km, by rw [← hc]; rfl, ks, by rw [← hc]; rfl, by rw [← hc]; built, s, pn', hls, (),
    authorize_ok.2 (.inl rfl), (), loadMulti_live hprog hm, h2⟩

/-- on the toy chain -/
example : ∃ ix, TP.Client.withdrawMultiVaultIx Toy.env Toy.manager Toy.bob 5 = .ok ix ∧ Accepted Toy.env noCpi 1000 (Toy.get Toy.tpDeposited) ix := by
  obtain ⟨ix, h⟩ := Toy.ix (r := TP.Client.withdrawMultiVaultIx Toy.env Toy.manager Toy.bob 5) ?_
  obtain ⟨s, hs, hm⟩ := Toy.tp_ready (P := fun s => Toy.same s.manager Toy.manager) (w := Toy.get Toy.tpDeposited) ?_
  refine ⟨ix, h, C52_tp_withdrawMultiVault (to := Toy.bob) (n := 5) hs (Toy.tp_multi ?_) (Nat.le_of_ble_eq_true ?_)
    (Toy.same_ne ?_) (Nat.le_of_ble_eq_true ?_) (by rw [Toy.same_eq hm]; exact h)⟩
  checked

/-- C52: the built `WithdrawProxy` is accepted from the owner of the proxy account. -/
theorem C52_tp_withdrawProxy {px user to mint : Pubkey} {n : U64} (hpx : IsAddr env env.tpId (proxySeeds mint user) px)
    (hs : Spendable env w px mint px n.toNat) (hd : Payable env w to mint n.toNat)
    (h : TP.Client.withdrawProxyIx env user to mint n = .ok ix) : Accepted env cpi now w ix := by
  obtain ⟨pn, hpn⟩ := hpx
  simp only [TP.Client.withdrawProxyIx, TP.Client.proxyAddr, bind_ok, addrOf_ok, packed_ok, Except.ok.injEq] at h
  obtain ⟨px', ⟨pn', hpx'⟩, _, ⟨hwf, rfl⟩, rfl⟩ := h
  rw [hpn] at hpx'; cases hpx'
  unfold Accepted
  rw [process_enc hwf]
  generalize hc : Ix.ctx _ now = ctx
  have hprog : ctx.program = env.tpId := by rw [← hc]; rfl
  obtain ⟨w1, h1, -⟩ := splTransfer_live (ctx := ctx) (sg := signsAs ctx px) (src := px) (dst := to) (auth := px) (mint := mint) (n := n)
    (by rw [← hc]; built) (by rw [← hc]; built) (by rw [← hc]; built) (by rw [← hc]; built) (by simp [signsAs]) hs hd
  refine ⟨w1, ?_⟩
  simp only [run, processWithdrawProxy, bind_ok, acct_ok, require_ok, exists_const, deriveAt_ok, pdaSigns_ok]
  exact ⟨user, by rw [← hc]; rfl, to, by rw [← hc]; rfl, px, by rw [← hc]; rfl, mint, by rw [← hc]; rfl, by rw [← hc]; built, pn,
    by rw [hprog]; exact hpn, _, ⟨px, by rw [hprog]; exact findAddr_create hpn, rfl⟩, h1⟩

/-- on the toy chain -/
example : ∃ ix, TP.Client.withdrawProxyIx Toy.env Toy.bob Toy.bobGold Toy.gold 400 = .ok ix ∧ Accepted Toy.env noCpi 1000 (Toy.get Toy.tpPaidP) ix := by
  obtain ⟨ix, h⟩ := Toy.ix (r := TP.Client.withdrawProxyIx Toy.env Toy.bob Toy.bobGold Toy.gold 400) ?_
  refine ⟨ix, h, C52_tp_withdrawProxy (px := Toy.tpProxy) (Toy.isAddr _ _) (Toy.spendable ?_) (Toy.payable ?_) h⟩
  checked

/-- C52: the built `ChangeBountyForWithdrawSol` is accepted from the author and from the recipient of a pending withdrawal. -/
theorem C52_tp_changeBounty {k who : Pubkey} {r : Withdrawal WSolEvent} {n : U64} (hr : WdReady wSolEventC env w k r) (hst : r.md.status = .pending)
    (hwho : who = r.author ∨ who = r.event.recipient) (h : TP.Client.changeBountyIx env who k n = .ok ix) : Accepted env cpi now w ix := by
  simp only [TP.Client.changeBountyIx, bind_ok, packed_ok, Except.ok.injEq] at h
  obtain ⟨_, ⟨hwf, rfl⟩, rfl⟩ := h
  unfold Accepted
  rw [process_enc hwf]
  generalize hc : Ix.ctx _ now = ctx
  have hprog : ctx.program = env.tpId := by rw [← hc]; rfl
  obtain ⟨w1, h1, -⟩ := putWd_live (md := { r.md with bounty := n }) hprog hr (by rw [← hc]; built)
  refine ⟨w1, ?_⟩
  simp only [run, processChangeBounty, bind_ok, acct_ok, require_ok, exists_const]
  exact ⟨who, by rw [← hc]; rfl, k, by rw [← hc]; rfl, by rw [← hc]; built, r, loadWd_live hprog hr, hst, hwho.imp Eq.symm Eq.symm, h1⟩

/-- on the toy chain -/
example : ∃ ix, TP.Client.changeBountyIx Toy.env Toy.alice Toy.wd2 100 = .ok ix ∧ Accepted Toy.env noCpi 1000 (Toy.get Toy.tpPending) ix := by
  obtain ⟨ix, h⟩ := Toy.ix (r := TP.Client.changeBountyIx Toy.env Toy.alice Toy.wd2 100) ?_
  obtain ⟨r, hr, hP⟩ := Toy.tp_wd (ec := wSolEventC) (P := fun r => Toy.same r.author Toy.alice && decide (r.md.status = .pending))
    (w := Toy.get Toy.tpPending) (k := Toy.wd2) ?_
  simp only [Bool.and_eq_true, decide_eq_true_eq] at hP
  exact ⟨ix, h, C52_tp_changeBounty hr hP.2 (.inl (Toy.same_eq hP.1).symm) h⟩
  checked

/-! ## Setting up -/

/-- C52: the built `Initialize` is accepted from the upgrade authority when nothing is set up yet. -/
theorem C52_tp_initialize {f a ks km pd g m wm : Pubkey} (hks : IsAddr env env.tpId settingsSeeds ks) (hkm : IsAddr env env.tpId multiVaultSeeds km)
    (hvs : Vacant env (w.acc ks)) (hvm : Vacant env (w.acc km)) (hne : ks ≠ km) (hup : Upgrades env w env.tpId pd a)
    (hf : Wallet env w f (2 * max 1 (env.rent recLen))) (hmax : env.rent recLen < 2 ^ 64)
    (h : TP.Client.initializeIx env f a g m wm = .ok ix) : Accepted env cpi now w ix := by
  simp only [TP.Client.initializeIx, TP.Client.settingsAddr, TP.Client.multiVaultAddr, programdataAddr, bind_ok, addrOf_ok, packed_ok,
    Except.ok.injEq] at h
  obtain ⟨ks', hks', pd', hpd', km', hkm', _, ⟨hwf, rfl⟩, rfl⟩ := h
  obtain ⟨n, hn⟩ := hks
  obtain ⟨mn, hmn⟩ := hkm
  obtain ⟨pn, hpn⟩ := hup.addr
  obtain rfl := hks'.eq hn
  obtain rfl := hkm'.eq hmn
  obtain rfl := hpd'.eq hpn
  have hfs : f ≠ ks' := by rintro rfl; have := hf.rich; rw [hvs.1] at this; omega
  have hfm : f ≠ km' := by rintro rfl; have := hf.rich; rw [hvm.1] at this; omega
  unfold Accepted
  rw [process_enc hwf]
  generalize hc : Ix.ctx _ now = ctx
  have hprog : ctx.program = env.tpId := by rw [← hc]; rfl
  obtain ⟨w1, hw1, self1, e1, l1⟩ := createPda_live (ctx := ctx) (o := ctx.program) (space := recLen) (by rw [hprog]; exact hn) hvs hfs
    (by rw [← hc]; built) (by rw [← hc]; built) (by rw [← hc]; built) (by rw [← hc]; built)
    ⟨hf.system, hf.empty, by have := hf.rich; omega⟩ hmax
  obtain ⟨w2, hw2, -, -, l2, a2, -⟩ := pack_live (ctx := ctx) (c := settingsC) (len := recLen) (k := ks') (w := w1)
    (a := ⟨true, .settings n pn, false, g, m, wm⟩) (by rw [self1]) (RL.zeros_len _) (by simp [settingsC]) len_settings
    (by rw [← hc]; built) (by rw [self1])
  have hacc : ∀ j, j ≠ ks' → (w2.acc j).data = (w.acc j).data ∧ (w2.acc j).owner = (w.acc j).owner := fun j hj => by
    rw [a2 j hj]; exact e1 j (by simpa using hj)
  obtain ⟨w3, hw3, self3, -, -⟩ := createPda_live (ctx := ctx) (w := w2) (o := ctx.program) (space := recLen) (k := km')
    (by rw [hprog]; exact hmn)
    ⟨by rw [l2, l1 _ hne.symm, hvm.1]; simp, by rw [(hacc _ hne.symm).1]; exact hvm.2.1, by rw [(hacc _ hne.symm).2]; exact hvm.2.2⟩ hfm
    (by rw [← hc]; built) (by rw [← hc]; built) (by rw [← hc]; built) (by rw [← hc]; built)
    ⟨by rw [(hacc _ hfs).2]; exact hf.system, by rw [(hacc _ hfs).1]; exact hf.empty, by
      rw [l2, l1 _ hfs, if_pos rfl]; have := hf.rich; omega⟩ hmax
  obtain ⟨w4, hw4, -⟩ := pack_live (ctx := ctx) (c := multiVaultC) (len := recLen) (k := km') (w := w3)
    (a := ⟨true, .multiVault mn⟩) (by rw [self3]) (RL.zeros_len _) (by simp [multiVaultC]) (by
      simp [multiVaultC, recLen]) (by rw [← hc]; built) (by rw [self3])
  refine ⟨w4, ?_⟩
  simp only [run, processInitialize, bind_ok, acct_ok, sysvar_ok, require_ok, exists_const, Prod.exists, validateInitializer_ok, deriveAt_ok, hprog]
  subst hc
  exact ⟨f, rfl, a, rfl, ks', rfl, km', rfl, pd', rfl, env.systemId, rfl, env.rentId, rfl, rfl, by built,
    pd', pn, hpn, rfl, hup.data, n, hn, w1, hw1, w2, hw2, mn, hmn, w3, hw3, hw4⟩

/-- on the toy chain -/
example : ∃ ix, TP.Client.initializeIx Toy.env Toy.funder Toy.authority Toy.guardian Toy.manager Toy.wmanager = .ok ix ∧ Accepted Toy.env noCpi 1000 (Toy.get Toy.rlRound1) ix := by
  obtain ⟨ix, h⟩ := Toy.ix (r := TP.Client.initializeIx Toy.env Toy.funder Toy.authority Toy.guardian Toy.manager Toy.wmanager) ?_
  refine ⟨ix, h, C52_tp_initialize (ks := Toy.tpSettings) (km := Toy.tpMulti) (Toy.isAddr _ _) (Toy.isAddr _ _) (Toy.vacant ?_)
    (Toy.vacant ?_) (Toy.same_ne ?_) (Toy.upgrades ?_) (Toy.wallet ?_)
    ?_ h⟩
  checked

end Verif.Props
