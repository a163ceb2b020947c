import Verif.Lemmas.TPFee
import Verif.Spec.ToyReachTP
/-!
# Administration of the token proxy (C23 to C28)
-/
set_option maxRecDepth 100000
set_option linter.unusedSimpArgs false
namespace Verif.Props
open Verif Verif.TP

/-! ## C23: approval -/

/-- The status of the withdrawal in account `k`, for either kind of withdrawal, at the address derived from its content. -/
def StatusOf (env : Env) (ctx : Ctx) (w : World) (k : Pubkey) (s : WStatus) : Prop :=
  (∃ r, Holds (withdrawalC wEverEventC) recLen (w.acc k) r ∧ r.isInitialized = true ∧ r.md.status = s ∧
    IsAddr env ctx.program (proposalSeeds r.roundNumber r.pda (env.hash (wEverEventC.enc r.event))) k) ∨
  (∃ r, Holds (withdrawalC wSolEventC) recLen (w.acc k) r ∧ r.isInitialized = true ∧ r.md.status = s ∧
    IsAddr env ctx.program (proposalSeeds r.roundNumber r.pda (env.hash (wSolEventC.enc r.event))) k)

/-- C23: an approval succeeds only if the withdrawal manager or the upgrade authority signs, for a withdrawal that waits for approval, and
while neither global emergency mode nor that of the token is on. -/
theorem C23_approval {env : Env} {ctx : Ctx} {cpi : Pubkey → World → Except Err World} {w w' : World} {i : Instr}
    (hi : i = .approveWithdrawEver ∨ i = .approveWithdrawSol) (h : run env ctx cpi i w = .ok w') :
    (RoleSigns env ctx w (·.withdrawalManager) ∨ UpgradeAuthoritySigns env ctx w) ∧
      (∃ k, ctx.accounts[2]? = some k ∧ StatusOf env ctx w k .waitingForApprove) ∧
      (∃ k s, SettingsOf env ctx w k s ∧ s.emergency = false) ∧
      ∃ k, ctx.accounts[4]? = some k ∧ ((w.acc k).lamports = 0 ∨ ∃ t, TokenOf env ctx w k t ∧ t.emergency = false) := by
  obtain ⟨hs, p, k, hp, hk, hor⟩ := stops (by rcases hi with rfl | rfl <;> rfl) h
  have hor' : run env ctx cpi .approveWithdrawEver w = .ok w' ∨ run env ctx cpi .approveWithdrawSol w = .ok w' := by
    rcases hi with rfl | rfl
    · exact .inl h
    · exact .inr h
  obtain ⟨ha, kw, hkw, hr⟩ := approve_fx hor'
  have hp4 : p = 4 := by rcases hi with rfl | rfl <;> cases hp <;> rfl
  subst hp4
  refine ⟨ha, ⟨kw, hkw, ?_⟩, hs, k, hk, hor⟩
  rcases hr with ⟨r, hr, hst⟩ | ⟨r, hr, hst⟩
  · obtain ⟨h1, h2, n, pn, -, h3⟩ := loadWithdrawal_ok.1 hr
    exact .inl ⟨r, h1, h2, hst, n, h3⟩
  · obtain ⟨h1, h2, n, pn, -, h3⟩ := loadWithdrawal_ok.1 hr
    exact .inr ⟨r, h1, h2, hst, n, h3⟩

example : ∃ w', run Toy.env Toy.approveCtx noCpi .approveWithdrawSol (Toy.get Toy.tpWaiting) = .ok w' :=
  ⟨_, Toy.get_tp (a := Toy.tpWaiting) (by decide +kernel)⟩

/-! ## C24: emergency mode -/

/-- C24, global: while the settings say emergency, every deposit, withdrawal, approval, cancel and fill fails, whatever accounts it is
given and whatever payloads would do. -/
theorem C24_global {env : Env} {ctx : Ctx} {cpi : Pubkey → World → Except Err World} {w : World} {i : Instr} {k : Pubkey} {s : Settings}
    (hi : (tokenPos i).isSome = true) (hk : IsAddr env ctx.program settingsSeeds k) (hs : Holds settingsC recLen (w.acc k) s)
    (he : s.emergency = true) : ∀ w', run env ctx cpi i w ≠ .ok w' := by
  intro w' h
  obtain ⟨⟨k', s', hs', he'⟩, -⟩ := stops hi h
  have := hk.unique hs'.1
  subst this
  rw [hs.unique hs'.2.1, he'] at he
  cases he

/-- C24, one token (partial): while the settings of a token say emergency, every deposit, withdrawal, approval, cancel and fill that is
given these settings fails. Missing: deposits of the token made with the settings of another one, see `C24_token_bypassed`. -/
theorem C24_token_partial {env : Env} {ctx : Ctx} {cpi : Pubkey → World → Except Err World} {w : World} {i : Instr} {k : Pubkey} {p : Nat}
    {t : TokenSettings} (hi : tokenPos i = some p) (hk : ctx.accounts[p]? = some k) (hl : Live w k)
    (ht : Holds tokenSettingsC recLen (w.acc k) t) (he : t.emergency = true) : ∀ w', run env ctx cpi i w ≠ .ok w' := by
  intro w' h
  obtain ⟨-, p', k', hp, hk', hor⟩ := stops (by rw [hi]; rfl) h
  rw [hi] at hp
  cases hp
  rw [hk] at hk'
  cases hk'
  rcases hor with h0 | ⟨t', ht', he'⟩
  · unfold Live at hl; omega
  · rw [ht.unique ht'.2.1, he'] at he
    cases he

/-- C24, payouts of Solana tokens: while the token of a withdrawal is in emergency mode, the withdrawal is neither paid nor approved nor
cancelled, whatever other accounts are given. -/
theorem C24_sol {env : Env} {ctx : Ctx} {cpi : Pubkey → World → Except Err World} {w : World} {i : Instr} {p : Nat} {kw kt : Pubkey}
    {r : Withdrawal WSolEvent} {t : TokenSettings}
    (hi : (i, p) = (.withdrawMultiTokenSol, 0) ∨ (i, p) = (.approveWithdrawSol, 2) ∨
      ∃ sd rc v e pl, (i, p) = (.cancelWithdrawSol sd rc v e pl, 3))
    (hw : ctx.accounts[p]? = some kw) (hr : Holds (withdrawalC wSolEventC) recLen (w.acc kw) r)
    (ha : IsAddr env ctx.program (tokenSettingsSolSeeds r.event.mint) kt) (ht : Holds tokenSettingsC recLen (w.acc kt) t)
    (he : t.emergency = true) : ∀ w', run env ctx cpi i w ≠ .ok w' := by
  intro w' h
  have fin : ∀ {r' t' kt'}, loadWithdrawal wSolEventC env ctx kw w = .ok r' → loadSol env ctx kt' w = .ok t' → t'.mint = r'.event.mint →
      t'.ts.emergency = false → False := by
    intro r' t' kt' h1 h2 h3 h4
    obtain ⟨h5, -, -, n, -, h6⟩ := loadSol_ok.1 h2
    have := (loadWithdrawal_ok.1 h1).1.unique hr
    subst this
    rw [h3] at h6
    have := ha.unique ⟨n, h6⟩
    subst this
    rw [ht.unique h5, h4] at he
    cases he
  rcases hi with hi | hi | ⟨sd, rc, v, e, pl, hi⟩ <;> obtain ⟨rfl, rfl⟩ := Prod.mk.inj hi
  · simp only [run, processWithdrawSol, bind_ok, acct_ok, sysvar_ok, require_ok, exists_const, ex_unit, Prod.exists] at h
    obtain ⟨kw', hkw, kv, -, rc, -, kt', hkt, mi, -, ks, -, -, -, cl, -, -, s, pn, hs, r', hr', t', ht', hem, hv, hm, -⟩ := h
    rw [hw] at hkw; cases hkw
    exact fin hr' ht' hm hem
  · simp only [run, processApproveSol, bind_ok, acct_ok, sysvar_ok, require_ok, exists_const, ex_unit, Prod.exists] at h
    obtain ⟨a, -, kv, -, kw', hkw, rc, -, kt', hkt, ks, -, -, -, cl, -, -, hsig, s, pn, hs, r', hr', hst, hau, t', ht', hem, hv, hm, -⟩ := h
    rw [hw] at hkw; cases hkw
    exact fin hr' ht' hm hem
  · simp only [run, processCancel, bind_ok, acct_ok, sysvar_ok, require_ok, exists_const, ex_unit, Prod.exists] at h
    obtain ⟨f, -, a, -, mi, -, kw', hkw, dp, -, ks, -, kt', hkt, -, -, rent, -, mv, -, -, hsig, s, pn, hs, r', hr', hau, hst, t', ht', hem,
      hmv, w1, h1, hmi, m, hm, hmm, -⟩ := h
    rw [hw] at hkw; cases hkw
    exact fin hr' ht' hmm hem

/-- C24, payouts of Everscale tokens: while the token of a withdrawal is in emergency mode, the withdrawal is neither paid (the
instruction has no effect) nor approved. -/
theorem C24_ever {env : Env} {ctx : Ctx} {cpi : Pubkey → World → Except Err World} {w w' : World} {i : Instr} {p : Nat} {kw kt : Pubkey}
    {r : Withdrawal WEverEvent} {t : TokenSettings}
    (hi : (i, p) = (.withdrawMultiTokenEver, 0) ∨ (i, p) = (.approveWithdrawEver, 2))
    (hw : ctx.accounts[p]? = some kw) (hr : Holds (withdrawalC wEverEventC) recLen (w.acc kw) r)
    (ha : IsAddr env ctx.program (tokenSettingsEverSeeds env r.event.token) kt) (ht : Holds tokenSettingsC recLen (w.acc kt) t)
    (hl : Live w kt) (he : t.emergency = true) (h : run env ctx cpi i w = .ok w') : w' = w := by
  have fin : ∀ {r' t' kt'}, loadWithdrawal wEverEventC env ctx kw w = .ok r' → loadEver env ctx kt' w = .ok t' →
      t'.token = r'.event.token → t'.ts.emergency = false → False := by
    intro r' t' kt' h1 h2 h3 h4
    obtain ⟨h5, -, -, n, -, -, h6⟩ := loadEver_ok.1 h2
    have := (loadWithdrawal_ok.1 h1).1.unique hr
    subst this
    rw [h3] at h6
    have := ha.unique ⟨n, h6⟩
    subst this
    rw [ht.unique h5, h4] at he
    cases he
  rcases hi with hi | hi <;> obtain ⟨rfl, rfl⟩ := Prod.mk.inj hi
  · simp only [run, processWithdrawEver, bind_ok, acct_ok, sysvar_ok, require_ok, exists_const, ex_unit, Prod.exists] at h
    obtain ⟨kw', hkw, mi, -, rc, -, kt', hkt, ks, -, -, -, -, -, rent, -, -, cl, -, -, s, pn, hs, r', hr', h⟩ := h
    rw [hw] at hkw; cases hkw
    split at h
    · rename_i hz
      split at h
      · cases h; rfl
      · simp only [bind_ok, deployEver, deriveAt_ok] at h
        obtain ⟨w1, ⟨n1, -, w2, -, w3, -, w4, -, n2, ha', -⟩, -⟩ := h
        have := (loadWithdrawal_ok.1 hr').1.unique hr
        subst this
        have := ha.unique ⟨n2, ha'⟩
        subst this
        unfold Live at hl
        omega
    · simp only [payEver, bind_ok, require_ok, exists_const, ex_unit] at h
      obtain ⟨t', ht', hem, hm, htok, -⟩ := h
      exact (fin hr' ht' htok hem).elim
  · simp only [run, processApproveEver, bind_ok, acct_ok, sysvar_ok, require_ok, exists_const, ex_unit, Prod.exists] at h
    obtain ⟨a, -, mi, -, kw', hkw, rc, -, kt', hkt, ks, -, -, -, cl, -, -, hsig, s, pn, hs, r', hr', hst, t', ht', hem, hm, htok, -⟩ := h
    rw [hw] at hkw; cases hkw
    exact (fin hr' ht' htok hem).elim

theorem toy_emergency : ∃ s, SettingsAt Toy.env (Toy.get Toy.tpEmerg) Toy.tpSettings s ∧ Live (Toy.get Toy.tpEmerg) Toy.tpSettings ∧
    s.emergency = true ∧ s.guardian = Toy.guardian := by
  obtain ⟨s, h, hl, h1⟩ := Toy.tfind_settings (P := fun s => s.emergency && Nat.beq s.guardian.toNat 1010)
    (w := Toy.get Toy.tpEmerg) (k := Toy.tpSettings) (by decide +kernel)
  simp only [Bool.and_eq_true] at h1
  exact ⟨s, h, hl, h1.1, BitVec.eq_of_toNat_eq (Nat.eq_of_beq_eq_true h1.2)⟩

theorem toy_token_emergency : ∃ t, TokenAt Toy.env (Toy.get Toy.tpTokEmerg) Toy.tpGold t ∧ Live (Toy.get Toy.tpTokEmerg) Toy.tpGold ∧
    t.emergency = true := Toy.tfind_token (P := fun s => s.emergency) (by decide +kernel)

example : ∃ s, IsAddr Toy.env Toy.env.tpId settingsSeeds Toy.tpSettings ∧
    Holds settingsC recLen ((Toy.get Toy.tpEmerg).acc Toy.tpSettings) s ∧ s.emergency = true :=
  let ⟨s, h, _, h1, _⟩ := toy_emergency
  ⟨s, Toy.isAddr _ _, h.2.1, h1⟩

/-- C24 is false for one token: gold is in emergency mode, but a deposit made with the settings of another Solana token (created by its
author) moves 1000 gold into the vault of gold. -/
theorem C24_token_bypassed : ∃ (env : Env) (L : Pubkey → Prop) (w w' : World) (ctx : Ctx) (i : Instr) (mint vault kt : Pubkey)
    (t : TokenSettings), Reach env L w ∧ TokenAt env w kt t ∧ Live w kt ∧ t.emergency = true ∧ t.kind = .solana mint vault ∧
      ctx.program = env.tpId ∧ run env ctx noCpi i w = .ok w' ∧ bal w' vault = bal w vault + 1000 := by
  obtain ⟨t, ht, hl, hP⟩ := Toy.tfind_token (w := Toy.get Toy.tpJunkDep) (k := Toy.tpGold)
    (P := fun t => t.emergency && match t.kind with
      | .solana m v => Nat.beq m.toNat Toy.gold.toNat && Nat.beq v.toNat Toy.tpVault.toNat
      | _ => false) (by decide +kernel)
  simp only [Bool.and_eq_true] at hP
  obtain ⟨he, hk⟩ := hP
  have hkind : t.kind = .solana Toy.gold Toy.tpVault := by
    cases ht : t.kind with
    | solana m v =>
      rw [ht] at hk
      simp only [Bool.and_eq_true] at hk
      rw [BitVec.eq_of_toNat_eq (Nat.eq_of_beq_eq_true hk.1), BitVec.eq_of_toNat_eq (Nat.eq_of_beq_eq_true hk.2)]
    | ever => rw [ht] at hk; cases hk
  exact ⟨Toy.env, Toy.L, Toy.get Toy.tpJunkDep, Toy.get Toy.tpBypass, _, _, Toy.gold, Toy.tpVault, Toy.tpGold, t, Toy.reach_tpJunkDep, ht, hl,
    he, hkind, rfl, Toy.get_tp (a := Toy.tpJunkDep) (by decide +kernel), by decide +kernel⟩

/-! ## C25: who switches emergency mode -/

/-- C25, global: over every history that starts with existing settings, they go on to exist, and the emergency flag is switched on only
by `EnableEmergencyMode` with the signature of the guardian or the upgrade authority, and off only by `DisableEmergencyMode` with that of
the upgrade authority. -/
theorem C25_global {env : Env} {L : Pubkey → Prop} (hd : env.Distinct) {top : Bool} {w w' : World} {tr : List Ev} {k : Pubkey}
    {s : Settings} (h : Run env L top w tr w') (hs : SettingsAt env w k s) (hl : Live w k) :
    ∀ e ∈ tr, ∃ s1 s2, SettingsAt env e.pre k s1 ∧ SettingsAt env e.post k s2 ∧
      (s1.emergency = false → s2.emergency = true → ∃ ctx, e.act = .tp ctx .enableEmergencyMode ∧
        (ctx.isSigner s1.guardian = true ∨ UpgradeAuthoritySigns env ctx e.pre)) ∧
      (s1.emergency = true → s2.emergency = false → ∃ ctx, e.act = .tp ctx .disableEmergencyMode ∧
        UpgradeAuthoritySigns env ctx e.pre) := by
  obtain ⟨-, -, H⟩ := settings_hist hd h hs hl
  intro e he
  obtain ⟨s1, s2, h1, h2, hor⟩ := H e he
  refine ⟨s1, s2, h1, h2, ?_⟩
  rcases hor with rfl | ⟨ctx, i, hact, hp, hsg, hr, hc⟩
  · constructor <;> (intro h1 h2; rw [h1] at h2; cases h2)
  · cases hc with
    | guardian k hu => constructor <;> (intro h1 h2; simp only [h1] at h2; cases h2)
    | manager k hu => constructor <;> (intro h1 h2; simp only [h1] at h2; cases h2)
    | withdrawalManager k hu => constructor <;> (intro h1 h2; simp only [h1] at h2; cases h2)
    | enable hu => exact ⟨fun _ _ => ⟨ctx, hact, hu⟩, fun _ h => by simp at h⟩
    | disable hu => exact ⟨fun _ h => by simp at h, fun _ _ => ⟨ctx, hact, hu⟩⟩

/-- C25, one token: the same for the flag of a token. -/
theorem C25_token {env : Env} {L : Pubkey → Prop} (hd : env.Distinct) {top : Bool} {w w' : World} {tr : List Ev} {k : Pubkey}
    {t : TokenSettings} (h : Run env L top w tr w') (ht : TokenAt env w k t) (hl : Live w k) :
    ∀ e ∈ tr, ∃ t1 t2, TokenAt env e.pre k t1 ∧ TokenAt env e.post k t2 ∧
      (t1.emergency = false → t2.emergency = true → ∃ ctx, e.act = .tp ctx .enableTokenEmergencyMode ∧
        (RoleSigns env ctx e.pre (·.guardian) ∨ UpgradeAuthoritySigns env ctx e.pre)) ∧
      (t1.emergency = true → t2.emergency = false → ∃ ctx, e.act = .tp ctx .disableTokenEmergencyMode ∧
        UpgradeAuthoritySigns env ctx e.pre) := by
  obtain ⟨-, -, H⟩ := token_hist hd h ht hl
  intro e he
  obtain ⟨t1, t2, h1, h2, hor⟩ := H e he
  refine ⟨t1, t2, h1, h2, ?_⟩
  rcases hor with rfl | ⟨ctx, i, hact, hp, hsg, hr, hc⟩
  · constructor <;> (intro h1 h2; rw [h1] at h2; cases h2)
  · have reset : ∀ x, (resetEpoch t1 x).emergency = t1.emergency := by
      intro x; unfold resetEpoch; split <;> rfl
    cases hc with
    | enable hu => exact ⟨fun _ _ => ⟨ctx, hact, hu⟩, fun _ h => by simp at h⟩
    | disable hu => exact ⟨fun _ h => by simp at h, fun _ _ => ⟨ctx, hact, hu⟩⟩
    | withdraw => constructor <;> (intro h1 h2; simp only [reset, h1] at h2; cases h2)
    | updateFee f m d hu => cases f <;> constructor <;> (intro h1 h2; simp only [setFee, h1] at h2; cases h2)
    | _ => constructor <;> (intro h1 h2; simp only [h1] at h2; cases h2)

/-- Switching on and off on the toy chain. -/
example : ∃ s, SettingsAt Toy.env (Toy.get Toy.tpEmergOff) Toy.tpSettings s ∧ Live (Toy.get Toy.tpEmergOff) Toy.tpSettings ∧
    (s.emergency == false) = true := Toy.tfind_settings (P := fun s => s.emergency == false) (by decide +kernel)

/-! ## C26: roles -/

/-- The three roles. -/
def roles (s : Settings) : Pubkey × Pubkey × Pubkey := (s.guardian, s.manager, s.withdrawalManager)

/-- The roles after an instruction that may change them. -/
inductive RoleChange (s : Settings) : Instr → Pubkey × Pubkey × Pubkey → Prop
  | guardian (k : Pubkey) : RoleChange s (.changeGuardian k) (k, s.manager, s.withdrawalManager)
  | manager (k : Pubkey) : RoleChange s (.changeManager k) (s.guardian, k, s.withdrawalManager)
  | withdrawalManager (k : Pubkey) : RoleChange s (.changeWithdrawalManager k) (s.guardian, s.manager, k)

/-- C26: over every history that starts with existing settings, roles change only through `ChangeGuardian`, `ChangeManager` and
`ChangeWithdrawalManager` signed by the upgrade authority, each changing one role to the requested key; and `Initialize` never succeeds
again. -/
theorem C26_roles {env : Env} {L : Pubkey → Prop} (hd : env.Distinct) {top : Bool} {w w' : World} {tr : List Ev} {k : Pubkey}
    {s : Settings} (h : Run env L top w tr w') (hs : SettingsAt env w k s) (hl : Live w k) (ha : IsAddr env env.tpId settingsSeeds k) :
    ∀ e ∈ tr, (∀ ctx g m wm, e.act ≠ .tp ctx (.init g m wm)) ∧ ∃ s1 s2, SettingsAt env e.pre k s1 ∧ SettingsAt env e.post k s2 ∧
      (roles s2 = roles s1 ∨ ∃ ctx i, e.act = .tp ctx i ∧ UpgradeAuthoritySigns env ctx e.pre ∧ RoleChange s1 i (roles s2)) := by
  obtain ⟨-, -, H⟩ := settings_hist hd h hs hl
  intro e he
  obtain ⟨s1, s2, h1, h2, hor⟩ := H e he
  refine ⟨?_, s1, s2, h1, h2, ?_⟩
  · intro ctx g m wm hact
    have := h.evs hd e he
    cases this with
    | quiet hna => exact absurd hact (hna _ _)
    | tp ctx' i hact' hp hs hr =>
      rw [hact] at hact'
      cases hact'
      obtain ⟨k', ha', hv, -⟩ := init_vacant hr
      rw [hp] at ha'
      have := ha.unique ha'
      subst this
      exact hd.tpSys (h1.1.symm.trans hv.2.2)
    | stale ctx' i p w1 hact' hp hs hst =>
      rw [hact] at hact'
      cases hact'
      cases hst
    | purge hna => exact absurd hact (hna _ _)
  · rcases hor with rfl | ⟨ctx, i, hact, hp, hsg, hr, hc⟩
    · exact .inl rfl
    · cases hc with
      | guardian k hu => exact .inr ⟨ctx, _, hact, hu, .guardian k⟩
      | manager k hu => exact .inr ⟨ctx, _, hact, hu, .manager k⟩
      | withdrawalManager k hu => exact .inr ⟨ctx, _, hact, hu, .withdrawalManager k⟩
      | enable hu => exact .inl rfl
      | disable hu => exact .inl rfl

/-- C26: in every reachable history, settings that exist after a step existed before it, or the step is an `Initialize` signed by the
upgrade authority, at the derived address, which did not exist before, and sets the given roles. -/
theorem C26_initialized {env : Env} {L : Pubkey → Prop} (hd : env.Distinct) {top : Bool} {w w' : World} {tr : List Ev} {k : Pubkey}
    {s : Settings} (h : Run env L top w tr w') {e : Ev} (he : e ∈ tr) (hs : SettingsAt env e.post k s) :
    (∃ s0, SettingsAt env e.pre k s0) ∨ ∃ ctx g m wm, e.act = .tp ctx (.init g m wm) ∧ UpgradeAuthoritySigns env ctx e.pre ∧
      IsAddr env env.tpId settingsSeeds k ∧ Vacant env (e.pre.acc k) ∧ roles s = (g, m, wm) ∧ s.emergency = false := by
  rcases settings_back hd (h.evs hd e he) hs with h | ⟨ctx, i, hact, hp, hr, ⟨s0, h0, -⟩ | ⟨g, m, wm, n, pn, rfl, ha, hu, rfl⟩⟩
  · exact .inl ⟨s, h⟩
  · exact .inl ⟨s0, h0⟩
  · obtain ⟨k', ha', hv, -⟩ := init_vacant hr
    have := ha'.unique ⟨n, ha⟩
    subst this
    exact .inr ⟨ctx, g, m, wm, hact, hu, ⟨n, by rw [← hp]; exact ha⟩, hv, rfl, rfl⟩

/-- C26: what the three instructions and `Initialize` do when they succeed. -/
theorem C26_exact {env : Env} {ctx : Ctx} {cpi : Pubkey → World → Except Err World} {w w' : World} {i : Instr} {k : Pubkey}
    (hi : i = .changeGuardian k ∨ i = .changeManager k ∨ i = .changeWithdrawalManager k) (h : run env ctx cpi i w = .ok w') :
    UpgradeAuthoritySigns env ctx w ∧ ∃ ks s s', SettingsOf env ctx w ks s ∧ Holds settingsC recLen (w'.acc ks) s' ∧
      OnlyData ks w w' ∧ RoleChange s i (roles s') ∧ s'.emergency = s.emergency := by
  rcases hi with rfl | rfl | rfl <;> simp only [run] at h
  · obtain ⟨ks, s, h1, h2, h3, h4, -⟩ := changeRole_fx h
    exact ⟨h2, ks, s, _, h1, h3, h4, .guardian k, rfl⟩
  · obtain ⟨ks, s, h1, h2, h3, h4, -⟩ := changeRole_fx h
    exact ⟨h2, ks, s, _, h1, h3, h4, .manager k, rfl⟩
  · obtain ⟨ks, s, h1, h2, h3, h4, -⟩ := changeRole_fx h
    exact ⟨h2, ks, s, _, h1, h3, h4, .withdrawalManager k, rfl⟩

example : Reach Toy.env Toy.L (Toy.get Toy.tpEmerg) ∧ IsAddr Toy.env Toy.env.tpId settingsSeeds Toy.tpSettings ∧
    ∃ s, SettingsAt Toy.env (Toy.get Toy.tpEmerg) Toy.tpSettings s ∧ Live (Toy.get Toy.tpEmerg) Toy.tpSettings :=
  ⟨Toy.reach_tpEmerg, Toy.isAddr _ _, let ⟨s, h, hl, _⟩ := toy_emergency; ⟨s, h, hl⟩⟩

example : ∃ w', run Toy.env Toy.roleCtx noCpi (.changeGuardian Toy.stranger) (Toy.get Toy.tpEmerg) = .ok w' :=
  ⟨_, Toy.get_tp (a := Toy.tpEmerg) (by decide +kernel)⟩

example : ∃ s, SettingsAt Toy.env (Toy.get Toy.tpNewGuardian) Toy.tpSettings s ∧ Live (Toy.get Toy.tpNewGuardian) Toy.tpSettings ∧
    Nat.beq s.guardian.toNat 1003 = true := Toy.tfind_settings (P := fun s => Nat.beq s.guardian.toNat 1003) (by decide +kernel)

/-! ## C27: configuration -/

/-- C27: an instruction that configures a token succeeds only if the manager or the upgrade authority signs, and changes exactly the
requested fields of the settings of the addressed token. -/
theorem C27_exact {env : Env} {ctx : Ctx} {cpi : Pubkey → World → Except Err World} {w w' : World} {i : Instr}
    (hi : configures i = true) (h : run env ctx cpi i w = .ok w') :
    (RoleSigns env ctx w (·.manager) ∨ UpgradeAuthoritySigns env ctx w) ∧
      ∃ k t t', ctx.accounts[1]? = some k ∧ TokenOf env ctx w k t ∧ ConfigChange t i t' ∧
        Holds tokenSettingsC recLen (w'.acc k) t' ∧ OnlyData k w w' := by
  cases i <;> simp only [configures, Bool.false_eq_true] at hi <;> simp only [run] at h
  · obtain ⟨h1, k, hk, t, h2, h3, h4⟩ := changeLimits_fx h
    exact ⟨h1, k, t, _, hk, h2, .depositLimit _, h3, h4⟩
  · obtain ⟨h1, k, hk, t, h2, h3, h4⟩ := changeLimits_fx h
    exact ⟨h1, k, t, _, hk, h2, .withdrawalLimits _ _, h3, h4⟩
  · rename_i f m d
    obtain ⟨h1, k, hk, t, h2, h3, h4⟩ := updateFee_fx h
    refine ⟨h1, k, t, _, hk, h2, ?_, h3, h4⟩
    cases f
    · exact .depositFee _ _
    · exact .withdrawalFee _ _
  · obtain ⟨h1, k, hk, t, h2, h3, h4⟩ := updateTokenName_fx h
    exact ⟨h1, k, t, _, hk, h2, .name _ _, h3, h4⟩

example : ∃ w', run Toy.env Toy.managerCtx noCpi (.updateFee .deposit 3 1000) (Toy.get Toy.tpDeposited) = .ok w' :=
  ⟨_, Toy.get_tp (a := Toy.tpDeposited) (by decide +kernel)⟩

/-- C27: over every history that starts with existing settings of a token, its limits, fee rates, name and symbol change only through
these instructions, authorized by the manager or the upgrade authority. -/
theorem C27_history {env : Env} {L : Pubkey → Prop} (hd : env.Distinct) {top : Bool} {w w' : World} {tr : List Ev} {k : Pubkey}
    {t : TokenSettings} (h : Run env L top w tr w') (ht : TokenAt env w k t) (hl : Live w k) :
    ∀ e ∈ tr, ∃ t1 t2, TokenAt env e.pre k t1 ∧ TokenAt env e.post k t2 ∧
      (config t2 = config t1 ∨ ∃ ctx i, e.act = .tp ctx i ∧ ConfigChange t1 i t2 ∧
        (RoleSigns env ctx e.pre (·.manager) ∨ UpgradeAuthoritySigns env ctx e.pre)) := by
  obtain ⟨-, -, H⟩ := token_hist hd h ht hl
  intro e he
  obtain ⟨t1, t2, h1, h2, hor⟩ := H e he
  refine ⟨t1, t2, h1, h2, ?_⟩
  rcases hor with rfl | ⟨ctx, i, hact, hp, hsg, hr, hc⟩
  · exact .inl rfl
  · cases hc with
    | depositLimit n hu => exact .inr ⟨ctx, _, hact, .depositLimit n, hu⟩
    | limits a b hu => exact .inr ⟨ctx, _, hact, .withdrawalLimits a b, hu⟩
    | updateFee f m d hu =>
      refine .inr ⟨ctx, _, hact, ?_, hu⟩
      cases f
      · exact .depositFee _ _
      · exact .withdrawalFee _ _
    | name y n hu => exact .inr ⟨ctx, _, hact, .name y n, hu⟩
    | withdraw =>
      left
      unfold config resetEpoch
      split <;> rfl
    | _ => exact .inl rfl

/-- C27: fees and the lamports of the multi vault are withdrawn only by the manager or the upgrade authority. -/
theorem C27_withdrawals {env : Env} {ctx : Ctx} {cpi : Pubkey → World → Except Err World} {w w' : World} {i : Instr} {a : U64}
    (hi : i = .withdrawEverFee a ∨ i = .withdrawSolFee a ∨ i = .withdrawMultiVault a) (h : run env ctx cpi i w = .ok w') :
    RoleSigns env ctx w (·.manager) ∨ UpgradeAuthoritySigns env ctx w := by
  rcases hi with rfl | rfl | rfl
  · exact (everFee_fx h).1
  · exact (solFee_fx h).1
  · exact (multiVault_fx h).1

/-! ## C28: fees -/

/-- C28, Solana tokens: a fee withdrawal pays at most the recorded fees, exactly the requested amount, from the vault of the token, and
lowers the record by it. -/
theorem C28_sol {env : Env} {ctx : Ctx} {cpi : Pubkey → World → Except Err World} {w w' : World} {a : U64}
    (h : run env ctx cpi (.withdrawSolFee a) w = .ok w') :
    ∃ kv kt rc t mint vault sup, ctx.accounts[1]? = some kv ∧ ctx.accounts[2]? = some kt ∧ ctx.accounts[3]? = some rc ∧
      TokenOf env ctx w kt t ∧ t.kind = .solana mint vault ∧ IsAddr env ctx.program (vaultSeeds mint) kv ∧
      a.toNat ≤ t.feeSupply.toNat ∧ Moves kv rc a.toNat w w' ∧ sup.toNat = t.feeSupply.toNat - a.toNat ∧
      Holds tokenSettingsC recLen (w'.acc kt) { t with feeSupply := sup } := by
  obtain ⟨-, kv, kt, rc, t, mint, vault, sup, h1, h2, h3, h4, h5, h6, h7, h8, h9, -⟩ := solFee_fx h
  exact ⟨kv, kt, rc, t, mint, vault, sup, h1, h2, h3, h4, h5, h6, by omega, h8, by omega, h9⟩

/-- C28, Everscale tokens: the same, minting the tokens. -/
theorem C28_ever {env : Env} {ctx : Ctx} {cpi : Pubkey → World → Except Err World} {w w' : World} {a : U64}
    (h : run env ctx cpi (.withdrawEverFee a) w = .ok w') :
    ∃ km kt rc t m token d sup, ctx.accounts[1]? = some km ∧ ctx.accounts[3]? = some kt ∧ ctx.accounts[2]? = some rc ∧
      TokenOf env ctx w kt t ∧ t.kind = .ever m token d ∧ IsAddr env ctx.program (mintSeeds env token) km ∧
      a.toNat ≤ t.feeSupply.toNat ∧ Mints km rc a.toNat w w' ∧ sup.toNat = t.feeSupply.toNat - a.toNat ∧
      Holds tokenSettingsC recLen (w'.acc kt) { t with feeSupply := sup } := by
  obtain ⟨-, kv, kt, rc, t, m, token, d, sup, h1, h2, h3, h4, h5, h6, h7, h8, h9, -⟩ := everFee_fx h
  exact ⟨kv, kt, rc, t, m, token, d, sup, h1, h2, h3, h4, h5, h6, by omega, h8, by omega, h9⟩

example : ∃ w', run Toy.env Toy.solFeeCtx noCpi (.withdrawSolFee 2) (Toy.get Toy.tpPaid) = .ok w' :=
  ⟨_, Toy.get_tp (a := Toy.tpPaid) (by decide +kernel)⟩

example : ∃ w', run Toy.env Toy.everFeeCtx noCpi (.withdrawEverFee 2) (Toy.get Toy.tpDepE) = .ok w' :=
  ⟨_, Toy.get_tp (a := Toy.tpDepE) (by decide +kernel)⟩

/-- A fee withdrawal that names other settings leaves these alone, one that names these lowers them. -/
theorem fee_event {env : Env} {ctx : Ctx} {w w' : World} {i : Instr} {k : Pubkey} {t t' : TokenSettings} {a : U64} {e : Ev}
    (hact : e.act = .tp ctx i) (hi : i = .withdrawEverFee a ∨ i = .withdrawSolFee a) (h : run env ctx noCpi i w = .ok w')
    (h1 : TokenAt env w k t) (h2 : TokenAt env w' k t') : t'.feeSupply.toNat + feeTaken k e = t.feeSupply.toNat := by
  obtain ⟨b, r, hb, -⟩ := h1.2.1
  rcases hi with rfl | rfl
  · obtain ⟨-, km, kt, rc, t0, m, token, d, sup, -, hkt, -, h3, -, -, h4, -, h5, h6⟩ := everFee_fx h
    simp only [feeTaken, hact]
    by_cases e : kt = k
    · subst e
      have e1 := h3.2.1.unique h1.2.1
      subst e1
      have e2 := h2.2.1.unique h5
      subst e2
      rw [if_pos hkt]
      exact h4.symm
    · have e1 := h6 k (fun h => e h.symm) b hb
      have e2 : t' = t := h2.2.1.unique (by rw [e1]; exact h1.2.1)
      subst e2
      rw [if_neg (by rw [hkt]; intro h; cases h; exact e rfl)]
      rfl
  · obtain ⟨-, kv, kt, rc, t0, mint, vault, sup, -, hkt, -, h3, -, -, h4, -, h5, h6⟩ := solFee_fx h
    simp only [feeTaken, hact]
    by_cases e : kt = k
    · subst e
      have e1 := h3.2.1.unique h1.2.1
      subst e1
      have e2 := h2.2.1.unique h5
      subst e2
      rw [if_pos hkt]
      exact h4.symm
    · have e1 := h6 k (fun h => e h.symm) b hb
      have e2 : t' = t := h2.2.1.unique (by rw [e1]; exact h1.2.1)
      subst e2
      rw [if_neg (by rw [hkt]; intro h; cases h; exact e rfl)]
      rfl

/-- C28: over every history, the recorded fees of a token and all fees paid out add up to what was recorded before and the fees charged
by deposits and withdrawals in between. So never more fees are paid out than were charged. -/
theorem C28_total {env : Env} {L : Pubkey → Prop} (hd : env.Distinct) {top : Bool} {w w' : World} {tr : List Ev} {k : Pubkey}
    {t : TokenSettings} (h : Run env L top w tr w') (ht : TokenAt env w k t) (hl : Live w k) :
    ∃ t' n, TokenAt env w' k t' ∧ Charges env k tr n ∧
      t'.feeSupply.toNat + (tr.map (feeTaken k)).sum = t.feeSupply.toNat + n := by
  obtain ⟨-, -, H⟩ := token_hist hd h ht hl
  have := h.fold (P := fun w tr => ∃ t' n, TokenAt env w k t' ∧ Charges env k tr n ∧
      t'.feeSupply.toNat + (tr.map (feeTaken k)).sum = t.feeSupply.toNat + n) [] ⟨t, 0, ht, .nil, by simp⟩ ?_
  · simpa using this
  intro e he tr' ⟨t1, n, h1, hc, hsum⟩
  obtain ⟨t1', t2, h1', h2, hor⟩ := H e he
  have := h1.unique h1'
  subst this
  have step : ∀ m, Charge env k e m → t2.feeSupply.toNat + feeTaken k e = t1.feeSupply.toNat + m →
      ∃ t' n, TokenAt env e.post k t' ∧ Charges env k (tr' ++ [e]) n ∧
        t'.feeSupply.toNat + ((tr' ++ [e]).map (feeTaken k)).sum = t.feeSupply.toNat + n := by
    intro m hm hs
    refine ⟨t2, n + m, h2, .step e hc hm, ?_⟩
    rw [List.map_append, List.sum_append]
    simp only [List.map_cons, List.map_nil, List.sum_cons, List.sum_nil]
    omega
  -- an event that takes fees changes the record accordingly, whatever else is known
  by_cases hfee : ∃ ctx i a, e.act = .tp ctx i ∧ (i = .withdrawEverFee a ∨ i = .withdrawSolFee a)
  · obtain ⟨ctx, i, a, hact, hi⟩ := hfee
    refine step 0 .none ?_
    cases h.evs hd e he with
    | quiet hna => exact absurd hact (hna _ _)
    | purge hna => exact absurd hact (hna _ _)
    | stale ctx' i' p w1 hact' hp hs hst =>
      rw [hact] at hact'
      cases hact'
      rcases hi with rfl | rfl <;> cases hst
    | tp ctx' i' hact' hp hs hr =>
      rw [hact] at hact'
      cases hact'
      exact fee_event hact hi hr h1 h2
  · have h0 : feeTaken k e = 0 := by
      unfold feeTaken
      split
      · rename_i ctx a hact; exact absurd ⟨ctx, _, a, hact, .inl rfl⟩ hfee
      · rename_i ctx a hact; exact absurd ⟨ctx, _, a, hact, .inr rfl⟩ hfee
      · rfl
    rcases hor with rfl | ⟨ctx, i, hact, hp, hsg, hr, hch⟩
    · exact step 0 .none (by omega)
    · cases hch with
      | depositEver sd a r v ev p fee sup hf hs hem =>
        exact step _ (.deposit ctx _ t1 a fee hact h1 rfl hf) (by rw [h0]; exact hs)
      | depositSol sd n y a r v ev p fee sup hf hs hem =>
        exact step _ (.deposit ctx _ t1 a fee hact h1 rfl hf) (by rw [h0]; exact hs)
      | withdraw _ hi n fee sup transfer daily hf hs hn hd hem =>
        exact step _ (.withdrawal ctx _ t1 n fee hact hi h1 hf) (by rw [h0]; exact hs)
      | fee _ a sup hi hs hu => exact absurd ⟨ctx, _, a, hact, hi⟩ hfee
      | updateFee f m d hu => cases f <;> exact step 0 .none (by rw [h0]; rfl)
      | _ => exact step 0 .none (by rw [h0])

example : ∃ t, TokenAt Toy.env (Toy.get Toy.tpDeposited) Toy.tpGold t ∧ Live (Toy.get Toy.tpDeposited) Toy.tpGold ∧
    (Nat.beq t.feeSupply.toNat 25) = true := Toy.tfind_token (P := fun t => Nat.beq t.feeSupply.toNat 25) (by decide +kernel)

end Verif.Props
