import Verif.Lemmas.Vault
import Verif.Lemmas.TPBack
import Verif.Lemmas.TPPay
/-!
# Every token has its vault or its mint
-/
set_option linter.unusedSimpArgs false
namespace Verif.TP
open Codec Verif

variable {env : Env} {L : Pubkey → Prop} {ctx : Ctx} {w w' w0 : World} {k mint own : Pubkey} {i : Instr} {cpi : Pubkey → World → Except Err World}

theorem one' (op : Op) (h : Exec env ctx op w w') : Ops env ctx (fun _ => True) w w' := Ops.one op trivial h
theorem pack' {α : Type} {c : Codec α} {len : Nat} {a : α} (h : Verif.pack ctx c len a k w = .ok w') : Ops env ctx (fun _ => True) w w' :=
  Ops.pack h (fun _ _ _ _ _ => trivial)

/-- The first deposit leaves the vault guarded. -/
theorem depositSol_vault {sd : U128} {name symbol : Bytes} {a : U64} {rc : EverAddress} {v : U64} {ev : Pubkey} {py : Bytes} {kt : Pubkey}
    (hd : env.Distinct) (hp : ctx.program = env.tpId)
    (h : run env ctx cpi (.depositMultiTokenSol sd name symbol a rc v ev py) w = .ok w') (h7 : ctx.accounts[7]? = some kt)
    (hl : (w.acc kt).lamports = 0) :
    ∃ mi kv, ctx.accounts[5]? = some mi ∧ ctx.accounts[3]? = some kv ∧ VaultOf env w' mi kv ∧
      IsAddr env env.tpId (tokenSettingsSolSeeds mi) kt := by
  simp only [run, processDepositSol, bind_ok, acct_ok, sysvar_ok, require_ok, exists_const, ex_unit, deriveAt_ok, mintOf_ok, tokenOf_ok, orErr_ok, Prod.exists,
    validatePda_ok, checkedAdd_some, checkedSub_some] at h
  obtain ⟨f, h0, cr, h1, ct, h2, kv, h3, dp, h4, mi, h5, mv, h6, kt', h7', ks, -, -, -, -, -, rent, -, -, hsig, ss, sn, hss, hnm, hsy, w1, hdep, t, ht,
    hem, hmi, m, hm, hva, hmv, tv, htv, tot, htot, hlim, w2, b2, w3, b3, dn, hdn, w4, b4, fee, hfee, sup, hsup, net, hnet, w5, b5, b6⟩ := h
  rw [h7] at h7'
  cases h7'
  unfold deployOnce at hdep
  rw [if_pos hl] at hdep
  simp only [deploySol, bind_ok, deriveAt_ok] at hdep
  obtain ⟨vn, hvn, x1, c1, x2, c2, tn, htn, x3, c3, c4⟩ := hdep
  have s1 := createPda_self (findAddr_create hvn) c1
  obtain ⟨-, -, -, -, hz, hr, -, e2⟩ := splInitAccount_ok c2
  have g2 : Guarded env x2 kv mi kv (if mi = env.nativeMint then some (BitVec.ofNat 64 (env.rent 165)) else none) := by
    have hk : x2.acc kv = { x1.acc kv with data := .token (freshToken env mi kv (x1.acc kv).lamports) } := by rw [e2]; simp
    exact ⟨by rw [hk, s1], ⟨_, congrArg Account.data hk, rfl, rfl, rfl, rfl, rfl⟩, fun _ => by
      rw [hk, s1]; show 1 ≤ max 1 (env.rent 165); omega⟩
  have o : Ops env ctx (fun _ => True) x2 w' :=
    (one' (.create f kt (tokenSettingsSolSeeds mi) tn recLen ctx.program) ⟨findAddr_create htn, c3⟩).trans
      ((one' (.log _) rfl).trans ((pack' c4).trans
        ((one' (.xfer ctx.signs ct kv cr a) b2).trans ((one' (.sys f mv v.toNat) b3).trans
          ((one' (.create f dp (depositSeeds sd) dn recLen ctx.program) ⟨findAddr_create hdn, b4⟩).trans
            ((one' (.log _) rfl).trans ((pack' b5).trans (pack' b6))))))))
  exact ⟨mi, kv, h5, h3, ⟨⟨vn, hp ▸ hvn⟩, (g2.ops hd (.inl hp) o).1⟩, ⟨tn, hp ▸ htn⟩⟩

/-- Creating an Everscale token leaves its mint guarded. -/
theorem deployEver_mint {f mi kt : Pubkey} {e : WEverEvent} (hd : env.Distinct) (hp : ctx.program = env.tpId)
    (h : deployEver env ctx f mi kt e w = .ok w') :
    MintOf env w' e.token mi (if e.decimals.toNat < 9 then e.decimals else 9#8) ∧ IsAddr env env.tpId (tokenSettingsEverSeeds env e.token) kt := by
  simp only [deployEver, bind_ok, deriveAt_ok] at h
  obtain ⟨mn, hmn, w1, h1, w2, h2, w3, h3, tn, htn, w4, h4, h5⟩ := h
  obtain ⟨ka, an, w3', ha, h3a, h3b⟩ := ataCreate_ok h3
  have s1 := createPda_self (findAddr_create hmn) h1
  obtain ⟨-, -, -, -, hz, hr, e2⟩ := splInitMint_ok h2
  have g2 : GuardedMint env w2 mi mi (if e.decimals.toNat < 9 then e.decimals else 9#8) := by
    have hk : w2.acc mi = { w1.acc mi with data := (Data.mint ⟨some mi, 0#64, if e.decimals.toNat < 9 then e.decimals else 9#8, none⟩) } := by
      rw [e2]; simp
    exact ⟨by rw [hk, s1], ⟨_, congrArg Account.data hk, rfl, rfl, rfl⟩, by rw [hk, s1]; show 1 ≤ max 1 (env.rent 82); omega⟩
  have o : Ops env ctx (fun _ => True) w2 w' :=
    (one' (.createFunded env.ataId (ataSeeds env e.recipient mi ++ [[an]]) f ka 165 env.splId) ⟨findAddr_create ha, h3a⟩).trans
      ((one' (.initAcc ka mi e.recipient) h3b).trans
        ((one' (.create f kt (tokenSettingsEverSeeds env e.token) tn recLen ctx.program) ⟨findAddr_create htn, h4⟩).trans
          ((one' (.log _) rfl).trans (pack' h5))))
  exact ⟨⟨⟨mn, hp ▸ hmn⟩, (g2.ops hd (.inl hp) o).1⟩, ⟨tn, hp ▸ htn⟩⟩

theorem withdrawEver_mint {kt : Pubkey} (hd : env.Distinct) (hp : ctx.program = env.tpId)
    (h : run env ctx cpi .withdrawMultiTokenEver w = .ok w') (h3 : ctx.accounts[3]? = some kt) (hl : (w.acc kt).lamports = 0)
    (hlen : ∃ t, TokenAt env w' kt t) (hno : ¬ ∃ t, TokenAt env w kt t) :
    ∃ (r : Withdrawal WEverEvent) (kw mi : Pubkey), ctx.accounts[0]? = some kw ∧ WithdrawalOf wEverEventC env ctx w kw r ∧
      ctx.accounts[1]? = some mi ∧
      MintOf env w' r.event.token mi (if r.event.decimals.toNat < 9 then r.event.decimals else 9#8) ∧
      IsAddr env env.tpId (tokenSettingsEverSeeds env r.event.token) kt := by
  simp only [run, processWithdrawEver, bind_ok, acct_ok, sysvar_ok, exists_const, ex_unit] at h
  obtain ⟨kw, h0, mi, h1, rc, -, kt', h3', ks, -, -, -, -, -, rent, -, -, clock, -, -, ss, hss, r, hr, h⟩ := h
  rw [h3] at h3'
  cases h3'
  rw [if_pos hl] at h
  split at h
  · cases h; exact (hno hlen).elim
  · simp only [bind_ok] at h
    obtain ⟨w1, h1', h2⟩ := h
    obtain ⟨o1, hr1, hll⟩ := ops_deployEver hr h3 hl h1'
    obtain ⟨hm, ha⟩ := deployEver_mint hd hp h1'
    have o2 := ops_payEver (hr1 rfl) hr (.inr hll) h3 h0 h2
    exact ⟨r, kw, mi, h0, withdrawalOf hr, h1, ⟨hm.1, (hm.2.ops hd (.inl hp) o2).1⟩, ha⟩

theorem token_origin {tr : List Ev} {top : Bool} (hd : env.Distinct) (hr : Run env L top w tr w')
    (P : TokenSettings → World → Prop)
    (h0 : ∀ t, TokenAt env w k t → P t w)
    (hkind : ∀ t t' x, t'.kind = t.kind → P t x → P t' x)
    (hstep : ∀ e ∈ tr, Step env L e → ∀ t, P t e.pre → P t e.post)
    (hnew : ∀ e ∈ tr, ∀ ctx i t, e.act = .tp ctx i → ctx.program = env.tpId → run env ctx noCpi i e.pre = .ok e.post →
      TokenAt env e.post k t → (¬ ∃ t0, TokenAt env e.pre k t0) → Fresh env ctx e.pre k t i → P t e.post) :
    ∀ t, TokenAt env w' k t → P t w' := by
  have hst := hr.steps
  have hev := hr.evs hd
  have := hr.fold (P := fun x _ => ∀ t, TokenAt env x k t → P t x) [] h0 ?_
  · exact this
  · intro e he _ ih t ht
    have hs := hst e he
    rcases token_back hd (hev e he) ht with h | ⟨ctx, i, hact, hp, hr', h | h⟩
    · exact hstep e he hs t (ih t h)
    · obtain ⟨t0, h1, h2⟩ := h
      exact hkind _ _ _ h2.kinds.2.2 (hstep e he hs t0 (ih t0 h1))
    · by_cases hex : ∃ t0, TokenAt env e.pre k t0
      · obtain ⟨t0, h1⟩ := hex
        obtain ⟨s', hs', hor, -⟩ := token_run hd hp hr' h1
        have e1 := hs'.unique ht
        subst e1
        have hk : s'.kind = t0.kind := by
          rcases hor with rfl | hor
          · rfl
          · exact hor.kinds.2.2
        exact hkind _ _ _ hk (hstep e he hs t0 (ih t0 h1))
      · exact hnew e he ctx i t hact hp hr' ht hex h

/-- Every Solana token known to the bridge has its vault, at the address derived from its mint. -/
theorem _root_.Verif.Run.vault {tr : List Ev} {top : Bool} {t : TokenSettings} {tm tv : Pubkey} (hd : env.Distinct) (hg : Genesis env L w)
    (hr : Run env L top w tr w') (ht : TokenAt env w' k t) (hk : t.kind = .solana tm tv) (hL : L tv)
    (hlive : tm ≠ env.nativeMint ∨ Funded env tv tr) :
    VaultOf env w' tm tv ∧ IsAddr env env.tpId (tokenSettingsSolSeeds tm) k := by
  refine token_origin hd hr (k := k) (P := fun t x => t.kind = .solana tm tv → VaultOf env x tm tv ∧
    IsAddr env env.tpId (tokenSettingsSolSeeds tm) k) ?_ ?_ ?_ ?_ t ht hk
  · intro t ht
    exact ((hg.owner k).2 ht.1).elim
  · intro t t' x e h hk'
    exact h (e ▸ hk')
  · intro e he hs t h hk'
    obtain ⟨⟨h1, h2⟩, h3⟩ := h hk'
    refine ⟨⟨h1, (guarded_step hd hL hs h2 (fun ha => ?_)).1⟩, h3⟩
    rcases hlive with hl | hl
    · exact .inl (if_neg hl)
    · exact .inr (hl e he ha)
  · intro e he ctx i t hact hp hr' ht hno hf hk'
    cases hf with
    | ever kw r mint n mn hr ha hm hc h3 hl =>
      have := hc.kind
      rw [hk'] at this
      simp [freshTokenSettings] at this
    | sol sd nm y a rc v e p mint vault n vn hn hy ha hv hc h7 hl =>
      have := hc.kind
      rw [hk'] at this
      simp only [freshTokenSettings, TokenKind.solana.injEq] at this
      obtain ⟨mi, kv, h5, h3, h4, h6⟩ := depositSol_vault hd hp hr' h7 hl
      obtain ⟨f, cr, ct, kv', dp, mi', mv, kt', w1, t1, tm', tv', m, t2, fee, net, -, -, -, a3, -, a5, -, a7, -, -, -, hor, -, hto, -,
        -, -, -, -, -, -, -, -, -, -, -, -, ht2, hteq, -⟩ := depositSol_fx hr'
      rw [h7] at a7; cases a7
      rw [h3] at a3; cases a3
      rw [h5] at a5; cases a5
      rcases hor with ⟨-, hne⟩ | ⟨-, hdp, -⟩
      · exact (hne hl).elim
      · obtain ⟨n1, n2, hfr⟩ := hdp.token
        have e1 : t1 = _ := hto.2.1.unique hfr
        have e2 : t2 = t := ht2.unique ht.2.1
        have e3 : t.kind = .solana mi kv := by rw [← e2, hteq]; show t1.kind = _; rw [e1]; rfl
        rw [hk'] at e3
        cases e3
        exact ⟨h4, h6⟩

/-- Every Everscale token known to the bridge has its mint, at the address derived from the token, with at most nine decimals. -/
theorem _root_.Verif.Run.mintOf {tr : List Ev} {top : Bool} {t : TokenSettings} {km : Pubkey} {token : EverAddress} {d : U8}
    (hd : env.Distinct) (hg : Genesis env L w)
    (hr : Run env L top w tr w') (ht : TokenAt env w' k t) (hk : t.kind = .ever km token d) (hL : L km) :
    MintOf env w' token km (if d.toNat < 9 then d else 9#8) ∧ IsAddr env env.tpId (tokenSettingsEverSeeds env token) k := by
  refine token_origin hd hr (k := k) (P := fun t x => t.kind = .ever km token d → MintOf env x token km (if d.toNat < 9 then d else 9#8) ∧
    IsAddr env env.tpId (tokenSettingsEverSeeds env token) k) ?_ ?_ ?_ ?_ t ht hk
  · intro t ht
    exact ((hg.owner k).2 ht.1).elim
  · intro t t' x e h hk'
    exact h (e ▸ hk')
  · intro e he hs t h hk'
    obtain ⟨⟨h1, h2⟩, h3⟩ := h hk'
    exact ⟨⟨h1, (guardedMint_step hd hL hs h2).1⟩, h3⟩
  · intro e he ctx i t hact hp hr' ht hno hf hk'
    cases hf with
    | sol sd nm y a rc v e p mint vault n vn hn hy ha hv hc h7 hl =>
      have := hc.kind
      rw [hk'] at this
      simp [freshTokenSettings] at this
    | ever kw r mint n mn hr ha hm hc h3 hl =>
      have hkk := hc.kind
      rw [hk'] at hkk
      simp only [freshTokenSettings, TokenKind.ever.injEq] at hkk
      obtain ⟨r1, kw1, mi, h0, hw1, h1, h4, h6⟩ := withdrawEver_mint hd hp hr' h3 hl ⟨t, ht⟩ hno
      obtain ⟨kw2, mi2, rc, kt2, r2, a0, a1, -, a3, hw2, hx⟩ := withdrawEver_fx hr'
      rw [h0] at a0; cases a0
      rw [h1] at a1; cases a1
      rw [h3] at a3; cases a3
      have e1 := hw1.unique hw2
      subst e1
      have e3 : t.kind = .ever mi r1.event.token r1.event.decimals := by
        rcases hx with ⟨e, -⟩ | ⟨w1, ⟨-, hne⟩ | ⟨-, hdp⟩, -, -, t1, m1, het, hx⟩
        · rw [e] at ht; exact (hno ⟨t, ht⟩).elim
        · exact (hne hl).elim
        · obtain ⟨n1, n2, hfr⟩ := hdp.newToken
          have e1 : t1 = _ := het.1.2.1.unique hfr
          rcases hx with ⟨e, -⟩ | ⟨-, -, amount, fee, net, st, t2, -, -, -, hrec, hb, -⟩
          · rw [e] at ht; rw [ht.2.1.unique hfr]; rfl
          · rw [← hrec.token.unique ht.2.1, (by rw [hb.rest] : t2.kind = t1.kind), e1]; rfl
      rw [hk'] at e3
      cases e3
      exact ⟨h4, h6⟩

end Verif.TP
