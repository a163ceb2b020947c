import Verif.Lemmas.RetryRL
import Verif.Lemmas.TPFill
import Verif.Lemmas.TPMisc
import Verif.Lemmas.WFx
/-!
# Repeated instructions of the token proxy
-/
namespace Verif.TP
open Codec

variable {env : Env} {ctx ctx' : Ctx} {cpi cpi' : Pubkey → World → Except Err World} {w w1 w2 : World}

/-! ## Administration -/

theorem role_again {f : Settings → Settings} (hf : ∀ s, f (f s) = f s) (hc : SameCall ctx ctx') (h1 : processChangeRole env ctx f w = .ok w1)
    (h2 : processChangeRole env ctx' f w1 = .ok w2) : w2.acc = w1.acc := by
  simp only [processChangeRole, bind_ok, acct_ok, require_ok, exists_const, ex_unit, Prod.exists] at h1 h2
  obtain ⟨_, -, k, a1, _, -, -, s, _, -, -, g⟩ := h1
  obtain ⟨_, -, k', b1, _, -, -, s', _, hs', -, g'⟩ := h2
  rw [hc.accounts, a1] at b1; cases b1
  exact put_again hf g (loadSettings_ok.1 hs').1 rfl g'

theorem limits_again {f : TokenSettings → TokenSettings} (hf : ∀ s, f (f s) = f s) (hc : SameCall ctx ctx')
    (h1 : processChangeLimits env ctx f w = .ok w1) (h2 : processChangeLimits env ctx' f w1 = .ok w2) : w2.acc = w1.acc := by
  simp only [processChangeLimits, bind_ok, acct_ok, require_ok, exists_const, ex_unit, Prod.exists] at h1 h2
  obtain ⟨_, -, k, a1, _, -, -, _, _, -, -, s, -, g⟩ := h1
  obtain ⟨_, -, k', b1, _, -, -, _, _, -, -, s', hs', g'⟩ := h2
  rw [hc.accounts, a1] at b1; cases b1
  exact put_again hf g (loadToken_ok.1 hs').1 rfl g'

theorem enable_again (hc : SameCall ctx ctx') (h1 : processEnableEmergency env ctx w = .ok w1)
    (h2 : processEnableEmergency env ctx' w1 = .ok w2) : w2.acc = w1.acc := by
  simp only [processEnableEmergency, bind_ok, acct_ok, require_ok, exists_const, ex_unit, Prod.exists] at h1 h2
  obtain ⟨_, -, k, a1, -, s, _, -, -, g⟩ := h1
  obtain ⟨_, -, k', b1, -, s', _, hs', -, g'⟩ := h2
  rw [hc.accounts, a1] at b1; cases b1
  exact put_again (f := fun s : Settings => { s with emergency := true }) (fun _ => rfl) g (loadSettings_ok.1 hs').1 rfl g'

theorem disable_again (hc : SameCall ctx ctx') (h1 : processDisableEmergency env ctx w = .ok w1)
    (h2 : processDisableEmergency env ctx' w1 = .ok w2) : w2.acc = w1.acc := by
  simp only [processDisableEmergency, bind_ok, acct_ok, require_ok, exists_const, ex_unit, Prod.exists] at h1 h2
  obtain ⟨_, -, k, a1, _, -, -, s, _, -, -, g⟩ := h1
  obtain ⟨_, -, k', b1, _, -, -, s', _, hs', -, g'⟩ := h2
  rw [hc.accounts, a1] at b1; cases b1
  exact put_again (f := fun s : Settings => { s with emergency := false }) (fun _ => rfl) g (loadSettings_ok.1 hs').1 rfl g'

theorem enableToken_again (hc : SameCall ctx ctx') (h1 : processEnableTokenEmergency env ctx w = .ok w1)
    (h2 : processEnableTokenEmergency env ctx' w1 = .ok w2) : w2.acc = w1.acc := by
  simp only [processEnableTokenEmergency, bind_ok, acct_ok, require_ok, exists_const, ex_unit, Prod.exists] at h1 h2
  obtain ⟨_, -, k, a1, _, -, -, _, _, -, -, s, -, g⟩ := h1
  obtain ⟨_, -, k', b1, _, -, -, _, _, -, -, s', hs', g'⟩ := h2
  rw [hc.accounts, a1] at b1; cases b1
  exact put_again (f := fun s : TokenSettings => { s with emergency := true }) (fun _ => rfl) g (loadToken_ok.1 hs').1 rfl g'

theorem disableToken_again (hc : SameCall ctx ctx') (h1 : processDisableTokenEmergency env ctx w = .ok w1)
    (h2 : processDisableTokenEmergency env ctx' w1 = .ok w2) : w2.acc = w1.acc := by
  simp only [processDisableTokenEmergency, bind_ok, acct_ok, require_ok, exists_const, ex_unit, Prod.exists] at h1 h2
  obtain ⟨_, -, k, a1, _, -, _, -, -, _, _, -, -, s, -, g⟩ := h1
  obtain ⟨_, -, k', b1, _, -, _, -, -, _, _, -, -, s', hs', g'⟩ := h2
  rw [hc.accounts, a1] at b1; cases b1
  exact put_again (f := fun s : TokenSettings => { s with emergency := false }) (fun _ => rfl) g (loadToken_ok.1 hs').1 rfl g'

theorem fee_again {f : FeeType} {m d : U64} (hc : SameCall ctx ctx') (h1 : processUpdateFee env ctx f m d w = .ok w1)
    (h2 : processUpdateFee env ctx' f m d w1 = .ok w2) : w2.acc = w1.acc := by
  simp only [processUpdateFee, bind_ok, acct_ok, require_ok, exists_const, ex_unit, Prod.exists] at h1 h2
  obtain ⟨_, -, k, a1, _, -, -, _, _, -, -, s, -, g⟩ := h1
  obtain ⟨_, -, k', b1, _, -, -, _, _, -, -, s', hs', g'⟩ := h2
  rw [hc.accounts, a1] at b1; cases b1
  exact put_again (v := w1.log _) (f := setFee f ⟨m, d⟩) (fun _ => by cases f <;> rfl) g (loadToken_ok.1 hs').1 rfl g'

theorem name_again {y n : Bytes} (hc : SameCall ctx ctx') (h1 : processUpdateTokenName env ctx y n w = .ok w1)
    (h2 : processUpdateTokenName env ctx' y n w1 = .ok w2) : w2.acc = w1.acc := by
  simp only [processUpdateTokenName, bind_ok, acct_ok, require_ok, exists_const, ex_unit, Prod.exists] at h1 h2
  obtain ⟨_, -, k, a1, _, -, -, _, _, -, -, s, -, g⟩ := h1
  obtain ⟨_, -, k', b1, _, -, -, _, _, -, -, s', hs', g'⟩ := h2
  rw [hc.accounts, a1] at b1; cases b1
  exact put_again (v := w1.log _) (f := fun s : TokenSettings => { s with symbol := y, name := n }) (fun _ => rfl) g (loadSol_ok.1 hs').1 rfl g'

theorem bounty_again {b : U64} (hc : SameCall ctx ctx') (h1 : processChangeBounty env ctx b w = .ok w1)
    (h2 : processChangeBounty env ctx' b w1 = .ok w2) : w2.acc = w1.acc := by
  simp only [processChangeBounty, bind_ok, acct_ok, require_ok, exists_const] at h1 h2
  obtain ⟨_, -, k, a1, -, s, -, -, -, g⟩ := h1
  obtain ⟨_, -, k', b1, -, s', hs', -, -, g'⟩ := h2
  rw [hc.accounts, a1] at b1; cases b1
  exact put_again (f := fun r : Withdrawal WSolEvent => { r with md := { r.md with bounty := b } }) (fun _ => rfl) g (loadWithdrawal_ok.1 hs').1 rfl g'

theorem init_again {g m wm : Pubkey} (hc : SameCall ctx ctx') (h1 : run env ctx cpi (.init g m wm) w = .ok w1)
    (h2 : run env ctx' cpi' (.init g m wm) w1 = .ok w2) : w2.acc = w1.acc := by
  obtain ⟨k, hk, -, -, -, -, n, pn, hh⟩ := init_vacant h1
  obtain ⟨k', hk', hv, -⟩ := init_vacant h2
  rw [hc.program] at hk'
  cases hk.unique hk'
  exact (not_vacant (by decide) hh hv.2.1).elim

/-! ## Deposits -/

theorem DepositMade.again {E : Type} {ec : Codec E} {k a a' : Pubkey} {sd : U128} {e e' : E} (h1 : DepositMade ec env ctx w w1 k a sd e)
    (h2 : DepositMade ec env ctx' w1 w2 k a' sd e') : False := by
  obtain ⟨n, l, m, h⟩ := h1.record
  exact not_vacant (by decide) h h2.vacant.2

/-! ## Closing -/

private theorem delete_owner {k a : Pubkey} (h : deleteAccount env ctx k a w = .ok w1) : (w.acc k).owner = ctx.program ∧ (w1.acc k).owner = env.systemId := by
  obtain ⟨hne, wm, h1, h2⟩ := deleteAccount_ok h
  obtain ⟨-, -, -, -, -, hacc⟩ := moveLamports_ok h1
  simp only [zeroAccount, bind_ok, require_ok, exists_const, Except.ok.injEq] at h2
  obtain ⟨ho, -, rfl⟩ := h2
  rw [hacc k] at ho
  exact ⟨ho, by simp⟩

theorem close_again {k a a' : Pubkey} (hc : SameCall ctx ctx') (hs : ctx.program ≠ env.systemId) (h1 : deleteAccount env ctx k a w = .ok w1)
    (h2 : deleteAccount env ctx' k a' w1 = .ok w2) : False := by
  have e1 := (delete_owner h1).2
  have e2 := (delete_owner h2).1
  rw [e1, hc.program] at e2
  exact hs e2.symm

/-! ## Requests -/

private theorem open_lamports {E : Type} {ec : Codec E} {f au k : Pubkey} {rs : RL.Settings} {rr : RL.RelayRound} {pda : PDA}
    {len : U32} {e : E} {pn : Option U8} {tok : Bytes} {rec : Pubkey} {amt : U128}
    (h : openWithdrawal env ctx ec f au k rs rr pda len e pn tok rec amt w = .ok w1) :
    (w1.acc k).lamports ≠ 0 ∧ (w1 = w ∨ (w1.acc k).owner = ctx.program) ∧ ∀ x, x ≠ k → (w1.acc x).owner = (w.acc x).owner := by
  obtain ⟨n, hk, ⟨hn, rfl⟩ | ⟨-, wa, wb, l, g1, g2, -, g3⟩⟩ := openWithdrawal_ok h
  · exact ⟨hn, .inl rfl, fun _ _ => rfl⟩
  · have h1 := createPda_self (findAddr_create hk) g1
    obtain ⟨-, -, -, hf, -⟩ := createPda_ok (findAddr_create hk) g1
    refine ⟨?_, .inr ?_, fun x hx => ?_⟩
    · rw [sysTransfer_acc g3 k]
      simp only [World.log_acc, (RL.pack_acc g2 k).2.1, h1, hf.symm, if_false]
      omega
    · rw [sysTransfer_acc g3 k]
      simp only [World.log_acc, (RL.pack_acc g2 k).1, h1]
    · rw [sysTransfer_acc g3 x]
      simp only [World.log_acc, (RL.pack_acc g2 x).1, (createPda_acc (findAddr_create hk) g1 x hx).2]

private theorem open_known {E : Type} {ec : Codec E} {f au k : Pubkey} {rs : RL.Settings} {rr : RL.RelayRound} {pda : PDA}
    {len : U32} {e : E} {pn : Option U8} {tok : Bytes} {rec : Pubkey} {amt : U128} (hn : (w.acc k).lamports ≠ 0)
    (h : openWithdrawal env ctx ec f au k rs rr pda len e pn tok rec amt w = .ok w1) : w1 = w := by
  obtain ⟨n, hk, ⟨-, rfl⟩ | ⟨h0, -⟩⟩ := openWithdrawal_ok h
  · rfl
  · exact (hn h0).elim

/-- Opening the proxy account and the record of a withdrawal, twice. -/
private theorem request_again {E E' : Type} {ec : Codec E} {ec' : Codec E'} {payload : Bytes} {m m' r r' f f' sys sys' au au' k : Pubkey} {i : Nat} {att att' : U64}
    {n n' : Option U8} {rs rs' : RL.Settings} {rr rr' : RL.RelayRound} {pda pda' : PDA} {len len' : U32} {e : E} {e' : E'} {tok tok' : Bytes}
    {rec rec' : Pubkey} {amt amt' : U128} {wm wm' : World} (hc : SameCall ctx ctx') (hs : ctx.program ≠ env.systemId) (hspl : env.splId ≠ env.systemId)
    (hp : payload ≠ [] → ∀ p, ctx.accounts[i]? = some p → (w.acc p).owner = env.systemId → (w.acc p).data.len = 0)
    (a1 : openProxy env ctx payload m r f sys i att w = .ok (n, wm))
    (a2 : openWithdrawal env ctx ec f au k rs rr pda len e n tok rec amt wm = .ok w1)
    (b1 : openProxy env ctx' payload m' r' f' sys' i att' w1 = .ok (n', wm'))
    (b2 : openWithdrawal env ctx' ec' f' au' k rs' rr' pda' len' e' n' tok' rec' amt' wm' = .ok w2) : w2.acc = w1.acc := by
  obtain ⟨hl, how, hox⟩ := open_lamports a2
  rcases openProxy_ok b1 with ⟨he, -, rfl⟩ | ⟨he, p, q, wp, -, hpa, -, ho, -, -⟩
  · rw [open_known hl b2]
  · exfalso
    rcases openProxy_ok a1 with ⟨he', -⟩ | ⟨-, p', q', wp', -, hpa', -, ho', hcase, ht⟩
    · exact he he'
    rw [hc.accounts, hpa'] at hpa
    cases hpa
    have hown : (wm.acc p).owner = env.splId := by
      rw [sysTransfer_acc ht p]
      rcases hcase with ⟨-, w0, -, h3⟩ | ⟨hd, -⟩
      · obtain ⟨-, -, -, h4, -, -, -, rfl⟩ := splInitAccount_ok h3
        simpa using h4
      · exact (hd (hp he p hpa' ho')).elim
    by_cases hk : p = k
    · subst hk
      rcases how with rfl | how
      · exact hspl (hown.symm.trans ho)
      · exact hs (how.symm.trans ho)
    · rw [hox p hk, hown] at ho
      exact hspl ho

theorem solRequest_again {pda : PDA} {r : Pubkey} {a : U128} {p : Bytes} {att : U64} (hc : SameCall ctx ctx') (hs : ctx.program ≠ env.systemId)
    (hspl : env.splId ≠ env.systemId)
    (hp : p ≠ [] → ∀ q, ctx.accounts[9]? = some q → (w.acc q).owner = env.systemId → (w.acc q).data.len = 0)
    (h1 : processSolRequest env ctx pda r a p att w = .ok w1) (h2 : processSolRequest env ctx' pda r a p att w1 = .ok w2) : w2.acc = w1.acc := by
  simp only [processSolRequest, bind_ok, acct_ok, sysvar_ok, require_ok, exists_const, Prod.exists] at h1 h2
  obtain ⟨_, -, _, -, k, a2, _, -, _, -, _, -, _, -, _, -, -, _, -, -, -, _, -, _, _, -, _, wm, g1, g2⟩ := h1
  obtain ⟨_, -, _, -, k', b2, _, -, _, -, _, -, _, -, _, -, -, _, -, -, -, _, -, _, _, -, _, wm', g1', g2'⟩ := h2
  rw [hc.accounts, a2] at b2; cases b2
  exact request_again hc hs hspl hp g1 g2 g1' g2'

theorem everRequest_again {pda : PDA} {t : EverAddress} {n y : Bytes} {d : U8} {r : Pubkey} {a : U128} {p : Bytes} {att : U64} (hc : SameCall ctx ctx')
    (hs : ctx.program ≠ env.systemId) (hspl : env.splId ≠ env.systemId)
    (hp : p ≠ [] → ∀ q, ctx.accounts[8]? = some q → (w.acc q).owner = env.systemId → (w.acc q).data.len = 0)
    (h1 : processEverRequest env ctx pda t n y d r a p att w = .ok w1) (h2 : processEverRequest env ctx' pda t n y d r a p att w1 = .ok w2) :
    w2.acc = w1.acc := by
  simp only [processEverRequest, bind_ok, acct_ok, sysvar_ok, require_ok, exists_const, Prod.exists] at h1 h2
  obtain ⟨_, -, _, -, k, a2, _, -, _, -, _, -, _, -, -, _, -, -, -, -, -, _, _, -, _, _, -, _, wm, g1, g2⟩ := h1
  obtain ⟨_, -, _, -, k', b2, _, -, _, -, _, -, _, -, -, _, -, -, -, -, -, _, _, -, _, _, -, _, wm', g1', g2'⟩ := h2
  rw [hc.accounts, a2] at b2; cases b2
  exact request_again hc hs hspl hp g1 g2 g1' g2'

/-! ## Votes -/

theorem vote_again {v : Vote} (hc : SameCall ctx ctx') (h1 : processVote env ctx v w = .ok w1) (h2 : processVote env ctx' v w1 = .ok w2) :
    w2.acc = w1.acc := by
  simp only [processVote, bind_ok, acct_ok, require_ok, exists_const, ex_unit, loadGeneric_ok, unpack_holds, orErr_ok, intoRelayRound_some] at h1 h2
  obtain ⟨x, a0, k, a1, kr, a2, -, hv, p, ⟨⟨b, t, hb, hd⟩, n, pn, hpk, -⟩, r, ⟨hr, -⟩, m, hrk, -, i, hi, old, hold, h⟩ := h1
  obtain ⟨x', b0, k', b1, kr', b2, -, -, p', ⟨⟨b', t', hb', hd'⟩, -⟩, r', ⟨hr', -⟩, -, -, -, i', hi', old', hold', h'⟩ := h2
  rw [hc.accounts, a0] at b0; cases b0
  rw [hc.accounts, a1] at b1; cases b1
  rw [hc.accounts, a2] at b2; cases b2
  split at h'
  · exfalso
    rename_i hn
    subst hn
    split at h
    · simp only [bind_ok] at h
      obtain ⟨wm, g1, g2⟩ := h
      obtain ⟨c, c', e1, hst, -, rfl⟩ := packRaw_ok.1 g1
      rw [hb] at e1; cases e1
      have hacc : ∀ z, (w1.acc z).data = ((w.setDataRaw k (.raw c')).acc z).data := fun z => by rw [(moveLamports_ok g2).2.2.2.2.2 z]
      have hne : kr ≠ k := by
        rintro rfl
        obtain ⟨s, hs⟩ := header_genericProposal hd
        obtain ⟨b3, t3, e3, -, d3⟩ := hr
        rw [hb] at e3; cases e3
        have hs' := header_of (d := pair u32 (pair u32 (vec key))) (hd := fun x => (x.isInitialized, x.accountKind))
          (tl := fun s => (s.roundNumber, s.roundEnd, s.relays)) (by intro a; simp [RL.relayRoundC, headerC]) d3
        rw [hs] at hs'
        simp only [Option.some.injEq, Prod.mk.injEq] at hs'
        rw [hpk, hrk] at hs'
        cases hs'.1.2
      have e2 : r' = r := by
        obtain ⟨b3, t3, e3, l3, d3⟩ := hr
        refine Holds.unique hr' ⟨b3, t3, ?_, l3, d3⟩
        rw [hacc, World.setDataRaw, World.set_acc, if_neg hne, e3]
      subst e2
      rw [hi] at hi'; cases hi'
      rw [hacc] at hb'
      simp only [World.setDataRaw, World.set_acc, if_true, Data.raw.injEq] at hb'
      subst hb'
      rw [hst.dec] at hd'
      cases hd'
      have hlt : i < p.signers.length := by
        rw [List.getElem?_eq_some_iff] at hold
        exact hold.1
      simp only [List.getElem?_set_self hlt] at hold'
      cases hold'
      exact hv rfl
    · cases h
      rename_i hn
      rw [hb] at hb'; cases hb'
      rw [hd] at hd'; cases hd'
      cases hr.unique hr'
      rw [hi] at hi'; cases hi'
      rw [hold] at hold'; cases hold'
      exact hn rfl
  · cases h'; rfl

/-! ## Payouts -/

private theorem done_ne {p : Bytes} : doneStatus p ≠ .new ∧ doneStatus p ≠ .waitingForApprove ∧ doneStatus p ≠ .pending := by
  unfold doneStatus
  split <;> simp

private theorem solOut_bal {kv rc km : Pubkey} {r : Withdrawal WSolEvent} {net : Nat} {st : WStatus} (h : SolOut env ctx kv rc km r net w w1 st)
    (hst : st ≠ .pending) : net ≤ bal w kv := by
  cases h with
  | short => exact (hst rfl).elim
  | paid _ h => exact h.1

private theorem solOut_short {kv rc km : Pubkey} {r : Withdrawal WSolEvent} {net : Nat} {st : WStatus} (h : SolOut env ctx kv rc km r net w w1 st)
    (hst : st = .pending) : bal w1 kv < net := by
  cases h with
  | short _ h1 h2 => rw [(h2 kv).1]; exact h1
  | paid => exact (done_ne.2.2 hst).elim

theorem withdrawSol_again (hc : SameCall ctx ctx') (h1 : run env ctx cpi .withdrawMultiTokenSol w = .ok w1)
    (h2 : run env ctx' cpi' .withdrawMultiTokenSol w1 = .ok w2) : w2.acc = w1.acc := by
  obtain ⟨kw, kv, rc, kt, km, r, t, v, a0, a1, a2, a3, a4, hw, ht, hk, -, -, hne, hcase⟩ := withdrawSol_fx h1
  obtain ⟨kw', kv', rc', kt', km', r', t', v', b0, b1, b2, b3, b4, hw', ht', hk', -, -, -, hcase'⟩ := withdrawSol_fx h2
  rw [hc.accounts] at b0 b1 b2 b3 b4
  rw [a0] at b0; cases b0
  rw [a1] at b1; cases b1
  rw [a2] at b2; cases b2
  rw [a3] at b3; cases b3
  rw [a4] at b4; cases b4
  rcases hcase' with ⟨hs, -⟩ | ⟨hq, fee', net', st', u', hfee', hnet', -, hst'⟩
  · exact funext hs
  exfalso
  rcases hcase with ⟨hs, hno, hpe⟩ | ⟨-, fee, net, st, u, hfee, hnet, hrec, hst⟩
  · have e1 : r' = r := by
      refine Holds.unique hw'.2.1 ?_
      rw [hs]; exact hw.2.1
    subst e1
    have e2 : t' = t := by
      refine Holds.unique ht'.2.1 ?_
      rw [hs]; exact ht.2.1
    subst e2
    rcases hst' with ⟨hn, -⟩ | ⟨hp, -, hnp, ho⟩
    · exact hno ⟨hq, hn⟩
    · obtain ⟨f2, n2, hf2, hn2, hb⟩ := hpe hq hp
      rw [hfee'] at hf2; cases hf2
      have := solOut_bal ho hnp
      have e : bal w1 kv = bal w kv := by unfold bal; rw [hs]
      omega
  · have e1 := hw'.2.1.unique hrec.record
    have e2 := ht'.2.1.unique hrec.token
    subst e1; subst e2
    have hfi : t'.feeWithdrawalInfo = t.feeWithdrawalInfo := by
      rcases hst with ⟨-, hb, -⟩ | ⟨-, rfl, -⟩
      · rw [hb.rest]
      · rfl
    rw [hfi] at hfee'
    have hev : (r.withStatus st).event = r.event := rfl
    rw [hev, hfee] at hfee'; cases hfee'
    rw [hev] at hnet'
    have hst1 : (r.withStatus st).md.status = st := rfl
    rw [hst1] at hst'
    rcases hst with ⟨-, -, ⟨-, rfl, -⟩ | ⟨-, ho⟩⟩ | ⟨-, -, hnp, ho⟩
    · rcases hst' with ⟨h, -⟩ | ⟨h, -⟩ <;> cases h
    · rcases hst' with ⟨h, -⟩ | ⟨h, -, hnp', ho'⟩
      · exact ho.ne.1 h
      · have := solOut_short ho h
        have := solOut_bal ho' hnp'
        omega
    · rcases hst' with ⟨h, -⟩ | ⟨h, -⟩
      · exact ho.ne.1 h
      · exact hnp h

theorem approveSol_again (hc : SameCall ctx ctx') (h1 : run env ctx cpi .approveWithdrawSol w = .ok w1)
    (h2 : run env ctx' cpi' .approveWithdrawSol w1 = .ok w2) : False := by
  obtain ⟨-, kw, kv, rc, kt, r, t, v, a2, -, -, -, -, -, -, -, -, -, -, fee, net, st, t', -, -, hrec, -, ho⟩ := approveSol_fx h1
  obtain ⟨-, kw', kv', rc', kt', r', u, v', b2, -, -, -, hw', -, -, -, -, -, hst, -⟩ := approveSol_fx h2
  rw [hc.accounts, a2] at b2; cases b2
  have e := hw'.2.1.unique hrec.record
  subst e
  exact ho.ne.2 hst

theorem approveEver_again (hc : SameCall ctx ctx') (h1 : run env ctx cpi .approveWithdrawEver w = .ok w1)
    (h2 : run env ctx' cpi' .approveWithdrawEver w1 = .ok w2) : False := by
  obtain ⟨-, kw, mint, rc, kt, r, t, m, a2, -, -, -, -, -, -, -, amount, fee, net, t', -, -, -, hrec, -, -⟩ := approveEver_fx h1
  obtain ⟨-, kw', mint', rc', kt', r', u, m', b2, -, -, -, hw', -, -, hst, -⟩ := approveEver_fx h2
  rw [hc.accounts, a2] at b2; cases b2
  have e := hw'.2.1.unique hrec.record
  subst e
  exact done_ne.2.1 hst

theorem withdrawEver_again (hc : SameCall ctx ctx') (h1 : run env ctx cpi .withdrawMultiTokenEver w = .ok w1)
    (h2 : run env ctx' cpi' .withdrawMultiTokenEver w1 = .ok w2) : w2.acc = w1.acc := by
  have hfx := withdrawEver_fx h2
  have h2' := h2
  simp only [run, processWithdrawEver, bind_ok, acct_ok, sysvar_ok, exists_const] at h1 h2'
  obtain ⟨kw, a0, mint, a1, rc, a2, kt, a3, _, -, _, -, _, -, _, -, -, _, -, -, _, -, r, hr, h⟩ := h1
  obtain ⟨kw', mint', rc', kt', r', b0, b1, b2, b3, hw', hcase'⟩ := hfx
  obtain ⟨_, -, _, -, _, -, kt2, c3, _, -, _, -, _, -, _, -, -, _, -, -, _, -, r2, -, h2'⟩ := h2'
  rw [hc.accounts] at b0 b1 b2 b3 c3
  rw [a0] at b0; cases b0
  rw [a1] at b1; cases b1
  rw [a2] at b2; cases b2
  rw [a3] at b3 c3; cases b3; cases c3
  have hcase : (w1 = w ∧ (w.acc kt).lamports = 0 ∧ ctx.accounts[9]? = none) ∨
      ∃ wm, loadWithdrawal wEverEventC env ctx kw wm = .ok r ∧ payEver env ctx kw mint rc kt r wm = .ok w1 := by
    split at h
    · rename_i hl
      split at h
      · rename_i hn
        cases h; exact .inl ⟨rfl, hl, hn⟩
      · simp only [bind_ok] at h
        obtain ⟨wm, g1, g2⟩ := h
        refine .inr ⟨wm, loadWithdrawal_acc hr ((deployed g1).full kw ?_), g2⟩
        obtain ⟨b, q, hb, hlen, -⟩ := (loadWithdrawal_ok.1 hr).1
        rw [hb]
        show b.length ≠ 0
        rw [hlen]
        decide
    · exact .inr ⟨w, hr, h⟩
  rcases hcase with ⟨rfl, hl, hn⟩ | ⟨wm, hr', hp⟩
  · rw [if_pos hl, hc.accounts, hn] at h2'
    cases h2'; rfl
  obtain ⟨hne, t, m, ht, hor⟩ := payEver_fx hr' hp
  have hdone : r'.md.status ≠ .new ∨ ¬ Confirmed r' := by
    rcases hor with ⟨rfl, hno⟩ | ⟨-, -, amount, fee, net, st, t', -, -, -, hrec, -, hst⟩
    · have e := hw'.2.1.unique (loadWithdrawal_ok.1 hr').1
      subst e
      by_cases hs : r'.md.status = .new
      · exact .inr fun hq => hno ⟨hq, hs⟩
      · exact .inl hs
    · have e := hw'.2.1.unique hrec.record
      subst e
      refine .inl ?_
      show st ≠ .new
      rcases hst with ⟨-, rfl, -⟩ | ⟨-, rfl, -⟩
      · simp
      · exact done_ne.1
  have hkt : (w1.acc kt).data.len ≠ 0 := by
    rcases hor with ⟨rfl, -⟩ | ⟨-, -, amount, fee, net, st, t', -, -, -, hrec, -, -⟩
    · exact not_vacant (by decide) ht.1.2.1
    · exact not_vacant (by decide) hrec.token
  rcases hcase' with ⟨rfl, -⟩ | ⟨v, hv, -, -, t', m', -, hor'⟩
  · rfl
  · rcases hv with ⟨rfl, -⟩ | ⟨-, hd⟩
    · rcases hor' with ⟨rfl, -⟩ | ⟨hq, hs, -⟩
      · rfl
      · rcases hdone with h | h
        · exact (h hs).elim
        · exact (h hq).elim
    · exact (hkt hd.absent.2.1).elim

/-! ## Payloads -/

theorem executeEver_again (hc : SameCall ctx ctx') (h1 : processExecutePayloadEver env ctx cpi w = .ok w1)
    (h2 : processExecutePayloadEver env ctx' cpi' w1 = .ok w2) : w2.acc = w1.acc := by
  simp only [processExecutePayloadEver, bind_ok, acct_ok, unpack_holds] at h1 h2
  obtain ⟨k, a0, r, ⟨hr, -⟩, h⟩ := h1
  obtain ⟨k', b0, r', ⟨hr', -⟩, h'⟩ := h2
  rw [hc.accounts, a0] at b0; cases b0
  split at h
  · simp only [bind_ok, orErr_ok, Prod.exists] at h
    obtain ⟨_, _, -, _, _, -, wm, -, g⟩ := h
    cases (RL.pack_holds g).unique hr'
    rw [if_neg (by simp [Withdrawal.withStatus])] at h'
    cases h'; rfl
  · rename_i hn
    cases h
    cases hr.unique hr'
    rw [if_neg hn] at h'
    cases h'; rfl

theorem executeSol_again (hc : SameCall ctx ctx') (h1 : processExecutePayloadSol env ctx cpi w = .ok w1)
    (h2 : processExecutePayloadSol env ctx' cpi' w1 = .ok w2) : w2.acc = w1.acc := by
  simp only [processExecutePayloadSol, bind_ok, acct_ok, unpack_holds] at h1 h2
  obtain ⟨k, a0, r, ⟨hr, -⟩, h⟩ := h1
  obtain ⟨k', b0, r', ⟨hr', -⟩, h'⟩ := h2
  rw [hc.accounts, a0] at b0; cases b0
  split at h
  · simp only [bind_ok, orErr_ok, Prod.exists] at h
    obtain ⟨_, _, -, wm, -, g⟩ := h
    cases (RL.pack_holds g).unique hr'
    rw [if_neg (by simp [Withdrawal.withStatus])] at h'
    cases h'; rfl
  · rename_i hn
    cases h
    cases hr.unique hr'
    rw [if_neg hn] at h'
    cases h'; rfl

/-! ## All instructions -/

/-- Sending an instruction that does not hand out a given amount a second time changes no account. -/
theorem run_again {i : Instr} (hc : SameCall ctx ctx') (hs : ctx.program ≠ env.systemId) (hspl : env.splId ≠ env.systemId) (hi : i.collects = false)
    (hp : ∀ n p, i.proxyAt = some n → ctx.accounts[n]? = some p → (w.acc p).owner = env.systemId → (w.acc p).data.len = 0)
    (h1 : run env ctx cpi i w = .ok w1) (h2 : run env ctx' cpi' i w1 = .ok w2) : w2.acc = w1.acc := by
  cases i with
  | voteForWithdrawRequest v => exact vote_again hc h1 h2
  | withdrawMultiTokenEver => exact withdrawEver_again hc h1 h2
  | withdrawMultiTokenSol => exact withdrawSol_again hc h1 h2
  | executePayloadEver => exact executeEver_again hc h1 h2
  | executePayloadSol => exact executeSol_again hc h1 h2
  | init g m wm => exact init_again hc h1 h2
  | depositMultiTokenEver sd a rc v e p =>
    obtain ⟨f, cr, ct, dp, mi, mv, kt, t, mk, token, d, m, t', fee, net, tr, -, -, -, a3, -, -, -, -, -, -, -, -, -, -, -, -, -, -, -, -, hd, -⟩ := depositEver_fx h1
    obtain ⟨f', cr', ct', dp', mi', mv', kt', u, mk', token', d', m', u', fee', net', tr', -, -, -, b3, -, -, -, -, -, -, -, -, -, -, -, -, -, -, -, -, hd', -⟩ := depositEver_fx h2
    rw [hc.accounts, a3] at b3; cases b3
    exact (hd.again hd').elim
  | depositMultiTokenSol sd n y a rc v e p =>
    obtain ⟨f, cr, ct, kv, dp, mi, mv, kt, wm, t, tm, tv, m, t', fee, net, -, -, -, -, a4, -, -, -, -, -, -, -, -, -, -, -, -, -, -, -, -, -, -, -, -, -, hd, -⟩ := depositSol_fx h1
    obtain ⟨f', cr', ct', kv', dp', mi', mv', kt', wm', u, tm', tv', m', u', fee', net', -, -, -, -, b4, -, -, -, -, -, -, -, -, -, -, -, -, -, -, -, -, -, -, -, -, -, hd', -⟩ := depositSol_fx h2
    rw [hc.accounts, a4] at b4; cases b4
    exact (hd.again hd').elim
  | withdrawMultiTokenEverRequest pda t n y d r a p att =>
    refine everRequest_again hc hs hspl (fun he q hq => hp 8 q ?_ hq) h1 h2
    simp [Instr.proxyAt, he]
  | withdrawMultiTokenSolRequest pda r a p att =>
    refine solRequest_again hc hs hspl (fun he q hq => hp 9 q ?_ hq) h1 h2
    simp [Instr.proxyAt, he]
  | changeGuardian k => simp only [run] at h1 h2; exact role_again (f := fun s => { s with guardian := k }) (fun _ => rfl) hc h1 h2
  | changeManager k => simp only [run] at h1 h2; exact role_again (f := fun s => { s with manager := k }) (fun _ => rfl) hc h1 h2
  | changeWithdrawalManager k => simp only [run] at h1 h2; exact role_again (f := fun s => { s with withdrawalManager := k }) (fun _ => rfl) hc h1 h2
  | changeDepositLimit n => simp only [run] at h1 h2; exact limits_again (f := fun t => { t with depositLimit := n }) (fun _ => rfl) hc h1 h2
  | changeWithdrawalLimits a b =>
    simp only [run] at h1 h2
    exact limits_again (f := fun t =>
      { t with withdrawalLimit := a.getD t.withdrawalLimit, withdrawalDailyLimit := b.getD t.withdrawalDailyLimit }) (fun _ => by cases a <;> cases b <;> rfl) hc h1 h2
  | enableEmergencyMode => exact enable_again hc h1 h2
  | disableEmergencyMode => exact disable_again hc h1 h2
  | enableTokenEmergencyMode => exact enableToken_again hc h1 h2
  | disableTokenEmergencyMode => exact disableToken_again hc h1 h2
  | approveWithdrawEver => exact (approveEver_again hc h1 h2).elim
  | approveWithdrawSol => exact (approveSol_again hc h1 h2).elim
  | updateFee f m d => exact fee_again hc h1 h2
  | updateTokenName y n => exact name_again hc h1 h2
  | withdrawEverFee a => cases hi
  | withdrawSolFee a => cases hi
  | changeBountyForWithdrawSol b => exact bounty_again hc h1 h2
  | cancelWithdrawSol sd rc v e p =>
    obtain ⟨f, au, mi, kw, dp, kt, mv, r, t, tv, m, fee, tr, -, -, -, -, a4, -, -, -, -, -, -, -, -, -, -, -, -, -, -, -, -, -, hd, -⟩ := cancel_fx h1
    obtain ⟨f', au', mi', kw', dp', kt', mv', r', t', tv', m', fee', tr', -, -, -, -, b4, -, -, -, -, -, -, -, -, -, -, -, -, -, -, -, -, -, hd', -⟩ := cancel_fx h2
    rw [hc.accounts, a4] at b4; cases b4
    exact (hd.again hd').elim
  | fillWithdrawSol sd rc a v e p =>
    obtain ⟨f, au, at_, mi, dp, kt, mv, t, tm, tv, m, kv, fs, rest, fee, net, -, -, -, -, a4, -, -, -, -, -, -, -, -, -, -, -, -, -, -, -, -, -, -, hd, -⟩ := fill_fx h1
    obtain ⟨f', au', at_', mi', dp', kt', mv', t', tm', tv', m', kv', fs', rest', fee', net', -, -, -, -, b4, -, -, -, -, -, -, -, -, -, -, -, -, -, -, -, -, -, -, hd', -⟩ := fill_fx h2
    rw [hc.accounts, a4] at b4; cases b4
    exact (hd.again hd').elim
  | withdrawProxy n => cases hi
  | closeDeposit =>
    simp only [run, processCloseDeposit, bind_ok, acct_ok, require_ok, exists_const, ex_unit, orErr_ok] at h1 h2
    obtain ⟨_, -, k, a1, -, _, -, _, -, _, -, -, -, g⟩ := h1
    obtain ⟨_, -, k', b1, -, _, -, _, -, _, -, -, -, g'⟩ := h2
    rw [hc.accounts, a1] at b1; cases b1
    exact (close_again hc hs g g').elim
  | closeWithdrawal =>
    simp only [run, processCloseWithdrawal, bind_ok, acct_ok, require_ok, exists_const, orErr_ok] at h1 h2
    obtain ⟨k, a1, _, -, _, -, -, _, -, -, g⟩ := h1
    obtain ⟨k', b1, _, -, _, -, -, _, -, -, g'⟩ := h2
    rw [hc.accounts, a1] at b1; cases b1
    exact (close_again hc hs g g').elim
  | withdrawMultiVault n => cases hi

end Verif.TP
