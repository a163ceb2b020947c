import Verif.Lemmas.TPPay
import Verif.Lemmas.TPDep
import Verif.Lemmas.TPOps
/-!
# Payouts that are held back touch nothing but their records
-/
set_option linter.unusedSimpArgs false
namespace Verif.TP
open Verif Codec

variable {env : Env} {ctx : Ctx} {cpi : Pubkey → World → Except Err World} {w w' : World}

/-- Only the accounts `k` and `k'` change. -/
def Only (k k' : Pubkey) (w w' : World) : Prop := ∀ j, j ≠ k → j ≠ k' → w'.acc j = w.acc j

theorem put_only {E : Type} {ec : Codec E} {r : Withdrawal E} {t : TokenSettings} {kw kt : Pubkey} {w1 w2 : World} {b : Bytes}
    (h1 : putToken ctx t kt w = .ok w1 ∨ w1 = w) (h2 : putWithdrawal ctx ec r kw w2 = .ok w') (e : w2 = w1.log b ∨ w2 = w1) : Only kw kt w w' := by
  intro j hk ht
  rw [((RL.pack_acc h2 j).2.2 hk)]
  have : w2.acc j = w1.acc j := by rcases e with rfl | rfl <;> rfl
  rw [this]
  rcases h1 with h1 | rfl
  · exact (RL.pack_acc h1 j).2.2 ht
  · rfl

/-- A payout of a Solana token either pays or touches only the records. -/
theorem withdrawSol_only (h : run env ctx cpi .withdrawMultiTokenSol w = .ok w') :
    ∃ kw kv kt r t, ctx.accounts[0]? = some kw ∧ ctx.accounts[1]? = some kv ∧ ctx.accounts[3]? = some kt ∧
      Holds (withdrawalC wSolEventC) recLen (w.acc kw) r ∧ Holds tokenSettingsC recLen (w.acc kt) t ∧
      (Only kw kt w w' ∨ ∃ fee net : U64, feeOf t.feeWithdrawalInfo (r.event.amount.setWidth 64) = .ok fee ∧
        net.toNat + fee.toNat = (r.event.amount.setWidth 64 : U64).toNat ∧ net.toNat ≤ bal w kv ∧
        (r.md.status = .new → Within t (epochOf ctx.now) net.toNat)) := by
  simp only [run, processWithdrawSol, bind_ok, acct_ok, sysvar_ok, require_ok, exists_const, ex_unit, validatePda_ok] at h
  obtain ⟨kw, hkw, kv, hkv, rc, hrc, kt, hkt, km, hkm, ks, -, -, -, clock, -, -, ss, hss, r, hr, t, ht, hem, hva, htm, h⟩ := h
  refine ⟨kw, kv, kt, r, t.ts, hkw, hkv, hkt, (loadWithdrawal_ok.1 hr).1, (loadSol_ok.1 ht).1, ?_⟩
  split at h
  · simp only [bind_ok, orErr_ok, checkedSub_some, Prod.exists] at h
    obtain ⟨fee, hfee, tr, htr, w1, s, h1, h2⟩ := h
    unfold settleSol at h1
    split at h1
    · rename_i hst
      simp only [bind_ok, orErr_ok, checkedAdd_some, Prod.exists, Except.ok.injEq, Prod.mk.injEq] at h1
      obtain ⟨daily, hdaily, sup, hsup, w2, s', h3, w3, h4, rfl, rfl⟩ := h1
      unfold payIfAllowed at h3
      split at h3
      · simp only [Except.ok.injEq, Prod.mk.injEq] at h3
        obtain ⟨rfl, rfl⟩ := h3
        exact .inl (put_only (.inl h4) h2 (.inl rfl))
      · rename_i hov
        obtain ⟨-, ⟨-, hb, rfl⟩ | ⟨-, hm, -⟩⟩ := payFromVault_fx h3
        · exact .inl (put_only (.inl h4) h2 (.inl rfl))
        · exact .inr ⟨fee, tr, hfee, htr.symm, hm.1, fun _ => Classical.not_not.1 (fun hn => hov ((over hdaily.symm).2 hn))⟩
    · rename_i hst
      obtain ⟨-, ⟨-, hb, rfl⟩ | ⟨-, hm, -⟩⟩ := payFromVault_fx h1
      · exact .inl (put_only (t := t.ts) (.inr rfl) h2 (.inl rfl))
      · exact .inr ⟨fee, tr, hfee, htr.symm, hm.1, fun e => by rw [e] at hst; cases hst⟩
    · simp only [Except.ok.injEq, Prod.mk.injEq] at h1
      obtain ⟨rfl, rfl⟩ := h1
      exact .inl (put_only (t := t.ts) (.inr rfl) h2 (.inl rfl))
  · cases h
    exact .inl fun _ _ _ => rfl

/-- An approval for a Solana token either pays or touches only the records. -/
theorem approveSol_only (h : run env ctx cpi .approveWithdrawSol w = .ok w') :
    ∃ kw kv kt r t, ctx.accounts[2]? = some kw ∧ ctx.accounts[1]? = some kv ∧ ctx.accounts[4]? = some kt ∧
      Holds (withdrawalC wSolEventC) recLen (w.acc kw) r ∧ Holds tokenSettingsC recLen (w.acc kt) t ∧
      (Only kw kt w w' ∨ ∃ fee net : U64, feeOf t.feeWithdrawalInfo (r.event.amount.setWidth 64) = .ok fee ∧
        net.toNat + fee.toNat = (r.event.amount.setWidth 64 : U64).toNat ∧ net.toNat ≤ bal w kv) := by
  simp only [run, processApproveSol, bind_ok, acct_ok, sysvar_ok, require_ok, exists_const, ex_unit, validatePda_ok, orErr_ok,
    checkedSub_some, Prod.exists, loadSettingsNoEmergency_ok] at h
  obtain ⟨au, -, kv, hkv, kw, hkw, rc, hrc, kt, hkt, ks, -, -, -, clock, -, -, hsig, s, pn, ⟨hs, hse⟩, r, hr, hst, hau, t, ht, hem, hva, htm,
    fee, hfee, tr, htr, w1, st, h1, w2, h2, h3⟩ := h
  refine ⟨kw, kv, kt, r, t.ts, hkw, hkv, hkt, (loadWithdrawal_ok.1 hr).1, (loadSol_ok.1 ht).1, ?_⟩
  obtain ⟨t', -, h2⟩ := released h2
  obtain ⟨-, ⟨-, hb, rfl⟩ | ⟨-, hm, -⟩⟩ := payFromVault_fx h1
  · exact .inl (put_only (t := t') (b := []) (h2.imp id (·.1)) h3 (.inr rfl))
  · exact .inr ⟨fee, tr, hfee, htr.symm, hm.1⟩

/-- A payout of a known Everscale token either is within the limits or touches only the records. -/
theorem withdrawEver_only (h : run env ctx cpi .withdrawMultiTokenEver w = .ok w') :
    ∃ kw km kt r, ctx.accounts[0]? = some kw ∧ ctx.accounts[1]? = some km ∧ ctx.accounts[3]? = some kt ∧
      Holds (withdrawalC wEverEventC) recLen (w.acc kw) r ∧
      ((w.acc kt).lamports ≠ 0 → ∃ t m, Holds tokenSettingsC recLen (w.acc kt) t ∧ (w.acc km).data = .mint m ∧
        (Only kw kt w w' ∨ ∃ amount fee net : U64, getWithdrawalAmount r.event.amount r.event.decimals m.decimals = .ok amount ∧
          feeOf t.feeWithdrawalInfo amount = .ok fee ∧ net.toNat + fee.toNat = amount.toNat ∧ Within t (epochOf ctx.now) net.toNat)) := by
  simp only [run, processWithdrawEver, bind_ok, acct_ok, sysvar_ok, require_ok, exists_const, ex_unit, validatePda_ok] at h
  obtain ⟨kw, hkw, km, hkm, rc, hrc, kt, hkt, ks, -, -, -, -, -, -, -, -, -, -, -, ss, hss, r, hr, h⟩ := h
  refine ⟨kw, km, kt, r, hkw, hkm, hkt, (loadWithdrawal_ok.1 hr).1, fun hl => ?_⟩
  rw [if_neg hl] at h
  simp only [payEver, bind_ok, require_ok, exists_const, ex_unit, validatePda_ok, mintOf_ok] at h
  obtain ⟨t, ht, hem, hva, htk, m, hm, h⟩ := h
  refine ⟨t.ts, m, (loadEver_ok.1 ht).1, hm, ?_⟩
  split at h
  · simp only [bind_ok, orErr_ok, checkedSub_some, checkedAdd_some, Prod.exists] at h
    obtain ⟨amount, ham, fee, hfee, sup, hsup, tr, htr, daily, hdaily, w1, s, h1, w2, h2, h3⟩ := h
    unfold settleEver at h1
    split at h1
    · simp only [Except.ok.injEq, Prod.mk.injEq] at h1
      obtain ⟨rfl, rfl⟩ := h1
      exact .inl (put_only (.inl h2) h3 (.inl rfl))
    · rename_i hov
      refine .inr ⟨amount, fee, tr, ham, ?_, htr.symm, Classical.not_not.1 (fun hn => hov ((over hdaily.symm).2 hn))⟩
      have e : (resetEpoch t.ts (epochOf ctx.now)).feeWithdrawalInfo = t.ts.feeWithdrawalInfo := by unfold resetEpoch; split <;> rfl
      rw [← e]; exact hfee
  · cases h
    exact .inl fun _ _ _ => rfl

/-- A deposit of a Solana token moves the tokens and touches only records and lamports besides. -/
theorem depositSol_xfer {sd : U128} {name symbol : Bytes} {a : U64} {rc : EverAddress} {v : U64} {ev : Pubkey} {py : Bytes}
    (h : run env ctx cpi (.depositMultiTokenSol sd name symbol a rc v ev py) w = .ok w') :
    ∃ f cr ct kv dp mv kt, ctx.accounts[0]? = some f ∧ ctx.accounts[1]? = some cr ∧ ctx.accounts[2]? = some ct ∧ ctx.accounts[3]? = some kv ∧
      ctx.accounts[4]? = some dp ∧ ctx.accounts[6]? = some mv ∧ ctx.accounts[7]? = some kt ∧
      ((w.acc kt).lamports ≠ 0 → ∃ w1, splTransfer env ctx ctx.signs ct kv cr a w = .ok w1 ∧
        ∀ j, j ≠ f → j ≠ dp → j ≠ mv → j ≠ kt → w'.acc j = w1.acc j) := by
  simp only [run, processDepositSol, bind_ok, acct_ok, sysvar_ok, require_ok, exists_const, ex_unit, deriveAt_ok, mintOf_ok, tokenOf_ok, orErr_ok, Prod.exists,
    validatePda_ok, checkedAdd_some, checkedSub_some] at h
  obtain ⟨f, h0, cr, h1, ct, h2, kv, h3, dp, h4, mi, h5, mv, h6, kt, h7, ks, -, -, -, -, -, rent, -, -, hsig, ss, sn, hss, hnm, hsy, w1, hdep, t, ht,
    hem, hmi, m, hm, hva, hmv, tv, htv, tot, htot, hlim, w2, b2, w3, b3, dn, hdn, w4, b4, fee, hfee, sup, hsup, net, hnet, w5, b5, b6⟩ := h
  refine ⟨f, cr, ct, kv, dp, mv, kt, h0, h1, h2, h3, h4, h6, h7, fun hl => ?_⟩
  unfold deployOnce at hdep
  rw [if_neg hl] at hdep
  cases hdep
  refine ⟨w2, b2, fun j hf hd hv hk => ?_⟩
  rw [(RL.pack_acc b6 j).2.2 hk, (RL.pack_acc b5 j).2.2 hd]
  show w4.acc j = _
  rw [(create_full hdn b4).2.2.2.2.2.2.2 j hd hf, sys_other b3 hf hv]

end Verif.TP
