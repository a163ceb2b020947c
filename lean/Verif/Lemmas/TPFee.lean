import Verif.Lemmas.TPMoney
/-!
# Fee withdrawals, and sums over histories
-/
set_option linter.unusedSimpArgs false
namespace Verif

/-- Induction along a history, step by step. -/
theorem Run.fold {env : Env} {L : Pubkey → Prop} {top : Bool} {w w' : World} {tr : List Ev} {P : World → List Ev → Prop}
    (h : Run env L top w tr w') : ∀ pre, P w pre → (∀ e ∈ tr, ∀ t, P e.pre t → P e.post (t ++ [e])) → P w' (pre ++ tr) := by
  induction h with
  | nil => intro pre h0 _; rw [List.append_nil]; exact h0
  | rl ctx i h hp hs hr ih =>
    intro pre h0 hstep
    rw [← List.append_assoc]
    exact hstep _ (List.mem_append_right _ List.mem_cons_self) _
      (ih pre h0 fun e he => hstep e (List.mem_append_left _ he))
  | tp ctx i h hp hs hr ih =>
    intro pre h0 hstep
    rw [← List.append_assoc]
    exact hstep _ (List.mem_append_right _ List.mem_cons_self) _
      (ih pre h0 fun e he => hstep e (List.mem_append_left _ he))
  | payload ctx i p h hin hp hs hpl hno hr ih ih' =>
    intro pre h0 hstep
    rw [← List.append_assoc, ← List.append_assoc]
    refine hstep _ (List.mem_append_right _ List.mem_cons_self) _ (ih' _ (ih pre h0 fun e he => ?_) fun e he => ?_)
    · exact hstep e (List.mem_append_left _ (List.mem_append_left _ he))
    · exact hstep e (List.mem_append_left _ (List.mem_append_right _ he))
  | ext h he ih =>
    intro pre h0 hstep
    rw [← List.append_assoc]
    exact hstep _ (List.mem_append_right _ List.mem_cons_self) _
      (ih pre h0 fun e he => hstep e (List.mem_append_left _ he))
  | purge h hp ih =>
    intro pre h0 hstep
    rw [← List.append_assoc]
    exact hstep _ (List.mem_append_right _ List.mem_cons_self) _
      (ih pre h0 fun e he => hstep e (List.mem_append_left _ he))

end Verif

namespace Verif.TP
open Codec Verif

variable {env : Env} {ctx : Ctx} {w w' : World} {cpi : Pubkey → World → Except Err World} {a : U64}

/-- Accounts with unparsed data, other than `k`, are as before. -/
def KeepsRaw (k : Pubkey) (w w' : World) : Prop := ∀ j, j ≠ k → ∀ b, (w.acc j).data = .raw b → w'.acc j = w.acc j

theorem solFee_fx (h : run env ctx cpi (.withdrawSolFee a) w = .ok w') :
    (RoleSigns env ctx w (·.manager) ∨ UpgradeAuthoritySigns env ctx w) ∧
    ∃ kv kt rc t mint vault sup, ctx.accounts[1]? = some kv ∧ ctx.accounts[2]? = some kt ∧ ctx.accounts[3]? = some rc ∧
      TokenOf env ctx w kt t ∧ t.kind = .solana mint vault ∧ IsAddr env ctx.program (vaultSeeds mint) kv ∧
      t.feeSupply.toNat = sup.toNat + a.toNat ∧ Moves kv rc a.toNat w w' ∧
      Holds tokenSettingsC recLen (w'.acc kt) { t with feeSupply := sup } ∧ KeepsRaw kt w w' := by
  simp only [run, processWithdrawSolFee, bind_ok, acct_ok, require_ok, exists_const, ex_unit, Prod.exists, validatePda_ok, orErr_ok,
    checkedSub_some] at h
  obtain ⟨au, -, kv, hkv, kt, hkt, rc, hrc, ks, -, -, -, hsig, s, pn, hs, hau, t, ht, hv, -, -, -, v, -, -, w1, h1, sup, hsup, h2⟩ := h
  obtain ⟨m, vv, tn, vn, p, hk, -, -, h1⟩ := makeSolTransfer_ok h1
  have hkind := (loadSol_ok.1 ht).2.2.1
  refine ⟨authorized (role := (·.manager)) hs hsig hau, kv, kt, rc, t.ts, t.mint, t.vault, sup, hkv, hkt, hrc, tokenOf (loadSol_token ht),
    hkind, ⟨_, hv⟩, hsup, (moves_of h1).post (.pack h2), RL.pack_holds h2, ?_⟩
  intro j hj b hb
  rw [(RL.pack_acc h2 j).2.2 hj, (raw_xfer h1 j).2 b hb]

theorem everFee_fx (h : run env ctx cpi (.withdrawEverFee a) w = .ok w') :
    (RoleSigns env ctx w (·.manager) ∨ UpgradeAuthoritySigns env ctx w) ∧
    ∃ km kt rc t m token d sup, ctx.accounts[1]? = some km ∧ ctx.accounts[3]? = some kt ∧ ctx.accounts[2]? = some rc ∧
      TokenOf env ctx w kt t ∧ t.kind = .ever m token d ∧ IsAddr env ctx.program (mintSeeds env token) km ∧
      t.feeSupply.toNat = sup.toNat + a.toNat ∧ Mints km rc a.toNat w w' ∧
      Holds tokenSettingsC recLen (w'.acc kt) { t with feeSupply := sup } ∧ KeepsRaw kt w w' := by
  simp only [run, processWithdrawEverFee, bind_ok, acct_ok, require_ok, exists_const, ex_unit, Prod.exists, validatePda_ok, orErr_ok,
    checkedSub_some] at h
  obtain ⟨au, -, km, hkm, rc, hrc, kt, hkt, ks, -, -, -, hsig, s, pn, hs, hau, t, ht, hv, -, -, -, w1, h1, sup, hsup, h2⟩ := h
  obtain ⟨m, tok, d, tn, mn, p, hk, -, -, h1⟩ := makeEverTransfer_ok h1
  obtain ⟨-, -, m', n, hkind, -⟩ := loadEver_ok.1 ht
  refine ⟨authorized (role := (·.manager)) hs hsig hau, km, kt, rc, t.ts, m', t.token, t.decimals, sup, hkm, hkt, hrc,
    tokenOf (loadEver_token ht), hkind, ⟨_, hv⟩, hsup, (mints_of h1).post (.pack h2), RL.pack_holds h2, ?_⟩
  intro j hj b hb
  rw [(RL.pack_acc h2 j).2.2 hj, (raw_mint h1 j).2 b hb]

theorem multiVault_fx (h : run env ctx cpi (.withdrawMultiVault a) w = .ok w') :
    (RoleSigns env ctx w (·.manager) ∨ UpgradeAuthoritySigns env ctx w) ∧
    ∃ kv rc, ctx.accounts[2]? = some kv ∧ ctx.accounts[1]? = some rc ∧ IsAddr env ctx.program multiVaultSeeds kv ∧
      a.toNat ≤ (w.acc kv).lamports ∧
      ∀ k, w'.acc k = { w.acc k with lamports := (w.acc k).lamports - (if k = kv then a.toNat else 0) + (if k = rc then a.toNat else 0) } := by
  simp only [run, processWithdrawMultiVault, bind_ok, acct_ok, require_ok, exists_const, ex_unit, Prod.exists] at h
  obtain ⟨au, -, rc, hrc, kv, hkv, ks, -, hsig, s, pn, hs, hau, hmv, h⟩ := h
  obtain ⟨h1, -, -, -, -, h2⟩ := moveLamports_ok h
  obtain ⟨-, -, -, n, -, ha⟩ := loadMultiVault_ok.1 hmv
  exact ⟨authorized (role := (·.manager)) hs hsig hau, kv, rc, hkv, hrc, ⟨n, ha⟩, h1, h2⟩

end Verif.TP
