import Verif.Lemmas.BillTP
import Verif.Lemmas.NPFx
/-!
# Bills of payloads and of deposits of SOL
-/
namespace Verif
open Codec

variable {env : Env} {ctx : Ctx} {w w1 w' : World} {cpi : Pubkey → World → Except Err World}

namespace TP

theorem payload_bill {i : Instr} (hi : executes i) (h : run env ctx cpi i w = .ok w') : ∃ w1, (w1 = w ∨ ∃ p, cpi p w = .ok w1) ∧ SameLam w1 w' := by
  have hpay : ∀ {m r : Pubkey} {n : Option U8} {p : Bytes} {w1 : World}, runPayload env ctx cpi m r n p w = .ok w1 → w1 = w ∨ ∃ p, cpi p w = .ok w1 := by
    intro m r n p w1 h
    simp only [runPayload, bind_ok, orErr_ok] at h
    obtain ⟨k, -, h⟩ := h
    split at h
    · cases h; exact .inl rfl
    · simp only [bind_ok, orErr_ok] at h
      obtain ⟨q, -, h⟩ := h
      exact .inr ⟨q, h⟩
  rcases hi with rfl | rfl
  · simp only [run, processExecutePayloadEver, bind_ok, acct_ok] at h
    obtain ⟨k, -, r, -, h⟩ := h
    split at h
    · simp only [bind_ok, Prod.exists, orErr_ok] at h
      obtain ⟨_, _, -, _, _, -, w1, h1, h2⟩ := h
      exact ⟨w1, hpay h1, pack_lam h2⟩
    · cases h; exact ⟨w, .inl rfl, SameLam.rfl⟩
  · simp only [run, processExecutePayloadSol, bind_ok, acct_ok] at h
    obtain ⟨k, -, r, -, h⟩ := h
    split at h
    · simp only [bind_ok, Prod.exists, orErr_ok] at h
      obtain ⟨_, _, -, w1, h1, h2⟩ := h
      exact ⟨w1, hpay h1, pack_lam h2⟩
    · cases h; exact ⟨w, .inl rfl, SameLam.rfl⟩

theorem depositSol_raw {sd : U128} {n y : Bytes} {a : U64} {r : EverAddress} {v : U64} {e : Pubkey} {p : Bytes} {kt : Pubkey}
    (h : run env ctx cpi (.depositMultiTokenSol sd n y a r v e p) w = .ok w') (h7 : ctx.accounts[7]? = some kt) : ∃ b, (w.acc kt).data = .raw b := by
  simp only [run, processDepositSol, bind_ok, acct_ok, sysvar_ok, require_ok, exists_const, ex_unit, Prod.exists] at h
  obtain ⟨f, -, _, -, ct, -, kv, -, d, -, m, -, mv, -, kt', h7', _, -, _, -, _, -, _, -, -, -, _, _, -, -, -, w1, hdep, t, ht, -⟩ := h
  rw [h7] at h7'
  cases h7'
  unfold deployOnce at hdep
  split at hdep
  · simp only [deploySol, bind_ok, deriveAt_ok] at hdep
    obtain ⟨vn, hv, w2, h1, w3, h2, tn, ht, w4, h3, -⟩ := hdep
    obtain ⟨-, hl, -⟩ := createPda_ok (findAddr_create ht) h3
    obtain ⟨-, -, -, -, -, -, -, rfl⟩ := splInitAccount_ok h2
    have hne : kt ≠ kv := by
      rintro rfl
      simp [World.setDataRaw, Data.len] at hl
    unfold World.setDataRaw at hl
    rw [World.set_acc, if_neg hne, (createPda_acc (findAddr_create hv) h1 kt hne).1] at hl
    exact ⟨_, raw_of_len hl⟩
  · cases hdep
    obtain ⟨b, _, hb, -⟩ := (loadSol_ok.1 ht).1
    exact ⟨b, hb⟩

end TP

namespace NP

theorem wrap_bill {a : U64} {f cr ct : Pubkey} (h : wrap env ctx a w = .ok w') (h0 : ctx.accounts[0]? = some f) (h1 : ctx.accounts[1]? = some cr)
    (h2 : ctx.accounts[2]? = some ct) : Settled ((if (w.acc ct).lamports = 0 then [⟨f, ct, env.minimum 165⟩] else []) ++ [⟨cr, ct, a.toNat⟩]) w w' := by
  simp only [wrap, bind_ok, acct_ok, require_ok, exists_const, TP.ex_unit, Prod.exists] at h
  obtain ⟨f', e0, cr', e1, ct', e2, -, -, -, -, mi, -, -, k, n, hk, hct, w1, ha, w2, hs, hy⟩ := h
  rw [h0] at e0; rw [h1] at e1; rw [h2] at e2
  cases e0; cases e1; cases e2
  subst hct
  obtain ⟨-, -, -, t, r, -, -, -, -, -, rfl⟩ := splSyncNative_ok hy
  refine Settled.trans ?_ ((sysTransfer_bill hs).right setDataRaw_lam)
  unfold ensureToken at ha
  split at ha
  · rename_i hz
    rw [if_pos hz]
    obtain ⟨k', n', w3, hk', h3, h4⟩ := TP.ataCreate_ok ha
    rw [hk] at hk'
    cases hk'
    have := (createPdaFunded_bill h3).right (splInitAccount_lam h4)
    rwa [hz] at this
  · rename_i hz
    cases ha
    rw [if_neg hz]
    exact Settled.rfl

end NP
end Verif
