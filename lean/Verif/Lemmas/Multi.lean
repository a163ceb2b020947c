import Verif.Lemmas.TPDep
import Verif.Lemmas.TPOrigin
import Verif.Lemmas.Locked
import Verif.Spec.Usable
/-!
# The account of the multi vault
-/
set_option linter.unusedSimpArgs false
namespace Verif.TP
open Codec Verif

variable {env : Env} {L : Pubkey → Prop} {ctx : Ctx} {cpi : Pubkey → World → Except Err World} {w w' : World} {k : Pubkey} {i : Instr}

/-- A new multi vault is written by `Initialize`. -/
theorem wrote_multiVault {e : Ev} {n : U8} (h : Wrote env L k (.multiVault n) e) : ∃ ctx g m wm, e.act = .tp ctx (.init g m wm) := by
  obtain ⟨ctx, i, b', s, hact, hp, -, hr, hn, hh⟩ := h
  cases hn with
  | settings g m wm n pn ha hu hs => exact ⟨ctx, g, m, wm, hact⟩
  | multiVault g m wm n ha hs => exact ⟨ctx, g, m, wm, hact⟩
  | tokenSol sd nm y a rc v e p mint vault n vn hn hy ha hv hs =>
    obtain ⟨q, hq⟩ := header_token hs.dec
    rw [hh] at hq; simp [freshTokenSettings] at hq
  | tokenEver kw r mint n mn hr ha hm hs =>
    obtain ⟨q, hq⟩ := header_token hs.dec
    rw [hh] at hq; simp [freshTokenSettings] at hq
  | depositEver sd a rc v e p n au ev ha hsig hs =>
    obtain ⟨q, hq⟩ := header_deposit hs.dec
    rw [hh] at hq; simp [depositRecord] at hq
  | depositSol sd i n au ev hi ha hsig hs =>
    obtain ⟨q, hq⟩ := header_deposit hs.dec
    rw [hh] at hq; simp [depositRecord] at hq
  | ever pda t nm y d rc a p att n pn au rs rr hrd ha hsig hs =>
    obtain ⟨q, hq⟩ := header_withdrawal hs.dec
    rw [hh] at hq; simp [withdrawalRecord] at hq
  | sol pda rc a p att n pn au mint rs rr hrd ha hsig hs =>
    obtain ⟨q, hq⟩ := header_withdrawal hs.dec
    rw [hh] at hq; simp [withdrawalRecord] at hq

theorem loadMultiVault_head {u : Unit} (h : loadMultiVault env ctx k w = .ok u) :
    ∃ n, Head (w.acc k) true (.multiVault n) ∧ findAddr env multiVaultSeeds ctx.program = .ok (k, n) := by
  obtain ⟨v, hv, hi, n, hk, ha⟩ := loadMultiVault_ok.1 h
  have := head_multiVault hv
  rw [hi, hk] at this
  exact ⟨n, this, ha⟩

/-- Deposits, cancellations and fills read the multi vault. -/
theorem needs_multi (hi : UsesMulti i) (h : run env ctx cpi i w = .ok w') :
    ∃ km n, IsAddr env ctx.program multiVaultSeeds km ∧ Head (w.acc km) true (.multiVault n) := by
  cases hi with
  | depositEver =>
    simp only [run, processDepositEver, bind_ok, acct_ok, sysvar_ok, require_ok, exists_const, ex_unit] at h
    obtain ⟨f, -, cr, -, ct, -, dp, -, mi, -, mv, -, kt, -, ks, -, _, -, _, -, rent, -, -, -, _, -, t, -, -, -, m, -, hm, -⟩ := h
    obtain ⟨n, h1, h2⟩ := loadMultiVault_head hm
    exact ⟨mv, n, ⟨n, h2⟩, h1⟩
  | depositSol =>
    simp only [run, processDepositSol, bind_ok, acct_ok, sysvar_ok, require_ok, exists_const, ex_unit] at h
    obtain ⟨f, -, cr, -, ct, -, va, -, dp, -, mi, -, mv, -, kt, -, ks, -, _, -, _, -, rent, -, -, -, _, -, -, -, w1, h1, t, ht, -, -, m, -, -, hm, -⟩ := h
    obtain ⟨n, h2, h3⟩ := loadMultiVault_head hm
    refine ⟨mv, n, ⟨n, h3⟩, ?_⟩
    unfold deployOnce at h1
    split at h1
    · obtain ⟨hdep, -⟩ := deploySol_fx h1
      have hkt : mv ≠ kt := by
        rintro rfl
        obtain ⟨hh, hi, n1, n2, hk, -⟩ := loadToken_ok.1 (loadSol_token ht)
        have := (head_token hh).unique h2
        rw [hk] at this
        simp at this
      have hkv : mv ≠ va := by
        rintro rfl
        obtain ⟨b, s, hb, -⟩ := h2
        obtain ⟨a, ha, -⟩ := hdep.vault
        rw [ha] at hb
        cases hb
      obtain ⟨b, s, hb, hx⟩ := h2
      exact ⟨b, s, (hdep.rest _ hkv hkt).1 ▸ hb, hx⟩
    · cases h1; exact h2
  | cancel =>
    simp only [run, processCancel, bind_ok, acct_ok, sysvar_ok, require_ok, exists_const, ex_unit] at h
    obtain ⟨f, -, au, -, mi, -, wd, -, dp, -, ks, -, kt, -, _, -, rent, -, mv, -, -, -, _, -, r, -, -, -, t, -, -, hm, -⟩ := h
    obtain ⟨n, h1, h2⟩ := loadMultiVault_head hm
    exact ⟨mv, n, ⟨n, h2⟩, h1⟩
  | fill =>
    simp only [run, processFill, bind_ok, acct_ok, sysvar_ok, require_ok, exists_const, ex_unit] at h
    obtain ⟨f, -, au, -, at', -, mi, -, dp, -, ks, -, _, -, kt, -, _, -, rent, -, mv, -, -, -, _, -, t, -, -, hm, -⟩ := h
    obtain ⟨n, h1, h2⟩ := loadMultiVault_head hm
    exact ⟨mv, n, ⟨n, h2⟩, h1⟩

end Verif.TP
