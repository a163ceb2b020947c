import Verif.Spec.NativeUse
import Verif.Lemmas.NPFx
import Verif.Lemmas.LiveTok
/-!
# Wrapping SOL succeeds
-/
set_option linter.unusedSimpArgs false
namespace Verif.NP
open Verif TP

variable {env : Env} {ctx : Ctx} {w w' : World}

theorem ensureToken_live {f au ct : Pubkey} {n : U8} {m : MintAcc} {amount : Nat} (hct : findAddr env (ataSeeds env au env.nativeMint) env.ataId = .ok (ct, n))
    (hsys : env.systemId ∈ ctx.accounts) (hspl : env.splId ∈ ctx.accounts) (hata : env.ataId ∈ ctx.accounts) (hcin : ct ∈ ctx.accounts)
    (hau : au ∈ ctx.accounts) (hmin : env.nativeMint ∈ ctx.accounts)
    (hwc : ctx.isWritable ct = true) (hwf : ctx.isWritable f = true) (hsf : ctx.isSigner f = true)
    (hmo : (w.acc env.nativeMint).owner = env.splId) (hm : (w.acc env.nativeMint).data = .mint m)
    (hwal : Wallet env w f (openCost env w ct)) (hf_ct : f ≠ ct) (hc : CanWrap env w au ct amount) :
    ∃ w1, ensureToken env ctx f au ct w = .ok w1 ∧ Eff [ct] w w1 ∧ (w1.acc ct).owner = env.splId ∧
      (∃ d r, (w1.acc ct).data = .token d ∧ d.isNative = some r ∧ d.amount.toNat + r.toNat ≤ (w1.acc ct).lamports) ∧
      (w1.acc ct).lamports + amount < 2 ^ 64 ∧
      ∀ j, j ≠ ct → (w1.acc j).lamports = (w.acc j).lamports - (if j = f then openCost env w ct else 0) := by
  unfold ensureToken
  rcases hc with ⟨h0, ho, hmax, d, r, hd, -, -, -, -, hn, hle⟩ | ⟨hv, hmax⟩
  · rw [if_neg h0]
    refine ⟨w, rfl, Eff.refl _ _, ho, ⟨d, r, hd, hn, hle⟩, hmax, fun j _ => ?_⟩
    simp [openCost, h0]
  · rw [if_pos hv.1]
    have hcost : openCost env w ct = max 1 (env.rent 165) := by simp [openCost, hv.1]
    rw [hcost] at hwal ⊢
    obtain ⟨w1, h1, e1, o1, -, l1⟩ := ataCreate_live (ctx := ctx) hct hata hcin hau hmin hspl hsys hwc hwf hsf hmo hm ⟨hv.2.2, hv.2.1⟩ hf_ct hwal (by omega)
    obtain ⟨-, -, -, -, -, -, -, -, a1, -⟩ := ataCreate_new hct hv.1 h1
    refine ⟨w1, h1, e1, o1, ⟨_, BitVec.ofNat 64 (env.rent 165), by rw [a1], by simp [freshToken], ?_⟩, by rw [a1]; exact hmax, fun j hj => ?_⟩
    · rw [a1]
      simp only [freshToken, if_true, BitVec.toNat_ofNat]
      rw [Nat.mod_eq_of_lt (by omega), Nat.mod_eq_of_lt (by omega)]
      omega
    · rw [l1 j hj, hv.1]; rfl

/-- The part of the deposit before the token proxy is called. -/
theorem wrap_live {f au ct : Pubkey} {n : U8} {m : MintAcc} {amount : U64} (hct : findAddr env (ataSeeds env au env.nativeMint) env.ataId = .ok (ct, n))
    (h0 : ctx.accounts[0]? = some f) (h1 : ctx.accounts[1]? = some au) (h2 : ctx.accounts[2]? = some ct) (h3 : ctx.accounts[3]?.isSome = true)
    (h4 : ctx.accounts[4]?.isSome = true) (h5 : ctx.accounts[5]? = some env.nativeMint)
    (hsys : env.systemId ∈ ctx.accounts) (hspl : env.splId ∈ ctx.accounts) (hata : env.ataId ∈ ctx.accounts)
    (hwc : ctx.isWritable ct = true) (hwf : ctx.isWritable f = true) (hwa : ctx.isWritable au = true) (hsf : ctx.isSigner f = true) (hsa : ctx.isSigner au = true)
    (hmo : (w.acc env.nativeMint).owner = env.splId) (hm : (w.acc env.nativeMint).data = .mint m)
    (hwal : Wallet env w f (openCost env w ct)) (hwal' : Wallet env w au (amount.toNat + (if au = f then openCost env w ct else 0)))
    (hf_ct : f ≠ ct) (ha_ct : au ≠ ct) (hc : CanWrap env w au ct amount.toNat) :
    ∃ w1, wrap env ctx amount w = .ok w1 ∧ Eff [ct] w w1 ∧ Spendable env w1 ct env.nativeMint au amount.toNat ∧
      ∀ j, j ≠ ct → (w1.acc j).lamports = (w.acc j).lamports - (if j = f then openCost env w ct else 0) - (if j = au then amount.toNat else 0) := by
  have mem : ∀ {i : Nat} {k : Pubkey}, ctx.accounts[i]? = some k → k ∈ ctx.accounts := fun h => List.mem_of_getElem? h
  obtain ⟨w1, b1, e1, o1, ⟨d, r, hd, hn, hle⟩, hmax, l1⟩ := ensureToken_live (ctx := ctx) hct hsys hspl hata (mem h2) (mem h1) (mem h5) hwc hwf hsf hmo hm hwal hf_ct hc
  have hl := l1 au ha_ct
  obtain ⟨w2, b2, e2, l2⟩ := sysTransfer_live (env := env) (ctx := ctx) (w := w1) (src := au) (dst := ct) (n := amount.toNat) hsys hwa hwc hsa
    (hwal'.eff e1 (by simpa using ha_ct) (by rw [hl]; have := hwal'.rich; omega)) ha_ct hmax
  have hcl : (w2.acc ct).lamports = (w1.acc ct).lamports + amount.toNat := by rw [l2 ct, if_neg ha_ct.symm, if_pos rfl]; rfl
  have hcd := e2 ct (by simp)
  have b3 : splSyncNative env ctx ct w2 = .ok (w2.setDataRaw ct (.token { d with amount := BitVec.ofNat 64 ((w2.acc ct).lamports - r.toNat) })) := by
    simp only [splSyncNative, splCall, bind_ok, require_ok, exists_const, tokenOf_ok, orErr_ok, ex_unit, Except.ok.injEq]
    refine ⟨?_, d, by rw [hcd.1]; exact hd, r, hn, ⟨by omega, by omega⟩, by omega, rfl⟩
    simp [hspl, mem h2, hwc, hcd.2, o1]
  have hw : wrap env ctx amount w = .ok (w2.setDataRaw ct (.token { d with amount := BitVec.ofNat 64 ((w2.acc ct).lamports - r.toNat) })) := by
    obtain ⟨x3, h3⟩ := Option.isSome_iff_exists.1 h3
    obtain ⟨x4, h4⟩ := Option.isSome_iff_exists.1 h4
    simp only [wrap, bind_ok, acct_ok, require_ok, exists_const, ex_unit, Prod.exists]
    exact ⟨f, h0, au, h1, ct, h2, x3, h3, x4, h4, _, h5, rfl, ct, n, hct, rfl, w1, b1, w2, b2, b3⟩
  obtain ⟨f', cr', ct', g0, g1, g2, -, -, -, -, -, W⟩ := wrap_fx hw
  rw [h0] at g0; rw [h1] at g1; rw [h2] at g2
  cases g0; cases g1; cases g2
  refine ⟨_, hw, fun j hj => ?_, ?_, fun j hj => ?_⟩
  · rw [W.rest j (by simpa using hj)]; exact ⟨rfl, rfl⟩
  · obtain ⟨t, rv, so, st, sn, ss⟩ := W.synced
    refine ⟨so, t, st, ?_⟩
    rcases hc with ⟨c0, co, cmax, d', r', cd, cm, cow, cdel, cfr, cn, cle⟩ | ⟨cv, -⟩
    · obtain ⟨ol, -, t1, t2, ot1, ot2, oeq, -⟩ := W.old c0
      rw [cd] at ot1; cases ot1
      rw [st] at ot2; cases ot2
      have er : rv = r' := by
        have := congrArg TokenAcc.isNative oeq
        simp only [sn, cn, Option.some.injEq] at this
        exact this
      subst er
      refine ⟨by rw [oeq]; exact cm, by rw [oeq]; exact cow, by rw [oeq]; exact cdel, by rw [oeq]; exact cfr, by omega, fun _ => by omega⟩
    · obtain ⟨nl, -, -, a, nd, na⟩ := W.new cv.1
      rw [st] at nd; cases nd
      refine ⟨rfl, rfl, by simp, rfl, ?_, fun _ => by omega⟩
      simp only
      omega
  · rw [W.rest j hj]
    simp only [openCost]
    by_cases h : (w.acc ct).lamports = 0 <;> simp [h]

end Verif.NP
