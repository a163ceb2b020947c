import Verif.Lemmas.TPDep
import Verif.Lemmas.TPPay
import Verif.Lemmas.TPFill
import Verif.Lemmas.LiveTP
import Verif.Props.Arith
import Verif.Spec.ToyReachW
import Verif.Spec.ToyForge
import Verif.Spec.ToyClientTP
import Verif.Spec.ToyTactic
/-!
# C65: transfers that run a program on arrival; C66: fee rates the bridge cannot work with
-/
set_option linter.unusedSimpArgs false
set_option maxRecDepth 100000
namespace Verif.Props
open Verif TP Codec

variable {env : Env} {L : Pubkey → Prop} {ctx : Ctx} {cpi : Pubkey → World → Except Err World} {w w' : World} {k : Pubkey}

/-! ## C65 -/

/-- C65 is false: as long as the mint of an Everscale token does not exist, every request for a withdrawal of that token with a payload is
refused. -/
theorem C65_refused {km kp r : Pubkey} {pda : PDA} {t : EverAddress} {n y p : Bytes} {d : U8} {a : U128} {att : U64}
    (ha : IsAddr env ctx.program (mintSeeds env t) km) (hm : ∀ m, (w.acc km).data ≠ .mint m) (hnat : km ≠ env.nativeMint)
    (hp : p ≠ []) (hkp : IsAddr env ctx.program (proxySeeds km r) kp) (he : (w.acc kp).data.len = 0) :
    TP.run env ctx cpi (.withdrawMultiTokenEverRequest pda t n y d r a p att) w ≠ .ok w' := by
  intro h
  obtain ⟨mn, ha⟩ := ha
  simp only [run, processEverRequest, requestMint, if_neg hp, bind_ok, acct_ok, sysvar_ok, require_ok, exists_const, ex_unit, Prod.exists, ha, Except.ok.injEq,
    Prod.mk.injEq, and_assoc] at h
  obtain ⟨f, -, au, -, kw, -, ks, -, kr, -, sy, -, re, -, -, cl, -, -, -, -, -, rs, rr, -, _, _, rfl, rfl, pn, w1, h1, -⟩ := h
  rcases openProxy_ok h1 with ⟨h, -⟩ | ⟨-, p', n', w2, -, -, hp', -, ⟨-, w3, h3, h4⟩ | ⟨h, -⟩, -⟩
  · exact hp h
  · obtain ⟨-, -, -, -, -, -, hmint, -⟩ := splInitAccount_ok h4
    obtain ⟨-, -, -, l, -, -, hself, hrest, -⟩ := createPdaFunded_ok h3
    rcases hmint with h | ⟨m, hm'⟩
    · exact hnat h
    · by_cases e : km = p'
      · rw [e, hself] at hm'; cases hm'
      · rw [hrest _ e] at hm'; exact hm m hm'
  · cases hkp.unique ⟨n', hp'⟩
    exact h he

/-- The hypotheses of `C65_refused`: the token Star is not known yet on the toy chain. -/
example : Reach Toy.env Toy.L (Toy.get Toy.tpDeposited) ∧ ∀ ctx w' pda n y d a att, ctx.program = Toy.env.tpId →
    TP.run Toy.env ctx noCpi (.withdrawMultiTokenEverRequest pda Toy.star n y d Toy.bob a [9] att) (Toy.get Toy.tpDeposited) ≠ .ok w' := by
  obtain hv := Toy.vacant (w := Toy.get Toy.tpDeposited) (k := Toy.starMint) ?_
  obtain hx := Toy.vacant (w := Toy.get Toy.tpDeposited) (k := Toy.addr (proxySeeds Toy.starMint Toy.bob) Toy.env.tpId) ?_
  obtain hn := Toy.same_ne (a := Toy.starMint) (b := Toy.env.nativeMint) ?_
  refine ⟨Toy.reach_tpDeposited, fun ctx w' pda n y d a att hc => ?_⟩
  · refine C65_refused (by rw [hc]; exact Toy.isAddr _ _) (fun m h => ?_) hn (by simp) (by rw [hc]; exact Toy.isAddr _ _) hx.2.1
    have := hv.2.1
    rw [h] at this
    cases this
  checked

/-! ## C66 -/

private theorem no_fee {f : FeeInfo} {a fee : U64} (h0 : f.divisor = 0#64) (h : feeOf f a = .ok fee) : False := by
  rw [C20_fee_overflow f a (.inl (by rw [h0]; rfl))] at h
  cases h

private theorem no_fee128 {f : FeeInfo} {a fee : U128} (h0 : f.divisor = 0#64) (h : feeOf128 f a = .ok fee) : False := by
  simp [feeOf128, h0, checkedDiv, orErr, bind, Except.bind] at h

/-- C66: with the divisor 0 in the deposit fee of a token, nothing of the token can be deposited, and no withdrawal of it cancelled. -/
theorem C66_deposits_stop {kt : Pubkey} {t : TokenSettings} (ht : Holds tokenSettingsC recLen (w.acc kt) t) (hl : Live w kt)
    (h0 : t.feeDepositInfo.divisor = 0#64) :
    (∀ s a r v e p, ctx.accounts[6]? = some kt → TP.run env ctx cpi (.depositMultiTokenEver s a r v e p) w ≠ .ok w') ∧
    (∀ s n y a r v e p, ctx.accounts[7]? = some kt → TP.run env ctx cpi (.depositMultiTokenSol s n y a r v e p) w ≠ .ok w') ∧
    (∀ s r v e p, ctx.accounts[6]? = some kt → TP.run env ctx cpi (.cancelWithdrawSol s r v e p) w ≠ .ok w') := by
  refine ⟨?_, ?_, ?_⟩
  · intro s a r v e p hk h
    obtain ⟨f, cr, ct, dp, mi, mv, kt', t', mk, token, d, m, t2, fee, net, tr, -, -, -, -, -, -, a6, -, hto, -, -, -, -, -, hfee, -⟩ := depositEver_fx h
    rw [hk] at a6; cases a6
    cases ht.unique hto.2.1
    exact no_fee h0 hfee
  · intro s n y a r v e p hk h
    obtain ⟨f, cr, ct, kv, dp, mi, mv, kt', w1, t', tm, tv, m, t2, fee, net, -, -, -, -, -, -, -, a7, -, -, -, hor, -, hto, -, -,
      -, -, -, -, -, hfee, -⟩ := depositSol_fx h
    rw [hk] at a7; cases a7
    rcases hor with ⟨rfl, -⟩ | ⟨hz, -⟩
    · cases ht.unique hto.2.1
      exact no_fee h0 hfee
    · unfold Live at hl; omega
  · intro s r v e p hk h
    simp only [run, processCancel, bind_ok, acct_ok, sysvar_ok, require_ok, exists_const, ex_unit, hk, Option.some.injEq] at h
    obtain ⟨f, -, au, -, mi, -, wd, -, dp, -, ks, -, _, rfl, _, -, rent, -, mv, -, -, -, _, -, r', -, -, -, t', ht', -, -, w1, -, -, m, -, -, dn, -, w2, -,
      fee, hfee, -⟩ := h
    cases ht.unique (loadToken_ok.1 (loadSol_token ht')).1
    exact no_fee128 h0 hfee

/-- C66: with the divisor 0 in the withdrawal fee of a token, no withdrawal of it is paid, by whatever way. -/
theorem C66_payouts_stop {kt : Pubkey} {t : TokenSettings} (ht : Holds tokenSettingsC recLen (w.acc kt) t) (hl : Live w kt)
    (h0 : t.feeWithdrawalInfo.divisor = 0#64) :
    (ctx.accounts[3]? = some kt → TP.run env ctx cpi .withdrawMultiTokenSol w = .ok w' → SameAccounts w w') ∧
    (ctx.accounts[3]? = some kt → TP.run env ctx cpi .withdrawMultiTokenEver w = .ok w' → w' = w) ∧
    (ctx.accounts[4]? = some kt → TP.run env ctx cpi .approveWithdrawSol w ≠ .ok w') ∧
    (ctx.accounts[4]? = some kt → TP.run env ctx cpi .approveWithdrawEver w ≠ .ok w') ∧
    (∀ s r a v e p, ctx.accounts[7]? = some kt → TP.run env ctx cpi (.fillWithdrawSol s r a v e p) w ≠ .ok w') := by
  refine ⟨?_, ?_, ?_, ?_, ?_⟩
  · intro hk h
    obtain ⟨kw, kv, rc, kt', km, r, t', v, -, -, -, a3, -, -, hto, -, -, -, -, ⟨hs, -⟩ | ⟨-, fee, net, st, t2, hfee, -⟩⟩ := withdrawSol_fx h
    · exact hs
    · rw [hk] at a3; cases a3
      cases ht.unique hto.2.1
      exact (no_fee h0 hfee).elim
  · intro hk h
    obtain ⟨kw, mi, rc, kt', r, -, -, -, a3, -, hor⟩ := withdrawEver_fx h
    rw [hk] at a3; cases a3
    unfold Live at hl
    rcases hor with ⟨-, hz⟩ | ⟨w1, ⟨rfl, -⟩ | ⟨hz, -⟩, -, -, t', m, hto, ⟨rfl, -⟩ | ⟨-, -, am, fee, net, st, t2, -, hfee, -⟩⟩
    · omega
    · rfl
    · cases ht.unique hto.1.2.1
      exact (no_fee h0 hfee).elim
    · omega
    · omega
  · intro hk h
    obtain ⟨-, kw, kv, rc, kt', r, t', v, -, -, -, a4, -, hto, -, -, -, -, -, fee, net, st, t2, hfee, -⟩ := approveSol_fx h
    rw [hk] at a4; cases a4
    cases ht.unique hto.2.1
    exact no_fee h0 hfee
  · intro hk h
    obtain ⟨-, kw, mi, rc, kt', r, t', m, -, -, -, a4, -, -, hto, -, am, fee, net, t2, -, hfee, -⟩ := approveEver_fx h
    rw [hk] at a4; cases a4
    cases ht.unique hto.1.2.1
    exact no_fee h0 hfee
  · intro s r a v e p hk h
    simp only [run, processFill, bind_ok, acct_ok, sysvar_ok, require_ok, exists_const, ex_unit, hk, Option.some.injEq, Prod.exists] at h
    obtain ⟨f, -, au, -, at', -, mi, -, dp, -, ks, -, _, -, _, rfl, _, -, rent, -, mv, -, -, -, _, _, -, t', ht', -, -, w1, -, -, m, -, dn, -,
      rest, fs, sm, w2, -, w3, -, -, va, -, -, tv, -, tot, -, -, w4, -, fee, hfee, -⟩ := h
    cases ht.unique (loadToken_ok.1 (loadSol_token ht')).1
    exact no_fee h0 hfee

/-- C66 is false: the manager can set any rate, also one with the divisor 0. -/
theorem C66_accepted {ks kt : Pubkey} {s : Settings} {t : TokenSettings} {f : FeeType} {m d : U64} (hs : TP.Ready env w ks s)
    (ht : TokenReady env w kt t) : ∃ ctx w', ctx.program = env.tpId ∧ ctx.signers = [s.manager] ∧
      TP.run env ctx cpi (.updateFee f m d) w = .ok w' ∧ (w'.acc kt).lamports = (w.acc kt).lamports ∧
      ∃ t', Holds tokenSettingsC recLen (w'.acc kt) t' ∧ (f = .deposit → t'.feeDepositInfo = ⟨m, d⟩) ∧
        (f = .withdrawal → t'.feeWithdrawalInfo = ⟨m, d⟩) := by
  let ctx : Ctx := ⟨env.tpId, [s.manager, kt, ks], [s.manager], [kt], 0⟩
  obtain ⟨pn', pd', hls, -⟩ := loadSettings_live (ctx := ctx) rfl hs
  have hf : (setFee f ⟨m, d⟩ t).accountKind = t.accountKind ∧
    (setFee f ⟨m, d⟩ t).kind = t.kind ∧ (setFee f ⟨m, d⟩ t).name = t.name ∧ (setFee f ⟨m, d⟩ t).symbol = t.symbol := by
    cases f <;> exact ⟨rfl, rfl, rfl, rfl⟩
  obtain ⟨w1, h1, -, h3⟩ := putToken_live (ctx := ctx) (w := w.log (updateFeeLogC.enc ⟨kt, f, m, d⟩)) (t' := setFee f ⟨m, d⟩ t) rfl ht.here
    (by simp [ctx, Ctx.isWritable]) hf.1 hf.2.1 hf.2.2.1 hf.2.2.2
  refine ⟨ctx, w1, rfl, rfl, ?_, h3 kt, _, RL.pack_holds h1, by rintro rfl; rfl, by rintro rfl; rfl⟩
  simp only [run, processUpdateFee, bind_ok, acct_ok, require_ok, exists_const, Prod.exists]
  exact ⟨s.manager, rfl, kt, rfl, ks, rfl, by simp [ctx, Ctx.isSigner], s, pn', hls, (), authorize_ok.2 (.inl rfl), t, loadToken_live rfl ht, h1⟩

/-- C66, the part that holds: with a positive divisor and a multiplier that is not larger, every amount but 0 has a fee, and the fee is at most
the amount. -/
theorem C66_usable_partial {f : FeeInfo} {a : U64} (hd : f.divisor.toNat ≠ 0) (hm : f.multiplier.toNat ≤ f.divisor.toNat) (ha : 1 ≤ a.toNat) :
    ∃ fee net : U64, feeOf f a = .ok fee ∧ net.toNat + fee.toNat = a.toNat := by
  have h1 : a.toNat / f.divisor.toNat * f.multiplier.toNat ≤ a.toNat :=
    Nat.le_trans (Nat.mul_le_mul_left _ hm) (Nat.div_mul_le_self _ _)
  have hlt := a.isLt
  have hf : (BitVec.ofNat 64 (max 1 (a.toNat / f.divisor.toNat * f.multiplier.toNat))).toNat = max 1 (a.toNat / f.divisor.toNat * f.multiplier.toNat) := by
    rw [BitVec.toNat_ofNat, Nat.mod_eq_of_lt (by omega)]
  refine ⟨BitVec.ofNat 64 (max 1 (a.toNat / f.divisor.toNat * f.multiplier.toNat)),
    BitVec.ofNat 64 (a.toNat - max 1 (a.toNat / f.divisor.toNat * f.multiplier.toNat)), (C20_fee_value _ _ _).2 ?_, ?_⟩
  · rw [hf]; unfold feeSpec; rw [if_neg hd]
  · rw [hf, BitVec.toNat_ofNat, Nat.mod_eq_of_lt (by omega)]; omega

/-- C66 on the toy chain: the manager sets the deposit fee of gold to 1/0, and nothing of gold can be deposited. -/
example : ∃ ctx w', TP.run Toy.env ctx noCpi (.updateFee .deposit 1 0) (Toy.get Toy.tpDeposited) = .ok w' ∧
    ∀ c w'' s n y a r v e p, c.accounts[7]? = some Toy.tpGold → TP.run Toy.env c noCpi (.depositMultiTokenSol s n y a r v e p) w' ≠ .ok w'' := by
  obtain ⟨s, hs, -⟩ := Toy.tp_ready (P := fun _ => true) (w := Toy.get Toy.tpDeposited) ?_
  obtain ⟨t, ht, -⟩ := Toy.tp_token (P := fun _ => true) (w := Toy.get Toy.tpDeposited) (k := Toy.tpGold) ?_
  obtain hl := Nat.le_of_ble_eq_true (n := 1) (m := ((Toy.get Toy.tpDeposited).acc Toy.tpGold).lamports) ?_
  obtain ⟨ctx, w', -, -, hr, hl', t', ht', hf, -⟩ := C66_accepted (cpi := noCpi) (f := .deposit) (m := 1) (d := 0) hs ht
  · refine ⟨ctx, w', hr, fun c w'' s n y a r v e p hk => ?_⟩
    exact (C66_deposits_stop ht' (by unfold Live; rw [hl']; exact hl) (by rw [hf rfl]; rfl)).2.1 s n y a r v e p hk
  checked

/-- and the withdrawal fee to 1/0: confirmed withdrawals of gold are no longer paid -/
example : ∃ ctx w', TP.run Toy.env ctx noCpi (.updateFee .withdrawal 1 0) (Toy.get Toy.tpVote3) = .ok w' ∧
    ∀ c w'', c.accounts[3]? = some Toy.tpGold → TP.run Toy.env c noCpi .withdrawMultiTokenSol w' = .ok w'' → SameAccounts w' w'' := by
  obtain ⟨s, hs, -⟩ := Toy.tp_ready (P := fun _ => true) (w := Toy.get Toy.tpVote3) ?_
  obtain ⟨t, ht, -⟩ := Toy.tp_token (P := fun _ => true) (w := Toy.get Toy.tpVote3) (k := Toy.tpGold) ?_
  obtain hl := Nat.le_of_ble_eq_true (n := 1) (m := ((Toy.get Toy.tpVote3).acc Toy.tpGold).lamports) ?_
  obtain ⟨ctx, w', -, -, hr, hl', t', ht', -, hf⟩ := C66_accepted (cpi := noCpi) (f := .withdrawal) (m := 1) (d := 0) hs ht
  · refine ⟨ctx, w', hr, fun c w'' hk h => ?_⟩
    exact (C66_payouts_stop ht' (by unfold Live; rw [hl']; exact hl) (by rw [hf rfl]; rfl)).1 hk h
  checked

/-- The hypotheses of `C66_usable_partial` hold of the default rate. -/
example : ∃ fee net : U64, feeOf FeeInfo.default 1000#64 = .ok fee ∧ net.toNat + fee.toNat = 1000 :=
  C66_usable_partial (by decide) (by decide) (by decide)

end Verif.Props
