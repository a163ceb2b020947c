import Verif.Lemmas.NPFx
import Verif.Lemmas.Conserve
import Verif.Props.Deposits
import Verif.Spec.ToyNative
/-!
# Properties of the native proxy: C49, C35, C51
-/
set_option maxRecDepth 100000
namespace Verif.Props
open Verif TP

variable {env : Env} {L : Pubkey → Prop} {ctx : Ctx} {w0 w w' : World} {sd : U128} {a v : U64} {rc : EverAddress} {ev : Pubkey} {py : Bytes}

/-! ## C49: native SOL deposits are ordinary deposits of wrapped SOL -/

/-- C49: a successful deposit of the native proxy is, in a world `wr` where the author has wrapped `a` lamports, a deposit of the token proxy of
the amount `a` of wrapped SOL out of the author's own account, with the same arguments and no more signatures.  So everything known about deposits
holds for it. -/
theorem C49_ordinary (h : NP.run env ctx (.deposit sd a rc v ev py) w = .ok w') :
    ∃ f cr ct wr kv dp mv kt ks inner, ctx.accounts[0]? = some f ∧ ctx.accounts[1]? = some cr ∧ ctx.accounts[2]? = some ct ∧
      IsAddr env env.ataId (ataSeeds env cr env.nativeMint) ct ∧ ctx.isSigner cr = true ∧ ctx.isSigner f = true ∧
      NP.Wrapped env f cr ct a.toNat w wr ∧ NP.Relayed env ctx f cr ct kv dp mv kt ks sd inner ∧
      TP.run env inner noCpi (.depositMultiTokenSol sd NP.wsolName NP.wsolSymbol a rc v ev py) wr = .ok w' := by
  obtain ⟨f, cr, ct, wr, kv, dp, mv, kt, ks, inner, h0, h1, h2, -, hct, hs1, hs0, -, -, hw, hr, hrun, -⟩ := NP.deposit_fx h
  exact ⟨f, cr, ct, wr, kv, dp, mv, kt, ks, inner, h0, h1, h2, hct, hs1, hs0, hw, hr, hrun⟩

/-- C49 (amounts): with `kv` the bridge's vault for wrapped SOL and `ct` the author's wrapped-SOL account, a successful deposit of `a` adds exactly
`a` to the vault. No other token balance changes except that of `ct`: a new account ends up empty, and an account that existed keeps exactly its
lamports less its reserve, so nothing of what it held before is lost. An author who is not the funder pays exactly `a` lamports. -/
theorem C49_amounts (h : NP.run env ctx (.deposit sd a rc v ev py) w = .ok w') (hrent : 0 < env.rent 165) :
    ∃ f cr ct kv dp mv kt, ctx.accounts[0]? = some f ∧ ctx.accounts[1]? = some cr ∧ ctx.accounts[2]? = some ct ∧
      IsAddr env env.ataId (ataSeeds env cr env.nativeMint) ct ∧ IsAddr env env.tpId (TP.vaultSeeds env.nativeMint) kv ∧
      IsAddr env env.tpId (depositSeeds sd) dp ∧ IsAddr env env.tpId TP.multiVaultSeeds mv ∧
      IsAddr env env.tpId (TP.tokenSettingsSolSeeds env.nativeMint) kt ∧
      (ct ≠ kv → bal w' kv = bal w kv + a.toNat ∧
        ((w.acc ct).lamports = 0 → bal w' ct = 0) ∧
        (∀ t r, (w.acc ct).lamports ≠ 0 → (w.acc ct).data = .token t → t.isNative = some r → bal w' ct + r.toNat = (w.acc ct).lamports)) ∧
      (∀ k, k ≠ ct → k ≠ kv → bal w' k = bal w k) ∧
      (cr ≠ f → cr ∉ [kv, dp, mv, kt] → (w'.acc cr).lamports + a.toNat = (w.acc cr).lamports) := by
  obtain ⟨f, cr, ct, wr, kv, dp, mv, kt, ks, inner, h0, h1, h2, -, hct, hs1, hs0, -, -, hw, hr, hrun, -⟩ := NP.deposit_fx h
  refine ⟨f, cr, ct, kv, dp, mv, kt, h0, h1, h2, hct, hr.vault, hr.deposit, hr.multiVault, hr.token, ?_⟩
  have hrest : ∀ j, j ≠ f → j ≠ ct → j ≠ kv → j ≠ dp → j ≠ mv → j ≠ kt → w'.acc j = wr.acc j := by
    intro j n0 n1 n2 n3 n4 n5
    refine TP.depositSol_rest hrun (fun n hn => ?_)
    rw [hr.accounts]
    rcases hn with rfl | rfl | rfl | rfl | rfl | rfl <;> simp only [List.getElem?_cons_zero, List.getElem?_cons_succ, ne_eq, Option.some.injEq] <;>
      exact fun e => by first | exact n0 e.symm | exact n1 e.symm | exact n2 e.symm | exact n3 e.symm | exact n4 e.symm | exact n5 e.symm
  obtain ⟨f', cr', ct', kv', dp', mi, mv', kt', w1, t, tm, tv, m, t', fee, net, -, -, a2, a3, -, -, -, -, -, -, -, hor, -, -, -, -, -, -, -, -, -, -, -,
    hmov, -⟩ := TP.depositSol_fx hrun
  rw [hr.accounts] at a2 a3
  simp only [List.getElem?_cons_zero, List.getElem?_cons_succ, Option.some.injEq] at a2 a3
  subst a2 a3
  have hno : NoTokens wr w1 := by
    rcases hor with ⟨rfl, -⟩ | ⟨-, -, hno⟩
    · exact fun _ => ⟨rfl, rfl⟩
    · exact hno (.inr hrent)
  have hbal : ∀ k, k ≠ ct → bal wr k = bal w k := fun k hk => by
    have := hw.rest k hk
    simp only [bal, this]
  have hmv : ∀ k, bal w' k + (if k = ct then a.toNat else 0) = bal wr k + (if k = kv then a.toNat else 0) := fun k => by
    have e1 := (hmov.2 k).1
    rw [(hno k).1] at e1
    exact e1
  refine ⟨fun hne => ⟨?_, fun hz => ?_, fun s r hz hd hn => ?_⟩, fun k k1 k2 => ?_, fun hcf hcr => ?_⟩
  · have := hmv kv
    rw [if_neg hne.symm, if_pos rfl, hbal kv hne.symm] at this
    omega
  · have e1 := hmv ct
    rw [if_pos rfl, if_neg hne] at e1
    obtain ⟨hl, -, -, x, hx, hx2⟩ := hw.new hz
    have : bal wr ct = x.toNat := by simp only [bal, hx]
    omega
  · have e1 := hmv ct
    rw [if_pos rfl, if_neg hne] at e1
    obtain ⟨hl, -, s1, s2, d1, d2, heq, -⟩ := hw.old hz
    rw [hd] at d1
    cases d1
    obtain ⟨s3, r3, -, d3, hn3, hsum⟩ := hw.synced
    rw [d2] at d3
    cases d3
    rw [heq] at hn3
    have hn3 : s.isNative = some r3 := hn3
    rw [hn] at hn3
    cases hn3
    have : bal wr ct = s2.amount.toNat := by simp only [bal, d2]
    omega
  · have := hmv k
    rw [if_neg k1, if_neg k2, hbal k k1] at this
    omega
  · simp only [List.mem_cons, List.not_mem_nil, or_false, not_or] at hcr
    rw [hrest cr hcf hw.differ hcr.1 hcr.2.1 hcr.2.2.1 hcr.2.2.2, hw.rest cr hw.differ]
    have e1 := hw.enough
    rw [if_neg (fun e => hcf e.1)] at e1 ⊢
    rw [if_pos rfl]
    show (w.acc cr).lamports - 0 - a.toNat + a.toNat = _
    omega

/-- C49 (record): the record and the event of the deposit are those a direct deposit of the same amount of wrapped SOL leaves. -/
theorem C49_record (h : NP.run env ctx (.deposit sd a rc v ev py) w = .ok w') :
    ∃ cr wr dp kt inner t' dec fee, ∃ credit : U128, ctx.accounts[1]? = some cr ∧ ctx.isSigner cr = true ∧ inner.program = env.tpId ∧
      IsAddr env env.tpId (depositSeeds sd) dp ∧ IsAddr env env.tpId (TP.tokenSettingsSolSeeds env.nativeMint) kt ∧ TP.TokenOf env inner w' kt t' ∧
      feeSpec t'.feeDepositInfo.multiplier.toNat t'.feeDepositInfo.divisor.toNat a.toNat = some fee ∧ credit.toNat + fee = a.toNat ∧
      TP.DepositMade TP.depositSolEventC env inner wr w' dp cr sd ⟨env.nativeMint, t'.name, t'.symbol, dec, credit, rc, v, ev, py⟩ ∧
      ∃ l, w'.logs = l ++ [TP.depositLog env TP.depositSolEventC dp rc credit sd v ev
        ⟨env.nativeMint, t'.name, t'.symbol, dec, credit, rc, v, ev, py⟩] := by
  obtain ⟨f, cr, ct, wr, kv, dp, mv, kt, ks, inner, h0, h1, h2, -, hct, hs1, hs0, -, -, hw, hr, hrun, -⟩ := NP.deposit_fx h
  obtain ⟨cr', dp', mi, kt', t', dec, fee, credit, a1, a4, a5, a7, -, hto, -, hfee, hcr, hdep, hlog⟩ := C31_record_sol hrun
  rw [hr.accounts] at a1 a4 a5 a7
  simp only [List.getElem?_cons_zero, List.getElem?_cons_succ, Option.some.injEq] at a1 a4 a5 a7
  subst a1 a4 a5 a7
  exact ⟨cr, wr, dp, kt, inner, t', dec, fee, credit, h1, hs1, hr.program, hr.deposit, hr.token, hto, hfee, hcr, hdep, hlog⟩

/-- C49 (histories): a call of the native proxy continues a history by a step of other programs and an ordinary deposit.  So whatever is proved for
all histories holds with calls of the native proxy, too.  The signers, and the author's wrapped-SOL account, must not be locked keys. -/
theorem C49_history {tr : List Ev} {ct : Pubkey} (hd : env.Distinct) (hrun : Run env L true w0 tr w)
    (h : NP.run env ctx (.deposit sd a rc v ev py) w = .ok w') (hs : ∀ k ∈ ctx.signers, ¬ L k) (h2 : ctx.accounts[2]? = some ct) (hct : ¬ L ct) :
    ∃ wr inner, Run env L true w0 (tr ++ [⟨.ext, w, wr⟩] ++
      [⟨.tp inner (.depositMultiTokenSol sd NP.wsolName NP.wsolSymbol a rc v ev py), wr, w'⟩]) w' := by
  obtain ⟨f, cr, ct', wr, kv, dp, mv, kt, ks, inner, h0, h1, h2', -, -, hs1, hs0, hof, hoc, hw, hr, hdep, -⟩ := NP.deposit_fx h
  rw [h2] at h2'
  cases h2'
  have hL : ∀ k, ctx.isSigner k = true → ¬ L k := fun k hk => by
    simp only [Ctx.isSigner, Bool.and_eq_true, List.contains_iff_mem] at hk
    exact hs k hk.2
  have hext : ExtStep env L w wr := NP.wrapped_ext hd (fun e => ⟨hL f hs0, hof e⟩) ⟨hL cr hs1, hoc⟩ hct hw
  exact ⟨wr, inner, .tp _ _ (.ext hrun hext) hr.program (fun k hk => hs k (hr.signers k hk).1) hdep⟩

/-- C49 (reachable worlds): a call of the native proxy leads from a reachable world to a reachable world. -/
theorem C49_reach {ct : Pubkey} (hd : env.Distinct) (hreach : Reach env L w) (h : NP.run env ctx (.deposit sd a rc v ev py) w = .ok w')
    (hs : ∀ k ∈ ctx.signers, ¬ L k) (h2 : ctx.accounts[2]? = some ct) (hct : ¬ L ct) : Reach env L w' := by
  obtain ⟨w0, tr, hg, hrun⟩ := hreach
  obtain ⟨wr, inner, hrun'⟩ := C49_history hd hrun h hs h2 hct
  exact ⟨w0, _, hg, hrun'⟩

theorem toy_npReady : Reach Toy.env Toy.L (Toy.get Toy.npReady) := by
  obtain ⟨w0, tr, hg, hrun⟩ := Toy.reach_tpInit
  exact ⟨w0, _, hg, .ext hrun Toy.ext_npReady⟩

theorem toy_npFirst : Reach Toy.env Toy.L (Toy.get Toy.npFirst) :=
  C49_reach Toy.distinct toy_npReady Toy.np_first (Toy.free (by decide +kernel)) rfl (Toy.unlocked (by decide +kernel))

/-- Alice's first deposit of SOL creates their account for wrapped SOL and the vault: the vault holds 70000, alice has 70000 lamports less, and their
account for wrapped SOL is empty. -/
example : NP.run Toy.env (Toy.npCtx 1) (.deposit 1 70000 Toy.home 7 0 []) (Toy.get Toy.npReady) = .ok (Toy.get Toy.npFirst) ∧ 0 < Toy.env.rent 165 ∧
    bal (Toy.get Toy.npFirst) Toy.wsolVault = 70000 ∧ ((Toy.get Toy.npFirst).acc Toy.alice).lamports + 70000 = ((Toy.get Toy.npReady).acc Toy.alice).lamports ∧
    bal (Toy.get Toy.npFirst) Toy.aliceSol = 0 :=
  ⟨Toy.np_first, by decide, Nat.eq_of_beq_eq_true (by decide +kernel), Nat.eq_of_beq_eq_true (by decide +kernel), Nat.eq_of_beq_eq_true (by decide +kernel)⟩

/-- The second deposit finds both. -/
example : NP.run Toy.env (Toy.npCtx 2) (.deposit 2 5000 Toy.home 7 0 []) (Toy.get Toy.npFirst) = .ok (Toy.get Toy.npSecond) ∧
    ((Toy.get Toy.npFirst).acc Toy.aliceSol).lamports ≠ 0 ∧ bal (Toy.get Toy.npSecond) Toy.wsolVault = 75000 ∧ Reach Toy.env Toy.L (Toy.get Toy.npSecond) :=
  ⟨Toy.np_second, Nat.ne_of_beq_eq_false (by decide +kernel), Nat.eq_of_beq_eq_true (by decide +kernel),
    C49_reach Toy.distinct toy_npFirst Toy.np_second (Toy.free (by decide +kernel)) rfl (Toy.unlocked (by decide +kernel))⟩

/-! ## C35 and C51 for the native proxy -/

theorem np_wrap_run {i : NP.Instr} (h : NP.run env ctx i w = .ok w') : ∃ wr inner ti, (∃ am, NP.wrap env ctx am w = .ok wr) ∧
    (∀ k ∈ inner.accounts, k ∈ ctx.accounts) ∧ (∀ k ∈ inner.writables, k ∈ ctx.writables) ∧ TP.run env inner noCpi ti wr = .ok w' := by
  cases i with
  | deposit sd a rc v ev py => 
    obtain ⟨f, cr, ct, wr, kv, dp, mv, kt, ks, inner, -, -, -, -, -, -, -, -, -, -, hr, hrun, hw⟩ := NP.deposit_fx h
    exact ⟨wr, inner, _, ⟨a, hw⟩, hr.given, hr.writable, hrun⟩

/-- C35 (native proxy): a deposit of SOL, with everything it makes the other programs do, moves lamports and makes none. -/
theorem C35_native_proxy {i : NP.Instr} {S : List Pubkey} (h : NP.run env ctx i w = .ok w') (hS : S.Nodup) (hall : ∀ k ∈ ctx.accounts, k ∈ S) :
    lamportSum S w' = lamportSum S w := by
  obtain ⟨wr, inner, ti, ⟨am, hwr⟩, hg, -, hrun⟩ := np_wrap_run h
  rw [(TP.run_ops hrun).lamports hS (fun k hk => hall k (hg k hk)), (NP.wrap_ops hwr).lamports hS hall]

/-- C51 (native proxy): it changes only accounts it was given as writable, and only adds log records. -/
theorem C51_native_proxy {i : NP.Instr} (h : NP.run env ctx i w = .ok w') : Confined ctx w w' := by
  obtain ⟨wr, inner, ti, ⟨am, hwr⟩, hg, hw, hrun⟩ := np_wrap_run h
  have c1 := (NP.wrap_ops hwr).confined
  have c2 := (TP.run_ops hrun).confined
  refine ⟨fun k hk => ?_, ?_⟩
  · by_cases e : wr.acc k = w.acc k
    · obtain ⟨x1, x2⟩ := c2.changed k (by rw [e]; exact hk)
      exact ⟨hg k x1, hw k x2⟩
    · exact c1.changed k e
  · obtain ⟨l1, e1⟩ := c1.logs
    obtain ⟨l2, e2⟩ := c2.logs
    exact ⟨l1 ++ l2, by rw [e2, e1, List.append_assoc]⟩

end Verif.Props
