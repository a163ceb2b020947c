import Verif.Spec.ToyClose
import Verif.Lemmas.DepHist
import Verif.Lemmas.WReq
import Verif.Props.Deposits
/-!
# Closing records, proxy accounts and bounties
-/
set_option linter.unusedSimpArgs false
set_option maxRecDepth 100000
namespace Verif.Props
open Verif TP

variable {env : Env} {L : Pubkey → Prop} {ctx : Ctx} {cpi : Pubkey → World → Except Err World} {w w' w0 : World}

/-! ## C34: closing -/

/-- C34 (deposits): closing a deposit record needs the signature of its author, who gets all its lamports; the record is then empty, and nothing
else changes. -/
theorem C34_close_deposit (h : run env ctx cpi .closeDeposit w = .ok w') :
    ∃ k g b r, ctx.accounts[1]? = some k ∧ (w.acc k).owner = ctx.program ∧ (w.acc k).data = .raw b ∧ genericDepositC.dec b = some (g, r) ∧
      (∀ {E : Type} (ec : Codec E) (d : Deposit E), Holds (depositC ec) recLen (w.acc k) d → d.author = g.author) ∧
      ctx.isSigner g.author = true ∧ Emptied env k g.author w w' := by
  obtain ⟨k, sd, g, b, r, h0, h1, hsig, hb, hg, hm, ha, ho, hne, hk, hlog, hx⟩ := closeDeposit_fx h
  refine ⟨k, g, b, r, h1, ho, hb, hg, ?_, hsig, ⟨hne, ?_, ?_, fun x x1 x2 => ?_, hlog⟩⟩
  · rintro E ec d ⟨b', q, hb', -, hd⟩
    rw [hb] at hb'; cases hb'
    exact deposit_author hd hg
  · rw [hk]; exact ⟨rfl, rfl, _, rfl⟩
  · rw [hx _ hne, if_pos rfl]
  · rw [hx _ x1, if_neg x2]; rfl

example : ∃ w', run Toy.env Toy.closeDepCtx noCpi .closeDeposit (Toy.get Toy.tpDeposited) = .ok w' :=
  ⟨_, Toy.get_tp (a := Toy.tpDeposited) (by decide +kernel)⟩

/-- C34 (withdrawals): closing a withdrawal record requires it to be processed or cancelled; its author gets all its lamports; the record is then
empty, and nothing else changes. -/
theorem C34_close_withdrawal (h : run env ctx noCpi .closeWithdrawal w = .ok w') :
    ∃ k p md b r, ctx.accounts[0]? = some k ∧ (w.acc k).data = .raw b ∧ GenericProposal.codec.dec b = some (p, r) ∧
      wmetaC.decAll p.metaData = some md ∧ (md.status = .processed ∨ md.status = .cancelled) ∧
      (∀ p' md', WithdrawalAt env w k p' md' → p' = p ∧ md' = md) ∧ Emptied env k p.author w w' := by
  obtain ⟨k, p, md, h0, h1, hp, hmd, hf, hne, hk, hlog, hx⟩ := closeWithdrawal_fx h
  obtain ⟨⟨b, r, hb, hd⟩, n, pn, hkd, -⟩ := loadGeneric_ok.1 hp
  refine ⟨k, p, md, b, r, h0, hb, hd, hmd, ?_, ?_, ⟨hne, ?_, ?_, fun x x1 x2 => ?_, hlog⟩⟩
  · revert hf; cases md.status <;> simp [WStatus.final]
  · rintro p' md' ⟨-, ⟨b', r', hb', -, hd'⟩, -, -, hmd'⟩
    rw [hb] at hb'; cases hb'
    rw [hd] at hd'; cases hd'
    rw [hmd] at hmd'; cases hmd'
    exact ⟨rfl, rfl⟩
  · rw [hk]; exact ⟨rfl, rfl, _, rfl⟩
  · rw [hx _ hne, if_pos rfl]
  · rw [hx _ x1, if_neg x2]; rfl

example : ∃ w', run Toy.env (Toy.tctx [Toy.wd1, Toy.alice] []) noCpi .closeWithdrawal (Toy.get Toy.tpPaid) = .ok w' :=
  ⟨_, Toy.get_tp (a := Toy.tpPaid) (by decide +kernel)⟩

/-! ## C38: proxy accounts -/

/-- C38: `WithdrawProxy` succeeds only with the signature of the recipient `c` from whom, together with the given mint, the address of the proxy
account is derived, and moves exactly the requested amount from it to the given account of the same token. -/
theorem C38_proxy {a : U64} (h : run env ctx cpi (.withdrawProxy a) w = .ok w') :
    ∃ c rc px mi, ctx.accounts[0]? = some c ∧ ctx.accounts[1]? = some rc ∧ ctx.accounts[2]? = some px ∧ ctx.accounts[3]? = some mi ∧
      ctx.isSigner c = true ∧ IsAddr env ctx.program (proxySeeds mi c) px ∧ Moves px rc a.toNat w w' ∧
      (∃ m, IsToken env w px m ∧ IsToken env w rc m) ∧ w'.logs = w.logs ∧ ∀ j, j ≠ px → j ≠ rc → w'.acc j = w.acc j :=
  withdrawProxy_fx h

example : ∃ w', run Toy.env Toy.proxyCtx noCpi (.withdrawProxy 400) (Toy.get Toy.tpPaidP) = .ok w' :=
  ⟨_, Toy.get_tp (a := Toy.tpPaidP) (by decide +kernel)⟩

/-- C38 (histories): as long as no payload is executed with the signature of the proxy account `px` (it is locked), tokens leave it only by
`WithdrawProxy`, signed by somebody from whom its address is derived. (Should its address also be that of a vault, payouts of that vault.) -/
theorem C38_history {top : Bool} {tr : List Ev} {px mint : Pubkey} (hd : env.Distinct) (hr : Run env L top w tr w')
    (hg : Guarded env w px mint px none) (hL : L px) :
    Guarded env w' px mint px none ∧ ∀ e ∈ tr, bal e.post px < bal e.pre px →
      (∃ ctx a c rc mi, e.act = .tp ctx (.withdrawProxy a) ∧ ctx.isSigner c = true ∧ IsAddr env env.tpId (proxySeeds mi c) px ∧
        Moves px rc a.toNat e.pre e.post) ∨ ∃ m, IsAddr env env.tpId (vaultSeeds m) px := by
  obtain ⟨h1, h2⟩ := hr.guarded hd hL hg (.inl rfl)
  refine ⟨h1, fun e he hlt => ?_⟩
  obtain ⟨-, -, g3⟩ := h2 e he
  obtain ⟨ctx, i, hact, hp, hs, hrun, -, hpay⟩ := g3 hlt
  cases hpay with
  | withdraw m ha => exact .inr ⟨m, by rw [← hp]; exact ha⟩
  | approve m ha => exact .inr ⟨m, by rw [← hp]; exact ha⟩
  | fee m n ha => exact .inr ⟨m, by rw [← hp]; exact ha⟩
  | proxy m c n ha hsig =>
    obtain ⟨c', rc, px', mi, h0, h1, h2, h3, hsig', hpx, hm, -⟩ := withdrawProxy_fx hrun
    refine .inl ⟨ctx, n, c', rc, mi, hact, hsig', ?_, ?_⟩
    all_goals
      have h1 := (hm.2 px).1
      have e1 : px = px' := by
        by_cases h : px = px'
        · exact h
        · rw [if_neg h] at h1
          exfalso
          split at h1 <;> omega
      subst e1
    · rw [← hp]; exact hpx
    · exact hm

/-- The hypotheses are met by bob's proxy account for gold, and bob takes tokens out. -/
example : Guarded Toy.env (Toy.get Toy.tpPaidP) Toy.tpProxy Toy.gold Toy.tpProxy none ∧
    (∃ tr, Run Toy.env (fun k => k = Toy.tpProxy) true (Toy.get Toy.tpPaidP) tr (Toy.get Toy.tpProxyOut)) ∧
    bal (Toy.get Toy.tpPaidP) Toy.tpProxy = 999 ∧ bal (Toy.get Toy.tpProxyOut) Toy.tpProxy = 599 := by
  have h : (match ((Toy.get Toy.tpPaidP).acc Toy.tpProxy) with
      | ⟨l, o, .token t⟩ => Nat.ble 1 l && (Nat.beq o.toNat Toy.env.splId.toNat && (Nat.beq t.mint.toNat Toy.gold.toNat && (Nat.beq t.owner.toNat Toy.tpProxy.toNat &&
          (t.delegate.isNone && (t.closeAuthority.isNone && t.isNative.isNone)))))
      | _ => false) = true := by decide +kernel
  refine ⟨?_, ⟨_, .tp _ _ (.nil _ _) rfl (fun k hk => ?_) (Toy.get_tp (a := Toy.tpPaidP) (by decide +kernel))⟩,
    Nat.eq_of_beq_eq_true (by decide +kernel), Nat.eq_of_beq_eq_true (by decide +kernel)⟩
  · split at h
    · rename_i l o t hd
      simp only [Bool.and_eq_true, Option.isNone_iff_eq_none] at h
      obtain ⟨h1, h2, h3, h4, h5, h6, h7⟩ := h
      refine ⟨?_, ⟨t, ?_, ?_, ?_, h5, h6, h7⟩, fun _ => ?_⟩
      · rw [hd]; exact BitVec.eq_of_toNat_eq (Nat.eq_of_beq_eq_true h2)
      · rw [hd]
      · exact BitVec.eq_of_toNat_eq (Nat.eq_of_beq_eq_true h3)
      · exact BitVec.eq_of_toNat_eq (Nat.eq_of_beq_eq_true h4)
      · rw [hd]; exact Nat.le_of_ble_eq_true h1
    · cases h
  · have : k = Toy.bob := by simpa [Toy.proxyCtx, Toy.tctx, Toy.ctx] using hk
    subst this
    intro e
    exact absurd (congrArg BitVec.toNat e) (Nat.ne_of_beq_eq_false (by decide +kernel))

/-! ## C39: bounties -/

/-- C39, except for the upper bound: the bounty of a withdrawal changes only with the signature of its author or recipient and while it is
pending; nothing but the bounty changes. -/
theorem C39_bounty_partial {b : U64} (h : run env ctx cpi (.changeBountyForWithdrawSol b) w = .ok w') :
    ∃ au kw r, ctx.accounts[0]? = some au ∧ ctx.accounts[1]? = some kw ∧ ctx.isSigner au = true ∧ WithdrawalOf wSolEventC env ctx w kw r ∧
      r.md.status = .pending ∧ (au = r.author ∨ au = r.event.recipient) ∧
      Holds (withdrawalC wSolEventC) recLen (w'.acc kw) { r with md := { r.md with bounty := b } } ∧ OnlyData kw w w' ∧ w'.logs = w.logs := by
  obtain ⟨au, kw, r, h0, h1, hsig, hw, hst, ha, -, hh, ho, hl⟩ := changeBounty_fx h
  exact ⟨au, kw, r, h0, h1, hsig, hw, hst, ha.imp Eq.symm Eq.symm, hh, ho, hl⟩

example : ∃ w', run Toy.env Toy.bountyCtx noCpi (.changeBountyForWithdrawSol 100) (Toy.get Toy.tpPending) = .ok w' :=
  ⟨_, Toy.get_tp (a := Toy.tpPending) (by decide +kernel)⟩

/-- C39 is false in one respect: a bounty of 1000000 is accepted for a withdrawal of 90000. -/
theorem C39_unbounded : ∃ (env : Env) (L : Pubkey → Prop) (w w' : World) (ctx : Ctx) (kw : Pubkey) (r : Withdrawal WSolEvent) (b : U64),
    env.Distinct ∧ Reach env L w ∧ ctx.program = env.tpId ∧ (∀ k ∈ ctx.signers, ¬ L k) ∧ ctx.accounts[1]? = some kw ∧
      Holds (withdrawalC wSolEventC) recLen (w.acc kw) r ∧ r.event.amount.toNat < b.toNat ∧
      run env ctx noCpi (.changeBountyForWithdrawSol b) w = .ok w' := by
  obtain ⟨r, ho, -, hr, hP⟩ := Toy.tfind (c := withdrawalC wSolEventC) (w := Toy.get Toy.tpPending) (k := Toy.wd2)
    (P := fun r => Nat.beq r.event.amount.toNat 90000) (by decide +kernel)
  refine ⟨Toy.env, Toy.L, _, _, Toy.bountyCtx, Toy.wd2, r, 1000000, Toy.distinct, Toy.reach_tpPending, rfl, Toy.free (by decide +kernel), rfl, hr, ?_,
    Toy.get_tp (a := Toy.tpPending) (by decide +kernel)⟩
  rw [Nat.eq_of_beq_eq_true hP]
  decide

/-! ## C58: deposit records last -/

/-- Every deposit, cancellation and fill leaves a deposit record that meets the hypotheses of `C58_deposit_stays`. -/
theorem C58_made {E : Type} {ec : Codec E} {k au : Pubkey} {sd : U128} {e : E} (h : DepositMade ec env ctx w w' k au sd e) (hp : ctx.program = env.tpId) :
    ∃ g, DepositAt env w' k g ∧ Live w' k ∧ g.author = au ∧ g.event = ec.enc e ∧ g.metaData = Codec.u128.enc sd := by
  obtain ⟨n, hn⟩ := h.generic
  exact ⟨_, ⟨h.owner.trans hp, hn, rfl, n, rfl⟩, by unfold Live; rw [h.rent]; omega, rfl, rfl, rfl⟩

/-- C58: along every history, a deposit record stays as it is until it is closed with the signature of its author. -/
theorem C58_deposit_stays {top : Bool} {tr : List Ev} {k : Pubkey} {g : GenericDeposit} (hd : env.Distinct) (h : Run env L top w tr w')
    (hg : DepositAt env w k g) (hl : Live w k) (hno : ∀ e ∈ tr, ¬ ClosesDeposit k g.author e) :
    DepositAt env w' k g ∧ Live w' k ∧ (w'.acc k).data = (w.acc k).data := by
  obtain ⟨ho, ⟨b, r, hb, hlen, hdec⟩, hi, n, hk⟩ := hg
  obtain ⟨s, hs⟩ := header_genericDeposit hdec
  rw [hi, hk] at hs
  obtain ⟨h1, h2, h3⟩ := deposit_hist hd h ho hl hb hdec hs hno
  exact ⟨⟨h1, ⟨b, r, h2, hlen, hdec⟩, hi, n, hk⟩, Nat.le_trans hl h3, h2.trans hb.symm⟩

example : ∃ g tr, DepositAt Toy.env (Toy.get Toy.tpDeposited) (Toy.tpDep 1) g ∧ Live (Toy.get Toy.tpDeposited) (Toy.tpDep 1) ∧
    Run Toy.env Toy.L true (Toy.get Toy.tpDeposited) tr (Toy.get Toy.tpEmerg) ∧ tr ≠ [] ∧ ∀ e ∈ tr, ¬ ClosesDeposit (Toy.tpDep 1) g.author e := by
  obtain ⟨g, ho, hl, hg, hP⟩ := Toy.tfind (c := genericDepositC) (w := Toy.get Toy.tpDeposited) (k := Toy.tpDep 1)
    (P := fun g => g.isInitialized && g.accountKind.intoDeposit.isSome) (by decide +kernel)
  simp only [Bool.and_eq_true, Option.isSome_iff_exists, intoDeposit_some] at hP
  refine ⟨g, _, ⟨ho, hg, hP⟩, hl, .tp _ _ (.nil _ _) rfl (Toy.free (by decide +kernel)) (Toy.get_tp (a := Toy.tpDeposited) (by decide +kernel)), by simp, ?_⟩
  intro e he
  have he' := List.mem_singleton.1 he
  rw [he']
  rintro ⟨ctx, h, -⟩
  cases h

end Verif.Props
