import Verif.Lemmas.BillRL
import Verif.Lemmas.BillNP
import Verif.Spec.ToyReachTP
import Verif.Spec.ToyReachW
import Verif.Spec.ToyNative
import Verif.Spec.ToyTactic
/-!
# C78: every instruction has its price
-/
set_option maxRecDepth 100000
namespace Verif.Props
open Verif TP

variable {env : Env} {ctx : Ctx} {w w' : World} {cpi : Pubkey → World → Except Err World}

/-- C78 (round loader): a successful instruction moves exactly the lamports its entry in the price list says, in every account of the chain. -/
theorem C78_round_loader {i : RL.Instr} (h : RL.run env ctx i w = .ok w') : ∃ bill, RL.Price env ctx w i bill ∧ Settled bill w w' :=
  RL.run_bill h

/-- C78 (token proxy): the same for every instruction that does not execute a payload. -/
theorem C78_token_proxy {i : Instr} (hi : ¬ executes i) (h : TP.run env ctx cpi i w = .ok w') : ∃ bill, TP.Price env ctx w w' i bill ∧ Settled bill w w' :=
  TP.run_bill hi h

/-- C78 (token proxy): executing a payload costs what the instructions in the payload cost, and nothing on top. -/
theorem C78_payload {i : Instr} (hi : executes i) (h : TP.run env ctx cpi i w = .ok w') :
    ∃ w1, (w1 = w ∨ ∃ proxy, cpi proxy w = .ok w1) ∧ Settled [] w1 w' := by
  obtain ⟨w1, h1, h2⟩ := TP.payload_bill hi h
  exact ⟨w1, h1, h2.settled⟩

/-- C78 (native proxy): a deposit of SOL costs its author the amount and its funder the rents and the value, provided the settings of the token do not
sign. -/
theorem C78_native_proxy {sd : U128} {a v : U64} {rc : EverAddress} {ev : Pubkey} {py : Bytes} (h : NP.run env ctx (.deposit sd a rc v ev py) w = .ok w') :
    ∃ f cr ct kv d mv kt, ctx.accounts[0]? = some f ∧ ctx.accounts[1]? = some cr ∧ ctx.accounts[2]? = some ct ∧
      IsAddr env env.tpId (vaultSeeds env.nativeMint) kv ∧ IsAddr env env.tpId (depositSeeds sd) d ∧ IsAddr env env.tpId multiVaultSeeds mv ∧
      IsAddr env env.tpId (tokenSettingsSolSeeds env.nativeMint) kt ∧
      (ctx.isSigner kt = false → Settled (NP.bill env w f cr ct kv d mv kt a.toNat v.toNat) w w') := by
  obtain ⟨f, cr, ct, w1, kv, d, mv, kt, ks, inner, h0, h1, h2, -, -, hcr, hf, -, -, hwr, hrel, hrun, hwrap⟩ := NP.deposit_fx h
  refine ⟨f, cr, ct, kv, d, mv, kt, h0, h1, h2, hrel.vault, hrel.deposit, hrel.multiVault, hrel.token, fun hkt => ?_⟩
  have hacc := hrel.accounts
  have b1 := NP.wrap_bill hwrap h0 h1 h2
  have hct : wrapsSol w1 ct = true := by
    obtain ⟨t, r, -, ht, hn, -⟩ := hwr.synced
    unfold wrapsSol
    rw [ht]
    simp [hn]
  have hne : kt ≠ ct := by
    rintro rfl
    obtain ⟨b, hb⟩ := depositSol_raw hrun (by rw [hacc]; rfl)
    obtain ⟨t, r, -, ht, -⟩ := hwr.synced
    rw [ht] at hb
    cases hb
  have hsame : (w1.acc kt).lamports = (w.acc kt).lamports := by
    rw [hwr.rest kt hne]
    have e1 : kt ≠ f := by rintro rfl; rw [hkt] at hf; cases hf
    have e2 : kt ≠ cr := by rintro rfl; rw [hkt] at hcr; cases hcr
    simp [e1, e2]
  obtain ⟨bill, hp, b2⟩ := TP.depositSol_bill hrun
  refine (b1.trans b2).congr fun x => ?_
  simp only [NP.bill, ← hsame]
  cases hp with
  | gratis _ hg => cases hg
  | depositSol _ _ _ _ _ _ _ _ i0 i2 i3 i4 i6 i7 hk =>
    rw [hacc] at i0 i2 i3 i4 i6 i7
    cases i0; cases i2; cases i3; cases i4; cases i6; cases i7
    simp only [tokenBill, hct, if_true, if_neg hk, paidBy_append, paidTo_append, paidBy, paidTo]
    omega
  | firstSol _ _ _ _ _ _ _ _ i0 i2 i3 i4 i6 i7 hk =>
    rw [hacc] at i0 i2 i3 i4 i6 i7
    cases i0; cases i2; cases i3; cases i4; cases i6; cases i7
    simp only [tokenBill, hct, if_true, if_pos hk, paidBy_append, paidTo_append, paidBy, paidTo]
    omega

/-! ## On the toy chain -/

/-- `a` paid `n` lamports and `b` received them. -/
private def paid (a b : Pubkey) (n : Nat) (w w' : World) : Bool :=
  Nat.beq ((w'.acc a).lamports + n) (w.acc a).lamports && Nat.beq (w'.acc b).lamports ((w.acc b).lamports + n)

private theorem paid_eq {a b : Pubkey} {n : Nat} (h : paid a b n w w' = true) :
    (w'.acc a).lamports + n = (w.acc a).lamports ∧ (w'.acc b).lamports = (w.acc b).lamports + n := by
  simp only [paid, Bool.and_eq_true] at h
  exact ⟨Nat.eq_of_beq_eq_true h.1, Nat.eq_of_beq_eq_true h.2⟩

/-- Finalizing a proposal in a round of three relays costs the funder 60000. -/
example : ∃ c w', RL.run Toy.env c .finalizeProposal (Toy.get Toy.rlLoaded) = .ok w' ∧
    (w'.acc Toy.funder).lamports + 60000 = ((Toy.get Toy.rlLoaded).acc Toy.funder).lamports ∧
    (w'.acc Toy.prop2).lamports = ((Toy.get Toy.rlLoaded).acc Toy.prop2).lamports + 60000 := by
  obtain h := Toy.get_ok (r := RL.run Toy.env (Toy.ctx Toy.env.rlId [Toy.funder, Toy.prop2, Toy.rlSettings, Toy.rlRound 1, Toy.env.systemId] [Toy.funder])
    .finalizeProposal (Toy.get Toy.rlLoaded)) ?_
  obtain hp := paid_eq (a := Toy.funder) (b := Toy.prop2) (n := 60000) (w := Toy.get Toy.rlLoaded) (w' := Toy.get (RL.run Toy.env (Toy.ctx Toy.env.rlId
    [Toy.funder, Toy.prop2, Toy.rlSettings, Toy.rlRound 1, Toy.env.systemId] [Toy.funder]) .finalizeProposal (Toy.get Toy.rlLoaded))) ?_
  exact ⟨_, _, h, hp⟩
  checked

/-- Requesting a withdrawal costs the funder the rent of 1000 bytes, 2000, and 60000 for the votes. -/
example : ∃ c w' i, ¬ executes i ∧ TP.run Toy.env c noCpi i (Toy.get Toy.tpDeposited) = .ok w' ∧
    (w'.acc Toy.funder).lamports + 62000 = ((Toy.get Toy.tpDeposited).acc Toy.funder).lamports ∧
    (w'.acc Toy.wd1).lamports = ((Toy.get Toy.tpDeposited).acc Toy.wd1).lamports + 62000 := by
  obtain h := Toy.get_tp (a := Toy.tpDeposited) (c := Toy.reqCtx Toy.wd1) (i := .withdrawMultiTokenSolRequest Toy.pda1 Toy.bob 1000 [] 0) ?_
  obtain hp := paid_eq (a := Toy.funder) (b := Toy.wd1) (n := 62000) (w := Toy.get Toy.tpDeposited)
    (w' := Toy.get (Toy.tp Toy.tpDeposited (Toy.reqCtx Toy.wd1) (.withdrawMultiTokenSolRequest Toy.pda1 Toy.bob 1000 [] 0))) ?_
  exact ⟨_, _, _, (fun h => by rcases h with h | h <;> cases h), h, hp⟩
  checked

/-- A payload that has been executed. -/
example : ∃ w', TP.run Toy.env (Toy.tctx [Toy.wd4] []) (fun _ w => .ok w) .executePayloadSol (Toy.get Toy.tpPaidP) = .ok w' := by
  obtain h := Toy.get_ok (r := TP.run Toy.env (Toy.tctx [Toy.wd4] []) (fun _ w => .ok w) .executePayloadSol (Toy.get Toy.tpPaidP)) ?_
  exact ⟨_, h⟩
  checked

/-- The first deposit of SOL: the settings of the token, which are new, do not sign. -/
example : ∃ c w w', NP.run Toy.env c (.deposit 1 70000 Toy.home 7 0 []) w = .ok w' ∧ c.isSigner (Toy.addr (tokenSettingsSolSeeds Toy.env.nativeMint) Toy.env.tpId) = false ∧
    (w.acc (Toy.addr (tokenSettingsSolSeeds Toy.env.nativeMint) Toy.env.tpId)).lamports = 0 :=
  ⟨_, _, _, Toy.np_first, by decide +kernel, by decide +kernel⟩

end Verif.Props
