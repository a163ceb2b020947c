import Verif.Spec.ToyTactic
import Verif.Spec.ToyDep
import Verif.Props.Deposits
import Verif.Props.Payouts
/-!
# Withdrawing and depositing an Everscale token
-/
set_option linter.unusedSimpArgs false
set_option maxRecDepth 100000
namespace Verif.Props
open Verif TP

variable {env : Env} {ctx ctx' : Ctx} {w w' u u' : World} {cpi cpi' : Pubkey → World → Except Err World}

/-- A withdrawal never pays more than the amount converted in unbounded arithmetic. -/
theorem withdrawal_le {x : U128} {e s : U8} {c : U64} (h : getWithdrawalAmount x e s = .ok c) (h1 : e.toNat ≤ s.toNat + 38)
    (h2 : s.toNat ≤ e.toNat + 38) : c.toNat ≤ toSolSpec x.toNat e.toNat s.toNat := by
  unfold toSolSpec
  rcases withdrawal_ok h with ⟨hlt, -, hc⟩ | ⟨hlt, -, hc⟩
  · rw [toNat_pow10 (by omega)] at hc
    rw [if_pos hlt, hc]; exact Nat.mod_le _ _
  · rw [toNat_pow10 (by omega)] at hc
    rw [if_neg hlt, hc]; exact Nat.mod_le _ _

/-- Converting there and back never gains. -/
theorem round_trip (n x e s : Nat) (h : n ≤ toSolSpec x e s) : toEverSpec n e s ≤ x := by
  unfold toSolSpec at h
  unfold toEverSpec
  split at h
  · rename_i hlt
    rw [if_pos hlt]
    exact Nat.le_trans (Nat.mul_le_mul_right _ h) (Nat.div_mul_le_self _ _)
  · rename_i hlt
    rw [if_neg hlt]
    exact Nat.div_le_of_le_mul (by rwa [Nat.mul_comm] at h)

/-- C57 (matching decimals): someone who withdraws an Everscale token and deposits no more than they received is credited no more than the
amount of the withdrawal, provided that the token was created with the decimals of the withdrawal and the decimals are not further than 38
apart.  What is missing: the decimals the token was created with need not be those of later withdrawals, see `C57_inflated`. -/
theorem C57_round_trip_partial {sd : U128} {a v : U64} {rc : EverAddress} {ev : Pubkey} {py : Bytes}
    (h : run env ctx cpi .withdrawMultiTokenEver w = .ok w') (hc : ∃ k, supply w' k ≠ supply w k)
    (h' : run env ctx' cpi' (.depositMultiTokenEver sd a rc v ev py) u = .ok u') :
    ∃ kw mint r w1 to received m, ctx.accounts[0]? = some kw ∧ ctx.accounts[1]? = some mint ∧ WithdrawalOf wEverEventC env ctx w kw r ∧
      (w1.acc mint).data = .mint m ∧ Mints mint to received w1 w' ∧
      ∃ cr dp mi kt t mk token d m', ∃ credit : U128, ctx'.accounts[3]? = some dp ∧ ctx'.accounts[4]? = some mi ∧
        ctx'.accounts[6]? = some kt ∧ TokenOf env ctx' u kt t ∧ t.kind = .ever mk token d ∧ (u.acc mi).data = .mint m' ∧
        DepositMade depositEverEventC env ctx' u u' dp cr sd ⟨token, credit, rc, v, ev, py⟩ ∧
        (a.toNat ≤ received → d = r.event.decimals → m'.decimals = m.decimals → d.toNat ≤ m.decimals.toNat + 38 →
          m.decimals.toNat ≤ d.toNat + 38 → credit.toNat ≤ r.event.amount.toNat) := by
  obtain ⟨kw, mint, rc1, kt1, r, w1, t1, t1', m, amount, fee1, net1, a0, a1, -, -, hr, -, -, het, hamt, -, hnet1, -, -, hmint, -⟩ :=
    C19_withdraw_ever h hc
  obtain ⟨cr, dp, mi, kt, t, mk, token, d, m', fee, net, credit, -, b3, b4, b6, -, hto, hk, hm', -, hnet, hcr, hdep, -⟩ := C31_record_ever h'
  refine ⟨kw, mint, r, w1, rc1, net1, m, a0, a1, hr, het.2.2.2.2, hmint, cr, dp, mi, kt, t, mk, token, d, m', credit, b3, b4, b6, hto, hk, hm', hdep,
    fun hle hd hm h1 h2 => ?_⟩
  rw [hcr (by rw [hm]; exact h1) (by rw [hm]; exact h2), hm]
  subst hd
  exact round_trip _ _ _ _ (Nat.le_trans (show net ≤ amount.toNat by omega) (withdrawal_le hamt h1 h2))

/-- On the example chain bob withdraws 70000 of the star token, and deposits 20000 of them. -/
example : ∃ w' u', run Toy.env Toy.everCtx noCpi .withdrawMultiTokenEver (Toy.get Toy.tpE3) = .ok w' ∧
    supply w' Toy.starMint ≠ supply (Toy.get Toy.tpE3) Toy.starMint ∧
    run Toy.env Toy.depCtxE noCpi (.depositMultiTokenEver 4 20000 Toy.home 7 0 []) w' = .ok u' := by
  refine ⟨Toy.get Toy.tpPaidE, Toy.get Toy.tpDepE, Toy.get_tp (a := Toy.tpE3) (c := Toy.everCtx) (i := .withdrawMultiTokenEver) ?_,
    Nat.ne_of_beq_eq_false ?_,
    Toy.get_tp (a := Toy.tpPaidE) (c := Toy.depCtxE) (i := .depositMultiTokenEver 4 20000 Toy.home 7 0 []) ?_⟩
  checked

/-- C57 is false: a stranger creates the token with decimals of their choice, without votes (see C33); then a confirmed withdrawal brings 70000
units of the token to Solana, the only ones there are; depositing 20000 of them credits 19990000000000 units on Everscale. -/
theorem C57_inflated : ∃ env L w w' w'' c c' kw kd mint r x, Env.Distinct env ∧ Reach env L w ∧ c.program = env.tpId ∧ c'.program = env.tpId ∧
    c.accounts[0]? = some kw ∧ c'.accounts[3]? = some kd ∧ Holds (withdrawalC wEverEventC) recLen (w.acc kw) r ∧ r.event.amount.toNat = 70000 ∧
    supply w mint = 0 ∧ run env c noCpi .withdrawMultiTokenEver w = .ok w' ∧ 0 < supply w' mint ∧ supply w' mint ≤ 70000 ∧
    run env c' noCpi (.depositMultiTokenEver 4 20000 Toy.home 7 0 []) w' = .ok w'' ∧
    Holds (depositC depositEverEventC) recLen (w''.acc kd) x ∧ x.event.token = r.event.token ∧ x.event.amount.toNat = 19990000000000 := by
  obtain ⟨r, -, -, hr, hP⟩ := Toy.tfind (c := withdrawalC wEverEventC) (w := Toy.get Toy.tpW5) (k := Toy.wd5)
    (P := fun r => Nat.beq r.event.amount.toNat 70000 && decide (r.event.token = Toy.star)) ?_
  obtain ⟨x, -, -, hx, hQ⟩ := Toy.tfind (c := depositC depositEverEventC) (w := Toy.get Toy.tpW7) (k := Toy.tpDep 4)
    (P := fun r => Nat.beq r.event.amount.toNat 19990000000000 && decide (r.event.token = Toy.star)) ?_
  simp only [Bool.and_eq_true, decide_eq_true_eq] at hP hQ
  refine ⟨Toy.env, Toy.L, Toy.get Toy.tpW5, Toy.get Toy.tpW6, Toy.get Toy.tpW7, Toy.everCtx, Toy.depCtxE, Toy.wd5, Toy.tpDep 4, Toy.starMint, r, x,
    Toy.distinct, Toy.reach_tpW5, rfl, rfl, rfl, rfl, hr,
    Nat.eq_of_beq_eq_true hP.1, Nat.eq_of_beq_eq_true ?_, Toy.get_tp (a := Toy.tpW5) (c := Toy.everCtx) (i := .withdrawMultiTokenEver) ?_,
    Nat.le_of_ble_eq_true ?_, Nat.le_of_ble_eq_true ?_,
    Toy.get_tp (a := Toy.tpW6) (c := Toy.depCtxE) (i := .depositMultiTokenEver 4 20000 Toy.home 7 0 []) ?_, hx, by rw [hP.2, hQ.2],
    Nat.eq_of_beq_eq_true hQ.1⟩
  checked

end Verif.Props
