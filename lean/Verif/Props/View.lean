import Verif.Spec.View
import Verif.Spec.RoundLoader
import Verif.Lemmas.TPInv
import Verif.Props.ClientJs
import Verif.Props.Deposits
import Verif.Spec.ToyTactic
/-!
# C70: the JavaScript packages show accounts as the programs read them
-/
set_option maxRecDepth 100000
namespace Verif.Props
open Verif TP

variable {env : Env} {ctx : Ctx} {cpi : Pubkey → World → Except Err World} {w w' : World} {k : Pubkey} {b : Bytes}

private theorem showNat_eq (n : Nat) : Js.showNat n = Js.decimal n := by
  induction n using Nat.strongRecOn with
  | ind n ih =>
    unfold Js.showNat Js.decimal
    split
    · rfl
    · rw [ih (n / 10) (by omega)]

private theorem shows_u64 (n : U64) : Js.ShowsU64 (Js.showNat n.toNat) n := by
  have := n.isLt
  unfold Js.ShowsU64
  rw [showNat_eq, C61_amount, if_pos (by omega), BitVec.ofNat_toNat]

private theorem shows_i64 (i : I64) : Js.ShowsI64 (Js.showI64 i) i := by
  unfold Js.ShowsI64 Js.showI64
  split
  · rename_i h
    refine .inr ⟨h, _, rfl, ?_⟩
    rw [showNat_eq, (decimal_digits _).1]
    congr 1
    omega
  · refine .inl ⟨by omega, ?_⟩
    rw [showNat_eq, (decimal_digits _).1]
    congr 1
    omega

private theorem shows_kind (t : TP.TokenKind) : Js.ShowsKind env (Js.tokenKind env t) t := by
  cases t
  · exact ⟨rfl, C48_address _, rfl⟩
  · exact ⟨rfl, rfl⟩

private theorem shown {α : Type} {c : Codec α} {len : Nat} {ini : α → Bool} {x : α} (hb : (w.acc k).data = .raw b) (h : Holds c len (w.acc k) x)
    (hi : ini x = true) : unpack c len ini (.raw b) = .ok x := by
  rw [← hb]
  exact unpack_holds.2 ⟨h, hi⟩

/-- C70: the settings of the token proxy are shown as they are. -/
theorem C70_settings {s : TP.Settings} (h : TP.SettingsAt env w k s) (hb : (w.acc k).data = .raw b) :
    Js.viewSettings b = .ok ⟨s.emergency, s.guardian, s.withdrawalManager, s.manager⟩ := by
  unfold Js.viewSettings
  rw [shown hb h.2.1 h.2.2.1]
  rfl

/-- C70: of the settings of a token everything is shown, numbers as text. -/
theorem C70_token {t : TP.TokenSettings} (h : TokenAt env w k t) (hb : (w.acc k).data = .raw b) :
    ∃ v, Js.viewToken env b = .ok v ∧ v.isInitialized = true ∧ v.accountKind = t.accountKind ∧ Js.ShowsKind env v.kind t.kind ∧
      Js.ShowsU64 v.depositLimit t.depositLimit ∧ Js.ShowsU64 v.withdrawalLimit t.withdrawalLimit ∧
      Js.ShowsU64 v.withdrawalDailyLimit t.withdrawalDailyLimit ∧ Js.ShowsU64 v.withdrawalDailyAmount t.withdrawalDailyAmount ∧
      Js.ShowsI64 v.withdrawalEpoch t.withdrawalEpoch ∧ v.emergency = t.emergency ∧ v.name = t.name ∧ v.symbol = t.symbol ∧
      v.feeSupply = t.feeSupply ∧ v.feeDepositInfo = t.feeDepositInfo ∧ v.feeWithdrawalInfo = t.feeWithdrawalInfo := by
  unfold Js.viewToken
  rw [shown hb h.2.1 h.2.2.1]
  exact ⟨_, rfl, h.2.2.1, rfl, shows_kind _, shows_u64 _, shows_u64 _, shows_u64 _, shows_u64 _, shows_i64 _, rfl, rfl, rfl, rfl, rfl, rfl⟩

/-- C70: withdrawals are shown as the payout reads them. -/
theorem C70_withdrawal_ever {r : Withdrawal WEverEvent} (h : WithdrawalOf wEverEventC env ctx w k r) (hb : (w.acc k).data = .raw b) :
    Js.viewWithdrawalEver b = .ok r := shown hb h.2.1 h.2.2.1

theorem C70_withdrawal_sol {r : Withdrawal WSolEvent} (h : WithdrawalOf wSolEventC env ctx w k r) (hb : (w.acc k).data = .raw b) :
    Js.viewWithdrawalSol b = .ok r := shown hb h.2.1 h.2.2.1

private theorem deposit_shown {E : Type} {ec : Codec E} {cr : Pubkey} {sd : U128} {e : E} (h : DepositMade ec env ctx w w' k cr sd e) :
    ∃ b v, (w'.acc k).data = .raw b ∧ Js.viewDeposit ec b = .ok v ∧ v.event = e ∧ Js.parseU128 v.seed = some sd := by
  obtain ⟨n, len, mlen, hr⟩ := h.record
  obtain ⟨b, r, hb, hl, hd⟩ := id hr
  refine ⟨b, ⟨true, .deposit n, len, e, Js.showNat sd.toNat⟩, hb, ?_, rfl, ?_⟩
  · unfold Js.viewDeposit
    rw [shown hb hr rfl]
    rfl
  · show Js.parseU128 (Js.showNat sd.toNat) = _
    rw [showNat_eq, C61_amount, if_pos sd.isLt, BitVec.ofNat_toNat, BitVec.setWidth_eq]

/-- C70: after a deposit of an Everscale token the package shows its event, with the recipient, the value, the Evers and the payload that were
given, and the seed that was given. -/
theorem C70_deposit_ever {sd : U128} {a v : U64} {rc : EverAddress} {ev : Pubkey} {py : Bytes}
    (h : run env ctx cpi (.depositMultiTokenEver sd a rc v ev py) w = .ok w') :
    ∃ dp b s, ctx.accounts[3]? = some dp ∧ (w'.acc dp).data = .raw b ∧ Js.viewDeposit depositEverEventC b = .ok s ∧ Js.parseU128 s.seed = some sd ∧
      s.event.recipient = rc ∧ s.event.value = v ∧ s.event.expectedEvers = ev ∧ s.event.payload = py := by
  obtain ⟨cr, dp, mi, kt, t, mk, token, d, m, fee, net, credit, -, a3, -, -, -, -, -, -, -, -, -, hd, -⟩ := C31_record_ever h
  obtain ⟨b, s, hb, hs, he, hsd⟩ := deposit_shown hd
  exact ⟨dp, b, s, a3, hb, hs, hsd, by rw [he], by rw [he], by rw [he], by rw [he]⟩

/-- C70: after a deposit of a Solana token as well. -/
theorem C70_deposit_sol {sd : U128} {name symbol : Bytes} {a v : U64} {rc : EverAddress} {ev : Pubkey} {py : Bytes}
    (h : run env ctx cpi (.depositMultiTokenSol sd name symbol a rc v ev py) w = .ok w') :
    ∃ dp mi b s, ctx.accounts[4]? = some dp ∧ ctx.accounts[5]? = some mi ∧ (w'.acc dp).data = .raw b ∧ Js.viewDeposit depositSolEventC b = .ok s ∧
      Js.parseU128 s.seed = some sd ∧ s.event.baseToken = mi ∧ s.event.recipient = rc ∧ s.event.value = v ∧ s.event.expectedEvers = ev ∧
      s.event.payload = py := by
  obtain ⟨cr, dp, mi, kt, t', dec, fee, credit, -, a4, a5, -, -, -, -, -, -, hd, -⟩ := C31_record_sol h
  obtain ⟨b, s, hb, hs, he, hsd⟩ := deposit_shown hd
  exact ⟨dp, mi, b, s, a4, a5, hb, hs, hsd, by rw [he], by rw [he], by rw [he], by rw [he], by rw [he]⟩

/-- C70: the accounts of the round loader are shown as they are. -/
theorem C70_rl_settings {s : RL.Settings} (h : RL.SettingsAt env w k s) (hb : (w.acc k).data = .raw b) : Js.RL.viewSettings b = .ok s :=
  shown hb h.2.1 h.2.2

theorem C70_rl_round {r : RL.RelayRound} (h : RL.RoundAt env w k r) (hb : (w.acc k).data = .raw b) : Js.RL.viewRound b = .ok r :=
  shown hb h.2.1 h.2.2

theorem C70_rl_proposal {p : RL.Proposal} (h : RL.FinalAt env w k p) (hb : (w.acc k).data = .raw b) : Js.RL.viewProposal b = .ok p :=
  shown hb h.2.1 h.2.2

/-! ## The hypotheses are met, and what the view of the settings does not check -/

example : ∃ s b, TP.SettingsAt Toy.env (Toy.get Toy.tpDeposited) Toy.tpSettings s ∧ s.guardian = Toy.guardian ∧
    ((Toy.get Toy.tpDeposited).acc Toy.tpSettings).data = .raw b := by
  obtain ⟨s, hs, -, hP⟩ := Toy.tfind_settings (w := Toy.get Toy.tpDeposited) (k := Toy.tpSettings) (P := fun s => decide (s.guardian = Toy.guardian)) ?_
  obtain ⟨b, r, hb, -⟩ := id hs.2.1
  exact ⟨s, b, hs, of_decide_eq_true hP, hb⟩
  checked

example : ∃ t b, TokenAt Toy.env (Toy.get Toy.tpDeposited) Toy.tpGold t ∧ ((Toy.get Toy.tpDeposited).acc Toy.tpGold).data = .raw b := by
  obtain ⟨t, ht, -⟩ := Toy.tfind_token (w := Toy.get Toy.tpDeposited) (k := Toy.tpGold) (P := fun _ => true) ?_
  obtain ⟨b, r, hb, -⟩ := id ht.2.1
  exact ⟨t, b, ht, hb⟩
  checked

/-- the deposit of 50000 of gold with seed 1 -/
example : ∃ w', run Toy.env (Toy.depCtx 1) noCpi (.depositMultiTokenSol 1 (ascii "Gold") (ascii "GLD") 50000 Toy.home 7 0 []) (Toy.get Toy.tpInit) = .ok w' :=
  ⟨_, Toy.get_tp (a := Toy.tpInit) (by decide +kernel)⟩

example : ∃ s r p, RL.SettingsAt Toy.env (Toy.get Toy.rlFinalized) Toy.rlSettings s ∧ RL.RoundAt Toy.env (Toy.get Toy.rlFinalized) (Toy.rlRound 1) r ∧
    RL.FinalAt Toy.env (Toy.get Toy.rlFinalized) Toy.prop2 p := by
  obtain ⟨s, hs, -⟩ := Toy.find_settings (w := Toy.get Toy.rlFinalized) (k := Toy.rlSettings) (P := fun _ => true) ?_
  obtain ⟨r, hr, -⟩ := Toy.find_round (w := Toy.get Toy.rlFinalized) (k := Toy.rlRound 1) (P := fun _ => true) ?_
  obtain ⟨p, h1, h2, h3⟩ := Toy.find (c := RL.proposalC) (len := RL.proposalLen) (w := Toy.get Toy.rlFinalized) (k := Toy.prop2) (P := fun p => p.isInitialized) ?_
  exact ⟨s, r, p, hs, hr, h1, h2, h3⟩
  checked

example : ∃ r, WithdrawalOf wSolEventC Toy.env (Toy.tctx [] []) (Toy.get Toy.tpReq) Toy.wd1 r := by
  obtain ⟨r, -, -, h3, h4⟩ := Toy.tfind (c := withdrawalC wSolEventC) (w := Toy.get Toy.tpReq) (k := Toy.wd1)
    (P := fun r => r.isInitialized && (r.accountKind.intoProposal.isSome &&
      Nat.beq (Toy.addr (proposalSeeds r.roundNumber r.pda (Toy.env.hash (wSolEventC.enc r.event))) Toy.env.tpId).toNat Toy.wd1.toNat)) ?_
  simp only [Bool.and_eq_true] at h4
  obtain ⟨⟨n, pn⟩, hn⟩ := Option.isSome_iff_exists.1 h4.2.1
  refine ⟨r, ?_, h3, h4.1, n, pn, intoProposal_some.1 hn⟩
  have := Toy.isAddr (proposalSeeds r.roundNumber r.pda (Toy.env.hash (wSolEventC.enc r.event))) Toy.env.tpId
  rwa [BitVec.eq_of_toNat_eq (Nat.eq_of_beq_eq_true h4.2.2)] at this
  checked

/-- The kind of an account is not compared: from the multi vault, which has no guardian, the package shows settings of the bridge with the guardian
0. -/
theorem C70_any_kind : ∃ env L w k b v x n, Env.Distinct env ∧ Reach env L w ∧ Holds multiVaultC recLen (w.acc k) x ∧ x.accountKind = .multiVault n ∧
    (w.acc k).data = .raw b ∧ Js.viewSettings b = .ok v ∧ v.guardian = 0 ∧ ∀ s, ¬ TP.SettingsAt env w k s := by
  obtain ⟨s, -, -, hs, h1⟩ := Toy.tfind (c := settingsC) (w := Toy.get Toy.tpInit) (k := Toy.tpMulti)
    (P := fun s => s.isInitialized && Nat.beq s.guardian.toNat 0) ?_
  obtain ⟨x, -, -, hx, h2⟩ := Toy.tfind (c := multiVaultC) (w := Toy.get Toy.tpInit) (k := Toy.tpMulti)
    (P := fun s => match s.accountKind with
      | .multiVault _ => true
      | _ => false) ?_
  simp only [Bool.and_eq_true] at h1
  obtain ⟨b, r, hb, -⟩ := id hs
  split at h2
  rotate_left
  · cases h2
  rename_i n hn
  refine ⟨Toy.env, Toy.L, Toy.get Toy.tpInit, Toy.tpMulti, b, ⟨s.emergency, s.guardian, s.withdrawalManager, s.manager⟩, x, n, Toy.distinct,
    Toy.reach_tpInit, hx, hn, hb, ?_, BitVec.eq_of_toNat_eq (Nat.eq_of_beq_eq_true h1.2), fun s' h => ?_⟩
  · unfold Js.viewSettings
    rw [shown hb hs h1.1]
    rfl
  · obtain ⟨-, h, -, n', pn, hk⟩ := h
    have := ((head_settings h).unique (head_multiVault hx)).2
    rw [hk, hn] at this
    cases this
  checked

end Verif.Props
