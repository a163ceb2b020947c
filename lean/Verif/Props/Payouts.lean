import Verif.Spec.ToyTactic
import Verif.Lemmas.WPay
import Verif.Lemmas.Daily
import Verif.Lemmas.Day
import Verif.Lemmas.TPBack
import Verif.Props.Arith
import Verif.Spec.ToyReachTP
import Verif.Spec.ToyReachW
/-!
# Payouts of withdrawals
-/
set_option maxRecDepth 100000
namespace Verif.Props
open Verif TP

variable {env : Env} {ctx : Ctx} {cpi : Pubkey → World → Except Err World} {w w' : World}

/-! ## C16: no payout without a quorum -/

/-- C16 (Solana tokens): unless a withdrawal instruction leaves every account as it was, the withdrawal it names is genuine (it belongs to
the program and is at the address derived from its content), and at least the required number of its slots confirm it. -/
theorem C16_quorum_sol (h : run env ctx cpi .withdrawMultiTokenSol w = .ok w') (hc : ¬ SameAccounts w w') :
    ∃ kw r, ctx.accounts[0]? = some kw ∧ (w.acc kw).owner = ctx.program ∧ WithdrawalOf wSolEventC env ctx w kw r ∧ Confirmed r := by
  obtain ⟨kw, kv, rc, kt, km, r, t, v, hkw, -, -, -, -, hr, -, -, -, -, -, ⟨hs, -⟩ | ⟨hq, fee, net, st, t', -, -, hrec, hor⟩⟩ := withdrawSol_fx h
  · exact (hc hs).elim
  · refine ⟨kw, r, hkw, hrec.genuine (withStatus_ne ?_), hr, hq⟩
    rcases hor with ⟨hn, -, ⟨-, rfl, -⟩ | ⟨-, ho⟩⟩ | ⟨hn, -, hp, ho⟩
    · rw [hn]; simp
    · rw [hn]; exact ho.ne.1
    · rw [hn]; exact hp

/-- C16 (Everscale tokens): if a withdrawal instruction mints tokens or changes an account that held anything before, then the withdrawal it
names is genuine, and at least the required number of its slots confirm it. -/
theorem C16_quorum_ever (h : run env ctx cpi .withdrawMultiTokenEver w = .ok w')
    (hc : (∃ m, supply w' m ≠ supply w m) ∨ ∃ k, (w.acc k).data.len ≠ 0 ∧ w'.acc k ≠ w.acc k) :
    ∃ kw r, ctx.accounts[0]? = some kw ∧ (w.acc kw).owner = ctx.program ∧ WithdrawalOf wEverEventC env ctx w kw r ∧ Confirmed r := by
  have not : ¬ ((∀ m, supply w' m = supply w m) ∧ KeepsFull w w') := by
    rintro ⟨h1, h2⟩
    rcases hc with ⟨m, hm⟩ | ⟨k, hk, hn⟩
    · exact hm (h1 m)
    · exact hn (h2 k hk)
  obtain ⟨kw, mi, rc, kt, r, hkw, -, -, -, hr, ⟨rfl, -⟩ | ⟨w1, hw1, hk1, -, t, m, -, ⟨rfl, -⟩ | ⟨hq, hn, amount, fee, net, st, t', -, -, -, hrec, -, hor⟩⟩⟩ := withdrawEver_fx h
  · exact (not ⟨fun _ => rfl, fun _ _ => rfl⟩).elim
  · rcases hw1 with ⟨rfl, -⟩ | ⟨-, hd⟩
    · exact (not ⟨fun _ => rfl, fun _ _ => rfl⟩).elim
    · exact (not ⟨hd.supply, hd.full⟩).elim
  · refine ⟨kw, r, hkw, ?_, hr, hq⟩
    rw [← hk1]
    refine hrec.genuine (withStatus_ne ?_)
    rw [hn]
    rcases hor with ⟨-, rfl, -⟩ | ⟨-, rfl, -⟩
    · simp
    · exact paid_ne.2.1

/-! ## C19: amounts -/

theorem low64 (a : U128) : (a.setWidth 64).toNat = a.toNat % 2 ^ 64 := BitVec.toNat_setWidth _ _

theorem Moves_zero {src dst : Pubkey} (h : Moves src dst 0 w w') : NoTokens w w' := fun k => by
  obtain ⟨h1, h2⟩ := h.2 k
  refine ⟨?_, h2⟩
  revert h1
  split <;> split <;> omega

/-- C19 (withdrawing a Solana token): if any token balance changes, then the vault of the token of the event loses exactly what the
recipient of the event (a token account of theirs or, with a payload, their proxy account) gains: the amount of the event less the fee. No
other balance changes. The fee is credited to the token if the withdrawal was new (for a pending withdrawal it was credited before).
The amount is the low half of the 128 bit amount of the event: see `C43_truncated`. -/
theorem C19_withdraw_sol (h : run env ctx cpi .withdrawMultiTokenSol w = .ok w') (hc : ¬ NoTokens w w') :
    ∃ kw kv rc kt km r t t' v fee net, ctx.accounts[0]? = some kw ∧ ctx.accounts[1]? = some kv ∧ ctx.accounts[2]? = some rc ∧
      ctx.accounts[3]? = some kt ∧ WithdrawalOf wSolEventC env ctx w kw r ∧ (r.md.status = .new ∨ r.md.status = .pending) ∧
      TokenOf env ctx w kt t ∧ t.kind = .solana r.event.mint v ∧ IsAddr env ctx.program (vaultSeeds r.event.mint) kv ∧
      feeSpec t.feeWithdrawalInfo.multiplier.toNat t.feeWithdrawalInfo.divisor.toNat (r.event.amount.toNat % 2 ^ 64) = some fee ∧
      net + fee = r.event.amount.toNat % 2 ^ 64 ∧
      Receiver env ctx w r.event.payload km r.event.recipient rc ∧ (∃ m, IsToken env w kv m ∧ IsToken env w rc m) ∧ Moves kv rc net w w' ∧
      TokenOf env ctx w' kt t' ∧ t'.feeSupply.toNat = t.feeSupply.toNat + (if r.md.status = .new then fee else 0) ∧
      WithdrawalOf wSolEventC env ctx w' kw (r.withStatus (doneStatus r.event.payload)) := by
  obtain ⟨kw, kv, rc, kt, km, r, t, v, hkw, hkv, hrc, hkt, -, hr, ht, hk, -, hv, -, ⟨hs, -⟩ | ⟨hq, fee, net, st, t', hfee, hnet, hrec, hor⟩⟩ :=
    withdrawSol_fx h
  · exact (hc fun k => by unfold bal supply; rw [hs k]; exact ⟨rfl, rfl⟩).elim
  rw [C20_fee_value, low64] at hfee
  rw [low64] at hnet
  have key : ∀ {b : Prop}, SolOut env ctx kv rc km r net.toNat w w' st → (st = doneStatus r.event.payload →
      Receiver env ctx w r.event.payload km r.event.recipient rc → (∃ m, IsToken env w kv m ∧ IsToken env w rc m) → Moves kv rc net.toNat w w' → b) → b := by
    intro b ho hb
    cases ho with
    | short _ _ h => exact (hc h).elim
    | paid h1 h2 h3 => exact hb rfl h1 h3 h2
  have tok : TokenOf env ctx w kt t → t'.kind = t.kind → t'.isInitialized = t.isInitialized → TokenOf env ctx w' kt t' := by
    rintro ⟨h1, h2, h3⟩ e1 e2
    exact ⟨by rw [e1]; exact h1, hrec.token, by rw [e2]; exact h3⟩
  have wd : st = doneStatus r.event.payload → WithdrawalOf wSolEventC env ctx w' kw (r.withStatus (doneStatus r.event.payload)) := by
    rintro rfl
    exact ⟨hr.1, hrec.record, hr.2.2⟩
  rcases hor with ⟨hn, hbk, ⟨-, -, hno⟩ | ⟨-, ho⟩⟩ | ⟨hn, rfl, -, ho⟩
  · exact (hc hno).elim
  · refine key ho fun hst h1 h2 h3 => ?_
    have e1 : t'.kind = t.kind := by rw [hbk.rest]
    have e2 : t'.isInitialized = t.isInitialized := by rw [hbk.rest]
    exact ⟨kw, kv, rc, kt, km, r, t, t', v, fee.toNat, net.toNat, hkw, hkv, hrc, hkt, hr, .inl hn, ht, hk, hv, hfee, hnet, h1, h2, h3,
      tok ht e1 e2, by rw [if_pos hn, hbk.fee], wd hst⟩
  · refine key ho fun hst h1 h2 h3 => ?_
    exact ⟨kw, kv, rc, kt, km, r, t', t', v, fee.toNat, net.toNat, hkw, hkv, hrc, hkt, hr, .inr hn, ht, hk, hv, hfee, hnet, h1, h2, h3,
      tok ht rfl rfl, by rw [if_neg (by rw [hn]; simp)]; rfl, wd hst⟩

/-- C19 (approving a withdrawal of a Solana token): as for withdrawing; the fee was credited when the withdrawal started to wait. -/
theorem C19_approve_sol (h : run env ctx cpi .approveWithdrawSol w = .ok w') (hc : ¬ NoTokens w w') :
    ∃ kw kv rc kt r t t' v fee net, ctx.accounts[2]? = some kw ∧ ctx.accounts[1]? = some kv ∧ ctx.accounts[3]? = some rc ∧
      ctx.accounts[4]? = some kt ∧ WithdrawalOf wSolEventC env ctx w kw r ∧ r.md.status = .waitingForApprove ∧
      TokenOf env ctx w kt t ∧ t.kind = .solana r.event.mint v ∧ IsAddr env ctx.program (vaultSeeds r.event.mint) kv ∧
      feeSpec t.feeWithdrawalInfo.multiplier.toNat t.feeWithdrawalInfo.divisor.toNat (r.event.amount.toNat % 2 ^ 64) = some fee ∧
      net + fee = r.event.amount.toNat % 2 ^ 64 ∧
      Receiver env ctx w r.event.payload r.event.mint r.event.recipient rc ∧ (∃ m, IsToken env w kv m ∧ IsToken env w rc m) ∧
      Moves kv rc net w w' ∧ TokenOf env ctx w' kt t' ∧ t'.feeSupply.toNat = t.feeSupply.toNat ∧
      WithdrawalOf wSolEventC env ctx w' kw (r.withStatus (doneStatus r.event.payload)) := by
  obtain ⟨-, kw, kv, rc, kt, r, t, v, hkw, hkv, hrc, hkt, hr, ht, hk, -, hv, -, hst, fee, net, st, t', hfee, hnet, hrec, hrel, ho⟩ := approveSol_fx h
  rw [C20_fee_value, low64] at hfee
  rw [low64] at hnet
  have e : t'.kind = t.kind ∧ t'.isInitialized = t.isInitialized ∧ t'.feeSupply = t.feeSupply := by
    unfold Released at hrel
    split at hrel
    · rw [hrel.2]; exact ⟨rfl, rfl, rfl⟩
    · rw [hrel]; exact ⟨rfl, rfl, rfl⟩
  cases ho with
  | short _ _ hno => exact (hc hno).elim
  | paid h1 h2 h3 =>
    exact ⟨kw, kv, rc, kt, r, t, t', v, fee.toNat, net.toNat, hkw, hkv, hrc, hkt, hr, hst, ht, hk, hv, hfee, hnet, h1, h3, h2,
      ⟨by rw [e.1]; exact ht.1, hrec.token, by rw [e.2.1]; exact ht.2.2⟩, by rw [e.2.2], hr.1, hrec.record, hr.2.2⟩

/-- C19 (withdrawing an Everscale token): if any supply changes, then the supply of the mint of the token of the event grows by exactly
what the recipient of the event gains: the amount of the event, converted to the decimals of the mint, less the fee, which is credited to
the token. No other balance or supply changes, save that creating the token (`w1`) may come first. -/
theorem C19_withdraw_ever (h : run env ctx cpi .withdrawMultiTokenEver w = .ok w') (hc : ∃ k, supply w' k ≠ supply w k) :
    ∃ kw mint rc kt r w1 t t' m amount fee net, ctx.accounts[0]? = some kw ∧ ctx.accounts[1]? = some mint ∧ ctx.accounts[2]? = some rc ∧
      ctx.accounts[3]? = some kt ∧ WithdrawalOf wEverEventC env ctx w kw r ∧ r.md.status = .new ∧
      (w1 = w ∨ ((w.acc kt).lamports = 0 ∧ Deployed env ctx r.event mint kt w w1)) ∧ EverTokenAt env ctx w1 r.event mint kt t m ∧
      getWithdrawalAmount r.event.amount r.event.decimals m.decimals = .ok amount ∧
      feeSpec t.feeWithdrawalInfo.multiplier.toNat t.feeWithdrawalInfo.divisor.toNat amount.toNat = some fee ∧ net + fee = amount.toNat ∧
      Receiver env ctx w1 r.event.payload mint r.event.recipient rc ∧ IsToken env w1 rc mint ∧ Mints mint rc net w1 w' ∧
      TokenOf env ctx w' kt t' ∧ t'.feeSupply.toNat = t.feeSupply.toNat + fee ∧
      WithdrawalOf wEverEventC env ctx w' kw (r.withStatus (doneStatus r.event.payload)) := by
  obtain ⟨k, hk⟩ := hc
  obtain ⟨kw, mi, rc, kt, r, hkw, hmi, hrc, hkt, hr, ⟨rfl, -⟩ | ⟨w1, hw1, hk1, -, t, m, het, hor⟩⟩ := withdrawEver_fx h
  · exact (hk rfl).elim
  have e1 : supply w1 k = supply w k := by
    rcases hw1 with ⟨rfl, -⟩ | ⟨-, hd⟩
    · rfl
    · exact hd.supply k
  rcases hor with ⟨rfl, -⟩ | ⟨hq, hn, amount, fee, net, st, t', hamt, hfee, hnet, hrec, hbk, ⟨-, -, hno⟩ | ⟨-, rfl, ho⟩⟩
  · exact (hk e1).elim
  · exact (hk ((hno k).2.trans e1)).elim
  · rw [C20_fee_value] at hfee
    have e1 : t'.kind = t.kind := by rw [hbk.rest]
    have e2 : t'.isInitialized = t.isInitialized := by rw [hbk.rest]
    refine ⟨kw, mi, rc, kt, r, w1, t, t', m, amount, fee.toNat, net.toNat, hkw, hmi, hrc, hkt, hr, hn, ?_, het, hamt, hfee, hnet, ho.1, ho.2.2, ho.2.1,
      ⟨by rw [e1]; exact het.1.1, hrec.token, by rw [e2]; exact het.1.2.2⟩, hbk.fee, hr.1, hrec.record, hr.2.2⟩
    rcases hw1 with ⟨rfl, -⟩ | h
    · exact .inl rfl
    · exact .inr h

/-- C19 (approving a withdrawal of an Everscale token): every approval that succeeds pays; the fee was credited before. -/
theorem C19_approve_ever (h : run env ctx cpi .approveWithdrawEver w = .ok w') :
    ∃ kw mint rc kt r t t' m amount fee net, ctx.accounts[2]? = some kw ∧ ctx.accounts[1]? = some mint ∧ ctx.accounts[3]? = some rc ∧
      ctx.accounts[4]? = some kt ∧ WithdrawalOf wEverEventC env ctx w kw r ∧ r.md.status = .waitingForApprove ∧
      EverTokenAt env ctx w r.event mint kt t m ∧
      getWithdrawalAmount r.event.amount r.event.decimals m.decimals = .ok amount ∧
      feeSpec t.feeWithdrawalInfo.multiplier.toNat t.feeWithdrawalInfo.divisor.toNat amount.toNat = some fee ∧ net + fee = amount.toNat ∧
      Receiver env ctx w r.event.payload mint r.event.recipient rc ∧ IsToken env w rc mint ∧ Mints mint rc net w w' ∧
      TokenOf env ctx w' kt t' ∧ t'.feeSupply.toNat = t.feeSupply.toNat ∧
      WithdrawalOf wEverEventC env ctx w' kw (r.withStatus (doneStatus r.event.payload)) := by
  obtain ⟨-, kw, mint, rc, kt, r, t, m, hkw, hmi, hrc, hkt, hr, -, het, hst, amount, fee, net, t', hamt, hfee, hnet, hrec, hrel, ho⟩ := approveEver_fx h
  rw [C20_fee_value] at hfee
  have e : t'.kind = t.kind ∧ t'.isInitialized = t.isInitialized ∧ t'.feeSupply = t.feeSupply := by
    unfold Released at hrel
    split at hrel
    · rw [hrel.2]; exact ⟨rfl, rfl, rfl⟩
    · rw [hrel]; exact ⟨rfl, rfl, rfl⟩
  exact ⟨kw, mint, rc, kt, r, t, t', m, amount, fee.toNat, net.toNat, hkw, hmi, hrc, hkt, hr, hst, het, hamt, hfee, hnet, ho.1, ho.2.2, ho.2.1,
      ⟨by rw [e.1]; exact het.1.1, hrec.token, by rw [e.2.1]; exact het.1.2.2⟩, by rw [e.2.2], hr.1, hrec.record, hr.2.2⟩

/-! ## C22: limits -/

/-- C22 (Solana tokens): the first payout attempt for a confirmed new withdrawal. Within the limits the net amount leaves the vault, or the
withdrawal becomes pending if the vault holds less; beyond the limits no token moves and the withdrawal waits for approval. In every case
the net amount counts towards the limit of the day. -/
theorem C22_limits_sol (h : run env ctx cpi .withdrawMultiTokenSol w = .ok w') {kw kt kv rc : Pubkey} {r : Withdrawal WSolEvent}
    {t : TokenSettings} (h0 : ctx.accounts[0]? = some kw) (h1 : ctx.accounts[1]? = some kv) (h2 : ctx.accounts[2]? = some rc)
    (h3 : ctx.accounts[3]? = some kt) (hr : WithdrawalOf wSolEventC env ctx w kw r) (ht : TokenOf env ctx w kt t)
    (hq : Confirmed r) (hn : r.md.status = .new) :
    ∃ fee net st t', feeSpec t.feeWithdrawalInfo.multiplier.toNat t.feeWithdrawalInfo.divisor.toNat (r.event.amount.toNat % 2 ^ 64) = some fee ∧
      net + fee = r.event.amount.toNat % 2 ^ 64 ∧ WithdrawalOf wSolEventC env ctx w' kw (r.withStatus st) ∧ TokenOf env ctx w' kt t' ∧
      Booked (epochOf ctx.now) fee net t t' ∧
      ((Within t (epochOf ctx.now) net ∧ net ≤ bal w kv ∧ Moves kv rc net w w' ∧ st = doneStatus r.event.payload) ∨
       (Within t (epochOf ctx.now) net ∧ bal w kv < net ∧ NoTokens w w' ∧ st = .pending) ∨
       (¬ Within t (epochOf ctx.now) net ∧ NoTokens w w' ∧ st = .waitingForApprove)) := by
  obtain ⟨kw', kv', rc', kt', km, r', t0, v, hkw, hkv, hrc, hkt, -, hr', ht', hk, -, -, -, hor⟩ := withdrawSol_fx h
  cases h0.symm.trans hkw
  cases h1.symm.trans hkv
  cases h2.symm.trans hrc
  cases h3.symm.trans hkt
  have := hr.unique hr'
  subst this
  have := ht.2.1.unique ht'.2.1
  subst this
  rcases hor with ⟨-, hne, -⟩ | ⟨-, fee, net, st, t', hfee, hnet, hrec, hor⟩
  · exact (hne ⟨hq, hn⟩).elim
  rw [C20_fee_value, low64] at hfee
  rw [low64] at hnet
  rcases hor with ⟨-, hbk, hor⟩ | ⟨hp, -⟩
  · have e1 : t'.kind = t.kind := by rw [hbk.rest]
    have e2 : t'.isInitialized = t.isInitialized := by rw [hbk.rest]
    refine ⟨fee.toNat, net.toNat, st, t', hfee, hnet, ⟨hr.1, hrec.record, hr.2.2⟩,
      ⟨by rw [e1]; exact ht.1, hrec.token, by rw [e2]; exact ht.2.2⟩, hbk, ?_⟩
    rcases hor with ⟨hw, rfl, hno⟩ | ⟨hw, ho⟩
    · exact .inr (.inr ⟨hw, hno, rfl⟩)
    · cases ho with
      | short _ hb hno => exact .inr (.inl ⟨hw, hb, hno, rfl⟩)
      | paid _ hm _ => exact .inl ⟨hw, hm.1, hm, rfl⟩
  · rw [hn] at hp; cases hp

/-- C22 (Everscale tokens): the first payout attempt for a confirmed new withdrawal of a token that exists. -/
theorem C22_limits_ever (h : run env ctx cpi .withdrawMultiTokenEver w = .ok w') {kw kt mint rc : Pubkey} {r : Withdrawal WEverEvent}
    {t : TokenSettings} (h0 : ctx.accounts[0]? = some kw) (h1 : ctx.accounts[1]? = some mint) (h2 : ctx.accounts[2]? = some rc)
    (h3 : ctx.accounts[3]? = some kt) (hr : WithdrawalOf wEverEventC env ctx w kw r) (ht : TokenOf env ctx w kt t)
    (hl : Live w kt) (hq : Confirmed r) (hn : r.md.status = .new) :
    ∃ m amount fee net st t', (w.acc mint).data = .mint m ∧ getWithdrawalAmount r.event.amount r.event.decimals m.decimals = .ok amount ∧
      feeSpec t.feeWithdrawalInfo.multiplier.toNat t.feeWithdrawalInfo.divisor.toNat amount.toNat = some fee ∧
      net + fee = amount.toNat ∧ WithdrawalOf wEverEventC env ctx w' kw (r.withStatus st) ∧ TokenOf env ctx w' kt t' ∧
      Booked (epochOf ctx.now) fee net t t' ∧
      ((Within t (epochOf ctx.now) net ∧ Mints mint rc net w w' ∧ st = doneStatus r.event.payload) ∨
       (¬ Within t (epochOf ctx.now) net ∧ NoTokens w w' ∧ st = .waitingForApprove)) := by
  obtain ⟨kw', mint', rc', kt', r', hkw, hmi, hrc, hkt, hr', hor⟩ := withdrawEver_fx h
  cases h0.symm.trans hkw
  cases h1.symm.trans hmi
  cases h2.symm.trans hrc
  cases h3.symm.trans hkt
  have := hr.unique hr'
  subst this
  unfold Live at hl
  rcases hor with ⟨-, h0⟩ | ⟨w1, hw1, hk1, -, t0, m, het, hor⟩
  · omega
  rcases hw1 with ⟨rfl, -⟩ | ⟨h0, -⟩
  · have := ht.2.1.unique het.1.2.1
    subst this
    rcases hor with ⟨-, hne⟩ | ⟨-, -, amount, fee, net, st, t', hamt, hfee, hnet, hrec, hbk, hor⟩
    · exact (hne ⟨hq, hn⟩).elim
    rw [C20_fee_value] at hfee
    have e1 : t'.kind = t.kind := by rw [hbk.rest]
    have e2 : t'.isInitialized = t.isInitialized := by rw [hbk.rest]
    refine ⟨m, amount, fee.toNat, net.toNat, st, t', het.2.2.2.2, hamt, hfee, hnet, ⟨hr.1, hrec.record, hr.2.2⟩,
      ⟨by rw [e1]; exact ht.1, hrec.token, by rw [e2]; exact ht.2.2⟩, hbk, ?_⟩
    rcases hor with ⟨hw, rfl, hno⟩ | ⟨hw, rfl, ho⟩
    · exact .inr ⟨hw, hno, rfl⟩
    · exact .inl ⟨hw, ho.2.1, rfl⟩
  · omega

/-- C22: the number under which the payouts of a day are counted is that of the day, of 24 hours, on which the instruction is executed. -/
theorem C22_day {d : Nat} {now : I64} (h : OnDay d now) : (epochOf now).toNat = d := OnDay.epoch h

/-- C22 (days without approvals): during one day the payouts of a token without approval stay within its daily limit `lim`, if no limit above `lim` is
in force at any time and the withdrawal manager approves no withdrawal of this token on that day. Days with approvals, which take
the approved amount off the count of the day, are in `C22_daily`. -/
theorem C22_daily_unapproved {L : Pubkey → Prop} (hd : env.Distinct) {top : Bool} {tr : List Ev} {kt : Pubkey} {t : TokenSettings} {day : Nat}
    {lim : Nat} (h : Run env L top w tr w') (ht : TokenAt env w kt t) (hl : Live w kt)
    (hday : ∀ e ∈ tr, ∀ ctx i, e.act = .tp ctx i → OnDay day ctx.now)
    (hlim : ∀ e ∈ tr, ∀ t, TokenAt env e.pre kt t → t.withdrawalDailyLimit.toNat ≤ lim)
    (hno : ∀ e ∈ tr, ∀ ctx i, e.act = .tp ctx i → i = .approveWithdrawSol ∨ i = .approveWithdrawEver → ctx.accounts[4]? ≠ some kt) :
    (tr.map (autoPaid kt)).sum ≤ lim :=
  auto_run hd h ht hl (fun e he ctx i ha => OnDay.eq (hday e he ctx i ha)) hlim hno

/-! ## C33: creating a token of Everscale -/

/-- C33 (partial): settings of a token of Everscale appear only by a withdrawal instruction for a withdrawal record of that token, with
the name, symbol and decimals of its event. Missing: the record need not be confirmed, see `C33_without_votes`. -/
theorem C33_created_partial {L : Pubkey → Prop} (hd : env.Distinct) {top : Bool} {tr : List Ev} {k mint : Pubkey} {token : EverAddress} {d : U8}
    {t : TokenSettings} (h : Run env L top w tr w') {e : Ev} (he : e ∈ tr) (ht : TokenAt env e.post k t) (hk : t.kind = .ever mint token d)
    (hn : ∀ t0, ¬ TokenAt env e.pre k t0) :
    ∃ ctx kw r, e.act = .tp ctx .withdrawMultiTokenEver ∧ run env ctx noCpi .withdrawMultiTokenEver e.pre = .ok e.post ∧
      WithdrawalOf wEverEventC env ctx e.pre kw r ∧ r.event.token = token ∧ r.event.decimals = d ∧
      r.event.name = t.name ∧ r.event.symbol = t.symbol ∧ IsAddr env env.tpId (tokenSettingsEverSeeds env token) k ∧
      IsAddr env env.tpId (mintSeeds env token) mint := by
  rcases token_back hd (h.evs hd e he) ht with h0 | ⟨ctx, i, hact, hp, hr, ⟨t0, h0, -⟩ | hf⟩
  · exact (hn _ h0).elim
  · exact (hn _ h0).elim
  · cases hf with
    | sol _ _ _ _ _ _ _ _ _ _ _ _ _ _ _ _ hc => rw [hc.kind] at hk; cases hk
    | ever kw r mint' n mn hr' ha hm hc =>
      rw [hc.kind] at hk
      injection hk with h1 h2 h3
      subst h1 h2 h3
      exact ⟨ctx, kw, r, hact, hr, withdrawalOf hr', rfl, rfl, hc.name.symm, hc.symbol.symm, ⟨n, by rw [← hp]; exact ha⟩, ⟨mn, by rw [← hp]; exact hm⟩⟩

/-- C33 is false: on a reachable chain the token of a withdrawal for which no relay voted is created, with the name and the decimals the
author of the request chose. -/
theorem C33_without_votes : ∃ (env : Env) (L : Pubkey → Prop) (w w' : World) (ctx : Ctx) (kw kt : Pubkey) (r : Withdrawal WEverEvent)
    (t : TokenSettings), env.Distinct ∧ Reach env L w ∧ ctx.program = env.tpId ∧ run env ctx noCpi .withdrawMultiTokenEver w = .ok w' ∧
      ctx.accounts[0]? = some kw ∧ Holds (withdrawalC wEverEventC) recLen (w.acc kw) r ∧ r.signers.count .confirm = 0 ∧ 0 < r.requiredVotes.toNat ∧
      (∀ t0, ¬ TokenAt env w kt t0) ∧ TokenAt env w' kt t ∧ t.name = r.event.name := by
  obtain ⟨r, ho, -, hr, hP⟩ := Toy.tfind (c := withdrawalC wEverEventC) (w := Toy.get Toy.tpReqE) (k := Toy.wd5)
    (P := fun r => Nat.beq (r.signers.count .confirm) 0 && (Nat.ble 1 r.requiredVotes.toNat && r.event.name == Toy.starName)) (by decide +kernel)
  simp only [Bool.and_eq_true] at hP
  obtain ⟨t, ht, -, hn⟩ := Toy.tfind_token (w := Toy.get Toy.tpDeployed) (k := Toy.tpStar) (P := fun t => t.name == Toy.starName) (by decide +kernel)
  refine ⟨Toy.env, Toy.L, Toy.get Toy.tpReqE, Toy.get Toy.tpDeployed, Toy.everCtx, Toy.wd5, Toy.tpStar, r, t, Toy.distinct, Toy.reach_tpReqE, rfl,
    Toy.get_tp (a := Toy.tpReqE) (by decide +kernel), rfl, hr, Nat.eq_of_beq_eq_true hP.1, Nat.le_of_ble_eq_true hP.2.1, ?_, ht, ?_⟩
  · rintro t0 ⟨ho, -⟩
    have : Nat.beq ((Toy.get Toy.tpReqE).acc Toy.tpStar).owner.toNat Toy.env.tpId.toNat = false := by decide +kernel
    rw [ho, Nat.beq_refl] at this
    cases this
  · rw [eq_of_beq hn, eq_of_beq hP.2.2]

/-! ## C43: amounts beyond 64 bits -/

/-- C43 (partial): for events whose amount fits in 64 bits, fee and payout add up to the amount of the event. Missing: larger amounts
should fail, but are cut, see `C43_truncated`. -/
theorem C43_exact_partial (h : run env ctx cpi .withdrawMultiTokenSol w = .ok w') (hc : ¬ NoTokens w w') :
    ∃ kw kv rc kt r t fee net, ctx.accounts[0]? = some kw ∧ ctx.accounts[1]? = some kv ∧ ctx.accounts[2]? = some rc ∧
      ctx.accounts[3]? = some kt ∧ WithdrawalOf wSolEventC env ctx w kw r ∧ TokenOf env ctx w kt t ∧ Moves kv rc net w w' ∧
      (r.event.amount.toNat < 2 ^ 64 → net + fee = r.event.amount.toNat ∧
        feeSpec t.feeWithdrawalInfo.multiplier.toNat t.feeWithdrawalInfo.divisor.toNat r.event.amount.toNat = some fee) := by
  obtain ⟨kw, kv, rc, kt, km, r, t, t', v, fee, net, h0, h1, h2, h3, hr, -, ht, -, -, hf, hnet, -, -, hm, -⟩ := C19_withdraw_sol h hc
  refine ⟨kw, kv, rc, kt, r, t, fee, net, h0, h1, h2, h3, hr, ht, hm, fun hlt => ?_⟩
  rw [Nat.mod_eq_of_lt hlt] at hf hnet
  exact ⟨hnet, hf⟩

/-- C43 is false: on a reachable chain a confirmed withdrawal of 2^64 + 1000 pays 999 (1000 less the fee), and is processed. -/
theorem C43_truncated : ∃ (env : Env) (L : Pubkey → Prop) (w w' : World) (ctx : Ctx) (kw kv rc : Pubkey) (r : Withdrawal WSolEvent),
    env.Distinct ∧ Reach env L w ∧ ctx.program = env.tpId ∧ run env ctx noCpi .withdrawMultiTokenSol w = .ok w' ∧
      ctx.accounts[0]? = some kw ∧ ctx.accounts[1]? = some kv ∧ ctx.accounts[2]? = some rc ∧
      Holds (withdrawalC wSolEventC) recLen (w.acc kw) r ∧ r.event.amount.toNat = 2 ^ 64 + 1000 ∧ r.md.status = .new ∧
      bal w' rc = bal w rc + 999 ∧ bal w' kv + 999 = bal w kv ∧
      Holds (withdrawalC wSolEventC) recLen (w'.acc kw) (r.withStatus .processed) := by
  obtain ⟨r, ho, -, hr, hP⟩ := Toy.tfind (c := withdrawalC wSolEventC) (w := Toy.get Toy.tpH3) (k := Toy.wd7)
    (P := fun r => Nat.beq r.event.amount.toNat (2 ^ 64 + 1000) && (r.md.status == .new && r.event.payload == [])) ?_
  simp only [Bool.and_eq_true] at hP
  obtain hrun : run Toy.env (Toy.solCtx Toy.wd7 Toy.bobGold) noCpi .withdrawMultiTokenSol (Toy.get Toy.tpH3) = .ok (Toy.get Toy.tpPaidH) :=
    Toy.get_tp (a := Toy.tpH3) ?_
  obtain hb : Nat.beq (bal (Toy.get Toy.tpPaidH) Toy.bobGold) (bal (Toy.get Toy.tpH3) Toy.bobGold + 999) = true := ?_
  obtain hv : Nat.beq (bal (Toy.get Toy.tpPaidH) Toy.tpVault + 999) (bal (Toy.get Toy.tpH3) Toy.tpVault) = true := ?_
  have hne : ¬ NoTokens (Toy.get Toy.tpH3) (Toy.get Toy.tpPaidH) := by
    intro h
    have h1 := (h Toy.bobGold).1
    have h2 := Nat.eq_of_beq_eq_true hb
    omega
  obtain ⟨kw, kv, rc, kt, km, r', t, t', v, fee, net, h0, h1, h2, h3, hr', -, -, -, -, -, -, -, -, -, -, -, hw'⟩ := C19_withdraw_sol hrun hne
  cases h0
  have := hr.unique hr'.2.1
  subst this
  have := hw'.2.1
  rw [show doneStatus r.event.payload = .processed by unfold doneStatus; rw [if_pos (eq_of_beq hP.2.2)]] at this
  exact ⟨Toy.env, Toy.L, _, _, _, Toy.wd7, Toy.tpVault, Toy.bobGold, r, Toy.distinct, Toy.followed_tpH3.reach, rfl, hrun, rfl, rfl, rfl, hr,
    Nat.eq_of_beq_eq_true hP.1, eq_of_beq hP.2.1, Nat.eq_of_beq_eq_true hb, Nat.eq_of_beq_eq_true hv, this⟩
  checked

/-! ## The hypotheses are met -/

/-- A payout from the vault (C16, C19, C22, C43). -/
example : ∃ w', run Toy.env (Toy.solCtx Toy.wd1 Toy.bobGold) noCpi .withdrawMultiTokenSol (Toy.get Toy.tpVote3) = .ok w' ∧
    ¬ NoTokens (Toy.get Toy.tpVote3) w' ∧ ¬ SameAccounts (Toy.get Toy.tpVote3) w' := by
  have hn : ¬ NoTokens (Toy.get Toy.tpVote3) (Toy.get Toy.tpPaid) := by
    intro h
    have h1 := (h Toy.bobGold).1
    have h2 : Nat.beq (bal (Toy.get Toy.tpPaid) Toy.bobGold) (bal (Toy.get Toy.tpVote3) Toy.bobGold + 999) = true := by decide +kernel
    have := Nat.eq_of_beq_eq_true h2
    omega
  exact ⟨_, Toy.get_tp (a := Toy.tpVote3) (by decide +kernel), hn,
    fun h => hn fun k => by unfold bal supply; rw [show (Toy.get Toy.tpPaid).acc k = _ from h k]; exact ⟨rfl, rfl⟩⟩

/-- Minting (C16, C19). -/
example : ∃ w', run Toy.env Toy.everCtx noCpi .withdrawMultiTokenEver (Toy.get Toy.tpE3) = .ok w' ∧
    ∃ m, supply w' m ≠ supply (Toy.get Toy.tpE3) m := by
  refine ⟨_, Toy.get_tp (a := Toy.tpE3) (by decide +kernel), Toy.starMint, ?_⟩
  have h2 : Nat.beq (supply (Toy.get Toy.tpPaidE) Toy.starMint) (supply (Toy.get Toy.tpE3) Toy.starMint) = false := by decide +kernel
  intro h
  have h' : supply (Toy.get Toy.tpPaidE) Toy.starMint = supply (Toy.get Toy.tpE3) Toy.starMint := h
  rw [h', Nat.beq_refl] at h2
  cases h2

/-- An approval (C19). -/
example : ∃ w', run Toy.env Toy.approveCtx noCpi .approveWithdrawSol (Toy.get Toy.tpWaiting) = .ok w' ∧
    ¬ NoTokens (Toy.get Toy.tpWaiting) w' := by
  refine ⟨_, Toy.get_tp (a := Toy.tpWaiting) (by decide +kernel), ?_⟩
  intro h
  have h1 : bal (Toy.get Toy.tpApproved) Toy.bobGold = bal (Toy.get Toy.tpWaiting) Toy.bobGold := (h Toy.bobGold).1
  have h2 : Nat.beq (bal (Toy.get Toy.tpApproved) Toy.bobGold) (bal (Toy.get Toy.tpWaiting) Toy.bobGold + 999) = true := by decide +kernel
  have := Nat.eq_of_beq_eq_true h2
  omega

/-- Beyond the limit: the withdrawal waits (C22). -/
example : ∃ r, Holds (withdrawalC wSolEventC) recLen ((Toy.get Toy.tpWaiting).acc Toy.wd1) r ∧ r.md.status = .waitingForApprove := by
  obtain ⟨r, -, -, hr, hP⟩ := Toy.tfind (c := withdrawalC wSolEventC) (w := Toy.get Toy.tpWaiting) (k := Toy.wd1)
    (P := fun r => r.md.status == .waitingForApprove) (by decide +kernel)
  exact ⟨r, hr, eq_of_beq hP⟩

open Classical in
/-- A day of the toy chain on which 999 of gold are paid out (C22). -/
example : ∃ e : Ev, ∃ t, Run Toy.env Toy.L true (Toy.get Toy.tpVote3) [e] (Toy.get Toy.tpPaid) ∧ TokenAt Toy.env (Toy.get Toy.tpVote3) Toy.tpGold t ∧
    Live (Toy.get Toy.tpVote3) Toy.tpGold ∧ (∀ ctx i, e.act = .tp ctx i → OnDay 0 ctx.now) ∧
    (∀ ctx i, e.act = .tp ctx i → i = .approveWithdrawSol ∨ i = .approveWithdrawEver → ctx.accounts[4]? ≠ some Toy.tpGold) ∧
    autoPaid Toy.tpGold e = 999 := by
  obtain ⟨t, ht, hl, -⟩ := Toy.tfind_token (w := Toy.get Toy.tpVote3) (k := Toy.tpGold) (P := fun _ => true) (by decide +kernel)
  obtain ⟨r, -, -, hr, hP⟩ := Toy.tfind (c := withdrawalC wSolEventC) (w := Toy.get Toy.tpVote3) (k := Toy.wd1)
    (P := fun r => r.md.status == .new) (by decide +kernel)
  have hrun : run Toy.env (Toy.solCtx Toy.wd1 Toy.bobGold) noCpi .withdrawMultiTokenSol (Toy.get Toy.tpVote3) = .ok (Toy.get Toy.tpPaid) :=
    Toy.get_tp (a := Toy.tpVote3) (by decide +kernel)
  have hv : Nat.beq (bal (Toy.get Toy.tpVote3) Toy.tpVault - bal (Toy.get Toy.tpPaid) Toy.tpVault) 999 = true := by decide +kernel
  refine ⟨⟨.tp (Toy.solCtx Toy.wd1 Toy.bobGold) .withdrawMultiTokenSol, Toy.get Toy.tpVote3, Toy.get Toy.tpPaid⟩, t,
    Run.tp (tr := []) _ _ (.nil _ _) rfl (Toy.free (by decide +kernel)) hrun, ht, hl, ?_, ?_, ?_⟩
  · rintro ctx i h
    cases h
    exact ⟨by decide, by decide, by decide⟩
  · rintro ctx i h
    cases h
    rintro (h | h) <;> cases h
  · show (if some Toy.tpGold = some Toy.tpGold then _ else 0) = 999
    rw [if_pos rfl]
    show (if IsNew (Toy.get Toy.tpVote3) Toy.wd1 then _ else 0) = 999
    rw [if_pos ⟨r, hr, eq_of_beq hP⟩]
    exact Nat.eq_of_beq_eq_true hv

end Verif.Props
