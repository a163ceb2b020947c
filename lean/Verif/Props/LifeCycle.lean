import Verif.Spec.ToyTactic
import Verif.Lemmas.WLife
import Verif.Props.Payouts
import Verif.Spec.ToyMore
/-!
# The life of a withdrawal
-/
set_option maxRecDepth 100000
namespace Verif.Props
open Verif TP

variable {env : Env} {L : Pubkey → Prop} {ctx : Ctx} {cpi : Pubkey → World → Except Err World} {w w' : World} {k : Pubkey} {tr : List Ev}

/-! ## C17: the status graph -/

/-- C17: no step of a history changes the status of a withdrawal other than along the graph `Edge`; a withdrawal disappears only once it
is processed or cancelled, by closing (or by running out of lamports); and one that appears is new. -/
theorem C17_life (hd : env.Distinct) (h : History env L k tr w) (e : Ev) (he : e ∈ tr) :
    (∀ p md, WithdrawalAt env e.pre k p md →
      (∃ p' md', WithdrawalAt env e.post k p' md' ∧ (md'.status = md.status ∨ Edge md.status md'.status)) ∨
      (md.status.final = true ∧ Removes k e)) ∧
    (∀ p' md', WithdrawalAt env e.post k p' md' → (∃ p md, WithdrawalAt env e.pre k p md) ∨ md'.status = .new) := by
  obtain ⟨-, -, hv⟩ := (h.evs hd).2 e he
  refine ⟨fun p md h0 => ?_, fun p' md' h' => hv.prev h'⟩
  rcases hv.next hd h0 with ⟨p', md', h', hst, -⟩ | ⟨hf, hr, -⟩
  · exact .inl ⟨p', md', h', hst⟩
  · exact .inr ⟨hf, hr⟩

/-- The graph leaves processed and cancelled withdrawals alone. -/
theorem C17_final {a b : WStatus} (h : a.final = true) : ¬ Edge a b := by
  intro he
  cases he <;> cases h

/-! ## C18: a withdrawal is released at most once -/

/-- C18: between two steps that release funds on account of the withdrawal `k` (by withdrawing, approving, filling or cancelling it) its
account was removed. -/
theorem C18_once {t1 t2 t3 : List Ev} {e1 e2 : Ev} (hd : env.Distinct) (h : History env L k (t1 ++ e1 :: (t2 ++ e2 :: t3)) w)
    (h1 : Releases k e1) (h2 : Releases k e2) : ∃ e ∈ t2, Removes k e := by
  have hh : History env L k (t1 ++ e1 :: t2) e2.pre := by
    refine History.before (t2 := t3) (w := w) ?_
    rw [List.append_assoc, List.cons_append]
    exact h
  rcases hh.paid hd h1 with hx | ⟨p, md, hw, ho⟩
  · exact hx
  · have hmem : e2 ∈ t1 ++ e1 :: (t2 ++ e2 :: t3) := by simp
    obtain ⟨hi, hi', hv⟩ := (h.evs hd).2 e2 hmem
    obtain ⟨w0, -, hr⟩ := h.run
    obtain ⟨p', md', -, -, hw', ho', -⟩ := released_status hd (hr.evs hd e2 hmem) hv hi hi' h2
    obtain ⟨rfl, rfl⟩ := hw.unique hw'
    rw [ho] at ho'
    cases ho'

/-! ## C16 over histories -/

/-- C16, over histories: whenever funds are released on account of the withdrawal `k`, in whatever way, then before (or just then) the
record had, while new, the required number of confirmations. -/
theorem C16_released {t1 t2 : List Ev} {e : Ev} (hd : env.Distinct) (h : History env L k (t1 ++ e :: t2) w) (hr : Releases k e) :
    ∃ p md, WithdrawalAt env e.pre k p md ∧ ∃ e' ∈ t1 ++ [e], ∃ p0 md0, WithdrawalAt env e'.pre k p0 md0 ∧ md0.status = .new ∧
      p0.requiredVotes.toNat ≤ p0.signers.count .confirm ∧
      p0.event = p.event ∧ p0.roundNumber = p.roundNumber ∧ p0.pda = p.pda ∧ p0.requiredVotes = p.requiredVotes := by
  have hmem : e ∈ t1 ++ e :: t2 := by simp
  obtain ⟨hi, hi', hv⟩ := (h.evs hd).2 e hmem
  obtain ⟨w0, -, hrun⟩ := h.run
  obtain ⟨p, md, p', md', h0, -, h1, ho⟩ := released_status hd (hrun.evs hd e hmem) hv hi hi' hr
  refine ⟨p, md, h0, ?_⟩
  by_cases hn : md.status = .new
  · refine ⟨e, by simp, p, md, h0, hn, ?_, rfl, rfl, rfl, rfl⟩
    have hn' : md'.status ≠ .new := by intro hh; rw [hh] at ho; cases ho
    cases hv with
    | absent h h' => exact (h _ _ h0).elim
    | request ctx i p md hact hp hs hr h h' ha => exact (h _ _ h0).elim
    | keep p2 md2 h h' =>
      obtain ⟨rfl, rfl⟩ := h.unique h0
      obtain ⟨rfl, rfl⟩ := h'.unique h1
      exact (hn' hn).elim
    | change ctx i p2 md2 p3 md3 hact hp hs hr h h' hc =>
      obtain ⟨rfl, rfl⟩ := h.unique h0
      obtain ⟨rfl, rfl⟩ := h'.unique h1
      exact hc.quorum h0 hn hn'
    | payload ctx i p2 md2 sg hact hp hs hi hk h hb h' hg =>
      obtain ⟨rfl, rfl⟩ := h.unique h0
      rw [hn] at hb
      rcases hb with hb | hb <;> cases hb
    | close ctx p2 md2 hact hp hs hr h hf h' => exact (Dead.no hd h' h1).elim
    | purge p2 md2 hact h hf hl h' => exact (h' _ _ h1).elim
  · obtain ⟨e', he', p0, md0, g1, g2, g3, f1, f2, f3, f4, -⟩ := h.before.quorum hd h0 hn
    exact ⟨e', List.mem_append_left _ he', p0, md0, g1, g2, g3, f1, f2, f3, f4⟩

/-! ## C40: cancelling -/

theorem fee128_value (f : FeeInfo) (a fee : U128) (h : feeOf128 f a = .ok fee) :
    feeSpec f.multiplier.toNat f.divisor.toNat a.toNat = some fee.toNat := by
  have e : ∀ x : U64, (x.setWidth 128).toNat = x.toNat := fun x => by
    rw [BitVec.toNat_setWidth, Nat.mod_eq_of_lt (Nat.lt_of_lt_of_le x.isLt (by decide))]
  simp only [feeOf128, bind_ok, orErr_ok, Except.ok.injEq, checkedDiv_some, checkedMul_some, e] at h
  obtain ⟨q, ⟨hd, hq⟩, p, hp, rfl⟩ := h
  rw [feeSpec, if_neg hd, Option.some.injEq, ← hq, ← hp]
  split
  · rename_i h; subst h; simp
  · rename_i h
    have : p.toNat ≠ 0 := fun h0 => h (BitVec.eq_of_toNat_eq (by simpa using h0))
    omega

/-- C40: cancelling needs the signature of the author of a pending withdrawal that belongs to the program. It moves no tokens, marks
the withdrawal as cancelled and makes a deposit record for the amount of the event less the deposit fee in force. Nothing else that was
recorded changes, in particular not the fees credited to the token. -/
theorem C40_cancel {sd : U128} {rc : EverAddress} {v : U64} {ev : Pubkey} {py : Bytes}
    (h : run env ctx cpi (.cancelWithdrawSol sd rc v ev py) w = .ok w') :
    ∃ au kw dp kt r t tv dec, ∃ fee : Nat, ∃ refund : U128, ctx.accounts[1]? = some au ∧ ctx.accounts[3]? = some kw ∧ ctx.accounts[4]? = some dp ∧
      ctx.accounts[6]? = some kt ∧ ctx.isSigner au = true ∧ WithdrawalOf wSolEventC env ctx w kw r ∧ (w.acc kw).owner = ctx.program ∧
      r.author = au ∧ r.md.status = .pending ∧ TokenOf env ctx w kt t ∧ t.kind = .solana r.event.mint tv ∧
      feeSpec t.feeDepositInfo.multiplier.toNat t.feeDepositInfo.divisor.toNat r.event.amount.toNat = some fee ∧
      refund.toNat + fee = r.event.amount.toNat ∧ NoTokens w w' ∧
      DepositMade depositSolEventC env ctx w w' dp au sd ⟨r.event.mint, t.name, t.symbol, dec, refund, rc, v, ev, py⟩ ∧
      WithdrawalOf wSolEventC env ctx w' kw (r.withStatus .cancelled) ∧ (w'.acc kw).owner = ctx.program ∧
      TokenOf env ctx w' kt t ∧ Frame (fun j => j = kw) w w' := by
  obtain ⟨f, au, mi, kw, dp, kt, mv, r, t, tv, m, fee, refund, -, h1, -, h3, h4, h6, -, hsig, hw, hau, hst, ho, ht, hk, -, -, -, -, hfee, -, hr, hno, hdm,
    hrec, hown, -, -, -, hfr, hne⟩ := cancel_fx h
  refine ⟨au, kw, dp, kt, r, t, tv, m.decimals, fee.toNat, refund, h1, h3, h4, h6, hsig, hw, ho, hau, hst, ht, hk, fee128_value _ _ _ hfee, hr, hno, hdm,
    ⟨hw.1, hrec, hw.2.2⟩, by rw [hown, ho], ⟨ht.1, hfr.holds hne.symm ht.2.1, ht.2.2⟩, hfr⟩

/-- C40, partial: what the bridge owes does not grow if the deposit fee in force is at least the withdrawal fee. Before, it owes the
amount less the withdrawal fee to the recipient, and the fees credited to the token; after, the refund and the same fees. Without the
hypothesis it is false, see `C40_grows`. -/
theorem C40_no_growth_partial {sd : U128} {rc : EverAddress} {v : U64} {ev : Pubkey} {py : Bytes}
    (h : run env ctx cpi (.cancelWithdrawSol sd rc v ev py) w = .ok w') :
    ∃ kw dp kt r t t' n s len mlen, ctx.accounts[3]? = some kw ∧ ctx.accounts[4]? = some dp ∧ ctx.accounts[6]? = some kt ∧
      WithdrawalOf wSolEventC env ctx w kw r ∧ TokenOf env ctx w kt t ∧ TokenOf env ctx w' kt t' ∧
      Holds (depositC depositSolEventC) recLen (w'.acc dp) ⟨true, .deposit n, r.author, len, s, mlen, sd⟩ ∧ s.baseToken = r.event.mint ∧
      s.recipient = rc ∧
      ∀ fd fw, feeSpec t.feeDepositInfo.multiplier.toNat t.feeDepositInfo.divisor.toNat r.event.amount.toNat = some fd →
        feeSpec t.feeWithdrawalInfo.multiplier.toNat t.feeWithdrawalInfo.divisor.toNat r.event.amount.toNat = some fw → fw ≤ fd →
        s.amount.toNat + t'.feeSupply.toNat ≤ (r.event.amount.toNat - fw) + t.feeSupply.toNat := by
  obtain ⟨au, kw, dp, kt, r, t, tv, dec, fee, refund, -, h3, h4, h6, -, hw, -, hau, -, ht, -, hfee, hr, -, hdm, -, -, ht', -⟩ := C40_cancel h
  obtain ⟨n, len, mlen, hrec⟩ := hdm.record
  subst hau
  refine ⟨kw, dp, kt, r, t, t, n, _, len, mlen, h3, h4, h6, hw, ht, ht', hrec, rfl, rfl, fun fd fw e1 e2 hle => ?_⟩
  rw [hfee] at e1
  cases e1
  show refund.toNat + _ ≤ _
  omega

/-- C40 is false: a withdrawal of 90000 is pending and the fee of 45 for it is credited to the token; then the manager lowers the fee for
deposits. Cancelling refunds 89999 on Everscale, and the fees stay credited: the bridge owes 44 more than before. -/
theorem C40_grows : ∃ (env : Env) (L : Pubkey → Prop) (w w' : World) (ctx : Ctx) (kw dp kt : Pubkey) (r : Withdrawal WSolEvent)
    (t t' : TokenSettings) (s : Deposit DepositSolEvent),
    env.Distinct ∧ Reach env L w ∧ ctx.program = env.tpId ∧ run env ctx noCpi (.cancelWithdrawSol 2 Toy.home 7 0 []) w = .ok w' ∧
      ctx.accounts[3]? = some kw ∧ ctx.accounts[4]? = some dp ∧ ctx.accounts[6]? = some kt ∧
      Holds (withdrawalC wSolEventC) recLen (w.acc kw) r ∧ r.event.amount.toNat = 90000 ∧ r.md.status = .pending ∧
      TokenAt env w kt t ∧ TokenAt env w' kt t' ∧ t'.feeSupply = t.feeSupply ∧
      feeSpec t.feeWithdrawalInfo.multiplier.toNat t.feeWithdrawalInfo.divisor.toNat 90000 = some 45 ∧
      Holds (depositC depositSolEventC) recLen (w'.acc dp) s ∧
      s.event.amount.toNat + t'.feeSupply.toNat = (r.event.amount.toNat - 45) + t.feeSupply.toNat + 44 := by
  obtain ⟨r, -, -, hr, hP⟩ := Toy.tfind (c := withdrawalC wSolEventC) (w := Toy.get Toy.tpCheap) (k := Toy.wd2)
    (P := fun r => Nat.beq r.event.amount.toNat 90000 && (r.md.status == .pending)) ?_
  obtain ⟨s, -, -, hs, hS⟩ := Toy.tfind (c := depositC depositSolEventC) (w := Toy.get Toy.tpCancelledCheap) (k := Toy.tpDep 2)
    (P := fun s => Nat.beq s.event.amount.toNat 89999) ?_
  obtain ⟨t, ht, -, hT⟩ := Toy.tfind_token (w := Toy.get Toy.tpCheap) (k := Toy.tpGold)
    (P := fun t => Nat.beq t.feeSupply.toNat 70 && (Nat.beq t.feeWithdrawalInfo.multiplier.toNat 5 && Nat.beq t.feeWithdrawalInfo.divisor.toNat 10000))
    ?_
  obtain ⟨t', ht', -, hT'⟩ := Toy.tfind_token (w := Toy.get Toy.tpCancelledCheap) (k := Toy.tpGold)
    (P := fun t => Nat.beq t.feeSupply.toNat 70) ?_
  simp only [Bool.and_eq_true] at hP hT
  have e1 := Nat.eq_of_beq_eq_true hP.1
  have e2 := Nat.eq_of_beq_eq_true hS
  have e3 := Nat.eq_of_beq_eq_true hT.1
  have e4 := Nat.eq_of_beq_eq_true hT'
  have e5 := Nat.eq_of_beq_eq_true hT.2.1
  have e6 := Nat.eq_of_beq_eq_true hT.2.2
  refine ⟨Toy.env, Toy.L, _, _, Toy.cancelCtx 2, Toy.wd2, Toy.tpDep 2, Toy.tpGold, r, t, t', s, Toy.distinct, Toy.reach_tpCheap, rfl,
    Toy.get_tp (a := Toy.tpCheap) ?_, rfl, rfl, rfl, hr, e1, eq_of_beq hP.2, ht, ht', BitVec.eq_of_toNat_eq (by rw [e3, e4]),
    by rw [e5, e6]; rfl, hs, by rw [e1, e2, e3, e4]⟩
  checked

/-! ## C41: filling -/

/-- C41: a fill names pairs of withdrawals and token accounts, and the vault at the end. Every withdrawal listed is pending, of the token,
at its address, in an account of the program, and is listed once; the token account belongs to its recipient. It pays each recipient the
amount of the withdrawal less the fee in force and less the bounty, from the account of the filler, who signs, and marks the withdrawal
as processed. All balances are accounted for: `rest` goes to the vault, nothing else moves. It records a deposit of the amount less
the fee. Nothing else that was recorded changes. -/
theorem C41_fill {sd : U128} {rc : EverAddress} {a v : U64} {ev : Pubkey} {py : Bytes}
    (h : run env ctx cpi (.fillWithdrawSol sd rc a v ev py) w = .ok w') :
    ∃ au src dp kt t mint tv dec kv, ∃ fs : List Fill, ∃ rest fee : Nat, ∃ net : U64,
      ctx.accounts[1]? = some au ∧ ctx.accounts[2]? = some src ∧ ctx.accounts[4]? = some dp ∧ ctx.accounts[7]? = some kt ∧
      ctx.accounts.drop 11 = (fs.flatMap fun f => [f.kw, f.rt]) ++ [kv] ∧ ctx.isSigner au = true ∧
      TokenOf env ctx w kt t ∧ t.kind = .solana mint tv ∧ t.emergency = false ∧ IsAddr env ctx.program (vaultSeeds mint) kv ∧
      (fs.map (·.kw)).Nodup ∧
      (∀ f ∈ fs, f.Due env ctx w t.feeWithdrawalInfo mint src ∧
        WithdrawalOf wSolEventC env ctx w' f.kw (f.r.withStatus .processed) ∧ (w'.acc f.kw).owner = ctx.program) ∧
      (∀ k, bal w' k + (if k = src then total (·.pay) fs + rest else 0) =
          bal w k + total (fun f => if k = f.rt then f.pay else 0) fs + (if k = kv then rest else 0) ∧ supply w' k = supply w k) ∧
      (∃ m, IsToken env w src m ∧ IsToken env w kv m) ∧
      feeSpec t.feeWithdrawalInfo.multiplier.toNat t.feeWithdrawalInfo.divisor.toNat a.toNat = some fee ∧ net.toNat + fee = a.toNat ∧
      DepositMade depositSolEventC env ctx w w' dp au sd ⟨mint, t.name, t.symbol, dec, net.setWidth 128, rc, v, ev, py⟩ ∧
      TokenOf env ctx w' kt t ∧ Frame (fun j => j ∈ fs.map (·.kw)) w w' := by
  obtain ⟨f, au, src, mi, dp, kt, mv, t, tm, tv, m, kv, fs, rest, fee, net, -, h1, h2, -, h4, h7, -, hacc, hsig, ht, hk, hem, -, -, -, hkv, hnd, hall, hbal,
    hsame, -, hfee, hnet, hdm, -, -, hfr, hne⟩ := fill_fx h
  exact ⟨au, src, dp, kt, t, tm, tv, m.decimals, kv, fs, rest, fee.toNat, net, h1, h2, h4, h7, hacc, hsig, ht, hk, hem, hkv, hnd,
    fun f hf => ⟨(hall f hf).1, ⟨(hall f hf).1.withdrawal.1, (hall f hf).2.1, (hall f hf).1.withdrawal.2.2⟩,
      by rw [(hall f hf).2.2.1]; exact (hall f hf).1.owner⟩, hbal, hsame, (C20_fee_value _ _ _).1 hfee, hnet, hdm,
    ⟨ht.1, hfr.holds hne ht.2.1, ht.2.2⟩, hfr⟩

/-- C41, partial: if the amounts of the listed withdrawals together fit 64 bits, then the amount offered covers them, and exactly the
amount less the sum of what the withdrawals are worth without fees goes to the vault. Without the hypothesis it is false, see `C41_wraps`. -/
theorem C41_rest_partial {sd : U128} {rc : EverAddress} {a v : U64} {ev : Pubkey} {py : Bytes}
    (h : run env ctx cpi (.fillWithdrawSol sd rc a v ev py) w = .ok w') :
    ∃ src kt t kv, ∃ fs : List Fill, ctx.accounts[2]? = some src ∧ ctx.accounts[7]? = some kt ∧ TokenOf env ctx w kt t ∧
      ctx.accounts.drop 11 = (fs.flatMap fun f => [f.kw, f.rt]) ++ [kv] ∧
      (∀ f ∈ fs, WithdrawalOf wSolEventC env ctx w f.kw f.r ∧ f.net + f.fee = f.r.event.amount.toNat ∧ f.pay + f.r.md.bounty.toNat = f.net) ∧
      (total (fun f => f.r.event.amount.toNat) fs < 2 ^ 64 → total (fun f => f.r.event.amount.toNat) fs ≤ a.toNat ∧
        ∀ k, bal w' k + (if k = src then total (·.pay) fs + (a.toNat - total (·.net) fs) else 0) =
          bal w k + total (fun f => if k = f.rt then f.pay else 0) fs + (if k = kv then a.toNat - total (·.net) fs else 0)) := by
  obtain ⟨f, au, src, mi, dp, kt, mv, t, tm, tv, m, kv, fs, rest, fee, net, -, -, h2, -, -, h7, -, hacc, -, ht, -, -, -, -, -, -, -, hall, hbal,
    -, hsum, -⟩ := fill_fx h
  have key : ∀ l : List Fill, (∀ f ∈ l, f.net + f.fee = f.r.event.amount.toNat) →
      total (·.fee) l + total (·.net) l = total (fun f => f.r.event.amount.toNat) l := by
    intro l hl
    induction l with
    | nil => rfl
    | cons f l ih =>
      have e1 := hl f (by simp)
      have e2 := ih fun g hg => hl g (by simp [hg])
      simp only [total]
      omega
  have e := key fs fun f hf => (hall f hf).1.net
  refine ⟨src, kt, t, kv, fs, h2, h7, ht, hacc, fun f hf => ⟨(hall f hf).1.withdrawal, (hall f hf).1.net, (hall f hf).1.pay⟩, fun hlt => ?_⟩
  obtain ⟨g1, g2, -⟩ := hsum (by omega)
  have g3 : a.toNat - total (·.net) fs = rest := by omega
  rw [g3]
  exact ⟨by omega, fun k => (hbal k).1⟩

/-- C41 is false when the sum wraps: two withdrawals, together of 2^64 + 2, are settled with an amount of 1000. Their recipient gets nothing
(their author has set the bounties so). -/
theorem C41_wraps : ∃ (env : Env) (L : Pubkey → Prop) (w w' : World) (ctx : Ctx) (k1 k2 rt : Pubkey) (r1 r2 : Withdrawal WSolEvent),
    env.Distinct ∧ Reach env L w ∧ ctx.program = env.tpId ∧ run env ctx noCpi (.fillWithdrawSol 3 Toy.home 1000 7 0 []) w = .ok w' ∧
      ctx.accounts[11]? = some k1 ∧ ctx.accounts[12]? = some rt ∧ ctx.accounts[13]? = some k2 ∧ ctx.accounts[14]? = some rt ∧
      Holds (withdrawalC wSolEventC) recLen (w.acc k1) r1 ∧ Holds (withdrawalC wSolEventC) recLen (w.acc k2) r2 ∧
      r1.md.status = .pending ∧ r2.md.status = .pending ∧ r1.event.amount.toNat + r2.event.amount.toNat = 2 ^ 64 + 2 ∧
      Holds (withdrawalC wSolEventC) recLen (w'.acc k1) (r1.withStatus .processed) ∧
      Holds (withdrawalC wSolEventC) recLen (w'.acc k2) (r2.withStatus .processed) ∧ bal w' rt = bal w rt := by
  obtain ⟨r1, -, -, hr1, hP1⟩ := Toy.tfind (c := withdrawalC wSolEventC) (w := Toy.get Toy.tpF12) (k := Toy.wd8)
    (P := fun r => Nat.beq r.event.amount.toNat (2 ^ 63 + 1) && (r.md.status == .pending)) (by decide +kernel)
  obtain ⟨r2, -, -, hr2, hP2⟩ := Toy.tfind (c := withdrawalC wSolEventC) (w := Toy.get Toy.tpF12) (k := Toy.wd9)
    (P := fun r => Nat.beq r.event.amount.toNat (2 ^ 63 + 1) && (r.md.status == .pending)) (by decide +kernel)
  simp only [Bool.and_eq_true] at hP1 hP2
  have hrun : run Toy.env Toy.fillCtx2 noCpi (.fillWithdrawSol 3 Toy.home 1000 7 0 []) (Toy.get Toy.tpF12) = .ok (Toy.get Toy.tpFilled2) :=
    Toy.get_tp (a := Toy.tpF12) (by decide +kernel)
  have hb : Nat.beq (bal (Toy.get Toy.tpFilled2) Toy.bobGold) (bal (Toy.get Toy.tpF12) Toy.bobGold) = true := by decide +kernel
  obtain ⟨au, src, dp, kt, t, mint, tv, dec, kv, fs, rest, fee, net, -, -, -, -, hacc, -, -, -, -, -, -, hall, -⟩ := C41_fill hrun
  obtain ⟨f1, hf1, e1, -⟩ := pairs_get hacc (n := 0) (a := Toy.wd8) (b := Toy.bobGold) rfl rfl
  obtain ⟨f2, hf2, e2, -⟩ := pairs_get hacc (n := 1) (a := Toy.wd9) (b := Toy.bobGold) rfl rfl
  have g1 := hall f1 hf1
  have g2 := hall f2 hf2
  rw [e1] at g1
  rw [e2] at g2
  have q1 := g1.1.withdrawal.2.1
  have q2 := g2.1.withdrawal.2.1
  rw [e1] at q1
  rw [e2] at q2
  have p1 := g1.2.1.2.1
  have p2 := g2.2.1.2.1
  rw [q1.unique hr1] at p1
  rw [q2.unique hr2] at p2
  refine ⟨Toy.env, Toy.L, _, _, Toy.fillCtx2, Toy.wd8, Toy.wd9, Toy.bobGold, r1, r2, Toy.distinct, Toy.reach_tpF12, rfl, hrun, rfl, rfl, rfl, rfl, hr1, hr2,
    eq_of_beq hP1.2, eq_of_beq hP2.2, ?_, p1, p2, Nat.eq_of_beq_eq_true hb⟩
  rw [Nat.eq_of_beq_eq_true hP1.1, Nat.eq_of_beq_eq_true hP2.1]

/-! ## C50: events and accounts -/

/-- C50, partial: unless its account is removed in between, a withdrawal is released at most once. Since the address of the account is
derived from the round, the transaction on Everscale and the event, this covers requests for the same event made in the same round.
Missing: an event requested again after its account was closed, see `C50_paid_twice`, or in another round. -/
theorem C50_once_partial {t1 t2 t3 : List Ev} {e1 e2 : Ev} (hd : env.Distinct) (h : History env L k (t1 ++ e1 :: (t2 ++ e2 :: t3)) w)
    (hn : ∀ e ∈ t2, ¬ Removes k e) : ¬ (Releases k e1 ∧ Releases k e2) := by
  rintro ⟨h1, h2⟩
  obtain ⟨e, he, hr⟩ := C18_once hd h h1 h2
  exact hn e he hr

theorem moves_release {rc : Pubkey} {n : Nat} (hn : n ≠ 0) (h : Nat.beq (bal w' rc) (bal w rc + n) = true) : ¬ NoTokens w w' := by
  intro h'
  have := (h' rc).1
  have := Nat.eq_of_beq_eq_true h
  omega

/-- C50 is false: in one history the same event (same round, same transaction on Everscale, same content) is paid twice; in between the
account of the withdrawal is closed, which anyone can do, and requested again. -/
theorem C50_paid_twice : ∃ (env : Env) (L : Pubkey → Prop) (k rc : Pubkey) (t1 t2 : List Ev) (e1 e2 : Ev) (w : World)
    (p1 p2 : GenericProposal) (md1 md2 : WMeta), env.Distinct ∧ History env L k (t1 ++ e1 :: (t2 ++ e2 :: [])) w ∧
      Releases k e1 ∧ Releases k e2 ∧ WithdrawalAt env e1.pre k p1 md1 ∧ WithdrawalAt env e2.pre k p2 md2 ∧
      p1.event = p2.event ∧ p1.roundNumber = p2.roundNumber ∧ p1.pda = p2.pda ∧
      bal e1.post rc = bal e1.pre rc + 999 ∧ bal e2.post rc = bal e2.pre rc + 999 := by
  obtain ⟨w0, t1, hg, hr1, hrd1⟩ := Toy.followed_tpVote3
  obtain ⟨t2, hr2, hrd2⟩ := Toy.goes_tpVote3'
  have a1 : run Toy.env (Toy.solCtx Toy.wd1 Toy.bobGold) noCpi .withdrawMultiTokenSol (Toy.get Toy.tpVote3) = .ok (Toy.get Toy.tpPaid) :=
    Toy.get_tp (a := Toy.tpVote3) (by decide +kernel)
  have a2 : run Toy.env (Toy.solCtx Toy.wd1 Toy.bobGold) noCpi .withdrawMultiTokenSol (Toy.get Toy.tpVote3') = .ok (Toy.get Toy.tpPaid') :=
    Toy.get_tp (a := Toy.tpVote3') (by decide +kernel)
  have b1 : Nat.beq (bal (Toy.get Toy.tpPaid) Toy.bobGold) (bal (Toy.get Toy.tpVote3) Toy.bobGold + 999) = true := by decide +kernel
  have b2 : Nat.beq (bal (Toy.get Toy.tpPaid') Toy.bobGold) (bal (Toy.get Toy.tpVote3') Toy.bobGold + 999) = true := by decide +kernel
  obtain ⟨p1, md1, hw1, hp1⟩ := Toy.tfind_withdrawal (w := Toy.get Toy.tpVote3) (k := Toy.wd1)
    (P := fun p _ => p.event == wSolEventC.enc Toy.ev1 && (p.roundNumber == 1 && p.pda == Toy.pda1)) (by decide +kernel)
  obtain ⟨p2, md2, hw2, hp2⟩ := Toy.tfind_withdrawal (w := Toy.get Toy.tpVote3') (k := Toy.wd1)
    (P := fun p _ => p.event == wSolEventC.enc Toy.ev1 && (p.roundNumber == 1 && p.pda == Toy.pda1)) (by decide +kernel)
  simp only [Bool.and_eq_true] at hp1 hp2
  have r1 := Run.tp _ _ hr1 rfl (Toy.free (by decide +kernel)) a1
  have r2 := Run.tp _ _ (r1.append hr2) rfl (Toy.free (by decide +kernel)) a2
  refine ⟨Toy.env, Toy.L, Toy.wd1, Toy.bobGold, t1, t2, ⟨.tp (Toy.solCtx Toy.wd1 Toy.bobGold) .withdrawMultiTokenSol, Toy.get Toy.tpVote3, Toy.get Toy.tpPaid⟩,
    ⟨.tp (Toy.solCtx Toy.wd1 Toy.bobGold) .withdrawMultiTokenSol, Toy.get Toy.tpVote3', Toy.get Toy.tpPaid'⟩, Toy.get Toy.tpPaid', p1, p2, md1, md2, Toy.distinct,
    ⟨⟨w0, hg, ?_⟩, by simp [Toy.L, Toy.locked], ?_⟩, .withdrawSol _ rfl rfl (moves_release (by decide) b1),
    .withdrawSol _ rfl rfl (moves_release (by decide) b2), hw1, hw2, ?_, ?_, ?_, Nat.eq_of_beq_eq_true b1, Nat.eq_of_beq_eq_true b2⟩
  · simpa using r2
  · have c1 := Toy.readable_snoc (e := ⟨.tp (Toy.solCtx Toy.wd1 Toy.bobGold) .withdrawMultiTokenSol, Toy.get Toy.tpVote3, Toy.get Toy.tpPaid⟩) hrd1 (by decide +kernel)
    have c2 := Toy.readable_snoc (e := ⟨.tp (Toy.solCtx Toy.wd1 Toy.bobGold) .withdrawMultiTokenSol, Toy.get Toy.tpVote3', Toy.get Toy.tpPaid'⟩)
      (c1.append hrd2) (by decide +kernel)
    simpa using c2
  · rw [eq_of_beq hp1.1, eq_of_beq hp2.1]
  · rw [eq_of_beq hp1.2.1, eq_of_beq hp2.2.1]
  · rw [eq_of_beq hp1.2.2, eq_of_beq hp2.2.2]

/-! ## C56: who decides about a pending withdrawal -/

/-- C56, partial: a pending withdrawal is cancelled, or its bounty is changed, only with the signature of its author or its recipient. -/
theorem C56_signed_partial {i : Instr} (h : run env ctx noCpi i w = .ok w')
    (hi : (∃ sd rc v ev py, i = .cancelWithdrawSol sd rc v ev py) ∨ ∃ b, i = .changeBountyForWithdrawSol b) :
    ∃ (n : Nat) (kw : Pubkey) (r : Withdrawal WSolEvent), ctx.accounts[n]? = some kw ∧ WithdrawalOf wSolEventC env ctx w kw r ∧ r.md.status = .pending ∧
      (ctx.isSigner r.author = true ∨ ctx.isSigner r.event.recipient = true) := by
  rcases hi with ⟨sd, rc, v, ev, py, rfl⟩ | ⟨b, rfl⟩
  · obtain ⟨au, kw, dp, kt, r, t, tv, dec, fee, refund, -, h3, -, -, hsig, hw, -, hau, hst, -⟩ := C40_cancel h
    exact ⟨3, kw, r, h3, hw, hst, .inl (by rw [hau]; exact hsig)⟩
  · simp only [run, processChangeBounty, bind_ok, acct_ok, require_ok, exists_const, ex_unit] at h
    obtain ⟨au, h0, kw, h1, hsig, r, hr, hst, hau, h⟩ := h
    refine ⟨1, kw, r, h1, withdrawalOf hr, hst, ?_⟩
    rcases hau with e | e
    · exact .inl (by rw [e]; exact hsig)
    · exact .inr (by rw [e]; exact hsig)

/-- C56 is false: a withdrawal of 90000 to bob is pending; alice, who merely submitted the request, cancels it without bob, and the
refund goes to an address of the choice of alice. -/
theorem C56_author_cancels : ∃ (env : Env) (L : Pubkey → Prop) (w : World) (ctx : Ctx) (kw dp : Pubkey) (r : Withdrawal WSolEvent),
    env.Distinct ∧ Reach env L w ∧ ctx.program = env.tpId ∧ ctx.accounts[3]? = some kw ∧ ctx.accounts[4]? = some dp ∧
      Holds (withdrawalC wSolEventC) recLen (w.acc kw) r ∧ r.md.status = .pending ∧ r.event.amount.toNat = 90000 ∧
      r.event.recipient ∉ ctx.signers ∧ r.event.recipient ∉ ctx.accounts ∧
      ∃ w' s, run env ctx noCpi (.cancelWithdrawSol 2 Toy.home 7 0 []) w = .ok w' ∧ Holds (depositC depositSolEventC) recLen (w'.acc dp) s ∧
        s.event.recipient = Toy.home ∧ 89900 ≤ s.event.amount.toNat := by
  obtain ⟨r, -, -, hr, hP⟩ := Toy.tfind (c := withdrawalC wSolEventC) (w := Toy.get Toy.tpBounty) (k := Toy.wd2)
    (P := fun r => Nat.beq r.event.amount.toNat 90000 && ((r.md.status == .pending) && (Nat.beq r.event.recipient.toNat 1005))) ?_
  obtain ⟨s, -, -, hs, hS⟩ := Toy.tfind (c := depositC depositSolEventC) (w := Toy.get Toy.tpCancelled) (k := Toy.tpDep 2)
    (P := fun s => Nat.ble 89900 s.event.amount.toNat && s.event.recipient == Toy.home) ?_
  simp only [Bool.and_eq_true] at hP hS
  have e0 := Nat.eq_of_beq_eq_true hP.2.2
  have no : ∀ l : List Pubkey, (l.map (·.toNat)).contains 1005 = false → r.event.recipient ∉ l := by
    intro l hl hm
    have := List.mem_map_of_mem (f := fun k : Pubkey => k.toNat) hm
    rw [e0] at this
    rw [List.contains_eq_mem, decide_eq_false_iff_not] at hl
    exact hl this
  refine ⟨Toy.env, Toy.L, _, Toy.cancelCtx 2, Toy.wd2, Toy.tpDep 2, r, Toy.distinct, Toy.reach_tpBounty, rfl, rfl, rfl, hr, eq_of_beq hP.2.1,
    Nat.eq_of_beq_eq_true hP.1, no _ ?_, no _ ?_, _, s, Toy.get_tp (a := Toy.tpBounty) ?_, hs,
    eq_of_beq hS.2, Nat.le_of_ble_eq_true hS.1⟩
  checked

/-! ## The hypotheses are met -/

/-- A history in which a withdrawal is released (C16, C17, C18). -/
example : ∃ t e, History Toy.env Toy.L Toy.wd1 (t ++ e :: []) (Toy.get Toy.tpPaid) ∧ Releases Toy.wd1 e := by
  obtain ⟨w0, t1, hg, hr1, hrd1⟩ := Toy.followed_tpVote3
  have a1 : run Toy.env (Toy.solCtx Toy.wd1 Toy.bobGold) noCpi .withdrawMultiTokenSol (Toy.get Toy.tpVote3) = .ok (Toy.get Toy.tpPaid) :=
    Toy.get_tp (a := Toy.tpVote3) (by decide +kernel)
  have b1 : Nat.beq (bal (Toy.get Toy.tpPaid) Toy.bobGold) (bal (Toy.get Toy.tpVote3) Toy.bobGold + 999) = true := by decide +kernel
  exact ⟨t1, _, ⟨⟨w0, hg, Run.tp _ _ hr1 rfl (Toy.free (by decide +kernel)) a1⟩, by simp [Toy.L, Toy.locked],
    Toy.readable_snoc hrd1 (by decide +kernel)⟩, .withdrawSol _ rfl rfl (moves_release (by decide) b1)⟩

/-- A cancellation (C40). -/
example : ∃ w', run Toy.env (Toy.cancelCtx 2) noCpi (.cancelWithdrawSol 2 Toy.home 7 0 []) (Toy.get Toy.tpBounty) = .ok w' :=
  ⟨_, Toy.get_tp (a := Toy.tpBounty) (by decide +kernel)⟩

/-- A fill of one withdrawal (C41). -/
example : ∃ w', run Toy.env (Toy.fillCtx 3) noCpi (.fillWithdrawSol 3 Toy.home 95000 7 0 []) (Toy.get Toy.tpBounty) = .ok w' ∧
    bal w' Toy.bobGold = bal (Toy.get Toy.tpBounty) Toy.bobGold + 89855 := by
  obtain h : Nat.beq (bal (Toy.get Toy.tpFilled) Toy.bobGold) (bal (Toy.get Toy.tpBounty) Toy.bobGold + 89855) = true := ?_
  refine ⟨Toy.get Toy.tpFilled, Toy.get_tp (a := Toy.tpBounty) ?_, Nat.eq_of_beq_eq_true h⟩
  checked

end Verif.Props
