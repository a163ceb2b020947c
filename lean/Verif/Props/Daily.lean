import Verif.Lemmas.DailyAll
import Verif.Lemmas.Day
import Verif.Spec.ToySteps
/-!
# C22: the daily limit
-/
set_option maxRecDepth 100000
namespace Verif.Props
open Verif TP

variable {env : Env} {w w' : World}

/-- Settings of a token keep its kind. -/
private theorem kind_run {L : Pubkey → Prop} {top : Bool} {tr : List Ev} {kt : Pubkey} {t t' : TokenSettings} (hd : env.Distinct)
    (h : Run env L top w tr w') (ht : TokenAt env w kt t) (hl : Live w kt) (ht' : TokenAt env w' kt t') : t'.kind = t.kind := by
  have H := (token_hist hd h ht hl).2.2
  have := h.fold (P := fun w _ => ∃ s, TokenAt env w kt s ∧ s.kind = t.kind) [] ⟨t, ht, rfl⟩ (by
    rintro e he _ ⟨s, hs, hk⟩
    obtain ⟨s1, s2, h1, h2, hor⟩ := H e he
    have := hs.2.1.unique h1.2.1
    subst this
    refine ⟨s2, h2, ?_⟩
    rcases hor with rfl | ⟨ctx, i, -, -, -, -, hc⟩
    · exact hk
    · rw [hc.kinds.2.2, hk])
  obtain ⟨s, hs, hk⟩ := this
  rw [ht'.2.1.unique hs.2.1, hk]

/-- C22 (days with approvals): let `tr` be what happens on one day, from the state `w` at its start on. The payouts without approval of the
token with settings `kt` stay within `lim` if no higher daily limit is in force, and the fee `fi` for withdrawals stays what it is. The
withdrawal manager may approve withdrawals of this token on that day, also ones requested and counted on the same day. About each approved
withdrawal it is assumed that its account can be followed (nobody has its key, and its event has one reading and is of one kind), and that
it was not requested on this day already before `w`; about a token of Everscale, that nobody has the key of its mint. -/
theorem C22_daily {L : Pubkey → Prop} (hd : env.Distinct) {t0 tr : List Ev} {kt : Pubkey} {t : TokenSettings} {day : Nat} {lim : Nat}
    {fi : FeeInfo} (h0 : ∃ w0, Genesis env L w0 ∧ Run env L true w0 t0 w) (h : Run env L true w tr w')
    (ht : TokenAt env w kt t) (hl : Live w kt) (hm : ∀ km token d, t.kind = .ever km token d → L km)
    (hday : ∀ e ∈ tr, ∀ ctx i, e.act = .tp ctx i → OnDay day ctx.now)
    (hlim : ∀ e ∈ tr, ∀ t, TokenAt env e.pre kt t → t.withdrawalDailyLimit.toNat ≤ lim)
    (hfee : ∀ e ∈ tr, ∀ t, TokenAt env e.pre kt t → t.feeWithdrawalInfo = fi)
    (hw : ∀ k, (∃ e ∈ tr, Approves kt k e) → L k ∧ Readable env k (t0 ++ tr) ∧
      (∀ e ∈ tr, ∀ p md, WithdrawalAt env e.pre k p md ∨ WithdrawalAt env e.post k p md → OneKind p.event) ∧
      ∀ p md, WithdrawalAt env w k p md → md.epoch.toNat ≠ day) :
    (tr.map (autoPaid kt)).sum ≤ lim := by
  obtain ⟨w0, hg, hr0⟩ := h0
  refine auto_day (dec := match t.kind with
    | .ever _ _ d => if d.toNat < 9 then d else 9#8
    | _ => 0#8) hd h ht hl (fun e he ctx i ha => OnDay.eq (hday e he ctx i ha)) hlim hfee ?_ ?_
  · intro e he ctx ev mint s m hp hat
    obtain ⟨t1, t2, -, hpre⟩ := h.pre e he
    obtain ⟨s1, s2, h1, -⟩ := (token_hist hd h ht hl).2.2 e he
    have e0 := hat.1.2.1.unique h1.2.1
    subst e0
    have hk := kind_run hd hpre ht hl h1
    obtain ⟨mi, d, hkd⟩ := hat.2.1
    rw [hkd] at hk
    rw [← hk]
    obtain ⟨⟨ha, hmint⟩, -⟩ := (hr0.append hpre).mintOf hd hg h1 hkd (hm _ _ _ hk.symm)
    have ha' := hat.2.2.2.1
    rw [hp] at ha'
    have := isAddr_eq ha ha'
    subst this
    obtain ⟨m', hm', -, hdec, -⟩ := hmint.data
    have := hat.2.2.2.2
    rw [hm'] at this
    cases this
    exact hdec
  · intro k hk
    obtain ⟨hL, hrd, hone, hst⟩ := hw k hk
    refine ⟨fun e he => ?_, fun e he => ⟨fun p md hx => hone e he p md (.inl hx), fun p md hx => hone e he p md (.inr hx)⟩, ?_⟩
    rotate_left
    · intro p md hp h'
      obtain ⟨e, he, c, i, hact, -⟩ := hk
      have hd' := hday e he c i hact
      exact hst p md hp (by rw [h', ← OnDay.eq hd', OnDay.epoch hd'])
    exact (History.evs hd ⟨⟨w0, hg, hr0.append h⟩, hL, hrd⟩).2 e (List.mem_append_right _ he)

/-! ## The hypotheses are met -/

/-- gold may be paid out, 2000 at once and 1500 on one day -/
private def limited : Except Err World :=
  Toy.tp Toy.tpDeposited (Toy.tctx [Toy.manager, Toy.tpGold, Toy.tpSettings] [Toy.manager]) (.changeWithdrawalLimits (some 2000) (some 1500))

/-- a day: 90000 and 1000 are requested and confirmed, 90000 has to wait and is approved, then 1000 is paid -/
private def theDay : List (Ctx × Instr) :=
  [(Toy.reqCtx Toy.wd2, .withdrawMultiTokenSolRequest Toy.pda1 Toy.bob 90000 [] 0), Toy.voteOf Toy.wd2 0, Toy.voteOf Toy.wd2 1, Toy.voteOf Toy.wd2 2,
   (Toy.reqCtx Toy.wd1, .withdrawMultiTokenSolRequest Toy.pda1 Toy.bob 1000 [] 0), Toy.voteOf Toy.wd1 0, Toy.voteOf Toy.wd1 1, Toy.voteOf Toy.wd1 2,
   (Toy.solCtx Toy.wd2 Toy.bobGold, .withdrawMultiTokenSol),
   (Toy.tctx [Toy.wmanager, Toy.tpVault, Toy.wd2, Toy.bobGold, Toy.tpGold, Toy.tpSettings, Toy.env.splId, Toy.env.clockId] [Toy.wmanager],
     .approveWithdrawSol),
   (Toy.solCtx Toy.wd1 Toy.bobGold, .withdrawMultiTokenSol)]

/-- what `C22_daily` asks of each step, for `gold`, `wd2` and the limit 1500 -/
private def fits (e : Ev) : Bool :=
  (match e.act with
    | .tp c i => Nat.beq (c.now.toNat / 86400) 0 && (match i with
      | .approveWithdrawSol | .approveWithdrawEver => (match c.accounts[2]? with
        | some k => Nat.beq k.toNat Toy.wd2.toNat
        | none => true)
      | _ => true)
    | _ => false) &&
  (match (e.pre.acc Toy.tpGold).data with
    | .raw b => (match tokenSettingsC.dec b with
      | some (t, _) => Nat.ble t.withdrawalDailyLimit.toNat 1500 && Nat.beq t.feeWithdrawalInfo.multiplier.toNat 5 &&
          Nat.beq t.feeWithdrawalInfo.divisor.toNat 10000
      | none => true)
    | _ => true) &&
  Toy.plain Toy.wd2 e.pre && Toy.plain Toy.wd2 e.post

private theorem fits_day {e : Ev} (h : fits e = true) {c : Ctx} {i : Instr} (ha : e.act = .tp c i) : OnDay 0 c.now := by
  unfold fits at h
  rw [ha] at h
  simp only [Bool.and_eq_true] at h
  have := Nat.eq_of_beq_eq_true h.1.1.1.1
  exact ⟨by omega, by omega, by omega⟩

private theorem fits_key {e : Ev} (h : fits e = true) {kt k : Pubkey} (ha : Approves kt k e) : k = Toy.wd2 := by
  obtain ⟨c, i, hact, hi, hk, -⟩ := ha
  unfold fits at h
  rw [hact] at h
  simp only [Bool.and_eq_true] at h
  have h1 := h.1.1.1.2
  rcases hi with rfl | rfl
  · simp only [hk] at h1
    exact BitVec.eq_of_toNat_eq (Nat.eq_of_beq_eq_true h1)
  · simp only [hk] at h1
    exact BitVec.eq_of_toNat_eq (Nat.eq_of_beq_eq_true h1)

private theorem fits_token {e : Ev} (h : fits e = true) {t : TokenSettings} (ht : TokenAt Toy.env e.pre Toy.tpGold t) :
    t.withdrawalDailyLimit.toNat ≤ 1500 ∧ t.feeWithdrawalInfo = ⟨5, 10000⟩ := by
  obtain ⟨-, ⟨b, r, hb, -, hdec⟩, -⟩ := ht
  unfold fits at h
  simp only [hb, hdec, Bool.and_eq_true] at h
  refine ⟨Nat.le_of_ble_eq_true h.1.1.2.1.1, ?_⟩
  have h1 := Nat.eq_of_beq_eq_true h.1.1.2.1.2
  have h2 := Nat.eq_of_beq_eq_true h.1.1.2.2
  cases hf : t.feeWithdrawalInfo with
  | mk a b =>
    rw [hf] at h1 h2
    rw [BitVec.eq_of_toNat_eq (x := a) (y := (5 : U64)) h1, BitVec.eq_of_toNat_eq (x := b) (y := (10000 : U64)) h2]

private theorem readable_all {t0 es : List Ev} (h0 : Readable Toy.env Toy.wd2 t0) (h : es.all fits = true) : Readable Toy.env Toy.wd2 (t0 ++ es) := by
  refine h0.append fun e he _ p md hp => ?_
  have := List.all_eq_true.1 h e he
  unfold fits at this
  simp only [Bool.and_eq_true] at this
  exact Toy.plain_ok this.2 hp

private theorem followed2 : Toy.Followed Toy.wd2 (Toy.get limited) :=
  Toy.followed_tp (Toy.followed_tp (Toy.followed_tp (Toy.followed_rl (Toy.followed_start (by decide +kernel)) rfl (by decide +kernel)
    (by decide +kernel)) rfl (by decide +kernel) (by decide +kernel)) rfl (by decide +kernel) (by decide +kernel)) rfl (by decide +kernel)
    (by decide +kernel)

/-- All hypotheses hold of a day on which 90000 of gold are booked and approved and then 1000 are paid to bob. -/
example : ∃ t0 es w' t, (∃ w0, Genesis Toy.env Toy.L w0 ∧ Run Toy.env Toy.L true w0 t0 (Toy.get limited)) ∧
    Run Toy.env Toy.L true (Toy.get limited) es w' ∧ TokenAt Toy.env (Toy.get limited) Toy.tpGold t ∧ Live (Toy.get limited) Toy.tpGold ∧
    (∀ km token d, t.kind = .ever km token d → Toy.L km) ∧
    (∀ e ∈ es, ∀ ctx i, e.act = .tp ctx i → OnDay 0 ctx.now) ∧
    (∀ e ∈ es, ∀ t, TokenAt Toy.env e.pre Toy.tpGold t → t.withdrawalDailyLimit.toNat ≤ 1500) ∧
    (∀ e ∈ es, ∀ t, TokenAt Toy.env e.pre Toy.tpGold t → t.feeWithdrawalInfo = ⟨5, 10000⟩) ∧
    (∀ k, (∃ e ∈ es, Approves Toy.tpGold k e) → Toy.L k ∧ Readable Toy.env k (t0 ++ es) ∧
      (∀ e ∈ es, ∀ p md, WithdrawalAt Toy.env e.pre k p md ∨ WithdrawalAt Toy.env e.post k p md → OneKind p.event) ∧
      ∀ p md, WithdrawalAt Toy.env (Toy.get limited) k p md → md.epoch.toNat ≠ 0) ∧
    (∃ e ∈ es, Approves Toy.tpGold Toy.wd2 e) ∧ bal (Toy.get limited) Toy.bobGold = 0 ∧ bal w' Toy.bobGold = 999 := by
  obtain ⟨w0, t0, hg, hr0, hrd0⟩ := followed2
  obtain ⟨t, ht, hl, hk⟩ := Toy.tfind_token (w := Toy.get limited) (k := Toy.tpGold) (P := fun t => match t.kind with
    | .ever .. => false
    | _ => true) (by decide +kernel)
  have hc : ((match Toy.steps (Toy.get limited) theDay with
    | some (es, w') => es.all fits && (es.any fun e => match e.act with
        | .tp c .approveWithdrawSol => (match c.accounts[2]?, c.accounts[4]? with
          | some k, some kt => Nat.beq k.toNat Toy.wd2.toNat && Nat.beq kt.toNat Toy.tpGold.toNat
          | _, _ => false)
        | _ => false) && Nat.beq (bal w' Toy.bobGold) 999
    | none => false) && Nat.beq (bal (Toy.get limited) Toy.bobGold) 0 &&
      Toy.fair theDay &&
      Nat.beq ((Toy.get limited).acc Toy.wd2).data.len 0 &&
      (Toy.locked.map (fun k => k.toNat)).contains Toy.wd2.toNat) = true := by decide +kernel
  simp only [Bool.and_eq_true] at hc
  obtain ⟨⟨⟨⟨hc, hb0⟩, hprog⟩, hz⟩, hlk⟩ := hc
  split at hc
  rotate_left
  · cases hc
  rename_i es w' hst
  simp only [Bool.and_eq_true] at hc
  obtain ⟨⟨hf, hany⟩, hb⟩ := hc
  have hL : Toy.L Toy.wd2 := (Toy.Followed.history ⟨w0, t0, hg, hr0, hrd0⟩ hlk).choose_spec.locked
  refine ⟨t0, es, w', t, ⟨w0, hg, hr0⟩, Toy.steps_run hst hprog, ht, hl, ?_, fun e he ctx i => fits_day (List.all_eq_true.1 hf e he),
    fun e he t ht => (fits_token (List.all_eq_true.1 hf e he) ht).1, fun e he t ht => (fits_token (List.all_eq_true.1 hf e he) ht).2, ?_, ?_,
    Nat.eq_of_beq_eq_true hb0, Nat.eq_of_beq_eq_true hb⟩
  · intro km token d h
    rw [h] at hk
    cases hk
  · rintro k ⟨e, he, ha⟩
    have := fits_key (List.all_eq_true.1 hf e he) ha
    subst this
    refine ⟨hL, readable_all hrd0 hf, fun e he p md hp => ?_, fun p md hp => ?_⟩
    · have := List.all_eq_true.1 hf e he
      unfold fits at this
      simp only [Bool.and_eq_true] at this
      rcases hp with hp | hp
      · exact Toy.plain_kind this.1.2 hp
      · exact Toy.plain_kind this.2 hp
    · obtain ⟨b, hb, hn⟩ := hp.raw
      exact (hn (Nat.eq_of_beq_eq_true hz)).elim
  · obtain ⟨e, he, h⟩ := List.any_eq_true.1 hany
    refine ⟨e, he, ?_⟩
    split at h
    · rename_i c hact
      split at h
      · rename_i k kt h1 h2
        simp only [Bool.and_eq_true] at h
        refine ⟨c, _, hact, .inl rfl, ?_, ?_⟩
        · rw [h1, BitVec.eq_of_toNat_eq (Nat.eq_of_beq_eq_true h.1)]
        · rw [h2, BitVec.eq_of_toNat_eq (Nat.eq_of_beq_eq_true h.2)]
      · cases h
    · cases h

end Verif.Props
