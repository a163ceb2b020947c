import Verif.Lemmas.Backed
import Verif.Props.Backing
import Verif.Spec.ToySteps
import Verif.Spec.ToyTactic
/-!
# C29: no more of an Everscale token exists than the relays let in
-/
set_option maxRecDepth 100000
namespace Verif.Props
open Verif TP

variable {env : Env} {L : Pubkey → Prop} {w w' : World}

/-- C29 (the part that holds): while the fee for withdrawals of a token of Everscale stays what it is, the tokens that exist on Solana (with the fees
that may still be minted) grow by no more than the amounts of the withdrawals that enough relays confirmed, less what was deposited or burnt. The
history `tr` starts at any state `w` with the token. About each withdrawal that is approved in it, it is assumed that its account can be followed
(nobody has its key, and its event has one reading and is of one kind) and that it does not wait for approval at `w` already. Instructions for two
tokens of Everscale whose mints have the same address are excluded. With a changed fee the claim is false, see `C29_overcounted`. -/
theorem C29_backed_partial (hd : env.Distinct) {t0 tr : List Ev} {kt km : Pubkey} {t : TokenSettings} {token : EverAddress} {d : U8} {fi : FeeInfo}
    (h0 : ∃ w0, Genesis env L w0 ∧ Run env L true w0 t0 w) (h : Run env L true w tr w')
    (ht : TokenAt env w kt t) (hl : Live w kt) (hk : t.kind = .ever km token d) (hL : L km)
    (hfee : ∀ e ∈ tr, ∀ t, TokenAt env e.pre kt t → t.feeWithdrawalInfo = fi)
    (hone : ∀ e ∈ tr, ∀ ctx i kt' t mi token' d, e.act = .tp ctx i → kt' ∈ ctx.accounts → TokenOf env ctx e.pre kt' t →
      t.kind = .ever mi token' d → IsAddr env env.tpId (mintSeeds env token') km → token' = token)
    (hw : ∀ k, (∃ e ∈ tr, Approves kt k e) → L k ∧ Readable env k (t0 ++ tr) ∧
      (∀ e ∈ tr, ∀ p md, WithdrawalAt env e.post k p md → OneKind p.event) ∧
      ∀ p md, WithdrawalAt env w k p md → md.status ≠ .waitingForApprove) :
    backing w' km kt + (tr.map (retired km kt)).sum ≤ backing w km kt + (tr.map (admitted kt)).sum := by
  obtain ⟨w0, hg, hr0⟩ := h0
  obtain ⟨hm, ha⟩ := hr0.mintOf hd hg ht hk hL
  have ha' : IsAddr env env.tpId (tokenSeeds env t.kind) kt := by rw [hk]; exact ha
  have flow := C29_flow_partial hd h ht hl hk ha' hm hL
  obtain ⟨-, g⟩ := h.guardedMint hd hL hm.2
  obtain ⟨K, hn, hK⟩ := approved_list kt tr
  have H := (token_hist hd h ht hl).2.2
  have z : (K.map (owed env token fi (if d.toNat < 9 then d else 9#8) w)).sum = 0 := by
    refine sum_zero fun k hk => owed_zero ?_
    rintro n ⟨p, md, h1, h2, -⟩
    exact (hw k ((hK k).1 hk)).2.2.2 p md h1 h2
  have := h.fold (P := fun x l => backing x km kt + (l.map (retired km kt)).sum +
      (K.map (owed env token fi (if d.toNat < 9 then d else 9#8) x)).sum ≤ backing w km kt + (l.map (admitted kt)).sum) []
    (by rw [z]; simp) (by
      intro e he l hle
      obtain ⟨t1, t2, -, hpre⟩ := h.pre e he
      obtain ⟨s1, s2, h1, h2, -⟩ := H e he
      obtain ⟨g1, g2, -⟩ := g e he
      obtain ⟨m1, hm1, -, hd1, -⟩ := g1.data
      obtain ⟨m2, hm2, -, hd2, -⟩ := g2.data
      have step := backed_step (fi := fi) (L := L) (K := K) hd hn
        (fun k hk => by
          obtain ⟨hLk, hrd, hkind, -⟩ := hw k ((hK k).1 hk)
          have := (History.evs hd ⟨⟨w0, hg, hr0.append h⟩, hLk, hrd⟩).2 e (List.mem_append_right _ he)
          exact ⟨this.1, this.2.1, this.2.2, hkind e he⟩)
        (fun k hk => (hK k).2 ⟨e, he, hk⟩) ha (token_hist hd hpre ht hl).2.1
        (fun t ht => by rw [ht.unique h1.2.1]; exact hfee e he _ h1) ⟨m1, m2, hm1, hd1, hm2, hd2⟩ (hone e he) (flow e he)
      simp only [List.map_append, List.sum_append, List.map_cons, List.map_nil, List.sum_cons, List.sum_nil]
      omega)
  rw [List.nil_append] at this
  omega

/-! ## The hypotheses are met -/

/-- from the creation of the star token, limited to 100: the withdrawal of 70000 is confirmed, waits, is approved on a later day, and 50000 go back -/
private def theStar : List (Ctx × Instr) :=
  [Toy.voteOf Toy.wd5 0, Toy.voteOf Toy.wd5 1, Toy.voteOf Toy.wd5 2, (Toy.everCtx, .withdrawMultiTokenEver),
   ({ Toy.approveCtxE with now := 200000 }, .approveWithdrawEver), (Toy.depCtxE, .depositMultiTokenEver 4 50000 Toy.home 5 Toy.alice [])]

/-- what `C29_backed_partial` asks of each step, for the star token and `wd5` -/
private def fits (e : Ev) : Bool :=
  (match e.act with
    | .tp c i => (c.accounts.all fun k => match (e.pre.acc k).data with
      | .raw b => (match tokenSettingsC.dec b with
        | some (t, _) => (match t.kind with
          | .ever _ token' _ => decide (token' = Toy.star) || !(Nat.beq (Toy.addr (mintSeeds Toy.env token') Toy.env.tpId).toNat Toy.starMint.toNat)
          | _ => true)
        | none => true)
      | _ => true) && (match i with
      | .approveWithdrawSol | .approveWithdrawEver => (match c.accounts[2]? with
        | some k => Nat.beq k.toNat Toy.wd5.toNat
        | none => true)
      | _ => true)
    | _ => false) &&
  (match (e.pre.acc Toy.tpStar).data with
    | .raw b => (match tokenSettingsC.dec b with
      | some (t, _) => Nat.beq t.feeWithdrawalInfo.multiplier.toNat 5 && Nat.beq t.feeWithdrawalInfo.divisor.toNat 10000
      | none => true)
    | _ => true) &&
  Toy.plain Toy.wd5 e.post

private theorem fits_one {e : Ev} (h : fits e = true) {c : Ctx} {i : Instr} {k mi : Pubkey} {t : TokenSettings} {token : EverAddress} {d : U8}
    (hact : e.act = .tp c i) (hk : k ∈ c.accounts) (ht : TokenOf Toy.env c e.pre k t) (hkd : t.kind = .ever mi token d)
    (ha : IsAddr Toy.env Toy.env.tpId (mintSeeds Toy.env token) Toy.starMint) :
    token = Toy.star := by
  unfold fits at h
  rw [hact] at h
  simp only [Bool.and_eq_true] at h
  have h1 := List.all_eq_true.1 h.1.1.1 k hk
  obtain ⟨b, r, hb, -, hdec⟩ := ht.2.1
  have hn : Nat.beq (Toy.addr (mintSeeds Toy.env token) Toy.env.tpId).toNat Toy.starMint.toNat = true := by
    rw [(Toy.isAddr (mintSeeds Toy.env token) Toy.env.tpId).unique ha]
    exact Nat.beq_refl _
  simp only [hb, hdec, hkd, hn, Bool.not_true, Bool.or_false, decide_eq_true_eq] at h1
  exact h1

private theorem fits_key {e : Ev} (h : fits e = true) {kt k : Pubkey} (ha : Approves kt k e) : k = Toy.wd5 := by
  obtain ⟨c, i, hact, hi, hk, -⟩ := ha
  unfold fits at h
  rw [hact] at h
  simp only [Bool.and_eq_true] at h
  have h1 := h.1.1.2
  rcases hi with rfl | rfl
  · simp only [hk] at h1
    exact BitVec.eq_of_toNat_eq (Nat.eq_of_beq_eq_true h1)
  · simp only [hk] at h1
    exact BitVec.eq_of_toNat_eq (Nat.eq_of_beq_eq_true h1)

private theorem fits_fee {e : Ev} (h : fits e = true) {t : TokenSettings} (ht : TokenAt Toy.env e.pre Toy.tpStar t) :
    t.feeWithdrawalInfo = ⟨5, 10000⟩ := by
  unfold fits at h
  simp only [Bool.and_eq_true] at h
  obtain ⟨b, r, hb, -, hdec⟩ := ht.2.1
  have h1 := h.1.2
  simp only [hb, hdec, Bool.and_eq_true] at h1
  cases hf : t.feeWithdrawalInfo with
  | mk a b =>
    rw [hf] at h1
    rw [BitVec.eq_of_toNat_eq (x := a) (y := (5 : U64)) (Nat.eq_of_beq_eq_true h1.1),
      BitVec.eq_of_toNat_eq (x := b) (y := (10000 : U64)) (Nat.eq_of_beq_eq_true h1.2)]

private theorem followed5 : Toy.Followed Toy.wd5 (Toy.get Toy.tpS0) := by
  refine Toy.followed_tp (Toy.followed_tp (Toy.followed_tp (Toy.followed_tp (Toy.followed_tp (Toy.followed_rl (Toy.followed_start ?_) rfl ?_
    ?_) rfl ?_ ?_) rfl ?_ ?_) rfl ?_ ?_) rfl ?_ ?_) rfl ?_ ?_
  checked

example : ∃ (t0 tr : List Ev) (w' : World) (t : TokenSettings), (∃ w0, Genesis Toy.env Toy.L w0 ∧ Run Toy.env Toy.L true w0 t0 (Toy.get Toy.tpS0)) ∧
    Run Toy.env Toy.L true (Toy.get Toy.tpS0) tr w' ∧ TokenAt Toy.env (Toy.get Toy.tpS0) Toy.tpStar t ∧ Live (Toy.get Toy.tpS0) Toy.tpStar ∧
    t.kind = .ever Toy.starMint Toy.star 9#8 ∧ Toy.L Toy.starMint ∧
    (∀ e ∈ tr, ∀ t, TokenAt Toy.env e.pre Toy.tpStar t → t.feeWithdrawalInfo = ⟨5, 10000⟩) ∧
    (∀ e ∈ tr, ∀ ctx i kt' t mi token' d, e.act = .tp ctx i → kt' ∈ ctx.accounts → TokenOf Toy.env ctx e.pre kt' t →
      t.kind = .ever mi token' d → IsAddr Toy.env Toy.env.tpId (mintSeeds Toy.env token') Toy.starMint → token' = Toy.star) ∧
    (∀ k, (∃ e ∈ tr, Approves Toy.tpStar k e) → Toy.L k ∧ Readable Toy.env k (t0 ++ tr) ∧
      (∀ e ∈ tr, ∀ p md, WithdrawalAt Toy.env e.post k p md → OneKind p.event) ∧
      ∀ p md, WithdrawalAt Toy.env (Toy.get Toy.tpS0) k p md → md.status ≠ .waitingForApprove) ∧
    backing (Toy.get Toy.tpS0) Toy.starMint Toy.tpStar = 0 ∧ backing w' Toy.starMint Toy.tpStar = 20025 := by
  obtain ⟨w0, t0, hg, hr0, hrd0⟩ := followed5
  obtain ⟨t, ht, hl, hk, -⟩ := toy_star Toy.reach_tpS0 ?_
  obtain ⟨p0, md0, hp0, hz⟩ := Toy.tfind_withdrawal (w := Toy.get Toy.tpS0) (k := Toy.wd5) (P := fun _ md => decide (md.status = .new)) ?_
  obtain hc : ((match Toy.steps (Toy.get Toy.tpS0) theStar with
    | some (es, w') => es.all fits && Nat.beq (backing w' Toy.starMint Toy.tpStar) 20025
    | none => false) && Nat.beq (backing (Toy.get Toy.tpS0) Toy.starMint Toy.tpStar) 0 && Toy.fair theStar) = true := ?_
  simp only [Bool.and_eq_true] at hc
  obtain ⟨⟨hc, hb0⟩, hprog⟩ := hc
  split at hc
  rotate_left
  · cases hc
  rename_i es w' hst
  simp only [Bool.and_eq_true] at hc
  obtain ⟨hf, hb⟩ := hc
  have hL : Toy.L Toy.wd5 := show Toy.wd5 ∈ Toy.locked by simp [Toy.locked]
  refine ⟨t0, es, w', t, ⟨w0, hg, hr0⟩, Toy.steps_run hst hprog, ht, hl, hk, show Toy.starMint ∈ Toy.locked by simp [Toy.locked],
    fun e he t ht => fits_fee (List.all_eq_true.1 hf e he) ht,
    fun e he ctx i kt' t mi token' d h1 h2 h3 h4 h5 => fits_one (List.all_eq_true.1 hf e he) h1 h2 h3 h4 h5, ?_,
    Nat.eq_of_beq_eq_true hb0, Nat.eq_of_beq_eq_true hb⟩
  rintro k ⟨e, he, ha⟩
  have := fits_key (List.all_eq_true.1 hf e he) ha
  subst this
  have hpl : ∀ e ∈ es, Toy.plain Toy.wd5 e.post = true := fun e he => by
    have := List.all_eq_true.1 hf e he
    unfold fits at this
    simp only [Bool.and_eq_true] at this
    exact this.2
  refine ⟨hL, hrd0.append fun e he _ p md hp => Toy.plain_ok (hpl e he) hp, fun e he p md hp => Toy.plain_kind (hpl e he) hp, fun p md hp => ?_⟩
  rw [(hp.unique hp0).2, of_decide_eq_true hz]
  exact nofun
  checked

/-- C29 (the beginning): before the step that creates a token of Everscale nothing of it exists; after the step, what exists is the amount of the
withdrawal that is paid in it, if any. -/
theorem C29_created {top : Bool} {w0 : World} {tr : List Ev} {e : Ev} {kt km : Pubkey} {t : TokenSettings} {token : EverAddress} {d : U8} (hd : env.Distinct)
    (hg : Genesis env L w0) (h : Run env L top w0 tr w) (he : e ∈ tr) (ht : TokenAt env e.post kt t) (hk : t.kind = .ever km token d) (hL : L km)
    (hn : ∀ t0, ¬ TokenAt env e.pre kt t0) : backing e.pre km kt = 0 ∧ backing e.post km kt = admitted kt e := by
  obtain ⟨t1, t2, htr, hpre⟩ := h.pre e he
  rcases token_back hd (h.evs hd e he) ht with h1 | ⟨ctx, i, hact, hp, hr, ⟨t0, h1, -⟩ | hf⟩
  · exact (hn _ h1).elim
  · exact (hn _ h1).elim
  cases hf with
  | sol _ _ _ _ _ _ _ _ _ _ _ _ _ _ _ _ hc => rw [hc.kind] at hk; cases hk
  | ever kw' r' mint n mn hr' ha hm hc h3 hl =>
    obtain ⟨-, hs, -⟩ := step_run (h.steps e he) hact (by simp) (by simp)
    have hmi := (Run.mintOf hd hg (.tp ctx _ hpre hp hs hr) ht hk hL).1.2
    obtain ⟨m2, hm2, -, hd2, -⟩ := hmi.data
    obtain ⟨kw, km', rc, kt', r, a0, a1, -, a3, hw, hx⟩ := withdrawEver_fx hr
    rw [h3] at a3; cases a3
    rcases hx with ⟨e0, -⟩ | ⟨w1, ⟨-, hne⟩ | ⟨-, hdp⟩, hk1, hnk, s1, m, het, hx⟩
    · rw [e0] at ht; exact (hn _ ht).elim
    · exact (hne hl).elim
    obtain ⟨n1, n2, hfr⟩ := hdp.newToken
    have e1 : s1 = _ := het.1.2.1.unique hfr
    have e3 : t.kind = .ever km' r.event.token r.event.decimals := by
      rcases hx with ⟨e, -⟩ | ⟨-, -, amount, fee, net, st, t2, -, -, -, hrec, hb, -⟩
      · rw [e] at ht; rw [ht.2.1.unique hfr]; rfl
      · rw [← hrec.token.unique ht.2.1, (by rw [hb.rest] : t2.kind = s1.kind), e1]; rfl
    rw [hk] at e3
    obtain ⟨rfl, rfl, rfl⟩ := TokenKind.ever.inj e3
    have hs0 : supply e.pre km = 0 := by
      have := hdp.absent.1
      unfold supply
      split
      · rename_i m' hm'
        rw [hm'] at this
        cases this
      · rfl
    have hf0 : fees e.pre kt = 0 := by
      have := hdp.absent.2.1
      unfold fees
      split
      · rename_i b hb
        rw [hb] at this
        rw [List.eq_nil_of_length_eq_zero this]
        rfl
      · rfl
    have hs1 : supply w1 km = 0 := by rw [hdp.supply, hs0]
    have hf1 : s1.feeSupply.toNat = 0 := by rw [e1]; rfl
    refine ⟨by unfold backing; omega, ?_⟩
    rcases hx with ⟨e0, hno⟩ | ⟨hconf, hnew, amount, fee, net, st, t2, hamt, hfe, hnet, hrec, hb, hou⟩
    · have : admitted kt e = 0 := by
        unfold admitted
        rw [hact]
        have hr2 : Holds (withdrawalC wEverEventC) recLen (e.post.acc kw) r := by rw [e0, hk1]; exact hw.2.1
        simp only [a0, a1, h3, if_true, everRecord_eq hw.2.1, everRecord_eq hr2]
        rw [if_neg]
        rintro ⟨h1, h2, -⟩
        exact hno ⟨h1, h2⟩
      rw [this]
      unfold backing
      rw [e0, hs1, fees_of het.1.2.1, hf1]
    · rcases hou with ⟨hl', -⟩ | ⟨-, rfl, -, hmt, -⟩
      · exfalso
        refine hl' ?_
        rw [e1]
        have := net.isLt
        refine ⟨?_, ?_⟩
        · show net.toNat ≤ (BitVec.allOnes 64).toNat
          rw [BitVec.toNat_allOnes]; omega
        · show releasedOn _ _ + net.toNat ≤ (BitVec.allOnes 64).toNat
          rw [BitVec.toNat_allOnes, show releasedOn (freshTokenSettings n1 n2 (.ever km r.event.token r.event.decimals) r.event.name r.event.symbol)
            (epochOf ctx.now) = 0 from by unfold releasedOn; split <;> rfl]
          omega
      · have hmd : m.decimals = m2.decimals := by
          have := het.2.2.2.2
          rw [hdp.newMint.1] at this
          cases this
          exact hd2.symm
        rw [admitted_eq hact a0 a1 h3 hw.2.1 hrec.record hconf hnew (doneStatus_ne (.inl rfl)) hm2 (hmd ▸ hamt)]
        have h1 := (hmt km).2
        rw [if_pos rfl, hs1] at h1
        have h2 := hb.fee
        unfold backing
        rw [h1, fees_of hrec.token]
        omega

private theorem last_step {c : Ctx} {i : Instr} {w1 w2 : World} (hr : Reach env L w1) (hp : c.program = env.tpId) (hs : ∀ k ∈ c.signers, ¬ L k)
    (hx : run env c noCpi i w1 = .ok w2) : ∃ w0 tr, Genesis env L w0 ∧ Run env L true w0 tr w2 ∧ ⟨.tp c i, w1, w2⟩ ∈ tr := by
  obtain ⟨w0, tr, hg, h⟩ := hr
  exact ⟨w0, _, hg, .tp c i h hp hs hx, List.mem_append_right _ (List.mem_singleton.2 rfl)⟩

/-- The star token is created by the payout of 70000. -/
example : (∃ w0 tr, Genesis Toy.env Toy.L w0 ∧ Run Toy.env Toy.L true w0 tr (Toy.get Toy.tpPaidE) ∧
      ⟨.tp Toy.everCtx .withdrawMultiTokenEver, Toy.get Toy.tpE3, Toy.get Toy.tpPaidE⟩ ∈ tr) ∧
    (∃ t, TokenAt Toy.env (Toy.get Toy.tpPaidE) Toy.tpStar t ∧ t.kind = .ever Toy.starMint Toy.star 9#8) ∧ Toy.L Toy.starMint ∧
    (∀ t0, ¬ TokenAt Toy.env (Toy.get Toy.tpE3) Toy.tpStar t0) ∧ backing (Toy.get Toy.tpPaidE) Toy.starMint Toy.tpStar = 70000 := by
  refine ⟨last_step Toy.reach_tpE3 rfl (Toy.free ?_) (Toy.get_tp (a := Toy.tpE3) (c := Toy.everCtx) (i := .withdrawMultiTokenEver) ?_), ?_,
    show Toy.starMint ∈ Toy.locked by simp [Toy.locked], fun t0 h0 => h0.raw.choose_spec.2 (Nat.eq_of_beq_eq_true ?_), Nat.eq_of_beq_eq_true ?_⟩
  rotate_left 2
  · obtain ⟨t, ht, -, hk, -⟩ := toy_star Toy.reach_tpPaidE (by decide +kernel)
    exact ⟨t, ht, hk⟩
  checked

end Verif.Props
