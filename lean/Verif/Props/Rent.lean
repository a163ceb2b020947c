import Verif.Lemmas.Rent
import Verif.Lemmas.RLHist
import Verif.Lemmas.WReq
import Verif.Spec.Rent
import Verif.Spec.ToySteps
import Verif.Spec.ToyReachTP
import Verif.Spec.ToyTactic
/-!
# C76: the records of the bridge keep their rent
-/
set_option maxRecDepth 100000
namespace Verif.Props
open Verif TP

variable {env : Env} {L : Pubkey → Prop} {w w' : World} {k : Pubkey}

/-! ## What is kept -/

/-- C76 (round loader): in every reachable state the settings have at least the rent of their size. -/
theorem C76_round_settings {s : RL.Settings} (hd : env.Distinct) (h : Reach env L w) (hs : RL.SettingsAt env w k s) :
    env.minimum RL.settingsLen ≤ (w.acc k).lamports :=
  RL.settings_live (RL.good_reach hd h) hs.2.1 hs.2.2 hs.1

/-- C76 (round loader): the same for every relay round. -/
theorem C76_round {r : RL.RelayRound} (hd : env.Distinct) (h : Reach env L w) (hr : RL.RoundAt env w k r) :
    env.minimum RL.relayRoundLen ≤ (w.acc k).lamports :=
  RL.round_live (RL.good_reach hd h) hr.2.1 hr.2.2 hr.1

/-- C76 (round loader): the same for every proposal from its creation on. -/
theorem C76_proposal {p : RL.Proposal} {n : U8} {pn : Option U8} (hd : env.Distinct) (h : Reach env L w) (ho : (w.acc k).owner = env.rlId)
    (hp : Holds RL.proposalC RL.proposalLen (w.acc k) p) (hk : p.accountKind = .proposal n pn) :
    env.minimum RL.proposalLen ≤ (w.acc k).lamports :=
  RL.proposal_live (RL.good_reach hd h) hp hk ho

/-- C76 (round loader): a finalized proposal has 20000 lamports more for every relay that has not voted. -/
theorem C76_finalized {p : RL.Proposal} (hd : env.Distinct) (h : Reach env L w) (hp : RL.FinalAt env w k p) :
    env.minimum RL.proposalLen + 20000 * p.signers.count .none ≤ (w.acc k).lamports := by
  have := ((RL.good_reach hd h).sound hp.2.1 hp.2.2 hp.1).funded
  simp only [relayReparation, RL.unvoted] at this
  simp only [Env.minimum]
  omega

/-- C76 (token proxy): in every reachable state the settings have at least the rent of their size. -/
theorem C76_settings {s : Settings} (hd : env.Distinct) (h : Reach env L w) (hs : SettingsAt env w k s) :
    env.minimum recLen ≤ (w.acc k).lamports := by
  obtain ⟨n, pn, hk⟩ := hs.2.2.2
  have := h.paid hd (.inl ⟨n, pn, hk⟩) hs.marked
  obtain ⟨b, r, hb, hl, -⟩ := hs.2.1
  rwa [hb, show (Data.raw b).len = recLen from hl] at this

/-- C76 (token proxy): the same for the settings of every token. -/
theorem C76_token {t : TokenSettings} (hd : env.Distinct) (h : Reach env L w) (ht : TokenAt env w k t) :
    env.minimum recLen ≤ (w.acc k).lamports := by
  obtain ⟨n, vn, hk⟩ := ht.2.2.2
  have := h.paid hd (.inr (.inl ⟨n, vn, hk⟩)) ht.marked
  obtain ⟨b, r, hb, hl, -⟩ := ht.2.1
  rwa [hb, show (Data.raw b).len = recLen from hl] at this

/-- C76 (token proxy): the same for every deposit. -/
theorem C76_deposit {g : GenericDeposit} (hd : env.Distinct) (h : Reach env L w) (hg : DepositAt env w k g) :
    env.minimum recLen ≤ (w.acc k).lamports := by
  obtain ⟨ho, ⟨b, r, hb, hl, hdec⟩, hi, n, hk⟩ := hg
  obtain ⟨s, hs⟩ := header_genericDeposit hdec
  rw [hi] at hs
  have := h.paid hd (.inr (.inr ⟨n, hk⟩)) ⟨ho, b, s, hb, hs⟩
  rwa [hb, show (Data.raw b).len = recLen from hl] at this

/-- C76 (token proxy): a withdrawal that is neither processed nor cancelled has its rent and 20000 lamports for every relay that has not voted. -/
theorem C76_withdrawal {tr : List Ev} {p : GenericProposal} {md : WMeta} (hd : env.Distinct) (h : History env L k tr w)
    (hw : WithdrawalAt env w k p md) (hs : md.status ≠ .processed ∧ md.status ≠ .cancelled) :
    env.minimum recLen + 20000 * p.signers.count .none ≤ (w.acc k).lamports := by
  have := ((h.evs hd).1.good hw).funded (by revert hs; cases md.status <;> simp [WStatus.final])
  simp only [relayReparation] at this
  simp only [Env.minimum]
  omega

/-- The settings, a round and a proposal of the toy chain, while the relays vote. -/
example : ∃ w s r p, Reach Toy.env Toy.L w ∧ RL.SettingsAt Toy.env w Toy.rlSettings s ∧ RL.RoundAt Toy.env w (Toy.rlRound 1) r ∧
    RL.FinalAt Toy.env w Toy.prop2 p ∧ p.signers[2]? = some .none := by
  obtain ⟨s, hs, -⟩ := Toy.find_settings (P := fun _ => true) (w := Toy.get Toy.rlVoted2) (k := Toy.rlSettings) ?_
  obtain ⟨r, hr, -⟩ := Toy.find_round (P := fun _ => true) (w := Toy.get Toy.rlVoted2) (k := Toy.rlRound 1) ?_
  obtain ⟨p, hp, h2⟩ := Toy.find_final (P := fun p => p.signers[2]? == some .none) (w := Toy.get Toy.rlVoted2) (k := Toy.prop2) ?_
  exact ⟨_, s, r, p, Toy.reach_voted2, hs, hr, hp, eq_of_beq h2⟩
  checked

/-- The settings of the token proxy, of a token, and a deposit. -/
example : ∃ w s t g, Reach Toy.env Toy.L w ∧ SettingsAt Toy.env w Toy.tpSettings s ∧ TokenAt Toy.env w Toy.tpGold t ∧
    DepositAt Toy.env w (Toy.tpDep 1) g := by
  obtain ⟨s, hs, -, -⟩ := Toy.tfind_settings (P := fun _ => true) (w := Toy.get Toy.tpDeposited) (k := Toy.tpSettings) ?_
  obtain ⟨t, ht, -, -⟩ := Toy.tfind_token (P := fun _ => true) (w := Toy.get Toy.tpDeposited) (k := Toy.tpGold) ?_
  obtain ⟨g, ho, hl, hg, hP⟩ := Toy.tfind (c := genericDepositC) (w := Toy.get Toy.tpDeposited) (k := Toy.tpDep 1)
    (P := fun g => g.isInitialized && g.accountKind.intoDeposit.isSome) ?_
  simp only [Bool.and_eq_true, Option.isSome_iff_exists] at hP
  obtain ⟨hi, n, hn⟩ := hP
  exact ⟨_, s, t, g, Toy.reach_tpDeposited, hs, ht, ho, hg, hi, n, intoDeposit_some.1 hn⟩
  checked

/-- A withdrawal with two votes. -/
example : ∃ tr p md, History Toy.env Toy.L Toy.wd1 tr (Toy.get Toy.tpVote2) ∧ WithdrawalAt Toy.env (Toy.get Toy.tpVote2) Toy.wd1 p md ∧
    md.status ≠ .processed ∧ md.status ≠ .cancelled := by
  obtain ⟨tr, h⟩ := Toy.followed_tpVote2.history ?_
  obtain ⟨p, md, h1, h2⟩ := Toy.tfind_withdrawal (P := fun p md => md.status == .new) (w := Toy.get Toy.tpVote2) (k := Toy.wd1) ?_
  exact ⟨tr, p, md, h, h1, by rw [eq_of_beq h2]; decide, by rw [eq_of_beq h2]; decide⟩
  checked

/-! ## Who takes lamports -/

/-- C76 (round loader): along every history only votes take lamports from accounts of the round loader. -/
theorem C76_round_loader_takes {top : Bool} {tr : List Ev} (hd : env.Distinct) (h : Run env L top w tr w') {e : Ev} (he : e ∈ tr)
    (ho : (e.pre.acc k).owner = env.rlId) (hl : (e.post.acc k).lamports < (e.pre.acc k).lamports) : RL.Takes k e := by
  have := ((h.rlSteps hd).mem (I := fun _ => True) (fun _ _ _ => trivial) trivial e he).2
  obtain ⟨act, pre, post⟩ := e
  cases act with
  | rl ctx i =>
    obtain ⟨hp, -, hr⟩ := this
    simp only at hr hl ho
    by_cases hv : ∃ v, i = .voteForProposal v
    · obtain ⟨v, rfl⟩ := hv
      obtain ⟨voter, kp, kr, p, rr, j, old, h0, h1, -, hsig, -, -, -, -, -, -, -, -, -, hor⟩ := RL.vote_fx hr
      rcases hor with ⟨-, rfl⟩ | ⟨-, -, -, hx⟩
      · exact (Nat.lt_irrefl _ hl).elim
      · have e1 := (hx k).2.2
        have e2 := (hx voter).2.2.1
        have hk : k = kp := by
          apply Classical.byContradiction
          intro hne
          rw [if_neg hne] at e1
          omega
        subst hk
        have hne : k ≠ voter := by
          intro hne
          have := e1.2 rfl
          rw [if_pos rfl, if_pos hne] at e1
          omega
        rw [if_pos rfl, if_neg hne] at e1
        rw [if_neg (Ne.symm hne), if_pos rfl] at e2
        have := e1.2 rfl
        exact ⟨ctx, v, voter, rfl, h0, h1, hsig, by simp only; omega, by simp only; omega⟩
    · exfalso
      have hk := (RL.run_ops hr).lift (R := fun x y => (x.acc k).owner = env.rlId → (y.acc k).owner = env.rlId ∧ (x.acc k).lamports ≤ (y.acc k).lamports)
        (fun _ h => ⟨h, Nat.le_refl _⟩) (fun _ _ _ f g h => ⟨(g (f h).1).1, Nat.le_trans (f h).2 (g (f h).1).2⟩) ?_ ho
      · omega
      · intro op x y hW hex hox
        cases own_step hex (hox.trans hp.symm) (by rw [hp]; exact hd.rlSys) (by rw [hp]; exact hd.rlSpl) with
        | keep ho' hd' hl => exact ⟨ho'.trans hox, hl⟩
        | move z n hop ho' hd' hl =>
          subst hop
          cases hW with
          | pay _ _ v hi => exact (hv ⟨v, hi⟩).elim
        | write b1 b' hop hb1 hlen h => rw [h]; exact ⟨hox, Nat.le_refl _⟩
        | close hop h => subst hop; cases hW
  | tp ctx i => exact absurd ((this k).1 ho).2.2 (Nat.not_le.2 hl)
  | ext => exact absurd ((this k).1 ho).2.2 (Nat.not_le.2 hl)
  | purge =>
    simp only [RlEv] at this
    have e1 := this.2 k
    simp only at hl
    rw [e1] at hl
    split at hl <;> simp_all

/-- C76 (token proxy): along every history lamports of an account of the token proxy are taken only by a vote, by closing the record, or from the multi
vault. -/
theorem C76_token_proxy_takes {top : Bool} {tr : List Ev} (hd : env.Distinct) (h : Run env L top w tr w') {e : Ev} (he : e ∈ tr)
    (ho : (e.pre.acc k).owner = env.tpId) (hl : (e.post.acc k).lamports < (e.pre.acc k).lamports) : TP.Takes env k e := by
  have := h.evs hd e he
  obtain ⟨act, pre, post⟩ := e
  cases this with
  | quiet hact hq => exact absurd ((hq k).1 ho).2.2 (Nat.not_le.2 hl)
  | purge hact hq =>
    have e1 := hq.2 k
    simp only at hl e1
    rw [e1] at hl
    split at hl <;> simp_all
  | stale ctx i p w1 hact hp hs hst =>
    exfalso
    rcases hst.write with e | ⟨k', b, b', hb, hl', ho', hw, e⟩
    · simp only at hl e; rw [e] at hl; exact Nat.lt_irrefl _ hl
    · simp only at hl e
      rw [e] at hl
      by_cases hk : k = k'
      · subst hk; simp at hl
      · simp [hk] at hl
  | tp ctx i hact hp hs hr =>
    simp only at hact hr hl ho
    by_cases h1 : i = .closeDeposit
    · subst h1
      obtain ⟨k', sd, d, b, r, a0, a1, hsig, hb, hdd, -, -, -, hne, hk, hlog, hx⟩ := closeDeposit_fx hr
      have hkk : k = k' := by
        apply Classical.byContradiction
        intro hne
        rw [hx k hne] at hl
        simp only at hl
        omega
      subst hkk
      refine .deposit ctx d hact a1 ⟨b, r, hb, hdd⟩ hsig ⟨hne, ?_, ?_, ?_, hlog⟩
      · exact ⟨congrArg Account.lamports hk, congrArg Account.owner hk, _, congrArg Account.data hk⟩
      · have := hx _ hne; rwa [if_pos rfl] at this
      · intro x h1 h2; have := hx x h1; rwa [if_neg h2] at this
    by_cases h2 : i = .closeWithdrawal
    · subst h2
      obtain ⟨kp, p, md, a0, a1, hp', hmd, hf, hne, hk, hlog, hx⟩ := closeWithdrawal_fx hr
      have hkk : k = kp := by
        apply Classical.byContradiction
        intro hne
        rw [hx k hne] at hl
        simp only at hl
        omega
      subst hkk
      obtain ⟨⟨b, r, hb, hdd⟩, -⟩ := loadGeneric_ok.1 hp'
      refine .withdrawal ctx p md hact a0 ⟨b, r, hb, hdd⟩ hmd hf ⟨hne, ?_, ?_, ?_, hlog⟩
      · exact ⟨congrArg Account.lamports hk, congrArg Account.owner hk, _, congrArg Account.data hk⟩
      · have := hx _ hne; rwa [if_pos rfl] at this
      · intro x h1 h2; have := hx x h1; rwa [if_neg h2] at this
    by_cases h3 : ∃ v, i = .voteForWithdrawRequest v
    · obtain ⟨v, rfl⟩ := h3
      obtain ⟨voter, kp, kr, p, rr, j, old, h0, h1, -, hsig, -, -, -, -, -, -, -, -, -, -, hor⟩ := TP.vote_fx hr
      rcases hor with ⟨-, rfl⟩ | ⟨-, -, -, -, hx⟩
      · exact (Nat.lt_irrefl _ hl).elim
      · have e1 := (hx k).2.2
        have e2 := (hx voter).2.2.1
        have hk : k = kp := by
          apply Classical.byContradiction
          intro hne
          rw [if_neg hne] at e1
          omega
        subst hk
        have hne : k ≠ voter := by
          intro hne
          have := e1.2 rfl
          rw [if_pos rfl, if_pos hne] at e1
          omega
        rw [if_pos rfl, if_neg hne] at e1
        rw [if_neg (Ne.symm hne), if_pos rfl] at e2
        have := e1.2 rfl
        exact .vote ctx v voter hact h0 h1 hsig (by simp only; omega) (by simp only; omega)
    by_cases h4 : ∃ n, i = .withdrawMultiVault n
    · obtain ⟨n, rfl⟩ := h4
      obtain ⟨hu, kv, rc, a2, a1, ha, hle, hx⟩ := multiVault_fx hr
      have e1 := hx k
      rw [e1] at hl
      simp only at hl
      have hk : k = kv := by
        apply Classical.byContradiction
        intro hne
        rw [if_neg hne] at hl
        omega
      subst hk
      have hne : k ≠ rc := by
        intro hne
        rw [if_pos rfl, if_pos hne] at hl
        omega
      refine .multiVault ctx n hact a2 (by rw [← hp]; exact ha) hu ?_
      have e2 := congrArg Account.lamports e1
      rw [if_pos rfl, if_neg hne] at e2
      simp only at e2 ⊢
      omega
    exfalso
    have hk := (run_ops hr).lift (R := fun x y => (x.acc k).owner = env.tpId → (y.acc k).owner = env.tpId ∧ (x.acc k).lamports ≤ (y.acc k).lamports)
      (fun _ h => ⟨h, Nat.le_refl _⟩) (fun _ _ _ f g h => ⟨(g (f h).1).1, Nat.le_trans (f h).2 (g (f h).1).2⟩) ?_ ho
    · omega
    · intro op x y hW hex hox
      cases own_step hex (hox.trans hp.symm) (by rw [hp]; exact hd.tpSys) (by rw [hp]; exact hd.tpSpl) with
      | keep ho' hd' hl => exact ⟨ho'.trans hox, hl⟩
      | move z n hop ho' hd' hl =>
        subst hop
        cases hW with
        | votePay _ _ v hi => exact (h3 ⟨v, hi⟩).elim
        | multiPay _ _ n hi => exact (h4 ⟨n, hi⟩).elim
        | closePay _ _ _ hi => exact (hi.elim h1 h2).elim
      | write b1 b' hop hb1 hlen h => rw [h]; exact ⟨hox, Nat.le_refl _⟩
      | close hop h =>
        subst hop
        cases hW with
        | closeDeposit _ _ _ _ _ hi => exact (h1 hi).elim
        | closeWithdrawal _ _ _ hi => exact (h2 hi).elim

private def taken (own : Nat) (k : Pubkey) (pre post : World) : Bool :=
  Nat.beq (pre.acc k).owner.toNat own && Nat.blt (post.acc k).lamports (pre.acc k).lamports

private theorem one_rl {c : Ctx} {i : RL.Instr} {w w' : World} (h : RL.run Toy.env c i w = .ok w') (hp : Nat.beq c.program.toNat 7 = true)
    (hs : (c.signers.all fun k => Nat.blt k.toNat 2000) = true) (ht : taken 7 k w w' = true) :
    ∃ tr e, Run Toy.env Toy.L true w tr w' ∧ e ∈ tr ∧ (e.pre.acc k).owner = Toy.env.rlId ∧ (e.post.acc k).lamports < (e.pre.acc k).lamports := by
  simp only [taken, Bool.and_eq_true] at ht
  have r : Run Toy.env Toy.L true w ([] ++ [⟨.rl c i, w, w'⟩]) w' :=
    .rl c i (.nil _ _) (BitVec.eq_of_toNat_eq (Nat.eq_of_beq_eq_true hp)) (Toy.free hs) h
  have h2 := ht.2
  rw [Nat.blt_eq] at h2
  exact ⟨_, _, r, List.mem_append_right _ (List.mem_singleton.2 rfl), BitVec.eq_of_toNat_eq (Nat.eq_of_beq_eq_true ht.1), h2⟩

private theorem one_tp {c : Ctx} {i : Instr} {w w' : World} (h : TP.run Toy.env c noCpi i w = .ok w') (hp : Nat.beq c.program.toNat 8 = true)
    (hs : (c.signers.all fun k => Nat.blt k.toNat 2000) = true) (ht : taken 8 k w w' = true) :
    ∃ tr e, Run Toy.env Toy.L true w tr w' ∧ e ∈ tr ∧ (e.pre.acc k).owner = Toy.env.tpId ∧ (e.post.acc k).lamports < (e.pre.acc k).lamports := by
  simp only [taken, Bool.and_eq_true] at ht
  have r : Run Toy.env Toy.L true w ([] ++ [⟨.tp c i, w, w'⟩]) w' :=
    .tp c i (.nil _ _) (BitVec.eq_of_toNat_eq (Nat.eq_of_beq_eq_true hp)) (Toy.free hs) h
  have h2 := ht.2
  rw [Nat.blt_eq] at h2
  exact ⟨_, _, r, List.mem_append_right _ (List.mem_singleton.2 rfl), BitVec.eq_of_toNat_eq (Nat.eq_of_beq_eq_true ht.1), h2⟩

/-- A vote on a proposal takes lamports from it. -/
example : ∃ w' tr e, Run Toy.env Toy.L true (Toy.get Toy.rlVoted2) tr w' ∧ e ∈ tr ∧ (e.pre.acc Toy.prop2).owner = Toy.env.rlId ∧
    (e.post.acc Toy.prop2).lamports < (e.pre.acc Toy.prop2).lamports := by
  obtain h := Toy.get_ok (r := RL.run Toy.env (Toy.rlVoteCtx 2) (.voteForProposal .confirm) (Toy.get Toy.rlVoted2)) ?_
  refine ⟨_, one_rl (c := Toy.rlVoteCtx 2) (i := .voteForProposal .confirm) h ?_ ?_ ?_⟩
  checked

/-- A vote on a withdrawal takes lamports from it. -/
example : ∃ w' tr e, Run Toy.env Toy.L true (Toy.get Toy.tpVote2) tr w' ∧ e ∈ tr ∧ (e.pre.acc Toy.wd1).owner = Toy.env.tpId ∧
    (e.post.acc Toy.wd1).lamports < (e.pre.acc Toy.wd1).lamports := by
  obtain h := Toy.get_ok (r := TP.run Toy.env (Toy.voteCtx Toy.wd1 2) noCpi (.voteForWithdrawRequest .confirm) (Toy.get Toy.tpVote2)) ?_
  refine ⟨_, one_tp (c := Toy.voteCtx Toy.wd1 2) (i := .voteForWithdrawRequest .confirm) h ?_ ?_ ?_⟩
  checked

end Verif.Props
