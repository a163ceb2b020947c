import Verif.Lemmas.NamedReq
import Verif.Lemmas.NamedRL
import Verif.Spec.ToyReachW
import Verif.Spec.ToyTactic
/-!
# C87: transfers do not affect each other

What happens to one withdrawal leaves the record and the lamports of all others alone.
-/
set_option linter.unusedSimpArgs false
set_option maxRecDepth 100000
namespace Verif.Props
open Verif TP Codec

variable {env : Env} {L : Pubkey → Prop} {ctx : Ctx} {w w' : World} {tr : List Ev} {top : Bool} {i : TP.Instr}

/-- C87: an instruction leaves every withdrawal alone that it does not name: the record keeps every byte, and no lamports are taken. -/
theorem C87_record {kw : Pubkey} {p : GenericProposal} {md : WMeta} (hd : env.Distinct) (hp : ctx.program = env.tpId)
    (h : TP.run env ctx noCpi i w = .ok w') (hw : WithdrawalAt env w kw p md) (hn : kw ∉ namedRequests ctx i) :
    WithdrawalAt env w' kw p md ∧ (w'.acc kw).data = (w.acc kw).data ∧ (w.acc kw).lamports ≤ (w'.acc kw).lamports := by
  obtain ⟨h1, h2, h3⟩ := request_unnamed hd hp h hw hn
  refine ⟨⟨h1.trans hw.1, ?_, hw.2.2⟩, h2, h3⟩
  unfold Holds
  rw [h2]
  exact hw.2.1

/-- C87: of two withdrawals, an instruction other than a fill changes at most one. -/
theorem C87_one {k1 k2 : Pubkey} {p1 p2 : GenericProposal} {m1 m2 : WMeta} (hd : env.Distinct) (hp : ctx.program = env.tpId)
    (h : TP.run env ctx noCpi i w = .ok w') (hf : ∀ sd rc a v e p, i ≠ .fillWithdrawSol sd rc a v e p)
    (h1 : WithdrawalAt env w k1 p1 m1) (h2 : WithdrawalAt env w k2 p2 m2) (hne : k1 ≠ k2) :
    WithdrawalAt env w' k1 p1 m1 ∨ WithdrawalAt env w' k2 p2 m2 := by
  by_cases e1 : k1 ∈ namedRequests ctx i
  · by_cases e2 : k2 ∈ namedRequests ctx i
    · exfalso
      have one : ∀ {o : Option Pubkey}, k1 ∈ o.toList → k2 ∈ o.toList → False := by
        intro o a b
        rw [Option.mem_toList] at a b
        exact hne (Option.some.inj (a.symm.trans b))
      cases i with
      | fillWithdrawSol sd rc a v e p => exact hf _ _ _ _ _ _ rfl
      | voteForWithdrawRequest _ | withdrawMultiTokenEver | withdrawMultiTokenSol | approveWithdrawEver | approveWithdrawSol | executePayloadEver
      | executePayloadSol | changeBountyForWithdrawSol _ | cancelWithdrawSol _ _ _ _ _ | closeWithdrawal => exact one e1 e2
      | _ => cases e1
    · exact .inr (C87_record hd hp h h2 e2).1
  · exact .inl (C87_record hd hp h h1 e1).1

/-- C87: along every history, whatever happens to other withdrawals, and whatever payloads of others do, the record of a withdrawal that no step
names stays as it is. -/
theorem C87_history {kw : Pubkey} {p : GenericProposal} {md : WMeta} (hd : env.Distinct) (hr : Run env L top w tr w')
    (hw : WithdrawalAt env w kw p md) (hl : Live w kw)
    (hn : ∀ e ∈ tr, ∀ ctx i, e.act = .tp ctx i → kw ∉ namedRequests ctx i) :
    WithdrawalAt env w' kw p md ∧ (w'.acc kw).data = (w.acc kw).data ∧ (w.acc kw).lamports ≤ (w'.acc kw).lamports := by
  have key := hr.fold (P := fun x _ => WithdrawalAt env x kw p md ∧ (x.acc kw).data = (w.acc kw).data ∧ (w.acc kw).lamports ≤ (x.acc kw).lamports) []
    ⟨hw, rfl, Nat.le_refl _⟩ (by
    rintro e he _ ⟨h1, h2, h3⟩
    cases hr.evs hd e he with
    | quiet hact h =>
      obtain ⟨a, b, c⟩ := (h kw).1 h1.1
      exact ⟨⟨a, by unfold Holds; rw [b]; exact h1.2.1, h1.2.2⟩, b.trans h2, Nat.le_trans h3 c⟩
    | tp ctx i hact hp hs hrun =>
      obtain ⟨a, b, c⟩ := C87_record hd hp hrun h1 (hn e he ctx i hact)
      exact ⟨a, b.trans h2, Nat.le_trans h3 c⟩
    | stale ctx i q w1 hact hp hs hst =>
      have a := hst.unnamed (hn e he ctx i hact)
      unfold WithdrawalAt
      rw [a]
      exact ⟨h1, h2, h3⟩
    | purge hact h =>
      have a := h.2 kw
      rw [if_neg (by unfold Live at hl; omega)] at a
      unfold WithdrawalAt
      rw [a]
      exact ⟨h1, h2, h3⟩)
  exact key

/-- C87: the same for proposals of new relay rounds: an instruction of the round loader leaves every proposal alone, finished or not, that it does not
name. -/
theorem C87_proposal {j : RL.Instr} {k : Pubkey} {p : RL.Proposal} {n : U8} {pn : Option U8} (hd : env.Distinct) (hp : ctx.program = env.rlId)
    (h : RL.run env ctx j w = .ok w') (ho : (w.acc k).owner = env.rlId) (hh : Holds RL.proposalC RL.proposalLen (w.acc k) p)
    (hk : p.accountKind = .proposal n pn) (hn : RL.namedProposal ctx j ≠ some k) :
    (w'.acc k).owner = env.rlId ∧ (w'.acc k).data = (w.acc k).data ∧ (w.acc k).lamports ≤ (w'.acc k).lamports := by
  obtain ⟨h1, h2, h3⟩ := RL.proposal_unnamed hd hp h ho hh hk hn
  exact ⟨h1.trans ho, h2, h3⟩

/-- C87: along every history a proposal that no instruction of the round loader names stays as it is. -/
theorem C87_proposal_history {k : Pubkey} {p : RL.Proposal} {n : U8} {pn : Option U8} (hd : env.Distinct) (hr : Run env L top w tr w')
    (ho : (w.acc k).owner = env.rlId) (hh : Holds RL.proposalC RL.proposalLen (w.acc k) p) (hk : p.accountKind = .proposal n pn) (hl : Live w k)
    (hn : ∀ e ∈ tr, ∀ ctx j, e.act = .rl ctx j → RL.namedProposal ctx j ≠ some k) :
    (w'.acc k).owner = env.rlId ∧ (w'.acc k).data = (w.acc k).data ∧ (w.acc k).lamports ≤ (w'.acc k).lamports := by
  have hst := hr.rlSteps hd
  clear hr
  induction hst with
  | nil => exact ⟨ho, rfl, Nat.le_refl _⟩
  | snoc e h1 hpre he ih =>
    obtain ⟨a, b, c⟩ := ih (fun e' h' => hn e' (List.mem_append_left _ h'))
    subst hpre
    have hn := hn e (List.mem_append_right _ (List.mem_singleton.2 rfl))
    obtain ⟨act, pre, post⟩ := e
    have quiet : QuietFor env.rlId L pre post → (post.acc k).owner = env.rlId ∧ (post.acc k).data = (w.acc k).data ∧
        (w.acc k).lamports ≤ (post.acc k).lamports := by
      intro hq
      obtain ⟨q1, q2, q3⟩ := (hq k).1 a
      exact ⟨q1, q2.trans b, Nat.le_trans c q3⟩
    cases act with
    | rl ctx j =>
      obtain ⟨q1, q2, q3⟩ := C87_proposal hd he.1 he.2.2 a (show Holds _ _ _ _ by unfold Holds; rw [b]; exact hh) hk (hn ctx j rfl)
      exact ⟨q1, q2.trans b, Nat.le_trans c q3⟩
    | tp ctx j => exact quiet he
    | ext => exact quiet he
    | purge =>
      have hx : post.acc k = _ := he.2 k
      simp only at a b c hx
      rw [if_neg (by unfold Live at hl; omega)] at hx
      simp only [hx]
      exact ⟨a, b, c⟩

private theorem toy_transfers {w1 w2 : World} {c : Ctx} {i : TP.Instr} (h : TP.run Toy.env c noCpi i w1 = .ok w2)
    (hc : c.program = Toy.env.tpId) (hf : ∀ k ∈ c.signers, ¬ Toy.L k) {k1 k2 : Pubkey}
    (h1 : Toy.tchk GenericProposal.codec (fun p => p.isInitialized && ((match p.accountKind with | .proposal _ _ => true | _ => false) &&
      (wmetaC.decAll p.metaData).isSome)) w1 k1 = true)
    (h2 : (namedRequests c i).contains k1 = false) (h3 : (namedRequests c i).contains k2 = true) :
    ∃ p md, WithdrawalAt Toy.env w1 k1 p md ∧ Live w1 k1 ∧ k2 ∈ namedRequests c i ∧ WithdrawalAt Toy.env w2 k1 p md ∧
      ∃ tr, Run Toy.env Toy.L true w1 tr w2 ∧ tr ≠ [] ∧ ∀ e ∈ tr, ∀ ctx i, e.act = .tp ctx i → k1 ∉ namedRequests ctx i := by
  obtain ⟨p, ho, hl, hh, hP⟩ := Toy.tfind h1
  simp only [Bool.and_eq_true] at hP
  obtain ⟨hi, hk, hm⟩ := hP
  obtain ⟨md, hm⟩ := Option.isSome_iff_exists.1 hm
  have hk : ∃ n pn, p.accountKind = .proposal n pn := by
    revert hk
    cases p.accountKind with
    | proposal n pn => exact fun _ => ⟨n, pn, rfl⟩
    | _ => exact nofun
  have hn : k1 ∉ namedRequests c i := by
    intro hx
    rw [← List.contains_iff_mem] at hx
    rw [hx] at h2
    cases h2
  have hw : WithdrawalAt Toy.env w1 k1 p md := ⟨ho, hh, hi, hk, hm⟩
  have hr : Run Toy.env Toy.L true w1 ([] ++ [⟨.tp c i, w1, w2⟩]) w2 := .tp c i (.nil _ _) hc hf h
  refine ⟨p, md, hw, hl, List.contains_iff_mem.1 h3, (C87_record Toy.distinct hc h hw hn).1, _, hr, by simp, ?_⟩
  intro e he ctx j hact
  simp only [List.nil_append, List.mem_singleton] at he
  subst he
  cases hact
  exact hn

/-- Two requests at the same time: one is confirmed, the other was just made. -/
private def tpTwo : Except Err World := Toy.tp Toy.tpVote3 (Toy.reqCtx Toy.wd2) (.withdrawMultiTokenSolRequest Toy.pda1 Toy.bob 90000 [] 0)
private def tpTwoPaid : Except Err World := Toy.tp tpTwo (Toy.solCtx Toy.wd1 Toy.bobGold) .withdrawMultiTokenSol

/-- The first is paid, the second stays. -/
example : ∃ p md, WithdrawalAt Toy.env (Toy.get tpTwo) Toy.wd2 p md ∧ Live (Toy.get tpTwo) Toy.wd2 ∧
      Toy.wd1 ∈ namedRequests (Toy.solCtx Toy.wd1 Toy.bobGold) .withdrawMultiTokenSol ∧ WithdrawalAt Toy.env (Toy.get tpTwoPaid) Toy.wd2 p md ∧
      ∃ tr, Run Toy.env Toy.L true (Toy.get tpTwo) tr (Toy.get tpTwoPaid) ∧ tr ≠ [] ∧ ∀ e ∈ tr, ∀ ctx i, e.act = .tp ctx i → Toy.wd2 ∉ namedRequests ctx i := by
  have hrun : TP.run Toy.env (Toy.solCtx Toy.wd1 Toy.bobGold) noCpi .withdrawMultiTokenSol (Toy.get tpTwo) = .ok (Toy.get tpTwoPaid) :=
    Toy.get_tp (a := tpTwo) (by decide +kernel)
  refine toy_transfers hrun rfl (Toy.free ?_) ?_ ?_ ?_
  checked

/-- Another proposal for the same round, just opened. -/
private def pda3 : PDA := ⟨100, 200, 301⟩
private def prop3 : Pubkey := Toy.addr (proposalSeeds 1 pda3 Toy.ev2Hash) Toy.env.rlId
private def rlTwo : Except Err World := do
  let w ← Toy.rlVoted
  RL.run Toy.env (Toy.ctx Toy.env.rlId [Toy.funder, Toy.stranger, prop3, Toy.env.systemId, Toy.env.rentId] [Toy.funder, Toy.stranger])
    (.createProposal 1 pda3 Toy.ev2Hash) w
private def rlTwoDone : Except Err World := do
  let w ← rlTwo
  RL.run Toy.env Toy.rlExecuteCtx .executeProposal w

/-- The first is executed, the second stays. -/
example : ∃ (p : RL.Proposal) (n : U8) (pn : Option U8), ((Toy.get rlTwo).acc prop3).owner = Toy.env.rlId ∧
      Holds RL.proposalC RL.proposalLen ((Toy.get rlTwo).acc prop3) p ∧ p.accountKind = .proposal n pn ∧
      RL.namedProposal Toy.rlExecuteCtx .executeProposal = some Toy.prop2 ∧ Toy.prop2 ≠ prop3 ∧
      ((Toy.get rlTwoDone).acc prop3).data = ((Toy.get rlTwo).acc prop3).data := by
  have hrun : RL.run Toy.env Toy.rlExecuteCtx .executeProposal (Toy.get rlTwo) = .ok (Toy.get rlTwoDone) :=
    Toy.get_bind (a := rlTwo) (by decide +kernel)
  obtain ⟨p, ho, hh, hP⟩ := Toy.find (c := RL.proposalC) (len := RL.proposalLen)
    (P := fun p => match p.accountKind with | .proposal _ _ => true | _ => false) (w := Toy.get rlTwo) (k := prop3) (by decide +kernel)
  have hk : ∃ n pn, p.accountKind = .proposal n pn := by
    revert hP
    cases p.accountKind with
    | proposal n pn => exact fun _ => ⟨n, pn, rfl⟩
    | _ => exact nofun
  obtain ⟨n, pn, hk⟩ := hk
  have hne : Toy.prop2 ≠ prop3 := by decide +kernel
  exact ⟨p, n, pn, ho, hh, hk, rfl, hne, (C87_proposal Toy.distinct rfl hrun ho hh hk (fun e => hne (Option.some.inj e))).2.1⟩

end Verif.Props
