import Verif.Lemmas.WPay
import Verif.Lemmas.TPFill
import Verif.Spec.LifeCycle
/-!
# The life of a withdrawal
-/
namespace Verif

theorem snoc_cases {t1 t2 tr : List Ev} {e x : Ev} (h : tr ++ [x] = t1 ++ e :: t2) :
    (t2 = [] ∧ e = x ∧ tr = t1) ∨ ∃ t3, t2 = t3 ++ [x] ∧ tr = t1 ++ e :: t3 := by
  rcases List.eq_nil_or_concat t2 with rfl | ⟨t3, y, rfl⟩
  · obtain ⟨h1, h2⟩ := List.append_inj' h rfl
    cases h2
    exact .inl ⟨rfl, rfl, h1⟩
  · right
    rw [List.concat_eq_append, ← List.cons_append, ← List.append_assoc] at h
    obtain ⟨h1, h2⟩ := List.append_inj' h rfl
    cases h2
    exact ⟨t3, List.concat_eq_append, h1⟩

theorem append_cases {a b t1 t2 : List Ev} {e : Ev} (h : a ++ b = t1 ++ e :: t2) :
    (∃ t3, a = t1 ++ e :: t3) ∨ ∃ t3, t1 = a ++ t3 ∧ b = t3 ++ e :: t2 := by
  rcases List.append_eq_append_iff.1 h with ⟨c, h1, h2⟩ | ⟨c, h1, h2⟩
  · exact .inr ⟨c, h1, h2⟩
  · cases c with
    | nil => exact .inr ⟨[], by simpa using h1.symm, by simpa using h2.symm⟩
    | cons x c =>
      cases h2
      exact .inl ⟨c, h1⟩

/-- The steps before a step of a history are a history. -/
theorem Run.before {env : Env} {L : Pubkey → Prop} {top : Bool} {w w' : World} {tr t1 t2 : List Ev} {e : Ev} (h : Run env L top w tr w')
    (he : tr = t1 ++ e :: t2) : Run env L true w t1 e.pre := by
  induction h generalizing t1 t2 with
  | nil => cases t1 <;> cases he
  | rl ctx i h hp hs hr ih =>
    rcases snoc_cases he with ⟨-, rfl, rfl⟩ | ⟨t3, -, h1⟩
    · exact h.toTop
    · exact ih h1
  | tp ctx i h hp hs hr ih =>
    rcases snoc_cases he with ⟨-, rfl, rfl⟩ | ⟨t3, -, h1⟩
    · exact h.toTop
    · exact ih h1
  | payload ctx i p h hin hp hs hpl hno hr ih ih' =>
    rcases snoc_cases he with ⟨-, rfl, rfl⟩ | ⟨t3, -, h1⟩
    · exact h.toTop.append hin.toTop
    · rcases append_cases h1 with ⟨t4, h2⟩ | ⟨t4, rfl, h2⟩
      · exact ih h2
      · exact h.toTop.append (ih' h2)
  | ext h hx ih =>
    rcases snoc_cases he with ⟨-, rfl, rfl⟩ | ⟨t3, -, h1⟩
    · exact h.toTop
    · exact ih h1
  | purge h hp ih =>
    rcases snoc_cases he with ⟨-, rfl, rfl⟩ | ⟨t3, -, h1⟩
    · exact h.toTop
    · exact ih h1

end Verif

namespace Verif.TP
open Codec Verif

theorem History.before {env : Env} {L : Pubkey → Prop} {k : Pubkey} {w : World} {t1 t2 : List Ev} {e : Ev} (h : History env L k (t1 ++ e :: t2) w) :
    History env L k t1 e.pre := by
  obtain ⟨⟨w0, hg, hr⟩, hL, hrd⟩ := h
  exact ⟨⟨w0, hg, hr.before rfl⟩, hL, hrd.left⟩

variable {env : Env} {L : Pubkey → Prop} {ctx : Ctx} {w w' w0 : World} {k : Pubkey} {i : Instr} {e : Ev}

theorem doneStatus_owed {p : Bytes} : (doneStatus p).owed = false := by
  unfold doneStatus; split <;> rfl

theorem paidStatus_or (p : Bytes) : paidStatus p = .processed ∨ paidStatus p = .waitingForExecute := by
  unfold paidStatus; split <;> simp

theorem EverCh.edge {r r' : Withdrawal WEverEvent} (h : EverCh env ctx w0 r i r') : r'.md.status = r.md.status ∨ Edge r.md.status r'.md.status := by
  cases h with
  | pay s hq hst hs =>
    right
    show Edge r.md.status s
    rw [hst]
    rcases hs with rfl | rfl
    · exact .approveLater
    · rcases paidStatus_or r.event.payload with h | h <;> rw [h]
      · exact .paid
      · exact .paidProxy
  | approve hst hu =>
    right
    show Edge r.md.status (paidStatus _)
    rw [hst]
    rcases paidStatus_or r.event.payload with h | h <;> rw [h]
    · exact .approved
    · exact .approvedProxy
  | exec hst =>
    right
    show Edge r.md.status .processed
    rw [hst]; exact .executed

theorem SolCh.edge {r r' : Withdrawal WSolEvent} (h : SolCh env ctx w0 r i r') : r'.md.status = r.md.status ∨ Edge r.md.status r'.md.status := by
  cases h with
  | pay s hq hst hs =>
    right
    show Edge r.md.status s
    rw [hst]
    rcases hs with rfl | rfl | rfl
    · exact .approveLater
    · exact .short
    · rcases paidStatus_or r.event.payload with h | h <;> rw [h]
      · exact .paid
      · exact .paidProxy
  | later s hq hst hs =>
    show s = r.md.status ∨ Edge r.md.status s
    rw [hst]
    rcases hs with rfl | rfl
    · exact .inl rfl
    · right
      rcases paidStatus_or r.event.payload with h | h <;> rw [h]
      · exact .later
      · exact .laterProxy
  | approve s hst hu hs =>
    right
    show Edge r.md.status s
    rw [hst]
    rcases hs with rfl | rfl
    · exact .approvedShort
    · rcases paidStatus_or r.event.payload with h | h <;> rw [h]
      · exact .approved
      · exact .approvedProxy
  | exec hst =>
    right
    show Edge r.md.status .processed
    rw [hst]; exact .executed
  | bounty b hst hu => exact .inl rfl
  | cancel sd rc v e p hst hu =>
    right
    show Edge r.md.status .cancelled
    rw [hst]; exact .cancelled
  | fill sd rc a v e p hst =>
    right
    show Edge r.md.status .processed
    rw [hst]; exact .later

theorem WCh.edge {p p' : GenericProposal} {md md' : WMeta} (h : WCh env ctx w0 k i p md p' md') :
    md'.status = md.status ∨ Edge md.status md'.status := by
  cases h with
  | ever x x' hp hm hp' hm' he ha h => subst hm hm'; exact h.edge
  | sol x x' hp hm hp' hm' he ha h => subst hm hm'; exact h.edge
  | vote => left; simp_all

/-- A withdrawal leaves status `new` only with a quorum. -/
theorem WCh.quorum {p p' : GenericProposal} {md md' : WMeta} (h : WCh env ctx w0 k i p md p' md') (h0 : WithdrawalAt env w k p md)
    (hn : md.status = .new) (hn' : md'.status ≠ .new) : Quorum p := by
  have len : p.signers.length < 2 ^ 32 := by
    obtain ⟨b, q, -, -, hd⟩ := h0.2.1
    have := GenericProposal.codec.wf_of_dec hd
    simp only [GenericProposal.codec, wf_iso, wf_pair, wf_vec, Bool.and_eq_true, decide_eq_true_eq] at this
    simp_all
  have iff : ∀ {E : Type} {r : Withdrawal E}, hasQuorum r → r.requiredVotes = p.requiredVotes → r.signers = p.signers → Quorum p := by
    intro E r hq e1 e2
    have h2 : confirmCount r.signers = r.signers.count .confirm := by rw [List.count]; rfl
    have h3 : r.signers.count .confirm ≤ r.signers.length := List.count_le_length
    have h4 : r.signers.length < 2 ^ 32 := by rw [e2]; exact len
    rw [hasQuorum, h2, BitVec.toNat_ofNat, Nat.mod_eq_of_lt (by omega), e1, e2] at hq
    exact hq
  have no : ∀ s : WStatus, s ≠ .new → md.status = s → False := by rintro s h1 rfl; exact h1 hn
  cases h with
  | ever x x' hp hm hp' hm' he ha h =>
    subst hp hm hp' hm'
    cases h with
    | pay s hq hst hs => exact iff hq rfl rfl
    | approve hst hu => exact (no _ (by decide) hst).elim
    | exec hst => exact (no _ (by decide) hst).elim
  | sol x x' hp hm hp' hm' he ha h =>
    subst hp hm hp' hm'
    cases h with
    | pay s hq hst hs => exact iff hq rfl rfl
    | later s hq hst hs => exact iff hq rfl rfl
    | approve s hst hu hs => exact (no _ (by decide) hst).elim
    | exec hst => exact (no _ (by decide) hst).elim
    | bounty b hst hu => exact (no _ (by decide) hst).elim
    | cancel sd rc v e p hst hu => exact (no _ (by decide) hst).elim
    | fill sd rc a v e p hst => exact (no _ (by decide) hst).elim
  | vote => simp_all

/-- A step either leaves a withdrawal in place, or removes a finished one. -/
theorem WEv.next {p : GenericProposal} {md : WMeta} (hd : env.Distinct) (h : WEv env L k e) (h0 : WithdrawalAt env e.pre k p md) :
    (∃ p' md', WithdrawalAt env e.post k p' md' ∧ (md'.status = md.status ∨ Edge md.status md'.status) ∧
      p'.event = p.event ∧ p'.roundNumber = p.roundNumber ∧ p'.pda = p.pda ∧ p'.requiredVotes = p.requiredVotes ∧ p'.author = p.author) ∨
    (md.status.final = true ∧ Removes k e ∧ ∀ p' md', ¬ WithdrawalAt env e.post k p' md') := by
  cases h with
  | absent h h' => exact (h _ _ h0).elim
  | request ctx i p md hact hp hs hr h h' ha => exact (h _ _ h0).elim
  | keep p md h h' =>
    obtain ⟨rfl, rfl⟩ := h.unique h0
    exact .inl ⟨_, _, h', .inl rfl, rfl, rfl, rfl, rfl, rfl⟩
  | change ctx i p md p1 md1 hact hp hs hr h h' hc =>
    obtain ⟨rfl, rfl⟩ := h.unique h0
    obtain ⟨hr1, -, -⟩ := hc.rest
    refine .inl ⟨_, _, h', hc.edge, ?_⟩
    rw [hr1]
    exact ⟨rfl, rfl, rfl, rfl, rfl⟩
  | payload ctx i p md sg hact hp hs hi hk h hb h' hg =>
    obtain ⟨rfl, rfl⟩ := h.unique h0
    refine .inl ⟨_, _, h', ?_, rfl, rfl, rfl, rfl, rfl⟩
    rcases hb with hb | hb <;> rw [hb]
    · exact .inr .executed
    · exact .inl rfl
  | close ctx p md hact hp hs hr h hf h' =>
    obtain ⟨rfl, rfl⟩ := h.unique h0
    refine .inr ⟨hf, .close ctx hact ?_, fun _ _ => Dead.no hd h'⟩
    obtain ⟨kp, q, m, hkp, -, -, -, -, -, -, -, hrest⟩ := closeWithdrawal_fx hr
    by_cases e : k = kp
    · rw [e]; exact hkp
    · have hx := hrest k e
      exact (Dead.no hd h' (h0.congr (by rw [hx]) (by rw [hx]))).elim
  | purge p md hact h hf hl h' =>
    obtain ⟨rfl, rfl⟩ := h.unique h0
    exact .inr ⟨hf, .purge hact hl, h'⟩

/-- A withdrawal found after a step was there before, or was just requested. -/
theorem WEv.prev {p' : GenericProposal} {md' : WMeta} (h : WEv env L k e) (h' : WithdrawalAt env e.post k p' md') :
    (∃ p md, WithdrawalAt env e.pre k p md) ∨ md'.status = .new := by
  cases h with
  | absent h h1 => exact (h1 _ _ h').elim
  | request ctx i p md hact hp hs hr h h1 ha =>
    obtain ⟨rfl, rfl⟩ := h1.unique h'
    right
    cases ha <;> simp_all
  | keep p md h h1 => exact .inl ⟨_, _, h⟩
  | change ctx i p md p1 md1 hact hp hs hr h h1 hc => exact .inl ⟨_, _, h⟩
  | payload ctx i p md sg hact hp hs hi hk h hb h1 hg => exact .inl ⟨_, _, h⟩
  | close ctx p md hact hp hs hr h hf h1 => exact .inl ⟨_, _, h⟩
  | purge p md hact h hf hl h1 => exact .inl ⟨_, _, h⟩

theorem EvStep.run (he : EvStep env L e) (ha : e.act = .tp ctx i) (n1 : i ≠ .executePayloadEver) (n2 : i ≠ .executePayloadSol) :
    TP.run env ctx noCpi i e.pre = .ok e.post ∧ ctx.program = env.tpId := by
  cases he with
  | quiet hn => exact absurd ha (hn _ _)
  | purge hn => exact absurd ha (hn _ _)
  | tp ctx' i' ha' hp _ hr => rw [ha] at ha'; cases ha'; exact ⟨hr, hp⟩
  | stale ctx' i' p w1 ha' _ _ hst =>
    rw [ha] at ha'; cases ha'
    cases hst with
    | ever => exact (n1 rfl).elim
    | sol => exact (n2 rfl).elim

theorem pairs_get {fs : List Fill} {n : Nat} {l : List Pubkey} {kv a b : Pubkey} (h : l = (fs.flatMap fun f => [f.kw, f.rt]) ++ [kv])
    (ha : l[2 * n]? = some a) (hb : l[2 * n + 1]? = some b) : ∃ f ∈ fs, f.kw = a ∧ f.rt = b := by
  subst h
  induction fs generalizing n with
  | nil => cases n <;> simp at hb
  | cons f fs ih =>
    cases n with
    | zero =>
      simp at ha hb
      exact ⟨f, by simp, ha, hb⟩
    | succ n =>
      obtain ⟨g, hg, h1⟩ := ih (n := n) (by simpa [Nat.mul_add] using ha) (by simpa [Nat.mul_add] using hb)
      exact ⟨g, by simp [hg], h1⟩

/-- A step that releases funds finds the withdrawal with nothing released, and leaves it in a status from which nothing can be released. -/
theorem released_status (hd : env.Distinct) (hs : EvStep env L e) (hv : WEv env L k e) (hi : WInv env k e.pre) (hi' : WInv env k e.post)
    (hr : Releases k e) : ∃ p md p' md', WithdrawalAt env e.pre k p md ∧ md.status.owed = true ∧ WithdrawalAt env e.post k p' md' ∧
      md'.status.owed = false := by
  have fin : ∀ {ctx i}, e.act = .tp ctx i → i ≠ .closeWithdrawal → ∀ {p md}, WithdrawalAt env e.pre k p md → ∃ p' md', WithdrawalAt env e.post k p' md' := by
    intro ctx i ha hne p md h0
    rcases hv.next hd h0 with ⟨p', md', h', -⟩ | ⟨-, hrm, -⟩
    · exact ⟨_, _, h'⟩
    · cases hrm with
      | close ctx' h hk => rw [ha] at h; cases h; exact (hne rfl).elim
      | purge h hl => rw [ha] at h; cases h
  have sol : ∀ {ctx i} {r : Withdrawal WSolEvent} {st : WStatus}, e.act = .tp ctx i → i ≠ .closeWithdrawal → WithdrawalOf wSolEventC env ctx e.pre k r →
      (e.pre.acc k).owner = env.tpId → r.md.status.owed = true → Holds (withdrawalC wSolEventC) recLen (e.post.acc k) (r.withStatus st) →
      st.owed = false → ∃ p md p' md', WithdrawalAt env e.pre k p md ∧ md.status.owed = true ∧ WithdrawalAt env e.post k p' md' ∧
        md'.status.owed = false := by
    intro ctx i r st ha hne h0 ho h1 h2 h3
    have h4 := hi.typedSol h0 ho
    obtain ⟨p', md', h5⟩ := fin ha hne h4
    have h6 := hi'.typedSol (ctx := ctx) (r := r.withStatus st) ⟨h0.1, h2, h0.2.2⟩ h5.1
    exact ⟨_, _, _, _, h4, h1, h6, h3⟩
  have ever : ∀ {ctx i} {r : Withdrawal WEverEvent} {st : WStatus}, e.act = .tp ctx i → i ≠ .closeWithdrawal → WithdrawalOf wEverEventC env ctx e.pre k r →
      (e.pre.acc k).owner = env.tpId → r.md.status.owed = true → Holds (withdrawalC wEverEventC) recLen (e.post.acc k) (r.withStatus st) →
      st.owed = false → ∃ p md p' md', WithdrawalAt env e.pre k p md ∧ md.status.owed = true ∧ WithdrawalAt env e.post k p' md' ∧
        md'.status.owed = false := by
    intro ctx i r st ha hne h0 ho h1 h2 h3
    have h4 := hi.typedEver h0 ho
    obtain ⟨p', md', h5⟩ := fin ha hne h4
    have h6 := hi'.typedEver (ctx := ctx) (r := r.withStatus st) ⟨h0.1, h2, h0.2.2⟩ h5.1
    exact ⟨_, _, _, _, h4, h1, h6, h3⟩
  cases hr with
  | withdrawSol ctx ha hk ht =>
    obtain ⟨hrun, hp⟩ := hs.run ha (by simp) (by simp)
    obtain ⟨kw, kv, rc, kt, km, r, t, v, hkw, -, -, -, -, hr, -, -, -, -, -, ⟨hs, -⟩ | ⟨hq, fee, net, st, t', -, -, hrec, hor⟩⟩ := withdrawSol_fx hrun
    · exact (ht fun k => by unfold bal supply; rw [hs k]; exact ⟨rfl, rfl⟩).elim
    rw [hk] at hkw; cases hkw
    have hst : st = doneStatus r.event.payload ∧ r.md.status.owed = true ∧ st ≠ r.md.status := by
      rcases hor with ⟨hn, hbk, ⟨-, -, hno⟩ | ⟨-, ho⟩⟩ | ⟨hn, rfl, -, ho⟩
      · exact (ht hno).elim
      · cases ho with
        | short _ _ h => exact (ht h).elim
        | paid => exact ⟨rfl, by rw [hn]; rfl, by rw [hn]; exact doneStatus_ne (.inl rfl)⟩
      · cases ho with
        | short _ _ h => exact (ht h).elim
        | paid => exact ⟨rfl, by rw [hn]; rfl, by rw [hn]; exact doneStatus_ne (.inr (.inl rfl))⟩
    exact sol ha (by simp) hr (by rw [← hp]; exact hrec.genuine (withStatus_ne hst.2.2)) hst.2.1 hrec.record (by rw [hst.1]; exact doneStatus_owed)
  | approveSol ctx ha hk ht =>
    obtain ⟨hrun, hp⟩ := hs.run ha (by simp) (by simp)
    obtain ⟨-, kw, kv, rc, kt, r, t, v, hkw, -, -, -, hr, -, -, -, -, -, hst, fee, net, st, t', -, -, hrec, -, ho⟩ := approveSol_fx hrun
    rw [hk] at hkw; cases hkw
    cases ho with
    | short _ _ hno => exact (ht hno).elim
    | paid =>
      exact sol ha (by simp) hr (by rw [← hp]; exact hrec.genuine (withStatus_ne (by rw [hst]; exact doneStatus_ne (.inr (.inr rfl)))))
        (by rw [hst]; rfl) hrec.record doneStatus_owed
  | withdrawEver ctx ha hk ht =>
    obtain ⟨hrun, hp⟩ := hs.run ha (by simp) (by simp)
    obtain ⟨m0, hm0⟩ := ht
    obtain ⟨kw, mi, rc, kt, r, hkw, -, -, -, hr, ⟨e0, -⟩ | ⟨w1, hw1, hk1, -, t, m, -, ⟨e0, -⟩ | ⟨hq, hn, amount, fee, net, st, t', -, -, -, hrec, -, hor⟩⟩⟩ := withdrawEver_fx hrun
    · exact (hm0 (by rw [e0])).elim
    · rcases hw1 with ⟨e1, -⟩ | ⟨-, hdp⟩
      · exact (hm0 (by rw [e0, e1])).elim
      · exact (hm0 (by rw [e0]; exact hdp.supply _)).elim
    rw [hk] at hkw; cases hkw
    rcases hor with ⟨-, -, hno⟩ | ⟨-, rfl, -⟩
    · refine (hm0 ?_).elim
      rw [(hno m0).2]
      rcases hw1 with ⟨e1, -⟩ | ⟨-, hdp⟩
      · rw [e1]
      · exact hdp.supply _
    · refine ever ha (by simp) hr ?_ (by rw [hn]; rfl) hrec.record doneStatus_owed
      rw [← hp, ← hk1]
      exact hrec.genuine (withStatus_ne (by rw [hn]; exact doneStatus_ne (.inl rfl)))
  | approveEver ctx ha hk ht =>
    obtain ⟨hrun, hp⟩ := hs.run ha (by simp) (by simp)
    obtain ⟨-, kw, mi, rc, kt, r, t, m, hkw, -, -, -, hr, -, -, hst, amount, fee, net, t', -, -, -, hrec, -, -⟩ := approveEver_fx hrun
    rw [hk] at hkw; cases hkw
    exact ever ha (by simp) hr (by rw [← hp]; exact hrec.genuine (withStatus_ne (by rw [hst]; exact doneStatus_ne (.inr (.inr rfl)))))
      (by rw [hst]; rfl) hrec.record doneStatus_owed
  | cancel ctx sd rc v ev py ha hk =>
    obtain ⟨hrun, hp⟩ := hs.run ha (by simp) (by simp)
    obtain ⟨f, au, mi, kw, dp, kt, mv, r, t, tv, m, fee, tr, -, -, -, hkw, -, -, -, -, hr, -, hst, ho, -, -, -, -, -, -, -, -, -, -, -, hrec, -⟩ := cancel_fx hrun
    rw [hk] at hkw; cases hkw
    exact sol ha (by simp) hr (by rw [ho, hp]) (by rw [hst]; rfl) hrec rfl
  | fill ctx sd rc a v ev py n ha hk hr =>
    obtain ⟨hrun, hp⟩ := hs.run ha (by simp) (by simp)
    obtain ⟨f, au, at_, mi, dp, kt, mv, t, tm, tv, m, kv, fs, rest, fee, net, -, -, -, -, -, -, -, hacc, -, -, -, -, -, -, -, -, -, hall, -⟩ := fill_fx hrun
    obtain ⟨rt, hrt⟩ := hr
    obtain ⟨g, hg, rfl, -⟩ := pairs_get hacc (n := n) (a := k) (b := rt) (by rw [List.getElem?_drop]; exact hk)
      (by rw [List.getElem?_drop, ← Nat.add_assoc]; exact hrt)
    obtain ⟨hdue, hrec, -⟩ := hall g hg
    exact sol ha (by simp) hdue.withdrawal (by rw [hdue.owner, hp]) (by rw [hdue.pending]; rfl) hrec rfl

/-- Once released, nothing is owed until the account is removed. -/
theorem History.paid {t1 t2 : List Ev} (hd : env.Distinct) (h : History env L k (t1 ++ e :: t2) w) (hrel : Releases k e) :
    (∃ e ∈ t2, Removes k e) ∨ ∃ p md, WithdrawalAt env w k p md ∧ md.status.owed = false := by
  obtain ⟨-, hev⟩ := h.evs hd
  obtain ⟨⟨w0, hg, hr⟩, hL, hrd⟩ := h
  have hst := hr.evs hd
  have := hr.fold (P := fun w t => ∀ t1 t2, t = t1 ++ e :: t2 → (∃ e ∈ t2, Removes k e) ∨
      ∃ p' md', WithdrawalAt env w k p' md' ∧ md'.status.owed = false) []
    (by intro t1 t2 h; cases t1 <;> cases h) (fun x hx t hP s1 s2 hs => by
      obtain ⟨hi, hi', hv⟩ := hev x hx
      rcases snoc_cases hs with ⟨rfl, rfl, rfl⟩ | ⟨s3, rfl, rfl⟩
      · obtain ⟨-, -, p', md', -, -, h1, h2⟩ := released_status hd (hst _ hx) hv hi hi' hrel
        exact .inr ⟨p', md', h1, h2⟩
      · rcases hP _ _ rfl with ⟨e', he', hr⟩ | ⟨p1, md1, h1, hs1⟩
        · exact .inl ⟨e', List.mem_append_left _ he', hr⟩
        · rcases hv.next hd h1 with ⟨p2, md2, h2, hst, -⟩ | ⟨-, hr, -⟩
          · refine .inr ⟨p2, md2, h2, ?_⟩
            rcases hst with hst | hst
            · rw [hst]; exact hs1
            · revert hs1 hst
              generalize md1.status = a
              generalize md2.status = b
              intro hs1 hst
              cases hst <;> first | rfl | cases hs1
          · exact .inl ⟨x, by simp, hr⟩)
  exact this t1 t2 rfl

/-- A withdrawal that is no longer new had a quorum. -/
theorem History.quorum {tr : List Ev} (hd : env.Distinct) (h : History env L k tr w) {p : GenericProposal} {md : WMeta}
    (hw : WithdrawalAt env w k p md) (hn : md.status ≠ .new) :
    ∃ e ∈ tr, ∃ p0 md0, WithdrawalAt env e.pre k p0 md0 ∧ md0.status = .new ∧ Quorum p0 ∧
      p0.event = p.event ∧ p0.roundNumber = p.roundNumber ∧ p0.pda = p.pda ∧ p0.requiredVotes = p.requiredVotes ∧ p0.author = p.author := by
  obtain ⟨-, hev⟩ := h.evs hd
  obtain ⟨⟨w0, hg, hr⟩, -, -⟩ := h
  have := hr.fold (P := fun w t => ∀ p md, WithdrawalAt env w k p md → md.status ≠ .new →
      ∃ e ∈ t, ∃ p0 md0, WithdrawalAt env e.pre k p0 md0 ∧ md0.status = .new ∧ Quorum p0 ∧
        p0.event = p.event ∧ p0.roundNumber = p.roundNumber ∧ p0.pda = p.pda ∧ p0.requiredVotes = p.requiredVotes ∧ p0.author = p.author) []
    (fun p md h => ((hg.owner k).2 h.1).elim) (fun e he t hP p' md' hw' hn' => by
      obtain ⟨-, -, hv⟩ := hev e he
      rcases hv.prev hw' with ⟨p, md, h0⟩ | hnew
      · rcases hv.next hd h0 with ⟨p2, md2, h2, -, e1, e2, e3, e4, e5⟩ | ⟨-, -, hno⟩
        · obtain ⟨rfl, rfl⟩ := h2.unique hw'
          by_cases hnew : md.status = .new
          · refine ⟨e, by simp, p, md, h0, hnew, ?_, e1.symm, e2.symm, e3.symm, e4.symm, e5.symm⟩
            cases hv with
            | absent h h' => exact (h _ _ h0).elim
            | request ctx i p md hact hp hs hr h h' ha => exact (h _ _ h0).elim
            | keep p1 md1 h h' =>
              obtain ⟨rfl, rfl⟩ := h.unique h0
              obtain ⟨rfl, rfl⟩ := h'.unique hw'
              exact (hn' hnew).elim
            | change ctx i p1 md1 p2 md2 hact hp hs hr h h' hc =>
              obtain ⟨rfl, rfl⟩ := h.unique h0
              obtain ⟨rfl, rfl⟩ := h'.unique hw'
              exact hc.quorum h0 hnew hn'
            | payload ctx i p1 md1 sg hact hp hs hi hk h hb h' hg =>
              obtain ⟨rfl, rfl⟩ := h.unique h0
              rw [hnew] at hb
              rcases hb with hb | hb <;> cases hb
            | close ctx p1 md1 hact hp hs hr h hf h' => exact (Dead.no hd h' hw').elim
            | purge p1 md1 hact h hf hl h' => exact (h' _ _ hw').elim
          · obtain ⟨e', he', p0, md0, h1, h2, h3, f1, f2, f3, f4, f5⟩ := hP _ _ h0 hnew
            exact ⟨e', List.mem_append_left _ he', p0, md0, h1, h2, h3, f1.trans e1.symm, f2.trans e2.symm, f3.trans e3.symm, f4.trans e4.symm, f5.trans e5.symm⟩
        · exact (hno _ _ hw').elim
      · exact (hn' hnew).elim)
  exact this p md hw hn

end Verif.TP
