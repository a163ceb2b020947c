import Verif.Spec.Votes
import Verif.Lemmas.LiveTP
import Verif.Lemmas.WView
/-!
# Votes sent one after the other
-/
set_option linter.unusedSimpArgs false
namespace Verif
open Verif Codec

variable {env : Env} {w w' w1 : World} {cpi : Pubkey → World → Except Err World} {k : Pubkey} {l : List (Pubkey × I64)}

theorem OnlyVotes.nil (k : Pubkey) (w : World) : OnlyVotes k [] w w :=
  ⟨fun _ _ => rfl, fun _ => rfl, fun _ h => (by cases h), by simp, fun _ _ _ => rfl, rfl⟩

theorem OnlyVotes.cons {x : Pubkey} {t : I64} (hx : x ≠ k) (hn : x ∉ l.map (·.1)) (h : OnlyVotes k [(x, t)] w w1) (h' : OnlyVotes k l w1 w') :
    OnlyVotes k ((x, t) :: l) w w' where
  data y hy := (h'.data y hy).trans (h.data y hy)
  owner y := (h'.owner y).trans (h.owner y)
  reimbursed y hy := by
    rcases List.mem_cons.1 hy with rfl | hm
    · rw [h'.rest x hx hn]; exact h.reimbursed (x, t) (List.mem_singleton.2 rfl)
    · rw [h'.reimbursed y hm]
      by_cases e : y.1 = x
      · exact (hn (List.mem_map.2 ⟨y, hm, e⟩)).elim
      · by_cases e2 : y.1 = k
        · have h1 := h'.reimbursed y hm
          have h2 := h'.spent
          rw [e2] at h1
          have : l.length ≠ 0 := by rintro hz; rw [List.length_eq_zero_iff.1 hz] at hm; cases hm
          have : 1 ≤ l.length := by omega
          simp only [relayReparation] at *
          omega
        · rw [h.rest y.1 e2 (by simpa using e)]
  spent := by
    have h1 := h.spent
    have h2 := h'.spent
    simp only [List.length_cons, List.length_nil, Nat.mul_add, Nat.mul_one] at h1 ⊢
    omega
  rest y hy hm := by
    simp only [List.map_cons, List.mem_cons, not_or] at hm
    rw [h'.rest y hy hm.2, h.rest y hy (by simpa using hm.1)]
  logs := h'.logs.trans h.logs

theorem OnlyVotes.eff (h : OnlyVotes k l w w') : Eff [k] w w' := fun j hj => ⟨h.data j (by simpa using hj), h.owner j⟩

theorem CanVote.tail {relays : List Pubkey} {votes : List Vote} {x : Pubkey} {t : I64} {v : Vote} {j : Nat}
    (h : CanVote w k relays votes ((x, t) :: l)) (hj : relays.findIdx? (fun y => y == x) = some j) (ho : OnlyVotes k [(x, t)] w w1) :
    CanVote w1 k relays (votes.set j v) l := by
  have hd := h.different
  simp only [List.map_cons, List.nodup_cons] at hd
  refine ⟨hd.2, ?_, fun y hy => h.other y (List.mem_cons_of_mem _ hy), ?_⟩
  · intro y hy
    obtain ⟨i, hi, hv⟩ := h.member y (List.mem_cons_of_mem _ hy)
    refine ⟨i, hi, ?_⟩
    rw [List.getElem?_set_ne ?_]
    · exact hv
    · rintro rfl
      obtain ⟨h1, e1, -⟩ := List.findIdx?_eq_some_iff_getElem.1 hi
      obtain ⟨h2, e2, -⟩ := List.findIdx?_eq_some_iff_getElem.1 hj
      exact hd.1 (List.mem_map.2 ⟨y, hy, (eq_of_beq e1).symm.trans (eq_of_beq e2)⟩)
  · intro y hy
    have hyx : y.1 ≠ x := by rintro e; exact hd.1 (List.mem_map.2 ⟨y, hy, e⟩)
    rw [ho.rest y.1 (h.other y (List.mem_cons_of_mem _ hy)) (by simpa using hyx)]
    exact h.room y (List.mem_cons_of_mem _ hy)

theorem count_set {v : Vote} (hv : v ≠ .none) : ∀ {s : List Vote} {j : Nat}, s[j]? = some .none → (s.set j v).count v = s.count v + 1
  | [], _, h => by simp at h
  | a :: s, 0, h => by
    simp only [List.getElem?_cons_zero, Option.some.injEq] at h
    subst h
    simp [List.count_cons, Ne.symm hv]
  | a :: s, j + 1, h => by
    simp only [List.getElem?_cons_succ] at h
    simp only [List.set_cons_succ, List.count_cons, count_set hv h]
    omega

theorem Cast.nil (relays : List Pubkey) (v : Vote) (s : List Vote) : Cast relays v [] s s :=
  ⟨rfl, fun _ h => (by cases h), fun _ _ => rfl, by simp⟩

theorem Cast.cons {relays : List Pubkey} {v : Vote} {s s' : List Vote} {x : Pubkey} {t : I64} {j : Nat} (hv : v ≠ .none)
    (hj : relays.findIdx? (fun y => y == x) = some j) (hs : s[j]? = some .none) (h : Cast relays v l (s.set j v) s') :
    Cast relays v ((x, t) :: l) s s' where
  length := by rw [h.length]; simp
  cast y hy i hi := by
    by_cases hm : ∃ z ∈ l, relays.findIdx? (fun y => y == z.1) = some i
    · obtain ⟨z, hz, hzi⟩ := hm
      exact h.cast z hz i hzi
    · have e : i = j := by
        rcases List.mem_cons.1 hy with rfl | hy
        · rw [hj] at hi; cases hi; rfl
        · exact (hm ⟨y, hy, hi⟩).elim
      subst e
      rw [h.kept i (fun z hz e => hm ⟨z, hz, e⟩)]
      have hlt := (List.getElem?_eq_some_iff.1 hs).1
      rw [List.getElem?_set_self hlt]
  kept i hi := by
    rw [h.kept i (fun z hz => hi z (List.mem_cons_of_mem _ hz)), List.getElem?_set_ne]
    rintro rfl
    exact hi (x, t) List.mem_cons_self hj
  count := by
    rw [h.count, count_set hv hs, List.length_cons]; omega

/-! ## Withdrawals -/

namespace TP

/-- One vote is built, accepted and recorded. -/
theorem vote_sent {kr voter : Pubkey} {p : GenericProposal} {r : RL.RelayRound} {v : Vote} {j : Nat} {now : I64} (hp : GenReady env w k p)
    (hr : RL.RoundReady env w kr r) (hn : r.roundNumber = p.roundNumber) (hv : v ≠ .none)
    (hj : r.relays.findIdx? (fun x => x == voter) = some j) (hnv : p.signers[j]? = some .none) (hne : voter ≠ k)
    (hm : relayReparation ≤ (w.acc k).lamports) (hmax : (w.acc voter).lamports + relayReparation < 2 ^ 64) :
    ∃ ix w1, TP.Client.voteIx env voter k p.roundNumber v = .ok ix ∧ process env (ix.ctx now) cpi ix.data w = .ok w1 ∧
      GenReady env w1 k { p with signers := p.signers.set j v } ∧ OnlyVotes k [(voter, now)] w w1 := by
  obtain ⟨rn, hrk, hra⟩ := hr.addr
  have hwf : Instr.codec.wf (.voteForWithdrawRequest v) = true := by cases v <;> rfl
  refine ⟨⟨env.tpId, [.new voter true, .new k false, .readonly kr false], Instr.codec.enc (.voteForWithdrawRequest v)⟩, ?_⟩
  have hb : TP.Client.voteIx env voter k p.roundNumber v =
      .ok ⟨env.tpId, [.new voter true, .new k false, .readonly kr false], Instr.codec.enc (.voteForWithdrawRequest v)⟩ := by
    simp only [TP.Client.voteIx, bind_ok, addrOf_ok, packed_ok, Except.ok.injEq]
    exact ⟨kr, ⟨rn, by rw [← hn]; exact hra⟩, _, ⟨hwf, rfl⟩, rfl⟩
  rw [hb]
  generalize hc : Ix.ctx _ now = ctx
  have hprog : ctx.program = env.tpId := by rw [← hc]; rfl
  have hwk : ctx.isWritable k = true := by rw [← hc]; built
  obtain ⟨w1, h1, e1, o1, l1⟩ := packVotes_live (sg := p.signers.set j v) hprog hp (by simp) hwk
  obtain ⟨w2, h2, e2, l2⟩ := moveLamports_live (ctx := ctx) (w := w1) (a := k) (b := voter) (n := relayReparation) (by rw [l1]; exact hm)
    hwk (by rw [← hc]; built) (by rw [o1, hprog]; exact hp.owner) hne.symm (by rw [l1]; exact hmax)
  refine ⟨w2, rfl, ?_, ?_, ?_⟩
  · rw [process_enc hwf]
    simp only [run, processVote, bind_ok, acct_ok, require_ok, exists_const, Prod.exists, unpack_holds, orErr_ok, intoRelayRound_some,
      validateRelayRound, validatePda_ok]
    refine ⟨voter, by rw [← hc]; rfl, k, by rw [← hc]; rfl, kr, by rw [← hc]; rfl, by rw [← hc]; built, hv, p, loadGeneric_live hprog hp,
      r, ⟨hr.here.2.1, hr.here.2.2⟩, rn, hrk, by rw [← hn]; exact hra, j, hj, .none, hnv, ?_⟩
    rw [if_pos rfl]
    simp only [bind_ok]
    exact ⟨w1, h1, h2⟩
  · obtain ⟨b, b', hb, hst, -, rfl⟩ := packRaw_ok.1 h1
    obtain ⟨b0, -, hb0, hl0, -⟩ := hp.holds
    rw [hb0] at hb; cases hb
    refine ⟨((e2 k (by simp)).2.trans o1).trans hp.owner, ⟨b', _, ?_, hst.length.trans hl0, hst.dec⟩, hp.addr⟩
    rw [(e2 k (by simp)).1]; simp
  · have hlog : w2.logs = w.logs := by
      obtain ⟨-, -, -, -, hlog, -⟩ := moveLamports_ok h2
      obtain ⟨_, _, -, -, -, rfl⟩ := packRaw_ok.1 h1
      exact hlog
    refine ⟨fun x hx => ?_, fun x => ?_, ?_, ?_, fun x hx hm => ?_, hlog⟩
    · rw [(e2 x (by simp)).1, (e1 x (by simpa using hx)).1]
    · rw [(e2 x (by simp)).2]
      by_cases e : x = k
      · subst e; exact o1
      · exact (e1 x (by simpa using e)).2
    · intro x hx
      simp only [List.mem_cons, List.not_mem_nil, or_false] at hx
      subst hx
      rw [l2, l1]; simp [hne]
    · rw [l2, l1, if_pos rfl, if_neg hne.symm]
      simp only [List.length_cons, List.length_nil]
      omega
    · simp only [List.map_cons, List.map_nil, List.mem_cons, List.not_mem_nil, or_false] at hm
      rw [l2, l1, if_neg hx, if_neg hm]; rfl

theorem RoundReady.only {kr : Pubkey} {r : RL.RelayRound} (h : RL.RoundReady env w kr r) (ho : OnlyVotes k l w w1) (hk : kr ≠ k) :
    RL.RoundReady env w1 kr r := by
  obtain ⟨⟨h1, h2, h3⟩, h4⟩ := h
  refine ⟨⟨(ho.owner kr).trans h1, ?_, h3⟩, h4⟩
  unfold Holds at h2 ⊢
  rw [ho.data kr hk]; exact h2

/-- All the votes are accepted and recorded. -/
theorem votes_sent {kr : Pubkey} {r : RL.RelayRound} {v : Vote} (hd : env.rlId ≠ env.tpId) (hv : v ≠ .none) :
    ∀ {l : List (Pubkey × I64)} {w : World} {p : GenericProposal}, GenReady env w k p → RL.RoundReady env w kr r → r.roundNumber = p.roundNumber →
      CanVote w k r.relays p.signers l → relayReparation * l.length ≤ (w.acc k).lamports →
      ∃ w' votes, Voted env cpi k p.roundNumber v l w w' ∧ GenReady env w' k { p with signers := votes } ∧ Cast r.relays v l p.signers votes ∧
        OnlyVotes k l w w'
  | [], w, p, hp, hr, hn, hc, hm => ⟨w, p.signers, .nil w, hp, .nil _ _ _, .nil k w⟩
  | (x, t) :: l, w, p, hp, hr, hn, hc, hm => by
    obtain ⟨j, hj, hnv⟩ := hc.member (x, t) List.mem_cons_self
    have hx : x ≠ k := hc.other (x, t) List.mem_cons_self
    simp only [List.length_cons, Nat.mul_add, Nat.mul_one] at hm
    obtain ⟨ix, w1, hb, h1, hp1, ho1⟩ := vote_sent (cpi := cpi) (now := t) hp hr hn hv hj hnv hx (by omega) (hc.room (x, t) List.mem_cons_self)
    have hkr : kr ≠ k := by
      rintro rfl
      exact hd (hr.here.1.symm.trans hp.owner)
    have hsp := ho1.spent
    simp only [List.length_cons, List.length_nil] at hsp
    obtain ⟨w2, votes, h2, hp2, hc2, ho2⟩ := votes_sent hd hv hp1 (RoundReady.only hr ho1 hkr) hn (hc.tail hj ho1) (by omega)
    have hdf := hc.different
    simp only [List.map_cons, List.nodup_cons] at hdf
    exact ⟨w2, votes, .cons hb h1 h2, hp2, hc2.cons hv hj hnv, ho1.cons hx hdf.1 ho2⟩

/-- Both readings of a record have the new votes. -/
theorem WdReady.voted {E : Type} {ec : Codec E} {r : Withdrawal E} {votes : List Vote} (h : WdReady ec env w k r) (hg : GenReady env w k (r.view ec))
    (hg' : GenReady env w1 k { r.view ec with signers := votes }) (hl : votes.length = r.signers.length) :
    WdReady ec env w1 k { r with signers := votes } := by
  obtain ⟨b, u, hb, hbl, hdec⟩ := h.holds
  obtain ⟨b0, u0, hb0, -, hdec0⟩ := hg.holds
  rw [hb] at hb0; cases hb0
  obtain ⟨hwf, -⟩ := ((withdrawalC ec).law _ _ _).1 hdec
  have hwmd : wmetaC.wf r.md = true := by
    simp only [withdrawalC, wf_iso, wf_pair, Bool.and_eq_true] at hwf
    exact hwf.2.2.2.2.2.2.2.2.2.1
  obtain ⟨-, -, hex⟩ := views_agree hdec hdec0 ((wmetaC.decAll_iff _ _).2 ⟨hwmd, rfl⟩) rfl
  have hwf' : (withdrawalC ec).wf { r with signers := votes } = true := by
    simp only [withdrawalC, wf_iso, wf_pair, Bool.and_eq_true, wf_vec, decide_eq_true_eq] at hwf ⊢
    refine ⟨hwf.1, hwf.2.1, hwf.2.2.1, hwf.2.2.2.1, hwf.2.2.2.2.1, hwf.2.2.2.2.2.1, hwf.2.2.2.2.2.2.1, hwf.2.2.2.2.2.2.2.1, hwf.2.2.2.2.2.2.2.2.1,
      hwf.2.2.2.2.2.2.2.2.2.1, ?_, ?_⟩
    · rw [hl]; exact hwf.2.2.2.2.2.2.2.2.2.2.1
    · simp
  have hex' : Exact ec { r with signers := votes } := hex
  have hv := hex'.view hwf' []
  rw [List.append_nil] at hv
  have he := GenericProposal.codec.eq_of_dec hv
  rw [List.append_nil] at he
  obtain ⟨b1, u1, hb1, hl1, hd1⟩ := hg'.holds
  have e1 := GenericProposal.codec.eq_of_dec hd1
  refine ⟨hg'.owner, ⟨b1, u1, hb1, hl1, ?_⟩, h.init, h.addr⟩
  rw [e1]
  have : GenericProposal.codec.enc { r.view ec with signers := votes } = (withdrawalC ec).enc { r with signers := votes } := he.symm
  rw [this]
  exact (withdrawalC ec).dec_enc _ _ hwf'

end TP

/-! ## Proposals of new rounds -/

namespace RL

/-- One vote is built, accepted and recorded. -/
theorem vote_sent {kr voter : Pubkey} {p : Proposal} {r : RelayRound} {v : Vote} {j : Nat} {now : I64} (hp : ProposalReady env w k p)
    (hi : p.isInitialized = true) (hr : RoundReady env w kr r) (hv : v ≠ .none)
    (hj : r.relays.findIdx? (fun x => x == voter) = some j) (hnv : p.signers[j]? = some .none) (hne : voter ≠ k)
    (hm : relayReparation ≤ (w.acc k).lamports) (hmax : (w.acc voter).lamports + relayReparation < 2 ^ 64) :
    ∃ ix w1, RL.Client.voteIx env voter k r.roundNumber v = .ok ix ∧ process env (ix.ctx now) ix.data w = .ok w1 ∧
      ProposalReady env w1 k { p with signers := p.signers.set j v } ∧ OnlyVotes k [(voter, now)] w w1 := by
  obtain ⟨rn, hrk, hra⟩ := hr.addr
  have hwf : Instr.codec.wf (.voteForProposal v) = true := by cases v <;> rfl
  refine ⟨⟨env.rlId, [.new voter true, .new k false, .readonly kr false], Instr.codec.enc (.voteForProposal v)⟩, ?_⟩
  have hb : RL.Client.voteIx env voter k r.roundNumber v =
      .ok ⟨env.rlId, [.new voter true, .new k false, .readonly kr false], Instr.codec.enc (.voteForProposal v)⟩ := by
    simp only [RL.Client.voteIx, RL.Client.roundAddr, bind_ok, addrOf_ok, packed_ok, Except.ok.injEq]
    exact ⟨kr, ⟨rn, hra⟩, _, ⟨hwf, rfl⟩, rfl⟩
  rw [hb]
  generalize hc : Ix.ctx _ now = ctx
  have hprog : ctx.program = env.rlId := by rw [← hc]; rfl
  have hwk : ctx.isWritable k = true := by rw [← hc]; built
  obtain ⟨qwf, qlen⟩ := hp.fit
  have hset : (p.signers.set j v).length = p.signers.length := by simp
  obtain ⟨w1, h1, e1, l1, o1⟩ := putProposal_live (ctx := ctx) hprog hp hwk
    (q := { p with signers := p.signers.set j v }) (wf_proposal qwf p.status _ hset)
    (by rw [len_proposal p p.status _ hset]; exact qlen)
  obtain ⟨w2, h2, e2, l2⟩ := moveLamports_live (ctx := ctx) (w := w1) (a := k) (b := voter) (n := relayReparation) (by rw [l1]; exact hm)
    hwk (by rw [← hc]; built) (by rw [o1, hprog]; exact hp.owner) hne.symm (by rw [l1]; exact hmax)
  refine ⟨w2, rfl, ?_, ?_, ?_⟩
  · rw [process_enc hwf]
    simp only [run, RL.processVote, bind_ok, acct_ok, require_ok, exists_const, unpack_holds, orErr_ok]
    have hl2 := loadRelayRound_live hprog hr
    have hl3 := checkProposal_live hprog hp
    subst hc
    refine ⟨voter, rfl, k, rfl, kr, rfl, by built, hv, p, ⟨hp.holds, hi⟩, (), hl3, r, hl2, j, hj, .none, hnv, ?_⟩
    rw [if_pos rfl]
    simp only [bind_ok]
    exact ⟨w1, h1, h2⟩
  · refine ⟨((e2 k (by simp)).2.trans o1).trans hp.owner, ?_, hp.addr⟩
    have := pack_holds h1
    unfold Holds at this ⊢
    rw [(e2 k (by simp)).1]; exact this
  · have hlog : w2.logs = w.logs := by
      obtain ⟨-, -, -, -, hlog, -⟩ := moveLamports_ok h2
      obtain ⟨_, _, -, -, -, -, rfl⟩ := pack_ok.1 h1
      exact hlog
    refine ⟨fun x hx => ?_, fun x => ?_, ?_, ?_, fun x hx hm => ?_, hlog⟩
    · rw [(e2 x (by simp)).1, (e1 x (by simpa using hx)).1]
    · rw [(e2 x (by simp)).2]
      by_cases e : x = k
      · subst e; exact o1
      · exact (e1 x (by simpa using e)).2
    · intro x hx
      simp only [List.mem_cons, List.not_mem_nil, or_false] at hx
      subst hx
      rw [l2, l1]; simp [hne]
    · rw [l2, l1, if_pos rfl, if_neg hne.symm]
      simp only [List.length_cons, List.length_nil]
      omega
    · simp only [List.map_cons, List.map_nil, List.mem_cons, List.not_mem_nil, or_false] at hm
      rw [l2, l1, if_neg hx, if_neg hm]; rfl

/-- All the votes are accepted and recorded. -/
theorem votes_sent {kr : Pubkey} {r : RelayRound} {v : Vote} (hv : v ≠ .none) (hkr : kr ≠ k) :
    ∀ {l : List (Pubkey × I64)} {w : World} {p : Proposal}, ProposalReady env w k p → p.isInitialized = true → RoundReady env w kr r →
      CanVote w k r.relays p.signers l → relayReparation * l.length ≤ (w.acc k).lamports →
      ∃ w' votes, Voted env k r.roundNumber v l w w' ∧ ProposalReady env w' k { p with signers := votes } ∧ Cast r.relays v l p.signers votes ∧
        OnlyVotes k l w w'
  | [], w, p, hp, _, hr, hc, hm => ⟨w, p.signers, .nil w, hp, .nil _ _ _, .nil k w⟩
  | (x, t) :: l, w, p, hp, hi, hr, hc, hm => by
    obtain ⟨j, hj, hnv⟩ := hc.member (x, t) List.mem_cons_self
    have hx : x ≠ k := hc.other (x, t) List.mem_cons_self
    simp only [List.length_cons, Nat.mul_add, Nat.mul_one] at hm
    obtain ⟨ix, w1, hb, h1, hp1, ho1⟩ := vote_sent (now := t) hp hi hr hv hj hnv hx (by omega) (hc.room (x, t) List.mem_cons_self)
    have hsp := ho1.spent
    simp only [List.length_cons, List.length_nil] at hsp
    obtain ⟨w2, votes, h2, hp2, hc2, ho2⟩ := votes_sent hv hkr hp1 hi (TP.RoundReady.only hr ho1 hkr) (hc.tail hj ho1) (by omega)
    have hdf := hc.different
    simp only [List.map_cons, List.nodup_cons] at hdf
    exact ⟨w2, votes, .cons hb h1 h2, hp2, hc2.cons hv hj hnv, ho1.cons hx hdf.1 ho2⟩

end RL
end Verif
