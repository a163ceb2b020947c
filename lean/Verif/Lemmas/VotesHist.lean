import Verif.Lemmas.LiveVotes
import Verif.Lemmas.WPay
/-!
# Votes on withdrawals of a history
-/
namespace Verif
open Verif Codec

variable {env : Env} {L : Pubkey → Prop} {w w' w1 : World} {k : Pubkey} {l : List (Pubkey × I64)} {tr : List Ev}

theorem count_none_set {v : Vote} (hv : v ≠ .none) : ∀ {s : List Vote} {j : Nat}, s[j]? = some .none → (s.set j v).count .none + 1 = s.count .none
  | [], _, h => by simp at h
  | a :: s, 0, h => by
    simp only [List.getElem?_cons_zero, Option.some.injEq] at h
    subst h
    simp [hv]
  | a :: s, j + 1, h => by
    simp only [List.getElem?_cons_succ] at h
    have := count_none_set hv h
    simp only [List.set_cons_succ, List.count_cons]
    omega

/-- Every voter has an empty slot. -/
theorem voters_le {relays : List Pubkey} : ∀ {l : List (Pubkey × I64)} {votes : List Vote}, (l.map (·.1)).Nodup →
    (∀ x ∈ l, ∃ j, relays.findIdx? (fun y => y == x.1) = some j ∧ votes[j]? = some .none) → l.length ≤ votes.count .none
  | [], _, _, _ => Nat.zero_le _
  | x :: l, votes, hd, hm => by
    obtain ⟨j, hj, hv⟩ := hm x List.mem_cons_self
    simp only [List.map_cons, List.nodup_cons] at hd
    have := voters_le (l := l) (votes := votes.set j .confirm) hd.2 (fun y hy => by
      obtain ⟨i, hi, hv'⟩ := hm y (List.mem_cons_of_mem _ hy)
      refine ⟨i, hi, ?_⟩
      rw [List.getElem?_set_ne ?_]
      · exact hv'
      · rintro rfl
        obtain ⟨h1, e1, -⟩ := List.findIdx?_eq_some_iff_getElem.1 hi
        obtain ⟨h2, e2, -⟩ := List.findIdx?_eq_some_iff_getElem.1 hj
        exact hd.1 (List.mem_map.2 ⟨y, hy, (eq_of_beq e1).symm.trans (eq_of_beq e2)⟩))
    have := count_none_set (v := .confirm) (by decide) hv
    simp only [List.length_cons]
    omega

theorem CanVote.le {relays : List Pubkey} {votes : List Vote} (h : CanVote w k relays votes l) : l.length ≤ votes.count .none :=
  voters_le h.different h.member

namespace TP

/-- Over a history a withdrawal is at the address derived from its contents, with the nonce it records. -/
theorem History.ready {p : GenericProposal} {md : WMeta} (hd : env.Distinct) (h : History env L k tr w) (hw : WithdrawalAt env w k p md) :
    GenReady env w k p := by
  suffices ∃ n pn, p.accountKind = .proposal n pn ∧ findAddr env (proposalSeeds p.roundNumber p.pda (env.hash p.event)) env.tpId = .ok (k, n) from
    ⟨hw.1, hw.2.1, this⟩
  obtain ⟨-, hev⟩ := h.evs hd
  obtain ⟨⟨w0, hg, hr⟩, -, -⟩ := h
  have := hr.fold (P := fun w _ => ∀ p md, WithdrawalAt env w k p md → ∃ n pn, p.accountKind = .proposal n pn ∧
      findAddr env (proposalSeeds p.roundNumber p.pda (env.hash p.event)) env.tpId = .ok (k, n)) []
    (fun p md h => ((hg.owner k).2 h.1).elim) (fun e he _ hP p' md' hw' => by
      obtain ⟨hpre, -, he⟩ := hev e he
      cases he with
      | absent h h' => exact (h' _ _ hw').elim
      | request ctx i p md hact hp hs hr h h' ha =>
        have hno : ∀ n pn (w1 : World), Marked env (w1.acc k) (.proposal n pn) → (∀ n pn, Marked env (w1.acc k) (.proposal n pn) →
            Marked env (e.pre.acc k) (.proposal n pn)) → False := fun n pn w1 hm hb => winv_none hpre h n pn (hb n pn hm)
        have hm := hw'.marked
        obtain ⟨n, pn, hk⟩ := hw'.2.2.2.1
        rw [hk] at hm
        cases ha with
        | ever pda t n y d r a py att au ks kr rs rr nn pn hk hsig hn hy hr1 hp1 hm1 =>
          obtain ⟨_, _, _, _, _, _, _, pn, w1, _, _, -, -, e2, -, -, -, -, -, -, -, ho, nn, hf, hor⟩ := everRequest_fx hp hr
          rw [hk] at e2; cases e2
          rcases hor with ⟨-, e⟩ | ⟨-, -, -, hn, -⟩
          · rw [e] at hm
            exact (hno _ _ w1 hm (fun _ _ hm => openProxy_unmarked hd hp ho hm)).elim
          · obtain ⟨rfl, rfl⟩ := hn.unique hw'
            exact ⟨_, _, rfl, hp ▸ hf⟩
        | sol pda r a py att t au kt ks kr rs rr nn pn hk hsig ht hr1 hp1 hm1 =>
          obtain ⟨_, _, _, _, _, _, _, _, _, pn, w1, -, -, e2, -, -, -, -, -, -, ho, nn, hf, hor⟩ := solRequest_fx hp hr
          rw [hk] at e2; cases e2
          rcases hor with ⟨-, e⟩ | ⟨-, -, -, hn, -⟩
          · rw [e] at hm
            exact (hno _ _ w1 hm (fun _ _ hm => openProxy_unmarked hd hp ho hm)).elim
          · obtain ⟨rfl, rfl⟩ := hn.unique hw'
            exact ⟨_, _, rfl, hp ▸ hf⟩
      | keep p md h h' =>
        obtain ⟨rfl, rfl⟩ := h'.unique hw'
        exact hP _ _ h
      | change ctx i p md p1 md1 hact hp hs hr h h' hc =>
        obtain ⟨rfl, rfl⟩ := h'.unique hw'
        obtain ⟨hr1, -⟩ := hc.rest
        rw [hr1]
        have h2 := hP _ _ h
        exact h2
      | payload ctx i p md sg hact hp hs hi hk h hb h' hg =>
        obtain ⟨rfl, rfl⟩ := h'.unique hw'
        have h2 := hP _ _ h
        exact h2
      | close ctx p md hact hp hs hr h hf h' => exact (Dead.no hd h' hw').elim
      | purge p md hact h hf hl h' => exact (h' _ _ hw').elim)
  exact this p md hw

/-- An unfinished withdrawal can pay for the votes of all who have not voted. -/
theorem History.funds {p : GenericProposal} {md : WMeta} {relays : List Pubkey} (hd : env.Distinct) (h : History env L k tr w)
    (hw : WithdrawalAt env w k p md) (hf : md.status.final = false) (hc : CanVote w k relays p.signers l) :
    relayReparation * l.length ≤ (w.acc k).lamports := by
  have h1 := ((h.evs hd).1.good hw).funded hf
  have h2 := Nat.mul_le_mul_left relayReparation hc.le
  omega

theorem History.sol {r : Withdrawal WSolEvent} (hd : env.Distinct) (h : History env L k tr w) (hw : WdReady wSolEventC env w k r) :
    WithdrawalAt env w k (r.view wSolEventC) r.md := by
  obtain ⟨n, pn, hk, ha⟩ := hw.addr
  exact (h.evs hd).1.typedSol (ctx := ⟨env.tpId, [], [], [], 0⟩) ⟨⟨n, ha⟩, hw.holds, hw.init, n, pn, hk⟩ hw.owner

theorem History.ever {r : Withdrawal WEverEvent} (hd : env.Distinct) (h : History env L k tr w) (hw : WdReady wEverEventC env w k r) :
    WithdrawalAt env w k (r.view wEverEventC) r.md := by
  obtain ⟨n, pn, hk, ha⟩ := hw.addr
  exact (h.evs hd).1.typedEver (ctx := ⟨env.tpId, [], [], [], 0⟩) ⟨⟨n, ha⟩, hw.holds, hw.init, n, pn, hk⟩ hw.owner

end TP
end Verif
