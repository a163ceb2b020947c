import Verif.Lemmas.WLife
import Verif.Lemmas.NamedReq
import Verif.Lemmas.RLHist
import Verif.Spec.Signers
/-!
# The signatures behind the votes on a withdrawal
-/
namespace Verif.TP
open Codec Verif

variable {env : Env} {L : Pubkey → Prop} {k kr : Pubkey} {w : World}

/-- The part of a history that begins with one of its steps. -/
theorem _root_.Verif.Steps.after {E : Ev → Prop} {w w' : World} {tr a b : List Ev} {e : Ev} (h : Steps E w tr w') (he : tr = a ++ e :: b) :
    Steps E e.pre (e :: b) w' := by
  induction h generalizing a b with
  | nil => cases a <;> cases he
  | snoc e0 h1 hpre h0 ih =>
    rcases snoc_cases he with ⟨rfl, rfl, rfl⟩ | ⟨t3, rfl, h2⟩
    · exact Steps.snoc (tr := []) _ (.nil _) rfl h0
    · exact Steps.snoc (tr := e :: t3) _ (ih h2) hpre h0

/-- Different slots are filled by different people. -/
theorem voters_of {f : Pubkey → Option Nat} {Q : Pubkey → Prop} : ∀ {s : List Vote} {n : Nat},
    (∀ j, s[j]? = some .confirm → ∃ x, f x = some (n + j) ∧ Q x) →
    ∃ l : List Pubkey, l.Nodup ∧ l.length = s.count .confirm ∧ ∀ x ∈ l, Q x ∧ ∃ j, n ≤ j ∧ f x = some j
  | [], _, _ => ⟨[], List.nodup_nil, rfl, fun _ h => by cases h⟩
  | a :: s, n, h => by
    obtain ⟨l, h1, h2, h3⟩ := voters_of (f := f) (Q := Q) (s := s) (n := n + 1) (fun j hj => by
      obtain ⟨x, hx, hq⟩ := h (j + 1) (by simpa using hj)
      exact ⟨x, by rw [hx]; congr 1; omega, hq⟩)
    by_cases ha : a = .confirm
    · subst ha
      obtain ⟨x, hx, hq⟩ := h 0 rfl
      refine ⟨x :: l, List.nodup_cons.2 ⟨fun hm => ?_, h1⟩, by simp [h2], ?_⟩
      · obtain ⟨-, j, hj, hf⟩ := h3 x hm
        rw [hx] at hf
        cases hf
        omega
      · intro y hy
        rcases List.mem_cons.1 hy with rfl | hy
        · exact ⟨hq, n, Nat.le_refl _, hx⟩
        · obtain ⟨a, j, b, c⟩ := h3 y hy
          exact ⟨a, j, by omega, c⟩
    · refine ⟨l, h1, by rw [h2, List.count_cons_of_ne ha], fun y hy => ?_⟩
      obtain ⟨a, j, b, c⟩ := h3 y hy
      exact ⟨a, j, by omega, c⟩

theorem two_thirds {n : Nat} (hn : n < 2 ^ 32) (m : U32) : 2 * n < 3 * (RL.requiredVotes n m).toNat := by
  have h : (BitVec.ofNat 32 (n * 2 / 3 + 1)).toNat = 2 * n / 3 + 1 := by
    rw [BitVec.toNat_ofNat, Nat.mod_eq_of_lt (by omega), Nat.mul_comm]
  simp only [RL.requiredVotes, h]
  split <;> omega

/-- Every vote on a withdrawal was signed by the relay of its slot. -/
theorem History.signed {tr : List Ev} (hd : env.Distinct) (h : History env L k tr w) (hL : L kr) (hkept : RoundKept env tr kr) {p : GenericProposal}
    {md : WMeta} (hw : WithdrawalAt env w k p md) (ha : IsAddr env env.rlId (relayRoundSeeds p.roundNumber) kr) :
    ∃ r, RL.RoundAt env w kr r ∧ r.relays.length = p.signers.length ∧ 2 * r.relays.length < 3 * p.requiredVotes.toNat ∧
      ∀ j v, p.signers[j]? = some v → v ≠ .none → ∃ x, r.relays.findIdx? (fun y => y == x) = some j ∧ ∃ e ∈ tr, SignsVote k x v e := by
  obtain ⟨-, hev⟩ := h.evs hd
  obtain ⟨⟨w0, hg, hr⟩, -, -⟩ := h
  have hrl := RL.hist_mem hd hg hr
  have hreach : Reach env L w0 := ⟨w0, [], hg, .nil _ _⟩
  have := hr.fold (P := fun w t => ∀ p md, WithdrawalAt env w k p md → IsAddr env env.rlId (relayRoundSeeds p.roundNumber) kr →
      ∃ r, RL.RoundAt env w kr r ∧ r.relays.length = p.signers.length ∧ 2 * r.relays.length < 3 * p.requiredVotes.toNat ∧
        ∀ j v, p.signers[j]? = some v → v ≠ .none → ∃ x, r.relays.findIdx? (fun y => y == x) = some j ∧ ∃ e ∈ t, SignsVote k x v e) []
    (fun p md h => ((hg.owner k).2 h.1).elim) (fun e he t hP p' md' hw' ha' => by
      obtain ⟨-, -, hv⟩ := hev e he
      have stay : ∀ {r}, RL.RoundAt env e.pre kr r → RL.RoundAt env e.post kr r := by
        intro r hrr
        obtain ⟨q, h3, -, h4⟩ := RL.round_ev hd (hrl e he).2 (hrl e he).1 hrr
        rw [h4 (hkept.unwritten e he)] at h3
        exact h3
      have first : ∀ {rr : RL.RelayRound} {rs : RL.Settings} {ks kr' : Pubkey} {ctx : Ctx}, loadRound env ctx ks kr' e.pre = .ok (rs, rr) →
          p'.roundNumber = rr.roundNumber → RL.RoundAt env e.post kr rr := by
        intro rr rs ks kr' ctx hl hn
        obtain ⟨-, ⟨h1, h2, n, -, h3⟩, -⟩ := loadRound_ok.1 hl
        rw [hn] at ha'
        have : kr' = kr := IsAddr.unique ⟨n, h3⟩ ha'
        subst this
        exact stay ⟨((hreach.pre hr e he).clean_round hL h1 h2).resolve_left (hkept.foreign e he), h1, h2⟩
      cases hv with
      | absent h h' => exact (h' _ _ hw').elim
      | request ctx i p md hact hp hs hr h h' ha =>
        obtain ⟨rfl, rfl⟩ := h'.unique hw'
        have empty : ∀ {n j : Nat} {v : Vote}, (List.replicate n Vote.none)[j]? = some v → v ≠ .none → False := by
          intro n j v hj hv
          rw [List.getElem?_replicate] at hj
          split at hj
          · cases hj; exact hv rfl
          · cases hj
        cases ha with
        | ever pda t n y d r a py att au ks kr rs rr nn pn hk hsig hn hy hr1 hp1 hm1 =>
          subst hp1
          have hR := first hr1 rfl
          exact ⟨rr, hR, by simp, two_thirds (RL.relays_lt hR.2.1) _, fun j v hj hv => (empty hj hv).elim⟩
        | sol pda r a py att t au kt ks kr rs rr nn pn hk hsig ht hr1 hp1 hm1 =>
          subst hp1
          have hR := first hr1 rfl
          exact ⟨rr, hR, by simp, two_thirds (RL.relays_lt hR.2.1) _, fun j v hj hv => (empty hj hv).elim⟩
      | keep p md h h' =>
        obtain ⟨rfl, rfl⟩ := h'.unique hw'
        obtain ⟨r, h1, h2, h3, h4⟩ := hP _ _ h ha'
        refine ⟨r, stay h1, h2, h3, fun j v hj hv => ?_⟩
        obtain ⟨x, hx, e', he', hs⟩ := h4 j v hj hv
        exact ⟨x, hx, e', List.mem_append_left _ he', hs⟩
      | change ctx i p md p1 md1 hact hp hs hr h h' hc =>
        obtain ⟨rfl, rfl⟩ := h'.unique hw'
        obtain ⟨hr1, hgr, -⟩ := hc.rest
        obtain ⟨r, h1, h2, h3, h4⟩ := hP _ _ h (by rw [hr1] at ha'; exact ha')
        refine ⟨r, stay h1, h2.trans hgr.1, by rw [hr1]; exact h3, fun j v hj hv => ?_⟩
        have old : p.signers[j]? = some v → ∃ x, r.relays.findIdx? (fun y => y == x) = some j ∧ ∃ e' ∈ t ++ [e], SignsVote k x v e' := by
          intro hj
          obtain ⟨x, hx, e', he', hs⟩ := h4 j v hj hv
          exact ⟨x, hx, e', List.mem_append_left _ he', hs⟩
        cases hc with
        | ever x x' hp hm hp' hm' he ha hc =>
          subst hp hp'
          rw [hc.rest.1] at hj
          exact old hj
        | sol x x' hp hm hp' hm' he ha hc =>
          subst hp hp'
          rw [hc.rest.1] at hj
          exact old hj
        | vote kr' vk j' x rr hi hx ha hrr hri hra hvv hsig hold hp' hm' =>
          by_cases hjj : j' = j
          · subst hjj
            have hkk : kr' = kr := hra.unique (by rw [hr1] at ha'; exact ha')
            subst hkk
            have := hrr.unique h1.2.1
            subst this
            have hv' : x = v := by
              rw [hp'] at hj
              simp only [List.getElem?_set_self (List.getElem?_eq_some_iff.1 hold).1, Option.some.injEq] at hj
              exact hj
            subst hv' hi
            refine ⟨vk, hvv, e, by simp, ctx, hact, ?_, hsig⟩
            by_cases hn : k ∈ namedRequests ctx (.voteForWithdrawRequest x)
            · exact Option.mem_toList.1 hn
            · exfalso
              obtain ⟨q1, q2, -⟩ := request_unnamed hd hp hr h hn
              have hw2 : WithdrawalAt env e.post k p md := ⟨q1.trans h.1, by unfold Holds; rw [q2]; exact h.2.1, h.2.2⟩
              obtain ⟨e1, -⟩ := hw2.unique hw'
              rw [← e1, hold] at hj
              cases hj
              exact hv rfl
          · rw [hp'] at hj
            simp only [List.getElem?_set_ne hjj] at hj
            exact old hj
      | payload ctx i p md sg hact hp hs hi hk h hb h' hg =>
        obtain ⟨rfl, rfl⟩ := h'.unique hw'
        obtain ⟨r, h1, h2, h3, h4⟩ := hP _ _ h ha'
        refine ⟨r, stay h1, h2.trans hg.1.symm, h3, fun j v hj hv => ?_⟩
        obtain ⟨x, hx, e', he', hs⟩ := h4 j v (hg.2 j v hj hv) hv
        exact ⟨x, hx, e', List.mem_append_left _ he', hs⟩
      | close ctx p md hact hp hs hr h hf h' => exact (Dead.no hd h' hw').elim
      | purge p md hact h hf hl h' => exact (h' _ _ hw').elim)
  exact this p md hw ha

end Verif.TP
