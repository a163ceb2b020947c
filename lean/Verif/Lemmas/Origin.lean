import Verif.Props.Rounds
import Verif.Lemmas.RLLive
import Verif.Lemmas.Signers
import Verif.Spec.Origin
/-!
# A relay round that was not there before
-/
namespace Verif.RL
open Codec Verif

variable {env : Env} {L : Pubkey → Prop} {ctx : Ctx} {w w' : World} {i : Instr} {k : Pubkey}

theorem round_len {α : Type} {c : Codec α} {n : Nat} {a : Account} {x : α} {r : RelayRound} (h : Holds c n a x) (h' : Holds relayRoundC relayRoundLen a r)
    (hn : n ≠ relayRoundLen) : False := by
  obtain ⟨b, t, hb, hl, -⟩ := h
  obtain ⟨b', t', hb', hl', -⟩ := h'
  rw [hb] at hb'
  cases hb'
  exact hn (hl.symm.trans hl')

/-- A relay round that was not there before was installed. -/
theorem round_new {r : RelayRound} (hp : ctx.program = env.rlId) (hr : run env ctx i w = .ok w') (h : RoundAt env w' k r) :
    (∃ q, RoundAt env w k q) ∨ (IsAddr env env.rlId (relayRoundSeeds r.roundNumber) k ∧ Vacant env (w.acc k) ∧ Installs env ⟨.rl ctx i, w, w'⟩ r) := by
  have back : (w'.acc k).data = (w.acc k).data ∧ (w'.acc k).owner = (w.acc k).owner → ∃ q, RoundAt env w k q := by
    rintro ⟨h1, h2⟩
    obtain ⟨ho, ⟨b, t, hb, hl, hdd⟩, hi⟩ := h
    exact ⟨r, h2.symm.trans ho, ⟨b, t, h1.symm.trans hb, hl, hdd⟩, hi⟩
  have opened : ∀ {ks kp kr s p}, Executed env ctx ks kp kr s p w w' → (∃ q, RoundAt env w k q) ∨
      (IsAddr env env.rlId (relayRoundSeeds r.roundNumber) k ∧ Vacant env (w.acc k) ∧ r.roundNumber = p.event.roundNum ∧ r.relays = p.event.relays ∧
        r.roundEnd = p.event.roundEnd + s.roundTtl) := by
    intro ks kp kr s p x
    by_cases h1 : k = ks
    · subst h1; exact (round_len x.current h.2.1 (by decide)).elim
    by_cases h2 : k = kp
    · subst h2; exact (round_len x.done h.2.1 (by decide)).elim
    by_cases h3 : k = kr
    · subst h3
      obtain ⟨n, hn⟩ := x.round
      have e := h.2.1.unique hn
      subst e
      exact .inr ⟨by rw [← hp]; exact x.roundAddr, x.vacant, rfl, rfl, rfl⟩
    · exact .inl (back (x.others k h1 h2 h3))
  cases i with
  | init g s m t =>
    obtain ⟨-, ks, n, n', -, -, -, hs, hoth⟩ := Props.C01_initialize hr
    by_cases h1 : k = ks
    · subst h1; exact (round_len hs h.2.1 (by decide)).elim
    · exact .inl (back (hoth k h1))
  | updateSettings a b c d =>
    obtain ⟨-, ks, s, -, -, -, -, hs, -, hoth⟩ := Props.C01_update hr
    by_cases h1 : k = ks
    · subst h1; exact (round_len hs h.2.1 (by decide)).elim
    · exact .inl (back (by rw [hoth k h1]; exact ⟨rfl, rfl⟩))
  | createRelayRound num relays e =>
    obtain ⟨ks, kr, s, n, h1, h2, h3, h4, -, h6, h7, -, h9, h10, hoth⟩ := Props.C02_create_round hr
    by_cases e1 : k = ks
    · subst e1; exact (round_len h10 h.2.1 (by decide)).elim
    by_cases e2 : k = kr
    · subst e2
      have e := h.2.1.unique h9
      subst e
      rw [hp] at h6 h1
      exact .inr ⟨h6, h7, .submitter ctx _ _ _ ks s rfl h1 h2 h3 h4 rfl rfl rfl⟩
    · exact .inl (back (hoth k e1 e2))
  | createProposal n p d =>
    simp only [run, processCreateProposal, bind_ok, acct_ok, sysvar_ok, require_ok, exists_const, Prod.exists] at hr
    obtain ⟨f, -, cr, -, kp, -, -, -, rent, -, -, -, pk, m, ha, rfl, hr⟩ := hr
    split at hr
    · simp only [bind_ok] at hr
      obtain ⟨w1, h1, h2⟩ := hr
      by_cases e1 : k = pk
      · subst e1; exact (round_len (pack_holds h2) h.2.1 (by decide)).elim
      · refine .inl (back ?_)
        rw [(pack_acc h2 k).2.2 e1]
        exact createPda_acc (findAddr_create ha) h1 k e1
    · cases hr
      exact .inl ⟨r, h⟩
  | writeProposal o bs =>
    obtain ⟨k', b0, b', -, hb0, hgd, hb', -, rfl⟩ := writeProposal_ok hr
    by_cases hk : k = k'
    · subst hk
      obtain ⟨ho, ⟨b1, t, hb1, hl, hdd⟩, hi⟩ := h
      simp only [setDataRaw_acc, if_true, Data.raw.injEq] at ho hb1
      subst hb1
      obtain ⟨hlen, htake⟩ := writeProposalData_ok hb'
      obtain ⟨rs, t', hd', -, -⟩ := round_keep hdd hlen.symm htake.symm
      exact .inl ⟨_, ho, ⟨b0, t', hb0, hlen.symm.trans hl, hd'⟩, hi⟩
    · refine .inl ⟨r, ?_⟩
      simpa only [RoundAt, setDataRaw_acc, hk, if_false] using h
  | finalizeProposal =>
    obtain ⟨kp, ks, kr, p0, s, rr, -, -, -, -, -, -, -, -, -, -, -, -, -, hq, -, hoth⟩ := finalize_fx hr
    by_cases e1 : k = kp
    · subst e1; exact (round_len hq h.2.1 (by decide)).elim
    · exact .inl (back (hoth k e1))
  | voteForProposal v =>
    obtain ⟨vk, kp, kr, p0, rr, j0, old, h0, h1, h2, hsig, hx, hh, hini, ha, hrr, hri, hra, hrel, hold, hor⟩ := vote_fx hr
    rcases hor with ⟨-, rfl⟩ | ⟨rfl, how, hnew, hacc⟩
    · exact .inl ⟨r, h⟩
    · by_cases e1 : k = kp
      · subst e1; exact (round_len hnew h.2.1 (by decide)).elim
      · exact .inl (back ⟨(hacc k).2.1 e1, (hacc k).1⟩)
  | executeProposal =>
    obtain ⟨kp, p, hk, hh, hini, -, hor⟩ := execute_fx hr
    rcases hor with ⟨rfl, -⟩ | ⟨hst, hq, ho, ks, kr, s, x⟩
    · exact .inl ⟨r, h⟩
    · refine (opened x).imp_right fun ⟨h1, h2, h3, h4, h5⟩ => ⟨h1, h2, .voted ctx kp ks p s rfl hk ⟨ho.trans hp, hh, hini⟩ hst hq
        (by rw [← hp]; exact x.setAddr) x.settings x.setInit h3 h4 h5⟩
  | executeProposalByAdmin =>
    obtain ⟨ks, kp, kr, s, p, hk, hsig, x⟩ := admin_fx hr
    refine (opened x).imp_right fun ⟨h1, h2, h3, h4, h5⟩ => ⟨h1, h2, .admin ctx kp ks p s rfl hk x.proposal x.final
        (by rw [← hp]; exact x.setAddr) x.settings x.setInit hsig h3 h4 h5⟩

theorem round_back {r : RelayRound} (hq : QuietFor env.rlId L w w') (h : RoundAt env w' k r) : RoundAt env w k r := by
  by_cases ho : (w.acc k).owner = env.rlId
  · obtain ⟨-, h2, -⟩ := (hq k).1 ho
    obtain ⟨ho', ⟨b, t, hb, hl, hdd⟩, hi⟩ := h
    exact ⟨ho, ⟨b, t, h2.symm.trans hb, hl, hdd⟩, hi⟩
  · obtain ⟨-, n, hz⟩ := (hq k).2 h.1 ho
    obtain ⟨ho', ⟨b, t, hb, hl, hdd⟩, hi⟩ := h
    have hh := round_head hdd
    rw [hz] at hb
    cases hb
    rw [hi] at hh
    cases n with
    | zero => cases hh
    | succ n => cases hh

theorem round_new_ev {e : Ev} {r : RelayRound} (hd : env.Distinct) (he : RlEv env L e) (h : RoundAt env e.post k r) :
    (∃ q, RoundAt env e.pre k q) ∨ (IsAddr env env.rlId (relayRoundSeeds r.roundNumber) k ∧ Vacant env (e.pre.acc k) ∧ Installs env e r) := by
  obtain ⟨act, pre, post⟩ := e
  cases act with
  | tp ctx i => exact .inl ⟨r, round_back he h⟩
  | ext => exact .inl ⟨r, round_back he h⟩
  | purge =>
    have hk : post.acc k = _ := he.2 k
    simp only [RoundAt] at h ⊢
    simp only at hk
    by_cases h0 : (pre.acc k).lamports = 0
    · rw [if_pos h0] at hk
      rw [hk] at h
      exact (hd.rlSys h.1.symm).elim
    · rw [if_neg h0] at hk
      rw [hk] at h
      exact .inl ⟨r, h⟩
  | rl ctx i => exact round_new he.1 he.2.2 h

/-- Every relay round of a history was installed in some step. -/
theorem round_origin {w0 : World} {tr : List Ev} {r : RelayRound} (hd : env.Distinct) (hg : Genesis env L w0) (hr : Run env L true w0 tr w)
    (h : RoundAt env w k r) :
    ∃ e ∈ tr, ∃ r0, Installs env e r0 ∧ IsAddr env env.rlId (relayRoundSeeds r0.roundNumber) k ∧ Vacant env (e.pre.acc k) ∧ RoundAt env e.post k r0 ∧
      RoundLater r0 r ∧ (Unwritten tr k → r = r0) := by
  have hrl := hist_mem hd hg hr
  have := hr.fold (P := fun w t => ∀ r, RoundAt env w k r →
      ∃ e ∈ t, ∃ r0, Installs env e r0 ∧ IsAddr env env.rlId (relayRoundSeeds r0.roundNumber) k ∧ Vacant env (e.pre.acc k) ∧ RoundAt env e.post k r0 ∧
        RoundLater r0 r ∧ (Unwritten tr k → r = r0)) []
    (fun r h => ((hg.owner k).1 h.1).elim) (fun e he t hP r h => by
      obtain ⟨hgood, hev⟩ := hrl e he
      rcases round_new_ev hd hev h with ⟨q, hq⟩ | ⟨h1, h2, h3⟩
      · obtain ⟨q', h1, h2, h3⟩ := round_ev hd hev hgood hq
        have e1 := h1.2.1.unique h.2.1
        subst e1
        obtain ⟨e', he', r0, a, b, c, d, l, u⟩ := hP q hq
        refine ⟨e', List.mem_append_left _ he', r0, a, b, c, d, l.trans h2, fun hu => ?_⟩
        rw [h3 (hu e he), u hu]
      · exact ⟨e, by simp, r, h3, h1, h2, h, .refl _, fun _ => rfl⟩)
  exact this r h

/-- A relay round stays. -/
theorem round_stays {w0 : World} {tr : List Ev} (hd : env.Distinct) (hg : Genesis env L w0) (hr : Run env L true w0 tr w) :
    ∀ e ∈ tr, ∀ r, RoundAt env e.post k r → ∃ q, RoundAt env w k q := by
  have hrl := hist_mem hd hg hr
  exact hr.fold (P := fun w t => ∀ e ∈ t, ∀ r, RoundAt env e.post k r → ∃ q, RoundAt env w k q) [] (fun e h => by cases h)
    (fun e he t hP e' he' r h => by
      rcases List.mem_append.1 he' with h1 | h1
      · obtain ⟨q, hq⟩ := hP e' h1 r h
        obtain ⟨q', h2, -⟩ := round_ev hd (hrl e he).2 (hrl e he).1 hq
        exact ⟨q', h2⟩
      · rw [List.mem_singleton.1 h1] at h
        exact ⟨r, h⟩)

end Verif.RL
