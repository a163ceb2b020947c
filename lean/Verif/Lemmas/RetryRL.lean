import Verif.Spec.Retry
import Verif.Lemmas.RLLive
/-!
# Repeated instructions of the round loader
-/
namespace Verif
open Codec

variable {α : Type} {ctx ctx' : Ctx} {c : Codec α} {len : Nat} {k : Pubkey} {w w1 w2 : World}

/-- Storing what an idempotent change of the record gives, twice. -/
theorem put_again {f : α → α} (hf : ∀ s, f (f s) = f s) {s s' : α} {u v : World} (h1 : pack ctx c len (f s) k u = .ok w1)
    (hs : Holds c len (w1.acc k) s') (hv : v.acc = w1.acc) (h2 : pack ctx' c len (f s') k v = .ok w2) : w2.acc = w1.acc := by
  have e := (RL.pack_holds h1).unique hs
  subst e
  rw [hf] at h2
  rw [RL.pack_same h2 (by rw [hv]; exact RL.pack_holds h1), hv]

theorem not_vacant {a : Account} {x : α} (hl : len ≠ 0) (h : Holds c len a x) : a.data.len ≠ 0 := by
  obtain ⟨b, r, hb, hlen, -⟩ := h
  rw [hb]
  show b.length ≠ 0
  omega

namespace RL
variable {env : Env}

private theorem write_twice {b b' b'' bs : Bytes} {off : Nat} (h1 : writeProposalData b off bs = .ok b') (h2 : writeProposalData b' off bs = .ok b'') : b'' = b' := by
  simp only [writeProposalData, bind_ok, require_ok, exists_const, Except.ok.injEq] at h1 h2
  obtain ⟨-, hl, rfl⟩ := h1
  obtain ⟨-, -, rfl⟩ := h2
  have ht : (b.take (loadBegin + off)).length = loadBegin + off := by rw [List.length_take]; omega
  rw [List.append_assoc, List.append_assoc, List.take_append_of_le_length (by omega), List.take_of_length_le (by omega)]
  congr 2
  rw [← List.append_assoc, List.drop_append, List.drop_of_length_le (by simp only [List.length_append]; omega), List.nil_append]
  simp only [List.length_append, ht, Nat.sub_self, List.drop_zero]

theorem run_again {i : Instr} (hc : SameCall ctx ctx') (h1 : run env ctx i w = .ok w1) (h2 : run env ctx' i w1 = .ok w2) : w2.acc = w1.acc := by
  obtain ⟨hp, ha⟩ := hc
  cases i with
  | voteForProposal v =>
    simp only [run, processVote, bind_ok, acct_ok, require_ok, exists_const, unpack_holds, orErr_ok, checkProposal_ok] at h1 h2
    obtain ⟨x, a0, kp, a1, kr, a2, -, hv, p, ⟨hh, hini⟩, -, rr, hrr, j, hj, old, hold, h⟩ := h1
    obtain ⟨x', b0, kp', b1, kr', b2, -, -, p', ⟨hh', -⟩, -, rr', hrr', j', hj', old', hold', h'⟩ := h2
    rw [ha] at b0 b1 b2
    rw [a0] at b0; rw [a1] at b1; rw [a2] at b2
    cases b0; cases b1; cases b2
    split at h'
    · rename_i e'
      subst e'
      exfalso
      split at h
      · simp only [bind_ok] at h
        obtain ⟨wm, g1, g2⟩ := h
        obtain ⟨-, -, -, -, -, hacc⟩ := moveLamports_ok g2
        have hd : ∀ q, (w1.acc q).data = (wm.acc q).data := fun q => by rw [hacc q]
        have hhold := pack_holds g1
        have e1 : p' = { p with signers := p.signers.set j v } := by
          obtain ⟨b, r, hb, hl, hdec⟩ := hhold
          exact (Holds.unique (a := w1.acc kp) ⟨b, r, (hd kp).trans hb, hl, hdec⟩ hh').symm
        have hne : kr ≠ kp := by
          rintro rfl
          obtain ⟨b, r, hb, hl, -⟩ := hh
          obtain ⟨b', r', hb', hl', -⟩ := (loadRelayRound_ok.1 hrr).1
          rw [hb] at hb'; cases hb'; rw [hl] at hl'; cases hl'
        have e2 : rr' = rr := by
          obtain ⟨b, r, hb, hl, hdec⟩ := (loadRelayRound_ok.1 hrr).1
          refine Holds.unique (loadRelayRound_ok.1 hrr').1 ⟨b, r, ?_, hl, hdec⟩
          rw [hd, (pack_acc g1 kr).2.2 hne, hb]
        subst e1; subst e2
        rw [hj] at hj'; cases hj'
        have hlt : j < p.signers.length := by
          rw [List.getElem?_eq_some_iff] at hold
          exact hold.1
        simp only [List.getElem?_set_self hlt] at hold'
        cases hold'
        exact hv rfl
      · cases h
        cases hh.unique hh'
        have := (loadRelayRound_ok.1 hrr).1.unique (loadRelayRound_ok.1 hrr').1
        subst this
        rw [hj] at hj'; cases hj'
        rw [hold] at hold'; cases hold'
        rename_i hn
        exact hn rfl
    · cases h'; rfl
  | init g s m t =>
    simp only [run, processInitialize, bind_ok, acct_ok, sysvar_ok, require_ok, exists_const, TP.ex_unit, Prod.exists] at h1 h2
    obtain ⟨_, -, _, -, ks, a2, _, -, _, -, _, -, -, -, _, _, -, -, -, sk, sn, hs, rfl, wm, g1, g2⟩ := h1
    obtain ⟨_, -, _, -, ks', b2, _, -, _, -, _, -, -, -, _, _, -, -, -, sk', sn', hs', rfl, wm', g1', g2'⟩ := h2
    rw [ha, a2] at b2; cases b2
    obtain ⟨-, e, -⟩ := createPda_ok (findAddr_create hs') g1'
    exact (not_vacant (by decide) (pack_holds g2) e).elim
  | updateSettings r s m t =>
    simp only [run, processUpdateSettings, bind_ok, acct_ok, require_ok, exists_const, TP.ex_unit, orErr_ok, Prod.exists, unpack_holds] at h1 h2
    obtain ⟨_, -, ks, a1, _, -, -, x, ⟨hx, -⟩, _, _, -, -, -, -, -, g⟩ := h1
    obtain ⟨_, -, ks', b1, _, -, -, x', ⟨hx', -⟩, _, _, -, -, -, -, -, g'⟩ := h2
    rw [ha, a1] at b1; cases b1
    refine put_again (f := fun (s0 : Settings) => { s0 with
      currentRoundNumber := r.getD s0.currentRoundNumber, roundSubmitter := s.getD s0.roundSubmitter,
      minRequiredVotes := m.getD s0.minRequiredVotes, roundTtl := t.getD s0.roundTtl }) (fun s0 => ?_) g hx' rfl g'
    cases r <;> cases s <;> cases m <;> cases t <;> rfl
  | createRelayRound n rs e =>
    simp only [run, processCreateRelayRound, bind_ok, acct_ok, sysvar_ok, require_ok, exists_const] at h1 h2
    obtain ⟨_, -, _, -, ks, -, kr, a3, _, -, _, -, -, -, s, hs, -, -, g⟩ := h1
    obtain ⟨_, -, _, -, ks', -, kr', b3, _, -, _, -, -, -, s', hs', -, -, g'⟩ := h2
    rw [ha, a3] at b3; cases b3
    have := (openRound_fx g hs).live
    have := (openRound_fx g' hs').vacant.1
    omega
  | createProposal n p d =>
    simp only [run, processCreateProposal, bind_ok, acct_ok, sysvar_ok, require_ok, exists_const, Prod.exists] at h1 h2
    obtain ⟨_, -, _, -, k, a2, _, -, _, -, -, -, pk, pn, hk, rfl, g⟩ := h1
    obtain ⟨_, -, _, -, k', b2, _, -, _, -, -, -, pk', pn', hk', rfl, g'⟩ := h2
    rw [ha, a2] at b2; cases b2
    split at g'
    · rename_i e
      exfalso
      split at g
      · simp only [bind_ok] at g
        obtain ⟨wm, g1, g2⟩ := g
        have h := createPda_self (findAddr_create hk) g1
        rw [(pack_acc g2 pk).2.1, h] at e
        simp only at e
        omega
      · cases g
        rename_i hn
        exact hn e
    · cases g'; rfl
  | writeProposal o bs =>
    obtain ⟨k, b, b', a0, hb, -, hw, -, rfl⟩ := writeProposal_ok h1
    obtain ⟨k', c', c'', b0, hc', -, hw', -, rfl⟩ := writeProposal_ok h2
    rw [ha, a0] at b0; cases b0
    have e : c' = b' := by
      have : ((w.setDataRaw k (.raw b')).acc k).data = .raw b' := by simp
      rw [this] at hc'; cases hc'; rfl
    subst e
    rw [write_twice hw hw', setDataRaw_self hc']
  | finalizeProposal =>
    simp only [run, processFinalizeProposal, bind_ok, acct_ok, require_ok, exists_const, TP.ex_unit, unpackUnchecked_ok] at h1 h2
    obtain ⟨f, -, k, a1, _, -, _, -, _, -, s, -, p, -, -, -, r, -, wm, g1, g2⟩ := h1
    obtain ⟨f', -, k', b1, _, -, _, -, _, -, s', -, p', hp', -, hi', _, -, _, -, -⟩ := h2
    rw [ha, a1] at b1; cases b1
    exfalso
    obtain ⟨b, q, hb, hl, hd⟩ := pack_holds g1
    obtain ⟨b', q', hb', hl', hd'⟩ := hp'
    have : (w1.acc k).data = (wm.acc k).data := by rw [sysTransfer_acc g2 k]
    rw [this, hb] at hb'; cases hb'
    rw [hd] at hd'; cases hd'
    cases hi'
  | executeProposal =>
    obtain ⟨kp, p, a2, hh, -, -, hor⟩ := execute_fx h1
    obtain ⟨kp', p', b2, hh', -, -, hor'⟩ := execute_fx h2
    rw [ha, a2] at b2; cases b2
    rcases hor' with ⟨rfl, -⟩ | ⟨hn, hq, -, -⟩
    · rfl
    · exfalso
      rcases hor with ⟨rfl, hn'⟩ | ⟨-, -, -, ks, kr, s, x⟩
      · cases hh.unique hh'
        rcases hn' with h | h
        · rw [hn] at h; cases h
        · omega
      · cases x.done.unique hh'
        cases hn
  | executeProposalByAdmin =>
    obtain ⟨ks, kp, kr, s, p, a3, -, x⟩ := admin_fx h1
    obtain ⟨ks', kp', kr', s', p', b3, -, x'⟩ := admin_fx h2
    rw [ha, a3] at b3; cases b3
    cases x.done.unique x'.proposal
    have h := x'.roundAddr
    rw [hp] at h
    cases x.roundAddr.unique h
    have := x.live
    have := x'.vacant.1
    omega

end RL
end Verif
