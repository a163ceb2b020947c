import Verif.Lemmas.Consent
import Verif.Lemmas.Origin
import Verif.Spec.OriginProp
/-!
# The part of a proposal that its content cannot reach
-/
namespace Verif.RL
open Codec Verif

variable {env : Env} {L : Pubkey → Prop} {ctx : Ctx} {w w' : World} {i : Instr} {k : Pubkey}

/-- The fields of a proposal before its content. -/
def headC : Codec (Bool × AccountKind × Pubkey × U32 × U32 × PDA) :=
  pair bool (pair AccountKind.codec (pair key (pair u32 (pair u32 PDA.codec))))

theorem head_of {p : Proposal} {b r : Bytes} (h : proposalC.dec b = some (p, r)) :
    ∃ r', headC.dec b = some ((p.isInitialized, p.accountKind, p.author, p.roundNumber, p.requiredVotes, p.pda), r') := by
  obtain ⟨hw, hb⟩ := (proposalC.law _ _ _).1 h
  suffices ∃ r', headC.wf (p.isInitialized, p.accountKind, p.author, p.roundNumber, p.requiredVotes, p.pda) = true ∧
      b = headC.enc (p.isInitialized, p.accountKind, p.author, p.roundNumber, p.requiredVotes, p.pda) ++ r' by
    obtain ⟨r', h1, h2⟩ := this
    exact ⟨r', (headC.law _ _ _).2 ⟨h1, h2⟩⟩
  refine Exists.intro ?_ (And.intro ?_ ?_)
  · exact (u32.enc p.eventLen ++ (eventC.enc p.event ++ (u32.enc p.metaLen ++ (statusC.enc p.status ++ (vec voteC).enc p.signers)))) ++ r
  · simp only [proposalC, headC, wf_iso, wf_pair, Bool.and_eq_true] at hw ⊢
    simp_all
  · rw [hb]
    simp [proposalC, headC]

/-- An account of the length of a proposal that is marked as a proposal but not as finalized was created as one, and what was given then is still there. -/
def Drafted (env : Env) (C : Pubkey → U32 → PDA → Prop) (a : Account) : Prop :=
  a.owner = env.rlId → ∀ b, a.data = .raw b → b.length = proposalLen → b[0]? = some 0#8 → b[1]? = some 2#8 →
    ∃ n au rn rv q r, headC.dec b = some ((false, .proposal n none, au, rn, rv, q), r) ∧ C au rn q

theorem Drafted.mono {C C' : Pubkey → U32 → PDA → Prop} {a a' : Account} (h : Drafted env C a) (ho : a'.owner = a.owner) (hd : a'.data = a.data)
    (hC : ∀ x y z, C x y z → C' x y z) : Drafted env C' a' := by
  intro h1 b hb hl h2 h3
  obtain ⟨n, au, rn, rv, q, r, h4, h5⟩ := h (ho ▸ h1) b (hd ▸ hb) hl h2 h3
  exact ⟨n, au, rn, rv, q, r, h4, hC _ _ _ h5⟩

theorem drafted_len {α : Type} {c : Codec α} {n : Nat} {C : Pubkey → U32 → PDA → Prop} {a : Account} {x : α} (h : Holds c n a x) (hn : n ≠ proposalLen) :
    Drafted env C a := by
  intro _ b hb hl _ _
  obtain ⟨b', t, hb', hl', -⟩ := h
  rw [hb] at hb'
  cases hb'
  exact (hn (hl'.symm.trans hl)).elim

theorem drafted_final {C : Pubkey → U32 → PDA → Prop} {a : Account} {p : Proposal} (h : Holds proposalC proposalLen a p) (hi : p.isInitialized = true) :
    Drafted env C a := by
  intro _ b hb hl h0 _
  obtain ⟨b', t, hb', hl', hdd⟩ := h
  rw [hb] at hb'
  cases hb'
  have := proposal_head hdd
  rw [h0, hi] at this
  cases this

theorem drafted_zeros {C : Pubkey → U32 → PDA → Prop} {a : Account} {n : Nat} (h : a.data = .raw (zeros n)) : Drafted env C a := by
  intro _ b hb hl _ h1
  rw [h] at hb
  cases hb
  have := List.mem_of_getElem? h1
  have := (List.mem_replicate.1 this).2
  cases this

/-- What a step creates. -/
def Now (e : Ev) (k : Pubkey) (env : Env) (a : Pubkey) (rn : U32) (q : PDA) : Prop :=
  ∃ d, Proposes e k a rn q d ∧ IsAddr env env.rlId (proposalSeeds rn q d) k

theorem drafted_run {C C' : Pubkey → U32 → PDA → Prop} (hp : ctx.program = env.rlId) (hr : run env ctx i w = .ok w')
    (h : Drafted env C (w.acc k)) (hC : ∀ x y z, C x y z → C' x y z) (hN : ∀ x y z, Now ⟨.rl ctx i, w, w'⟩ k env x y z → C' x y z) :
    Drafted env C' (w'.acc k) := by
  have back : (w'.acc k).data = (w.acc k).data ∧ (w'.acc k).owner = (w.acc k).owner → Drafted env C' (w'.acc k) :=
    fun e => h.mono e.2 e.1 hC
  have opened : ∀ {ks kp kr s p}, Executed env ctx ks kp kr s p w w' → Drafted env C' (w'.acc k) := by
    intro ks kp kr s p x
    by_cases h1 : k = ks
    · subst h1; exact drafted_len x.current (by decide)
    by_cases h2 : k = kp
    · subst h2; exact drafted_final x.done x.final
    by_cases h3 : k = kr
    · subst h3
      obtain ⟨n, hn⟩ := x.round
      exact drafted_len hn (by decide)
    · exact back (x.others k h1 h2 h3)
  cases i with
  | init g s m t =>
    obtain ⟨-, ks, n, n', -, -, -, hs, hoth⟩ := Props.C01_initialize hr
    by_cases h1 : k = ks
    · subst h1; exact drafted_len hs (by decide)
    · exact back (hoth k h1)
  | updateSettings a b c d =>
    obtain ⟨-, ks, s, -, -, -, -, hs, -, hoth⟩ := Props.C01_update hr
    by_cases h1 : k = ks
    · subst h1; exact drafted_len hs (by decide)
    · exact back (by rw [hoth k h1]; exact ⟨rfl, rfl⟩)
  | createRelayRound num relays e =>
    obtain ⟨ks, kr, s, n, h1, h2, h3, h4, -, h6, h7, -, h9, h10, hoth⟩ := Props.C02_create_round hr
    by_cases e1 : k = ks
    · subst e1; exact drafted_len h10 (by decide)
    by_cases e2 : k = kr
    · subst e2; exact drafted_len h9 (by decide)
    · exact back (hoth k e1 e2)
  | createProposal n p d =>
    simp only [run, processCreateProposal, bind_ok, acct_ok, sysvar_ok, require_ok, exists_const, Prod.exists] at hr
    obtain ⟨f, -, cr, hcr, kp, hkp, -, -, rent, -, -, hsig, pk, m, ha, rfl, hr⟩ := hr
    split at hr
    · rename_i h0
      simp only [bind_ok] at hr
      obtain ⟨w1, h1, h2⟩ := hr
      by_cases e1 : k = pk
      · subst e1
        intro _ b hb hl _ _
        obtain ⟨b', t, hb', -, hdd⟩ := pack_holds h2
        rw [hb] at hb'
        cases hb'
        obtain ⟨r', hh⟩ := head_of hdd
        exact ⟨m, cr, n, 0#32, p, r', hh, hN _ _ _ ⟨d, ⟨ctx, rfl, hkp, hsig, h0⟩, m, by rw [← hp]; exact ha⟩⟩
      · refine back ?_
        rw [(pack_acc h2 k).2.2 e1]
        exact createPda_acc (findAddr_create ha) h1 k e1
    · cases hr
      exact back ⟨rfl, rfl⟩
  | writeProposal o bs =>
    obtain ⟨k', b0, b', -, hb0, hgd, hb', -, rfl⟩ := writeProposal_ok hr
    by_cases hk : k = k'
    · subst hk
      intro ho b hb hl h0 h1
      simp only [setDataRaw_acc, if_true, Data.raw.injEq] at ho hb
      subst hb
      obtain ⟨hlen, htake⟩ := writeProposalData_ok hb'
      have byte : ∀ j, j < loadBegin → b'[j]? = b0[j]? := by
        intro j hj
        have := congrArg (fun l => l[j]?) htake
        simpa [List.getElem?_take, hj] using this
      obtain ⟨n, au, rn, rv, q, r, h4, h5⟩ := h ho b0 hb0 (hlen.symm.trans hl) ((byte 0 (by decide)).symm.trans h0) ((byte 1 (by decide)).symm.trans h1)
      obtain ⟨hw, hbb⟩ := (headC.law _ _ _).1 h4
      obtain ⟨t, ht⟩ := prefix_keep hbb (by simp [headC, loadBegin, PDA.codec]) htake
      exact ⟨n, au, rn, rv, q, t, (headC.law _ _ _).2 ⟨hw, ht⟩, hC _ _ _ h5⟩
    · have e : (w.setDataRaw k' (.raw b')).acc k = w.acc k := by simp only [setDataRaw_acc, hk, if_false]
      rw [e]
      exact h.mono rfl rfl hC
  | finalizeProposal =>
    obtain ⟨kp, ks, kr, p0, s, rr, -, -, -, -, -, -, -, -, -, -, -, -, -, hq, -, hoth⟩ := finalize_fx hr
    by_cases e1 : k = kp
    · subst e1; exact drafted_final hq rfl
    · exact back (hoth k e1)
  | voteForProposal v =>
    obtain ⟨vk, kp, kr, p0, rr, j0, old, h0, h1, h2, hsig, hx, hh, hini, ha, hrr, hri, hra, hrel, hold, hor⟩ := vote_fx hr
    rcases hor with ⟨-, rfl⟩ | ⟨rfl, how, hnew, hacc⟩
    · exact back ⟨rfl, rfl⟩
    · by_cases e1 : k = kp
      · subst e1; exact drafted_final hnew hini
      · exact back ⟨(hacc k).2.1 e1, (hacc k).1⟩
  | executeProposal =>
    obtain ⟨kp, p, hk, hh, hini, -, hor⟩ := execute_fx hr
    rcases hor with ⟨rfl, -⟩ | ⟨hst, hq, ho, ks, kr, s, x⟩
    · exact back ⟨rfl, rfl⟩
    · exact opened x
  | executeProposalByAdmin =>
    obtain ⟨ks, kp, kr, s, p, hk, hsig, x⟩ := admin_fx hr
    exact opened x

theorem drafted_ev {C C' : Pubkey → U32 → PDA → Prop} {e : Ev} (hd : env.Distinct) (he : RlEv env L e)
    (h : Drafted env C (e.pre.acc k)) (hC : ∀ x y z, C x y z → C' x y z) (hN : ∀ x y z, Now e k env x y z → C' x y z) :
    Drafted env C' (e.post.acc k) := by
  obtain ⟨act, pre, post⟩ := e
  have quiet : QuietFor env.rlId L pre post → Drafted env C' (post.acc k) := by
    intro hq
    by_cases ho : (pre.acc k).owner = env.rlId
    · obtain ⟨h1, h2, -⟩ := (hq k).1 ho
      exact h.mono (h1.trans ho.symm) h2 hC
    · intro h1
      obtain ⟨-, n, hz⟩ := (hq k).2 h1 ho
      exact drafted_zeros hz h1
  cases act with
  | tp ctx i => exact quiet he
  | ext => exact quiet he
  | purge =>
    have hk : post.acc k = _ := he.2 k
    simp only at hk
    by_cases h0 : (pre.acc k).lamports = 0
    · rw [if_pos h0] at hk
      intro h1
      simp only [hk] at h1
      exact (hd.rlSys h1.symm).elim
    · rw [if_neg h0] at hk
      simp only [hk]
      exact h.mono rfl rfl hC
  | rl ctx i => exact drafted_run he.1 he.2.2 h hC hN

/-- What an instruction finalizes was marked as a proposal. -/
theorem finalize_kind (h : run env ctx .finalizeProposal w = .ok w') :
    ∃ kp p n pn, ctx.accounts[1]? = some kp ∧ Holds proposalC proposalLen (w.acc kp) p ∧ p.accountKind = .proposal n pn := by
  simp only [run, processFinalizeProposal, bind_ok, acct_ok, require_ok, exists_const, checkProposal_ok] at h
  obtain ⟨f, -, kp, hkp, ks, hks, kr, hkr, -, -, s, hs, p, hp, ⟨n, pn, hk, ha⟩, hini, r, hr, w1, h1, h2⟩ := h
  exact ⟨kp, p, n, pn, hkp, holds_iff.2 hp, hk⟩

/-- Every finalized proposal of a history was created by its author. -/
theorem proposal_origin {w0 : World} {tr : List Ev} {p : Proposal} (hd : env.Distinct) (hg : Genesis env L w0) (hr : Run env L true w0 tr w)
    (h : FinalAt env w k p) :
    ∃ t1 e t2 rn d, tr = t1 ++ e :: t2 ∧ Proposes e k p.author rn p.pda d ∧ IsAddr env env.rlId (proposalSeeds rn p.pda d) k ∧
      IsAddr env env.rlId (proposalSeeds rn p.pda (env.hash (eventC.enc p.event))) k ∧ ∃ e' ∈ t2, Finalizes e' k := by
  have hrl := hist_mem hd hg hr
  have := hr.fold (P := fun w t => Drafted env (fun a rn q => ∃ t1 e t2, t = t1 ++ e :: t2 ∧ Now e k env a rn q) (w.acc k) ∧
      ∀ p, FinalAt env w k p → ∃ t1 e t2 rn d, t = t1 ++ e :: t2 ∧ Proposes e k p.author rn p.pda d ∧ IsAddr env env.rlId (proposalSeeds rn p.pda d) k ∧
        IsAddr env env.rlId (proposalSeeds rn p.pda (env.hash (eventC.enc p.event))) k ∧ ∃ e' ∈ t2, Finalizes e' k) []
    ⟨fun ho => ((hg.owner k).1 ho).elim, fun p h => ((hg.owner k).1 h.1).elim⟩ (fun e he t hP => by
      obtain ⟨hD, hP⟩ := hP
      obtain ⟨hgood, hev⟩ := hrl e he
      refine ⟨drafted_ev hd hev hD ?_ ?_, fun p h => ?_⟩
      · rintro a rn q ⟨t1, e1, t2, rfl, hn⟩
        exact ⟨t1, e1, t2 ++ [e], by simp, hn⟩
      · intro a rn q hn
        exact ⟨t, e, [], rfl, hn⟩
      · by_cases hq : ∃ q, FinalAt env e.pre k q
        · obtain ⟨q, hq⟩ := hq
          obtain ⟨q', h1, hl⟩ := final_ev hd hev hgood hq
          have e1 := h1.2.1.unique h.2.1
          subst e1
          obtain ⟨t1, e1, t2, rn, d, rfl, h2, h3, h4, e', he', hf⟩ := hP q hq
          refine ⟨t1, e1, t2 ++ [e], rn, d, by simp, ?_, ?_, ?_, e', List.mem_append_left _ he', hf⟩
          · rw [hl.frozen]; exact h2
          · rw [hl.frozen]; exact h3
          · rw [hl.frozen]; exact h4
        · obtain ⟨act, pre, post⟩ := e
          cases act with
          | tp ctx i => exact (hq ⟨p, final_back hev h⟩).elim
          | ext => exact (hq ⟨p, final_back hev h⟩).elim
          | purge =>
            have hk : post.acc k = _ := hev.2 k
            simp only [FinalAt] at h hq
            simp only at hk
            by_cases h0 : (pre.acc k).lamports = 0
            · rw [if_pos h0] at hk
              rw [hk] at h
              exact (hd.rlSys h.1.symm).elim
            · rw [if_neg h0] at hk
              rw [hk] at h
              exact (hq ⟨p, h⟩).elim
          | rl ctx i =>
            rcases final_new hd hev.1 hgood hev.2.2 h with h1 | ⟨rfl, -⟩
            · exact (hq h1).elim
            · obtain ⟨kp, ks, kr, p0, s, r, h1, -, h3, hsa, hs, hsi, hp0, hpi, hpo, hpa, hrr, hri, hra, hnew, ho, hoth⟩ := finalize_fx hev.2.2
              by_cases hk : k = kp
              · subst hk
                obtain ⟨kp', p1, n, pn, g1, g2, g3⟩ := finalize_kind hev.2.2
                rw [h1] at g1; cases g1
                have e1 := g2.unique hp0
                subst e1
                have e1 := h.2.1.unique hnew
                subst e1
                obtain ⟨b, rr, hb, hl, hdd⟩ := hp0
                have z := proposal_head hdd
                rw [hpi] at z
                obtain ⟨n', au, rn, rv, q, r1, h4, t1, e1, t2, rfl, d, h5, h6⟩ := hD (hpo.trans hev.1) b hb hl z (proposal_kind hdd g3)
                obtain ⟨r2, h7⟩ := head_of hdd
                rw [h7] at h4
                simp only [Option.some.injEq, Prod.mk.injEq] at h4
                obtain ⟨⟨-, -, rfl, rfl, -, rfl⟩, -⟩ := h4
                exact ⟨t1, e1, t2 ++ [⟨.rl ctx .finalizeProposal, pre, post⟩], _, d, by simp, h5, h6, by rw [← hev.1]; exact hpa, ⟨.rl ctx .finalizeProposal, pre, post⟩, by simp, ctx, rfl, h1⟩
              · obtain ⟨e1, e2⟩ := hoth k hk
                obtain ⟨ho, ⟨b, r, hb, hl, hdd⟩, hi⟩ := h
                exact (hq ⟨p, e2.symm.trans ho, ⟨b, r, e1.symm.trans hb, hl, hdd⟩, hi⟩).elim)
  exact this.2 p h

end Verif.RL
