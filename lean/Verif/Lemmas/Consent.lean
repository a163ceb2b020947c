import Verif.Lemmas.RLLive
import Verif.Lemmas.Signers
import Verif.Spec.Consent
/-!
# The signatures behind the votes on a proposal
-/
namespace Verif.RL
open Codec Verif

variable {env : Env} {L : Pubkey → Prop} {ctx : Ctx} {w w' : World} {i : Instr} {k kr : Pubkey}

/-- The slot of a vote is the first place of the voter in the relay round. -/
theorem vote_place {v : Vote} (h : run env ctx (.voteForProposal v) w = .ok w') :
    ∃ voter kp kr p rr j, ctx.accounts[1]? = some kp ∧ ctx.accounts[2]? = some kr ∧ ctx.isSigner voter = true ∧
      Holds proposalC proposalLen (w.acc kp) p ∧ p.isInitialized = true ∧
      Holds relayRoundC relayRoundLen (w.acc kr) rr ∧ rr.isInitialized = true ∧ rr.relays.findIdx? (fun y => y == voter) = some j ∧
      (w' = w ∨ Holds proposalC proposalLen (w'.acc kp) { p with signers := p.signers.set j v }) := by
  simp only [run, processVote, bind_ok, acct_ok, require_ok, exists_const, unpack_holds, orErr_ok, checkProposal_ok] at h
  obtain ⟨vk, h0, kp, h1, kr, h2, hsig, hx, p, ⟨hh, hini⟩, ⟨n, pn, hk, ha⟩, rr, hrr, j, hj, old, hold, h⟩ := h
  obtain ⟨hr, hri, m, hkm, hra⟩ := loadRelayRound_ok.1 hrr
  refine ⟨vk, kp, kr, p, rr, j, h1, h2, hsig, hh, hini, hr, hri, hj, ?_⟩
  split at h
  · rename_i e
    simp only [bind_ok] at h
    obtain ⟨w1, h1, h2⟩ := h
    obtain ⟨hle, -, how, -, -, hacc⟩ := moveLamports_ok h2
    obtain ⟨b, r, hb, hl, hdd⟩ := pack_holds h1
    exact .inr ⟨b, r, by rw [hacc kp]; exact hb, hl, hdd⟩
  · cases h; exact .inl rfl

/-- A slot is filled only by the relay whose first place it is. -/
theorem vote_first {v : Vote} {j : Nat} {p q : Proposal} (h : run env ctx (.voteForProposal v) w = .ok w') (hk : ctx.accounts[1]? = some k)
    (hq : FinalAt env w k q) (hqj : q.signers[j]? = some .none) (hp : FinalAt env w' k p) (hpj : p.signers[j]? ≠ some .none) :
    ∃ x kr rr, ctx.accounts[2]? = some kr ∧ ctx.isSigner x = true ∧ Holds relayRoundC relayRoundLen (w.acc kr) rr ∧ rr.isInitialized = true ∧
      rr.relays.findIdx? (fun y => y == x) = some j := by
  obtain ⟨x, kp, kr, p0, rr, j', h1, h2, hs, hp0, -, hr, hri, hj, hor⟩ := vote_place h
  rw [hk] at h1; cases h1
  rcases hor with rfl | hn
  · rw [hp.2.1.unique hq.2.1] at hpj
    exact (hpj hqj).elim
  · have e := hp0.unique hq.2.1
    subst e
    have e := hp.2.1.unique hn
    subst e
    by_cases e : j' = j
    · subst e; exact ⟨x, kr, rr, h2, hs, hr, hri, hj⟩
    · simp only [List.getElem?_set_ne e] at hpj
      exact (hpj hqj).elim

theorem final_op_back {w0 x y : World} {op : Op} (hd : env.Distinct)
    (hp : ctx.program = env.rlId) (hnw : ∀ o bs, i ≠ .writeProposal o bs) (hnf : i ≠ .finalizeProposal) (hW : Why env ctx w0 i op)
    (he : Exec env ctx op x y) {p : Proposal} (h : FinalAt env y k p) : ∃ q, FinalAt env x k q := by
  obtain ⟨ho, ⟨b, r, hb, hl, hdd⟩, hi⟩ := h
  have hh := proposal_head hdd
  rw [hi] at hh
  have keep : (y.acc k).owner = (x.acc k).owner → (y.acc k).data = (x.acc k).data → ∃ q, FinalAt env x k q :=
    fun h1 h2 => ⟨p, h1.symm.trans ho, ⟨b, r, h2.symm.trans hb, hl, hdd⟩, hi⟩
  have zs : ∀ n, (y.acc k).data = .raw (zeros n) → False := by
    intro n hz
    rw [hz] at hb; cases hb
    cases n with
    | zero => cases hh
    | succ n => cases hh
  have tok : (x.acc k).owner = env.splId → (y.acc k).owner = (x.acc k).owner → False := by
    intro h1 h2; rw [h2, h1] at ho; exact hd.rlSpl ho.symm
  cases exec_ch he k with
  | same h => exact keep (by rw [h]) (by rw [h])
  | gain _ _ hd' ho' => exact keep ho' hd'
  | pay _ _ h _ hd' ho' => exact keep ho' hd'
  | move _ _ _ _ _ _ hd' ho' => exact keep ho' hd'
  | write b0 b' hop hw how hb0 hlen h =>
    subst hop
    rw [h] at hb; simp only [Data.raw.injEq] at hb; subst hb
    have old : ∀ q r', proposalC.dec b0 = some (q, r') → q.isInitialized = true → FinalAt env x k q :=
      fun q r' h1 h2 => ⟨how.trans hp, ⟨b0, r', hb0, hlen.symm.trans hl, h1⟩, h2⟩
    cases hW with
    | initSettings => rw [hlen, zeros_len] at hl; cases hl
    | updateSettings _ _ _ _ _ _ _ _ _ _ _ _ hl' => rw [hlen, hl'] at hl; cases hl
    | roundSettings _ _ _ _ _ _ _ _ _ hl' => rw [hlen, hl'] at hl; cases hl
    | round => rw [hlen, zeros_len] at hl; cases hl
    | fresh _ _ n r p d author hi' ha hs => rw [hs.dec] at hdd; cases hdd; cases hi
    | data _ _ _ off bs hi' hg hb' => exact (hnw _ _ hi').elim
    | final _ kr _ _ _ p0 n pn s rr hi' => exact (hnf hi').elim
    | vote _ _ _ _ _ _ p0 _ _ _ _ _ hi' hx hl' hd' hini => exact ⟨p0, old _ _ hd' hini⟩
    | exec _ _ _ _ p0 hi' hl' hd' hini hs => exact ⟨p0, old _ _ hd' hini⟩
  | close hop => subst hop; cases hW
  | create _ _ _ _ _ _ _ _ _ _ _ h => exact (zs _ (by rw [h])).elim
  | createFunded _ _ _ _ _ _ _ _ _ _ _ _ _ h => exact (zs _ (by rw [h])).elim
  | xferSrc _ _ _ _ _ _ _ _ how _ _ _ _ _ ho => exact (tok how ho).elim
  | xferDst _ _ _ _ _ _ _ how _ _ _ ho => exact (tok how ho).elim
  | mintDst _ _ _ _ _ _ _ how _ _ _ h => exact (tok how (by rw [h])).elim
  | mintMint _ _ _ _ _ _ _ how _ _ _ _ h => exact (tok how (by rw [h])).elim
  | burnSrc _ _ _ _ _ _ _ _ how _ _ _ _ _ h => exact (tok how (by rw [h])).elim
  | burnMint _ _ _ _ _ _ _ how _ _ h => exact (tok how (by rw [h])).elim
  | initAcc _ _ _ _ how _ h => exact (tok how (by rw [h])).elim
  | initMint _ _ _ _ how _ h => exact (tok how (by rw [h])).elim
  | sync _ _ _ _ how _ _ h => exact (tok how (by rw [h])).elim

/-- A proposal becomes final only by `FinalizeProposal`, with one slot for every relay of the round it then names. -/
theorem final_new {p : Proposal} (hd : env.Distinct) (hp : ctx.program = env.rlId) (hg : Good env w) (hr : run env ctx i w = .ok w')
    (h : FinalAt env w' k p) : (∃ q, FinalAt env w k q) ∨ i = .finalizeProposal ∧
      ∃ kr rr, IsAddr env env.rlId (relayRoundSeeds p.roundNumber) kr ∧ Holds relayRoundC relayRoundLen (w.acc kr) rr ∧ rr.isInitialized = true ∧
        p.signers.length = rr.relays.length := by
  by_cases hw : ∃ o bs, i = .writeProposal o bs
  · obtain ⟨o, bs, rfl⟩ := hw
    obtain ⟨k', b0, b', -, hb0, hgd, hb', -, rfl⟩ := writeProposal_ok hr
    by_cases hk : k = k'
    · subst hk
      obtain ⟨ho, ⟨b1, r, hb1, hl, hdd⟩, hi⟩ := h
      simp only [setDataRaw_acc, if_true, Data.raw.injEq] at ho hb1
      subst hb1
      obtain ⟨hlen, htake⟩ := writeProposalData_ok hb'
      obtain ⟨b2, hb2, -, h2⟩ := hg k ho
      rw [hb0] at hb2; cases hb2
      have hh := proposal_head hdd
      rw [hi] at hh
      have e : b'[0]? = b0[0]? := by
        have := congrArg (fun l => l[0]?) htake
        simpa [List.getElem?_take, loadBegin] using this
      rcases h2 (hlen.symm.trans hl) with h0 | ⟨q, r', hq, -⟩
      · rw [e, h0] at hh; cases hh
      · have hq0 := hgd q r' (hlen.symm.trans hl) hq
        have hh' := proposal_head hq
        rw [hq0, ← e, hh] at hh'; cases hh'
    · refine .inl ⟨p, ?_⟩
      simpa only [FinalAt, setDataRaw_acc, hk, if_false] using h
  by_cases hf : i = .finalizeProposal
  · subst hf
    obtain ⟨kp, ks, kr, p0, s, r, h1, -, h3, hsa, hs, hsi, -, -, -, -, hrr, hri, hra, hq, ho, hoth⟩ := finalize_fx hr
    by_cases hk : k = kp
    · subst hk
      have e := h.2.1.unique hq
      subst e
      exact .inr ⟨rfl, kr, r, by rw [← hp]; exact hra, hrr, hri, by simp⟩
    · obtain ⟨e1, e2⟩ := hoth k hk
      obtain ⟨ho, ⟨b, r, hb, hl, hdd⟩, hi⟩ := h
      exact .inl ⟨p, e2.symm.trans ho, ⟨b, r, e1.symm.trans hb, hl, hdd⟩, hi⟩
  · refine .inl ((run_ops hr).lift (R := fun x y => (∃ p, FinalAt env y k p) → ∃ q, FinalAt env x k q)
      (fun _ h => h) (fun _ _ _ h1 h2 h => h1 (h2 h)) (fun op x y hW he h => ?_) ⟨p, h⟩)
    obtain ⟨p, h⟩ := h
    exact final_op_back hd hp (fun o bs e => hw ⟨o, bs, e⟩) hf hW he h

/-- Every vote on a proposal was signed by the relay of its slot, if all votes name the relay round of the proposal. -/
theorem signed {w0 : World} {tr : List Ev} {p : Proposal} (hd : env.Distinct) (hg : Genesis env L w0) (hr : Run env L true w0 tr w) (hL : L kr)
    (hkept : RoundKept env tr kr) (hvote : VotedIn tr k kr) (hw : FinalAt env w k p) (ha : IsAddr env env.rlId (relayRoundSeeds p.roundNumber) kr) :
    ∃ r, RoundAt env w kr r ∧ r.relays.length = p.signers.length ∧
      ∀ j v, p.signers[j]? = some v → v ≠ .none → ∃ x, r.relays.findIdx? (fun y => y == x) = some j ∧ ∃ e ∈ tr, SignsVote k x v e := by
  have hrl := hist_mem hd hg hr
  have hreach : Reach env L w0 := ⟨w0, [], hg, .nil _ _⟩
  have := hr.fold (P := fun w t => ∀ p, FinalAt env w k p → IsAddr env env.rlId (relayRoundSeeds p.roundNumber) kr →
      ∃ r, RoundAt env w kr r ∧ r.relays.length = p.signers.length ∧
        ∀ j v, p.signers[j]? = some v → v ≠ .none → ∃ x, r.relays.findIdx? (fun y => y == x) = some j ∧ ∃ e ∈ t, SignsVote k x v e) []
    (fun p h => ((hg.owner k).1 h.1).elim) (fun e he t hP p hf ha => by
      obtain ⟨hgood, hev⟩ := hrl e he
      have stay : ∀ {r}, RoundAt env e.pre kr r → RoundAt env e.post kr r := by
        intro r hrr
        obtain ⟨q, h3, -, h4⟩ := round_ev hd hev hgood hrr
        rw [h4 (hkept.unwritten e he)] at h3
        exact h3
      have own : ∀ {rr}, Holds relayRoundC relayRoundLen (e.pre.acc kr) rr → rr.isInitialized = true → RoundAt env e.pre kr rr :=
        fun h1 h2 => ⟨((hreach.pre hr e he).clean_round hL h1 h2).resolve_left (hkept.foreign e he), h1, h2⟩
      by_cases hq : ∃ q, FinalAt env e.pre k q
      · obtain ⟨q, hq⟩ := hq
        obtain ⟨q', h1, hl⟩ := final_ev hd hev hgood hq
        have e1 := h1.2.1.unique hf.2.1
        subst e1
        have hrn : q'.roundNumber = q.roundNumber := by rw [hl.frozen]
        obtain ⟨r, hR, hlen, hs⟩ := hP q hq (by rw [← hrn]; exact ha)
        refine ⟨r, stay hR, hlen.trans hl.slots.symm, fun j v hj hv => ?_⟩
        rcases vote_ev hd hev hgood hv hf hj with ⟨q1, hq1, hj1⟩ | ⟨ctx, i, hact, hc, q1, hq1, hj1⟩
        · have e1 := hq1.2.1.unique hq.2.1
          subst e1
          obtain ⟨x, hx, e', he', hse⟩ := hs j v hj1 hv
          exact ⟨x, hx, e', List.mem_append_left _ he', hse⟩
        · obtain ⟨rfl, hk, -⟩ := hc
          have hrun : run env ctx (.voteForProposal v) e.pre = .ok e.post := by
            obtain ⟨act, pre, post⟩ := e
            simp only at hact; subst hact; exact hev.2.2
          obtain ⟨x, kr', rr, h2, hsig, hrr, hri, hx⟩ := vote_first hrun hk hq1 hj1 hf (by rw [hj]; intro hh; cases hh; exact hv rfl)
          have e1 := hvote e he ctx v hact hk
          rw [h2] at e1; cases e1
          have e1 := hrr.unique hR.2.1
          subst e1
          exact ⟨x, hx, e, by simp, ctx, hact, hk, hsig⟩
      · have new : ∃ ctx i, e.act = .rl ctx i := by
          obtain ⟨act, pre, post⟩ := e
          cases act with
          | rl ctx i => exact ⟨ctx, i, rfl⟩
          | tp ctx i => exact (hq ⟨p, final_back hev hf⟩).elim
          | ext => exact (hq ⟨p, final_back hev hf⟩).elim
          | purge =>
            have hk : post.acc k = _ := hev.2 k
            simp only [FinalAt] at hf hq
            simp only at hk
            by_cases h0 : (pre.acc k).lamports = 0
            · rw [if_pos h0] at hk
              rw [hk] at hf
              exact (hd.rlSys hf.1.symm).elim
            · rw [if_neg h0] at hk
              rw [hk] at hf
              exact (hq ⟨p, hf⟩).elim
        obtain ⟨ctx, i, hact⟩ := new
        obtain ⟨hp, hrun⟩ : ctx.program = env.rlId ∧ run env ctx i e.pre = .ok e.post := by
          obtain ⟨act, pre, post⟩ := e
          simp only at hact; subst hact; exact ⟨hev.1, hev.2.2⟩
        obtain ⟨-, kr', rr, h1, h2, h3, h4⟩ := (final_new hd hp hgood hrun hf).resolve_left hq
        have e1 : kr' = kr := h1.unique ha
        subst e1
        refine ⟨rr, stay (own h2 h3), h4.symm, fun j v hj hv => ?_⟩
        rcases vote_ev hd hev hgood hv hf hj with ⟨q1, hq1, -⟩ | ⟨_, _, _, _, q1, hq1, -⟩ <;> exact (hq ⟨q1, hq1⟩).elim)
  exact this p hw ha

end Verif.RL
