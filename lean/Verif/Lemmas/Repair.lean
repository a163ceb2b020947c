import Verif.Lemmas.OriginProp
import Verif.Lemmas.Upload
import Verif.Spec.Repair
/-!
# A proposal that others have written into
-/
set_option linter.unusedSimpArgs false
namespace Verif.RL
open Codec Verif

variable {env : Env} {L : Pubkey → Prop} {ctx : Ctx} {w w' : World} {i : Instr} {k a : Pubkey} {n : U8} {rn : U32} {q : PDA}

/-- An unfinalized proposal: as created, except where content can be written. -/
def DraftAt (env : Env) (w : World) (k : Pubkey) (n : U8) (a : Pubkey) (rn : U32) (q : PDA) : Prop :=
  (w.acc k).owner = env.rlId ∧ ∃ b, (w.acc k).data = .raw b ∧ b.length = proposalLen ∧
    b.take loadBegin = (freshBytes n a rn q).take loadBegin ∧ b.drop loadEnd = (freshBytes n a rn q).drop loadEnd

theorem fresh_len : (freshBytes n a rn q).length = proposalLen := by
  have : (proposalC.enc (freshProposal n a rn q)).length ≤ proposalLen := by
    simp [proposalC, freshProposal, eventC, vec, encAll, proposalLen]
  rw [freshBytes, List.length_append, List.length_drop, zeros_len]; exact Nat.add_sub_of_le this

theorem fresh_zero : (freshBytes n a rn q)[0]? = some 0#8 := by
  simp only [freshBytes, proposalC, enc_iso, enc_pair, freshProposal]
  simp [Codec.bool]

theorem fresh_dec : ∃ t, proposalC.dec (freshBytes n a rn q) = some (freshProposal n a rn q, t) := by
  refine ⟨_, (proposalC.law _ _ _).2 ⟨?_, rfl⟩⟩
  simp [proposalC, freshProposal, eventC]

theorem fresh_one : (freshBytes n a rn q)[1]? = some 2#8 := by
  obtain ⟨t, h⟩ := fresh_dec (n := n) (a := a) (rn := rn) (q := q)
  exact proposal_kind h rfl

theorem take_byte {b c : Bytes} {m j : Nat} (h : b.take m = c.take m) (hj : j < m) : b[j]? = c[j]? := by
  have := congrArg (fun l => l[j]?) h
  simpa [List.getElem?_take, hj] using this

theorem DraftAt.same (h : DraftAt env w k n a rn q) (hd : (w'.acc k).data = (w.acc k).data) (ho : (w'.acc k).owner = (w.acc k).owner) :
    DraftAt env w' k n a rn q := by
  obtain ⟨h1, b, h2, h3⟩ := h
  exact ⟨ho.trans h1, b, hd.trans h2, h3⟩

theorem DraftAt.live (hg : Good env w) (h : DraftAt env w k n a rn q) : (w.acc k).lamports ≠ 0 := by
  obtain ⟨h1, b, h2, h3, h4, -⟩ := h
  have := hg.live h2 (i := 1) (by decide) ((take_byte h4 (by decide)).trans fresh_one) (by decide) h1
  omega

theorem DraftAt.notLen {α : Type} {c : Codec α} {m : Nat} {x : α} (h : DraftAt env w k n a rn q) (hh : Holds c m (w.acc k) x) (hm : m ≠ proposalLen) : False := by
  obtain ⟨-, b, h2, h3, -⟩ := h
  obtain ⟨b', t, hb', hl', -⟩ := hh
  rw [h2] at hb'
  cases hb'
  exact hm (hl'.symm.trans h3)

theorem DraftAt.notFinal {p : Proposal} (h : DraftAt env w k n a rn q) (hh : Holds proposalC proposalLen (w.acc k) p) (hi : p.isInitialized = true) : False := by
  obtain ⟨-, b, h2, h3, h4, -⟩ := h
  obtain ⟨b', t, hb', -, hdd⟩ := hh
  rw [h2] at hb'
  cases hb'
  have := proposal_head hdd
  rw [take_byte h4 (by decide), fresh_zero, hi] at this
  cases this

theorem DraftAt.notVacant (hd : env.Distinct) (h : DraftAt env w k n a rn q) (hv : Vacant env (w.acc k)) : False :=
  hd.rlSys (h.1.symm.trans hv.2.2)

theorem draft_run (hd : env.Distinct) (hp : ctx.program = env.rlId) (hg : Good env w) (hr : run env ctx i w = .ok w') (h : DraftAt env w k n a rn q) :
    DraftAt env w' k n a rn q ∨ ∃ p, FinalAt env w' k p := by
  have back : (w'.acc k).data = (w.acc k).data ∧ (w'.acc k).owner = (w.acc k).owner → DraftAt env w' k n a rn q ∨ ∃ p, FinalAt env w' k p :=
    fun e => .inl (h.same e.1 e.2)
  have opened : ∀ {ks kp kr s p}, Executed env ctx ks kp kr s p w w' → DraftAt env w' k n a rn q ∨ ∃ p, FinalAt env w' k p := by
    intro ks kp kr s p x
    refine back (x.others k ?_ ?_ ?_)
    · rintro rfl; exact h.notLen x.settings (by decide)
    · rintro rfl; exact h.notFinal x.proposal x.final
    · rintro rfl; exact h.notVacant hd x.vacant
  cases i with
  | init g s m t =>
    obtain ⟨-, ks, n, n', -, hv, -, hs, hoth⟩ := Props.C01_initialize hr
    refine back (hoth k ?_)
    rintro rfl; exact h.notVacant hd hv
  | updateSettings a b c d =>
    obtain ⟨-, ks, s, -, -, hs, -, -, -, hoth⟩ := Props.C01_update hr
    have : k ≠ ks := by rintro rfl; exact h.notLen hs (by decide)
    exact back (by rw [hoth k this]; exact ⟨rfl, rfl⟩)
  | createRelayRound num relays e =>
    obtain ⟨ks, kr, s, n, h1, h2, h3, h4, -, h6, h7, -, h9, h10, hoth⟩ := Props.C02_create_round hr
    refine back (hoth k ?_ ?_)
    · rintro rfl; exact h.notLen h2 (by decide)
    · rintro rfl; exact h.notVacant hd h7
  | createProposal n p d =>
    simp only [run, processCreateProposal, bind_ok, acct_ok, sysvar_ok, require_ok, exists_const, Prod.exists] at hr
    obtain ⟨f, -, cr, hcr, kp, hkp, -, -, rent, -, -, hsig, pk, m, ha, rfl, hr⟩ := hr
    split at hr
    · rename_i h0
      simp only [bind_ok] at hr
      obtain ⟨w1, h1, h2⟩ := hr
      have e1 : k ≠ pk := by rintro rfl; exact h.live hg h0
      refine back ?_
      rw [(pack_acc h2 k).2.2 e1]
      exact createPda_acc (findAddr_create ha) h1 k e1
    · cases hr
      exact back ⟨rfl, rfl⟩
  | writeProposal o bs =>
    obtain ⟨k', b0, b', -, hb0, hgd, hb', -, rfl⟩ := writeProposal_ok hr
    by_cases hk : k = k'
    · subst hk
      obtain ⟨h1, b, h2, h3, h4, h5⟩ := h
      rw [hb0] at h2
      cases h2
      obtain ⟨hlen, htake⟩ := writeProposalData_ok hb'
      have hdrop : b'.drop loadEnd = b0.drop loadEnd := by
        simp only [writeProposalData, bind_ok, require_ok, exists_const, Except.ok.injEq] at hb'
        obtain ⟨e1, e2, rfl⟩ := hb'
        refine List.ext_getElem? fun j => ?_
        rw [List.getElem?_drop, List.getElem?_drop, write_at e2, if_neg (by omega)]
      refine .inl ⟨?_, b', ?_, hlen.trans h3, htake.trans h4, hdrop.trans h5⟩
      · simp only [setDataRaw_acc, if_true]; exact h1
      · simp only [setDataRaw_acc, if_true]
    · have e : (w.setDataRaw k' (.raw b')).acc k = w.acc k := by simp only [setDataRaw_acc, hk, if_false]
      exact .inl (h.same (by rw [e]) (by rw [e]))
  | finalizeProposal =>
    obtain ⟨kp, ks, kr, p0, s, rr, -, -, -, -, -, -, -, -, -, -, -, -, -, hq, ho, hoth⟩ := finalize_fx hr
    by_cases e1 : k = kp
    · subst e1; exact .inr ⟨_, ho.trans hp, hq, rfl⟩
    · exact back (hoth k e1)
  | voteForProposal v =>
    obtain ⟨vk, kp, kr, p0, rr, j0, old, h0, h1, h2, hsig, hx, hh, hini, ha, hrr, hri, hra, hrel, hold, hor⟩ := vote_fx hr
    rcases hor with ⟨-, rfl⟩ | ⟨rfl, how, hnew, hacc⟩
    · exact back ⟨rfl, rfl⟩
    · have e1 : k ≠ kp := by rintro rfl; exact h.notFinal hh hini
      exact back ⟨(hacc k).2.1 e1, (hacc k).1⟩
  | executeProposal =>
    obtain ⟨kp, p, hk, hh, hini, -, hor⟩ := execute_fx hr
    rcases hor with ⟨rfl, -⟩ | ⟨hst, hq, ho, ks, kr, s, x⟩
    · exact back ⟨rfl, rfl⟩
    · exact opened x
  | executeProposalByAdmin =>
    obtain ⟨ks, kp, kr, s, p, hk, hsig, x⟩ := admin_fx hr
    exact opened x

theorem draft_ev {e : Ev} (hd : env.Distinct) (he : RlEv env L e) (hg : Good env e.pre) (h : DraftAt env e.pre k n a rn q) :
    DraftAt env e.post k n a rn q ∨ ∃ p, FinalAt env e.post k p := by
  obtain ⟨act, pre, post⟩ := e
  have quiet : QuietFor env.rlId L pre post → DraftAt env post k n a rn q ∨ ∃ p, FinalAt env post k p := by
    intro hq
    obtain ⟨h1, h2, -⟩ := (hq k).1 h.1
    exact .inl (h.same h2 (h1.trans h.1.symm))
  cases act with
  | tp ctx i => exact quiet he
  | ext => exact quiet he
  | purge =>
    have hk : post.acc k = _ := he.2 k
    simp only at hk
    rw [if_neg (h.live hg)] at hk
    exact .inl (h.same (by simp only [hk]) (by simp only [hk]))
  | rl ctx i => exact draft_run hd he.1 hg he.2.2 h

theorem created {e : Ev} {d : Pubkey} (he : RlEv env L e) (h : Creates e k a rn q d) :
    ∃ n, findAddr env (proposalSeeds rn q d) env.rlId = .ok (k, n) ∧ DraftAt env e.post k n a rn q := by
  obtain ⟨act, pre, post⟩ := e
  obtain ⟨ctx, hact, ha1, hk1, h0⟩ := h
  simp only at hact h0
  subst hact
  obtain ⟨hp, -, hr⟩ := he
  simp only [run, processCreateProposal, bind_ok, acct_ok, sysvar_ok, require_ok, exists_const, Prod.exists] at hr
  obtain ⟨f, -, cr, hcr, kp, hkp, -, -, rent, -, -, hsig, pk, m, ha, rfl, hr⟩ := hr
  rw [ha1] at hcr
  rw [hk1] at hkp
  cases hcr
  cases hkp
  rw [if_pos h0] at hr
  simp only [bind_ok] at hr
  obtain ⟨w1, h1, h2⟩ := hr
  have self := createPda_self (findAddr_create ha) h1
  obtain ⟨b, b', hb, hl, hst, -, rfl⟩ := pack_ok.1 h2
  rw [self] at hb
  cases hb
  have e1 : b' = freshBytes m a rn q := hst.eq
  refine ⟨m, by rw [← hp]; exact ha, ?_, b', ?_, ?_, by rw [e1], by rw [e1]⟩
  · simp only [setDataRaw_acc, if_true, self]; exact hp
  · simp only [setDataRaw_acc, if_true]
  · rw [e1]; exact fresh_len

/-- Once created, a proposal stays what it is or is finalized. -/
theorem draft_kept {w0 : World} {tr : List Ev} {d : Pubkey} (hd : env.Distinct) (hg : Genesis env L w0) (hr : Run env L true w0 tr w) :
    ∀ e ∈ tr, Creates e k a rn q d →
      ∃ n, findAddr env (proposalSeeds rn q d) env.rlId = .ok (k, n) ∧ (DraftAt env w k n a rn q ∨ ∃ p, FinalAt env w k p) := by
  have hrl := hist_mem hd hg hr
  refine hr.fold (P := fun w t => ∀ e ∈ t, Creates e k a rn q d →
      ∃ n, findAddr env (proposalSeeds rn q d) env.rlId = .ok (k, n) ∧ (DraftAt env w k n a rn q ∨ ∃ p, FinalAt env w k p)) [] (fun e h => by cases h) ?_
  intro e he t ih e' he' hc
  rw [List.mem_append, List.mem_singleton] at he'
  rcases he' with he' | rfl
  · obtain ⟨n, hn, h | ⟨p, h⟩⟩ := ih e' he' hc
    · exact ⟨n, hn, draft_ev hd (hrl e he).2 (hrl e he).1 h⟩
    · obtain ⟨p', h', -⟩ := final_ev hd (hrl e he).2 (hrl e he).1 h
      exact ⟨n, hn, .inr ⟨p', h'⟩⟩
  · obtain ⟨n, hn, h⟩ := created (hrl e' he).2 hc
    exact ⟨n, hn, .inl h⟩

theorem upload_len {len : U32} {e : Event} : (uploadBytes len e).length = 16 + 32 * e.relays.length := by
  simp only [uploadBytes, eventC, enc_iso, enc_pair, List.length_append, len_relays]; simp; omega

theorem padded_len {len : U32} {e : Event} (h100 : e.relays.length ≤ 100) : loadBegin + (paddedBytes len e).length = loadEnd := by
  simp only [paddedBytes, List.length_append, zeros_len, upload_len]
  show 88 + (16 + 32 * e.relays.length + (3304 - 88 - (16 + 32 * e.relays.length))) = 3304
  omega

theorem zeros_split (x y z : Nat) (h : z ≤ y) : ∃ m, zeros x ++ zeros y = zeros z ++ zeros m := by
  refine ⟨x + y - z, ?_⟩
  have e : x + y = z + (x + y - z) := by omega
  unfold zeros
  rw [List.replicate_append_replicate, List.replicate_append_replicate, ← e]

/-- The record after everything is overwritten. -/
theorem padded_dec {len : U32} {e : Event} (h100 : e.relays.length ≤ 100) :
    ∃ t, proposalC.dec (wholeBytes (freshBytes n a rn q) (paddedBytes len e)) =
      some ({ freshProposal n a rn q with eventLen := len, event := e, metaLen := 0#32 }, t) := by
  let hdr : Bytes := Codec.bool.enc false ++ (AccountKind.codec.enc (.proposal n none) ++ (key.enc a ++ (u32.enc rn ++ (u32.enc 0#32 ++ PDA.codec.enc q))))
  have hhdr : hdr.length = loadBegin := by simp [hdr, loadBegin]
  have hF : freshBytes n a rn q = hdr ++ (zeros 16 ++ (u32.enc 1#32 ++ (statusC.enc .new ++ (vec voteC).enc []) ++ zeros 3302)) := by
    have hz : (zeros proposalLen).drop (proposalC.enc (freshProposal n a rn q)).length = zeros 3302 := by
      have : (proposalC.enc (freshProposal n a rn q)).length = 113 := by simp [proposalC, freshProposal, eventC, vec, encAll]
      rw [this, zeros_drop]; rfl
    have hz16 : u32.enc 0#32 ++ eventC.enc ⟨0#32, [], 0#32⟩ = zeros 16 := by decide
    rw [freshBytes, hz, ← hz16]
    simp only [proposalC, enc_iso, enc_pair, freshProposal, hdr, List.append_assoc]
  have hdrop : (freshBytes n a rn q).drop loadEnd = zeros (proposalLen - loadEnd) := by
    have e1 : loadEnd = (proposalC.enc (freshProposal n a rn q)).length + (loadEnd - 113) := by
      have : (proposalC.enc (freshProposal n a rn q)).length = 113 := by simp [proposalC, freshProposal, eventC, vec, encAll]
      rw [this]; decide
    rw [freshBytes, e1, ← List.drop_drop, List.drop_left, List.drop_drop, ← e1, zeros_drop]
  have htake : (freshBytes n a rn q).take loadBegin = hdr := by rw [hF, ← hhdr, List.take_left]
  have hwfe : eventC.wf e = true := by
    simp only [eventC, wf_iso, wf_pair, wf_vec, Bool.and_eq_true, decide_eq_true_eq]
    refine ⟨by simp, ⟨by omega, ?_⟩, by simp⟩
    rw [List.all_eq_true]; intro v _; rfl
  have hz9 : u32.enc 0#32 ++ (statusC.enc .new ++ (vec voteC).enc []) = zeros 9 := by decide
  obtain ⟨m, hm⟩ := zeros_split (loadEnd - loadBegin - (uploadBytes len e).length) (proposalLen - loadEnd) 9 (by decide)
  have hW : wholeBytes (freshBytes n a rn q) (paddedBytes len e) = hdr ++ (uploadBytes len e ++ (zeros 9 ++ zeros m)) := by
    rw [wholeBytes, padded_len h100, htake, hdrop, paddedBytes, ← hm]
    simp only [List.append_assoc]
  refine ⟨zeros m, ?_⟩
  rw [proposalC.law]
  refine ⟨?_, ?_⟩
  · simp [proposalC, freshProposal, hwfe]
  · rw [hW, ← hz9]
    simp only [proposalC, enc_iso, enc_pair, freshProposal, hdr, uploadBytes, List.append_assoc]

/-- Overwriting everything makes the draft the proposal of the event, whatever was there. -/
theorem repaired {len : U32} {e : Event} {parts : List Part} (h : DraftAt env w k n a rn q)
    (hn : findAddr env (proposalSeeds rn q (env.hash (eventC.enc e))) env.rlId = .ok (k, n)) (h100 : e.relays.length ≤ 100)
    (hc : Covers (paddedBytes len e) parts) :
    ∃ w1, Written env k parts w w1 ∧ ProposalReady env w1 k { freshProposal n a rn q with eventLen := len, event := e, metaLen := 0#32 } ∧
      (w1.acc k).lamports = (w.acc k).lamports ∧ ∀ j, j ≠ k → w1.acc j = w.acc j := by
  obtain ⟨ho, b, hb, hl, htake, hdrop⟩ := h
  have hT := padded_len (len := len) h100
  have hle : loadEnd ≤ proposalLen := by decide
  have hfl : (freshBytes n a rn q).length = proposalLen := fresh_len
  obtain ⟨w1, hw, self, oth⟩ := writes_sent (env := env) (k := k) (l := parts) (w := w) (F := freshBytes n a rn q) (T := paddedBytes len e)
    fresh_len fresh_zero (by omega) hc.piece hb ho hl (fun i hi => by
      have hwl : (wholeBytes (freshBytes n a rn q) (paddedBytes len e))[i]? =
        if loadBegin ≤ i ∧ i < loadBegin + (paddedBytes len e).length then (paddedBytes len e)[i - loadBegin]?
        else (freshBytes n a rn q)[i]? := write_at (by omega)
      rw [hwl] at hi
      split at hi
      · rename_i hin
        obtain ⟨x, hx, h1, h2⟩ := hc.all (i - loadBegin) (by omega)
        exact ⟨x, hx, by omega, by omega⟩
      · rename_i hout
        exfalso
        apply hi
        rcases Nat.lt_or_ge i loadBegin with h1 | h1
        · exact take_byte htake h1
        · have := congrArg (fun l => l[i - loadEnd]?) hdrop
          simp only [List.getElem?_drop] at this
          rwa [show loadEnd + (i - loadEnd) = i by omega] at this)
  obtain ⟨t, hdec⟩ := padded_dec (n := n) (a := a) (rn := rn) (q := q) (len := len) h100
  have hlen : (wholeBytes (freshBytes n a rn q) (paddedBytes len e)).length = proposalLen := by
    simp only [wholeBytes, List.length_append, List.length_take, List.length_drop]; omega
  exact ⟨w1, hw, ⟨by rw [self]; exact ho, ⟨_, t, by rw [self], hlen, hdec⟩, n, none, rfl, hn⟩, by rw [self], oth⟩

end Verif.RL
