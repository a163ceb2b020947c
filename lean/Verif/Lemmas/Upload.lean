import Verif.Spec.Upload
import Verif.Lemmas.LiveRL
import Verif.Lemmas.NPFx
/-!
# Uploading a round proposal in parts
-/
set_option linter.unusedSimpArgs false
namespace Verif.RL
open Codec Verif

variable {env : Env} {ctx : Ctx} {w w' w1 : World} {k f a : Pubkey} {now : I64}

/-- The account after `CreateProposal`. -/
def freshBytes (nonce : U8) (author : Pubkey) (round : U32) (pda : PDA) : Bytes :=
  proposalC.enc (freshProposal nonce author round pda) ++ (zeros proposalLen).drop (proposalC.enc (freshProposal nonce author round pda)).length

theorem create_sent {n : U32} {pda : PDA} {event : Bytes} {pn : U8} (hk : findAddr env (proposalSeeds n pda (env.hash event)) env.rlId = .ok (k, pn))
    (hv : Vacant env (w.acc k)) (hf : Wallet env w f (max 1 (env.rent proposalLen))) (hmax : env.rent proposalLen < 2 ^ 64) :
    ∃ ix w1, RL.Client.createProposalIx env f a n pda event = .ok ix ∧ process env (ix.ctx now) ix.data w = .ok w1 ∧
      w1.acc k = ⟨max 1 (env.rent proposalLen), env.rlId, .raw (freshBytes pn a n pda)⟩ ∧ Eff [k] w w1 ∧
      ∀ j, j ≠ k → (w1.acc j).lamports = (w.acc j).lamports - (if j = f then max 1 (env.rent proposalLen) else 0) := by
  have hwf : Instr.codec.wf (.createProposal n pda (env.hash event)) = true := rfl
  have hb : RL.Client.createProposalIx env f a n pda event = .ok ⟨env.rlId, [.new f true, .new a true, .new k false, .readonly env.systemId false,
      .readonly env.rentId false], Instr.codec.enc (.createProposal n pda (env.hash event))⟩ := by
    simp only [RL.Client.createProposalIx, RL.Client.proposalAddr, bind_ok, addrOf_ok, packed_ok, Except.ok.injEq]
    exact ⟨k, ⟨pn, hk⟩, _, ⟨hwf, rfl⟩, rfl⟩
  have hne : f ≠ k := by
    rintro rfl
    have := hf.rich; rw [hv.1] at this; omega
  suffices h : ∃ w1, process env (Ix.ctx ⟨env.rlId, [.new f true, .new a true, .new k false, .readonly env.systemId false,
      .readonly env.rentId false], Instr.codec.enc (.createProposal n pda (env.hash event))⟩ now) (Instr.codec.enc (.createProposal n pda (env.hash event)))
      w = .ok w1 ∧ w1.acc k = ⟨max 1 (env.rent proposalLen), env.rlId, .raw (freshBytes pn a n pda)⟩ ∧ Eff [k] w w1 ∧
      ∀ j, j ≠ k → (w1.acc j).lamports = (w.acc j).lamports - (if j = f then max 1 (env.rent proposalLen) else 0) by
    obtain ⟨w1, h⟩ := h
    exact ⟨_, w1, hb, h⟩
  generalize hc : Ix.ctx _ now = ctx
  have hprog : ctx.program = env.rlId := by rw [← hc]; rfl
  obtain ⟨w1, hw1, self1, eff1, lam1⟩ := createPda_live (ctx := ctx) (o := ctx.program) (space := proposalLen) (by rw [hprog]; exact hk) hv hne
    (by rw [← hc]; built) (by rw [← hc]; built) (by rw [← hc]; built) (by rw [← hc]; built) hf hmax
  have hw2 : pack ctx proposalC proposalLen (freshProposal pn a n pda) k w1 = .ok (w1.setDataRaw k (.raw (freshBytes pn a n pda))) :=
    pack_ok.2 ⟨zeros proposalLen, freshBytes pn a n pda, by rw [self1], zeros_len _, ⟨by simp [proposalC, freshProposal, eventC],
      by simp [proposalC, freshProposal, eventC, proposalLen, vec, encAll], rfl⟩, .inr ⟨by rw [← hc]; built, by rw [self1]⟩, rfl⟩
  refine ⟨w1.setDataRaw k (.raw (freshBytes pn a n pda)), ?_, ?_, ?_, ?_⟩
  · rw [process_enc hwf]
    simp only [run, processCreateProposal, bind_ok, acct_ok, sysvar_ok, require_ok, exists_const, Prod.exists, hprog]
    subst hc
    refine ⟨f, rfl, a, rfl, k, rfl, env.systemId, rfl, env.rentId, rfl, rfl, by built, k, pn, hk, rfl, ?_⟩
    rw [if_pos hv.1]
    simp only [bind_ok]
    exact ⟨w1, hw1, hw2⟩
  · simp only [World.setDataRaw, World.set, if_true, self1, hprog]
  · intro j hj
    have := eff1 j hj
    simp only [List.mem_cons, List.not_mem_nil, or_false] at hj
    simpa [World.setDataRaw, World.set, hj] using this
  · intro j hj
    rw [← lam1 j hj]
    simp [World.setDataRaw, World.set, hj]

/-! ## The bytes -/

/-- `b` after a part of `T` is written at its place. -/
theorem write_at {b bs : Bytes} {off i : Nat} (h : off + bs.length ≤ b.length) :
    (b.take off ++ bs ++ b.drop (off + bs.length))[i]? = if off ≤ i ∧ i < off + bs.length then bs[i - off]? else b[i]? := by
  have h1 : (b.take off).length = off := by rw [List.length_take]; omega
  by_cases e1 : i < off
  · rw [if_neg (by omega), List.append_assoc, List.getElem?_append_left (by omega), List.getElem?_take, if_pos e1]
  · by_cases e2 : i < off + bs.length
    · rw [if_pos ⟨by omega, e2⟩, List.append_assoc, List.getElem?_append_right (by omega), h1, List.getElem?_append_left (by omega)]
    · rw [if_neg (by omega), List.getElem?_append_right (by rw [List.length_append, h1]; omega), List.length_append, h1, List.getElem?_drop]
      congr 1; omega

/-- A proposal that starts with a zero byte is not initialized. -/
theorem zero_uninit {b t : Bytes} {p : Proposal} (h0 : b[0]? = some 0#8) (h : proposalC.dec b = some (p, t)) : p.isInitialized = false := by
  rw [proposalC.eq_of_dec h] at h0
  cases hi : p.isInitialized with
  | false => rfl
  | true =>
    simp only [proposalC, enc_iso, enc_pair, hi] at h0
    simp [Codec.bool] at h0

theorem write_sent {b : Bytes} {x : Part} (hd : (w.acc k).data = .raw b) (ho : (w.acc k).owner = env.rlId) (hl : b.length = proposalLen)
    (h0 : b[0]? = some 0#8) (hfit : loadBegin + x.offset.toNat + x.bytes.length ≤ loadEnd) :
    ∃ ix, RL.Client.writeProposalIx env k x.offset x.bytes = .ok ix ∧ process env (ix.ctx x.time) ix.data w =
      .ok (w.setDataRaw k (.raw (b.take (loadBegin + x.offset.toNat) ++ x.bytes ++ b.drop (loadBegin + x.offset.toNat + x.bytes.length)))) := by
  have hend : loadEnd ≤ proposalLen := by decide
  have hwf : Instr.codec.wf (.writeProposal x.offset x.bytes) = true := by
    have : x.bytes.length < 2 ^ 32 := by
      have : loadEnd < 2 ^ 32 := by decide
      omega
    show ((pair u32 bytes).wf (x.offset, x.bytes)) = true
    simp [this]
  refine ⟨⟨env.rlId, [.new k false], Instr.codec.enc (.writeProposal x.offset x.bytes)⟩, ?_, ?_⟩
  · simp only [RL.Client.writeProposalIx, bind_ok, packed_ok, Except.ok.injEq]
    exact ⟨_, ⟨hwf, rfl⟩, rfl⟩
  · rw [process_enc hwf]
    simp only [run, processWriteProposal, bind_ok, acct_ok]
    refine ⟨k, rfl, ?_⟩
    have hrest : (match (w.acc k).data with
        | .raw b => do
          let b' ← writeProposalData b x.offset.toNat x.bytes
          setData (Ix.ctx ⟨env.rlId, [.new k false], Instr.codec.enc (.writeProposal x.offset x.bytes)⟩ x.time) k (.raw b') w
        | _ => .error .externalDataModified) = .ok (w.setDataRaw k (.raw (b.take (loadBegin + x.offset.toNat) ++ x.bytes ++
          b.drop (loadBegin + x.offset.toNat + x.bytes.length)))) := by
      simp only [hd, bind_ok, writeProposalData, require_ok, exists_const, Except.ok.injEq]
      exact ⟨_, ⟨hfit, by omega, rfl⟩, setData_ok.2 ⟨.inr ⟨by built, ho⟩, rfl⟩⟩
    cases hu : unpackUnchecked proposalC proposalLen (w.acc k).data with
    | error _ => exact hrest
    | ok p =>
      obtain ⟨b', t, hb', -, hdec⟩ := unpackUnchecked_ok.1 hu
      rw [hd] at hb'; cases hb'
      simp only [bind_ok, require_ok, exists_const]
      exact ⟨zero_uninit h0 hdec, hrest⟩

/-- What the account holds when everything is written. -/
def wholeBytes (F T : Bytes) : Bytes := F.take loadBegin ++ T ++ F.drop (loadBegin + T.length)

theorem writes_sent {F T : Bytes} (hF : F.length = proposalLen) (hF0 : F[0]? = some 0#8) (hT : loadBegin + T.length ≤ loadEnd) :
    ∀ {l : List Part} {w : World} {b : Bytes}, (∀ x ∈ l, x.offset.toNat + x.bytes.length ≤ T.length ∧
        x.bytes = (T.drop x.offset.toNat).take x.bytes.length) → (w.acc k).data = .raw b → (w.acc k).owner = env.rlId → b.length = proposalLen →
      (∀ i, b[i]? ≠ (wholeBytes F T)[i]? → ∃ x ∈ l, loadBegin + x.offset.toNat ≤ i ∧ i < loadBegin + x.offset.toNat + x.bytes.length) →
      ∃ w', Written env k l w w' ∧ (w'.acc k) = { w.acc k with data := .raw (wholeBytes F T) } ∧ ∀ j, j ≠ k → w'.acc j = w.acc j
  | [], w, b, hp, hd, ho, hl, hb => by
    have : b = wholeBytes F T := List.ext_getElem? fun i => by
      by_cases e : b[i]? = (wholeBytes F T)[i]?
      · exact e
      · obtain ⟨x, hx, -⟩ := hb i e; cases hx
    subst this
    exact ⟨w, .nil w, by rw [← hd], fun _ _ => rfl⟩
  | x :: l, w, b, hp, hd, ho, hl, hb => by
    obtain ⟨p1, p2⟩ := hp x List.mem_cons_self
    have hle : loadEnd ≤ proposalLen := by decide
    have hle1 : 0 < loadBegin := by decide
    have hwl : ∀ i, (wholeBytes F T)[i]? = if loadBegin ≤ i ∧ i < loadBegin + T.length then T[i - loadBegin]? else F[i]? := fun i =>
      write_at (by omega)
    have h0 : b[0]? = some 0#8 := by
      by_cases e : b[0]? = (wholeBytes F T)[0]?
      · rw [e, hwl, if_neg (by omega)]; exact hF0
      · obtain ⟨y, -, h1, -⟩ := hb 0 e; omega
    obtain ⟨ix, h1, h2⟩ := write_sent (env := env) (x := x) hd ho hl h0 (by omega)
    generalize hw1 : w.setDataRaw k _ = w1 at h2
    have hk1 : w1.acc k = { w.acc k with data := .raw (b.take (loadBegin + x.offset.toNat) ++ x.bytes ++
        b.drop (loadBegin + x.offset.toNat + x.bytes.length)) } := by rw [← hw1]; simp [World.setDataRaw]
    have hj1 : ∀ j, j ≠ k → w1.acc j = w.acc j := fun j hj => by rw [← hw1]; simp [World.setDataRaw, World.set, hj]
    obtain ⟨w', h3, h4, h5⟩ := writes_sent (l := l) hF hF0 hT (fun y hy => hp y (List.mem_cons_of_mem _ hy)) (by rw [hk1]) (by rw [hk1]; exact ho)
      (by simp only [List.length_append, List.length_take, List.length_drop]; omega) (fun i hi => by
        rw [write_at (by omega)] at hi
        by_cases e : loadBegin + x.offset.toNat ≤ i ∧ i < loadBegin + x.offset.toNat + x.bytes.length
        · exfalso
          rw [if_pos e, hwl, if_pos (by omega)] at hi
          refine hi ?_
          rw [p2, List.getElem?_take, if_pos (by omega), List.getElem?_drop]
          congr 1; omega
        · rw [if_neg e] at hi
          obtain ⟨y, hy, hy1⟩ := hb i hi
          rcases List.mem_cons.1 hy with rfl | hy
          · exact absurd hy1 e
          · exact ⟨y, hy, hy1⟩)
    exact ⟨w', .cons h1 h2 h3, by rw [h4, hk1], fun j hj => (h5 j hj).trans (hj1 j hj)⟩

theorem zeros_drop (a b : Nat) : (zeros a).drop b = zeros (a - b) := by rw [zeros, List.drop_replicate]; rfl

/-- The record after everything is written. -/
theorem whole_dec {n : U32} {pda : PDA} {pn : U8} {len : U32} {e : Event} (h100 : e.relays.length ≤ 100) :
    ∃ m t, proposalC.dec (wholeBytes (freshBytes pn a n pda) (uploadBytes len e)) =
      some ({ freshProposal pn a n pda with eventLen := len, event := e, metaLen := m }, t) := by
  have hT : (uploadBytes len e).length = 16 + 32 * e.relays.length := by
    simp only [uploadBytes, eventC, enc_iso, enc_pair, List.length_append, len_relays]; simp; omega
  let hdr : Bytes := Codec.bool.enc false ++ (AccountKind.codec.enc (.proposal pn none) ++ (key.enc a ++ (u32.enc n ++ (u32.enc 0#32 ++ PDA.codec.enc pda))))
  let tail : Bytes := u32.enc 1#32 ++ (statusC.enc .new ++ (vec voteC).enc [])
  have hhdr : hdr.length = loadBegin := by simp [hdr, loadBegin]
  have hF : freshBytes pn a n pda = hdr ++ (zeros 16 ++ (tail ++ zeros 3302)) := by
    have hz : (zeros proposalLen).drop (proposalC.enc (freshProposal pn a n pda)).length = zeros 3302 := by
      have : (proposalC.enc (freshProposal pn a n pda)).length = 113 := by simp [proposalC, freshProposal, eventC, vec, encAll]
      rw [this, zeros_drop]; rfl
    have hz16 : u32.enc 0#32 ++ eventC.enc ⟨0#32, [], 0#32⟩ = zeros 16 := by decide
    rw [freshBytes, hz, ← hz16]
    simp only [proposalC, enc_iso, enc_pair, freshProposal, hdr, tail, List.append_assoc]
  have hW : wholeBytes (freshBytes pn a n pda) (uploadBytes len e) = hdr ++ (uploadBytes len e ++ (zeros 16 ++ (tail ++ zeros 3302)).drop (uploadBytes len e).length) := by
    rw [wholeBytes, hF, ← hhdr]; simp
  have hwfe : eventC.wf e = true := by
    simp only [eventC, wf_iso, wf_pair, wf_vec, Bool.and_eq_true, decide_eq_true_eq]
    refine ⟨by simp, ⟨by omega, ?_⟩, by simp⟩
    rw [List.all_eq_true]; intro v _; rfl
  have key : ∀ m t, (zeros 16 ++ (tail ++ zeros 3302)).drop (uploadBytes len e).length = u32.enc m ++ (statusC.enc .new ++ (vec voteC).enc []) ++ t →
      proposalC.dec (wholeBytes (freshBytes pn a n pda) (uploadBytes len e)) =
        some ({ freshProposal pn a n pda with eventLen := len, event := e, metaLen := m }, t) := fun m t h => by
    rw [proposalC.law]
    refine ⟨?_, ?_⟩
    · simp [proposalC, freshProposal, hwfe]
    · rw [hW, h]
      simp only [proposalC, enc_iso, enc_pair, freshProposal, hdr, uploadBytes, List.append_assoc]
  by_cases hn : e.relays.length = 0
  · refine ⟨1#32, zeros 3302, key _ _ ?_⟩
    rw [hT, hn, List.drop_left' (by simp)]
  · refine ⟨0#32, zeros (3302 - (32 * e.relays.length - 9) - 9), key _ _ ?_⟩
    have htl : tail.length = 9 := by decide
    have hz9 : u32.enc 0#32 ++ (statusC.enc .new ++ (vec voteC).enc []) = zeros 9 := by decide
    have h1 : zeros (3302 - (32 * e.relays.length - 9)) = zeros 9 ++ zeros (3302 - (32 * e.relays.length - 9) - 9) := by
      rw [zeros, zeros, zeros, List.replicate_append_replicate]; congr 1; omega
    rw [hT, hz9, ← h1, ← List.drop_drop, List.drop_left' (by simp), List.drop_append, List.drop_of_length_le (by omega), zeros_drop, htl]
    rfl


/-- The proposal that `FinalizeProposal` makes of `p`. -/
def finalized (p : Proposal) (r : RelayRound) (s : Settings) : Proposal :=
  { p with
    isInitialized := true
    roundNumber := r.roundNumber
    requiredVotes := requiredVotes r.relays.length s.minRequiredVotes
    signers := List.replicate r.relays.length Vote.none
    metaLen := 1#32
    status := .new }

theorem finalize_sent {ks kr : Pubkey} {s : Settings} {r : RelayRound} {p : Proposal} (hd : env.Distinct) (hs : RL.Ready env w ks s)
    (hr : RL.RoundReady env w kr r) (hp : RL.ProposalReady env w k p) (hn : p.roundNumber = r.roundNumber) (hi : p.isInitialized = false)
    (h100 : p.event.relays.length ≤ 100) (hf : Wallet env w f (relayReparation * r.relays.length))
    (hmax : (w.acc k).lamports + relayReparation * r.relays.length < 2 ^ 64) :
    ∃ ix w1, RL.Client.finalizeProposalIx env f k r.roundNumber = .ok ix ∧ process env (ix.ctx now) ix.data w = .ok w1 ∧
      RL.ProposalReady env w1 k (finalized p r s) ∧ Eff [k] w w1 ∧ ∀ j, (w1.acc j).lamports = (w.acc j).lamports -
        (if j = f then relayReparation * r.relays.length else 0) + (if j = k then relayReparation * r.relays.length else 0) := by
  obtain ⟨sn, pn, pd2, hk, hsn, hpn⟩ := hs.addr
  obtain ⟨rn, hrk, hrn⟩ := hr.addr
  have hwf : Instr.codec.wf .finalizeProposal = true := rfl
  have hb : RL.Client.finalizeProposalIx env f k r.roundNumber = .ok ⟨env.rlId, [.new f true, .new k false, .readonly ks false, .readonly kr false,
      .readonly env.systemId false], Instr.codec.enc .finalizeProposal⟩ := by
    simp only [RL.Client.finalizeProposalIx, RL.Client.settingsAddr, RL.Client.roundAddr, bind_ok, addrOf_ok, packed_ok, Except.ok.injEq]
    exact ⟨ks, ⟨sn, hsn⟩, kr, ⟨rn, hrn⟩, _, ⟨hwf, rfl⟩, rfl⟩
  suffices h : ∃ w1, process env (Ix.ctx ⟨env.rlId, [.new f true, .new k false, .readonly ks false, .readonly kr false,
      .readonly env.systemId false], Instr.codec.enc .finalizeProposal⟩ now) (Instr.codec.enc .finalizeProposal) w = .ok w1 ∧
      RL.ProposalReady env w1 k (finalized p r s) ∧ Eff [k] w w1 ∧ ∀ j, (w1.acc j).lamports = (w.acc j).lamports -
        (if j = f then relayReparation * r.relays.length else 0) + (if j = k then relayReparation * r.relays.length else 0) by
    obtain ⟨w1, h⟩ := h
    exact ⟨_, w1, hb, h⟩
  rw [process_enc hwf]
  generalize hc : Ix.ctx _ now = ctx
  have hprog : ctx.program = env.rlId := by rw [← hc]; rfl
  have hr100 := round_fits hr.here.2.1 rn hrk
  obtain ⟨qwf, qlen⟩ := hp.fit
  obtain ⟨b, t, hbd, hbl, hbdec⟩ := hp.holds
  obtain ⟨w1, hw1, hq1, ho1, hlam1, -, eff1⟩ := pack_live (ctx := ctx) (c := proposalC) (len := proposalLen) (a := finalized p r s) hbd hbl
    (by
      simp only [finalized, proposalC, wf_iso, wf_pair, wf_vec, Bool.and_eq_true, decide_eq_true_eq] at qwf ⊢
      refine ⟨by simp, by simp, by simp, by simp, by simp, by simp, by simp, qwf.2.2.2.2.2.2.2.1, by simp, by simp, by simp; omega, ?_⟩
      simp)
    (by
      have := len_kind p.accountKind
      simp only [finalized, proposalC, enc_iso, enc_pair, List.length_append, len_votes, proposalLen, eventC, len_relays, List.length_replicate]
      simp; omega)
    (by rw [← hc]; built) (hp.owner.trans hprog.symm)
  have hfk : f ≠ k := by
    rintro rfl
    exact hd.rlSys (hp.owner.symm.trans hf.system)
  obtain ⟨w2, hw2, eff2, hlam2⟩ := sysTransfer_live (env := env) (ctx := ctx) (w := w1) (src := f) (dst := k) (n := relayReparation * r.relays.length)
    (by rw [← hc]; built) (by rw [← hc]; built) (by rw [← hc]; built) (by rw [← hc]; built)
    ⟨by rw [(eff1 f (by simpa using hfk)).2]; exact hf.system, by rw [(eff1 f (by simpa using hfk)).1]; exact hf.empty,
      by rw [hlam1]; exact hf.rich⟩ hfk (by rw [hlam1]; exact hmax)
  refine ⟨w2, ?_, ?_, ?_, ?_⟩
  · simp only [run, processFinalizeProposal, bind_ok, acct_ok, sysvar_ok, require_ok, exists_const, unpackUnchecked_ok]
    have hl := loadSettings_live hprog hs
    have hl2 := loadRelayRound_live hprog hr
    have hl3 := checkProposal_live hprog hp
    subst hc
    exact ⟨f, rfl, k, rfl, ks, rfl, kr, rfl, env.systemId, rfl, s, hl, p, hp.holds, (), hl3, hi, r, hl2, w1, hw1, hw2⟩
  · obtain ⟨n, pn', hk1, ha1⟩ := hp.addr
    refine ⟨?_, ?_, n, pn', hk1, ?_⟩
    · rw [(eff2 k (by simp)).2, ho1]; exact hp.owner
    · exact holds_eff eff2 (by simp) hq1
    · rw [← ha1]; simp only [finalized, hn]
  · exact eff1.trans eff2
  · intro j
    rw [hlam2, hlam1]

end Verif.RL
