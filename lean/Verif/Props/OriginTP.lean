import Verif.Props.Requests
import Verif.Lemmas.WLife
import Verif.Spec.OriginTP
import Verif.Props.Signers
/-!
# C91: every withdrawal has a known origin
-/
set_option maxRecDepth 100000
namespace Verif.Props
open Verif TP Codec

variable {env : Env} {L : Pubkey → Prop} {k : Pubkey} {w : World}

theorem _root_.Verif.TP.Requests.congr {e : Ev} {p q : GenericProposal} (h : Requests env k e p) (hq : q = { p with signers := q.signers, metaData := q.metaData })
    (hl : q.signers.length = p.signers.length) : Requests env k e q := by
  have h1 : q.author = p.author := by rw [hq]
  have h2 : q.pda = p.pda := by rw [hq]
  have h3 : q.roundNumber = p.roundNumber := by rw [hq]
  have h4 : q.event = p.event := by rw [hq]
  have h5 : q.requiredVotes = p.requiredVotes := by rw [hq]
  cases h with
  | sol ctx pda to a py att kt ks kr t mint v s r a1 a2 a3 a4 a5 a6 a7 a8 a9 a10 a11 =>
    exact .sol ctx pda to a py att kt ks kr t mint v s r a1 a2 (by rw [h1]; exact a3) a4 a5 a6 (h2.trans a7) (h3.trans a8) (h4.trans a9)
      (by rw [h5]; exact a10) (hl.trans a11)
  | ever ctx pda t n y d to a py att ks kr s r a1 a2 a3 a6 a7 a8 a9 a10 a11 =>
    exact .ever ctx pda t n y d to a py att ks kr s r a1 a2 (by rw [h1]; exact a3) a6 (h2.trans a7) (h3.trans a8) (h4.trans a9)
      (by rw [h5]; exact a10) (hl.trans a11)

/-- C91: every withdrawal is at the address derived from its round, the identity and the content of its event. It was opened in an earlier step, in
which its author signed a request for exactly this event, with a relay round that was in force; and from then on it was there, with the same event,
author, round and required votes. -/
theorem C91_origin {tr : List Ev} {p : GenericProposal} {md : WMeta} (hd : env.Distinct) (h : History env L k tr w) (hw : WithdrawalAt env w k p md) :
    IsAddr env env.tpId (proposalSeeds p.roundNumber p.pda (env.hash p.event)) k ∧
    ∃ t1 e t2, tr = t1 ++ e :: t2 ∧ Requests env k e p ∧ (∀ q md, ¬ WithdrawalAt env e.pre k q md) ∧
      ∀ e' ∈ t2, ∃ q md', WithdrawalAt env e'.pre k q md' ∧ p = { q with signers := p.signers, metaData := p.metaData } := by
  obtain ⟨-, hev⟩ := h.evs hd
  obtain ⟨⟨w0, hg, hr⟩, -, -⟩ := h
  have := hr.fold (P := fun w t => ∀ p md, WithdrawalAt env w k p md →
      IsAddr env env.tpId (proposalSeeds p.roundNumber p.pda (env.hash p.event)) k ∧
      ∃ t1 e t2, t = t1 ++ e :: t2 ∧ Requests env k e p ∧ (∀ q md, ¬ WithdrawalAt env e.pre k q md) ∧
        ∀ e' ∈ t2, ∃ q md', WithdrawalAt env e'.pre k q md' ∧ p = { q with signers := p.signers, metaData := p.metaData }) []
    (fun p md h => ((hg.owner k).2 h.1).elim) (fun e he t hP p' md' hw' => by
      obtain ⟨-, -, hv⟩ := hev e he
      have later : ∀ {q : GenericProposal} {md : WMeta}, WithdrawalAt env e.pre k q md → p' = { q with signers := p'.signers, metaData := p'.metaData } →
          p'.signers.length = q.signers.length →
          IsAddr env env.tpId (proposalSeeds p'.roundNumber p'.pda (env.hash p'.event)) k ∧
          ∃ t1 e0 t2, t ++ [e] = t1 ++ e0 :: t2 ∧ Requests env k e0 p' ∧ (∀ q md, ¬ WithdrawalAt env e0.pre k q md) ∧
            ∀ e' ∈ t2, ∃ q md', WithdrawalAt env e'.pre k q md' ∧ p' = { q with signers := p'.signers, metaData := p'.metaData } := by
        intro q md hq he hl
        obtain ⟨ha, t1, e0, t2, rfl, h1, h2, h3⟩ := hP q md hq
        refine ⟨by rw [he]; exact ha, t1, e0, t2 ++ [e], by simp, h1.congr he hl, h2, fun e' he' => ?_⟩
        rcases List.mem_append.1 he' with hm | hm
        · obtain ⟨q0, md0, h4, h5⟩ := h3 e' hm
          exact ⟨q0, md0, h4, by rw [he, h5]⟩
        · rw [List.mem_singleton.1 hm]
          exact ⟨q, md, hq, he⟩
      cases hv with
      | absent h h' => exact (h' _ _ hw').elim
      | request ctx i p md hact hp hs hr h h' ha =>
        obtain ⟨rfl, rfl⟩ := h'.unique hw'
        cases ha with
        | ever =>
          obtain ⟨au, kw, ks, kr, s, r, -, b2, b3, -, -, b6, b7, -, hor⟩ := C14_request_ever hd hp hr
          rename_i hk _ _ _ _ _ _
          rw [hk] at b3; cases b3
          rcases hor with ⟨⟨⟨n, pn, votes, hvotes, ho⟩, -⟩, -⟩ | hsame
          · obtain ⟨e1, -⟩ := hw'.unique ho
            subst e1
            exact ⟨b7, t, e, [], by simp, .ever ctx _ _ _ _ _ _ _ _ _ ks kr s r hact hk b2 b6 rfl rfl rfl hvotes (by simp), h, fun _ h => by cases h⟩
          · exact (h _ _ ((hsame _ _).1 hw')).elim
        | sol =>
          obtain ⟨au, kw, kt, ks, kr, t', mint, v, s, r, -, b2, b3, -, b5, b6, -, -, b8, b9, -, hor⟩ := C14_request_sol hd hp hr
          rename_i hk _ _ _ _ _
          rw [hk] at b3; cases b3
          rcases hor with ⟨⟨⟨n, pn, votes, hvotes, ho⟩, -⟩, -⟩ | hsame
          · obtain ⟨e1, -⟩ := hw'.unique ho
            subst e1
            exact ⟨b9, t, e, [], by simp, .sol ctx _ _ _ _ _ kt ks kr t' mint v s r hact hk b2 b5 b6 b8 rfl rfl rfl hvotes (by simp), h,
              fun _ h => by cases h⟩
          · exact (h _ _ ((hsame _ _).1 hw')).elim
      | keep p md h h' =>
        obtain ⟨rfl, rfl⟩ := h'.unique hw'
        exact later h rfl rfl
      | change ctx i p md p1 md1 hact hp hs hr h h' hc =>
        obtain ⟨rfl, rfl⟩ := h'.unique hw'
        obtain ⟨hr1, hg1, -⟩ := hc.rest
        exact later h hr1 hg1.1.symm
      | payload ctx i p md sg hact hp hs hi hk h hb h' hg =>
        obtain ⟨rfl, rfl⟩ := h'.unique hw'
        exact later h rfl hg.1
      | close ctx p md hact hp hs hr h hf h' => exact (Dead.no hd h' hw').elim
      | purge p md hact h hf hl h' => exact (h' _ _ hw').elim)
  exact this p md hw

/-- C91: whatever the bridge releases, it releases on account of a withdrawal that was requested before. -/
theorem C91_released {t1 t2 : List Ev} {e : Ev} (hd : env.Distinct) (h : History env L k (t1 ++ e :: t2) w) (hr : Releases k e) :
    ∃ p md, WithdrawalAt env e.pre k p md ∧ ∃ e0 ∈ t1, Requests env k e0 p := by
  have hmem : e ∈ t1 ++ e :: t2 := by simp
  obtain ⟨hi, hi', hv⟩ := (h.evs hd).2 e hmem
  obtain ⟨w0, -, hrun⟩ := h.run
  obtain ⟨p, md, -, -, h0, -, -, -⟩ := released_status hd (hrun.evs hd e hmem) hv hi hi' hr
  obtain ⟨-, s1, e0, s2, rfl, h1, -⟩ := C91_origin hd h.before h0
  exact ⟨p, md, h0, e0, by simp, h1⟩

/-- The hypotheses are met: in the history that follows the intended course from the deployment on, the withdrawal is there just before it is paid
out. -/
example : ∃ t1 e w, History Toy.env Toy.L Toy.wd1 t1 e.pre ∧ (∃ p md, WithdrawalAt Toy.env e.pre Toy.wd1 p md) ∧
    History Toy.env Toy.L Toy.wd1 (t1 ++ e :: []) w ∧ Releases Toy.wd1 e := by
  obtain ⟨t1, e, w, h, hr, -⟩ := course_released
  obtain ⟨p, md, hw, -⟩ := C91_released Toy.distinct h hr
  exact ⟨t1, e, w, h.before, ⟨p, md, hw⟩, h, hr⟩

end Verif.Props
