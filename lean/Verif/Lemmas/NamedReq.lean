import Verif.Lemmas.TPOrigin
import Verif.Lemmas.TPFee
import Verif.Spec.Places
/-!
# A withdrawal that the instruction does not name
-/
set_option linter.unusedSimpArgs false
namespace Verif.TP
open Codec Verif

variable {env : Env} {L : Pubkey → Prop} {ctx : Ctx} {w w' : World} {i : Instr} {k : Pubkey}

/-- A withdrawal not named by the instruction keeps every byte and every lamport. -/
theorem request_unnamed {p : GenericProposal} {md : WMeta} (hd : env.Distinct) (hp : ctx.program = env.tpId) (h : run env ctx noCpi i w = .ok w')
    (hs : WithdrawalAt env w k p md) (hn : k ∉ namedRequests ctx i) :
    (w'.acc k).owner = (w.acc k).owner ∧ (w'.acc k).data = (w.acc k).data ∧ (w.acc k).lamports ≤ (w'.acc k).lamports := by
  obtain ⟨ho, ⟨b, r, hb, hlen, hdec⟩, hi, ⟨n, pn, hk⟩, -⟩ := hs
  obtain ⟨q1, hq1⟩ := header_genericProposal hdec
  have hhead : Head (w.acc k) true (.proposal n pn) := ⟨b, q1, hb, by rw [hq1, hi, hk]⟩
  obtain ⟨ho', b', hb', hl', rfl⟩ := (run_ops h).track (k := k) (P := fun b' l => (w.acc k).lamports ≤ l ∧ b' = b)
    (by rw [hp]; exact hd.tpSys) (by rw [hp]; exact hd.tpSpl) (fun b l l' h1 hle => ⟨Nat.le_trans h1.1 hle, h1.2⟩)
    (fun x n b l l' hW _ _ => by
      cases hW with
      | votePay k v x hi hg hpl => exact absurd hpl hn
      | multiPay k r n hi hu ha hm =>
        obtain ⟨v, hv, -, n, hk, -⟩ := loadMultiVault_ok.1 hm
        have := (hhead.unique (head_multiVault hv)).2
        rw [hk] at this
        cases this
      | closePay k a n hi hk hpl =>
        rcases hk with ⟨b, r, d, m, hb, hd, hkd, -⟩ | ⟨hc, -⟩
        · obtain ⟨s, hs⟩ := header_genericDeposit hd
          have := (hhead.unique ⟨b, s, hb, hs⟩).2
          rw [hkd] at this
          cases this
        · exact absurd (hpl hc) hn)
    (fun hW => by
      cases hW with
      | closeDeposit k sd d b r hi ha hb hd n hk hsig =>
        obtain ⟨s, hs⟩ := header_genericDeposit hd
        have := (hhead.unique ⟨b, s, hb, hs⟩).2
        rw [hk] at this
        cases this
      | closeWithdrawal k p md hi hp hm hs hpl => exact absurd hpl hn)
    (fun b1 b2 l hW hlen' e => by
      obtain ⟨e1, e⟩ := e
      subst e
      cases hW with
      | new k b' hn =>
        have := zeros_head hq1
        rw [hi] at this
        cases this
      | token k b b' r n' pn' s2 s3 hl2 hd2 hini hk2 ha hc h0 hs hpl =>
        obtain ⟨q2, hq2⟩ := header_token hd2
        rw [hq1, hk, hk2] at hq2
        simp only [Option.some.injEq, Prod.mk.injEq, reduceCtorEq, and_false, false_and] at hq2
      | settings k b b' r n' pn' s2 s3 hl2 hd2 hini hk2 ha hc h0 hs =>
        obtain ⟨q2, hq2⟩ := header_settings hd2
        rw [hq1, hk, hk2] at hq2
        simp only [Option.some.injEq, Prod.mk.injEq, reduceCtorEq, and_false, false_and] at hq2
      | ever k b b' r x x' hl hd2 hini ha hk2 h0 hc hs hpl => exact absurd hpl hn
      | sol k b b' r x x' hl hd2 hini ha hk2 h0 hc hs hpl => exact absurd hpl hn
      | vote k kr v b b' r p j x rr n' pn' hi h0 hx hd2 hk2 ha hr hri hra hv hsig hold hs hpl => exact absurd hpl hn)
    (by rw [hp]; exact ho) ⟨b, hb, Nat.le_refl _, rfl⟩
  exact ⟨by rw [ho', hp, ho], by rw [hb', hb], hl'⟩

/-- The write back after a payload touches the account in the first place only. -/
theorem Stale.unnamed {p : Pubkey} {w1 c w2 : World} (h : Stale env ctx p w1 c w2 i) (hn : k ∉ namedRequests ctx i) : w2.acc k = c.acc k := by
  cases h with
  | ever k' m r n pn l hk' hr hi hst hm hkind hl hp h =>
    exact pack_other h (by rintro rfl; exact hn (mem_place hk'))
  | sol k' r n pn l hk' hr hi hst hkind hl hp h =>
    exact pack_other h (by rintro rfl; exact hn (mem_place hk'))

end Verif.TP
