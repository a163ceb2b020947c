import Verif.Lemmas.TPPay
import Verif.Lemmas.WReq
/-!
# Payouts and the records of withdrawals
-/
namespace Verif.TP
open Codec Verif

variable {env : Env} {L : Pubkey → Prop} {ctx : Ctx} {w w' w0 : World} {k : Pubkey} {i : Instr}

theorem doneStatus_ne {p : Bytes} {s : WStatus} (h : s = .new ∨ s = .pending ∨ s = .waitingForApprove) : doneStatus p ≠ s := by
  have := paid_ne (p := p)
  rcases h with rfl | rfl | rfl
  · exact this.2.1
  · exact this.1
  · exact this.2.2

/-- Account `k` looks like a withdrawal. -/
theorem WithdrawalOf.marked {E : Type} {ec : Codec E} {r : Withdrawal E} (h : WithdrawalOf ec env ctx w k r)
    (ho : (w.acc k).owner = env.tpId) : ∃ n pn, Marked env (w.acc k) (.proposal n pn) := by
  obtain ⟨-, hh, hi, n, pn, hk⟩ := h
  have := head_withdrawal hh
  rw [hi, hk] at this
  exact ⟨n, pn, ho, this⟩

/-- Over a history the two views of a withdrawal of a Solana token agree. -/
theorem WInv.typedSol {r : Withdrawal WSolEvent} (hi : WInv env k w) (h : WithdrawalOf wSolEventC env ctx w k r)
    (ho : (w.acc k).owner = env.tpId) : WithdrawalAt env w k (r.view wSolEventC) r.md := by
  obtain ⟨n, pn, hm⟩ := h.marked ho
  obtain ⟨p, md, h1, hg⟩ := hi.2 n pn hm
  obtain ⟨b, q, hb, hl, hdec⟩ := h.2.1
  obtain ⟨b', q', hb', -, hdec'⟩ := h1.2.1
  rw [hb] at hb'
  cases hb'
  obtain ⟨rfl, rfl, -⟩ := views_agree hdec hdec' h1.2.2.2.2 (hg.event.sol hl hdec hdec')
  exact h1

theorem WInv.typedEver {r : Withdrawal WEverEvent} (hi : WInv env k w) (h : WithdrawalOf wEverEventC env ctx w k r)
    (ho : (w.acc k).owner = env.tpId) : WithdrawalAt env w k (r.view wEverEventC) r.md := by
  obtain ⟨n, pn, hm⟩ := h.marked ho
  obtain ⟨p, md, h1, hg⟩ := hi.2 n pn hm
  obtain ⟨b, q, hb, hl, hdec⟩ := h.2.1
  obtain ⟨b', q', hb', -, hdec'⟩ := h1.2.1
  rw [hb] at hb'
  cases hb'
  obtain ⟨rfl, rfl, -⟩ := views_agree hdec hdec' h1.2.2.2.2 (hg.event.ever hl hdec hdec')
  exact h1

end Verif.TP
