import Verif.Lemmas.TPPay
import Verif.Lemmas.WHist
import Verif.Lemmas.RunPre
/-!
# Requests leave existing accounts alone
-/
set_option linter.unusedSimpArgs false
namespace Verif.TP
open Codec Verif

variable {env : Env} {L : Pubkey → Prop} {ctx : Ctx} {w w' w0 : World} {k : Pubkey} {i : Instr}

/-- Accounts that hold anything are kept. -/
def KeptAll (w w' : World) : Prop := ∀ j, (w.acc j).data.len ≠ 0 → Kept (w.acc j) (w'.acc j)

theorem KeptAll.refl (w : World) : KeptAll w w := fun _ _ => ⟨rfl, rfl, Nat.le_refl _⟩

theorem KeptAll.trans {a b c : World} (h : KeptAll a b) (h' : KeptAll b c) : KeptAll a c := fun j hj => by
  obtain ⟨h1, h2, h3⟩ := h j hj
  obtain ⟨h4, h5, h6⟩ := h' j (by rw [h1]; exact hj)
  exact ⟨h4.trans h1, h5.trans h2, Nat.le_trans h3 h6⟩

theorem KeepsFull.kept (h : KeepsFull w w') : KeptAll w w' := fun j hj => by
  rw [h j hj]; exact ⟨rfl, rfl, Nat.le_refl _⟩

theorem sysTransfer_kept {sg : Pubkey → Bool} {a b : Pubkey} {n : Nat} (h : sysTransfer env ctx sg a b n w = .ok w') : KeptAll w w' := by
  intro j hj
  obtain ⟨-, -, -, he, -⟩ := sysTransfer_ok.1 h
  have hja : j ≠ a := by rintro rfl; exact hj he
  rw [sysTransfer_acc h j, if_neg hja]
  exact ⟨rfl, rfl, by simp only; omega⟩

theorem openProxy_kept {payload : Bytes} {expected r f sys : Pubkey} {j : Nat} {att : U64} {pn : Option U8}
    (h : openProxy env ctx payload expected r f sys j att w = .ok (pn, w')) : KeptAll w w' := by
  rcases openProxy_ok h with ⟨-, -, rfl⟩ | ⟨-, p, n, w1, -, -, -, -, hor, ht⟩
  · exact .refl _
  · refine KeptAll.trans ?_ (sysTransfer_kept ht)
    rcases hor with ⟨-, w2, h1, h2⟩ | ⟨-, rfl⟩
    · obtain ⟨-, hf, he, -⟩ := createFunded_full h1
      obtain ⟨-, -, -, -, -, -, -, rfl⟩ := splInitAccount_ok h2
      exact (hf.setData he).kept
    · exact .refl _

theorem openWithdrawal_kept {E : Type} {ec : Codec E} {f au : Pubkey} {rs : RL.Settings} {rr : RL.RelayRound} {pda : PDA}
    {len : U32} {e : E} {pn : Option U8} {tok : Bytes} {rec : Pubkey} {amt : U128}
    (h : openWithdrawal env ctx ec f au k rs rr pda len e pn tok rec amt w = .ok w') : KeptAll w w' := by
  obtain ⟨n, ha, ⟨-, rfl⟩ | ⟨-, w1, w2, l, h1, h2, -, h3⟩⟩ := openWithdrawal_ok h
  · exact .refl _
  · obtain ⟨-, hf, he, -⟩ := create_full ha h1
    have h12 : KeptAll w w2 := by
      refine KeepsFull.kept (fun j hj => ?_)
      have hne : j ≠ k := by rintro rfl; exact hj he
      rw [(RL.pack_acc h2 j).2.2 hne, hf j hj]
    exact h12.trans (sysTransfer_kept (w := w2.log l) h3)

theorem votes_toNat {a : Account} {r : RL.RelayRound} (h : Holds RL.relayRoundC RL.relayRoundLen a r) (m : U32) :
    (RL.requiredVotes r.relays.length m).toNat = max (2 * r.relays.length / 3 + 1) m.toNat := by
  have hlt := RL.relays_lt h
  have h : (BitVec.ofNat 32 (r.relays.length * 2 / 3 + 1)).toNat = 2 * r.relays.length / 3 + 1 := by
    rw [BitVec.toNat_ofNat, Nat.mod_eq_of_lt (by omega), Nat.mul_comm]
  simp only [RL.requiredVotes, h]
  split <;> omega

theorem openRound {ks kr : Pubkey} {rs : RL.Settings} {rr : RL.RelayRound} (h : loadRound env ctx ks kr w = .ok (rs, rr)) :
    OpenRound env ctx w ks kr rs rr := by
  obtain ⟨⟨h1, h2, n, pn, -, h3⟩, ⟨h4, h5, n', -, h6⟩, h7⟩ := loadRound_ok.1 h
  exact ⟨⟨⟨_, h3⟩, h1, h2⟩, ⟨⟨_, h6⟩, h4, h5⟩, h7⟩

/-! ## Withdrawals through histories -/

theorem Dead.no {p : GenericProposal} {md : WMeta} (hd : env.Distinct) (h : Dead env (w.acc k)) : ¬ WithdrawalAt env w k p md :=
  fun h0 => Dead.not hd h _ h0.marked

theorem History.evs {tr : List Ev} (hd : env.Distinct) (h : History env L k tr w) :
    WInv env k w ∧ ∀ e ∈ tr, WInv env k e.pre ∧ WInv env k e.post ∧ WEv env L k e := by
  obtain ⟨⟨w0, hg, hr⟩, hL, hrd⟩ := h
  obtain ⟨h1, h2, -⟩ := hr.withdrawal hd hL (.genesis hL hg) hrd
  exact ⟨h1, h2⟩

theorem Readable.append {t1 t2 : List Ev} (h1 : Readable env k t1) (h2 : Readable env k t2) : Readable env k (t1 ++ t2) := by
  intro e he
  rcases List.mem_append.1 he with he | he
  · exact h1 e he
  · exact h2 e he

theorem History.append {t1 t2 : List Ev} (h : History env L k t1 w) (hr : Run env L true w t2 w') (hrd : Readable env k t2) :
    History env L k (t1 ++ t2) w' := by
  obtain ⟨⟨w0, hg, hr0⟩, hL, hrd0⟩ := h
  exact ⟨⟨w0, hg, hr0.append hr⟩, hL, hrd0.append hrd⟩

/-- What is true of every record a request writes, and depends neither on votes nor on the meta data, is true of every withdrawal. -/
theorem History.stable {tr : List Ev} {P : GenericProposal → Prop} (hd : env.Distinct) (h : History env L k tr w)
    (h0 : ∀ ctx w i p md, Asked env ctx w k p md i → P p)
    (h1 : ∀ (p : GenericProposal) sg m, P p → sg.length = p.signers.length → P { p with signers := sg, metaData := m })
    {p : GenericProposal} {md : WMeta} (hw : WithdrawalAt env w k p md) : P p := by
  obtain ⟨-, hev⟩ := h.evs hd
  obtain ⟨⟨w0, hg, hr⟩, -, -⟩ := h
  have := hr.fold (P := fun w _ => ∀ p md, WithdrawalAt env w k p md → P p) []
    (fun p md h => ((hg.owner k).2 h.1).elim) (fun e he _ hP p' md' hw' => by
      obtain ⟨-, -, he⟩ := hev e he
      cases he with
      | absent h h' => exact (h' _ _ hw').elim
      | request ctx i p md hact hp hs hr h h' ha =>
        obtain ⟨rfl, rfl⟩ := h'.unique hw'
        exact h0 _ _ _ _ _ ha
      | keep p md h h' =>
        obtain ⟨rfl, rfl⟩ := h'.unique hw'
        exact hP _ _ h
      | change ctx i p md p1 md1 hact hp hs hr h h' hc =>
        obtain ⟨rfl, rfl⟩ := h'.unique hw'
        obtain ⟨hr1, hg1, -⟩ := hc.rest
        rw [hr1]
        exact h1 _ _ _ (hP _ _ h) hg1.1.symm
      | payload ctx i p md sg hact hp hs hi hk h hb h' hg =>
        obtain ⟨rfl, rfl⟩ := h'.unique hw'
        exact h1 _ _ _ (hP _ _ h) hg.1
      | close ctx p md hact hp hs hr h hf h' => exact (Dead.no hd h' hw').elim
      | purge p md hact h hf hl h' => exact (h' _ _ hw').elim)
  exact this p md hw

end Verif.TP
