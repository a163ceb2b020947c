import Verif.Spec.Closing
import Verif.Lemmas.TPMisc
import Verif.Lemmas.Vault
import Verif.Lemmas.WHist
import Verif.Lemmas.TPOrigin
/-!
# Deposit records over histories
-/
namespace Verif.TP
open Codec Verif

variable {env : Env} {L : Pubkey → Prop} {ctx : Ctx} {w w' : World} {k : Pubkey} {i : Instr}

/-- Both readings of a deposit record begin with the same author. -/
theorem deposit_author {E : Type} {ec : Codec E} {b r r' : Bytes} {x : Deposit E} {g : GenericDeposit} (h : (depositC ec).dec b = some (x, r))
    (h' : genericDepositC.dec b = some (g, r')) : x.author = g.author := by
  let c : Codec ((Bool × AccountKind) × Pubkey) := pair headerC key
  have e1 : c.dec b = some (((x.isInitialized, x.accountKind), x.author), (pair u32 (pair ec (pair u32 u128))).enc (x.eventLen, x.event, x.metaLen, x.seed) ++ r) := by
    rw [c.law]
    exact ⟨by simp [c, headerC], by rw [(depositC ec).eq_of_dec h]; simp [depositC, c, headerC]⟩
  have e2 : c.dec b = some (((g.isInitialized, g.accountKind), g.author), (pair bytes bytes).enc (g.event, g.metaData) ++ r') := by
    rw [c.law]
    exact ⟨by simp [c, headerC], by rw [genericDepositC.eq_of_dec h']; simp [genericDepositC, c, headerC]⟩
  rw [e1] at e2
  simp only [Option.some.injEq, Prod.mk.injEq] at e2
  exact e2.1.2

/-- An instruction keeps a deposit record, unless it closes it. -/
theorem deposit_run {b : Bytes} {n : U8} {s : Bytes} (hd : env.Distinct) (hp : ctx.program = env.tpId) (h : run env ctx noCpi i w = .ok w')
    (ho : (w.acc k).owner = env.tpId) (hb : (w.acc k).data = .raw b) (hh : headerC.dec b = some ((true, .deposit n), s))
    (hi : ¬ (i = .closeDeposit ∧ ctx.accounts[1]? = some k)) :
    (w'.acc k).owner = env.tpId ∧ (w'.acc k).data = .raw b ∧ (w.acc k).lamports ≤ (w'.acc k).lamports := by
  by_cases hc : i = .closeDeposit
  · subst hc
    obtain ⟨k', sd, d, b', r, -, h1, -, -, -, -, -, -, -, -, -, hx⟩ := closeDeposit_fx h
    have : k ≠ k' := fun e => hi ⟨rfl, by rw [e]; exact h1⟩
    rw [hx k this]
    exact ⟨ho, hb, Nat.le_add_right _ _⟩
  have hhead : Head (w.acc k) true (.deposit n) := ⟨b, s, hb, hh⟩
  by_cases hc' : i = .closeWithdrawal
  · subst hc'
    obtain ⟨kp, p, md, -, -, hp, -, -, -, -, -, hx⟩ := closeWithdrawal_fx h
    have : k ≠ kp := by
      rintro rfl
      obtain ⟨h1, _, _, h2⟩ := head_generic hp
      have := (hhead.unique h1).2
      rw [h2] at this; cases this
    rw [hx k this]
    exact ⟨ho, hb, Nat.le_add_right _ _⟩
  obtain ⟨ho', b', hb', rfl, hl⟩ := (run_ops h).track (k := k) (P := fun b' l => b' = b ∧ (w.acc k).lamports ≤ l)
    (by rw [hp]; exact hd.tpSys) (by rw [hp]; exact hd.tpSpl)
    (fun b l l' ⟨h1, h2⟩ hle => ⟨h1, Nat.le_trans h2 hle⟩)
    (fun x m b1 l l' hW _ _ => by
      cases hW with
      | votePay k v x hi hg =>
        obtain ⟨p, hp⟩ := hg
        obtain ⟨h1, _, _, h2⟩ := head_generic hp
        have := (hhead.unique h1).2
        rw [h2] at this; cases this
      | multiPay k r n hi hu ha hm =>
        obtain ⟨v, hv, -, n, hk, -⟩ := loadMultiVault_ok.1 hm
        have := (hhead.unique (head_multiVault hv)).2
        rw [hk] at this; cases this
      | closePay k a n hi hk =>
        rcases hi with hi | hi
        · exact (hc hi).elim
        · exact (hc' hi).elim)
    (fun hW => by
      cases hW with
      | closeDeposit k sd d b r hi ha hb hd n hk hsig => exact hc hi
      | closeWithdrawal k p md hi hp hm hs =>
        obtain ⟨h1, _, _, h2⟩ := head_generic hp
        have := (hhead.unique h1).2
        rw [h2] at this; cases this)
    (fun b1 b' l hW hlen' ⟨e, h1⟩ => by
      subst e
      cases hW with
      | new k b' hn => cases zeros_head hh
      | settings k b b' r n' pn' s2 s3 hl2 hd2 hini hk2 ha hc h0 hs =>
        obtain ⟨q2, hq2⟩ := header_settings hd2
        rw [hh, hk2] at hq2
        simp only [Option.some.injEq, Prod.mk.injEq, reduceCtorEq, and_false, false_and] at hq2
      | token k b b' r n' pn' s2 s3 hl2 hd2 hini hk2 ha hc h0 hs =>
        obtain ⟨q2, hq2⟩ := header_token hd2
        rw [hh, hk2] at hq2
        simp only [Option.some.injEq, Prod.mk.injEq, reduceCtorEq, and_false, false_and] at hq2
      | ever k b b' r x x' hl hd2 hini ha hk2 h0 hc hs =>
        obtain ⟨q2, hq2⟩ := header_withdrawal hd2
        obtain ⟨n', pn', hk2⟩ := hk2
        rw [hh, hk2] at hq2
        simp only [Option.some.injEq, Prod.mk.injEq, reduceCtorEq, and_false, false_and] at hq2
      | sol k b b' r x x' hl hd2 hini ha hk2 h0 hc hs =>
        obtain ⟨q2, hq2⟩ := header_withdrawal hd2
        obtain ⟨n', pn', hk2⟩ := hk2
        rw [hh, hk2] at hq2
        simp only [Option.some.injEq, Prod.mk.injEq, reduceCtorEq, and_false, false_and] at hq2
      | vote k kr v b b' r p j x rr n' pn' hi h0 hx hd2 hk2 =>
        obtain ⟨q2, hq2⟩ := header_genericProposal hd2
        rw [hh, hk2] at hq2
        simp only [Option.some.injEq, Prod.mk.injEq, reduceCtorEq, and_false, false_and] at hq2)
    (by rw [hp]; exact ho) ⟨b, hb, rfl, Nat.le_refl _⟩
  exact ⟨ho'.trans hp, hb', hl⟩

/-- A deposit record over histories. -/
theorem deposit_hist {top : Bool} {tr : List Ev} {b r s : Bytes} {n : U8} {g : GenericDeposit} (hd : env.Distinct) (h : Run env L top w tr w')
    (ho : (w.acc k).owner = env.tpId) (hl : 1 ≤ (w.acc k).lamports) (hb : (w.acc k).data = .raw b) (hg : genericDepositC.dec b = some (g, r))
    (hh : headerC.dec b = some ((true, .deposit n), s)) (hno : ∀ e ∈ tr, ¬ ClosesDeposit k g.author e) :
    (w'.acc k).owner = env.tpId ∧ (w'.acc k).data = .raw b ∧ (w.acc k).lamports ≤ (w'.acc k).lamports := by
  let A : Account → Prop := fun a => a.owner = env.tpId ∧ a.data = .raw b
  have quiet : ∀ {x y : World}, QuietFor env.tpId L x y → A (x.acc k) → A (y.acc k) ∧ (x.acc k).lamports ≤ (y.acc k).lamports := by
    intro x y hq hx
    obtain ⟨h1, h2, h3⟩ := (hq k).1 hx.1
    exact ⟨⟨h1, h2.trans hx.2⟩, h3⟩
  have main : A (w'.acc k) ∧ (w.acc k).lamports ≤ (w'.acc k).lamports := by
    have start : A (w.acc k) := ⟨ho, hb⟩
    clear ho hb
    induction h with
    | nil => exact ⟨start, Nat.le_refl _⟩
    | rl ctx i h hp hs hr ih =>
      obtain ⟨h1, h2⟩ := ih hl (fun e he => hno e (by simp [he])) start
      obtain ⟨a, c⟩ := quiet (RL.quiet_tp hd hp (RL.run_ops hr)) h1
      exact ⟨a, Nat.le_trans h2 c⟩
    | tp ctx i h hp hs hr ih =>
      obtain ⟨h1, h2⟩ := ih hl (fun e he => hno e (by simp [he])) start
      obtain ⟨a1, a2, a3⟩ := deposit_run hd hp hr h1.1 h1.2 hh (by
        rintro ⟨rfl, hk⟩
        obtain ⟨k', sd, d, b', r', h0, hk', hsig, hb', hd', -⟩ := closeDeposit_fx hr
        rw [hk] at hk'; cases hk'
        rw [h1.2] at hb'; cases hb'
        rw [hg] at hd'; cases hd'
        exact hno _ (List.mem_append.2 (.inr (List.mem_singleton.2 rfl))) ⟨ctx, rfl, hk, h0, hsig⟩)
      exact ⟨⟨a1, a2⟩, Nat.le_trans h2 a3⟩
    | payload ctx i p h hin hp hs hpl hn hr ih ih' =>
      obtain ⟨h1, h2⟩ := ih hl (fun e he => hno e (by simp [he])) start
      obtain ⟨h3, h4⟩ := ih' (Nat.le_trans hl h2) (fun e he => hno e (by simp [he])) h1
      have := (payload_ok hn hr).other (k := k) (fun m pn hm => by
        have hx : Head _ true (.deposit n) := ⟨b, s, h1.2, hh⟩
        cases (Head.unique hx hm).2)
      rw [this]
      exact ⟨h3, Nat.le_trans h2 h4⟩
    | ext h hx ih =>
      obtain ⟨h1, h2⟩ := ih hl (fun e he => hno e (by simp [he])) start
      obtain ⟨a, c⟩ := quiet hx.quiet_tp h1
      exact ⟨a, Nat.le_trans h2 c⟩
    | purge h hp ih =>
      obtain ⟨h1, h2⟩ := ih hl (fun e he => hno e (by simp [he])) start
      have e1 := hp.2 k
      rw [if_neg (by omega)] at e1
      rw [e1]
      exact ⟨h1, h2⟩
  exact ⟨main.1.1, main.1.2, main.2⟩

end Verif.TP
