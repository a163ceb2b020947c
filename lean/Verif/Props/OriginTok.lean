import Verif.Props.Deposits
import Verif.Lemmas.TPBack
import Verif.Lemmas.TPFee
import Verif.Spec.OriginTok
/-!
# C93: every token has a known origin
-/
set_option maxRecDepth 100000
namespace Verif.Props
open Verif TP Codec

variable {env : Env} {L : Pubkey → Prop} {ctx : Ctx} {k : Pubkey} {w w' w0 : World} {i : TP.Instr}

/-- The name and the symbol are as they were, or the instruction changes them. -/
theorem token_label {e : Ev} {t t' : TokenSettings} (hact : e.act = .tp ctx i) (h : TokenCh env ctx e.pre t i t') :
    t'.kind = t.kind ∧ ((t'.name = t.name ∧ t'.symbol = t.symbol) ∨ Renames env t' e) := by
  have hr : ∀ e, (resetEpoch t e).kind = t.kind ∧ (resetEpoch t e).name = t.name ∧ (resetEpoch t e).symbol = t.symbol := by
    intro e; unfold resetEpoch; split <;> exact ⟨rfl, rfl, rfl⟩
  cases h with
  | updateFee f m d => cases f <;> exact ⟨rfl, .inl ⟨rfl, rfl⟩⟩
  | withdraw => exact ⟨(hr _).1, .inl (hr _).2⟩
  | name y n hu m v hk => exact ⟨rfl, .inr ⟨ctx, hact, hu, m, v, hk⟩⟩
  | _ => exact ⟨rfl, .inl ⟨rfl, rfl⟩⟩

/-- C93: the settings of every token appeared in an earlier step, where there were none before, with the first deposit of this token of Solana or
the first payout of this token of Everscale. Since then they have been there, for the same token. Name and symbol are those given then, unless the
manager or the upgrade authority has renamed the token, which must be one of Solana. -/
theorem C93_origin {tr : List Ev} {t : TokenSettings} (hd : env.Distinct) (hg : Genesis env L w0) (hr : Run env L true w0 tr w)
    (ht : TokenAt env w k t) :
    ∃ t1 e t2 t0, tr = t1 ++ e :: t2 ∧ Introduces env k e t0 ∧ t.kind = t0.kind ∧ (∀ t', ¬ TokenAt env e.pre k t') ∧
      (∀ e' ∈ t2, ∃ t', TokenAt env e'.pre k t' ∧ t'.kind = t.kind) ∧
      ((t.name = t0.name ∧ t.symbol = t0.symbol) ∨ ∃ e' ∈ t2, ∃ t', TokenAt env e'.post k t' ∧ Renames env t' e' ∧ t.name = t'.name ∧ t.symbol = t'.symbol) := by
  have hev := fun e he => hr.evs hd e he
  refine hr.fold (P := fun w tr => ∀ t, TokenAt env w k t → ∃ t1 e t2 t0, tr = t1 ++ e :: t2 ∧ Introduces env k e t0 ∧ t.kind = t0.kind ∧
      (∀ t', ¬ TokenAt env e.pre k t') ∧ (∀ e' ∈ t2, ∃ t', TokenAt env e'.pre k t' ∧ t'.kind = t.kind) ∧
      ((t.name = t0.name ∧ t.symbol = t0.symbol) ∨ ∃ e' ∈ t2, ∃ t', TokenAt env e'.post k t' ∧ Renames env t' e' ∧ t.name = t'.name ∧ t.symbol = t'.symbol)) []
    (fun g h => ((hg.owner k).2 h.1).elim)
    (fun e he tr hP t ht => ?_) t ht
  have later : ∀ s, TokenAt env e.pre k s → t.kind = s.kind → ((t.name = s.name ∧ t.symbol = s.symbol) ∨ Renames env t e) →
      ∃ t1 e0 t2 t0, tr ++ [e] = t1 ++ e0 :: t2 ∧ Introduces env k e0 t0 ∧ t.kind = t0.kind ∧
      (∀ t', ¬ TokenAt env e0.pre k t') ∧ (∀ e' ∈ t2, ∃ t', TokenAt env e'.pre k t' ∧ t'.kind = t.kind) ∧
      ((t.name = t0.name ∧ t.symbol = t0.symbol) ∨ ∃ e' ∈ t2, ∃ t', TokenAt env e'.post k t' ∧ Renames env t' e' ∧ t.name = t'.name ∧ t.symbol = t'.symbol) := by
    intro s hs s1 s2
    obtain ⟨t1, e0, t2, t0, rfl, a1, a2, a3, a4, a5⟩ := hP s hs
    refine ⟨t1, e0, t2 ++ [e], t0, by simp, a1, s1.trans a2, a3, fun e' he' => ?_, ?_⟩
    · rcases List.mem_append.1 he' with hm | hm
      · obtain ⟨t', b1, b2⟩ := a4 e' hm
        exact ⟨t', b1, b2.trans s1.symm⟩
      · rw [List.mem_singleton.1 hm]
        exact ⟨s, hs, s1.symm⟩
    · rcases s2 with ⟨s2, s3⟩ | s2
      · rcases a5 with ⟨b1, b2⟩ | ⟨e', he', t', b1, b2, b3, b4⟩
        · exact .inl ⟨s2.trans b1, s3.trans b2⟩
        · exact .inr ⟨e', by simp [he'], t', b1, b2, s2.trans b3, s3.trans b4⟩
      · exact .inr ⟨e, by simp, t, ht, s2, rfl, rfl⟩
  rcases token_back hd (hev e he) ht with h | ⟨ctx, i, hact, hp, hrun, ⟨s, h0, hc⟩ | hf⟩
  · exact later t h rfl (.inl ⟨rfl, rfl⟩)
  · exact later s h0 (token_label hact hc).1 (token_label hact hc).2
  cases hf with
  | sol sd nm y a rc v ev p mint vault n vn hn hy ha hv hs h7 hl =>
    obtain ⟨f, cr, ct, kv, dp, mi, mv, kt, w1, t', tm, tv, m, t'', fee, net, -, a1, -, a3, a4, a5, -, a7, hsig, -, -, hor, -⟩ := depositSol_fx hrun
    rw [h7] at a7; cases a7
    obtain ⟨s, n, n2, b1, b2, b3, b4, -, -, b5, -⟩ := C53_first hrun a3 a5 h7 hl
    obtain rfl := ht.2.1.unique b4
    have hname : t.name = nm := by rw [b5]
    have hsym : t.symbol = y := by rw [b5]
    have hkind : t.kind = .solana mi kv := by rw [b5]
    rw [← hname, ← hsym] at hact
    refine ⟨tr, e, [], t, by simp, .sol ctx sd a v rc ev p cr mi kv hact a1 hsig a3 a5 h7 (hp ▸ b1) (hp ▸ b2) hkind, rfl, fun t' h' => ?_, nofun,
      .inl ⟨rfl, rfl⟩⟩
    have hlen := holds_len h'.2.1
    rcases hor with ⟨-, h0⟩ | ⟨-, hdp, -⟩
    · exact h0 hl
    · rw [hdp.absent.2.1] at hlen
      cases hlen
  | ever kw0 r0 mint0 n mn hr' ha hm hs h3 hl =>
    obtain ⟨kw, mint, rc, kt, r, c0, c1, c2, c3, hw, hor⟩ := withdrawEver_fx hrun
    rw [h3] at c3; cases c3
    rcases hor with ⟨e1, -⟩ | ⟨w1, ⟨-, h0⟩ | ⟨-, hdp⟩, hkw, hne, s, m, hs1, hor⟩
    · rw [e1] at ht
      exact later t ht rfl (.inl ⟨rfl, rfl⟩)
    · exact (h0 hl).elim
    obtain ⟨n1, n2, hnew⟩ := hdp.newToken
    have es := hs1.1.2.1.unique hnew
    have hlab : t.kind = s.kind ∧ t.name = s.name ∧ t.symbol = s.symbol := by
      rcases hor with ⟨rfl, -⟩ | ⟨-, -, amount, fee, net, st, t', -, -, -, hrec, hbk, -⟩
      · obtain rfl := hs1.1.2.1.unique ht.2.1
        exact ⟨rfl, rfl, rfl⟩
      · obtain rfl := hrec.token.unique ht.2.1
        rw [hbk.rest]
        exact ⟨rfl, rfl, rfl⟩
    rw [es] at hlab
    have hk0 := hs.kind.symm.trans hlab.1
    injection hk0 with _ e2 _
    refine ⟨tr, e, [], t, by simp, .ever ctx kw mint r hact c0 h3 hw ⟨n, by rw [← e2, ← hp]; exact ha⟩ (hp ▸ hdp.mintAddr) hlab.1 hlab.2.1 hlab.2.2, rfl, fun t' h' => ?_, nofun,
      .inl ⟨rfl, rfl⟩⟩
    have hlen := holds_len h'.2.1
    rw [hdp.absent.2.1] at hlen
    cases hlen

/-- The hypotheses are met by a token of Solana and by one of Everscale. -/
example : (∃ w0 tr t, Genesis Toy.env Toy.L w0 ∧ Run Toy.env Toy.L true w0 tr (Toy.get Toy.tpDeposited) ∧
      TokenAt Toy.env (Toy.get Toy.tpDeposited) Toy.tpGold t) ∧
    ∃ w0 tr t, Genesis Toy.env Toy.L w0 ∧ Run Toy.env Toy.L true w0 tr (Toy.get Toy.tpPaidE) ∧ TokenAt Toy.env (Toy.get Toy.tpPaidE) Toy.tpStar t := by
  obtain ⟨w0, tr, h0, hr⟩ := Toy.reach_tpDeposited
  obtain ⟨w1, tr1, h1, hr1⟩ := Toy.reach_tpPaidE
  obtain ⟨t, ht, -, -⟩ := Toy.tfind_token (w := Toy.get Toy.tpDeposited) (k := Toy.tpGold) (P := fun _ => true) (by decide +kernel)
  obtain ⟨t1, ht1, -, -⟩ := Toy.tfind_token (w := Toy.get Toy.tpPaidE) (k := Toy.tpStar) (P := fun _ => true) (by decide +kernel)
  exact ⟨⟨w0, tr, t, h0, hr, ht⟩, w1, tr1, t1, h1, hr1, ht1⟩

end Verif.Props
