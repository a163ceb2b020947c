import Verif.Lemmas.MonoRL
import Verif.Lemmas.MonoTP
import Verif.Lemmas.NPFx
import Verif.Lemmas.LiveTP
import Verif.Spec.ToyTactic
import Verif.Spec.ToyReachTP
/-!
# C80: more permissions than needed change nothing

On Solana an account that signs, or may be written, for one instruction of a transaction does so for all of them. So a program is often given
more signatures and permissions than the sender of the instruction meant it to have.
-/
set_option maxRecDepth 100000
namespace Verif.Props
open Verif TP

variable {env : Env} {ctx ctx' : Ctx} {cpi : Pubkey → World → Except Err World} {w w' : World} {d : Bytes}

private theorem granted (h : Grants ctx ctx') : ctx' = ctx.grant ctx'.signers ctx'.writables ctx'.now ∧ Adds ctx ctx'.signers ctx'.writables := by
  obtain ⟨p', a', s', m', n'⟩ := ctx'
  obtain ⟨rfl, rfl, h3, h4⟩ := h
  exact ⟨rfl, h3, h4⟩

/-- C80 (round loader): what an instruction does with some signatures and permissions to write, it does with more of them too, at any time. -/
theorem C80_round_loader (h : Grants ctx ctx') (hr : RL.process env ctx d w = .ok w') : RL.process env ctx' d w = .ok w' := by
  obtain ⟨e, ha⟩ := granted h
  rw [e]
  unfold RL.process at hr ⊢
  rw [bind_ok] at hr ⊢
  obtain ⟨i, hi, hr⟩ := hr
  exact ⟨i, hi, RL.run_grant ha _ hr⟩

/-- C80 (token proxy): what an instruction does with some signatures and permissions to write, it does with more of them too. The time does
not matter either, except for requests, and the day, for payouts and approvals. -/
theorem C80_token_proxy (h : Grants ctx ctx') (ht : ∀ i, TP.Instr.codec.decAll d = some i → i.AsGoodAt ctx.now ctx'.now)
    (hr : TP.process env ctx cpi d w = .ok w') : TP.process env ctx' cpi d w = .ok w' := by
  obtain ⟨e, ha⟩ := granted h
  rw [e]
  unfold TP.process at hr ⊢
  rw [bind_ok] at hr ⊢
  obtain ⟨i, hi, hr⟩ := hr
  exact ⟨i, hi, TP.run_grant ha (ht i (by rwa [orErr_ok] at hi)) _ hr⟩

private theorem wrap_grant {s m : List Pubkey} {n : I64} {a : U64} (h : Adds ctx s m) : Le (NP.wrap env ctx a w) (NP.wrap env (ctx.grant s m n) a w) := by
  unfold NP.wrap NP.ensureToken
  mono h [grant_ata h, grant_sys h h.sigs, grant_sync h]

private theorem deposit_data {f c t q : Pubkey} {sd : U128} {nm y : Bytes} {a : U64} {r : EverAddress} {v : U64} {e : Pubkey} {p : Bytes} {ix : Ix}
    (h : TP.Client.depositSolIx env f c t q sd nm y a r v e p = .ok ix) :
    ∀ i, TP.Instr.codec.decAll ix.data = some i → ∀ t t', i.AsGoodAt t t' := by
  simp only [TP.Client.depositSolIx, bind_ok, packed_ok, Except.ok.injEq] at h
  obtain ⟨_, _, _, _, _, _, _, _, _, _, _, ⟨hwf, rfl⟩, rfl⟩ := h
  intro i hi t t'
  rw [TP.Instr.codec.decAll_enc _ hwf] at hi
  cases hi
  trivial

/-- C80 (native proxy): what an instruction does with some signatures and permissions to write, it does with more of them too, at any time. -/
theorem C80_native_proxy (h : Grants ctx ctx') (hr : NP.process env ctx d w = .ok w') : NP.process env ctx' d w = .ok w' := by
  obtain ⟨e, ha⟩ := granted h
  rw [e]
  unfold NP.process at hr ⊢
  rw [bind_ok] at hr ⊢
  obtain ⟨i, hi, hr⟩ := hr
  refine ⟨i, hi, ?_⟩
  cases i with
  | deposit sd a r v ev p =>
    simp only [NP.run, NP.processDeposit, NP.invokeCtx, bind_ok, require_ok, exists_const, acct_ok, Except.ok.injEq] at hr ⊢
    obtain ⟨w1, h1, f, hf, c, hc, t, hk, ix, hix, inner, ⟨p1, p2, p3, p4, rfl⟩, hp⟩ := hr
    refine ⟨w1, wrap_grant ha _ h1, f, hf, c, hc, t, hk, ix, hix, _, ⟨p1, p2, fun m hm h => ha.wr (p3 m hm h), fun m hm h => ha.sig (p4 m hm h),
      rfl⟩, C80_token_proxy (ctx := ix.ctx ctx.now) ⟨rfl, rfl, fun _ h => h, fun _ h => h⟩ (fun i hi => deposit_data hix i hi _ _) hp⟩

/-- C80: instructions that can be sent one after the other can be sent in one transaction, with the same outcome. -/
theorem C80_together {tx : List Call} (h : Call.all env tx w = .ok w') : Call.all env (tx.map (Call.within tx)) w = .ok w' := by
  have key : ∀ l : List Call, (∀ c ∈ l, c ∈ tx) → ∀ w, Call.all env l w = .ok w' → Call.all env (l.map (Call.within tx)) w = .ok w' := by
    intro l
    induction l with
    | nil => exact fun _ _ h => h
    | cons c l ih =>
      intro hl w h
      simp only [Call.all, List.map_cons, bind_ok] at h ⊢
      obtain ⟨w1, h1, h2⟩ := h
      refine ⟨w1, ?_, ih (fun x hx => hl x (List.mem_cons_of_mem _ hx)) w1 h2⟩
      have hc := hl c List.mem_cons_self
      have hg : Grants c.ctx { c.ctx with signers := tx.flatMap (·.ctx.signers), writables := tx.flatMap (·.ctx.writables) } :=
        ⟨rfl, rfl, fun k hk => List.mem_flatMap.2 ⟨c, hc, hk⟩, fun k hk => List.mem_flatMap.2 ⟨c, hc, hk⟩⟩
      cases c with
      | rl c d => exact C80_round_loader hg h1
      | tp c d =>
        refine C80_token_proxy hg (fun i _ => ?_) h1
        cases i <;> first | trivial | exact .inl rfl | rfl
      | np c d => exact C80_native_proxy hg h1
  exact key tx (fun _ h => h) w h

/-! ## The hypotheses are met -/

private def voteBy (i : Nat) : Call := .tp (Toy.voteCtx Toy.wd1 i) (TP.Instr.codec.enc (.voteForWithdrawRequest .confirm))

/-- request, three votes and payout -/
private def whole : List Call :=
  [.tp (Toy.reqCtx Toy.wd1) (TP.Instr.codec.enc (.withdrawMultiTokenSolRequest Toy.pda1 Toy.bob 1000 [] 0)), voteBy 0, voteBy 1, voteBy 2,
   .tp (Toy.solCtx Toy.wd1 Toy.bobGold) (TP.Instr.codec.enc .withdrawMultiTokenSol)]

/-- alone, the payout is signed by nobody; in the transaction, also by the relays -/
example : (Toy.solCtx Toy.wd1 Toy.bobGold).signers = [] ∧ Toy.relay 2 ∈ ((whole.getLast (by decide)).within whole).ctx.signers ∧
    Toy.alice ∈ ((voteBy 0).within whole).ctx.signers := by
  refine ⟨rfl, ?_, ?_⟩ <;> decide +kernel

private theorem toy_whole {w w' : World} (h : Call.all Toy.env whole w = .ok w') (hb : bal w Toy.bobGold = 0) (hb' : bal w' Toy.bobGold = 999) :
    ∃ w', Call.all Toy.env (whole.map (Call.within whole)) w = .ok w' ∧ bal w Toy.bobGold = 0 ∧ bal w' Toy.bobGold = 999 :=
  ⟨w', C80_together h, hb, hb'⟩

/-- A transfer that is requested, confirmed and paid in one transaction. -/
example : ∃ w', Call.all Toy.env (whole.map (Call.within whole)) (Toy.get Toy.tpDeposited) = .ok w' ∧ bal (Toy.get Toy.tpDeposited) Toy.bobGold = 0 ∧
    bal w' Toy.bobGold = 999 := by
  obtain h := Toy.get_ok (r := Call.all Toy.env whole (Toy.get Toy.tpDeposited)) ?_
  obtain h1 := Nat.eq_of_beq_eq_true (n := bal (Toy.get Toy.tpDeposited) Toy.bobGold) (m := 0) ?_
  obtain h2 := Nat.eq_of_beq_eq_true (n := bal (Toy.get (Call.all Toy.env whole (Toy.get Toy.tpDeposited))) Toy.bobGold) (m := 999) ?_
  exact toy_whole h h1 h2
  checked

/-- The payout in the evening of the same day, signed by a stranger. -/
private def evening : Ctx := { Toy.solCtx Toy.wd1 Toy.bobGold with signers := [Toy.stranger], now := 80000 }

private theorem toy_evening {w w' : World} (h : TP.run Toy.env (Toy.solCtx Toy.wd1 Toy.bobGold) noCpi .withdrawMultiTokenSol w = .ok w') :
    TP.process Toy.env evening noCpi (TP.Instr.codec.enc .withdrawMultiTokenSol) w = .ok w' := by
  refine C80_token_proxy (ctx := Toy.solCtx Toy.wd1 Toy.bobGold) ⟨rfl, rfl, fun _ h => (nomatch h), fun _ h => h⟩ (fun i hi => ?_) ?_
  · rw [TP.Instr.codec.decAll_enc _ (by decide +kernel)] at hi
    cases hi
    exact .inr ⟨0, ⟨by decide +kernel, by decide +kernel, by decide +kernel⟩, ⟨by decide +kernel, by decide +kernel, by decide +kernel⟩⟩
  · rw [process_enc (show TP.Instr.codec.wf .withdrawMultiTokenSol = true by decide +kernel)]
    exact h

example : TP.process Toy.env evening noCpi (TP.Instr.codec.enc .withdrawMultiTokenSol) (Toy.get Toy.tpVote3) = .ok (Toy.get Toy.tpPaid) :=
  toy_evening (Toy.get_tp (a := Toy.tpVote3) (c := Toy.solCtx Toy.wd1 Toy.bobGold) (i := .withdrawMultiTokenSol) (by decide +kernel))

end Verif.Props
