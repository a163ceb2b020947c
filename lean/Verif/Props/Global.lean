import Verif.Spec.ToyTactic
import Verif.Lemmas.Conserve
import Verif.Props.Deposits
/-!
# Properties of every instruction: lamports, confinement, consent
-/
set_option maxRecDepth 100000
namespace Verif.Props
open Verif TP

variable {env : Env} {ctx : Ctx} {w w' : World} {S : List Pubkey}

/-! ## C35: lamports are conserved -/

/-- C35 (round loader): over any set of different accounts that contains the accounts of the instruction, the sum of the lamports stays the same. -/
theorem C35_round_loader {i : RL.Instr} (h : RL.run env ctx i w = .ok w') (hS : S.Nodup) (hall : ∀ k ∈ ctx.accounts, k ∈ S) :
    lamportSum S w' = lamportSum S w :=
  (RL.run_ops h).lamports hS hall

/-- C35 (token proxy): the same for the token proxy. -/
theorem C35_token_proxy {i : Instr} (h : run env ctx noCpi i w = .ok w') (hS : S.Nodup) (hall : ∀ k ∈ ctx.accounts, k ∈ S) :
    lamportSum S w' = lamportSum S w :=
  (run_ops h).lamports hS hall

/-- Creating a round moves the rent from the funder to the new account; the sum over the accounts given stays. -/
example : ∃ w', RL.run Toy.env (Toy.ctx Toy.env.rlId
      [Toy.funder, Toy.submitter, Toy.rlSettings, Toy.rlRound 1, Toy.env.systemId, Toy.env.rentId] [Toy.funder, Toy.submitter])
      (.createRelayRound 1 Toy.relays3 5000) (Toy.get Toy.rlInit) = .ok w' ∧
    Nat.beq (w'.acc Toy.funder).lamports ((Toy.get Toy.rlInit).acc Toy.funder).lamports = false ∧
    Nat.beq (lamportSum [Toy.funder, Toy.submitter, Toy.rlSettings, Toy.rlRound 1, Toy.env.systemId, Toy.env.rentId] w')
      (lamportSum [Toy.funder, Toy.submitter, Toy.rlSettings, Toy.rlRound 1, Toy.env.systemId, Toy.env.rentId] (Toy.get Toy.rlInit)) = true :=
  ⟨_, Toy.get_bind (a := Toy.rlInit) (by decide +kernel), by decide +kernel, by decide +kernel⟩

/-- A deposit, which creates a record and moves tokens. -/
example : ∃ w', run Toy.env (Toy.depCtx 1) noCpi (.depositMultiTokenSol 1 (ascii "Gold") (ascii "GLD") 50000 Toy.home 7 0 []) (Toy.get Toy.tpInit) = .ok w' :=
  ⟨_, Toy.get_tp (a := Toy.tpInit) (by decide +kernel)⟩

/-! ## C51: what an instruction can change -/

/-- C51 (round loader): an instruction changes only accounts it was given as writable, and only adds log records. -/
theorem C51_round_loader {i : RL.Instr} (h : RL.run env ctx i w = .ok w') : Confined ctx w w' := (RL.run_ops h).confined

/-- C51 (token proxy). -/
theorem C51_token_proxy {i : Instr} (h : run env ctx noCpi i w = .ok w') : Confined ctx w w' := (run_ops h).confined

/-- C51 (round loader, consent): accounts that did not sign and belong neither to the program nor to the token program are not touched, except
empty accounts at an address derived for the program. -/
theorem C51_round_loader_consent {i : RL.Instr} (h : RL.run env ctx i w = .ok w') : Respects env ctx w w' :=
  (RL.run_ops h).respects (fun _ _ _ _ _ _ hW => by cases hW)

/-- C51 (token proxy, consent). -/
theorem C51_token_proxy_consent {i : Instr} (h : run env ctx noCpi i w = .ok w') : Respects env ctx w w' :=
  (run_ops h).respects (fun _ _ _ _ _ _ hW => by
    cases hW with
    | proxy => exact .inl rfl
    | ata => exact .inr rfl)

/-- C51 (token proxy, records of other programs): an account of any other program than the token proxy, the token program and the system program,
for example a relay round, keeps owner and data and loses no lamports, unless it signed. -/
theorem C51_foreign_records {i : Instr} {k : Pubkey} (h : run env ctx noCpi i w = .ok w') (hs : ctx.isSigner k = false)
    (h1 : (w.acc k).owner ≠ ctx.program) (h2 : (w.acc k).owner ≠ env.splId) (h3 : (w.acc k).owner ≠ env.systemId) :
    (w'.acc k).owner = (w.acc k).owner ∧ (w'.acc k).data = (w.acc k).data ∧ (w.acc k).lamports ≤ (w'.acc k).lamports := by
  refine C51_token_proxy_consent h k ?_
  rintro (h | h | h | ⟨h, -⟩)
  · rw [hs] at h; cases h
  · exact h1 h
  · exact h2 h
  · exact h3 h

/-- The hypotheses of `C51_foreign_records` hold for the relay round in a vote on a withdrawal. -/
example : ∃ w', run Toy.env (Toy.tctx [Toy.relay 0, Toy.wd1, Toy.rlRound 1] [Toy.relay 0]) noCpi (.voteForWithdrawRequest .confirm) (Toy.get Toy.tpReq) = .ok w' ∧
    Nat.beq ((Toy.get Toy.tpReq).acc (Toy.rlRound 1)).owner.toNat Toy.env.rlId.toNat = true :=
  ⟨_, Toy.get_tp (a := Toy.tpReq) (by decide +kernel), by decide +kernel⟩

/-! ## C59: nobody's tokens move without their consent -/

/-- C59: an instruction of the token proxy that lowers the balance of a token account was signed by the owner or the delegate of that account, or
the account is a vault of the bridge, or it is the proxy account of a signer. In any case the account keeps its mint and its owner, and no new delegate
is set. -/
theorem C59_consent {i : Instr} {k : Pubkey} {t : TokenAcc} (hd : env.Distinct) (hp : ctx.program = env.tpId) (h : run env ctx noCpi i w = .ok w')
    (ho : (w.acc k).owner = env.splId) (ht : (w.acc k).data = .token t) :
    (bal w' k < bal w k → Agreed env ctx k t) ∧
    ∃ t', (w'.acc k).owner = env.splId ∧ (w'.acc k).data = .token t' ∧ t'.mint = t.mint ∧ t'.owner = t.owner ∧
      (t'.delegate = t.delegate ∨ t'.delegate = none) := by
  obtain ⟨h1, t', h2, hm, h3, h4, h5⟩ := run_consent hd.sysSpl (by rw [hp]; exact hd.tpSpl) h k t ho ht
  refine ⟨fun hlt => h5 ?_, t', h1, h2, hm, h3, h4⟩
  simp only [bal, h2, ht] at hlt
  exact hlt

/-- The account holds tokens. -/
def isTok (w : World) (k : Pubkey) : Bool :=
  Nat.beq (w.acc k).owner.toNat Toy.env.splId.toNat && match (w.acc k).data with
    | .token _ => true
    | _ => false

theorem isTok_ok {k : Pubkey} (h : isTok w k = true) : (w.acc k).owner = Toy.env.splId ∧ ∃ t, (w.acc k).data = .token t := by
  simp only [isTok, Bool.and_eq_true] at h
  refine ⟨BitVec.eq_of_toNat_eq (Nat.eq_of_beq_eq_true h.1), ?_⟩
  have h2 := h.2
  split at h2
  · exact ⟨_, ‹_›⟩
  · cases h2

/-- Alice signs a deposit, and their balance falls by 50000. -/
example : ∃ t, run Toy.env (Toy.depCtx 1) noCpi (.depositMultiTokenSol 1 (ascii "Gold") (ascii "GLD") 50000 Toy.home 7 0 []) (Toy.get Toy.tpInit) =
      .ok (Toy.get Toy.tpDeposited) ∧ ((Toy.get Toy.tpInit).acc Toy.aliceGold).owner = Toy.env.splId ∧
    ((Toy.get Toy.tpInit).acc Toy.aliceGold).data = .token t ∧ bal (Toy.get Toy.tpDeposited) Toy.aliceGold < bal (Toy.get Toy.tpInit) Toy.aliceGold := by
  obtain h : isTok (Toy.get Toy.tpInit) Toy.aliceGold = true := ?_
  obtain ⟨h1, t, h2⟩ := isTok_ok h
  refine ⟨t, Toy.get_tp (a := Toy.tpInit) ?_, h1, h2, Nat.le_of_ble_eq_true ?_⟩
  checked

end Verif.Props
