import Verif.Spec.ToyClose
import Verif.Spec.ToyReachW
import Verif.Lemmas.Ops
/-!
# The example chain: a forged withdrawal account

A program of a stranger owns account 600 and writes the bytes of a withdrawal record into it.  The payload of that record calls the
stranger's program, which marks the record as processed, and moves the gold out of bob's proxy account.
-/
set_option maxRecDepth 100000
namespace Verif

/-- Other programs may change accounts that are not locked, are not the bridge's and hold no tokens controlled by locked keys. -/
theorem ExtStep.of {env : Env} {L : Pubkey → Prop} {w w' : World} (hd : env.systemId ≠ env.splId) (S : List Pubkey) (hlog : w'.logs = w.logs)
    (hout : ∀ k, k ∉ S → w'.acc k = w.acc k) (hS : ∀ k ∈ S, ¬ L k ∧ (w.acc k).owner ≠ env.rlId ∧ (w.acc k).owner ≠ env.tpId ∧
      (w'.acc k).owner ≠ env.rlId ∧ (w'.acc k).owner ≠ env.tpId ∧ (∀ t, (w.acc k).data = .token t → ¬ L t.owner) ∧
      (∀ m, (w.acc k).data ≠ .mint m)) : ExtStep env L w w' where
  bridge := by
    intro k h
    by_cases hk : k ∈ S
    · obtain ⟨-, h1, h2, -⟩ := hS k hk
      rcases h with h | h
      · exact (h1 h).elim
      · exact (h2 h).elim
    · rw [hout k hk]; exact ⟨rfl, rfl, Nat.le_refl _⟩
  locked := by
    intro k hL _
    by_cases hk : k ∈ S
    · exact ((hS k hk).1 hL).elim
    · rw [hout k hk]; exact ⟨rfl, rfl, Nat.le_refl _⟩
  fresh := by
    intro k h hne
    by_cases hk : k ∈ S
    · obtain ⟨-, -, -, h1, h2, -⟩ := hS k hk
      rcases h with h | h
      · exact (h1 h).elim
      · exact (h2 h).elim
    · rw [hout k hk] at hne; exact (hne rfl).elim
  token := by
    intro k t ho hd hL h1 h2
    by_cases hk : k ∈ S
    · exact ((hS k hk).2.2.2.2.2.1 t hd hL).elim
    · rw [hout k hk]; exact ⟨t, ho, hd, rfl, rfl, h1, h2, rfl, Nat.le_refl _, Nat.le_refl _⟩
  mint := by
    intro k m a ho hd ha _ hf
    by_cases hk : k ∈ S
    · exact ((hS k hk).2.2.2.2.2.2 m hd).elim
    · rw [hout k hk]; exact ⟨m, ho, hd, ha, rfl, hf, Nat.le_refl _, Nat.le_refl _⟩
  settled := by
    intro k hL ho hb
    by_cases hk : k ∈ S
    · exact ((hS k hk).1 hL).elim
    · rw [hout k hk]
      exact ⟨.inl ho, fun h => (hd (h.symm.trans ho)).elim, hb⟩
  logs := ⟨[], by rw [hlog]; simp⟩

end Verif

namespace Verif.Toy
open Verif TP

def fake : Pubkey := 600
/-- a withdrawal without votes, of nothing, with a payload -/
def fakeRecord (st : WStatus) : Withdrawal WSolEvent :=
  ⟨true, .proposal 0 (some 255), stranger, 1, 2, pda1, 0, ⟨gold, 0, bob, [7]⟩, 17, ⟨st, 0, 0⟩, []⟩
def fakeBytes (st : WStatus) : Bytes :=
  (withdrawalC wSolEventC).enc (fakeRecord st) ++ zeros (recLen - ((withdrawalC wSolEventC).enc (fakeRecord st)).length)
def fakeAccount (st : WStatus) : Account := ⟨10000, 601, .raw (fakeBytes st)⟩

/-- the stranger's program writes the forged record -/
def tpForged : Except Err World := tpPaidP >>= fun w => .ok (w.set fake (fakeAccount .waitingForExecute))
/-- what the payload does: the stranger's program edits its account; the gold goes to carol -/
def payloadCtx : Ctx := tctx [tpProxy, carolGold, env.splId] [tpProxy]
def tpStolen : Except Err World := tpForged >>= fun w =>
  splTransfer env payloadCtx payloadCtx.signs tpProxy carolGold tpProxy 999 (w.set fake (fakeAccount .processed))
def forgeCtx : Ctx := tctx [fake] []
def tpForgeDone : Except Err World := tpForged >>= fun w => tpStolen >>= fun c =>
  TP.run env forgeCtx (cpiTo tpProxy c) .executePayloadSol w

/-! ## It can happen -/

theorem unlocked {k : Pubkey} (h : (locked.map (fun k => k.toNat)).contains k.toNat = false) : ¬ L k := by
  intro hL
  rw [List.contains_eq_mem, decide_eq_false_iff_not] at h
  exact h (List.mem_map_of_mem (f := fun k => k.toNat) hL)

/-- An account outside the bridge; if it holds tokens, they are not controlled by a locked key. -/
def outside (a : Account) : Bool :=
  Nat.ble a.owner.toNat 1 && match a.data with
    | .token t => !((locked.map (fun k => k.toNat)).contains t.owner.toNat)
    | .mint _ => false
    | _ => true

theorem outside_ok {a : Account} (h : outside a = true) : a.owner ≠ env.rlId ∧ a.owner ≠ env.tpId ∧
    (∀ t, a.data = .token t → ¬ L t.owner) ∧ ∀ m, a.data ≠ .mint m := by
  simp only [outside, Bool.and_eq_true] at h
  obtain ⟨h1, h2⟩ := h
  have h1 := Nat.le_of_ble_eq_true h1
  refine ⟨fun e => ?_, fun e => ?_, fun t e => ?_, fun m e => ?_⟩
  · rw [e] at h1; exact absurd h1 (by decide)
  · rw [e] at h1; exact absurd h1 (by decide)
  · rw [e] at h2; exact unlocked (by simpa using h2)
  · rw [e] at h2; cases h2

theorem set_logs (w : World) (k : Pubkey) (a : Account) : (w.set k a).logs = w.logs := rfl

theorem forged_eq : (get tpPaidP).set fake (fakeAccount .waitingForExecute) = get tpForged := by
  have := get_bind (a := tpPaidP) (f := fun w => .ok (w.set fake (fakeAccount .waitingForExecute))) (by decide +kernel)
  cases this
  rfl

theorem foreign : (601#256 : Pubkey) ≠ env.rlId ∧ (601#256 : Pubkey) ≠ env.tpId := by decide

theorem ext_tpForged : ExtStep env L (get tpPaidP) (get tpForged) := by
  rw [← forged_eq]
  refine ExtStep.of distinct.sysSpl [fake] (set_logs _ _ _) (fun k hk => World.set_other _ _ (by simpa using hk)) (fun k hk => ?_)
  obtain rfl := List.mem_singleton.1 hk
  obtain ⟨h1, h2, h3, h4⟩ := outside_ok (a := (get tpPaidP).acc fake) (by decide +kernel)
  rw [World.set_same]
  exact ⟨unlocked (by decide +kernel), h1, h2, foreign.1, foreign.2, h3, h4⟩

theorem reach_tpForged : Reach env L (get tpForged) := by
  obtain ⟨w0, tr, hg, hr⟩ := reach_tpPaidP
  exact ⟨w0, _, hg, .ext hr ext_tpForged⟩

theorem stolen_eq : splTransfer env payloadCtx payloadCtx.signs tpProxy carolGold tpProxy 999
    ((get tpForged).set fake (fakeAccount .processed)) = .ok (get tpStolen) :=
  get_bind (a := tpForged) (f := fun w => splTransfer env payloadCtx payloadCtx.signs tpProxy carolGold tpProxy 999
    (w.set fake (fakeAccount .processed))) (by decide +kernel)

theorem proxy_ne : tpProxy ≠ fake ∧ tpProxy ≠ carolGold := by
  constructor
  · exact fun e => Nat.ne_of_beq_eq_false (n := tpProxy.toNat) (m := fake.toNat) (by decide +kernel) (by rw [e])
  · exact fun e => Nat.ne_of_beq_eq_false (n := tpProxy.toNat) (m := carolGold.toNat) (by decide +kernel) (by rw [e])

theorem ext_tpStolen : ExtStep env L (get tpForged) (get tpStolen) := by
  obtain ⟨-, -, -, -, -, -, -, s, d, s', hs, hd, -, -, -, -, -, hor⟩ := splTransfer_ok stolen_eq
  rcases hor with ⟨he, -⟩ | ⟨-, -, hlog, -, h1, h2, h3⟩
  · exact (proxy_ne.2 he).elim
  · refine ExtStep.of distinct.sysSpl [fake, tpProxy, carolGold] (hlog.trans (set_logs _ _ _)) (fun k hk => ?_) (fun k hk => ?_)
    · simp only [List.mem_cons, List.not_mem_nil, or_false, not_or] at hk
      rw [h3 k hk.2.1 hk.2.2, World.set_other _ _ hk.1]
    · simp only [List.mem_cons, List.not_mem_nil, or_false] at hk
      rcases hk with rfl | rfl | rfl
      · rw [h3 fake proxy_ne.1.symm (by decide), World.set_same, ← forged_eq, World.set_same]
        exact ⟨unlocked (by decide +kernel), foreign.1, foreign.2, foreign.1, foreign.2, fun t h => (by cases h), fun m h => (by cases h)⟩
      · obtain ⟨g1, g2, g3, g4⟩ := outside_ok (a := (get tpForged).acc tpProxy) (by decide +kernel)
        rw [h1]
        exact ⟨unlocked (by decide +kernel), g1, g2, distinct.rlSpl.symm, distinct.tpSpl.symm, g3, g4⟩
      · obtain ⟨g1, g2, g3, g4⟩ := outside_ok (a := (get tpForged).acc carolGold) (by decide +kernel)
        rw [h2]
        exact ⟨unlocked (by decide +kernel), g1, g2, distinct.rlSpl.symm, distinct.tpSpl.symm, g3, g4⟩

theorem forge_done : TP.run env forgeCtx (cpiTo tpProxy (get tpStolen)) .executePayloadSol (get tpForged) = .ok (get tpForgeDone) := by
  have h : isOk tpForgeDone = true := by decide +kernel
  have h1 := get_bind (a := tpForged) h
  exact (get_bind (a := tpStolen) (f := fun c => TP.run env forgeCtx (cpiTo tpProxy c) .executePayloadSol (get tpForged))
    (by show isOk _ = true; rw [h1]; rfl)).trans h1

theorem forge_no : ∀ x, TP.run env forgeCtx noCpi .executePayloadSol (get tpForged) ≠ .ok x :=
  get_no (a := tpForged) (by decide +kernel) (by decide +kernel)

theorem run_forge : Run env L true (get tpForged) [⟨.ext, get tpForged, get tpStolen⟩, ⟨.tp forgeCtx .executePayloadSol, get tpStolen, get tpForgeDone⟩]
    (get tpForgeDone) :=
  .payload (tr := []) (tr' := [] ++ [⟨.ext, get tpForged, get tpStolen⟩]) forgeCtx .executePayloadSol tpProxy (.nil _ _)
    (.ext (.nil _ _) ext_tpStolen) rfl (free (by decide +kernel)) (unlocked (by decide +kernel)) forge_no forge_done

/-! ## A genuine payload -/

theorem followed_round1P : Followed wd4 (get rlRound1) := followed_rl (followed_start (by decide +kernel)) rfl (by decide +kernel) (by decide +kernel)
theorem followed_tpInitP : Followed wd4 (get tpInit) := followed_tp followed_round1P rfl (by decide +kernel) (by decide +kernel)
theorem followed_tpDepositedP : Followed wd4 (get tpDeposited) := followed_tp followed_tpInitP rfl (by decide +kernel) (by decide +kernel)
theorem followed_tpReqP : Followed wd4 (get tpReqP) := followed_tp followed_tpDepositedP rfl (by decide +kernel) (by decide +kernel)
theorem followed_tpP1 : Followed wd4 (get tpP1) := followed_tp followed_tpReqP rfl (by decide +kernel) (by decide +kernel)
theorem followed_tpP2 : Followed wd4 (get tpP2) := followed_tp followed_tpP1 rfl (by decide +kernel) (by decide +kernel)
theorem followed_tpP3 : Followed wd4 (get tpP3) := followed_tp followed_tpP2 rfl (by decide +kernel) (by decide +kernel)
theorem followed_tpPaidP : Followed wd4 (get tpPaidP) := followed_tp followed_tpP3 rfl (by decide +kernel) (by decide +kernel)

/-- the payload of `wd4` is executed; it moves 300 of the gold to carol -/
def tpSpent : Except Err World := tpPaidP >>= fun w => splTransfer env payloadCtx payloadCtx.signs tpProxy carolGold tpProxy 300 w
def execCtx4 : Ctx := tctx [wd4] []
def tpExecuted : Except Err World := tpPaidP >>= fun w => tpSpent >>= fun c =>
  TP.run env execCtx4 (cpiTo tpProxy c) .executePayloadSol w

theorem exec_done : TP.run env execCtx4 (cpiTo tpProxy (get tpSpent)) .executePayloadSol (get tpPaidP) = .ok (get tpExecuted) := by
  have h : isOk tpExecuted = true := by decide +kernel
  have h1 := get_bind (a := tpPaidP) h
  exact (get_bind (a := tpSpent) (f := fun c => TP.run env execCtx4 (cpiTo tpProxy c) .executePayloadSol (get tpPaidP))
    (by show isOk _ = true; rw [h1]; rfl)).trans h1

theorem exec_no : ∀ x, TP.run env execCtx4 noCpi .executePayloadSol (get tpPaidP) ≠ .ok x :=
  get_no (a := tpPaidP) (by decide +kernel) (by decide +kernel)

end Verif.Toy
