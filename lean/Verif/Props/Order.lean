import Verif.Client.RoundLoader
import Verif.Lemmas.Order
import Verif.Props.Local
/-!
# The order in which relays vote does not matter

C73: the votes of different relays on a withdrawal or a round proposal lead to the same state in whatever order they arrive, also together with
instructions that have nothing to do with them.
-/
set_option maxRecDepth 100000
namespace Verif.Props
open Verif TP

variable {env : Env} {w w' w1 w2 : World} {a b : Call}

/-- C73: two votes on the same thing can be swapped: both are accepted in the other order as well, and the state afterwards is the same. -/
theorem C73_swap (hab : a.SameBallot b) (h1 : a.run env w = .ok w1) (h2 : b.run env w1 = .ok w2) :
    ∃ v1, b.run env w = .ok v1 ∧ a.run env v1 = .ok w2 := by
  cases hab with
  | withdrawal ha hb hxy hx hy =>
    obtain ⟨ca, da, u, rfl, hda, ha0, ha1⟩ := ha
    obtain ⟨cb, db, v, rfl, hdb, hb0, hb1⟩ := hb
    simp only [Call.run, TP.process, hda, hdb] at h1 h2 ⊢
    exact TP.vote_swap ha0 ha1 hb0 hb1 hxy hx hy h1 h2
  | proposal ha hb hxy hx hy =>
    obtain ⟨ca, da, u, rfl, hda, ha0, ha1, ha2⟩ := ha
    obtain ⟨cb, db, v, rfl, hdb, hb0, hb1, hb2⟩ := hb
    simp only [Call.run, RL.process, hda, hdb] at h1 h2 ⊢
    exact RL.vote_swap ha0 ha1 ha2 hb0 hb1 hb2 hxy hx hy h1 h2

/-- C73: any number of votes on the same thing, in any order: all are accepted in every order, and the state afterwards is the same. -/
theorem C73_votes {l l' : List Call} (hp : l.Perm l') : ∀ {w w' : World}, l.Pairwise Call.SameBallot → Call.all env l w = .ok w' →
    Call.all env l' w = .ok w' := by
  have hsym : ∀ {x y : Call}, x.SameBallot y → y.SameBallot x := fun h => by
    cases h with
    | withdrawal ha hb hxy hx hy => exact .withdrawal hb ha hxy.symm hy hx
    | proposal ha hb hxy hx hy => exact .proposal hb ha hxy.symm hy hx
  induction hp with
  | nil => intro w w' _ h; exact h
  | cons c _ ih =>
    intro w w' ha h
    simp only [Call.all, bind_ok] at h ⊢
    obtain ⟨w1, h1, h2⟩ := h
    exact ⟨w1, h1, ih (List.pairwise_cons.1 ha).2 h2⟩
  | swap x y l =>
    intro w w' ha h
    simp only [Call.all, bind_ok] at h ⊢
    obtain ⟨w1, h1, w2, h2, h3⟩ := h
    obtain ⟨v1, h4, h5⟩ := C73_swap ((List.pairwise_cons.1 ha).1 x (by simp)) h1 h2
    exact ⟨v1, h4, w2, h5, h3⟩
  | trans h1 h2 ih1 ih2 =>
    intro w w' ha h
    exact ih2 (h1.pairwise ha hsym) (ih1 ha h)

/-- C73: votes, mixed with instructions that have nothing to do with them and with each other, can be run in any order. -/
theorem C73_any_order {l l' : List Call} (hp : l.Perm l') : ∀ {w w' : World}, l.Pairwise Call.MaySwap → Call.all env l w = .ok w' →
    ∃ v', Call.all env l' w = .ok v' ∧ v'.acc = w'.acc ∧ v'.logs.Perm w'.logs := by
  have hsym : ∀ {x y : Call}, x.MaySwap y → y.MaySwap x := fun h => by
    rcases h with h | h
    · exact .inl ⟨h.2, h.1⟩
    · refine .inr ?_
      cases h with
      | withdrawal ha hb hxy hx hy => exact .withdrawal hb ha hxy.symm hy hx
      | proposal ha hb hxy hx hy => exact .proposal hb ha hxy.symm hy hx
  induction hp with
  | nil => intro w w' _ h; exact ⟨w', h, rfl, .refl _⟩
  | cons c _ ih =>
    intro w w' ha h
    simp only [Call.all, bind_ok] at h ⊢
    obtain ⟨w1, h1, h2⟩ := h
    obtain ⟨v', h3, h4⟩ := ih (List.pairwise_cons.1 ha).2 h2
    exact ⟨v', ⟨w1, h1, h3⟩, h4⟩
  | swap x y l =>
    intro w w' ha h
    simp only [Call.all, bind_ok] at h ⊢
    obtain ⟨w1, h1, w2, h2, h3⟩ := h
    rcases (List.pairwise_cons.1 ha).1 x (by simp) with hc | hc
    · obtain ⟨v1, v2, h4, h5, h6, h7⟩ := C72_swap hc h1 h2
      obtain ⟨v', h8, h9⟩ := all_logs h6.symm h7.symm h3
      exact ⟨v', ⟨v1, h4, v2, h5, h8⟩, h9⟩
    · obtain ⟨v1, h4, h5⟩ := C73_swap hc h1 h2
      exact ⟨w', ⟨v1, h4, w2, h5, h3⟩, rfl, .refl _⟩
  | trans h1 h2 ih1 ih2 =>
    intro w w' ha h
    obtain ⟨v1, h3, h4, h5⟩ := ih1 ha h
    obtain ⟨v2, h6, h7, h8⟩ := ih2 (h1.pairwise ha hsym) h3
    exact ⟨v2, h6, h7.trans h4, h8.trans h5⟩

/-! ## The hypotheses are met -/

/-- Relay 0 confirms the withdrawal of 1000 gold, relay 1 rejects it, and alice deposits 20000 gold. -/
private def threeCalls : Except Err (List Call) := do
  let a ← TP.Client.voteIx Toy.env (Toy.relay 0) Toy.wd1 1 .confirm
  let b ← TP.Client.voteIx Toy.env (Toy.relay 1) Toy.wd1 1 .reject
  let c ← TP.Client.depositSolIx Toy.env Toy.funder Toy.alice Toy.aliceGold Toy.gold 2 (ascii "Gold") (ascii "GLD") 20000 Toy.home 7 0 []
  .ok [.tp (a.ctx 1000) a.data, .tp (b.ctx 1000) b.data, .tp (c.ctx 1000) c.data]

/-- Relay 0 confirms the proposal for round 2, relay 1 rejects it. -/
private def roundCalls : Except Err (List Call) := do
  let a ← RL.Client.voteIx Toy.env (Toy.relay 0) Toy.prop2 1 .confirm
  let b ← RL.Client.voteIx Toy.env (Toy.relay 1) Toy.prop2 1 .reject
  .ok [.rl (a.ctx 1000) a.data, .rl (b.ctx 1000) b.data]

private def is (k : Option Pubkey) (j : Pubkey) : Bool := match k with
  | some k => Nat.beq k.toNat j.toNat
  | none => false

private theorem is_ok {k : Option Pubkey} {j : Pubkey} (h : is k j = true) : k = some j := by
  cases k with
  | none => cases h
  | some k => exact congrArg some (BitVec.eq_of_toNat_eq (Nat.eq_of_beq_eq_true h))

private def votesW (x k : Pubkey) : Call → Bool
  | .tp c d => (match TP.Instr.codec.decAll d with | some (.voteForWithdrawRequest _) => true | _ => false) && is c.accounts[0]? x && is c.accounts[1]? k
  | _ => false

private theorem votesW_ok {x k : Pubkey} (h : votesW x k a = true) : a.VotesWithdrawal x k := by
  cases a with
  | tp c d =>
    simp only [votesW, Bool.and_eq_true] at h
    obtain ⟨⟨h1, h2⟩, h3⟩ := h
    split at h1
    · rename_i v hv; exact ⟨c, d, v, rfl, hv, is_ok h2, is_ok h3⟩
    · cases h1
  | rl => cases h
  | np => cases h

private def votesP (x k kr : Pubkey) : Call → Bool
  | .rl c d => (match RL.Instr.codec.decAll d with | some (.voteForProposal _) => true | _ => false) && is c.accounts[0]? x && is c.accounts[1]? k &&
    is c.accounts[2]? kr
  | _ => false

private theorem votesP_ok {x k kr : Pubkey} (h : votesP x k kr a = true) : a.VotesProposal x k kr := by
  cases a with
  | rl c d =>
    simp only [votesP, Bool.and_eq_true] at h
    obtain ⟨⟨⟨h1, h2⟩, h3⟩, h4⟩ := h
    split at h1
    · rename_i v hv; exact ⟨c, d, v, rfl, hv, is_ok h2, is_ok h3, is_ok h4⟩
    · cases h1
  | tp => cases h
  | np => cases h

private theorem ne_of {a b : Pubkey} (h : Nat.beq a.toNat b.toNat = false) : a ≠ b := by
  rintro rfl; rw [Nat.beq_refl] at h; cases h

example : ∃ a b c w', threeCalls = .ok [a, b, c] ∧ [a, b, c].Pairwise Call.MaySwap ∧ [a, b].Pairwise Call.SameBallot ∧
    Call.all Toy.env [a, b, c] (Toy.get Toy.tpReq) = .ok w' := by
  have key : (match threeCalls with
      | .ok [a, b, c] => votesW (Toy.relay 0) Toy.wd1 a && votesW (Toy.relay 1) Toy.wd1 b && apart a c && apart b c &&
        Toy.isOk (Call.all Toy.env [a, b, c] (Toy.get Toy.tpReq))
      | _ => false) = true := by decide +kernel
  have n1 : Toy.relay 0 ≠ Toy.relay 1 := ne_of (by decide +kernel)
  have n2 : Toy.relay 0 ≠ Toy.wd1 := ne_of (by decide +kernel)
  have n3 : Toy.relay 1 ≠ Toy.wd1 := ne_of (by decide +kernel)
  split at key
  · rename_i a b c h
    simp only [Bool.and_eq_true] at key
    obtain ⟨⟨⟨⟨k1, k2⟩, k3⟩, k4⟩, k5⟩ := key
    have hs : a.SameBallot b := .withdrawal (votesW_ok k1) (votesW_ok k2) n1 n2 n3
    refine ⟨a, b, c, _, h, ?_, List.pairwise_pair.2 hs, Toy.get_ok k5⟩
    simp only [List.pairwise_cons, List.mem_cons, List.not_mem_nil, or_false, forall_eq_or_imp, forall_eq, List.Pairwise.nil, and_true, false_implies,
      implies_true]
    exact ⟨⟨.inr hs, .inl (apart_ok k3)⟩, .inl (apart_ok k4)⟩
  · cases key

example : ∃ a b w', roundCalls = .ok [a, b] ∧ [a, b].Pairwise Call.SameBallot ∧ Call.all Toy.env [a, b] (Toy.get Toy.rlFinalized) = .ok w' := by
  have key : (match roundCalls with
      | .ok [a, b] => votesP (Toy.relay 0) Toy.prop2 (Toy.rlRound 1) a && votesP (Toy.relay 1) Toy.prop2 (Toy.rlRound 1) b &&
        Toy.isOk (Call.all Toy.env [a, b] (Toy.get Toy.rlFinalized))
      | _ => false) = true := by decide +kernel
  have n1 : Toy.relay 0 ≠ Toy.relay 1 := ne_of (by decide +kernel)
  have n2 : Toy.relay 0 ≠ Toy.prop2 := ne_of (by decide +kernel)
  have n3 : Toy.relay 1 ≠ Toy.prop2 := ne_of (by decide +kernel)
  split at key
  · rename_i a b h
    simp only [Bool.and_eq_true] at key
    obtain ⟨⟨k1, k2⟩, k5⟩ := key
    exact ⟨a, b, _, h, List.pairwise_pair.2 (.proposal (votesP_ok k1) (votesP_ok k2) n1 n2 n3), Toy.get_ok k5⟩
  · cases key

end Verif.Props
