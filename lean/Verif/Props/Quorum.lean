import Mathlib.Data.Fintype.Card
import Verif.RoundLoader.Processor
/-!
# Quorum arithmetic (C05 arithmetic part, C13)
-/
namespace Verif.Props
open Verif

/-- C05, the number itself: in a round of `n` relays (`n < 2^32`, as for every stored relay list) the required number of
votes is the larger of `⌊2n/3⌋ + 1` and the configured minimum. -/
theorem C05_required_value (n : Nat) (hn : n < 2 ^ 32) (m : U32) :
    (RL.requiredVotes n m).toNat = max (2 * n / 3 + 1) m.toNat := by
  have h : (BitVec.ofNat 32 (n * 2 / 3 + 1)).toNat = 2 * n / 3 + 1 := by
    rw [BitVec.toNat_ofNat, Nat.mod_eq_of_lt (by omega), Nat.mul_comm]
  simp only [RL.requiredVotes, h]
  split <;> omega

/-- C05: it is more than two thirds of the relays and at least the configured minimum. -/
theorem C05_two_thirds (n : Nat) (hn : n < 2 ^ 32) (m : U32) :
    2 * n < 3 * (RL.requiredVotes n m).toNat ∧ m.toNat ≤ (RL.requiredVotes n m).toNat := by
  rw [C05_required_value n hn m]; omega

example : RL.requiredVotes 4 1#32 = 3#32 ∧ RL.requiredVotes 3 1#32 = 3#32 ∧ RL.requiredVotes 4 4#32 = 4#32 := by decide

/-- C13: two sets of slots, out of `n`, that both reach a required count which is more than two thirds of `n`, share more
than a third of the slots. -/
theorem C13_quorums_intersect (n : Nat) (hn : n < 2 ^ 32) (m : U32) (A B : Finset (Fin n))
    (hA : (RL.requiredVotes n m).toNat ≤ A.card) (hB : (RL.requiredVotes n m).toNat ≤ B.card) :
    n < 3 * (A ∩ B).card := by
  have h := (C05_two_thirds n hn m).1
  have hu := Finset.card_union_add_card_inter A B
  have hle : (A ∪ B).card ≤ n := by simpa using Finset.card_le_univ (A ∪ B)
  omega

example : (RL.requiredVotes 4 1#32).toNat ≤ ({0, 1, 2} : Finset (Fin 4)).card ∧
    (RL.requiredVotes 4 1#32).toNat ≤ ({1, 2, 3} : Finset (Fin 4)).card := by decide

/-- number of `Confirm`, resp. `Reject`, in a list of votes -/
theorem count_le_length (l : List Vote) : l.count .confirm + l.count .reject ≤ l.length := by
  induction l with
  | nil => simp
  | cons v l ih => cases v <;> simp <;> omega

/-- C13: a proposal or withdrawal never holds a quorum of `Confirm` and a quorum of `Reject`. -/
theorem C13_no_double_quorum (l : List Vote) (hl : l.length < 2 ^ 32) (m : U32)
    (hc : (RL.requiredVotes l.length m).toNat ≤ l.count .confirm) :
    ¬ (RL.requiredVotes l.length m).toNat ≤ l.count .reject := by
  have h := (C05_two_thirds l.length hl m).1
  have := count_le_length l
  omega

example : (RL.requiredVotes 4 1#32).toNat ≤ [Vote.confirm, .confirm, .reject, .confirm].count .confirm := by decide

end Verif.Props
