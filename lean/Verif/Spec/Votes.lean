import Verif.Spec.Client
import Verif.Client.TokenProxy
/-!
# Specification: relays vote one after the other

The votes of a list of relays, each with the time at which it is sent, as the client libraries build them.
-/
namespace Verif
open Verif

namespace TP

/-- The votes `v` of the relays in the list for the withdrawal `k` of round `n` are sent one after the other, and all are accepted. -/
inductive Voted (env : Env) (cpi : Pubkey → World → Except Err World) (k : Pubkey) (n : U32) (v : Vote) :
    List (Pubkey × I64) → World → World → Prop
  | nil (w : World) : Voted env cpi k n v [] w w
  | cons {x : Pubkey} {t : I64} {l : List (Pubkey × I64)} {w w1 w2 : World} {ix : Ix} (hb : TP.Client.voteIx env x k n v = .ok ix)
      (hr : TP.process env (ix.ctx t) cpi ix.data w = .ok w1) (h : Voted env cpi k n v l w1 w2) : Voted env cpi k n v ((x, t) :: l) w w2

end TP

namespace RL

/-- The votes `v` of the relays in the list for the proposal `k` of round `n` are sent one after the other, and all are accepted. -/
inductive Voted (env : Env) (k : Pubkey) (n : U32) (v : Vote) : List (Pubkey × I64) → World → World → Prop
  | nil (w : World) : Voted env k n v [] w w
  | cons {x : Pubkey} {t : I64} {l : List (Pubkey × I64)} {w w1 w2 : World} {ix : Ix} (hb : RL.Client.voteIx env x k n v = .ok ix)
      (hr : RL.process env (ix.ctx t) ix.data w = .ok w1) (h : Voted env k n v l w1 w2) : Voted env k n v ((x, t) :: l) w w2

end RL

/-- The relays in the list can vote on what `k` holds: they are different members of `relays`, none of them has a vote among `votes` yet, `k` is not
one of them and their balances do not overflow when they are reimbursed. -/
structure CanVote (w : World) (k : Pubkey) (relays : List Pubkey) (votes : List Vote) (l : List (Pubkey × I64)) : Prop where
  different : (l.map (·.1)).Nodup
  member : ∀ x ∈ l, ∃ j, relays.findIdx? (fun y => y == x.1) = some j ∧ votes[j]? = some .none
  other : ∀ x ∈ l, x.1 ≠ k
  room : ∀ x ∈ l, (w.acc x.1).lamports + relayReparation < 2 ^ 64

/-- `votes'` is `votes` with the votes `v` of the relays in the list added. -/
structure Cast (relays : List Pubkey) (v : Vote) (l : List (Pubkey × I64)) (votes votes' : List Vote) : Prop where
  length : votes'.length = votes.length
  cast : ∀ x ∈ l, ∀ j, relays.findIdx? (fun y => y == x.1) = some j → votes'[j]? = some v
  kept : ∀ j, (∀ x ∈ l, relays.findIdx? (fun y => y == x.1) ≠ some j) → votes'[j]? = votes[j]?
  count : votes'.count v = votes.count v + l.length

/-- Between `w` and `w'` nothing happened except that the relays in the list were reimbursed out of `k` and that the data of `k` changed. -/
structure OnlyVotes (k : Pubkey) (l : List (Pubkey × I64)) (w w' : World) : Prop where
  data : ∀ x, x ≠ k → (w'.acc x).data = (w.acc x).data
  owner : ∀ x, (w'.acc x).owner = (w.acc x).owner
  reimbursed : ∀ x ∈ l, (w'.acc x.1).lamports = (w.acc x.1).lamports + relayReparation
  spent : (w'.acc k).lamports + relayReparation * l.length = (w.acc k).lamports
  rest : ∀ x, x ≠ k → x ∉ l.map (·.1) → (w'.acc x).lamports = (w.acc x).lamports
  logs : w'.logs = w.logs

end Verif
