import Verif.Spec.TokenProxy
/-!
# Payouts over a history
-/
namespace Verif.TP
open Verif

/-- The withdrawal of a Solana token in account `k` was not processed yet. -/
def IsNew (w : World) (k : Pubkey) : Prop := ∃ r, Holds (withdrawalC wSolEventC) recLen (w.acc k) r ∧ r.md.status = .new

open Classical in
/-- What a step pays out, without approval, of the token with settings `kt` for a new withdrawal: what the vault loses, or what is
minted. -/
noncomputable def autoPaid (kt : Pubkey) (e : Ev) : Nat :=
  match e.act with
  | .tp ctx .withdrawMultiTokenSol =>
    if ctx.accounts[3]? = some kt then
      match ctx.accounts[0]?, ctx.accounts[1]? with
      | some kw, some kv => if IsNew e.pre kw then bal e.pre kv - bal e.post kv else 0
      | _, _ => 0
    else 0
  | .tp ctx .withdrawMultiTokenEver =>
    if ctx.accounts[3]? = some kt then
      match ctx.accounts[1]? with
      | some m => supply e.post m - supply e.pre m
      | none => 0
    else 0
  | _ => 0

end Verif.TP
