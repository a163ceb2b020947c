import Verif.Spec.Backing
/-!
# What may exist of an Everscale token
-/
namespace Verif.TP
open Codec Verif

/-- The withdrawal of an Everscale token that is read from account `k`. -/
def everRecord (w : World) (k : Pubkey) : Option (Withdrawal WEverEvent) :=
  match (w.acc k).data with
  | .raw b => ((withdrawalC wEverEventC).dec b).map (·.1)
  | _ => none

/-- The decimals of the mint `k`. -/
def decimalsOf (w : World) (k : Pubkey) : U8 :=
  match (w.acc k).data with
  | .mint m => m.decimals
  | _ => 0#8

open Classical in
/-- What the step `e` lets into the token with settings `kt`: the amount, in units of the mint, of a withdrawal that enough relays confirmed and
that was not decided before this step. Whether the step pays it or has it wait for approval makes no difference. -/
noncomputable def admitted (kt : Pubkey) (e : Ev) : Nat :=
  match e.act with
  | .tp ctx .withdrawMultiTokenEver =>
    if ctx.accounts[3]? = some kt then
      match ctx.accounts[0]?, ctx.accounts[1]? with
      | some kw, some km =>
        match everRecord e.pre kw, everRecord e.post kw with
        | some r, some r' =>
          if Confirmed r ∧ r.md.status = .new ∧ r'.md.status ≠ .new then
            match getWithdrawalAmount r.event.amount r.event.decimals (decimalsOf e.post km) with
            | .ok a => a.toNat
            | .error _ => 0
          else 0
        | _, _ => 0
      | _, _ => 0
    else 0
  | _ => 0

/-- What the step `e` takes away from the tokens that exist or may still be minted for fees. -/
def retired (km kt : Pubkey) (e : Ev) : Nat := backing e.pre km kt - backing e.post km kt

end Verif.TP
