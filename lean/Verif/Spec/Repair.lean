import Verif.Spec.OriginProp
import Verif.Spec.Upload
/-!
# Specification: a proposal that others have written into

C95.
-/
namespace Verif.RL
open Verif

/-- In step `e` the proposal `k` is created, by `a`, for the round number `rn`, the Everscale event `q` and content with the digest `d`. -/
def Creates (e : Ev) (k a : Pubkey) (rn : U32) (q : PDA) (d : Pubkey) : Prop :=
  ∃ ctx, e.act = .rl ctx (.createProposal rn q d) ∧ ctx.accounts[1]? = some a ∧ ctx.accounts[2]? = some k ∧ (e.pre.acc k).lamports = 0

/-- What is to be written over whatever is there: the event preceded by its length, and zeros to the end of the part of the account that can be written. -/
def paddedBytes (len : U32) (e : Event) : Bytes :=
  uploadBytes len e ++ zeros (loadEnd - loadBegin - (uploadBytes len e).length)

end Verif.RL
