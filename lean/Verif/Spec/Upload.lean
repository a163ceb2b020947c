import Verif.Spec.Client
import Verif.Client.RoundLoader
/-!
# Specification: a round proposal is uploaded in parts

The event of a proposal does not fit into one transaction. It is written in parts after the account is created, and then finalized.
-/
namespace Verif.RL
open Codec

/-- Some bytes of the event, where they belong, and when they are sent. -/
structure Part where
  offset : U32
  bytes : Bytes
  time : I64

/-- What is to be written: the event preceded by its length, `RelayRoundProposalEventWithLen`. -/
def uploadBytes (len : U32) (e : Event) : Bytes := u32.enc len ++ eventC.enc e

/-- The parts are pieces of `T` at their places, and together they cover `T`. They may overlap and come in any order. -/
structure Covers (T : Bytes) (l : List Part) : Prop where
  piece : ∀ x ∈ l, x.offset.toNat + x.bytes.length ≤ T.length ∧ x.bytes = (T.drop x.offset.toNat).take x.bytes.length
  all : ∀ i, i < T.length → ∃ x ∈ l, x.offset.toNat ≤ i ∧ i < x.offset.toNat + x.bytes.length

/-- The parts are written into the proposal `k` one after the other, as the client sends them, and all are accepted. -/
inductive Written (env : Env) (k : Pubkey) : List Part → World → World → Prop
  | nil (w : World) : Written env k [] w w
  | cons {x : Part} {l : List Part} {w w1 w2 : World} {ix : Ix} (hb : RL.Client.writeProposalIx env k x.offset x.bytes = .ok ix)
      (hr : RL.process env (ix.ctx x.time) ix.data w = .ok w1) (h : Written env k l w1 w2) : Written env k (x :: l) w w2

end Verif.RL
