import Verif.Spec.Trace
/-!
# Addresses that hold lamports before their account exists

Definitions for C63.
-/
namespace Verif

/-- The address has lamports but no program owns it yet. Everybody can bring this about by sending some lamports. -/
structure Blocked (env : Env) (w : World) (k : Pubkey) : Prop where
  owner : (w.acc k).owner = env.systemId
  lamports : 0 < (w.acc k).lamports
  empty : (w.acc k).data.len = 0

/-- A token account, or the space for one. -/
def TokenSized (env : Env) (a : Account) : Prop := a.owner = env.splId ∧ a.data.len = 165

/-- `n` lamports go from `f` to `k`, and nothing else happens. -/
structure Tipped (n : Nat) (f k : Pubkey) (w w' : World) : Prop where
  paid : (w'.acc f).lamports + n = (w.acc f).lamports
  got : (w'.acc k).lamports = (w.acc k).lamports + n
  rest : ∀ x, x ≠ f → x ≠ k → w'.acc x = w.acc x
  data : ∀ x, (w'.acc x).data = (w.acc x).data ∧ (w'.acc x).owner = (w.acc x).owner
  logs : w'.logs = w.logs

end Verif
