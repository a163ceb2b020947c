import Verif.Spec.Wire
import Verif.Spec.Views
/-!
# The published addresses

Where each record lives: the byte strings its address is derived from, its size and its owner. Nothing here refers to the seeds of the model.
-/
namespace Verif

/-- What the token proxy keeps at derived addresses. -/
inductive TP.Role
  | settings
  | multiVault
  /-- settings of a token that comes from Solana -/
  | tokenSol (mint : Pubkey)
  /-- settings of a token that comes from Everscale -/
  | tokenEver (token : EverAddress)
  /-- mint of a token that comes from Everscale -/
  | mint (token : EverAddress)
  /-- vault of a token that comes from Solana -/
  | vault (mint : Pubkey)
  /-- account that pays a payload -/
  | proxy (mint recipient : Pubkey)
  | deposit (seed : U128)
  | withdrawal (round : U32) (event : PDA) (hash : Pubkey)

/-- What the round loader keeps at derived addresses. -/
inductive RL.Role
  | settings
  | round (number : U32)
  | proposal (round : U32) (event : PDA) (hash : Pubkey)

/-- The byte strings the address is derived from. -/
def TP.Role.parts (env : Env) : TP.Role → List Bytes
  | .settings => [ascii "settings"]
  | .multiVault => [ascii "multivault"]
  | .tokenSol m => [ascii "settings", Wire.key m]
  | .tokenEver t => [ascii "settings", Wire.key (env.hash (Wire.ever t))]
  | .mint t => [ascii "mint", Wire.key (env.hash (Wire.ever t))]
  | .vault m => [ascii "vault", Wire.key m]
  | .proxy m r => [ascii "proxy", Wire.key m, Wire.key r]
  | .deposit s => [ascii "deposit", Wire.num 16 s.toNat]
  | .withdrawal n p h => [ascii "proposal", Wire.num 4 n.toNat, Wire.num 4 p.eventTimestamp.toNat, Wire.num 8 p.eventTransactionLt.toNat,
      Wire.key p.eventConfiguration, Wire.key h]

def RL.Role.parts : RL.Role → List Bytes
  | .settings => [ascii "settings"]
  | .round n => [ascii "relay_round", Wire.num 4 n.toNat]
  | .proposal n p h => [ascii "proposal", Wire.num 4 n.toNat, Wire.num 4 p.eventTimestamp.toNat, Wire.num 8 p.eventTransactionLt.toNat,
      Wire.key p.eventConfiguration, Wire.key h]

/-- Owner and size. -/
def TP.Role.owner (env : Env) : TP.Role → Pubkey
  | .mint _ | .vault _ | .proxy _ _ => env.splId
  | _ => env.tpId

def TP.Role.size : TP.Role → Nat
  | .mint _ => 82
  | .vault _ | .proxy _ _ => 165
  | _ => 1000

def RL.Role.size : RL.Role → Nat
  | .settings => 100
  | .round _ => 3215
  | .proposal _ _ _ => 3415

/-- Two roles that are one, or whose tokens have the same hash, or the hash of one is the mint of the other. -/
inductive TP.Role.Same (env : Env) : TP.Role → TP.Role → Prop
  | refl (r : TP.Role) : Same env r r
  | token (t t' : EverAddress) (h : env.hash (Wire.ever t) = env.hash (Wire.ever t')) : Same env (.tokenEver t) (.tokenEver t')
  | mint (t t' : EverAddress) (h : env.hash (Wire.ever t) = env.hash (Wire.ever t')) : Same env (.mint t) (.mint t')
  | mixed (t : EverAddress) (m : Pubkey) (h : env.hash (Wire.ever t) = m) : Same env (.tokenEver t) (.tokenSol m)
  | mixed' (t : EverAddress) (m : Pubkey) (h : env.hash (Wire.ever t) = m) : Same env (.tokenSol m) (.tokenEver t)

/-- What a derived address is computed from: the parts, then the bump, without separators. -/
def preimage (parts : List Bytes) (bump : U8) : Bytes := parts.flatten ++ [bump]

end Verif
