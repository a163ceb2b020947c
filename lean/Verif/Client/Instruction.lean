import Verif.Bridge.Helper
/-!
# Instructions as clients build them
-/
namespace Verif

/-- `solana_program::instruction::AccountMeta`. Used in `round-loader/src/bindings.rs:1-297`. -/
structure Meta where
  key : Pubkey
  signer : Bool
  writable : Bool
  deriving DecidableEq, Repr

/-- `AccountMeta::new`. Used in `round-loader/src/bindings.rs:1-297`. -/
def Meta.new (k : Pubkey) (signer : Bool) : Meta := ⟨k, signer, true⟩
/-- `AccountMeta::new_readonly`. Used in `round-loader/src/bindings.rs:1-297`. -/
def Meta.readonly (k : Pubkey) (signer : Bool) : Meta := ⟨k, signer, false⟩

/-- `solana_program::instruction::Instruction`. Used in `round-loader/src/bindings.rs:1-297`. -/
structure Ix where
  program : Pubkey
  metas : List Meta
  data : Bytes
  deriving DecidableEq, Repr

/-- What the program sees when the instruction is sent in a transaction of its own: a key signs, or is writable, if one of its entries says so
(`solana_program::message::compiled_keys`). Used in `round-loader/src/bindings.rs:1-297`. -/
def Ix.ctx (ix : Ix) (now : I64) : Ctx where
  program := ix.program
  accounts := ix.metas.map (·.key)
  signers := (ix.metas.filter (·.signer)).map (·.key)
  writables := (ix.metas.filter (·.writable)).map (·.key)
  now := now

/-- `value.try_to_vec().expect("pack")`: Borsh fails only for strings and vectors of 2^32 or more entries.
Used in `round-loader/src/bindings.rs:1-297`. -/
def packed {α : Type} (c : Codec α) (a : α) : Except Err Bytes := if c.wf a = true then .ok (c.enc a) else .error .panic

/-- `Pubkey::find_program_address(seeds, program).0`. `bridge-utils/src/helper.rs:8-40`. -/
def addrOf (env : Env) (seeds : List Bytes) (program : Pubkey) : Except Err Pubkey := do
  let (k, _) ← findAddr env seeds program
  .ok k

/-- `bridge_utils::helper::get_programdata_address`, `helper.rs:8-10` -/
def programdataAddr (env : Env) (program : Pubkey) : Except Err Pubkey := addrOf env [seedKey program] env.loaderId

/-- `spl_associated_token_account::get_associated_token_address`. Used in `native-proxy/src/bindings.rs:22`. -/
def ataAddr (env : Env) (wallet mint : Pubkey) : Except Err Pubkey := addrOf env (ataSeeds env wallet mint) env.ataId

end Verif
