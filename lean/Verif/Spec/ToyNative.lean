import Verif.Spec.ToyForge
import Verif.Spec.Native
/-!
# The example chain: depositing SOL through the native proxy
-/
set_option maxRecDepth 100000
namespace Verif.Toy
open Verif TP

/-- the native proxy -/
def npId : Pubkey := 9
/-- the mint of wrapped SOL -/
def wsolMint : Account := ⟨1082, env.splId, .mint ⟨none, 0, 9, none⟩⟩
def wsolSettings : Pubkey := addr (tokenSettingsSolSeeds env.nativeMint) env.tpId
def wsolVault : Pubkey := addr (vaultSeeds env.nativeMint) env.tpId
def aliceSol : Pubkey := addr (ataSeeds env alice env.nativeMint) env.ataId

/-- the chain gets the mint of wrapped SOL -/
def npReady : Except Err World := tpInit >>= fun w => .ok (w.set env.nativeMint wsolMint)
def npCtx (n : U128) : Ctx := Toy.ctx npId [funder, alice, aliceSol, wsolVault, tpDep n, env.nativeMint, tpMulti, wsolSettings, tpSettings,
  env.systemId, env.splId, env.rentId, env.tpId, env.ataId] [funder, alice]
/-- alice deposits 70000 lamports -/
def npFirst : Except Err World := npReady >>= fun w => NP.run env (npCtx 1) (.deposit 1 70000 home 7 0 []) w
/-- alice deposits 5000 more -/
def npSecond : Except Err World := npFirst >>= fun w => NP.run env (npCtx 2) (.deposit 2 5000 home 7 0 []) w

theorem npReady_eq : (get tpInit).set env.nativeMint wsolMint = get npReady := by
  have := get_bind (a := tpInit) (f := fun w => .ok (w.set env.nativeMint wsolMint)) (by decide +kernel)
  cases this
  rfl

theorem spl_foreign : wsolMint.owner ≠ env.rlId ∧ wsolMint.owner ≠ env.tpId := by decide

theorem ext_npReady : ExtStep env L (get tpInit) (get npReady) := by
  rw [← npReady_eq]
  refine ExtStep.of distinct.sysSpl [env.nativeMint] (set_logs _ _ _) (fun k hk => World.set_other _ _ (by simpa using hk)) (fun k hk => ?_)
  obtain rfl := List.mem_singleton.1 hk
  obtain ⟨h1, h2, h3, h4⟩ := outside_ok (a := (get tpInit).acc env.nativeMint) (by decide +kernel)
  rw [World.set_same]
  exact ⟨unlocked (by decide +kernel), h1, h2, spl_foreign.1, spl_foreign.2, h3, h4⟩

theorem np_first : NP.run env (npCtx 1) (.deposit 1 70000 home 7 0 []) (get npReady) = .ok (get npFirst) := get_bind (a := npReady) (by decide +kernel)
theorem np_second : NP.run env (npCtx 2) (.deposit 2 5000 home 7 0 []) (get npFirst) = .ok (get npSecond) := get_bind (a := npFirst) (by decide +kernel)

end Verif.Toy
