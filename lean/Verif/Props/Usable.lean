import Verif.Lemmas.Multi
import Verif.Lemmas.LiveTP
import Verif.Props.Admin
import Verif.Spec.ToyReachW
import Verif.Spec.ToyForge
import Verif.Spec.ToyClientTP
import Verif.Spec.ToyTactic
/-!
# Actions after which the bridge no longer works

C64: collecting the lamports of the multi vault.
-/
set_option linter.unusedSimpArgs false
set_option maxRecDepth 100000
namespace Verif.Props
open Verif TP Codec

variable {env : Env} {L : Pubkey → Prop} {ctx : Ctx} {cpi : Pubkey → World → Except Err World} {w w' : World} {tr : List Ev}

/-! ## C64: the multi vault -/

/-- C64: the manager may collect all lamports of the multi vault, also those that keep its account alive; at the end of the transaction the
account is gone. -/
theorem C64_taken {ks km rc : Pubkey} {s : Settings} {n : U64} (hs : TP.Ready env w ks s) (hm : MultiReady env w km) (hmn : ¬ L s.manager)
    (hn : n.toNat = (w.acc km).lamports) (hne : km ≠ rc) (hmax : (w.acc rc).lamports + n.toNat < 2 ^ 64) (hl : Live w ks)
    (h : Reach env L w) : ∃ ctx w1 w2, ctx.program = env.tpId ∧ ctx.signers = [s.manager] ∧ TP.run env ctx noCpi (.withdrawMultiVault n) w = .ok w1 ∧
      (∀ k, w1.acc k = { w.acc k with lamports := (w.acc k).lamports - (if k = km then n.toNat else 0) + (if k = rc then n.toNat else 0) }) ∧
      Purge env w1 w2 ∧ Reach env L w2 ∧ Vacant env (w2.acc km) ∧ SettingsAt env w2 ks s ∧ Live w2 ks := by
  let ctx : Ctx := ⟨env.tpId, [s.manager, rc, km, ks], [s.manager], [rc, km], 0⟩
  obtain ⟨pn', pd', hls, -⟩ := loadSettings_live (ctx := ctx) rfl hs
  obtain ⟨w1, h1, -, -⟩ := moveLamports_live (ctx := ctx) (w := w) (a := km) (b := rc) (n := n.toNat) (Nat.le_of_eq hn)
    (by simp [ctx, Ctx.isWritable]) (by simp [ctx, Ctx.isWritable]) hm.owner hne hmax
  have hr : TP.run env ctx noCpi (.withdrawMultiVault n) w = .ok w1 := by
    simp only [run, processWithdrawMultiVault, bind_ok, acct_ok, require_ok, exists_const, Prod.exists]
    exact ⟨s.manager, rfl, rc, rfl, km, rfl, ks, rfl, by simp [ctx, Ctx.isSigner], s, pn', hls, (), authorize_ok.2 (.inl rfl), (),
      loadMulti_live rfl hm, h1⟩
  obtain ⟨-, -, -, -, -, hacc⟩ := moveLamports_ok h1
  obtain ⟨w0, tr, hg, h0⟩ := h
  let w2 : World := { w1 with acc := fun k => if (w1.acc k).lamports = 0 then ⟨0, env.systemId, .raw []⟩ else w1.acc k }
  have hp : Purge env w1 w2 := ⟨rfl, fun _ => rfl⟩
  refine ⟨ctx, w1, w2, rfl, rfl, hr, hacc, hp, ⟨w0, _, hg, .purge (.tp ctx _ h0 rfl (by simpa [ctx] using hmn) hr) hp⟩, ?_⟩
  have : (w1.acc km).lamports = 0 := by rw [hacc]; simp [hne, hn]
  have hkk : ks ≠ km := by
    rintro rfl
    obtain ⟨-, v, n', hv, hi, hk, -⟩ := hm
    obtain ⟨-, hh, -, n1, n2, hk'⟩ := hs.here
    have := (head_settings hh).unique (head_multiVault hv)
    rw [hk, hk'] at this
    simp at this
  have hks : ∃ l, 1 ≤ l ∧ w1.acc ks = { w.acc ks with lamports := l } := ⟨_, by simp only [hkk, if_false]; unfold Live at hl; omega, hacc ks⟩
  obtain ⟨l, hl1, hks⟩ := hks
  have hks2 : w2.acc ks = { w.acc ks with lamports := l } := by rw [hp.2, if_neg (by rw [hks]; show l ≠ 0; omega), hks]
  refine ⟨by rw [hp.2, if_pos this]; exact ⟨rfl, rfl, rfl⟩, ?_, by unfold Live; rw [hks2]; exact hl1⟩
  unfold SettingsAt Holds
  rw [hks2]
  exact hs.here

/-- C64 is false: once the account of the multi vault is gone, nothing can be deposited, cancelled or filled any more, in no later state, and
the account cannot be opened again. -/
theorem C64_forever {ks km : Pubkey} {s : Settings} (hd : env.Distinct) (hL : L km) (hks : IsAddr env env.tpId settingsSeeds ks)
    (hkm : IsAddr env env.tpId multiVaultSeeds km) (h : Reach env L w) (hs : SettingsAt env w ks s) (hl : Live w ks)
    (hv : Vacant env (w.acc km)) (hr : Run env L true w tr w') (hrl : (w'.acc km).owner ≠ env.rlId) (hp : ctx.program = env.tpId) :
    ∀ i w'', UsesMulti i ∨ (∃ g m wm, i = .init g m wm) → TP.run env ctx cpi i w' ≠ .ok w'' := by
  intro i w'' hi hrun
  rcases hi with hi | ⟨g, m, wm, rfl⟩
  · obtain ⟨km', n, hkm', hh⟩ := needs_multi hi hrun
    rw [hp] at hkm'
    cases hkm.unique hkm'
    have hc : Clean env (w'.acc km) := hr.clean hL (h.clean hL)
    have ho : (w'.acc km).owner = env.tpId := (hc.owner hh).resolve_right hrl
    rcases hr.origin hd (by intros; exact nofun) ⟨ho, hh⟩ with hm | ⟨e, he, hw⟩
    · exact hd.tpSys (hm.1.symm.trans hv.2.2)
    · obtain ⟨c, g, m, wm, ha⟩ := wrote_multiVault hw
      exact (C26_roles hd hr hs hl hks e he).1 c g m wm ha
  · obtain ⟨k, hk, hvk, -⟩ := init_vacant hrun
    rw [hp] at hk
    cases hks.unique hk
    obtain ⟨⟨s', hs'⟩, -⟩ := settings_hist hd hr hs hl
    exact hd.tpSys (hs'.1.symm.trans hvk.2.2)

/-- C64, the part that holds: as long as a lamport is left, the account stays as it is. -/
theorem C64_kept_partial {km rc : Pubkey} {n : U64} (h : TP.run env ctx cpi (.withdrawMultiVault n) w = .ok w')
    (hm : MultiReady env w km) (hk : ctx.accounts[2]? = some km) (hrc : ctx.accounts[1]? = some rc) (hne : km ≠ rc)
    (hn : n.toNat < (w.acc km).lamports) :
    MultiReady env w' km ∧ Live w' km ∧ (w'.acc rc).lamports = (w.acc rc).lamports + n.toNat ∧
      (∀ w'', Purge env w' w'' → MultiReady env w'' km) := by
  obtain ⟨-, kv, rc', hkv, hrc', -, -, hacc⟩ := multiVault_fx h
  rw [hk] at hkv; cases hkv
  rw [hrc] at hrc'; cases hrc'
  have e1 : w'.acc km = { w.acc km with lamports := (w.acc km).lamports - n.toNat } := by rw [hacc km]; simp [hne]
  obtain ⟨ho, v, k, ⟨b, r, hb, hlen, hdec⟩, hi, hkd, ha⟩ := hm
  have h1 : MultiReady env w' km := ⟨by rw [e1]; exact ho, v, k, ⟨b, r, by rw [e1]; exact hb, hlen, hdec⟩, hi, hkd, ha⟩
  have hl : (w'.acc km).lamports ≠ 0 := by rw [e1]; show _ - _ ≠ 0; omega
  refine ⟨h1, by unfold Live; omega, by rw [hacc rc]; simp [Ne.symm hne], fun w'' hpu => ?_⟩
  have e2 : w''.acc km = w'.acc km := by rw [hpu.2, if_neg hl]
  obtain ⟨ho, v, k, ⟨b, r, hb, hlen, hdec⟩, hi, hkd, ha⟩ := h1
  exact ⟨by rw [e2]; exact ho, v, k, ⟨b, r, by rw [e2]; exact hb, hlen, hdec⟩, hi, hkd, ha⟩

/-- The hypotheses of `C64_taken` and `C64_forever` on the toy chain: the manager collects everything, and no deposit will ever succeed. -/
example : ∃ w2, Reach Toy.env Toy.L w2 ∧ ∀ tr w3, Run Toy.env Toy.L true w2 tr w3 → (w3.acc Toy.tpMulti).owner ≠ Toy.env.rlId →
    ∀ ctx i w4, ctx.program = Toy.env.tpId → UsesMulti i → TP.run Toy.env ctx noCpi i w3 ≠ .ok w4 := by
  obtain ⟨s, hs, hm⟩ := Toy.tp_ready (P := fun s => Toy.same s.manager Toy.manager) (w := Toy.get Toy.tpDeposited) ?_
  obtain hv := Toy.tp_multi (w := Toy.get Toy.tpDeposited) ?_
  obtain hu := Toy.unlocked (k := Toy.manager) ?_
  obtain hb := Nat.le_of_ble_eq_true (n := ((Toy.get Toy.tpDeposited).acc Toy.tpMulti).lamports) (m := 10 ^ 9) ?_
  obtain hb' := Nat.le_of_ble_eq_true (n := ((Toy.get Toy.tpDeposited).acc Toy.bob).lamports) (m := 10 ^ 9) ?_
  obtain hl := Nat.le_of_ble_eq_true (n := 1) (m := ((Toy.get Toy.tpDeposited).acc Toy.tpSettings).lamports) ?_
  obtain hne := Toy.same_ne (a := Toy.tpMulti) (b := Toy.bob) ?_
  have hn : (BitVec.ofNat 64 ((Toy.get Toy.tpDeposited).acc Toy.tpMulti).lamports).toNat = ((Toy.get Toy.tpDeposited).acc Toy.tpMulti).lamports := by
    rw [BitVec.toNat_ofNat, Nat.mod_eq_of_lt (by omega)]
  obtain ⟨ctx, w1, w2, -, -, -, -, -, hre, hva, hse, hli⟩ := C64_taken (L := Toy.L) (rc := Toy.bob) hs hv (by rw [Toy.same_eq hm]; exact hu) hn hne
    (by rw [hn]; omega) hl Toy.reach_tpDeposited
  · exact ⟨w2, hre, fun tr w3 hr ho ctx i w4 hp hi => C64_forever Toy.distinct (show Toy.tpMulti ∈ Toy.locked by simp [Toy.locked]) (Toy.isAddr _ _) (Toy.isAddr _ _) hre hse hli
      hva hr ho hp i w4 (.inl hi)⟩
  checked

/-- The hypotheses of `C64_kept_partial` on the toy chain. -/
example : ∃ ctx w', TP.run Toy.env ctx noCpi (.withdrawMultiVault 5) (Toy.get Toy.tpDeposited) = .ok w' ∧ MultiReady Toy.env w' Toy.tpMulti := by
  obtain hv := Toy.tp_multi (w := Toy.get Toy.tpDeposited) ?_
  obtain hb := Nat.le_of_ble_eq_true (n := 6) (m := ((Toy.get Toy.tpDeposited).acc Toy.tpMulti).lamports) ?_
  obtain hok := Toy.get_tp (a := Toy.tpDeposited) (c := Toy.tctx [Toy.manager, Toy.bob, Toy.tpMulti, Toy.tpSettings] [Toy.manager]) (i := .withdrawMultiVault 5) ?_
  obtain hne := Toy.same_ne (a := Toy.tpMulti) (b := Toy.bob) ?_
  · exact ⟨_, _, hok, (C64_kept_partial hok hv rfl rfl hne hb).1⟩
  checked

end Verif.Props
