import Verif.Spec.Local
import Verif.Lemmas.Local
import Verif.Props.Native
import Verif.Props.Global
import Verif.Spec.ToyTactic
/-!
# The outcome of an instruction depends on the accounts it is given, and on nothing else

C71: every instruction of the three programs is local to its accounts. C72: instructions that share no account one of them may write can be run
in any order, which is what the runtime relies on when it runs them at the same time.
-/
set_option maxRecDepth 100000
namespace Verif.Props
open Verif TP

variable {env : Env} {ctx : Ctx} {w w' w1 w2 : World} {S : List Pubkey} {a b : Call}

private theorem of_patch {f : World → Except Err World} (h : ∀ v pre w, f (patch S v pre w) = patch S v pre <$> f w) : LocalTo S f := by
  intro w v hs
  have key : ∀ u : World, (∀ k ∈ S, w.acc k = u.acc k) → u = patch S u.acc u.logs ⟨w.acc, []⟩ := fun u hu => by
    obtain ⟨acc, logs⟩ := u
    simp only [patch, List.append_nil, World.mk.injEq, and_true]
    funext k
    by_cases hk : k ∈ S
    · rw [if_pos hk, hu k hk]
    · rw [if_neg hk]
  have hw := key w fun _ _ => rfl
  have hv := key v hs
  have fw : f w = patch S w.acc w.logs <$> f ⟨w.acc, []⟩ := by rw [← h, ← hw]
  have fv : f v = patch S v.acc v.logs <$> f ⟨w.acc, []⟩ := by rw [← h, ← hv]
  cases hx : f ⟨w.acc, []⟩ with
  | error e => rw [hx] at fw fv; exact .inl ⟨e, fw, fv⟩
  | ok x =>
    rw [hx] at fw fv
    refine .inr ⟨_, _, x.logs, fw, fv, fun k hk => ?_, fun k hk => ?_, rfl, rfl⟩
    · rw [patch_acc hk, patch_acc hk]
    · exact ⟨by simp [patch, hk], by simp [patch, hk]⟩

private theorem to_patch {f : World → Except Err World} (h : LocalTo S f) (v : Pubkey → Account) (pre : List Bytes) (w : World) :
    f (patch S v pre w) = patch S v pre <$> f w := by
  rcases h w (patch S v pre w) (fun k hk => (patch_acc hk).symm) with ⟨e, h1, h2⟩ | ⟨w', v', l, h1, h2, h3, h4, h5, h6⟩
  · rw [h1, h2]; rfl
  · rw [h1, h2]
    obtain ⟨acc, logs⟩ := v'
    refine congrArg Except.ok ?_
    simp only [patch, World.mk.injEq]
    constructor
    · funext k
      by_cases hk : k ∈ S
      · rw [if_pos hk, h3 k hk]
      · rw [if_neg hk]; exact (h4 k hk).2.trans (by simp [patch, hk])
    · rw [show logs = _ from h6, h5]; simp [patch]

/-- C71 (round loader). -/
theorem C71_round_loader {d : Bytes} : LocalTo ctx.accounts (RL.process env ctx d) :=
  of_patch fun v pre w => by
    unfold RL.process
    patched []
    peel
    exact RL.patch_run fun _ h => h

/-- C71 (token proxy): as far as the instructions of an executed payload are local to the accounts given, the whole instruction is. -/
theorem C71_token_proxy {d : Bytes} {cpi : Pubkey → World → Except Err World} (hc : ∀ k, LocalTo ctx.accounts (cpi k)) :
    LocalTo ctx.accounts (TP.process env ctx cpi d) :=
  of_patch fun v pre _ => TP.patch_process (fun _ h => h) fun k => to_patch (hc k) v pre

/-- C71 (native proxy). -/
theorem C71_native_proxy {d : Bytes} : LocalTo ctx.accounts (NP.process env ctx d) :=
  of_patch fun v pre w => by
    unfold NP.process
    patched []
    peel
    exact NP.patch_run fun _ h => h

private theorem noCpi_local (k : Pubkey) : LocalTo S (noCpi k) := fun _ _ _ => .inl ⟨.cpi, rfl, rfl⟩

theorem Call.local (c : Call) : LocalTo c.ctx.accounts (c.run env) := by
  cases c with
  | rl => exact C71_round_loader
  | tp => exact C71_token_proxy noCpi_local
  | np => exact C71_native_proxy

theorem Call.confined {c : Call} (h : c.run env w = .ok w') : ∀ k, w'.acc k ≠ w.acc k → c.ctx.isWritable k = true := by
  have fin : Confined c.ctx w w' := by
    cases c with
    | rl =>
      simp only [Call.run, RL.process, bind_ok] at h
      obtain ⟨i, -, h⟩ := h
      exact C51_round_loader h
    | tp =>
      simp only [Call.run, TP.process, bind_ok] at h
      obtain ⟨i, -, h⟩ := h
      exact C51_token_proxy h
    | np =>
      simp only [Call.run, NP.process, bind_ok] at h
      obtain ⟨i, -, h⟩ := h
      exact C51_native_proxy h
  intro k hk
  obtain ⟨h1, h2⟩ := fin.changed k hk
  simp [Ctx.isWritable, h1, h2]

/-- C72: whether an instruction fails, and how, does not depend on an instruction before it that has nothing to do with it. -/
theorem C72_error {e : Err} (hab : a.Apart b) (h1 : a.run env w = .ok w1) : b.run env w1 = .error e ↔ b.run env w = .error e := by
  have hs : ∀ k ∈ b.ctx.accounts, w.acc k = w1.acc k := fun k hk => by
    by_cases e : w1.acc k = w.acc k
    · exact e.symm
    · exact absurd hk (hab.1 k (Call.confined h1 k e))
  rcases Call.local (env := env) b w w1 hs with ⟨e', h3, h4⟩ | ⟨_, _, _, h3, h4, -⟩
  · rw [h3, h4]
  · rw [h3, h4]; simp

/-- C72: two instructions that have nothing to do with each other can be swapped: both succeed in the other order as well, and every account ends
up the same. -/
theorem C72_swap (hab : a.Apart b) (h1 : a.run env w = .ok w1) (h2 : b.run env w1 = .ok w2) :
    ∃ v1 v2, b.run env w = .ok v1 ∧ a.run env v1 = .ok v2 ∧ v2.acc = w2.acc ∧ v2.logs.Perm w2.logs := by
  have hs : ∀ k ∈ b.ctx.accounts, w1.acc k = w.acc k := fun k hk => by
    by_cases e : w1.acc k = w.acc k
    · exact e
    · exact absurd hk (hab.1 k (Call.confined h1 k e))
  rcases Call.local (env := env) b w1 w hs with ⟨_, h3, -⟩ | ⟨x, v1, l, h3, h4, h5, h6, h7, h8⟩
  · rw [h2] at h3; cases h3
  rw [h2] at h3; cases h3
  have hs' : ∀ k ∈ a.ctx.accounts, w.acc k = v1.acc k := fun k hk => by
    by_cases e : v1.acc k = w.acc k
    · exact e.symm
    · exact absurd hk (hab.2 k (Call.confined h4 k e))
  rcases Call.local (env := env) a w v1 hs' with ⟨_, h9, -⟩ | ⟨x, v2, l', h9, h10, h11, h12, h13, h14⟩
  · rw [h1] at h9; cases h9
  rw [h1] at h9; cases h9
  refine ⟨v1, v2, h4, h10, funext fun k => ?_, ?_⟩
  · by_cases ha : k ∈ a.ctx.accounts
    · by_cases hb : w2.acc k = w1.acc k
      · rw [hb, h11 k ha]
      · exact absurd ha (hab.2 k (Call.confined h2 k hb))
    · rw [(h12 k ha).2]
      by_cases hb : k ∈ b.ctx.accounts
      · rw [h5 k hb]
      · rw [(h6 k hb).1, (h6 k hb).2, (h12 k ha).1]
  · rw [h14, h8, h7, h13, List.append_assoc, List.append_assoc]
    exact List.Perm.append_left _ List.perm_append_comm

theorem all_logs : ∀ {l : List Call} {w v w' : World}, w.acc = v.acc → w.logs.Perm v.logs → Call.all env l w = .ok w' →
    ∃ v', Call.all env l v = .ok v' ∧ v'.acc = w'.acc ∧ v'.logs.Perm w'.logs
  | [], w, v, w', h1, h2, h => by cases h; exact ⟨v, rfl, h1.symm, h2.symm⟩
  | c :: l, w, v, w', h1, h2, h => by
    simp only [Call.all, bind_ok] at h ⊢
    obtain ⟨w1, h3, h4⟩ := h
    rcases Call.local (env := env) c w v (fun k _ => by rw [h1]) with ⟨_, h5, -⟩ | ⟨x, v1, m, h5, h6, h7, h8, h9, h10⟩
    · rw [h3] at h5; cases h5
    rw [h3] at h5; cases h5
    have : w1.acc = v1.acc := funext fun k => by
      by_cases hk : k ∈ c.ctx.accounts
      · exact h7 k hk
      · rw [(h8 k hk).1, (h8 k hk).2, h1]
    obtain ⟨v', h11, h12⟩ := all_logs this (by rw [h9, h10]; exact h2.append_right m) h4
    exact ⟨v', ⟨v1, h6, h11⟩, h12⟩

/-- C72: instructions of which no two have anything to do with each other can be run in any order: all succeed in every order, every account ends up
the same, and the same log records are written. -/
theorem C72_any_order {l l' : List Call} (hp : l.Perm l') : ∀ {w w' : World}, l.Pairwise Call.Apart → Call.all env l w = .ok w' →
    ∃ v', Call.all env l' w = .ok v' ∧ v'.acc = w'.acc ∧ v'.logs.Perm w'.logs := by
  have hsym : ∀ {x y : Call}, x.Apart y → y.Apart x := fun h => ⟨h.2, h.1⟩
  induction hp with
  | nil => intro w w' _ h; exact ⟨w', h, rfl, .refl _⟩
  | cons c _ ih =>
    intro w w' ha h
    simp only [Call.all, bind_ok] at h ⊢
    obtain ⟨w1, h1, h2⟩ := h
    obtain ⟨v', h3, h4⟩ := ih (List.pairwise_cons.1 ha).2 h2
    exact ⟨v', ⟨w1, h1, h3⟩, h4⟩
  | swap x y l =>
    intro w w' ha h
    simp only [Call.all, bind_ok] at h ⊢
    obtain ⟨w1, h1, w2, h2, h3⟩ := h
    obtain ⟨v1, v2, h4, h5, h6, h7⟩ := C72_swap ((List.pairwise_cons.1 ha).1 x (by simp)) h1 h2
    obtain ⟨v', h8, h9⟩ := all_logs h6.symm h7.symm h3
    exact ⟨v', ⟨v1, h4, v2, h5, h8⟩, h9⟩
  | trans h1 h2 ih1 ih2 =>
    intro w w' ha h
    obtain ⟨v1, h3, h4, h5⟩ := ih1 ha h
    obtain ⟨v2, h6, h7, h8⟩ := ih2 (h1.pairwise ha hsym) h3
    exact ⟨v2, h6, h7.trans h4, h8.trans h5⟩

/-! ## The hypotheses are met -/

/-- A payload that moves tokens between two of the accounts given. -/
example {sg : Pubkey → Bool} {x y o : Pubkey} {n : U64} (hx : x ∈ ctx.accounts) (hy : y ∈ ctx.accounts) :
    ∀ k : Pubkey, LocalTo ctx.accounts ((fun _ w => splTransfer env ctx sg x y o n w) k) :=
  fun _ => of_patch fun _ _ _ => patch_xfer hx hy

/-- A vote of a relay on the withdrawal of 1000 gold and a deposit of 20000 gold by alice, as the clients send them. -/
private def twoCalls : Except Err (List Call) := do
  let a ← TP.Client.voteIx Toy.env (Toy.relay 0) Toy.wd1 1 .confirm
  let b ← TP.Client.depositSolIx Toy.env Toy.funder Toy.alice Toy.aliceGold Toy.gold 2 (ascii "Gold") (ascii "GLD") 20000 Toy.home 7 0 []
  .ok [.tp (a.ctx 1000) a.data, .tp (b.ctx 1000) b.data]

def apart (a b : Call) : Bool :=
  a.ctx.writables.all (fun k => b.ctx.accounts.all fun j => !Nat.beq k.toNat j.toNat) &&
    b.ctx.writables.all (fun k => a.ctx.accounts.all fun j => !Nat.beq k.toNat j.toNat)

theorem apart_ok (h : apart a b = true) : a.Apart b := by
  simp only [apart, Bool.and_eq_true, List.all_eq_true, Bool.not_eq_true'] at h
  have key : ∀ {c d : Call}, (∀ k ∈ c.ctx.writables, ∀ j ∈ d.ctx.accounts, Nat.beq k.toNat j.toNat = false) →
      ∀ k, c.ctx.isWritable k = true → k ∉ d.ctx.accounts := fun H k hk hm => by
    simp only [Ctx.isWritable, Bool.and_eq_true, List.contains_iff_mem] at hk
    have := H k hk.2 k hm
    rw [Nat.beq_refl] at this; cases this
  exact ⟨key h.1, key h.2⟩

example : ∃ a b w', twoCalls = .ok [a, b] ∧ [a, b].Pairwise Call.Apart ∧ Call.all Toy.env [a, b] (Toy.get Toy.tpReq) = .ok w' := by
  have key : (match twoCalls with
      | .ok [a, b] => apart a b && Toy.isOk (Call.all Toy.env [a, b] (Toy.get Toy.tpReq))
      | _ => false) = true := by decide +kernel
  split at key
  · rename_i a b h
    simp only [Bool.and_eq_true] at key
    exact ⟨a, b, _, h, List.pairwise_pair.2 (apart_ok key.1), Toy.get_ok key.2⟩
  · cases key

end Verif.Props
