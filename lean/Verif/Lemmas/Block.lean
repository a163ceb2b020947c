import Verif.Spec.Block
import Verif.Lemmas.Locked
/-!
# Addresses that hold lamports before their account exists
-/
set_option linter.unusedSimpArgs false
namespace Verif.TP
open Codec Verif

variable {env : Env} {L : Pubkey → Prop} {ctx : Ctx} {w w' w0 : World} {k : Pubkey} {i : Instr} {tr : List Ev}

/-- Blocked, or turned into a token account. -/
def Barred (env : Env) (a : Account) : Prop := (a.owner = env.systemId ∧ 0 < a.lamports ∧ a.data.len = 0) ∨ TokenSized env a

theorem _root_.Verif.Blocked.barred (h : Blocked env w k) : Barred env (w.acc k) := .inl ⟨h.owner, h.lamports, h.empty⟩

theorem Barred.blocked (h : Barred env (w.acc k)) (ht : ¬ TokenSized env (w.acc k)) : Blocked env w k := by
  obtain ⟨h1, h2, h3⟩ := h.resolve_right ht
  exact ⟨h1, h2, h3⟩

theorem Ops.barred {W : Op → Prop} (hd : env.Distinct) (h : Ops env ctx W w w') (hp : ctx.program = env.tpId ∨ ctx.program = env.rlId)
    (hk : ctx.isSigner k = false) (hf : ∀ p s f sp o, W (.createFunded p s f k sp o) → sp = 165 ∧ o = env.splId) (hr : Barred env (w.acc k)) :
    Barred env (w'.acc k) := by
  refine h.lift (R := fun x y => Barred env (x.acc k) → Barred env (y.acc k)) (fun _ h => h) (fun _ _ _ h1 h2 h => h2 (h1 h)) ?_ hr
  intro op x y hW he hr
  have keep : (y.acc k).owner = (x.acc k).owner → (y.acc k).data = (x.acc k).data → (x.acc k).lamports ≤ (y.acc k).lamports →
      Barred env (y.acc k) := by
    intro h1 h2 h3
    rcases hr with ⟨h4, h5, h6⟩ | ⟨h4, h5⟩
    · exact .inl ⟨h1.trans h4, by omega, by rw [h2]; exact h6⟩
    · exact .inr ⟨h1.trans h4, by rw [h2]; exact h5⟩
  have own : (x.acc k).owner ≠ ctx.program := by
    intro e
    rcases hr with ⟨h4, -⟩ | ⟨h4, -⟩ <;> rcases hp with h5 | h5 <;> rw [h4, h5] at e
    · exact hd.tpSys e.symm
    · exact hd.rlSys e.symm
    · exact hd.tpSpl e.symm
    · exact hd.rlSpl e.symm
  have tok : (x.acc k).owner = env.splId → (y.acc k).owner = (x.acc k).owner → (∃ t, (y.acc k).data = .token t) → Barred env (y.acc k) :=
    fun h1 h2 ⟨t, h3⟩ => .inr ⟨h2.trans h1, by rw [h3]; rfl⟩
  have min : (x.acc k).owner = env.splId → (x.acc k).data.len = 82 → Barred env (y.acc k) := by
    intro h1 h2
    rcases hr with ⟨h4, -⟩ | ⟨-, h4⟩
    · exact absurd (h4.symm.trans h1) hd.sysSpl
    · omega
  cases exec_ch he k with
  | same h => exact keep (by rw [h]) (by rw [h]) (by rw [h]; exact Nat.le_refl _)
  | gain _ hl hd' ho' => exact keep ho' hd' hl
  | pay _ hs _ _ _ _ => rw [hk] at hs; cases hs
  | move _ _ _ _ how _ _ _ => exact absurd how own
  | write b b' hop hw how hb hlen h => exact absurd how own
  | close hop hw how h => exact absurd how own
  | create f s n sp o hop hw hsys hlen hl haddr h =>
    rcases hr with ⟨-, h4, -⟩ | ⟨h4, -⟩
    · omega
    · exact absurd (hsys.symm.trans h4) hd.sysSpl
  | createFunded p s f sp o n hop hw hsys hlen haddr hl hn h =>
    subst hop
    obtain ⟨rfl, rfl⟩ := hf _ _ _ _ _ hW
    exact .inr ⟨by rw [h], by rw [h]; rfl⟩
  | xferSrc sg dst auth n s s' hop hw how hb hn hsp hsg hd' ho' hl => exact tok how ho' ⟨_, hd'⟩
  | xferDst sg src auth n d hop hw how hb hn hd' ho' hl => exact tok how ho' ⟨_, hd'⟩
  | mintDst sg m au n d hop hw how hb hm hn h => exact tok how (by rw [h]) ⟨_, by rw [h]⟩
  | mintMint sg d au n m hop hw how hb ha hsg hn h => exact min how (by rw [hb]; rfl)
  | burnSrc sg m au n s s' hop hw how hb hm hn hsp hsg h => exact tok how (by rw [h]) ⟨_, by rw [h]⟩
  | burnMint sg m au n s hop hw how hb hn h => exact min how (by rw [hb]; rfl)
  | initAcc m o hop hw how hb h => exact tok how (by rw [h]) ⟨_, by rw [h]⟩
  | initMint m o hop hw how hb h => exact min how (by rw [hb]; rfl)
  | sync t n hop hw how hb hn h => exact tok how (by rw [h]) ⟨_, by rw [h]⟩

theorem unsigned (hL : L k) (hs : ∀ k ∈ ctx.signers, ¬ L k) : ctx.isSigner k = false := by
  cases h : ctx.isSigner k with
  | false => rfl
  | true => exact absurd hL (hs k (by simp [Ctx.isSigner] at h; exact h.2))

theorem barred_stale {p : Pubkey} {w1 c w2 : World} (hd : env.Distinct) (hp : ctx.program = env.tpId) (h : Stale env ctx p w1 c w2 i)
    (hc : Barred env (c.acc k)) : Barred env (w2.acc k) := by
  rcases h.write with rfl | ⟨x, b, b', hb, hl, ho, hw, rfl⟩
  · exact hc
  · by_cases e : k = x
    · subst e
      rcases hc with ⟨h1, -⟩ | ⟨h1, -⟩ <;> rw [ho, hp] at h1
      · exact absurd h1 hd.tpSys
      · exact absurd h1 hd.tpSpl
    · simpa only [setDataRaw_acc, e, if_false] using hc

/-- A locked address that holds lamports never becomes an account of the bridge. -/
theorem _root_.Verif.Run.blocked {top : Bool} (hd : env.Distinct) (hL : L k) (h : Run env L top w tr w') (hb : Blocked env w k)
    (ht : ∀ e ∈ tr, ¬ TokenSized env (e.post.acc k)) : Blocked env w' k := by
  induction h with
  | nil => exact hb
  | rl ctx i h hp hs hrun ih =>
    have h1 := ih hb (fun e he => ht e (by simp [he]))
    have h2 : Barred env _ := Ops.barred hd (RL.run_ops hrun) (.inr hp) (unsigned hL hs) (by intro p s f sp o hW; cases hW) h1.barred
    exact h2.blocked (ht _ (List.mem_append_right _ (List.mem_singleton.2 rfl)))
  | tp ctx i h hp hs hrun ih =>
    have h1 := ih hb (fun e he => ht e (by simp [he]))
    have h2 : Barred env _ := Ops.barred hd (run_ops hrun) (.inl hp) (unsigned hL hs) (by intro p s f sp o hW; cases hW <;> exact ⟨rfl, rfl⟩) h1.barred
    exact h2.blocked (ht _ (List.mem_append_right _ (List.mem_singleton.2 rfl)))
  | payload ctx i p h hin hp hs hpl hno hrun ih ih' =>
    have h1 := ih' (ih hb (fun e he => ht e (by simp [he]))) (fun e he => ht e (by simp [he]))
    exact (barred_stale hd hp (payload_ok hno hrun) h1.barred).blocked (ht _ (List.mem_append_right _ (List.mem_singleton.2 rfl)))
  | ext h he ih =>
    have h1 := ih hb (fun e he => ht e (by simp [he]))
    obtain ⟨h2, h4, h3⟩ := he.locked k hL h1.owner
    exact ⟨h2.trans h1.owner, Nat.lt_of_lt_of_le h1.lamports h3, by rw [h4]; exact h1.empty⟩
  | purge h hp ih =>
    have h1 := ih hb (fun e he => ht e (by simp [he]))
    have e : _ = _ := (hp.2 k).trans (if_neg (by have := h1.lamports; omega))
    exact ⟨by rw [e]; exact h1.owner, by rw [e]; exact h1.lamports, by rw [e]; exact h1.empty⟩

end Verif.TP
