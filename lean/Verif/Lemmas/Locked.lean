import Verif.Lemmas.RLFx
import Verif.Lemmas.TPOrigin
/-!
# Accounts at locked keys
-/
set_option linter.unusedSimpArgs false
namespace Verif.TP
open Codec Verif

variable {env : Env} {L : Pubkey → Prop} {ctx : Ctx} {w w' w0 : World} {k : Pubkey} {i : Instr}

/-- The account belongs to a bridge program, or to the token program with token data, or is an empty system account. -/
def Clean (env : Env) (a : Account) : Prop :=
  (a.owner = env.tpId ∨ a.owner = env.rlId) ∨ (a.owner = env.splId ∧ ∀ b, a.data = .raw b → ∃ n, b = zeros n) ∨
    (a.owner = env.systemId ∧ ∃ n, a.data = .raw (zeros n))

theorem Ops.clean {W : Op → Prop} (h : Ops env ctx W w w')
    (hp : ctx.program = env.tpId ∨ ctx.program = env.rlId)
    (hc : ∀ f s n sp o, W (.create f k s n sp o) → o = env.tpId ∨ o = env.rlId ∨ o = env.splId)
    (hf : ∀ p s f sp o, W (.createFunded p s f k sp o) → o = env.splId) (hr : Clean env (w.acc k)) : Clean env (w'.acc k) := by
  refine h.lift (R := fun x y => Clean env (x.acc k) → Clean env (y.acc k)) (fun _ h => h) (fun _ _ _ h1 h2 h => h2 (h1 h)) ?_ hr
  intro op x y hW he hr
  have keep : (y.acc k).owner = (x.acc k).owner → (y.acc k).data = (x.acc k).data → Clean env (y.acc k) := by
    intro h1 h2
    unfold Clean
    rw [h1, h2]; exact hr
  have tok : (x.acc k).owner = env.splId → (y.acc k).owner = (x.acc k).owner → (∀ b, (y.acc k).data ≠ .raw b) → Clean env (y.acc k) :=
    fun h1 h2 h3 => .inr (.inl ⟨h2.trans h1, fun b hb => (h3 b hb).elim⟩)
  cases exec_ch he k with
  | same h => exact keep (by rw [h]) (by rw [h])
  | gain _ _ hd' ho' => exact keep ho' hd'
  | pay _ _ h _ hd' ho' => exact keep ho' hd'
  | move _ _ _ _ how _ hd' ho' => exact keep ho' hd'
  | write b b' hop hw how hb hlen h => exact .inl (by rw [h, how]; exact hp)
  | close hop hw how h => exact .inr (.inr ⟨by rw [h], _, by rw [h]⟩)
  | create f s n sp o hop hw hsys hlen hl haddr h =>
    subst hop
    rcases hc _ _ _ _ _ hW with ho | ho | ho
    · exact .inl (.inl (by rw [h]; exact ho))
    · exact .inl (.inr (by rw [h]; exact ho))
    · refine .inr (.inl ⟨by rw [h]; exact ho, fun b hb => ?_⟩)
      rw [h] at hb; cases hb; exact ⟨_, rfl⟩
  | createFunded p s f sp o n hop hw hsys hlen haddr hl hn h =>
    subst hop
    refine .inr (.inl ⟨by rw [h]; exact hf _ _ _ _ _ hW, fun b hb => ?_⟩)
    rw [h] at hb; cases hb; exact ⟨_, rfl⟩
  | xferSrc sg dst auth n s s' hop hw how hb hn hsp hsg hd' ho' hl => exact tok how ho' (fun b hb => by rw [hd'] at hb; cases hb)
  | xferDst sg src auth n d hop hw how hb hn hd' ho' hl => exact tok how ho' (fun b hb => by rw [hd'] at hb; cases hb)
  | mintDst sg m au n d hop hw how hb hm hn h => exact tok how (by rw [h]) (fun b hb => by rw [h] at hb; cases hb)
  | mintMint sg d au n m hop hw how hb ha hsg hn h => exact tok how (by rw [h]) (fun b hb => by rw [h] at hb; cases hb)
  | burnSrc sg m au n s s' hop hw how hb hm hn hsp hsg h => exact tok how (by rw [h]) (fun b hb => by rw [h] at hb; cases hb)
  | burnMint sg m au n s hop hw how hb hn h => exact tok how (by rw [h]) (fun b hb => by rw [h] at hb; cases hb)
  | initAcc m o hop hw how hb h => exact tok how (by rw [h]) (fun b hb => by rw [h] at hb; cases hb)
  | initMint m o hop hw how hb h => exact tok how (by rw [h]) (fun b hb => by rw [h] at hb; cases hb)
  | sync t n hop hw how hb hn h => exact tok how (by rw [h]) (fun b hb => by rw [h] at hb; cases hb)

theorem clean_rl {j : RL.Instr} (hp : ctx.program = env.rlId)
    (h : RL.run env ctx j w = .ok w') (hc : Clean env (w.acc k)) : Clean env (w'.acc k) := by
  refine Ops.clean (RL.run_ops h) (.inr hp) ?_ ?_ hc
  · intro f s n sp o hW; cases hW <;> exact .inr (.inl hp)
  · intro p s f sp o hW; cases hW

theorem clean_tp (hp : ctx.program = env.tpId)
    (h : run env ctx noCpi i w = .ok w') (hc : Clean env (w.acc k)) : Clean env (w'.acc k) := by
  refine Ops.clean (run_ops h) (.inl hp) ?_ ?_ hc
  · intro f s n sp o hW
    cases hW with
    | create _ _ _ _ _ _ hs ha => cases hs <;> first | exact .inl hp | exact .inr (.inr rfl)
  · intro p s f sp o hW; cases hW <;> rfl

theorem clean_ext (hL : L k) (h : ExtStep env L w w') (hc : Clean env (w.acc k)) : Clean env (w'.acc k) := by
  rcases hc with ho | ⟨ho, hz⟩ | ⟨ho, n, hz⟩
  · exact .inl (by rw [(h.bridge k ho.symm).1]; exact ho)
  · obtain ⟨h1, h2, h3⟩ := h.settled k hL ho hz
    rcases h1 with h1 | h1
    · exact .inr (.inl ⟨h1, h3⟩)
    · exact .inr (.inr ⟨h1, h2 h1⟩)
  · obtain ⟨h1, h2, -⟩ := h.locked k hL ho
    exact .inr (.inr ⟨h1.trans ho, n, h2.trans hz⟩)

theorem clean_stale {p : Pubkey} {w1 c w2 : World} (hp : ctx.program = env.tpId) (h : Stale env ctx p w1 c w2 i)
    (hc : Clean env (c.acc k)) : Clean env (w2.acc k) := by
  rcases h.write with rfl | ⟨x, b, b', hb, hl, ho, hw, rfl⟩
  · exact hc
  · by_cases e : k = x
    · subst e
      exact .inl (.inl (by simp [ho, hp]))
    · simpa only [setDataRaw_acc, e, if_false] using hc

theorem clean_purge (h : Purge env w w') (hc : Clean env (w.acc k)) : Clean env (w'.acc k) := by
  rw [h.2 k]
  split
  · exact .inr (.inr ⟨rfl, 0, rfl⟩)
  · exact hc

theorem clean_genesis (hL : L k) (h : Genesis env L w) : Clean env (w.acc k) :=
  .inr (.inr ⟨(h.locked k hL).1, 0, (h.locked k hL).2⟩)

theorem _root_.Verif.Run.clean {top : Bool} {tr : List Ev} (hL : L k) (h : Run env L top w tr w') (hc : Clean env (w.acc k)) :
    Clean env (w'.acc k) := by
  induction h with
  | nil => exact hc
  | rl ctx i h hp hs hrun ih => exact clean_rl hp hrun (ih hc)
  | tp ctx i h hp hs hrun ih => exact clean_tp hp hrun (ih hc)
  | payload ctx i p h hin hp hs hpl hno hrun ih ih' => exact clean_stale hp (payload_ok hno hrun) (ih' (ih hc))
  | ext h he ih => exact clean_ext hL he (ih hc)
  | purge h hp ih => exact clean_purge hp (ih hc)

theorem _root_.Verif.Reach.clean (hL : L k) (h : Reach env L w) : Clean env (w.acc k) := by
  obtain ⟨w0, tr, hg, hr⟩ := h
  exact hr.clean hL (clean_genesis hL hg)

/-- A record at a locked key belongs to a bridge program. -/
theorem Clean.owner {a : Account} {kd : AccountKind} (h : Clean env a) (hh : Head a true kd) : a.owner = env.tpId ∨ a.owner = env.rlId := by
  obtain ⟨b, s, hb, hdec⟩ := hh
  rcases h with ho | ⟨-, hz⟩ | ⟨-, n, hz⟩
  · exact ho
  · obtain ⟨n, rfl⟩ := hz b hb
    exact absurd (zeros_any hdec) (by simp)
  · rw [hz] at hb
    cases hb
    exact absurd (zeros_any hdec) (by simp)

theorem Clean.marked {a : Account} {kd : AccountKind} (h : Clean env a) (hr : a.owner ≠ env.rlId) (hh : Head a true kd) :
    Marked env a kd := ⟨(h.owner hh).resolve_right hr, hh⟩

theorem round_zeros {n : Nat} {rr : RL.RelayRound} {r : Bytes} (h : RL.relayRoundC.dec (zeros n) = some (rr, r)) : rr.isInitialized = false := by
  have h1 := ((RL.relayRoundC.law _ _ _).1 h).2
  cases hb : rr.isInitialized with
  | false => rfl
  | true =>
    simp only [RL.relayRoundC, enc_iso, enc_pair, hb] at h1
    cases n with
    | zero => cases h1
    | succ n => exact absurd (congrArg (fun l => l.head?) h1) (by simp [zeros, List.replicate_succ, Codec.bool, Codec.prism])

/-- A relay round at a locked key belongs to a bridge program. -/
theorem _root_.Verif.Reach.clean_round {len : Nat} {rr : RL.RelayRound} (hL : L k) (h : Reach env L w)
    (hr : Holds RL.relayRoundC len (w.acc k) rr) (hi : rr.isInitialized = true) :
    (w.acc k).owner = env.tpId ∨ (w.acc k).owner = env.rlId := by
  obtain ⟨b, r, hb, -, hdec⟩ := hr
  rcases h.clean hL with ho | ⟨-, hz⟩ | ⟨-, n, hz⟩
  · exact ho
  · obtain ⟨n, rfl⟩ := hz b hb
    rw [round_zeros hdec] at hi; cases hi
  · rw [hz] at hb
    cases hb
    rw [round_zeros hdec] at hi; cases hi

theorem rl_stays {j : RL.Instr} (hd : env.Distinct) (h : RL.run env ctx j w = .ok w')
    (ho : (w.acc k).owner = env.rlId) : (w'.acc k).owner = env.rlId := by
  refine (RL.run_ops h).lift (R := fun x y => (x.acc k).owner = env.rlId → (y.acc k).owner = env.rlId) (fun _ h => h)
    (fun _ _ _ h1 h2 h => h2 (h1 h)) ?_ ho
  intro op x y hW he ho
  have nspl : (x.acc k).owner ≠ env.splId := by rw [ho]; exact hd.rlSpl
  have nsys : (x.acc k).owner ≠ env.systemId := by rw [ho]; exact hd.rlSys
  cases exec_ch he k with
  | same h => rw [h]; exact ho
  | gain _ _ hd' ho' => exact ho'.trans ho
  | pay _ _ h _ hd' ho' => exact ho'.trans ho
  | move _ _ _ _ how _ hd' ho' => exact ho'.trans ho
  | write b b' hop hw how hb hlen h => rw [h]; exact ho
  | close hop hw how h => subst hop; cases hW
  | create f s n sp o hop hw hsys hlen hl haddr h => exact (nsys hsys).elim
  | createFunded p s f sp o n hop hw hsys hlen haddr hl hn h => exact (nsys hsys).elim
  | xferSrc _ _ _ _ _ _ _ _ how => exact (nspl how).elim
  | xferDst _ _ _ _ _ _ _ how => exact (nspl how).elim
  | mintDst _ _ _ _ _ _ _ how => exact (nspl how).elim
  | mintMint _ _ _ _ _ _ _ how => exact (nspl how).elim
  | burnSrc _ _ _ _ _ _ _ _ how => exact (nspl how).elim
  | burnMint _ _ _ _ _ _ _ how => exact (nspl how).elim
  | initAcc _ _ _ _ how => exact (nspl how).elim
  | initMint _ _ _ _ how => exact (nspl how).elim
  | sync _ _ _ _ how => exact (nspl how).elim

/-- An account of the round loader stays one while no transaction ends. -/
theorem _root_.Verif.Run.stays_rl {top : Bool} {tr : List Ev} (hd : env.Distinct) (h : Run env L top w tr w') (ht : top = false)
    (ho : (w.acc k).owner = env.rlId) : (w'.acc k).owner = env.rlId := by
  induction h with
  | nil => exact ho
  | rl ctx i h hp hs hrun ih => exact rl_stays hd hrun (ih ht ho)
  | tp ctx i h hp hs hrun ih => exact ((quiet_rl (L := L) hd hp (run_ops hrun) k).1 (ih ht ho)).1
  | payload ctx i p h hin hp hs hpl hno hrun ih ih' =>
    exact (((payload_ok hno hrun).quiet_rl (L := L) hd hp k).1 (ih' rfl (ih ht ho))).1
  | ext h he ih => exact ((he.quiet_rl k).1 (ih ht ho)).1
  | purge h hp ih => cases ht

end Verif.TP
