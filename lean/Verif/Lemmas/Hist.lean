import Verif.Lemmas.RLWhy
import Verif.Lemmas.TPOps
import Verif.Spec.Trace
/-!
# Histories seen from the round loader

Whatever the token proxy and other programs do leaves accounts of the round loader alone (`Quiet`), so a history is a
sequence of round-loader instructions, quiet steps and transaction ends.
-/
namespace Verif
open Verif

/-- Accounts of program `id` keep owner and data and lose no lamports; new ones hold zeros and are not locked. -/
def QuietFor (id : Pubkey) (L : Pubkey → Prop) (w w' : World) : Prop :=
  ∀ k, ((w.acc k).owner = id → (w'.acc k).owner = id ∧ (w'.acc k).data = (w.acc k).data ∧
      (w.acc k).lamports ≤ (w'.acc k).lamports) ∧
    ((w'.acc k).owner = id → (w.acc k).owner ≠ id → ¬ L k ∧ ∃ n, (w'.acc k).data = .raw (zeros n))

theorem QuietFor.refl {id : Pubkey} {L : Pubkey → Prop} (w : World) : QuietFor id L w w :=
  fun _ => ⟨fun h => ⟨h, rfl, Nat.le_refl _⟩, fun h h' => (h' h).elim⟩

theorem QuietFor.trans {id : Pubkey} {L : Pubkey → Prop} {w w1 w2 : World} (h : QuietFor id L w w1) (h' : QuietFor id L w1 w2) :
    QuietFor id L w w2 := by
  intro k
  constructor
  · intro ho
    obtain ⟨o1, d1, l1⟩ := (h k).1 ho
    obtain ⟨o2, d2, l2⟩ := (h' k).1 o1
    exact ⟨o2, d2.trans d1, Nat.le_trans l1 l2⟩
  · intro ho hn
    by_cases hm : (w1.acc k).owner = id
    · obtain ⟨hl, n, hz⟩ := (h k).2 hm hn
      exact ⟨hl, n, by rw [((h' k).1 hm).2.1, hz]⟩
    · exact (h' k).2 ho hm

/-- Another program's instruction is quiet, as long as it creates no accounts for `id`. -/
theorem Ops.quiet {env : Env} {id : Pubkey} {L : Pubkey → Prop} {ctx : Ctx} {W : Op → Prop} {w w' : World}
    (h : Ops env ctx W w w') (hp : ctx.program ≠ id) (hsys : env.systemId ≠ id) (hspl : env.splId ≠ id)
    (hc : ∀ f k s n sp o, W (.create f k s n sp o) → o ≠ id)
    (hf : ∀ p s f k sp o, W (.createFunded p s f k sp o) → o ≠ id) : QuietFor id L w w' := by
  refine h.lift (R := QuietFor id L) QuietFor.refl (fun _ _ _ => QuietFor.trans) ?_
  intro op x y hW he k
  have keep : (x.acc k).owner ≠ id → (y.acc k).owner ≠ id →
      ((x.acc k).owner = id → (y.acc k).owner = id ∧ (y.acc k).data = (x.acc k).data ∧
      (x.acc k).lamports ≤ (y.acc k).lamports) ∧
    ((y.acc k).owner = id → (x.acc k).owner ≠ id → ¬ L k ∧ ∃ n, (y.acc k).data = .raw (zeros n)) :=
    fun h1 h2 => ⟨fun h => (h1 h).elim, fun h => (h2 h).elim⟩
  have spl : (x.acc k).owner = env.splId → (y.acc k).owner = env.splId →
      ((x.acc k).owner = id → (y.acc k).owner = id ∧ (y.acc k).data = (x.acc k).data ∧
      (x.acc k).lamports ≤ (y.acc k).lamports) ∧
    ((y.acc k).owner = id → (x.acc k).owner ≠ id → ¬ L k ∧ ∃ n, (y.acc k).data = .raw (zeros n)) :=
    fun h1 h2 => keep (by rw [h1]; exact hspl) (by rw [h2]; exact hspl)
  cases exec_ch he k with
  | same h => rw [h]; exact QuietFor.refl (L := L) x k
  | gain hw hl hd ho =>
    rw [ho]; exact ⟨fun h => ⟨h, hd, hl⟩, fun h h' => (h' h).elim⟩
  | pay hw hs hsy hlen hd ho => exact keep (by rw [hsy]; exact hsys) (by rw [ho, hsy]; exact hsys)
  | move b n hop hw how hl hd ho => exact keep (by rw [how]; exact hp) (by rw [ho, how]; exact hp)
  | write b b' hop hw how hb hlen h => exact keep (by rw [how]; exact hp) (by rw [h]; simp only; rw [how]; exact hp)
  | close hop hw how h => exact keep (by rw [how]; exact hp) (by rw [h]; exact hsys)
  | create f s n sp o hop hw hsy hlen hl ha h =>
    subst hop
    exact keep (by rw [hsy]; exact hsys) (by rw [h]; exact hc _ _ _ _ _ _ hW)
  | createFunded p s f sp o n hop hw hsy hlen ha hl hn h =>
    subst hop
    exact keep (by rw [hsy]; exact hsys) (by rw [h]; exact hf _ _ _ _ _ _ hW)
  | xferSrc sg dst auth n s s' hop hw how hb hn hsp hsg hd ho hl => exact spl how (by rw [ho, how])
  | xferDst sg src auth n d hop hw how hb hn hd ho hl => exact spl how (by rw [ho, how])
  | mintDst sg m au n d hop hw how hb hm hn h => exact spl how (by rw [h]; exact how)
  | mintMint sg d au n m hop hw how hb ha hsg hn h => exact spl how (by rw [h]; exact how)
  | burnSrc sg m au n s s' hop hw how hb hm hn hsp hsg h => exact spl how (by rw [h]; exact how)
  | burnMint sg m au n s hop hw how hb hn h => exact spl how (by rw [h]; exact how)
  | initAcc m o hop hw how hb h => exact spl how (by rw [h]; exact how)
  | initMint m o hop hw how hb h => exact spl how (by rw [h]; exact how)
  | sync t n hop hw how hb hn h => exact spl how (by rw [h]; exact how)

theorem TP.quiet_rl {env : Env} {L : Pubkey → Prop} {ctx : Ctx} {i : TP.Instr} {w0 w w' : World} (hd : env.Distinct)
    (hp : ctx.program = env.tpId) (h : Ops env ctx (TP.Why env ctx w0 i) w w') : QuietFor env.rlId L w w' := by
  refine h.quiet (by rw [hp]; exact hd.rlTp.symm) hd.rlSys.symm hd.rlSpl.symm ?_ ?_
  · intro f k s n sp o hW
    cases hW with
    | create _ _ _ _ _ _ hs ha => cases hs <;> first | (rw [hp]; exact hd.rlTp.symm) | exact hd.rlSpl.symm
  · intro p s f k sp o hW
    cases hW <;> exact hd.rlSpl.symm

theorem RL.quiet_tp {env : Env} {L : Pubkey → Prop} {ctx : Ctx} {i : RL.Instr} {w0 w w' : World} (hd : env.Distinct)
    (hp : ctx.program = env.rlId) (h : Ops env ctx (RL.Why env ctx w0 i) w w') : QuietFor env.tpId L w w' := by
  refine h.quiet (by rw [hp]; exact hd.rlTp) hd.tpSys.symm hd.tpSpl.symm ?_ ?_
  · intro f k s n sp o hW
    cases hW <;> (rw [hp]; exact hd.rlTp)
  · intro p s f k sp o hW
    cases hW

theorem ExtStep.quiet_rl {env : Env} {L : Pubkey → Prop} {w w' : World} (h : ExtStep env L w w') :
    QuietFor env.rlId L w w' := by
  intro k
  refine ⟨fun ho => ?_, fun ho hn => h.fresh k (.inl ho) (by rw [ho]; exact hn)⟩
  obtain ⟨h1, h2, h3⟩ := h.bridge k (.inl ho)
  exact ⟨h1.trans ho, h2, h3⟩

theorem ExtStep.quiet_tp {env : Env} {L : Pubkey → Prop} {w w' : World} (h : ExtStep env L w w') :
    QuietFor env.tpId L w w' := by
  intro k
  refine ⟨fun ho => ?_, fun ho hn => h.fresh k (.inr ho) (by rw [ho]; exact hn)⟩
  obtain ⟨h1, h2, h3⟩ := h.bridge k (.inr ho)
  exact ⟨h1.trans ho, h2, h3⟩

/-- Writing back after a payload touches one account of the token proxy. -/
theorem TP.Stale.write {env : Env} {ctx : Ctx} {p : Pubkey} {w1 c w2 : World} {i : TP.Instr}
    (h : TP.Stale env ctx p w1 c w2 i) :
    w2 = c ∨ ∃ k b b', (c.acc k).data = .raw b ∧ b'.length = b.length ∧ (c.acc k).owner = ctx.program ∧
      ctx.isWritable k = true ∧ w2 = c.setDataRaw k (.raw b') := by
  have key : ∀ {E : Type} {ec : Codec E} {r : TP.Withdrawal E} {k : Pubkey},
      TP.putWithdrawal ctx ec r k c = .ok w2 → w2 = c ∨ ∃ k b b', (c.acc k).data = .raw b ∧ b'.length = b.length ∧
      (c.acc k).owner = ctx.program ∧ ctx.isWritable k = true ∧ w2 = c.setDataRaw k (.raw b') := by
    intro E ec r k h
    obtain ⟨b, b', hb, hl, hst, hor, rfl⟩ := pack_ok.1 h
    rcases hor with rfl | ⟨hw, ho⟩
    · left; rw [setDataRaw_self hb]
    · right; exact ⟨k, b, b', hb, hst.length, ho, hw, rfl⟩
  cases h with
  | ever _ _ _ _ _ _ _ _ _ _ _ _ _ _ h => exact key h
  | sol _ _ _ _ _ _ _ _ _ _ _ _ h => exact key h

theorem TP.Stale.quiet_rl {env : Env} {L : Pubkey → Prop} {ctx : Ctx} {p : Pubkey} {w1 c w2 : World} {i : TP.Instr}
    (hd : env.Distinct) (hp : ctx.program = env.tpId) (h : TP.Stale env ctx p w1 c w2 i) : QuietFor env.rlId L c w2 := by
  rcases h.write with rfl | ⟨k, b, b', hb, hl, ho, hw, rfl⟩
  · exact .refl _
  · intro x
    by_cases hx : x = k
    · subst hx
      simp only [setDataRaw_acc, if_true]
      rw [ho, hp]
      exact ⟨fun h => (hd.rlTp h.symm).elim, fun h => (hd.rlTp h.symm).elim⟩
    · have e : (c.setDataRaw k (.raw b')).acc x = c.acc x := by simp only [setDataRaw_acc, hx, if_false]
      rw [e]
      exact QuietFor.refl (L := L) c x

/-- One step of a history as the round loader sees it. -/
def RlEv (env : Env) (L : Pubkey → Prop) (e : Ev) : Prop :=
  match e.act with
  | .rl ctx i => ctx.program = env.rlId ∧ (∀ k ∈ ctx.signers, ¬ L k) ∧ RL.run env ctx i e.pre = .ok e.post
  | .purge => Purge env e.pre e.post
  | _ => QuietFor env.rlId L e.pre e.post

/-- A sequence of steps, each starting where the one before ended. -/
inductive Steps (E : Ev → Prop) : World → List Ev → World → Prop
  | nil (w : World) : Steps E w [] w
  | snoc {w w1 : World} {tr : List Ev} (e : Ev) (h : Steps E w tr w1) (hpre : e.pre = w1) (he : E e) :
      Steps E w (tr ++ [e]) e.post

theorem Steps.trans {E : Ev → Prop} {w w1 w2 : World} {tr tr' : List Ev} (h : Steps E w tr w1) (h' : Steps E w1 tr' w2) :
    Steps E w (tr ++ tr') w2 := by
  induction h' with
  | nil => simpa using h
  | snoc e h1 hpre he ih => rw [← List.append_assoc]; exact .snoc e ih hpre he

/-- Induction over steps for a relation between states. -/
theorem Steps.lift {E : Ev → Prop} {I : World → Prop} {R : World → World → Prop} (hr : ∀ w, R w w)
    (ht : ∀ x y z, R x y → R y z → R x z) (hs : ∀ e, E e → I e.pre → I e.post ∧ R e.pre e.post)
    {w w' : World} {tr : List Ev} (h : Steps E w tr w') (hi : I w) : I w' ∧ R w w' := by
  induction h with
  | nil => exact ⟨hi, hr _⟩
  | snoc e h1 hpre he ih =>
    obtain ⟨i1, r1⟩ := ih
    subst hpre
    obtain ⟨i2, r2⟩ := hs e he i1
    exact ⟨i2, ht _ _ _ r1 r2⟩

theorem Steps.mem {E : Ev → Prop} {I : World → Prop} (hs : ∀ e, E e → I e.pre → I e.post) {w w' : World} {tr : List Ev}
    (h : Steps E w tr w') (hi : I w) : ∀ e ∈ tr, I e.pre ∧ E e := by
  induction h with
  | nil => intro e he; cases he
  | snoc e h1 hpre he ih =>
    intro e' he'
    rcases List.mem_append.1 he' with h | h
    · exact ih e' h
    · have := List.mem_singleton.1 h
      subst this
      refine ⟨?_, he⟩
      rw [hpre]
      exact (Steps.lift (R := fun _ _ => True) (fun _ => trivial) (fun _ _ _ _ _ => trivial)
        (fun e he hp => ⟨hs e he hp, trivial⟩) h1 hi).1

/-- The part of a history before and after one of its steps. -/
theorem Steps.split {E : Ev → Prop} {w w' : World} {tr : List Ev} (h : Steps E w tr w') :
    ∀ e ∈ tr, ∃ t1 t2, tr = t1 ++ [e] ++ t2 ∧ Steps E w t1 e.pre ∧ E e ∧ Steps E e.post t2 w' := by
  induction h with
  | nil => intro e he; cases he
  | snoc e h1 hpre he ih =>
    intro e' he'
    rcases List.mem_append.1 he' with h | h
    · obtain ⟨t1, t2, rfl, a, b, c⟩ := ih e' h
      exact ⟨t1, t2 ++ [e], by simp, a, b, .snoc e c hpre he⟩
    · have := List.mem_singleton.1 h
      subst this
      exact ⟨_, [], (List.append_nil _).symm, by rw [hpre]; exact h1, he, .nil _⟩

theorem Run.rlSteps {env : Env} {L : Pubkey → Prop} {top : Bool} {w w' : World} {tr : List Ev} (hd : env.Distinct)
    (h : Run env L top w tr w') : Steps (RlEv env L) w tr w' := by
  induction h with
  | nil => exact .nil _
  | rl ctx i h hp hs hr ih => exact .snoc ⟨.rl ctx i, _, _⟩ ih rfl ⟨hp, hs, hr⟩
  | tp ctx i h hp hs hr ih => exact .snoc ⟨.tp ctx i, _, _⟩ ih rfl (TP.quiet_rl (L := L) hd hp (TP.run_ops hr))
  | payload ctx i p h hin hp hs hpl hno hr ih ih' =>
    exact .snoc ⟨.tp ctx i, _, _⟩ (ih.trans ih') rfl ((TP.payload_ok hno hr).quiet_rl (L := L) hd hp)
  | ext h he ih => exact .snoc ⟨.ext, _, _⟩ ih rfl (ExtStep.quiet_rl he)
  | purge h hp ih => exact .snoc ⟨.purge, _, _⟩ ih rfl hp

end Verif
