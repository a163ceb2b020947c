import Verif.Lemmas.TPInv
import Verif.Spec.Places
/-!
# The record of a token that the instruction does not name
-/
set_option linter.unusedSimpArgs false
namespace Verif.TP
open Codec Verif

variable {env : Env} {ctx : Ctx} {w w' : World} {i : Instr} {k : Pubkey}

/-- The settings of a token not named by the instruction keep every byte. -/
theorem token_unnamed {s : TokenSettings} (hd : env.Distinct) (hp : ctx.program = env.tpId) (h : run env ctx noCpi i w = .ok w')
    (hs : TokenAt env w k s) (hn : namedToken ctx i ≠ some k) : (w'.acc k).data = (w.acc k).data := by
  obtain ⟨ho, hh, hi, n, pn, hk⟩ := hs
  have hhead := head_token hh
  rw [hi, hk] at hhead
  obtain ⟨b, r, hb, hlen, hdec⟩ := hh
  obtain ⟨q1, hq1⟩ := header_token hdec
  obtain ⟨-, b', hb', rfl⟩ := (run_ops h).track (k := k) (P := fun b' _ => b' = b)
    (by rw [hp]; exact hd.tpSys) (by rw [hp]; exact hd.tpSpl) (fun b l l' h1 hle => h1)
    (fun x n b l l' hW _ _ => by
      obtain ⟨j, kd, hh', hkd⟩ := move_head hW
      obtain ⟨-, e⟩ := hhead.unique hh'
      subst e
      rcases hkd with ⟨_, _, h⟩ | ⟨_, h⟩ | ⟨_, h⟩ <;> cases h)
    (fun hW => by
      obtain ⟨j, kd, hh', hkd⟩ := close_head hW
      obtain ⟨-, e⟩ := hhead.unique hh'
      subst e
      rcases hkd with ⟨_, _, h⟩ | ⟨_, h⟩ <;> cases h)
    (fun b1 b2 l hW hlen' e => by
      subst e
      cases hW with
      | new k b' hn =>
        have := zeros_head hq1
        rw [hi] at this
        cases this
      | token k b b' r n' pn' s2 s3 hl2 hd2 hini hk2 ha hc h0 hs hpl => exact absurd hpl hn
      | settings k b b' r n' pn' s2 s3 hl2 hd2 hini hk2 ha hc h0 hs =>
        obtain ⟨q2, hq2⟩ := header_settings hd2
        rw [hq1, hk, hk2] at hq2
        simp only [Option.some.injEq, Prod.mk.injEq, reduceCtorEq, and_false, false_and] at hq2
      | ever k b b' r x x' hl hd2 hini ha hk2 h0 hc hs =>
        obtain ⟨q2, hq2⟩ := header_withdrawal hd2
        obtain ⟨n', pn', hk2⟩ := hk2
        rw [hq1, hk, hk2] at hq2
        simp only [Option.some.injEq, Prod.mk.injEq, reduceCtorEq, and_false, false_and] at hq2
      | sol k b b' r x x' hl hd2 hini ha hk2 h0 hc hs =>
        obtain ⟨q2, hq2⟩ := header_withdrawal hd2
        obtain ⟨n', pn', hk2⟩ := hk2
        rw [hq1, hk, hk2] at hq2
        simp only [Option.some.injEq, Prod.mk.injEq, reduceCtorEq, and_false, false_and] at hq2
      | vote k kr v b b' r p j x rr n' pn' hi h0 hx hd2 hk2 =>
        obtain ⟨q2, hq2⟩ := header_genericProposal hd2
        rw [hq1, hk, hk2] at hq2
        simp only [Option.some.injEq, Prod.mk.injEq, reduceCtorEq, and_false, false_and] at hq2)
    (by rw [hp]; exact ho) ⟨b, hb, rfl⟩
  rw [hb', hb]

end Verif.TP
