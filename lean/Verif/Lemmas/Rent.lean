import Verif.Lemmas.TPFill
import Verif.Lemmas.TPMisc
import Verif.Lemmas.WHist
/-!
# What the records of the token proxy keep of their lamports
-/
namespace Verif.TP
open Codec Verif

variable {env : Env} {ctx : Ctx} {L : Pubkey → Prop} {i : Instr} {w w' : World} {k : Pubkey}

/-- An empty account, or one with its rent. -/
def Paid (env : Env) (a : Account) : Prop := a.data.len = 0 ∨ max 1 (env.rent a.data.len) ≤ a.lamports

theorem head_len {a : Account} {j : Bool} {kd : AccountKind} (h : Head a j kd) : a.data.len ≠ 0 := by
  obtain ⟨b, s, hb, hd⟩ := h
  rw [hb]
  intro h0
  have : b = [] := List.length_eq_zero_iff.1 h0
  subst this
  cases hd

/-- An account that an instruction of the token proxy opens for itself has its rent. -/
theorem opened_paid (hd : env.Distinct) (h : run env ctx noCpi i w = .ok w')
    (h0 : (w.acc k).data.len = 0) (ho : (w'.acc k).owner = env.tpId) : Paid env (w'.acc k) := by
  have no : ∀ {j kd}, ¬ Head (w.acc k) j kd := fun h => head_len h h0
  refine (run_ops h).lift (R := fun x y => ((x.acc k).owner = env.tpId → Paid env (x.acc k)) → (y.acc k).owner = env.tpId → Paid env (y.acc k))
    (fun _ h => h) (fun _ _ _ f g h => g (f h)) ?_ (fun _ => .inl h0) ho
  intro op x y hW he hx ho
  have keep : (y.acc k).owner = (x.acc k).owner → (y.acc k).data.len = (x.acc k).data.len → (x.acc k).lamports ≤ (y.acc k).lamports →
      Paid env (y.acc k) := by
    intro h1 h2 h3
    rcases hx (h1.symm.trans ho) with h | h
    · exact .inl (h2.trans h)
    · exact .inr (by rw [h2]; omega)
  have spl : ∀ {a : Account}, (y.acc k).owner = a.owner → a.owner = env.splId → False :=
    fun h1 h2 => hd.tpSpl (ho.symm.trans (h1.trans h2))
  cases exec_ch he k with
  | same h => exact keep (by rw [h]) (by rw [h]) (by rw [h]; exact Nat.le_refl _)
  | gain _ hl hd' ho' => exact keep ho' (by rw [hd']) hl
  | pay _ _ h _ hd' ho' => exact (hd.tpSys (ho.symm.trans (ho'.trans h))).elim
  | move b n hop _ how hl hd' ho' =>
    subst hop
    obtain ⟨j, kd, hh, -⟩ := move_head hW
    exact (no hh).elim
  | write b1 b' hop hw how hb1 hlen h =>
    exact keep (by rw [h]) (by rw [h, hb1]; exact hlen) (by rw [h]; exact Nat.le_refl _)
  | close hop hw how h => rw [h] at ho; exact (hd.tpSys ho.symm).elim
  | create f sd n sp o hop hw hsys hlen hl haddr h =>
    subst hop
    rw [h]
    exact .inr (by simp only [Data.len, zeros_length]; omega)
  | createFunded p sd f sp o n hop hw hsys hlen haddr hl hn h =>
    subst hop
    rw [h] at ho
    cases hW <;> exact (hd.tpSpl ho.symm).elim
  | xferSrc sg dst auth n s s' hop hw how hb hn hsp hsg hd' ho' hl => exact (spl ho' how).elim
  | xferDst sg src auth n d hop hw how hb hn hd' ho' hl => exact (spl ho' how).elim
  | mintDst sg m au n d hop hw how hb hm hn h => exact (spl (a := x.acc k) (by rw [h]) how).elim
  | mintMint sg d au n m hop hw how hb ha hsg hn h => exact (spl (a := x.acc k) (by rw [h]) how).elim
  | burnSrc sg m au n s s' hop hw how hb hm hn hsp hsg h => exact (spl (a := x.acc k) (by rw [h]) how).elim
  | burnMint sg m au n s hop hw how hb hn h => exact (spl (a := x.acc k) (by rw [h]) how).elim
  | initAcc m o hop hw how hb h => exact (spl (a := x.acc k) (by rw [h]) how).elim
  | initMint m o hop hw how hb h => exact (spl (a := x.acc k) (by rw [h]) how).elim
  | sync t n hop hw how hb hn h => exact (spl (a := x.acc k) (by rw [h]) how).elim

/-- Settings, settings of a token and deposits. -/
def Steady (kd : AccountKind) : Prop := (∃ n pn, kd = .settings n pn) ∨ (∃ n vn, kd = .tokenSettings n vn) ∨ ∃ n, kd = .deposit n

/-- A new record of these kinds is at an account that was empty. -/
theorem new_empty {b' s : Bytes} {kd : AccountKind} (h : run env ctx noCpi i w = .ok w') (hn : New env ctx w k b' i)
    (hh : headerC.dec b' = some ((true, kd), s)) (hkd : Steady kd) : (w.acc k).data.len = 0 ∨ w' = w := by
  cases hn with
  | settings g m wm n pn ha hu hs =>
    obtain ⟨k', ha', hv, -⟩ := init_vacant h
    obtain rfl := IsAddr.unique ⟨n, ha⟩ ha'
    exact .inl hv.2.1
  | multiVault g m wm n ha hs =>
    obtain ⟨q, hq⟩ := header_multiVault hs.dec
    rw [hh] at hq
    rcases hkd with ⟨_, _, rfl⟩ | ⟨_, _, rfl⟩ | ⟨_, rfl⟩ <;> simp at hq
  | tokenSol sd nm y a rc v e p mint vault n vn hn hy ha hv hs h7 hl =>
    obtain ⟨f, cr, ct, kv, dp, mi, mv, kt, w1, t, tm, tv, m, t', fee, net, -, -, -, -, -, -, -, a7, -, -, -, hor, -⟩ := depositSol_fx h
    rw [h7] at a7
    cases a7
    rcases hor with ⟨-, hne⟩ | ⟨-, hdep, -⟩
    · exact (hne hl).elim
    · exact .inl hdep.absent.2.1
  | tokenEver kw r mint n mn hr ha hm hs h3 hl =>
    obtain ⟨kw', mint', rc, kt, r', -, -, -, a3, -, hor⟩ := withdrawEver_fx h
    rw [h3] at a3
    cases a3
    rcases hor with ⟨h, -⟩ | ⟨w1, hor, -⟩
    · exact .inr h
    · rcases hor with ⟨-, hne⟩ | ⟨-, hdep⟩
      · exact (hne hl).elim
      · exact .inl hdep.absent.2.1
  | depositEver sd a rc v e p n au ev ha hsig hs =>
    have := depositEver_fx h
    obtain ⟨f, cr, ct, dp, mi, mv, kt, t, mk, token, d, m, t', fee, net, tr, -, -, -, -, -, -, -, -, -, -, -, -, -, -, -, -, -, -, -, -, hdm, -⟩ := this
    obtain rfl := IsAddr.unique ⟨n, ha⟩ hdm.addr
    exact .inl hdm.vacant.2
  | depositSol sd i n au ev hi ha hsig hs =>
    rcases hi with ⟨nm, y, a, rc, v, e, p, rfl⟩ | ⟨rc, v, e, p, rfl⟩ | ⟨rc, a, v, e, p, rfl⟩
    · obtain ⟨f, cr, ct, kv, dp, mi, mv, kt, w1, t, tm, tv, m, t', fee, net, -, -, -, -, -, -, -, -, -, -, -, -, -, -, -, -, -, -, -, -, -, -, -, -, -, -,
        hdm, -⟩ := depositSol_fx h
      obtain rfl := IsAddr.unique ⟨n, ha⟩ hdm.addr
      exact .inl hdm.vacant.2
    · obtain ⟨f, au, mi, kw, dp, kt, mv, r, t, tv, m, fee, tr, -, -, -, -, -, -, -, -, -, -, -, -, -, -, -, -, -, -, -, -, -, -, hdm, -⟩ := cancel_fx h
      obtain rfl := IsAddr.unique ⟨n, ha⟩ hdm.addr
      exact .inl hdm.vacant.2
    · obtain ⟨f, au, at_, mi, dp, kt, mv, t, tm, tv, m, kv, fs, rest, fee, net, -, -, -, -, -, -, -, -, -, -, -, -, -, -, -, -, -, -, -, -, -, -, -, hdm, -⟩ := fill_fx h
      obtain rfl := IsAddr.unique ⟨n, ha⟩ hdm.addr
      exact .inl hdm.vacant.2
  | ever pda t nm y d rc a p att n pn au rs rr hrd ha hsig hs =>
    obtain ⟨q, hq⟩ := header_withdrawal hs.dec
    rw [hh] at hq
    rcases hkd with ⟨_, _, rfl⟩ | ⟨_, _, rfl⟩ | ⟨_, rfl⟩ <;> simp [withdrawalRecord] at hq
  | sol pda rc a p att n pn au mint rs rr hrd ha hsig hs =>
    obtain ⟨q, hq⟩ := header_withdrawal hs.dec
    rw [hh] at hq
    rcases hkd with ⟨_, _, rfl⟩ | ⟨_, _, rfl⟩ | ⟨_, rfl⟩ <;> simp [withdrawalRecord] at hq

/-- A record of these kinds that an instruction of the token proxy leaves in place loses no lamports. -/
theorem steady_run {kd : AccountKind} (hd : env.Distinct) (hp : ctx.program = env.tpId) (h : run env ctx noCpi i w = .ok w')
    (hkd : Steady kd) (hm : Marked env (w.acc k) kd) (ho : (w'.acc k).owner = env.tpId) :
    (w'.acc k).data.len = (w.acc k).data.len ∧ (w.acc k).lamports ≤ (w'.acc k).lamports := by
  by_cases h1 : i = .closeDeposit
  · subst h1
    obtain ⟨k', sd, d, b, r, -, -, -, -, -, -, -, -, -, hk, -, hx⟩ := closeDeposit_fx h
    have hne : k ≠ k' := by
      rintro rfl
      rw [hk] at ho
      exact hd.tpSys ho.symm
    rw [hx k hne]
    exact ⟨rfl, Nat.le_add_right _ _⟩
  by_cases h2 : i = .closeWithdrawal
  · subst h2
    obtain ⟨kp, q, qm, -, -, -, -, -, -, hk, -, hx⟩ := closeWithdrawal_fx h
    have hne : k ≠ kp := by
      rintro rfl
      rw [hk] at ho
      exact hd.tpSys ho.symm
    rw [hx k hne]
    exact ⟨rfl, Nat.le_add_right _ _⟩
  obtain ⟨ho0, b0, s0, hb0, hh0⟩ := id hm
  obtain ⟨-, b, hb, hl⟩ := (run_ops h).track (k := k) (P := fun b l => b.length = b0.length ∧ (w.acc k).lamports ≤ l)
    (by rw [hp]; exact hd.tpSys) (by rw [hp]; exact hd.tpSpl) (fun _ _ _ h h' => ⟨h.1, Nat.le_trans h.2 h'⟩)
    (fun x n b l l' hW hP hle => by
      cases hW with
      | votePay _ _ x hi hg =>
        obtain ⟨p, hq⟩ := hg
        obtain ⟨hh, n, pn, hk⟩ := head_generic hq
        have := (hm.2.unique hh).2
        rw [hk] at this
        rcases hkd with ⟨_, _, rfl⟩ | ⟨_, _, rfl⟩ | ⟨_, rfl⟩ <;> cases this
      | multiPay _ _ n hi hu ha hmv =>
        obtain ⟨v, hv, -, n, hk, -⟩ := loadMultiVault_ok.1 hmv
        have := (hm.2.unique (head_multiVault hv)).2
        rw [hk] at this
        rcases hkd with ⟨_, _, rfl⟩ | ⟨_, _, rfl⟩ | ⟨_, rfl⟩ <;> cases this
      | closePay _ a n hi hk => exact (hi.elim h1 h2).elim)
    (fun hW => by
      cases hW with
      | closeDeposit _ sd d b r hi => exact h1 hi
      | closeWithdrawal _ q md' hi => exact h2 hi)
    (fun _ _ _ _ hl h => ⟨hl.trans h.1, h.2⟩) (by rw [hp]; exact ho0) ⟨b0, hb0, rfl, Nat.le_refl _⟩
  rw [hb, hb0]
  exact hl

theorem paid_run {kd : AccountKind} (hd : env.Distinct) (hp : ctx.program = env.tpId) (h : run env ctx noCpi i w = .ok w')
    (hkd : Steady kd) (ih : Marked env (w.acc k) kd → Paid env (w.acc k)) (hm : Marked env (w'.acc k) kd) : Paid env (w'.acc k) := by
  by_cases h0 : (w.acc k).data.len = 0
  · exact opened_paid hd h h0 hm.1
  · have hm0 : Marked env (w.acc k) kd := by
      rcases marked_run hd hp h hm with h1 | ⟨b', s, hn, hh⟩
      · exact h1
      · rcases new_empty h hn hh hkd with h1 | rfl
        · exact (h0 h1).elim
        · exact hm
    obtain ⟨h1, h2⟩ := steady_run hd hp h hkd hm0 hm.1
    rcases ih hm0 with h3 | h3
    · exact (h0 h3).elim
    · exact .inr (by rw [h1]; omega)

theorem paid_quiet {kd : AccountKind} (h : QuietFor env.tpId L w w') (ih : Marked env (w.acc k) kd → Paid env (w.acc k))
    (hm : Marked env (w'.acc k) kd) : Paid env (w'.acc k) := by
  have hm0 := marked_quiet h hm
  obtain ⟨-, h2, h3⟩ := (h k).1 hm0.1
  rcases ih hm0 with h | h
  · exact .inl (by rw [h2]; exact h)
  · exact .inr (by rw [h2]; omega)

/-- Throughout a history the settings, the settings of the tokens and the deposits have their rent. -/
theorem _root_.Verif.Run.paid {kd : AccountKind} {top : Bool} {tr : List Ev} (hd : env.Distinct) (hkd : Steady kd)
    (h : Run env L top w tr w') (h0 : Marked env (w.acc k) kd → Paid env (w.acc k)) (hm : Marked env (w'.acc k) kd) : Paid env (w'.acc k) := by
  induction h with
  | nil => exact h0 hm
  | rl ctx i h hp hs hr ih => exact paid_quiet (L := L) (RL.quiet_tp hd hp (RL.run_ops hr)) (ih h0) hm
  | tp ctx i h hp hs hr ih => exact paid_run hd hp hr hkd (ih h0) hm
  | payload ctx i p h hin hp hs hpl hno hr ih ih' =>
    have hst := payload_ok hno hr
    rcases marked_stale hst hm with h1 | ⟨⟨n, pn, h⟩, -⟩
    · have := ih' (ih h0) h1
      rcases hst.write with rfl | ⟨k', b, b', hb, hl, ho, hw, rfl⟩
      · exact this
      · by_cases e : k = k'
        · subst e
          simp only [Paid, setDataRaw_acc, if_true, Data.len, hl] at this ⊢
          simpa [Paid, hb, Data.len] using this
        · simpa only [setDataRaw_acc, e, if_false] using this
    · rcases hkd with ⟨_, _, rfl⟩ | ⟨_, _, rfl⟩ | ⟨_, rfl⟩ <;> cases h
  | ext h hx ih => exact paid_quiet hx.quiet_tp (ih h0) hm
  | purge h hp ih =>
    rw [Marked, hp.2 k] at hm
    rw [hp.2 k]
    split at hm
    · exact (hd.tpSys hm.1.symm).elim
    · rename_i h'
      rw [if_neg h']
      exact ih h0 hm

theorem _root_.Verif.Reach.paid {kd : AccountKind} (hd : env.Distinct) (hkd : Steady kd) (h : Reach env L w) (hm : Marked env (w.acc k) kd) :
    max 1 (env.rent (w.acc k).data.len) ≤ (w.acc k).lamports := by
  obtain ⟨w0, tr, hg, hr⟩ := h
  exact (hr.paid hd hkd (fun h => (genesis_unmarked hg h).elim) hm).resolve_left (head_len hm.2)

end Verif.TP
