import Verif.Lemmas.TPDep
/-!
# Effects of cancelling and filling pending withdrawals
-/
set_option linter.unusedSimpArgs false
namespace Verif.TP
open Codec Verif

variable {env : Env} {L : Pubkey → Prop} {ctx : Ctx} {w w' w0 w1 w2 : World} {k : Pubkey} {i : Instr}

/-- Cancelling a pending withdrawal. -/
theorem cancel_fx {sd : U128} {rc : EverAddress} {v : U64} {ev : Pubkey} {py : Bytes}
    (h : run env ctx cpi (.cancelWithdrawSol sd rc v ev py) w = .ok w') :
    ∃ f au mi kw dp kt mv r t tv m, ∃ fee tr : U128, ctx.accounts[0]? = some f ∧ ctx.accounts[1]? = some au ∧ ctx.accounts[2]? = some mi ∧
      ctx.accounts[3]? = some kw ∧ ctx.accounts[4]? = some dp ∧ ctx.accounts[6]? = some kt ∧ ctx.accounts[9]? = some mv ∧
      ctx.isSigner au = true ∧ WithdrawalOf wSolEventC env ctx w kw r ∧ r.author = au ∧ r.md.status = .pending ∧ (w.acc kw).owner = ctx.program ∧
      TokenOf env ctx w kt t ∧ t.kind = .solana r.event.mint tv ∧ t.emergency = false ∧ (mi = r.event.mint ∨ (w.acc mi).owner = env.splId) ∧
      (w.acc mi).data = .mint m ∧ IsAddr env ctx.program multiVaultSeeds mv ∧
      feeOf128 t.feeDepositInfo r.event.amount = .ok fee ∧ fee.toNat < 2 ^ 64 ∧ tr.toNat + fee.toNat = r.event.amount.toNat ∧
      NoTokens w w' ∧
      DepositMade depositSolEventC env ctx w w' dp au sd ⟨r.event.mint, t.name, t.symbol, m.decimals, tr, rc, v, ev, py⟩ ∧
      Holds (withdrawalC wSolEventC) recLen (w'.acc kw) (r.withStatus .cancelled) ∧ (w'.acc kw).owner = (w.acc kw).owner ∧
      (w'.acc kw).lamports = (w.acc kw).lamports ∧ (w'.acc mv).lamports = (w.acc mv).lamports + v.toNat ∧
      w'.logs = ((w.log (depositLog env depositSolEventC kw rc tr sd v ev
        ⟨r.event.mint, t.name, t.symbol, m.decimals, tr, rc, v, ev, py⟩)).log (statusLog kw .cancelled)).logs ∧
      Frame (fun j => j = kw) w w' ∧ kw ≠ kt := by
  simp only [run, processCancel, bind_ok, acct_ok, sysvar_ok, require_ok, exists_const, ex_unit, deriveAt_ok, mintOf_ok, orErr_ok, Prod.exists,
    checkedAdd_some, checkedSub_some] at h
  obtain ⟨f, h0, au, h1, mi, h2, kw, h3, dp, h4, ks, -, kt, h6, -, -, rent, -, mv, h9, -, hsig, ss, sn, hss, x, hx, hau, hst, t, ht, hem, hmv, w1, b1, hmi,
    m, hm, htm, dn, hdn, w2, b2, fee, hfee, hfl, s', hs', tr, htr, w3, b3, b4⟩ := h
  obtain ⟨ht1, ht2, hk, n, htk, -⟩ := loadSol_ok.1 ht
  obtain ⟨y, hmvh, -, xn, hxk, hmva⟩ := loadMultiVault_ok.1 hmv
  have hto := TP.tokenOf (loadSol_token ht)
  have hwo := withdrawalOf hx
  have hwh := hwo.2.1
  have ca := createPda_ok (findAddr_create hdn) b2
  have fr1 : Frame (fun _ => False) w w1 := .sys b1
  have fr2 : Frame (fun _ => False) w w2 := fr1.trans (.create hdn b2)
  have hdk : kw ≠ dp := holds_ne (fr1.holds id hwh) ca.2.1
  have hdm : mv ≠ dp := holds_ne (fr1.holds id hmvh) ca.2.1
  have hfm : mv ≠ f := by
    rintro rfl
    have := holds_len (fr1.holds id hmvh)
    rw [ca.2.2.2.2.2.2.2.2.2.1] at this
    cases this
  have hfk : kw ≠ f := by
    rintro rfl
    have := holds_len (fr1.holds id hwh)
    rw [ca.2.2.2.2.2.2.2.2.2.1] at this
    cases this
  have hff : dp ≠ f := fun e => ca.2.2.2.1 e.symm
  have hkm : kw ≠ mv := by
    rintro rfl
    obtain ⟨-, -, -, n1, pn1, hk1⟩ := hwo
    have := ((head_multiVault hmvh).unique (head_withdrawal hwh)).2
    rw [hxk, hk1] at this
    cases this
  have dp1 : w1.acc dp = w.acc dp := sys_other b1 hff hdm.symm
  have kw1 : w1.acc kw = w.acc kw := sys_other b1 hfk hkm
  have kw2 : w2.acc kw = w1.acc kw := create_keeps (findAddr_create hdn) b2 hdk hfk
  have kw3 : w3.acc kw = w.acc kw := by rw [pack_other b3 hdk]; exact kw2.trans kw1
  have hmw : (w1.acc mi).data = (w.acc mi).data ∧ (w1.acc mi).owner = (w.acc mi).owner := by rw [sysTransfer_acc b1 mi]; exact ⟨rfl, rfl⟩
  rw [hmw.1] at hm
  rw [hmw.2] at hmi
  have htm' := htm
  rw [htm] at hk hmi
  simp only [htm] at b3 b4
  refine ⟨f, au, mi, kw, dp, kt, mv, x, t.ts, t.vault, m, fee, tr, h0, h1, h2, h3, h4, h6, h9, hsig, hwo, hau, hst, ?_, hto, hk, hem, hmi, hm, ⟨_, hmva⟩,
    hfee, hfl, htr.symm, ?_, ?_, RL.pack_holds b4, ?_, ?_, ?_, ?_, ?_, withdrawal_ne_token hx (loadSol_token ht)⟩
  · have hh : Holds (withdrawalC wSolEventC) recLen ((w3.log (statusLog kw .cancelled)).acc kw) x := by
      show Holds _ _ (w3.acc kw) _
      rw [kw3]; exact hwh
    have hne : x.withStatus .cancelled ≠ x := by
      intro e
      have := congrArg (fun y : Withdrawal WSolEvent => y.md.status) e
      simp only [Withdrawal.withStatus] at this
      rw [hst] at this
      cases this
    have : (w3.acc kw).owner = ctx.program := (RL.pack_owner b4 hh hne).1
    rw [kw3] at this
    exact this
  · exact (NoTokens.sys b1).trans ((NoTokens.create (findAddr_create hdn) b2).trans ((NoTokens.log _).trans ((NoTokens.pack b3).trans
      ((NoTokens.log _).trans (.pack b4)))))
  · refine depositMade (w1 := w1) hdn (.inr dp1.symm) b2 (Props.C45_lenField_depositSol _) (wd := w2.log _) rfl b3 ?_
    exact pack_other (w := w3.log _) b4 hdk.symm
  · rw [(RL.pack_acc b4 kw).1]
    show (w3.acc kw).owner = _
    rw [kw3]
  · rw [(RL.pack_acc b4 kw).2.1]
    show (w3.acc kw).lamports = _
    rw [kw3]
  · rw [pack_other b4 hkm.symm]
    show (w3.acc mv).lamports = _
    rw [pack_other b3 hdm]
    show (w2.acc mv).lamports = _
    rw [create_keeps (findAddr_create hdn) b2 hdm hfm, sys_gain b1 hfm]
  · rw [pack_logs b4]
    simp only [World.log]
    rw [pack_logs b3]
    simp only [World.log, create_logs (findAddr_create hdn) b2, sys_logs b1]
  · refine Frame.drop (dp := dp) ?_ (by rw [← dp1]; exact ca.2.1)
    exact (fr2.mono (fun _ h => h.elim)).trans ((Frame.log _ _).trans ((Frame.pack (.inl rfl) b3).trans ((Frame.log _ _).trans
      (Frame.pack (.inr rfl) b4))))

/-! ## Filling -/

/-- Mint and holder of a token account. -/
def ident (a : Account) : Option (Pubkey × Pubkey) :=
  match a.data with
  | .token x => some (x.mint, x.owner)
  | _ => none

/-- Token accounts keep their mint and holder, and all accounts their owner. -/
def Soft (w w' : World) : Prop := ∀ j, ident (w'.acc j) = ident (w.acc j) ∧ (w'.acc j).owner = (w.acc j).owner

theorem Soft.refl (w : World) : Soft w w := fun _ => ⟨rfl, rfl⟩
theorem Soft.trans (h : Soft w w1) (h' : Soft w1 w2) : Soft w w2 :=
  fun j => ⟨(h' j).1.trans (h j).1, (h' j).2.trans (h j).2⟩

theorem spend_ident {s s' : TokenAcc} {a : Pubkey} {n : U64} (h : spendAuth s a n = .ok s') : s'.mint = s.mint ∧ s'.owner = s.owner := by
  unfold spendAuth at h
  split at h
  · split at h
    · cases h; exact ⟨rfl, rfl⟩
    · cases h
  · split at h
    · cases h; exact ⟨rfl, rfl⟩
    · cases h

theorem Soft.xfer {sg : Pubkey → Bool} {src dst auth : Pubkey} {n : U64} (h : splTransfer env ctx sg src dst auth n w = .ok w') : Soft w w' := by
  obtain ⟨-, -, -, -, h1, h2, -, s, d, s', hs, hd, -, -, -, hn, hsp, hor⟩ := splTransfer_ok h
  rcases hor with ⟨rfl, rfl⟩ | ⟨hne, hov, -, -, e1, e2, e3⟩
  · exact .refl _
  · intro j
    by_cases hk : j = src
    · subst hk
      have := spend_ident hsp
      rw [e1, h1]
      simp only [ident, hs, this.1, this.2, and_self]
    · by_cases hk' : j = dst
      · subst hk'; rw [e2, h2]; simp only [ident, hd, and_self]
      · rw [e3 j hk hk']; exact ⟨rfl, rfl⟩

/-- Accounts outside `S` that are no token accounts are what they were. -/
def Still (S : Pubkey → Prop) (w w' : World) : Prop := ∀ j, ¬ S j → ident (w.acc j) = none → w'.acc j = w.acc j

theorem Still.xfer {S : Pubkey → Prop} {sg : Pubkey → Bool} {src dst auth : Pubkey} {n : U64}
    (h : splTransfer env ctx sg src dst auth n w = .ok w') : Still S w w' := by
  obtain ⟨-, -, -, -, h1, h2, -, s, d, s', hs, hd, -, -, -, hn, hsp, hor⟩ := splTransfer_ok h
  rcases hor with ⟨rfl, rfl⟩ | ⟨hne, hov, -, -, e1, e2, e3⟩
  · exact fun _ _ _ => rfl
  · intro j _ hj
    refine e3 j ?_ ?_
    · rintro rfl; simp only [ident, hs] at hj; cases hj
    · rintro rfl; simp only [ident, hd] at hj; cases hj

theorem ident_holds {α : Type} {c : Codec α} {len : Nat} {a : Account} {x : α} (h : Holds c len a x) : ident a = none := by
  obtain ⟨b, r, hb, -⟩ := h
  simp only [ident, hb]

theorem ident_token {a : Account} {m o : Pubkey} : ident a = some (m, o) ↔ ∃ x, a.data = .token x ∧ x.mint = m ∧ x.owner = o := by
  unfold ident
  constructor
  · intro h
    split at h
    · rename_i x hx
      cases h
      exact ⟨x, hx, rfl, rfl⟩
    · cases h
  · rintro ⟨x, hx, rfl, rfl⟩
    rw [hx]

theorem Soft.isToken {m : Pubkey} (h : Soft w w') : IsToken env w' k m ↔ IsToken env w k m := by
  have e : ∀ u : World, IsToken env u k m ↔ (u.acc k).owner = env.splId ∧ ∃ o, ident (u.acc k) = some (m, o) := by
    intro u
    simp only [IsToken, ident_token]
    constructor
    · rintro ⟨h1, x, hx, hm⟩; exact ⟨h1, _, x, hx, hm, rfl⟩
    · rintro ⟨h1, o, x, hx, hm, -⟩; exact ⟨h1, x, hx, hm⟩
  rw [e, e, (h k).1, (h k).2]

theorem Soft.holder {o : Pubkey} (h : Soft w w') :
    (∃ x, (w'.acc k).data = .token x ∧ x.owner = o) ↔ ∃ x, (w.acc k).data = .token x ∧ x.owner = o := by
  have e : ∀ u : World, (∃ x, (u.acc k).data = .token x ∧ x.owner = o) ↔ ∃ m, ident (u.acc k) = some (m, o) := by
    intro u
    simp only [ident_token]
    constructor
    · rintro ⟨x, hx, hm⟩; exact ⟨_, x, hx, rfl, hm⟩
    · rintro ⟨m, x, hx, -, ho⟩; exact ⟨x, hx, ho⟩
  rw [e, e, (h k).1]

/-- What is due is the same in two states that agree on the withdrawal and on mints and holders of token accounts. -/
theorem Fill.Due.congr {rate : FeeInfo} {mint src : Pubkey} {f : Fill} (h : f.Due env ctx w rate mint src)
    (hd : (w'.acc f.kw).data = (w.acc f.kw).data) (hs : Soft w w') : f.Due env ctx w' rate mint src where
  withdrawal := by
    obtain ⟨h1, h2, h3⟩ := h.withdrawal
    refine ⟨h1, ?_, h3⟩
    obtain ⟨b, r, hb, hr⟩ := h2
    exact ⟨b, r, by rw [hd]; exact hb, hr⟩
  owner := by rw [(hs f.kw).2]; exact h.owner
  pending := h.pending
  mint := h.mint
  recipient := hs.holder.2 h.recipient
  same := by
    obtain ⟨m, h1, h2⟩ := h.same
    exact ⟨m, hs.isToken.2 h1, hs.isToken.2 h2⟩
  fits := h.fits
  fee := h.fee
  net := h.net
  pay := h.pay

theorem Soft.symm (h : Soft w w') : Soft w' w := fun j => ⟨(h j).1.symm, (h j).2.symm⟩

/-- One withdrawal is filled. -/
theorem fillOne_fx {au at_ dp kw rt : Pubkey} {t : SolToken} {fee net : U64} (h : fillOne env ctx au at_ dp t kw rt w = .ok (fee, net, w')) :
    ∃ f : Fill, f.kw = kw ∧ f.rt = rt ∧ f.fee = fee.toNat ∧ f.net = net.toNat ∧ f.Due env ctx w t.ts.feeWithdrawalInfo t.mint at_ ∧
      Moves at_ rt f.pay w w' ∧ Holds (withdrawalC wSolEventC) recLen (w'.acc kw) (f.r.withStatus .processed) ∧
      (w'.acc kw).lamports = (w.acc kw).lamports ∧ Soft w w' ∧ Still (fun j => j = kw) w w' := by
  simp only [fillOne, bind_ok, require_ok, exists_const, ex_unit, tokenOf_ok, orErr_ok, Except.ok.injEq, Prod.mk.injEq, checkedSub_some] at h
  obtain ⟨r, hr, hst, htm, tk, htk, hto, hspl, hlt, fee, hfee, net, hnet, tr, htr, w1, b1, w2, b2, rfl, rfl, rfl⟩ := h
  have hwo := withdrawalOf hr
  obtain ⟨-, -, -, -, ho1, ho2, -, s, d, s', hs, hd, hm, -⟩ := splTransfer_ok b1
  obtain ⟨bb, rr, hbb, hll, hdd⟩ := id hwo.2.1
  have kw1 : w1.acc kw = w.acc kw := (raw_xfer b1 kw).2 bb hbb
  have hea : (r.event.amount.setWidth 64 : U64).toNat = r.event.amount.toNat := by
    rw [BitVec.toNat_setWidth, Nat.mod_eq_of_lt hlt]
  have hold : Holds (withdrawalC wSolEventC) recLen (w2.acc kw) (r.withStatus .processed) := RL.pack_holds b2
  have pa := RL.pack_acc (w := w1.log _) b2
  have own : (w.acc kw).owner = ctx.program := by
    have hh : Holds (withdrawalC wSolEventC) recLen ((w1.log (statusLog kw .processed)).acc kw) r := by
      show Holds _ _ (w1.acc kw) _
      rw [kw1]; exact hwo.2.1
    have : (w1.acc kw).owner = ctx.program := (RL.pack_owner b2 hh (withStatus_ne (by rw [hst]; simp))).1
    rw [kw1] at this; exact this
  refine ⟨⟨kw, rt, r, fee.toNat, net.toNat, tr.toNat⟩, rfl, rfl, rfl, rfl, ?_, ?_, hold, ?_, ?_, ?_⟩
  · refine ⟨hwo, own, hst, htm.symm, ⟨tk, htk, hto⟩, ⟨s.mint, ⟨ho1, s, hs, rfl⟩, ho2, d, hd, hm.symm⟩, hlt, ⟨_, fee, hea, hfee, rfl⟩, ?_, ?_⟩
    · show net.toNat + fee.toNat = r.event.amount.toNat
      omega
    · show tr.toNat + r.md.bounty.toNat = net.toNat
      omega
  · exact (moves_of b1).post ((NoTokens.log _).trans ((NoTokens.pack b2).trans (NoTokens.log _)))
  · show (w2.acc kw).lamports = _
    rw [(pa kw).2.1]
    show (w1.acc kw).lamports = _
    rw [kw1]
  · refine (Soft.xfer b1).trans fun j => ?_
    show ident (w2.acc j) = _ ∧ (w2.acc j).owner = _
    refine ⟨?_, (pa j).1⟩
    by_cases e : j = kw
    · subst e
      rw [ident_holds hold, kw1, ident_holds hwo.2.1]
    · rw [(pa j).2.2 e]
      rfl
  · intro j hj hi
    show w2.acc j = _
    rw [(pa j).2.2 hj]
    exact Still.xfer (S := fun _ => False) b1 j id hi

theorem total_cons {α : Type} (f : α → Nat) (a : α) (l : List α) : total f (a :: l) = f a + total f l := rfl

/-- The loop over the withdrawals of a fill. -/
theorem fillLoop_fx {au at_ dp : Pubkey} {t : SolToken} :
    ∀ (l : List Pubkey) {x y : U64} {w : World} {l' : List Pubkey} {x' y' : U64},
    fillLoop env ctx au at_ dp t l x y w = .ok (l', x', y', w') →
    ∃ fs : List Fill, l = (fs.flatMap fun f => [f.kw, f.rt]) ++ l' ∧ l'.length ≤ 1 ∧ (fs.map (·.kw)).Nodup ∧
      (∀ f ∈ fs, f.Due env ctx w t.ts.feeWithdrawalInfo t.mint at_ ∧
        Holds (withdrawalC wSolEventC) recLen (w'.acc f.kw) (f.r.withStatus .processed) ∧ (w'.acc f.kw).lamports = (w.acc f.kw).lamports) ∧
      (∀ k, bal w' k + (if k = at_ then total (·.pay) fs else 0) = bal w k + total (fun f => if k = f.rt then f.pay else 0) fs ∧
        supply w' k = supply w k) ∧
      Soft w w' ∧ Still (fun j => j ∈ fs.map (·.kw)) w w' ∧
      x' = x + BitVec.ofNat 64 (total (·.fee) fs) ∧ y' = y + BitVec.ofNat 64 (total (·.net) fs)
  | kw :: rt :: rest, x, y, w, l', x', y', h => by
    simp only [fillLoop, bind_ok, Prod.exists] at h
    obtain ⟨fee, net, w1, h1, h2⟩ := h
    obtain ⟨f, rfl, rfl, hfee, hnet, hdue, hmv, hh, hlam, hsoft, hstill⟩ := fillOne_fx h1
    obtain ⟨fs, rfl, hl', hnd, hall, hbal, hso, hst, rfl, rfl⟩ := fillLoop_fx rest h2
    have hnot : f.kw ∉ fs.map (·.kw) := by
      intro hm
      obtain ⟨g, hg, e⟩ := List.mem_map.1 hm
      have hw := (hall g hg).1.withdrawal.2.1
      rw [e] at hw
      have := (hall g hg).1.pending
      rw [hw.unique hh] at this
      cases this
    have hback : ∀ g ∈ fs, w1.acc g.kw = w.acc g.kw := by
      intro g hg
      refine hstill g.kw ?_ ?_
      · intro e
        exact hnot (e ▸ List.mem_map.2 ⟨g, hg, rfl⟩)
      · rw [← (hsoft g.kw).1]
        exact ident_holds (hall g hg).1.withdrawal.2.1
    have hfw : w'.acc f.kw = w1.acc f.kw := hst f.kw hnot (ident_holds hh)
    refine ⟨f :: fs, by simp, hl', by simp [hnd]; simpa using hnot, ?_, ?_, hsoft.trans hso, ?_, ?_, ?_⟩
    · intro g hg
      rcases List.mem_cons.1 hg with rfl | hg
      · exact ⟨hdue, by rw [hfw]; exact hh, by rw [hfw]; exact hlam⟩
      · obtain ⟨g1, g2, g3⟩ := hall g hg
        exact ⟨g1.congr (by rw [hback g hg]) hsoft.symm, g2, by rw [g3, hback g hg]⟩
    · intro j
      have a1 := hmv.2 j
      have a2 := hbal j
      refine ⟨?_, a2.2.trans a1.2⟩
      have b1 := a1.1
      have b2 := a2.1
      simp only [total_cons]
      by_cases e1 : j = at_ <;> by_cases e2 : j = f.rt <;> simp only [e1, e2, if_true, if_false] at b1 b2 ⊢ <;>
        (try (simp only [← e1] at *)) <;> (try (simp only [← e2] at *)) <;> (try simp only [e1, e2, if_true, if_false] at b1 b2 ⊢) <;> omega
    · intro j hj hi
      simp only [List.map_cons, List.mem_cons, not_or] at hj
      rw [hst j hj.2 (by rw [(hsoft j).1]; exact hi), hstill j hj.1 hi]
    · rw [total_cons, hfee, BitVec.ofNat_add, BitVec.ofNat_toNat, BitVec.setWidth_eq, BitVec.add_assoc]
    · rw [total_cons, hnet, BitVec.ofNat_add, BitVec.ofNat_toNat, BitVec.setWidth_eq, BitVec.add_assoc]
  | [], x, y, w, l', x', y', h => by
    simp only [fillLoop, Except.ok.injEq, Prod.mk.injEq] at h
    obtain ⟨rfl, rfl, rfl, rfl⟩ := h
    refine ⟨[], rfl, by simp, by simp, by simp, ?_, .refl _, fun _ _ _ => rfl, by simp [total], by simp [total]⟩
    intro j; simp [total]
  | [a], x, y, w, l', x', y', h => by
    simp only [fillLoop, Except.ok.injEq, Prod.mk.injEq] at h
    obtain ⟨rfl, rfl, rfl, rfl⟩ := h
    refine ⟨[], rfl, by simp, by simp, by simp, ?_, .refl _, fun _ _ _ => rfl, by simp [total], by simp [total]⟩
    intro j; simp [total]

/-- A fill: the withdrawals listed in pairs from position 11 on, then the vault. -/
theorem fill_fx {sd : U128} {rc : EverAddress} {a v : U64} {ev : Pubkey} {py : Bytes}
    (h : run env ctx cpi (.fillWithdrawSol sd rc a v ev py) w = .ok w') :
    ∃ f au at_ mi dp kt mv t tm tv m kv, ∃ fs : List Fill, ∃ rest fee, ∃ net : U64, ctx.accounts[0]? = some f ∧ ctx.accounts[1]? = some au ∧
      ctx.accounts[2]? = some at_ ∧ ctx.accounts[3]? = some mi ∧ ctx.accounts[4]? = some dp ∧ ctx.accounts[7]? = some kt ∧ ctx.accounts[10]? = some mv ∧
      ctx.accounts.drop 11 = (fs.flatMap fun f => [f.kw, f.rt]) ++ [kv] ∧ ctx.isSigner au = true ∧
      TokenOf env ctx w kt t ∧ t.kind = .solana tm tv ∧ t.emergency = false ∧ (mi = tm ∨ (w.acc mi).owner = env.splId) ∧
      (w.acc mi).data = .mint m ∧ IsAddr env ctx.program multiVaultSeeds mv ∧ IsAddr env ctx.program (vaultSeeds tm) kv ∧
      (fs.map (·.kw)).Nodup ∧
      (∀ f ∈ fs, f.Due env ctx w t.feeWithdrawalInfo tm at_ ∧
        Holds (withdrawalC wSolEventC) recLen (w'.acc f.kw) (f.r.withStatus .processed) ∧ (w'.acc f.kw).owner = (w.acc f.kw).owner ∧
        (w'.acc f.kw).lamports = (w.acc f.kw).lamports) ∧
      (∀ k, bal w' k + (if k = at_ then total (·.pay) fs + rest else 0) =
          bal w k + total (fun f => if k = f.rt then f.pay else 0) fs + (if k = kv then rest else 0) ∧ supply w' k = supply w k) ∧
      (∃ m, IsToken env w at_ m ∧ IsToken env w kv m) ∧
      (total (·.fee) fs + total (·.net) fs < 2 ^ 64 → total (·.fee) fs + total (·.net) fs ≤ a.toNat ∧ rest + total (·.net) fs = a.toNat ∧
        bal w' kv ≤ t.depositLimit.toNat) ∧
      feeOf t.feeWithdrawalInfo a = .ok fee ∧ net.toNat + fee.toNat = a.toNat ∧
      DepositMade depositSolEventC env ctx w w' dp au sd ⟨tm, t.name, t.symbol, m.decimals, net.setWidth 128, rc, v, ev, py⟩ ∧
      (w'.acc mv).lamports = (w.acc mv).lamports + v.toNat ∧
      (∃ l, w'.logs = l ++ [depositLog env depositSolEventC dp rc (net.setWidth 128) sd v ev
        ⟨tm, t.name, t.symbol, m.decimals, net.setWidth 128, rc, v, ev, py⟩]) ∧
      Frame (fun j => j ∈ fs.map (·.kw)) w w' ∧ kt ∉ fs.map (·.kw) := by
  simp only [run, processFill, bind_ok, acct_ok, sysvar_ok, require_ok, exists_const, ex_unit, deriveAt_ok, mintOf_ok, orErr_ok, Prod.exists,
    validatePda_ok, tokenOf_ok, checkedAdd_some, checkedSub_some] at h
  obtain ⟨f, h0, au, h1, at_, h2, mi, h3, dp, h4, ks, -, -, -, kt, h7, -, -, rent, -, mv, h10, -, hsig, ss, sn, hss, t, ht, hem, hmv, w1, b1, hmi,
    m, hm, dn, hdn, rest, fsum, sm, w2, b2, w3, b3, hle, kv, hkv, hva, tv, htv, tot, htot, hlim, w4, b4, fee, hfee, net, hnet, b5⟩ := h
  obtain ⟨ht1, ht2, hk, n, htk, -⟩ := loadSol_ok.1 ht
  obtain ⟨y, hmvh, -, xn, hxk, hmva⟩ := loadMultiVault_ok.1 hmv
  have hto := TP.tokenOf (loadSol_token ht)
  obtain ⟨fs, hacc, hlen, hnd, hall, hbal, hsoft, hstill, hfs, hns⟩ := fillLoop_fx _ b2
  have ca := createPda_ok (findAddr_create hdn) b3
  have hff : dp ≠ f := fun e => ca.2.2.2.1 e.symm
  have hmw : ∀ j, (w1.acc j).data = (w.acc j).data ∧ (w1.acc j).owner = (w.acc j).owner := by
    intro j; rw [sysTransfer_acc b1 j]; exact ⟨rfl, rfl⟩
  have soft1 : Soft w w1 := fun j => ⟨by unfold ident; rw [(hmw j).1], (hmw j).2⟩
  have hmv1 : Holds multiVaultC recLen (w1.acc mv) y := Frame.holds (S := fun _ => False) (.sys b1) id hmvh
  have mvnot : mv ∉ fs.map (·.kw) := by
    intro hm
    obtain ⟨g, hg, e⟩ := List.mem_map.1 hm
    obtain ⟨-, hw, -, n1, pn1, hk1⟩ := (hall g hg).1.withdrawal
    rw [e] at hw
    have := ((head_multiVault hmv1).unique (head_withdrawal hw)).2
    rw [hxk, hk1] at this
    cases this
  have mv2 : w2.acc mv = w1.acc mv := hstill mv mvnot (ident_holds hmv1)
  have hmv2 : Holds multiVaultC recLen (w2.acc mv) y := by rw [mv2]; exact hmv1
  have hdm : mv ≠ dp := holds_ne hmv2 ca.2.1
  have hfm : mv ≠ f := by
    rintro rfl
    have := holds_len hmv2
    rw [ca.2.2.2.2.2.2.2.2.2.1] at this
    cases this
  have kne : ∀ g ∈ fs, g.kw ≠ dp ∧ g.kw ≠ f ∧ g.kw ≠ mv := by
    intro g hg
    have hw := (hall g hg).2.1
    refine ⟨holds_ne hw ca.2.1, ?_, fun e => mvnot (e ▸ List.mem_map.2 ⟨g, hg, rfl⟩)⟩
    intro e
    have := holds_len hw
    rw [e, ca.2.2.2.2.2.2.2.2.2.1] at this
    cases this
  have dpi : ident (w1.acc dp) = none := by
    rw [← (hsoft dp).1]
    have hl := ca.2.1
    unfold ident
    cases hd : (w2.acc dp).data <;> rw [hd] at hl <;> first | rfl | cases hl
  have dp2 : w2.acc dp = w1.acc dp := hstill dp (fun hm => by
    obtain ⟨g, hg, e⟩ := List.mem_map.1 hm
    exact (kne g hg).1 e) dpi
  have dp1 : w1.acc dp = w.acc dp := sys_other b1 hff hdm.symm
  have kw4 : ∀ g ∈ fs, w'.acc g.kw = w2.acc g.kw := by
    intro g hg
    obtain ⟨k1, k2, -⟩ := kne g hg
    have h3 : w3.acc g.kw = w2.acc g.kw := create_keeps (findAddr_create hdn) b3 k1 k2
    rw [pack_other b5 k1]
    show w4.acc g.kw = _
    rw [Still.xfer (S := fun _ => False) b4 g.kw id (by rw [h3]; exact ident_holds (hall g hg).2.1), h3]
  have hrest : rest = [kv] := by
    cases rest with
    | nil => cases hkv
    | cons r0 rs =>
      cases rs with
      | nil => cases hkv; rfl
      | cons r1 rs => simp at hlen
  obtain ⟨-, -, -, -, ho1, ho2, -, s, d, s', hs, hd, hsd, -⟩ := splTransfer_ok b4
  have s3 := createPda_self (findAddr_create hdn) b3
  have tok3 : ∀ j x, (w3.acc j).data = .token x → j ≠ dp ∧ (w2.acc j).data = .token x ∧ (w2.acc j).owner = (w3.acc j).owner := by
    intro j x hx
    have e : j ≠ dp := by rintro rfl; rw [s3] at hx; cases hx
    have := createPda_acc (findAddr_create hdn) b3 j e
    exact ⟨e, by rw [← this.1]; exact hx, this.2.symm⟩
  have soft2 : Soft w w2 := soft1.trans hsoft
  have same : ∃ m, IsToken env w at_ m ∧ IsToken env w kv m := by
    obtain ⟨-, hs2, ho2'⟩ := tok3 _ _ hs
    obtain ⟨-, hd2, ho2''⟩ := tok3 _ _ hd
    exact ⟨s.mint, soft2.isToken.1 ⟨by rw [ho2']; exact ho1, s, hs2, rfl⟩, soft2.isToken.1 ⟨by rw [ho2'']; exact ho2, d, hd2, hsd.symm⟩⟩
  have nt3 : NoTokens w2 w3 := .create (findAddr_create hdn) b3
  have nt5 : NoTokens w4 w' := (NoTokens.log _).trans (.pack b5)
  have mvs := moves_of b4
  rw [(hmw mi).1] at hm
  rw [(hmw mi).2] at hmi
  have fr2 : Frame (fun j => j ∈ fs.map (·.kw)) w1 w2 := by
    intro j b hj hb hn
    rw [hstill j hj (by simp only [ident, hb])]
    exact ⟨hb, rfl⟩
  have zero : ∀ x : U64, 0#64 + x = x := fun x => by rw [BitVec.zero_add]
  refine ⟨f, au, at_, mi, dp, kt, mv, t.ts, t.mint, t.vault, m, kv, fs, (a - sm).toNat, fee, net, h0, h1, h2, h3, h4, h7, h10, by rw [hacc, hrest], hsig, hto, hk,
    hem, hmi, hm, ⟨_, hmva⟩, ⟨_, hva⟩, hnd, ?_, ?_, same, ?_, hfee, hnet.symm, ?_, ?_, ⟨w4.logs, pack_logs b5⟩, ?_, ?_⟩
  · intro g hg
    obtain ⟨g1, g2, g3⟩ := hall g hg
    obtain ⟨k1, k2, k3⟩ := kne g hg
    have e1 : w1.acc g.kw = w.acc g.kw := sys_other b1 k2 k3
    rw [kw4 g hg]
    exact ⟨g1.congr (by rw [e1]) soft1.symm, g2, by rw [(soft2 g.kw).2], by rw [g3, e1]⟩
  · intro j
    have a1 := NoTokens.sys b1 j
    have a2 := hbal j
    have a3 := nt3 j
    have a4 := mvs.2 j
    have a5 := nt5 j
    refine ⟨?_, by rw [a5.2, a4.2, a3.2, a2.2, a1.2]⟩
    rw [a5.1]
    rw [← a1.1]
    have b2 := a2.1
    have b4 := a4.1
    rw [a3.1] at b4
    by_cases e1 : j = at_ <;> by_cases e2 : j = kv
    · subst e1; subst e2; simp only [if_true] at b2 b4 ⊢; omega
    · subst e1; simp only [e2, if_true, if_false] at b2 b4 ⊢; omega
    · subst e2; simp only [e1, if_true, if_false] at b2 b4 ⊢; omega
    · simp only [e1, e2, if_false] at b2 b4 ⊢; omega
  · intro hlt
    rw [zero] at hfs hns
    have e1 : fsum.toNat = total (·.fee) fs := by rw [hfs, BitVec.toNat_ofNat, Nat.mod_eq_of_lt (by omega)]
    have e2 : sm.toNat = total (·.net) fs := by rw [hns, BitVec.toNat_ofNat, Nat.mod_eq_of_lt (by omega)]
    rw [BitVec.toNat_add, e1, e2, Nat.mod_eq_of_lt hlt] at hle
    have e3 : (a - sm).toNat = a.toNat - sm.toNat := BitVec.toNat_sub_of_le (by rw [BitVec.le_def, e2]; omega)
    refine ⟨hle, by rw [e3, e2]; omega, ?_⟩
    have a4 := (mvs.2 kv).1
    rw [(nt5 kv).1]
    rw [bal_token htv, e3] at a4
    simp only [if_true] at a4
    omega
  · refine depositMade (w1 := w2) (wc := w3) hdn (.inr ?_) b3 (Props.C45_lenField_depositSol _) (wd := w4.log _) ?_ b5 rfl
    · rw [dp2, dp1]
    · show w4.acc dp = _
      exact Still.xfer (S := fun _ => False) b4 dp id (by rw [s3]; rfl)
  · rw [pack_other b5 hdm]
    show (w4.acc mv).lamports = _
    have e3 : w3.acc mv = w2.acc mv := create_keeps (findAddr_create hdn) b3 hdm hfm
    rw [Still.xfer (S := fun _ => False) b4 mv id (by rw [e3]; exact ident_holds hmv2), e3, mv2, sys_gain b1 hfm]
  · refine Frame.drop (dp := dp) ?_ (by rw [← dp1, ← dp2]; exact ca.2.1)
    exact (Frame.sys b1).trans ((fr2.mono (fun _ h => .inr h)).trans ((Frame.create hdn b3).trans ((Frame.xfer b4).trans ((Frame.log _ _).trans
      (Frame.pack (.inl rfl) b5)))))
  · intro hm
    obtain ⟨g, hg, e⟩ := List.mem_map.1 hm
    obtain ⟨-, hw, -, n1, pn1, hk1⟩ := (hall g hg).1.withdrawal
    obtain ⟨hth, -, n2, pn2, hk2, -⟩ := loadToken_ok.1 (loadSol_token ht)
    have ht1 : Holds tokenSettingsC recLen (w1.acc kt) t.ts := Frame.holds (S := fun _ => False) (.sys b1) id hth
    rw [← e] at ht1
    have := kind_withdrawal_token hw ht1
    rw [hk1, hk2] at this
    cases this

end Verif.TP
