import Verif.Lemmas.LiveTok
/-!
# Filling withdrawals
-/
set_option linter.unusedSimpArgs false
namespace Verif.TP
open Codec Verif

variable {env : Env} {ctx : Ctx} {w w' w1 : World} {cpi : Pubkey → World → Except Err World}

theorem Payable.less {k mint : Pubkey} {n m : Nat} (h : Payable env w k mint n) (hle : m ≤ n) : Payable env w k mint m := by
  obtain ⟨ho, ⟨d, hd, hm, hf, ha⟩, hl⟩ := h
  exact ⟨ho, ⟨d, hd, hm, hf, by omega⟩, by omega⟩

theorem Spendable.less {k mint who : Pubkey} {n m : Nat} (h : Spendable env w k mint who n) (hle : m ≤ n) : Spendable env w k mint who m := by
  obtain ⟨ho, d, hd, hm, hw, hdl, hf, ha, hn⟩ := h
  exact ⟨ho, d, hd, hm, hw, hdl, hf, by omega, fun e => by have := hn e; omega⟩

theorem Payable.same {k mint : Pubkey} {n : Nat} (h : Payable env w k mint n) (hd : (w1.acc k).data = (w.acc k).data)
    (ho : (w1.acc k).owner = (w.acc k).owner) (hl : (w1.acc k).lamports = (w.acc k).lamports) : Payable env w1 k mint n := by
  obtain ⟨a, b, c⟩ := h
  exact ⟨ho.trans a, by rw [hd]; exact b, by rw [hl]; exact c⟩

theorem Spendable.same {k mint who : Pubkey} {n : Nat} (h : Spendable env w k mint who n) (hd : (w1.acc k).data = (w.acc k).data)
    (ho : (w1.acc k).owner = (w.acc k).owner) (hl : (w1.acc k).lamports = (w.acc k).lamports) : Spendable env w1 k mint who n := by
  obtain ⟨a, b⟩ := h
  exact ⟨ho.trans a, by rw [hd, hl]; exact b⟩

/-- A transfer that leaves both accounts fit for another `m` tokens. -/
theorem splTransfer_more {sg : Pubkey → Bool} {src dst auth mint : Pubkey} {n : U64} {m : Nat} (hspl : env.splId ∈ ctx.accounts) (hau : auth ∈ ctx.accounts)
    (hws : ctx.isWritable src = true) (hwd : ctx.isWritable dst = true) (hsg : sg auth = true) (hs : Spendable env w src mint auth (n.toNat + m))
    (hd : Payable env w dst mint (n.toNat + m)) : ∃ w1, splTransfer env ctx sg src dst auth n w = .ok w1 ∧ Eff [src, dst] w w1 ∧
      (∀ j, j ≠ src → j ≠ dst → w1.acc j = w.acc j) ∧ Spendable env w1 src mint auth m ∧
      (∀ j, Payable env w j mint (n.toNat + m) → Payable env w1 j mint m) ∧
      (∀ j d, (w.acc j).data = .token d → ∃ d', (w1.acc j).data = .token d' ∧ d'.owner = d.owner) := by
  obtain ⟨w1, h, he, -, -, ha⟩ := splTransfer_live hspl hau hws hwd hsg (hs.less (Nat.le_add_right _ _)) (hd.less (Nat.le_add_right _ _))
  refine ⟨w1, h, he, ha, ?_⟩
  obtain ⟨-, -, -, -, so, -, -, s, d, s', hsd, hdd, hmm, sfr, dfr, hn, hau', hcase⟩ := splTransfer_ok h
  obtain ⟨-, s2, hs2, sm, sow, sdel, -, sn, snat⟩ := hs
  rw [hsd] at hs2; cases hs2
  rw [spendAuth_owner_live sdel sow] at hau'; cases hau'
  rcases hcase with ⟨rfl, rfl⟩ | ⟨hne, -, -, -, h1, h2, h3⟩
  · exact ⟨⟨so, s, hsd, sm, sow, sdel, sfr, by omega, fun e => by have := snat e; omega⟩, fun j hj => hj.less (by omega), fun j d hd => ⟨d, hd, rfl⟩⟩
  · have hsub : (s.amount - n).toNat = s.amount.toNat - n.toNat := by
      rw [BitVec.toNat_sub]; have := n.isLt; have := s.amount.isLt; omega
    obtain ⟨-, ⟨d2, hd2, dm, -, dn⟩, dl⟩ := hd
    rw [hdd] at hd2; cases hd2
    have hadd : (d.amount + n).toNat = d.amount.toNat + n.toNat := by
      rw [BitVec.toNat_add]; exact Nat.mod_eq_of_lt (by omega)
    refine ⟨⟨by rw [h1], { s with amount := s.amount - n }, by rw [h1], sm, sow, sdel, sfr, by show m ≤ (s.amount - n).toNat; rw [hsub]; omega, ?_⟩, fun j hj => ?_, fun j e hj => ?_⟩
    · intro e
      have e' : s.isNative.isSome = true := e
      have := snat e'
      rw [h1, if_pos e']
      show m ≤ _ - _
      omega
    · by_cases e1 : j = src
      · subst e1
        obtain ⟨-, ⟨s3, hs3, -, -, b⟩, c⟩ := hj
        rw [hsd] at hs3; cases hs3
        refine ⟨by rw [h1], ⟨{ s with amount := s.amount - n }, by rw [h1], sm, sfr, by show (s.amount - n).toNat + m < _; omega⟩, ?_⟩
        have hl : (w1.acc j).lamports ≤ (w.acc j).lamports := by
          rw [h1]; dsimp only; split
          · exact Nat.sub_le _ _
          · exact Nat.le_refl _
        omega
      · by_cases e2 : j = dst
        · subst e2
          refine ⟨by rw [h2], ⟨{ d with amount := d.amount + n }, by rw [h2], dm, dfr, by show (d.amount + n).toNat + m < _; omega⟩, ?_⟩
          have hl : (w1.acc j).lamports ≤ (w.acc j).lamports + n.toNat := by
            rw [h2]; dsimp only; split
            · exact Nat.le_refl _
            · exact Nat.le_add_right _ _
          omega
        · exact (hj.less (by omega)).same (by rw [h3 j e1 e2]) (by rw [h3 j e1 e2]) (by rw [h3 j e1 e2])
    · by_cases e1 : j = src
      · subst e1; rw [hsd] at hj; cases hj; exact ⟨{ s with amount := s.amount - n }, by rw [h1], rfl⟩
      · by_cases e2 : j = dst
        · subst e2; rw [hdd] at hj; cases hj; exact ⟨{ d with amount := d.amount + n }, by rw [h2], rfl⟩
        · exact ⟨e, by rw [h3 j e1 e2]; exact hj, rfl⟩

/-- A withdrawal to be filled: its account, the token account it is paid to, and the amounts. -/
structure FillItem where
  k : Pubkey
  to : Pubkey
  r : Withdrawal WSolEvent
  fee : U64
  net : U64
  pay : U64

/-- The withdrawal can be filled with tokens of `mint`. -/
structure FillItem.Good (env : Env) (w : World) (mint : Pubkey) (fm : FeeInfo) (x : FillItem) : Prop where
  wd : WdReady wSolEventC env w x.k x.r
  pending : x.r.md.status = .pending
  mint : x.r.event.mint = mint
  held : ∃ d, (w.acc x.to).data = .token d ∧ d.owner = x.r.event.recipient
  fee : feeOf fm (x.r.event.amount.setWidth 64) = .ok x.fee
  net : x.net.toNat + x.fee.toNat = x.r.event.amount.toNat
  small : x.r.event.amount.toNat < 2 ^ 64
  pay : x.pay.toNat + x.r.md.bounty.toNat = x.net.toNat

/-- The accounts a list of items adds to the instruction. -/
def fillKeys : List FillItem → List Pubkey
  | [] => []
  | x :: xs => x.k :: x.to :: fillKeys xs

theorem fillOne_live {au ct dep mint : Pubkey} {t : SolToken} {x : FillItem} {m : Nat} (hd : env.Distinct) (hp : ctx.program = env.tpId)
    (ht : t.mint = mint) (hx : x.Good env w mint t.ts.feeWithdrawalInfo)
    (hspl : env.splId ∈ ctx.accounts) (hau : au ∈ ctx.accounts) (hsa : ctx.isSigner au = true) (hwc : ctx.isWritable ct = true)
    (hwk : ctx.isWritable x.k = true) (hwt : ctx.isWritable x.to = true)
    (hsp : Spendable env w ct mint au (x.pay.toNat + m)) (hpy : Payable env w x.to mint (x.pay.toNat + m)) :
    ∃ w1, fillOne env ctx au ct dep t x.k x.to w = .ok (x.fee, x.net, w1) ∧ Eff [ct, x.to, x.k] w w1 ∧
      (∀ j, j ≠ ct → j ≠ x.to → (w1.acc j).lamports = (w.acc j).lamports) ∧ Spendable env w1 ct mint au m ∧
      (∀ j, Payable env w j mint (x.pay.toNat + m) → Payable env w1 j mint m) ∧
      (∀ j d, j ≠ x.k → (w.acc j).data = .token d → ∃ d', (w1.acc j).data = .token d' ∧ d'.owner = d.owner) := by
  obtain ⟨w1, h1, e1, a1, s1, p1, o1⟩ := splTransfer_more (env := env) (ctx := ctx) (sg := ctx.signs) (m := m) hspl hau hwc hwt hsa hsp hpy
  have k_ct : x.k ≠ ct := ne_of_owner hx.wd.owner hsp.owner hd.tpSpl
  have k_to : x.k ≠ x.to := ne_of_owner hx.wd.owner hpy.owner hd.tpSpl
  have wd1 : WdReady wSolEventC env (w1.log (statusLog x.k .processed)) x.k x.r :=
    (hx.wd.eff e1 (by simp [k_ct, k_to])).eff ((Eff.refl [] w1).log (b := statusLog x.k .processed)) (by simp)
  obtain ⟨w2, h2, e2, l2⟩ := putWd_live (md := { x.r.md with status := .processed }) hp wd1 hwk
  have d2 : ∀ j, j ≠ x.k → (w2.acc j).data = (w1.acc j).data ∧ (w2.acc j).owner = (w1.acc j).owner := fun j hj => e2 j (by simpa using hj)
  have notk : ∀ j m, Payable env w j mint m → j ≠ x.k := fun j m hj => (ne_of_owner hx.wd.owner hj.owner hd.tpSpl).symm
  obtain ⟨d, hdd, hdo⟩ := hx.held
  have ham : (x.r.event.amount.setWidth 64 : U64).toNat = x.r.event.amount.toNat := by
    rw [BitVec.toNat_setWidth]; exact Nat.mod_eq_of_lt hx.small
  refine ⟨w2.log (liquidityLogC.enc ⟨dep, x.k⟩), ?_, ?_, ?_, ?_, ?_, ?_⟩
  · simp only [fillOne, bind_ok, require_ok, exists_const, tokenOf_ok, orErr_ok]
    refine ⟨x.r, loadWd_live hp hx.wd, hx.pending, ht.trans hx.mint.symm, d, hdd, hdo, hpy.owner, hx.small, x.fee, hx.fee, x.net,
      sub_live (by rw [ham]; exact hx.net), x.pay, sub_live hx.pay, w1, h1, w2, h2, rfl⟩
  · intro j hj
    simp only [List.mem_cons, List.not_mem_nil, or_false, not_or] at hj
    have a := d2 j hj.2.2
    have b := e1 j (by simp [hj.1, hj.2.1])
    exact ⟨a.1.trans b.1, a.2.trans b.2⟩
  · intro j hj hj'
    show (w2.acc j).lamports = _
    rw [l2 j]; show (w1.acc j).lamports = _
    rw [a1 j hj hj']
  · exact s1.same (d2 ct k_ct.symm).1 (d2 ct k_ct.symm).2 (l2 ct)
  · intro j hj
    have hk := notk j _ hj
    exact (p1 j hj).same (d2 j hk).1 (d2 j hk).2 (l2 j)
  · intro j d hj hjd
    obtain ⟨d', a, b⟩ := o1 j d hjd
    exact ⟨d', by show (w2.acc j).data = _; rw [(d2 j hj).1]; exact a, b⟩

/-- The loop over the withdrawals, with enough tokens for all of them and for `m` more. -/
theorem fillLoop_live {au ct dep mint : Pubkey} {t : SolToken} {m : Nat} {rest : List Pubkey} (hrest : rest.length ≤ 1) (hd : env.Distinct) (hp : ctx.program = env.tpId)
    (ht : t.mint = mint) (hspl : env.splId ∈ ctx.accounts) (hau : au ∈ ctx.accounts) (hsa : ctx.isSigner au = true) (hwc : ctx.isWritable ct = true) :
    ∀ (xs : List FillItem) (w : World) (fs sm : U64), (∀ x ∈ xs, x.Good env w mint t.ts.feeWithdrawalInfo) → (xs.map (·.k)).Nodup →
      (∀ x ∈ xs, ctx.isWritable x.k = true ∧ ctx.isWritable x.to = true) →
      Spendable env w ct mint au ((xs.map (·.pay.toNat)).sum + m) → (∀ x ∈ xs, Payable env w x.to mint ((xs.map (·.pay.toNat)).sum + m)) →
      fs.toNat + (xs.map (·.fee.toNat)).sum < 2 ^ 64 → sm.toNat + (xs.map (·.net.toNat)).sum < 2 ^ 64 →
      ∃ fs' sm' w1, fillLoop env ctx au ct dep t (fillKeys xs ++ rest) fs sm w = .ok (rest, fs', sm', w1) ∧
        fs'.toNat = fs.toNat + (xs.map (·.fee.toNat)).sum ∧ sm'.toNat = sm.toNat + (xs.map (·.net.toNat)).sum ∧
        Eff (ct :: fillKeys xs) w w1 ∧ (∀ j, j ≠ ct → j ∉ fillKeys xs → (w1.acc j).lamports = (w.acc j).lamports) ∧ Spendable env w1 ct mint au m := by
  intro xs
  induction xs with
  | nil =>
    intro w fs sm _ _ _ hsp _ _ _
    refine ⟨fs, sm, w, ?_, by simp, by simp, Eff.refl _ _, fun _ _ _ => rfl, by simpa using hsp⟩
    match rest, hrest with
    | [], _ => rfl
    | [_], _ => rfl
  | cons x xs ih =>
    intro w fs sm hg hnd hw hsp hpy hfs hsm
    simp only [List.map_cons, List.sum_cons, List.nodup_cons, List.mem_cons, forall_eq_or_imp] at hg hnd hw hsp hpy hfs hsm
    rw [Nat.add_assoc] at hsp hpy
    obtain ⟨w1, h1, e1, l1, s1, p1, o1⟩ := fillOne_live (dep := dep) (m := (xs.map (·.pay.toNat)).sum + m) hd hp ht hg.1 hspl hau hsa hwc hw.1.1 hw.1.2 hsp hpy.1
    have hfs1 : (fs + x.fee).toNat = fs.toNat + x.fee.toNat := by rw [BitVec.toNat_add]; exact Nat.mod_eq_of_lt (by omega)
    have hsm1 : (sm + x.net).toNat = sm.toNat + x.net.toNat := by rw [BitVec.toNat_add]; exact Nat.mod_eq_of_lt (by omega)
    have g1 : ∀ y ∈ xs, y.Good env w1 mint t.ts.feeWithdrawalInfo := by
      intro y hy
      have g := hg.2 y hy
      have k_x : y.k ≠ x.k := fun e => hnd.1 (e ▸ List.mem_map_of_mem hy)
      have k_ct : y.k ≠ ct := ne_of_owner g.wd.owner hsp.owner hd.tpSpl
      have k_to : y.k ≠ x.to := ne_of_owner g.wd.owner hpy.1.owner hd.tpSpl
      obtain ⟨d, hd1, hd2⟩ := g.held
      have to_k : y.to ≠ x.k := (ne_of_owner hg.1.wd.owner (hpy.2 y hy).owner hd.tpSpl).symm
      obtain ⟨d', hd3, hd4⟩ := o1 y.to d to_k hd1
      exact ⟨g.wd.eff e1 (by simp [k_x, k_ct, k_to]), g.pending, g.mint, ⟨d', hd3, hd4.trans hd2⟩, g.fee, g.net, g.small, g.pay⟩
    obtain ⟨fs', sm', w2, h2, a2, b2, e2, l2, s2⟩ := ih w1 (fs + x.fee) (sm + x.net) g1 hnd.2 hw.2 s1 (fun y hy => p1 y.to (hpy.2 y hy)) (by rw [hfs1]; omega)
      (by rw [hsm1]; omega)
    refine ⟨fs', sm', w2, ?_, ?_, ?_, ?_, ?_, s2⟩
    · simp only [fillKeys, List.cons_append, fillLoop, bind_ok]
      exact ⟨_, h1, h2⟩
    · simp only [List.map_cons, List.sum_cons]; rw [a2, hfs1]; omega
    · simp only [List.map_cons, List.sum_cons]; rw [b2, hsm1]; omega
    · intro j hj
      simp only [fillKeys, List.mem_cons, not_or] at hj
      have a := e1 j (by simp [hj.1, hj.2.1, hj.2.2.1])
      have b := e2 j (by simp [hj.1, hj.2.2.2])
      exact ⟨b.1.trans a.1, b.2.trans a.2⟩
    · intro j hj hj'
      simp only [fillKeys, List.mem_cons, not_or] at hj'
      rw [l2 j hj hj'.2.2, l1 j hj hj'.2.1]

theorem fillKeys_mem {xs : List FillItem} {k : Pubkey} (h : k ∈ fillKeys xs) : ∃ x ∈ xs, k = x.k ∨ k = x.to := by
  induction xs with
  | nil => cases h
  | cons x xs ih =>
    simp only [fillKeys, List.mem_cons] at h
    rcases h with h | h | h
    · exact ⟨x, List.mem_cons_self, .inl h⟩
    · exact ⟨x, List.mem_cons_self, .inr h⟩
    · obtain ⟨y, hy, e⟩ := ih h
      exact ⟨y, List.mem_cons_of_mem _ hy, e⟩

theorem sum_le_map {α : Type} (xs : List α) (f g : α → Nat) (h : ∀ x ∈ xs, f x ≤ g x) : (xs.map f).sum ≤ (xs.map g).sum := by
  induction xs with
  | nil => simp
  | cons x xs ih =>
    simp only [List.map_cons, List.sum_cons]
    have := h x List.mem_cons_self
    have := ih fun y hy => h y (List.mem_cons_of_mem _ hy)
    omega

theorem sum_map_add {α : Type} (xs : List α) (f g : α → Nat) : (xs.map fun x => f x + g x).sum = (xs.map f).sum + (xs.map g).sum := by
  induction xs with
  | nil => simp
  | cons x xs ih => simp only [List.map_cons, List.sum_cons, ih]; omega

/-- `process_fill_withdraw_sol` on healthy accounts. -/
theorem fill_live {f au ct kv dep mint kmv kt ks : Pubkey} {s : Settings} {t : TokenSettings} {v : TokenAcc} {m : MintAcc} {xs : List FillItem}
    {seed : U128} {amount fee net value : U64} {recipient : EverAddress} {evers : Pubkey} {payload : Bytes} {nd : U8}
    (hd : env.Distinct) (hp : ctx.program = env.tpId) (hs : Ready env w ks s) (hse : s.emergency = false)
    (h : SolReady env w mint kt kv t v) (hte : t.emergency = false) (hm : (w.acc mint).data = .mint m) (hmv : MultiReady env w kmv)
    (hacc : ctx.accounts = [f, au, ct, mint, dep, ks, env.systemId, kt, env.splId, env.rentId, kmv] ++ fillKeys xs ++ [kv])
    (hsf : ctx.isSigner f = true) (hsa : ctx.isSigner au = true) (hwf : ctx.isWritable f = true) (hwc : ctx.isWritable ct = true)
    (hwd : ctx.isWritable dep = true) (hwkv : ctx.isWritable kv = true) (hwv : ctx.isWritable kmv = true)
    (hwx : ∀ x ∈ xs, ctx.isWritable x.k = true ∧ ctx.isWritable x.to = true)
    (hdep : findAddr env (depositSeeds seed) env.tpId = .ok (dep, nd)) (hvac : Vacant env (w.acc dep))
    (hwal : Wallet env w f (max 1 (env.rent recLen) + value.toNat)) (hrent : env.rent recLen < 2 ^ 64)
    (hxs : ∀ x ∈ xs, x.Good env w mint t.feeWithdrawalInfo) (hnd : (xs.map (·.k)).Nodup)
    (hkv : ∀ x ∈ xs, x.to ≠ kv) (hct : ct ≠ kv)
    (hpay : ∀ x ∈ xs, Payable env w x.to mint amount.toNat)
    (hsum : (xs.map (·.r.event.amount.toNat)).sum ≤ amount.toNat)
    (hsp : Spendable env w ct mint au amount.toNat) (hlam : (w.acc kv).lamports + amount.toNat < 2 ^ 64)
    (hlim : v.amount.toNat + amount.toNat ≤ t.depositLimit.toNat)
    (hf : feeOf t.feeWithdrawalInfo amount = .ok fee) (hn : net.toNat + fee.toNat = amount.toNat)
    (hpl : t.name.length + t.symbol.length + payload.length ≤ 806) (hmax : (w.acc kmv).lamports + value.toNat < 2 ^ 64) :
    ∃ w', run env ctx cpi (.fillWithdrawSol seed recipient amount value evers payload) w = .ok w' := by
  obtain ⟨pn, pd, hl, -⟩ := loadNoEmergency_live hp hs hse
  obtain ⟨nn, vn, hls, hkk, hva⟩ := loadSol_live hp h
  obtain ⟨vo, vd, vm, vow, vdel, vfr⟩ := h.vault
  have hmo := hmv.owner
  have f_ct : f ≠ ct := ne_of_owner hwal.system hsp.owner hd.sysSpl
  have f_mv : f ≠ kmv := ne_of_owner hwal.system hmo hd.tpSys.symm
  have f_kv : f ≠ kv := ne_of_owner hwal.system vo hd.sysSpl
  have f_dep : f ≠ dep := by rintro rfl; have := hwal.rich; have := hvac.1; omega
  have dep_mv : dep ≠ kmv := ne_of_owner hvac.2.2 hmo hd.tpSys.symm
  have dep_ct : dep ≠ ct := ne_of_owner hvac.2.2 hsp.owner hd.sysSpl
  have dep_kv : dep ≠ kv := ne_of_owner hvac.2.2 vo hd.sysSpl
  have mv_ct : kmv ≠ ct := ne_of_owner hmo hsp.owner hd.tpSpl
  have mv_kv : kmv ≠ kv := ne_of_owner hmo vo hd.tpSpl
  have sys_keys : ∀ j, (w.acc j).owner = env.systemId → j ∉ fillKeys xs := by
    intro j hj hmem
    obtain ⟨x, hx, rfl | rfl⟩ := fillKeys_mem hmem
    · exact ne_of_owner hj (hxs x hx).wd.owner hd.tpSys.symm rfl
    · exact ne_of_owner hj (hpay x hx).owner hd.sysSpl rfl
  have kv_keys : kv ∉ fillKeys xs := by
    intro hmem
    obtain ⟨x, hx, e | e⟩ := fillKeys_mem hmem
    · exact ne_of_owner vo (hxs x hx).wd.owner hd.tpSpl.symm e
    · exact hkv x hx e.symm
  have hsys : env.systemId ∈ ctx.accounts := by rw [hacc]; simp
  -- the sums
  have hsum2 : (xs.map (·.net.toNat)).sum + (xs.map (·.fee.toNat)).sum = (xs.map (·.r.event.amount.toNat)).sum := by
    rw [← sum_map_add]
    congr 1
    exact List.map_congr_left fun x hx => (hxs x hx).net
  have hpays : (xs.map (·.pay.toNat)).sum ≤ (xs.map (·.net.toNat)).sum := sum_le_map _ _ _ fun x hx => by have := (hxs x hx).pay; omega
  have hamt := amount.isLt
  obtain ⟨w1, h1, e1, l1⟩ := sysTransfer_live (ctx := ctx) (n := value.toNat) hsys hwf hwv hsf (hwal.eff (Eff.refl [] w) (by simp) (by have := hwal.rich; omega)) f_mv hmax
  have same1 : ∀ j, j ≠ f → j ≠ kmv → (w1.acc j).data = (w.acc j).data ∧ (w1.acc j).owner = (w.acc j).owner ∧ (w1.acc j).lamports = (w.acc j).lamports := by
    intro j a b
    have c := e1 j (by simp)
    have d := l1 j
    rw [if_neg a, if_neg b] at d
    exact ⟨c.1, c.2, by simpa using d⟩
  have pay1 : ∀ x ∈ xs, Payable env w1 x.to mint amount.toNat := by
    intro x hx
    have p := hpay x hx
    obtain ⟨a, b, c⟩ := same1 x.to (ne_of_owner hwal.system p.owner hd.sysSpl).symm (ne_of_owner hmo p.owner hd.tpSpl).symm
    exact p.same a b c
  have sp1 : Spendable env w1 ct mint au amount.toNat := by
    obtain ⟨a, b, c⟩ := same1 ct f_ct.symm mv_ct.symm
    exact hsp.same a b c
  have good1 : ∀ x ∈ xs, x.Good env w1 mint t.feeWithdrawalInfo := by
    intro x hx
    have g := hxs x hx
    obtain ⟨d, a, b⟩ := g.held
    exact ⟨g.wd.eff e1 (by simp), g.pending, g.mint, ⟨d, by rw [(e1 x.to (by simp)).1]; exact a, b⟩, g.fee, g.net, g.small, g.pay⟩
  have hz : (0#64).toNat = 0 := rfl
  obtain ⟨fs, sm, w2, h2, a2, b2, e2, l2, s2⟩ := fillLoop_live (dep := dep) (t := ⟨t, mint, kv, vn⟩) (m := amount.toNat - (xs.map (·.net.toNat)).sum)
    (rest := [kv]) (by simp) hd hp rfl (by rw [hacc]; simp) (by rw [hacc]; simp) hsa hwc xs w1 0#64 0#64 good1 hnd hwx (sp1.less (by omega))
    (fun x hx => (pay1 x hx).less (by omega)) (by rw [hz]; omega) (by rw [hz]; omega)
  rw [hz, Nat.zero_add] at a2 b2
  have keep2 : ∀ j, (w.acc j).owner = env.systemId → (w2.acc j).data = (w1.acc j).data ∧ (w2.acc j).owner = (w1.acc j).owner ∧
      (w2.acc j).lamports = (w1.acc j).lamports := by
    intro j hj
    have a := sys_keys j hj
    have b : j ≠ ct := ne_of_owner hj hsp.owner hd.sysSpl
    have c := e2 j (by simp [a, b])
    exact ⟨c.1, c.2, l2 j b a⟩
  have wal2 : Wallet env w2 f (max 1 (env.rent recLen)) := by
    refine hwal.eff (e1.trans e2) ?_ ?_
    · simp [f_ct, sys_keys f hwal.system]
    · rw [(keep2 f hwal.system).2.2, l1 f, if_pos rfl, if_neg f_mv]
      have := hwal.rich; omega
  have vac2 : Vacant env (w2.acc dep) := by
    obtain ⟨a, b, c⟩ := keep2 dep hvac.2.2
    obtain ⟨a', b', c'⟩ := same1 dep f_dep.symm dep_mv
    exact ⟨by rw [c, c']; exact hvac.1, by rw [a, a']; exact hvac.2.1, by rw [b, b']; exact hvac.2.2⟩
  -- the deposit's account
  obtain ⟨w3, h3, a3, b3, l3⟩ := createPda_live (o := ctx.program) (env := env) (ctx := ctx) (by rw [hp]; exact hdep) vac2 f_dep hsys hwd hwf hsf wal2 hrent
  have kv3 : (w3.acc kv).data = .token v ∧ (w3.acc kv).owner = env.splId ∧ (w3.acc kv).lamports = (w.acc kv).lamports := by
    obtain ⟨a, b, c⟩ := same1 kv f_kv.symm mv_kv.symm
    have d := e2 kv (by simp [hct.symm, kv_keys])
    have e := b3 kv (by simpa using dep_kv.symm)
    have g := l3 kv dep_kv.symm
    rw [if_neg f_kv.symm] at g
    exact ⟨by rw [e.1, d.1, a]; exact vd, by rw [e.2, d.2, b]; exact vo, by rw [g, l2 kv hct.symm kv_keys, c]; rfl⟩
  have sp3 : Spendable env w3 ct mint au (amount.toNat - (xs.map (·.net.toNat)).sum) := by
    have e := b3 ct (by simpa using dep_ct.symm)
    have g := l3 ct dep_ct.symm
    rw [if_neg f_ct.symm] at g
    exact s2.same e.1 e.2 g
  have hsub : (amount - sm).toNat = amount.toNat - (xs.map (·.net.toNat)).sum := by
    rw [BitVec.toNat_sub]; have := sm.isLt; omega
  have hfit : v.amount.toNat + amount.toNat < 2 ^ 64 := Nat.lt_of_le_of_lt hlim t.depositLimit.isLt
  obtain ⟨total, htotal⟩ := add_live (a := v.amount) (b := amount) hfit
  have htot : total.toNat ≤ t.depositLimit.toNat := by rw [checkedAdd_some.1 htotal]; exact hlim
  obtain ⟨w4, h4, e4, -, -, a4⟩ := splTransfer_live (env := env) (ctx := ctx) (sg := ctx.signs) (src := ct) (dst := kv) (auth := au) (mint := mint) (n := amount - sm)
    (by rw [hacc]; simp) (by rw [hacc]; simp) hwc hwkv hsa (by rw [hsub]; exact sp3) ⟨kv3.2.1, ⟨v, kv3.1, vm, vfr, by omega⟩, by rw [kv3.2.2]; omega⟩
  have hnm : validUtf8 t.name = true ∧ validUtf8 t.symbol = true := by
    have hw := (fits_of_holds h.here.2.1).1
    simp only [tokenSettingsC, wf_iso, wf_pair, Bool.and_eq_true, wf_str] at hw
    exact ⟨hw.2.2.2.1.2, hw.2.2.2.2.1.2⟩
  have hfitd := depositSol_fits (len := DepositSolEvent.lenField ⟨mint, t.name, t.symbol, m.decimals, net.setWidth 128, recipient, value, evers, payload⟩) (n := nd) (au := au) (seed := seed) (e := ⟨mint, t.name, t.symbol, m.decimals, net.setWidth 128, recipient, value, evers, payload⟩) hnm.1 hnm.2 hpl
  obtain ⟨w5, h5, -⟩ := pack_live (ctx := ctx) (w := w4.log (depositLog env depositSolEventC dep recipient (net.setWidth 128) seed value evers
      ⟨mint, t.name, t.symbol, m.decimals, net.setWidth 128, recipient, value, evers, payload⟩)) (k := dep) (b := zeros recLen) (c := depositC depositSolEventC)
      (a := depositRecord nd au (DepositSolEvent.lenField ⟨mint, t.name, t.symbol, m.decimals, net.setWidth 128, recipient, value, evers, payload⟩)
      ⟨mint, t.name, t.symbol, m.decimals, net.setWidth 128, recipient, value, evers, payload⟩ seed)
    (by show (w4.acc dep).data = _; rw [a4 dep dep_ct dep_kv, a3]) (RL.zeros_len _) hfitd.1 hfitd.2 hwd
    (by show (w4.acc dep).owner = _; rw [a4 dep dep_ct dep_kv, a3])
  refine ⟨w5, ?_⟩
  have hdrop : ctx.accounts.drop 11 = fillKeys xs ++ [kv] := by rw [hacc]; simp
  have hle : (fs + sm).toNat ≤ amount.toNat := by
    rw [BitVec.toNat_add, Nat.mod_eq_of_lt (by omega)]; omega
  have hm1 : (w1.acc mint).data = .mint m := by rw [(e1 mint (by simp)).1]; exact hm
  simp only [run, processFill, bind_ok, acct_ok, sysvar_ok, require_ok, exists_const, ex_unit, Prod.exists, deriveAt_ok, mintOf_ok, tokenOf_ok, validatePda_ok,
    orErr_ok, hdrop]
  exact ⟨f, by rw [hacc]; rfl, au, by rw [hacc]; rfl, ct, by rw [hacc]; rfl, mint, by rw [hacc]; rfl, dep, by rw [hacc]; rfl, ks, by rw [hacc]; rfl,
    env.systemId, by rw [hacc]; rfl, kt, by rw [hacc]; rfl, env.splId, by rw [hacc]; rfl, env.rentId, by rw [hacc]; rfl, kmv, by rw [hacc]; rfl,
    rfl, hsa, s, pn, hl, _, hls, hte, loadMulti_live hp hmv, w1, h1, .inl rfl, m, hm1, nd, by rw [hp]; exact hdep, [kv], fs, sm, w2, h2, w3, h3, hle, kv, rfl,
    hva, v, kv3.1, total, htotal, htot, w4, h4, fee, hf, net, sub_live hn, h5⟩

end Verif.TP
