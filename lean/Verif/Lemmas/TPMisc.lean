import Verif.Lemmas.TPPay
import Verif.Lemmas.TPFee
import Verif.Lemmas.Vault
/-!
# Effects of the remaining instructions: proxy accounts, bounties, closing
-/
set_option linter.unusedSimpArgs false
namespace Verif.TP
open Codec Verif

variable {env : Env} {L : Pubkey → Prop} {ctx : Ctx} {w w' : World} {cpi : Pubkey → World → Except Err World}

theorem withdrawProxy_fx {a : U64} (h : run env ctx cpi (.withdrawProxy a) w = .ok w') :
    ∃ c rc px mi, ctx.accounts[0]? = some c ∧ ctx.accounts[1]? = some rc ∧ ctx.accounts[2]? = some px ∧ ctx.accounts[3]? = some mi ∧
      ctx.isSigner c = true ∧ IsAddr env ctx.program (proxySeeds mi c) px ∧ Moves px rc a.toNat w w' ∧
      (∃ m, IsToken env w px m ∧ IsToken env w rc m) ∧ w'.logs = w.logs ∧ ∀ j, j ≠ px → j ≠ rc → w'.acc j = w.acc j := by
  simp only [run, processWithdrawProxy, bind_ok, acct_ok, require_ok, exists_const, ex_unit, deriveAt_ok, pdaSigns_ok] at h
  obtain ⟨c, h0, rc, h1, px, h2, mi, h3, hsig, n, hn, sg, -, h⟩ := h
  have hm := moves_of h
  obtain ⟨-, -, -, -, ho1, ho2, -, s, d, s', hs, hd, hsd, -, -, -, -, hor⟩ := splTransfer_ok h
  refine ⟨c, rc, px, mi, h0, h1, h2, h3, hsig, ⟨n, hn⟩, hm, ⟨s.mint, ⟨ho1, s, hs, rfl⟩, ho2, d, hd, hsd.symm⟩, ?_, ?_⟩
  · rcases hor with ⟨-, rfl⟩ | ⟨-, -, hl, -⟩
    · rfl
    · exact hl
  · rcases hor with ⟨-, rfl⟩ | ⟨-, -, -, -, -, -, hk⟩
    · exact fun _ _ _ => rfl
    · exact hk

theorem closeDeposit_fx (h : run env ctx cpi .closeDeposit w = .ok w') :
    ∃ k sd, ∃ d : GenericDeposit, ∃ b r, ctx.accounts[0]? = some d.author ∧ ctx.accounts[1]? = some k ∧ ctx.isSigner d.author = true ∧
      (w.acc k).data = .raw b ∧ genericDepositC.dec b = some (d, r) ∧ d.metaData = u128.enc sd ∧ IsAddr env ctx.program (depositSeeds sd) k ∧
      (w.acc k).owner = ctx.program ∧ d.author ≠ k ∧
      w'.acc k = ⟨0, env.systemId, .raw (zeros (w.acc k).data.len)⟩ ∧ w'.logs = w.logs ∧
      ∀ x, x ≠ k → w'.acc x = { w.acc x with lamports := (w.acc x).lamports + (if x = d.author then (w.acc k).lamports else 0) } := by
  simp only [run, processCloseDeposit, bind_ok, acct_ok, require_ok, exists_const, ex_unit, decRaw_ok, orErr_ok, intoDeposit_some, validateDeposit,
    validatePda_ok] at h
  obtain ⟨au, h0, k, h1, hsig, d, ⟨b, r, hb, hd⟩, sd, hsd, n, hn, ha, rfl, h⟩ := h
  obtain ⟨hne, w1, h1', h2⟩ := deleteAccount_ok h
  obtain ⟨-, -, -, -, hlog, hacc⟩ := moveLamports_ok h1'
  simp only [zeroAccount, bind_ok, require_ok, exists_const, Except.ok.injEq] at h2
  obtain ⟨ho, -, rfl⟩ := h2
  refine ⟨k, sd, d, b, r, h0, h1, hsig, hb, hd, ?_, ⟨n, ha⟩, ?_, hne, ?_, hlog, ?_⟩
  · exact ((u128.decAll_iff _ _).1 hsd).2
  · rw [hacc k] at ho; exact ho
  · simp [hacc k, hne.symm]
  · intro x hx
    rw [World.set_other _ _ hx, hacc x]
    simp [hx]

theorem changeBounty_fx {b : U64} (h : run env ctx cpi (.changeBountyForWithdrawSol b) w = .ok w') :
    ∃ au kw r, ctx.accounts[0]? = some au ∧ ctx.accounts[1]? = some kw ∧ ctx.isSigner au = true ∧ WithdrawalOf wSolEventC env ctx w kw r ∧
      r.md.status = .pending ∧ (r.author = au ∨ r.event.recipient = au) ∧ (r.md.bounty ≠ b → (w.acc kw).owner = ctx.program) ∧
      Holds (withdrawalC wSolEventC) recLen (w'.acc kw) { r with md := { r.md with bounty := b } } ∧ OnlyData kw w w' ∧ w'.logs = w.logs := by
  simp only [run, processChangeBounty, bind_ok, acct_ok, require_ok, exists_const, ex_unit] at h
  obtain ⟨au, h0, kw, h1, hsig, r, hr, hst, hau, h⟩ := h
  refine ⟨au, kw, r, h0, h1, hsig, withdrawalOf hr, hst, hau, ?_, RL.pack_holds h, pack_only h, pack_logs h⟩
  intro hb
  refine (RL.pack_owner h (loadWithdrawal_ok.1 hr).1 fun e => hb ?_).1
  exact congrArg (fun x => x.md.bounty) e.symm

/-- A token account of `o` that nobody else may spend from. -/
def Plain (o : Pubkey) (a : Account) : Prop := ∃ t : TokenAcc, a.data = .token t ∧ t.delegate = none ∧ t.owner = o

theorem Plain.xfer {sg : Pubkey → Bool} {src dst auth o k : Pubkey} {n : U64} (h : splTransfer env ctx sg src dst auth n w = .ok w')
    (hp : Plain o (w.acc k)) : Plain o (w'.acc k) := by
  obtain ⟨x, hx, h1, h2⟩ := hp
  obtain ⟨-, -, -, -, -, -, -, s, d, s', hs, hd, -, -, -, -, hsp, hor⟩ := splTransfer_ok h
  rcases hor with ⟨-, rfl⟩ | ⟨-, -, -, -, e1, e2, e3⟩
  · exact ⟨x, hx, h1, h2⟩
  · by_cases hk : k = src
    · subst hk
      rw [hx] at hs; cases hs
      obtain ⟨rfl, -⟩ := spendAuth_owner h1 hsp
      exact ⟨_, congrArg Account.data e1, h1, h2⟩
    · by_cases hk' : k = dst
      · subst hk'
        rw [hx] at hd; cases hd
        exact ⟨_, congrArg Account.data e2, h1, h2⟩
      · exact ⟨x, by rw [e3 k hk hk']; exact hx, h1, h2⟩

theorem Plain.pack {α : Type} {c : Codec α} {len : Nat} {a : α} {o k x : Pubkey} (h : pack ctx c len a k w = .ok w')
    (hp : Plain o (w.acc x)) : Plain o (w'.acc x) := by
  by_cases hx : x = k
  · subst hx
    obtain ⟨b, b', hb, -⟩ := pack_ok.1 h
    obtain ⟨t, ht, -⟩ := hp
    rw [hb] at ht; cases ht
  · rw [pack_other h hx]; exact hp

theorem fillLoop_plain {au at_ dp o k : Pubkey} {t : SolToken} :
    ∀ (l : List Pubkey) {x y : U64} {w : World} {l' : List Pubkey} {x' y' : U64},
    fillLoop env ctx au at_ dp t l x y w = .ok (l', x', y', w') → Plain o (w.acc k) → Plain o (w'.acc k)
  | kw :: rt :: rest, x, y, w, l', x', y', h, hp => by
    simp only [fillLoop, bind_ok, Prod.exists] at h
    obtain ⟨fee, net, w1, h1, h2⟩ := h
    simp only [fillOne, bind_ok, require_ok, exists_const, ex_unit, orErr_ok, Except.ok.injEq, Prod.mk.injEq] at h1
    obtain ⟨r, -, -, -, tk, -, -, -, -, fe, -, ne, -, tr, -, w2, b1, w3, b2, -, -, rfl⟩ := h1
    refine fillLoop_plain rest h2 ?_
    have h3 : Plain o (w2.acc k) := hp.xfer b1
    have h4 : Plain o (w3.acc k) := Plain.pack (w := w2.log _) b2 h3
    exact h4
  | [], _, _, _, _, _, _, h, hp => by simp only [fillLoop, Except.ok.injEq, Prod.mk.injEq] at h; obtain ⟨-, -, -, rfl⟩ := h; exact hp
  | [_], _, _, _, _, _, _, h, hp => by simp only [fillLoop, Except.ok.injEq, Prod.mk.injEq] at h; obtain ⟨-, -, -, rfl⟩ := h; exact hp

/-- A fill takes tokens from an account without delegate only if its owner signs. -/
theorem fill_auth {sd : U128} {rc : EverAddress} {a v : U64} {ev : Pubkey} {py : Bytes} {at_ o : Pubkey}
    (h : run env ctx cpi (.fillWithdrawSol sd rc a v ev py) w = .ok w') (h2 : ctx.accounts[2]? = some at_) (hp : Plain o (w.acc at_)) :
    ctx.isSigner o = true := by
  simp only [run, processFill, bind_ok, acct_ok, sysvar_ok, require_ok, exists_const, ex_unit, deriveAt_ok, mintOf_ok, orErr_ok, Prod.exists] at h
  obtain ⟨f, h0, au, h1, at', h2', mi, h3, dp, h4, ks, -, -, -, kt, h7, -, -, rent, -, mv, h10, -, hsig, ss, sn, hss, t, ht, hem, hmv, w1, b1, hmi,
    m, hm, dn, hdn, rest, fsum, sm, w2, b2, w3, b3, hle, kv, hkv, hva, tv, htv, tot, htot, hlim, w4, b4, fee, hfee, net, hnet, b5⟩ := h
  rw [h2] at h2'; cases h2'
  have p1 : Plain o (w1.acc at_) := by
    obtain ⟨x, hx, q⟩ := hp
    exact ⟨x, by rw [sysTransfer_acc b1 at_]; exact hx, q⟩
  obtain ⟨x2, hx2, q1, q2⟩ := fillLoop_plain _ b2 p1
  obtain ⟨-, -, -, -, -, -, -, s, d, s', hs, -, -, -, -, -, hsp, -⟩ := splTransfer_ok b4
  have ca := createPda_ok (findAddr_create hdn) b3
  have hne : at_ ≠ dp := by
    rintro rfl
    have := ca.2.1
    rw [hx2] at this
    cases this
  have := (createPda_acc (findAddr_create hdn) b3 at_ hne).1
  rw [hs, hx2] at this
  cases this
  obtain ⟨-, rfl⟩ := spendAuth_owner q1 hsp
  exact q2 ▸ hsig

end Verif.TP
