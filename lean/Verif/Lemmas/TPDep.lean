import Verif.Lemmas.TPPay
import Verif.Spec.Deposits
import Verif.Props.Encoding
/-!
# Effects of deposits
-/
set_option linter.unusedSimpArgs false
namespace Verif.TP
open Codec Verif

variable {env : Env} {L : Pubkey → Prop} {ctx : Ctx} {w w' w0 w1 w2 : World} {k : Pubkey} {i : Instr}

namespace Frame

theorem refl (S : Pubkey → Prop) (w : World) : Frame S w w := fun _ _ _ h _ => ⟨h, rfl⟩

theorem trans {S : Pubkey → Prop} (h : Frame S w w1) (h' : Frame S w1 w2) : Frame S w w2 := by
  intro j b hj hb hn
  obtain ⟨h1, h2⟩ := h j b hj hb hn
  obtain ⟨h3, h4⟩ := h' j b hj h1 hn
  exact ⟨h3, h4.trans h2⟩

theorem log (S : Pubkey → Prop) (b : Bytes) : Frame S w (w.log b) := fun _ _ _ h _ => ⟨h, rfl⟩

theorem sys {S : Pubkey → Prop} {sg : Pubkey → Bool} {src dst : Pubkey} {n : Nat} (h : sysTransfer env ctx sg src dst n w = .ok w') :
    Frame S w w' := by
  intro j b _ hb _
  rw [sysTransfer_acc h j]
  exact ⟨hb, rfl⟩

theorem create {S : Pubkey → Prop} {f k : Pubkey} {seeds : List Bytes} {n : U8} {space : Nat} {o : Pubkey}
    (ha : findAddr env seeds ctx.program = .ok (k, n)) (h : createPda env ctx f k seeds n space o w = .ok w') : Frame S w w' := by
  intro j b _ hb hn
  have hl := (createPda_ok (findAddr_create ha) h).2.1
  have hne : j ≠ k := by
    rintro rfl
    rw [hb] at hl
    exact hn (List.length_eq_zero_iff.1 hl)
  have := createPda_acc (findAddr_create ha) h j hne
  rw [this.1, this.2]
  exact ⟨hb, rfl⟩

theorem xfer {S : Pubkey → Prop} {sg : Pubkey → Bool} {src dst auth : Pubkey} {n : U64}
    (h : splTransfer env ctx sg src dst auth n w = .ok w') : Frame S w w' := by
  intro j b _ hb _
  have := raw_xfer h j
  rw [this.2 b hb]
  exact ⟨hb, rfl⟩

theorem burn {S : Pubkey → Prop} {sg : Pubkey → Bool} {src mint auth : Pubkey} {n : U64}
    (h : splBurn env ctx sg src mint auth n w = .ok w') : Frame S w w' := by
  obtain ⟨-, -, -, -, -, -, -, -, m, s, s', hm, hs, -, -, -, -, -, -, -, -, -, h3⟩ := splBurn_ok h
  intro j b _ hb _
  have h1 : j ≠ mint := by rintro rfl; rw [hm] at hb; cases hb
  have h2 : j ≠ src := by rintro rfl; rw [hs] at hb; cases hb
  rw [h3 j h1 h2]
  exact ⟨hb, rfl⟩

theorem pack {S : Pubkey → Prop} {α : Type} {c : Codec α} {len : Nat} {a : α} {k : Pubkey} (hS : S k)
    (h : pack ctx c len a k w = .ok w') : Frame S w w' := by
  intro j b hj hb _
  have hne : j ≠ k := by rintro rfl; exact hj hS
  rw [pack_other h hne]
  exact ⟨hb, rfl⟩

theorem mono {S T : Pubkey → Prop} (hST : ∀ j, S j → T j) (h : Frame S w w') : Frame T w w' :=
  fun j b hj hb hn => h j b (fun hs => hj (hST j hs)) hb hn

theorem holds {S : Pubkey → Prop} {α : Type} {c : Codec α} {x : α} (h : Frame S w w') (hk : ¬ S k) (h0 : Holds c recLen (w.acc k) x) :
    Holds c recLen (w'.acc k) x := by
  obtain ⟨b, r, hb, hl, hd⟩ := h0
  exact ⟨b, r, (h k b hk hb (by rintro rfl; cases hl)).1, hl, hd⟩

theorem owner {S : Pubkey → Prop} {α : Type} {c : Codec α} {x : α} (h : Frame S w w') (hk : ¬ S k) (h0 : Holds c recLen (w.acc k) x) :
    (w'.acc k).owner = (w.acc k).owner := by
  obtain ⟨b, r, hb, hl, hd⟩ := h0
  exact (h k b hk hb (by rintro rfl; cases hl)).2

/-- An account that was empty needs no exception. -/
theorem drop {S : Pubkey → Prop} {dp : Pubkey} (h : Frame (fun j => j = dp ∨ S j) w w') (hd : (w.acc dp).data.len = 0) : Frame S w w' := by
  intro j b hj hb hn
  refine h j b ?_ hb hn
  rintro (rfl | e)
  · rw [hb] at hd; exact hn (List.length_eq_zero_iff.1 hd)
  · exact hj e

end Frame

/-- The record of a deposit reads the same through the generic view. -/
theorem generic_of {E : Type} {ec : Codec E} {a : Account} {d : Deposit E} (h : Holds (depositC ec) recLen a d)
    (he : d.eventLen = BitVec.ofNat 32 (ec.enc d.event).length) (hm : d.metaLen = 16#32) :
    Holds genericDepositC recLen a ⟨d.isInitialized, d.accountKind, d.author, ec.enc d.event, u128.enc d.seed⟩ := by
  obtain ⟨b, r, hb, hl, hd⟩ := h
  obtain ⟨-, rfl⟩ := ((depositC ec).law _ _ _).1 hd
  refine ⟨_, r, hb, hl, Props.C45_deposit ec d r ?_ he hm⟩
  have h1 : (ec.enc d.event).length ≤ ((depositC ec).enc d).length := by
    simp only [depositC, enc_iso, enc_pair, List.length_append]; omega
  rw [List.length_append] at hl
  have : recLen < 2 ^ 32 := by decide
  omega

/-- Creating the record of a deposit: `w1` is the state in which its account is created, `w2` the one in which it is written. -/
theorem depositMade {E : Type} {ec : Codec E} {f dp author : Pubkey} {sd : U128} {n : U8} {len : U32} {e : E} {wc wd wp : World}
    (ha : findAddr env (depositSeeds sd) ctx.program = .ok (dp, n))
    (h0 : (w.acc dp).lamports = 0 ∧ (w.acc dp).data.len = 0 ∨ w.acc dp = w1.acc dp)
    (hc : createPda env ctx f dp (depositSeeds sd) n recLen ctx.program w1 = .ok wc) (hl : len = BitVec.ofNat 32 (ec.enc e).length)
    (hk : wd.acc dp = wc.acc dp) (hp : putDeposit ctx ec (depositRecord n author len e sd) dp wd = .ok wp)
    (hk' : w'.acc dp = wp.acc dp) : DepositMade ec env ctx w w' dp author sd e := by
  have hv := createPda_ok (findAddr_create ha) hc
  have hs := createPda_self (findAddr_create ha) hc
  have pa := RL.pack_acc hp dp
  have hh : Holds (depositC ec) recLen (wp.acc dp) (depositRecord n author len e sd) := RL.pack_holds hp
  refine ⟨⟨n, ha⟩, ?_, ?_, ?_, ?_, ?_⟩
  · rcases h0 with h0 | h0
    · exact h0
    · rw [h0]; exact ⟨hv.1, hv.2.1⟩
  · rw [hk', pa.1, hk, hs]
  · rw [hk', pa.2.1, hk, hs]
  · rw [hk']; exact ⟨n, len, 16#32, hh⟩
  · rw [hk']; exact ⟨n, generic_of hh hl rfl⟩

theorem xfer_empty {sg : Pubkey → Bool} {src dst auth : Pubkey} {n : U64} (h : splTransfer env ctx sg src dst auth n w = .ok w')
    (hl : (w'.acc k).data.len = 0 ∨ (w.acc k).data.len = 0) : w'.acc k = w.acc k := by
  obtain ⟨-, -, -, -, h1, h2, -, s, d, s', hs, hd, -, -, -, hn, hsp, hor⟩ := splTransfer_ok h
  rcases hor with ⟨rfl, rfl⟩ | ⟨hne, hov, -, -, e1, e2, e3⟩
  · rfl
  · by_cases hk : k = src
    · subst hk; rw [e1, hs] at hl; rcases hl with hl | hl <;> cases hl
    · by_cases hk' : k = dst
      · subst hk'; rw [e2, hd] at hl; rcases hl with hl | hl <;> cases hl
      · exact e3 k hk hk'

theorem burn_empty {sg : Pubkey → Bool} {src mint auth : Pubkey} {n : U64} (h : splBurn env ctx sg src mint auth n w = .ok w')
    (hl : (w'.acc k).data.len = 0) : w'.acc k = w.acc k := by
  obtain ⟨-, -, -, -, -, -, -, -, m, s, s', hm, hs, -, -, -, -, -, -, -, h1, h2, h3⟩ := splBurn_ok h
  have e1 : k ≠ mint := by rintro rfl; rw [h1] at hl; cases hl
  have e2 : k ≠ src := by rintro rfl; rw [h2] at hl; cases hl
  exact h3 k e1 e2

theorem sys_other {sg : Pubkey → Bool} {src dst : Pubkey} {n : Nat} (h : sysTransfer env ctx sg src dst n w = .ok w') (h1 : k ≠ src)
    (h2 : k ≠ dst) : w'.acc k = w.acc k := by
  rw [sysTransfer_acc h k]
  simp only [h1, h2, if_false, Nat.sub_zero, Nat.add_zero]

theorem sys_gain {sg : Pubkey → Bool} {src dst : Pubkey} {n : Nat} (h : sysTransfer env ctx sg src dst n w = .ok w') (h1 : dst ≠ src) :
    (w'.acc dst).lamports = (w.acc dst).lamports + n := by
  rw [sysTransfer_acc h dst]
  simp only [h1, if_false, if_true, Nat.sub_zero]

theorem holds_len {α : Type} {c : Codec α} {a : Account} {x : α} (h : Holds c recLen a x) : a.data.len = recLen := by
  obtain ⟨b, r, hb, hl, -⟩ := h
  rw [hb]; exact hl

theorem create_logs {f k : Pubkey} {seeds : List Bytes} {n : U8} {space : Nat} {o : Pubkey}
    (ha : env.createAddr (seeds ++ [[n]]) ctx.program = some k) (h : createPda env ctx f k seeds n space o w = .ok w') : w'.logs = w.logs := by
  obtain ⟨-, -, -, -, -, -, -, -, -, -, -, rfl⟩ := createPda_ok ha h
  rfl

theorem sys_logs {sg : Pubkey → Bool} {src dst : Pubkey} {n : Nat} (h : sysTransfer env ctx sg src dst n w = .ok w') : w'.logs = w.logs := by
  obtain ⟨-, -, -, -, -, -, -, rfl⟩ := sysTransfer_ok.1 h
  rfl

theorem xfer_logs {sg : Pubkey → Bool} {src dst auth : Pubkey} {n : U64} (h : splTransfer env ctx sg src dst auth n w = .ok w') :
    w'.logs = w.logs := by
  obtain ⟨-, -, -, -, h1, h2, -, s, d, s', hs, hd, -, -, -, hn, hsp, hor⟩ := splTransfer_ok h
  rcases hor with ⟨rfl, rfl⟩ | ⟨hne, hov, hl, -⟩
  · rfl
  · exact hl

theorem create_keeps {f k j : Pubkey} {seeds : List Bytes} {n : U8} {space : Nat} {o : Pubkey}
    (ha : env.createAddr (seeds ++ [[n]]) ctx.program = some k) (h : createPda env ctx f k seeds n space o w = .ok w') (h1 : j ≠ k) (h2 : j ≠ f) :
    w'.acc j = w.acc j := by
  obtain ⟨-, -, -, -, -, -, -, -, -, -, -, rfl⟩ := createPda_ok ha h
  simp only [setLamports_acc, h2, if_false, World.set_other _ _ h1]

theorem feeOf_pos {f : FeeInfo} {a fee : U64} (h : feeOf f a = .ok fee) : 0 < fee.toNat := by
  simp only [feeOf, bind_ok, orErr_ok, Except.ok.injEq] at h
  obtain ⟨q, -, p, -, rfl⟩ := h
  split
  · decide
  · rename_i hp
    rcases Nat.eq_zero_or_pos p.toNat with e | e
    · exact (hp (BitVec.eq_of_toNat_eq e)).elim
    · exact e

/-- A deposit of a token of Everscale. -/
theorem depositEver_fx {sd : U128} {a : U64} {rc : EverAddress} {v : U64} {ev : Pubkey} {py : Bytes}
    (h : run env ctx cpi (.depositMultiTokenEver sd a rc v ev py) w = .ok w') :
    ∃ f cr ct dp mi mv kt t mk token d m t' fee net tr, ctx.accounts[0]? = some f ∧ ctx.accounts[1]? = some cr ∧ ctx.accounts[2]? = some ct ∧
      ctx.accounts[3]? = some dp ∧ ctx.accounts[4]? = some mi ∧ ctx.accounts[5]? = some mv ∧ ctx.accounts[6]? = some kt ∧
      ctx.isSigner cr = true ∧ TokenOf env ctx w kt t ∧ t.kind = .ever mk token d ∧ t.emergency = false ∧
      IsAddr env ctx.program (mintSeeds env token) mi ∧ (w.acc mi).data = .mint m ∧ IsAddr env ctx.program multiVaultSeeds mv ∧
      feeOf t.feeDepositInfo a = .ok fee ∧ net.toNat + fee.toNat = a.toNat ∧ getDepositAmount net d m.decimals = .ok tr ∧
      Burns ct mi a.toNat w w' ∧ IsToken env w ct mi ∧ (∃ s s', (w.acc ct).data = .token s ∧ spendAuth s cr a = .ok s') ∧
      DepositMade depositEverEventC env ctx w w' dp cr sd ⟨token, tr, rc, v, ev, py⟩ ∧
      Holds tokenSettingsC recLen (w'.acc kt) t' ∧ t' = { t with feeSupply := t'.feeSupply } ∧
      t'.feeSupply.toNat = t.feeSupply.toNat + fee.toNat ∧ (w'.acc kt).owner = (w.acc kt).owner ∧ (w.acc kt).owner = ctx.program ∧
      (w'.acc mv).lamports = (w.acc mv).lamports + v.toNat ∧
      w'.logs = (w.log (depositLog env depositEverEventC dp rc tr sd v ev ⟨token, tr, rc, v, ev, py⟩)).logs ∧
      Frame (fun j => j = kt) w w' := by
  simp only [run, processDepositEver, bind_ok, acct_ok, sysvar_ok, require_ok, exists_const, ex_unit, deriveAt_ok, mintOf_ok, orErr_ok, Prod.exists,
    validatePda_ok, checkedAdd_some, checkedSub_some] at h
  obtain ⟨f, h0, cr, h1, ct, h2, dp, h3, mi, h4, mv, h5, kt, h6, ks, -, -, -, -, -, rent, -, -, hsig, ss, sn, hss, t, ht, hem, hmi, m, hm, hmv,
    w1, b1, dn, hdn, w2, b2, fee, hfee, sup, hsup, net, hnet, tr, htr, w3, b3, w4, b4, b5⟩ := h
  obtain ⟨ht1, ht2, mk, n, hk, -⟩ := loadEver_ok.1 ht
  obtain ⟨x, hmvh, -, xn, -, hmva⟩ := loadMultiVault_ok.1 hmv
  have hto := TP.tokenOf (loadEver_token ht)
  obtain ⟨-, -, -, -, ho1, ho2, -, hne, m0, s, s', hm0, hs, hsm, -, -, hsp, -⟩ := splBurn_ok b1
  have ca := createPda_ok (findAddr_create hdn) b2
  have z2 := createPda_self (findAddr_create hdn) b2
  have fr1 : Frame (fun _ => False) w w1 := .burn b1
  have fr2 : Frame (fun _ => False) w w2 := fr1.trans (.create hdn b2)
  have kt2 : Holds tokenSettingsC recLen (w2.acc kt) t.ts := fr2.holds id ht1
  have mv2 : Holds multiVaultC recLen (w2.acc mv) x := fr2.holds id hmvh
  have hdk : kt ≠ dp := holds_ne (fr1.holds id ht1) ca.2.1
  have hdm : mv ≠ dp := holds_ne (fr1.holds id hmvh) ca.2.1
  have hfm : mv ≠ f := by
    rintro rfl
    have := holds_len (fr1.holds id hmvh)
    rw [ca.2.2.2.2.2.2.2.2.2.1] at this
    cases this
  have hff : dp ≠ f := fun e => ca.2.2.2.1 e.symm
  have sf : (w4.acc f).data.len = 0 := (sysTransfer_ok.1 b5).2.2.2.1
  refine ⟨f, cr, ct, dp, mi, mv, kt, t.ts, mk, t.token, t.decimals, m, { t.ts with feeSupply := sup }, fee, net, tr, h0, h1, h2, h3, h4, h5, h6,
    hsig, hto, hk, hem, ⟨_, hmi⟩, hm, ⟨_, hmva⟩, hfee, hnet.symm, htr, ?_, ⟨ho2, s, hs, hsm⟩, ⟨s, s', hs, hsp⟩, ?_, ?_, rfl, hsup, ?_, ?_, ?_, ?_, ?_⟩
  · exact (burns_of b1).post ((NoTokens.create (findAddr_create hdn) b2).trans ((NoTokens.log _).trans ((NoTokens.pack b3).trans
      ((NoTokens.pack b4).trans (.sys b5)))))
  · refine depositMade (w1 := w1) hdn (.inr (burn_empty b1 ca.2.1).symm) b2 (Props.C45_lenField_depositEver _) (wd := w2.log _) rfl b3 ?_
    rw [sys_other b5 hff hdm.symm, pack_other b4 hdk.symm]
  · have : Holds tokenSettingsC recLen (w4.acc kt) { t.ts with feeSupply := sup } := RL.pack_holds b4
    exact Frame.holds (Frame.sys (S := fun _ => False) b5) id this
  · have a4 := (RL.pack_acc b4 kt).1
    rw [sysTransfer_acc b5 kt]
    show (w4.acc kt).owner = _
    rw [a4, pack_other b3 hdk]
    exact fr2.owner id ht1
  · have hne' : ({ t.ts with feeSupply := sup } : TokenSettings) ≠ t.ts := by
      intro e
      have e1 : sup = t.ts.feeSupply := congrArg TokenSettings.feeSupply e
      have := feeOf_pos hfee
      rw [e1] at hsup
      omega
    have kt3 : Holds tokenSettingsC recLen (w3.acc kt) t.ts := by rw [pack_other b3 hdk]; exact kt2
    have := (RL.pack_owner b4 kt3 hne').1
    rw [pack_other b3 hdk] at this
    rw [← this]
    exact (fr2.owner id ht1).symm
  · rw [sys_gain b5 hfm, (RL.pack_acc b4 mv).2.1, pack_other b3 hdm]
    show (w2.acc mv).lamports + _ = _
    rw [create_keeps (findAddr_create hdn) b2 hdm hfm]
    obtain ⟨bb, -, hbb, -⟩ := hmvh
    have e1 : mv ≠ mi := by rintro rfl; rw [hm0] at hbb; cases hbb
    have e2 : mv ≠ ct := by rintro rfl; rw [hs] at hbb; cases hbb
    obtain ⟨-, -, -, -, -, -, -, -, -, -, -, -, -, -, -, -, -, -, -, -, -, -, h3'⟩ := splBurn_ok b1
    rw [h3' mv e1 e2]
  · rw [sys_logs b5, pack_logs b4, pack_logs b3]
    simp only [World.log, create_logs (findAddr_create hdn) b2]
    obtain ⟨-, -, -, -, -, -, -, -, -, -, -, -, -, -, -, -, -, -, -, hlg, -⟩ := splBurn_ok b1
    rw [hlg]
  · refine Frame.drop (dp := dp) ?_ (by rw [← burn_empty b1 ca.2.1]; exact ca.2.1)
    exact (fr2.mono (fun _ h => h.elim)).trans ((Frame.log _ _).trans ((Frame.pack (.inl rfl) b3).trans ((Frame.pack (.inr rfl) b4).trans (.sys b5))))

/-- The first deposit of a token of Solana. -/
theorem deploySol_fx {f kv mi kt : Pubkey} {name symbol : Bytes} (h : deploySol env ctx f kv mi kt name symbol w = .ok w') :
    DeployedSol env ctx mi kv kt name symbol w w' ∧ (mi ≠ env.nativeMint ∨ 0 < env.rent 165 → NoTokens w w') ∧
      (∃ x, w'.logs = (w.log x).logs) ∧ Frame (fun _ => False) w w' ∧ (∀ j, j ≠ kv → j ≠ kt → j ≠ f → w'.acc j = w.acc j) ∧
      (∃ b, (w'.acc kt).data = .raw b) := by
  simp only [deploySol, bind_ok, deriveAt_ok] at h
  obtain ⟨vn, hvn, w1, b1, w2, b2, tn, htn, w3, b3, b4⟩ := h
  have v1 := createPda_ok (findAddr_create hvn) b1
  have s1 := createPda_self (findAddr_create hvn) b1
  obtain ⟨-, -, -, -, hz, hr, hmi, e2⟩ := splInitAccount_ok b2
  have t3 := createPda_ok (findAddr_create htn) b3
  have s3 := createPda_self (findAddr_create htn) b3
  have kv2 : (w2.acc kv).data = .token (freshToken env mi kv (w1.acc kv).lamports) := by rw [e2]; simp
  have o2 : (w2.acc kv).owner = env.splId := by rw [e2]; simp [s1]
  have a2 : ∀ j, j ≠ kv → w2.acc j = w1.acc j := by intro j hj; rw [e2]; simp [hj]
  have hne : kt ≠ kv := by
    rintro rfl
    rw [kv2] at t3
    cases t3.2.1
  have hfv : kv ≠ f := fun e => v1.2.2.2.1 e.symm
  have hft : kt ≠ f := fun e => t3.2.2.2.1 e.symm
  have ktw : w2.acc kt = w.acc kt := by rw [a2 kt hne, create_keeps (findAddr_create hvn) b1 hne hft]
  have rest : ∀ j, j ≠ kv → j ≠ kt → (w'.acc j).data = (w.acc j).data ∧ (w'.acc j).owner = (w.acc j).owner := by
    intro j h1 h2
    rw [pack_other b4 h2]
    show (w3.acc j).data = _ ∧ (w3.acc j).owner = _
    have c3 := createPda_acc (findAddr_create htn) b3 j h2
    have c1 := createPda_acc (findAddr_create hvn) b1 j h1
    rw [c3.1, c3.2, a2 j h1, c1.1, c1.2]
    exact ⟨rfl, rfl⟩
  have kv' : (w'.acc kv).data = (w2.acc kv).data ∧ (w'.acc kv).owner = (w2.acc kv).owner := by
    rw [pack_other b4 hne.symm]
    exact createPda_acc (findAddr_create htn) b3 kv hne.symm
  have hkt' := RL.pack_acc b4 kt
  refine ⟨⟨?_, ⟨vn, hvn⟩, ⟨tn, htn⟩, ?_, ?_, ?_, ?_, rest⟩, ?_, ?_, ?_, ?_, ?_⟩
  · rw [← ktw]; exact ⟨t3.1, t3.2.1, v1.1, v1.2.1⟩
  · exact ⟨(freshToken env mi kv (w1.acc kv).lamports).amount, by rw [kv'.1, kv2]; rfl, by rw [kv'.2, o2]⟩
  · intro hh
    rw [bal_token (by rw [kv'.1]; exact kv2)]
    unfold freshToken
    simp only
    split
    · rename_i e
      have : 0 < env.rent 165 := hh.resolve_left (fun hn => hn e)
      rw [s1]
      simp only
      rw [Nat.max_eq_right this, Nat.sub_self]
      rfl
    · rfl
  · exact ⟨tn, vn, RL.pack_holds b4⟩
  · rw [hkt'.1]
    show (w3.acc kt).owner = _
    rw [s3]
  · intro hh j
    by_cases e : j = kv
    · subst e
      have hl : (w.acc j).data.len = 0 := v1.2.1
      have h1 : bal w j = 0 := by unfold bal; cases hd : (w.acc j).data <;> rw [hd] at hl <;> first | rfl | cases hl
      have h2 : supply w j = 0 := by unfold supply; cases hd : (w.acc j).data <;> rw [hd] at hl <;> first | rfl | cases hl
      have hk2 : (w'.acc j).data = .token (freshToken env mi j (w1.acc j).lamports) := by rw [kv'.1]; exact kv2
      rw [h1, h2, supply_token hk2, bal_token hk2]
      refine ⟨?_, rfl⟩
      unfold freshToken
      simp only
      split
      · rename_i e
        have : 0 < env.rent 165 := hh.resolve_left (fun hn => hn e)
        rw [s1]
        simp only
        rw [Nat.max_eq_right this, Nat.sub_self]
        rfl
      · rfl
    · by_cases e' : j = kt
      · subst e'
        have hl : (w.acc j).data.len = 0 := by rw [← ktw]; exact t3.2.1
        have h1 : bal w j = 0 := by unfold bal; cases hd : (w.acc j).data <;> rw [hd] at hl <;> first | rfl | cases hl
        have h2 : supply w j = 0 := by unfold supply; cases hd : (w.acc j).data <;> rw [hd] at hl <;> first | rfl | cases hl
        obtain ⟨bb, -, hbb, -⟩ := RL.pack_holds b4
        rw [h1, h2]
        simp only [bal, supply, hbb, and_self]
      · have := (rest j e e').1
        simp only [bal, supply, this, and_self]
  · refine ⟨_, by rw [pack_logs b4]; simp only [World.log, create_logs (findAddr_create htn) b3, e2]; rw [setDataRaw_logs, create_logs (findAddr_create hvn) b1]⟩
  · intro j b _ hb hn
    have h1 : j ≠ kv := by
      rintro rfl
      have := v1.2.1
      rw [hb] at this
      exact hn (List.length_eq_zero_iff.1 this)
    have h2 : j ≠ kt := by
      rintro rfl
      have := t3.2.1
      rw [ktw, hb] at this
      exact hn (List.length_eq_zero_iff.1 this)
    have := rest j h1 h2
    rw [this.1, this.2]
    exact ⟨hb, rfl⟩
  · intro j h1 h2 h3
    rw [pack_other b4 h2]
    show w3.acc j = _
    rw [create_keeps (findAddr_create htn) b3 h2 h3, a2 j h1, create_keeps (findAddr_create hvn) b1 h1 h3]
  · obtain ⟨bb, -, hbb, -⟩ := RL.pack_holds b4
    exact ⟨bb, hbb⟩

/-- A deposit of a token of Solana. -/
theorem depositSol_fx {sd : U128} {name symbol : Bytes} {a : U64} {rc : EverAddress} {v : U64} {ev : Pubkey} {py : Bytes}
    (h : run env ctx cpi (.depositMultiTokenSol sd name symbol a rc v ev py) w = .ok w') :
    ∃ f cr ct kv dp mi mv kt w1 t tm tv m t' fee, ∃ net : U64, ctx.accounts[0]? = some f ∧ ctx.accounts[1]? = some cr ∧ ctx.accounts[2]? = some ct ∧
      ctx.accounts[3]? = some kv ∧ ctx.accounts[4]? = some dp ∧ ctx.accounts[5]? = some mi ∧ ctx.accounts[6]? = some mv ∧
      ctx.accounts[7]? = some kt ∧ ctx.isSigner cr = true ∧ name.length ≤ 32 ∧ symbol.length ≤ 32 ∧
      ((w1 = w ∧ (w.acc kt).lamports ≠ 0) ∨
        ((w.acc kt).lamports = 0 ∧ DeployedSol env ctx mi kv kt name symbol w w1 ∧ (mi ≠ env.nativeMint ∨ 0 < env.rent 165 → NoTokens w w1))) ∧
      Frame (fun _ => False) w w1 ∧
      TokenOf env ctx w1 kt t ∧ t.kind = .solana tm tv ∧ t.emergency = false ∧ (mi = tm ∨ (w1.acc mi).owner = env.splId) ∧
      (w1.acc mi).data = .mint m ∧ (kv = tv ∨ (w1.acc kv).owner = env.splId) ∧ IsAddr env ctx.program multiVaultSeeds mv ∧
      bal w1 kv + a.toNat ≤ t.depositLimit.toNat ∧
      feeOf t.feeDepositInfo a = .ok fee ∧ net.toNat + fee.toNat = a.toNat ∧
      Moves ct kv a.toNat w1 w' ∧ (∃ m, IsToken env w1 ct m ∧ IsToken env w1 kv m) ∧
      (∃ s s', (w1.acc ct).data = .token s ∧ spendAuth s cr a = .ok s') ∧
      DepositMade depositSolEventC env ctx w w' dp cr sd ⟨mi, t.name, t.symbol, m.decimals, net.setWidth 128, rc, v, ev, py⟩ ∧
      Holds tokenSettingsC recLen (w'.acc kt) t' ∧ t' = { t with feeSupply := t'.feeSupply } ∧
      t'.feeSupply.toNat = t.feeSupply.toNat + fee.toNat ∧ (w'.acc kt).owner = (w1.acc kt).owner ∧ (w1.acc kt).owner = ctx.program ∧
      (w'.acc mv).lamports = (w.acc mv).lamports + v.toNat ∧
      w'.logs = (w1.log (depositLog env depositSolEventC dp rc (net.setWidth 128) sd v ev
        ⟨mi, t.name, t.symbol, m.decimals, net.setWidth 128, rc, v, ev, py⟩)).logs ∧
      Frame (fun j => j = kt) w w' := by
  simp only [run, processDepositSol, bind_ok, acct_ok, sysvar_ok, require_ok, exists_const, ex_unit, deriveAt_ok, mintOf_ok, tokenOf_ok, orErr_ok, Prod.exists,
    validatePda_ok, checkedAdd_some, checkedSub_some] at h
  obtain ⟨f, h0, cr, h1, ct, h2, kv, h3, dp, h4, mi, h5, mv, h6, kt, h7, ks, -, -, -, -, -, rent, -, -, hsig, ss, sn, hss, hnm, hsy, w1, hdep, t, ht,
    hem, hmi, m, hm, hva, hmv, tv, htv, tot, htot, hlim, w2, b2, w3, b3, dn, hdn, w4, b4, fee, hfee, sup, hsup, net, hnet, w5, b5, b6⟩ := h
  have hdp : ((w1 = w ∧ (w.acc kt).lamports ≠ 0) ∨
        ((w.acc kt).lamports = 0 ∧ DeployedSol env ctx mi kv kt name symbol w w1 ∧ (mi ≠ env.nativeMint ∨ 0 < env.rent 165 → NoTokens w w1))) ∧
      Frame (fun _ => False) w w1 ∧ (∀ j, j ≠ kv → j ≠ kt → j ≠ f → w1.acc j = w.acc j) := by
    unfold deployOnce at hdep
    split at hdep
    · rename_i e
      obtain ⟨x1, x2, -, x4, x5, -⟩ := deploySol_fx hdep
      exact ⟨.inr ⟨e, x1, x2⟩, x4, x5⟩
    · rename_i e
      cases hdep
      exact ⟨.inl ⟨rfl, e⟩, .refl _ _, fun _ _ _ _ => rfl⟩
  obtain ⟨hor, frd, keep⟩ := hdp
  obtain ⟨ht1, ht2, hk, n, htk, -⟩ := loadSol_ok.1 ht
  obtain ⟨x, hmvh, -, xn, hxk, hmva⟩ := loadMultiVault_ok.1 hmv
  have hto := TP.tokenOf (loadSol_token ht)
  obtain ⟨-, -, -, -, ho1, ho2, -, s, d, s', hs, hd, hsd, -, -, -, hsp, -⟩ := splTransfer_ok b2
  have ca := createPda_ok (findAddr_create hdn) b4
  have fr2 : Frame (fun _ => False) w1 w2 := .xfer b2
  have fr3 : Frame (fun _ => False) w1 w3 := fr2.trans (.sys b3)
  have fr4 : Frame (fun _ => False) w1 w4 := fr3.trans (.create hdn b4)
  have hdk : kt ≠ dp := holds_ne (fr3.holds id ht1) ca.2.1
  have hdm : mv ≠ dp := holds_ne (fr3.holds id hmvh) ca.2.1
  have hfm : mv ≠ f := by
    rintro rfl
    have := holds_len (fr3.holds id hmvh)
    rw [ca.2.2.2.2.2.2.2.2.2.1] at this
    cases this
  have hfk : kt ≠ f := by
    rintro rfl
    have := holds_len (fr3.holds id ht1)
    rw [ca.2.2.2.2.2.2.2.2.2.1] at this
    cases this
  have hff : dp ≠ f := fun e => ca.2.2.2.1 e.symm
  have hktm : mv ≠ kt := by
    rintro rfl
    have := ((head_multiVault hmvh).unique (head_token ht1)).2
    rw [hxk, htk] at this
    cases this
  have dp3 : w3.acc dp = w2.acc dp := sys_other b3 hff hdm.symm
  have dp2 : w2.acc dp = w1.acc dp := xfer_empty b2 (.inl (by rw [← dp3]; exact ca.2.1))
  have hvd : dp ≠ kv := by
    rintro rfl
    have := ca.2.1
    rw [dp3, dp2, htv] at this
    cases this
  have hvm : mv ≠ kv := by
    rintro rfl
    obtain ⟨bb, -, hbb, -⟩ := hmvh
    rw [hbb] at htv
    cases htv
  have dp1 : w1.acc dp = w.acc dp := keep dp hvd hdk.symm hff
  refine ⟨f, cr, ct, kv, dp, mi, mv, kt, w1, t.ts, t.mint, t.vault, m, { t.ts with feeSupply := sup }, fee, net, h0, h1, h2, h3, h4, h5, h6, h7,
    hsig, hnm, hsy, hor, frd, hto, hk, hem, hmi, hm, hva, ⟨_, hmva⟩, ?_, hfee, hnet.symm, ?_, ⟨s.mint, ⟨ho1, s, hs, rfl⟩, ho2, d, hd, hsd.symm⟩,
    ⟨s, s', hs, hsp⟩, ?_, RL.pack_holds b6, rfl, hsup, ?_, ?_, ?_, ?_, ?_⟩
  · rw [bal_token htv]; omega
  · exact (moves_of b2).post ((NoTokens.sys b3).trans ((NoTokens.create (findAddr_create hdn) b4).trans ((NoTokens.log _).trans
      ((NoTokens.pack b5).trans (.pack b6)))))
  · refine depositMade (w1 := w3) hdn (.inr ?_) b4 (Props.C45_lenField_depositSol _) (wd := w4.log _) rfl b5 (pack_other b6 hdk.symm)
    rw [dp3, dp2, dp1]
  · rw [(RL.pack_acc b6 kt).1, pack_other b5 hdk]
    exact fr4.owner id ht1
  · have hne' : ({ t.ts with feeSupply := sup } : TokenSettings) ≠ t.ts := by
      intro e
      have e1 : sup = t.ts.feeSupply := congrArg TokenSettings.feeSupply e
      have := feeOf_pos hfee
      rw [e1] at hsup
      omega
    have kt5 : Holds tokenSettingsC recLen (w5.acc kt) t.ts := by rw [pack_other b5 hdk]; exact fr4.holds id ht1
    have := (RL.pack_owner b6 kt5 hne').1
    rw [pack_other b5 hdk] at this
    rw [← this]
    exact (fr4.owner id ht1).symm
  · rw [(RL.pack_acc b6 mv).2.1, pack_other b5 hdm]
    show (w4.acc mv).lamports = _
    rw [create_keeps (findAddr_create hdn) b4 hdm hfm, sys_gain b3 hfm]
    obtain ⟨bb, -, hbb, -⟩ := hmvh
    rw [(raw_xfer b2 mv).2 bb hbb, keep mv hvm hktm hfm]
  · rw [pack_logs b6, pack_logs b5]
    simp only [World.log, create_logs (findAddr_create hdn) b4, sys_logs b3]
    rw [xfer_logs b2]
  · refine Frame.drop (dp := dp) ?_ (by rw [← dp1, ← dp2, ← dp3]; exact ca.2.1)
    exact (frd.mono (fun _ h => h.elim)).trans ((fr4.mono (fun _ h => h.elim)).trans ((Frame.log _ _).trans
      ((Frame.pack (.inl rfl) b5).trans (Frame.pack (.inr rfl) b6))))

end Verif.TP
