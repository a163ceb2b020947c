import Verif.Spec.Native
import Verif.Lemmas.TPDep
/-!
# Effects of the native proxy
-/
set_option linter.unusedSimpArgs false
namespace Verif
open Verif

variable {env : Env} {ctx : Ctx} {w w' : World}

theorem addrOf_ok {seeds : List Bytes} {p k : Pubkey} : addrOf env seeds p = .ok k ↔ IsAddr env p seeds k := by
  simp only [addrOf, bind_ok, Prod.exists, Except.ok.injEq, IsAddr]
  constructor
  · rintro ⟨k', n, h, rfl⟩; exact ⟨n, h⟩
  · rintro ⟨n, h⟩; exact ⟨k, n, h, rfl⟩

theorem packed_ok {α : Type} {c : Codec α} {a : α} {b : Bytes} : packed c a = .ok b ↔ c.wf a = true ∧ b = c.enc a := by
  unfold packed
  split
  · rename_i h
    constructor
    · intro e; cases e; exact ⟨h, rfl⟩
    · rintro ⟨-, rfl⟩; rfl
  · rename_i h
    constructor
    · intro e; cases e
    · rintro ⟨e, -⟩; exact (h e).elim

/-- A new associated token account for wrapped SOL. -/
theorem ataCreate_new {funder wallet k : Pubkey} {n : U8} (hk : findAddr env (ataSeeds env wallet env.nativeMint) env.ataId = .ok (k, n))
    (h0 : (w.acc k).lamports = 0) (h : ataCreate env ctx funder wallet env.nativeMint w = .ok w') :
    funder ≠ k ∧ ctx.isSigner funder = true ∧ (w.acc funder).owner = env.systemId ∧ (w.acc funder).data.len = 0 ∧
    max 1 (env.rent 165) ≤ (w.acc funder).lamports ∧ (w.acc k).owner = env.systemId ∧ (w.acc k).data.len = 0 ∧ w'.logs = w.logs ∧
    w'.acc k = ⟨max 1 (env.rent 165), env.splId, .token (freshToken env env.nativeMint wallet (max 1 (env.rent 165)))⟩ ∧
    ∀ x, x ≠ k → w'.acc x = { w.acc x with lamports := (w.acc x).lamports - (if x = funder then max 1 (env.rent 165) else 0) } := by
  simp only [ataCreate, bind_ok, require_ok, exists_const, Prod.exists, hk, Except.ok.injEq, Prod.mk.injEq] at h
  obtain ⟨_, _, ⟨rfl, rfl⟩, -, -, -, -, -, -, w1, h1, h2⟩ := h
  unfold createPdaFunded at h1
  simp only [h0, if_true, sysCreate, bind_ok, require_ok, exists_const, true_and] at h1
  obtain ⟨hsk, ⟨hlen, hsys⟩, h1⟩ := h1
  obtain ⟨hmem, ⟨hwf, hwk⟩, hs, hflen, hle, hown, -, rfl⟩ := sysTransfer_ok.1 h1
  have hne : funder ≠ k := by
    rintro rfl
    simp at hle
  have hne' : k ≠ funder := fun e => hne e.symm
  simp only [World.set_other _ _ hne] at hflen hle hown h2 ⊢
  simp only [hne, beq_iff_eq, Bool.or_eq_true, or_false] at hs
  have hn : max 1 (env.rent 165) ≠ 0 := by omega
  obtain ⟨-, -, -, -, -, -, -, rfl⟩ := splInitAccount_ok h2
  refine ⟨hne, hs, hown.resolve_left hn, hflen, hle, hsys, hlen, rfl, ?_, ?_⟩
  · simp [World.setDataRaw, hne']
  · intro x hx
    by_cases h2 : x = funder
    · subst h2; simp [World.setDataRaw, hx, World.set_other]
    · simp [World.setDataRaw, hx, h2, World.set_other]

namespace NP

/-- What the first part of a deposit does. -/
theorem wrap_fx {amount : U64} (h : wrap env ctx amount w = .ok w') :
    ∃ f cr ct, ctx.accounts[0]? = some f ∧ ctx.accounts[1]? = some cr ∧ ctx.accounts[2]? = some ct ∧ ctx.accounts[5]? = some env.nativeMint ∧
      IsAddr env env.ataId (ataSeeds env cr env.nativeMint) ct ∧ ctx.isSigner cr = true ∧
      ((w.acc ct).lamports = 0 → ctx.isSigner f = true ∧ (w.acc f).owner = env.systemId) ∧
      (amount.toNat = 0 ∨ (w.acc cr).owner = env.systemId) ∧ Wrapped env f cr ct amount.toNat w w' := by
  simp only [wrap, bind_ok, acct_ok, require_ok, exists_const, TP.ex_unit, Prod.exists] at h
  obtain ⟨f, h0, cr, h1, ct, h2, -, -, -, -, mi, h5, hmi, k, n, hk, hct, w1, ha, w2, hs, hy⟩ := h
  subst hmi hct
  obtain ⟨-, -, hsig, hlen, hle, hown, -, -⟩ := sysTransfer_ok.1 hs
  have hacc := sysTransfer_acc hs
  unfold ensureToken at ha
  obtain ⟨-, -, hyo, t, r, htd, hnat, hr1, hr2, hr3, rfl⟩ := splSyncNative_ok hy
  have hl2 : w2.logs = w1.logs := by obtain ⟨-, -, -, -, -, -, -, rfl⟩ := sysTransfer_ok.1 hs; rfl
  have hck : cr ≠ k := by
    rintro rfl
    have := hacc cr
    rw [this] at htd
    simp only at htd
    rw [htd] at hlen
    cases hlen
  have hkc : k ≠ cr := fun e => hck e.symm
  have hka := hacc k
  simp only [if_neg hkc, if_true, Nat.sub_zero] at hka
  rw [hka] at hyo htd hr1 hr2 hr3
  simp only at hyo htd hr1 hr2 hr3
  have hsum : (BitVec.ofNat 64 ((w2.acc k).lamports - r.toNat)).toNat + r.toNat = (w2.acc k).lamports := by
    rw [hka]
    simp only
    rw [BitVec.toNat_ofNat, Nat.mod_eq_of_lt (by omega)]
    omega
  have hkr : (w2.setDataRaw k (.token { t with amount := BitVec.ofNat 64 ((w2.acc k).lamports - r.toNat) })).acc k =
      ⟨(w2.acc k).lamports, env.splId, .token { t with amount := BitVec.ofNat 64 ((w2.acc k).lamports - r.toNat) }⟩ := by
    simp only [World.setDataRaw, World.set_same]
    rw [hka]
    simp only [hyo]
  by_cases e : (w.acc k).lamports = 0
  · rw [if_pos e] at ha
    obtain ⟨hfk, hfs, hfo, hfl, hfe, hko, hkl, hlog, hka1, hrest⟩ := ataCreate_new hk e ha
    have hc1 := hrest cr hck
    refine ⟨f, cr, k, h0, h1, h2, h5, ⟨n, hk⟩, hsig, fun _ => ⟨hfs, hfo⟩, ?_, hck, ?_, ?_, ?_, ?_, ?_, hl2.trans hlog⟩
    · rw [hc1] at hown; exact hown
    · intro x hx
      simp only [World.setDataRaw]
      rw [World.set_other _ _ hx, hacc x, hrest x hx]
      simp only [e, and_true, if_neg hx, Nat.add_zero]
    · rw [hc1] at hle
      simp only at hle
      simp only [e, and_true]
      by_cases hcf : cr = f
      · subst hcf
        simp only [if_true] at hle ⊢
        omega
      · simp only [if_neg hcf] at hle ⊢
        omega
    · exact ⟨{ t with amount := BitVec.ofNat 64 ((w2.acc k).lamports - r.toNat) }, r, by rw [hkr], by rw [hkr], hnat, by rw [hkr]; exact hsum⟩
    · intro hne; exact (hne e).elim
    · intro _
      rw [hka1] at htd
      simp only at htd
      cases htd
      simp only [freshToken, if_true, Option.some.injEq] at hnat
      subst hnat
      have hl : (w2.acc k).lamports = max 1 (env.rent 165) + amount.toNat := by simp only [hka, hka1]
      have hrr : (BitVec.ofNat 64 (env.rent 165)).toNat = env.rent 165 := by
        rw [BitVec.toNat_ofNat]
        apply Nat.mod_eq_of_lt
        rw [hka1] at hr2
        simp only at hr2
        omega
      refine ⟨by rw [hkr]; exact hl, hko, hkl, BitVec.ofNat 64 ((w2.acc k).lamports - (BitVec.ofNat 64 (env.rent 165)).toNat), ?_, ?_⟩
      · rw [hkr]; simp [freshToken]
      · rw [hkr]
        rw [hrr] at hsum ⊢
        exact hsum
  · rw [if_neg e] at ha
    cases ha
    refine ⟨f, cr, k, h0, h1, h2, h5, ⟨n, hk⟩, hsig, fun e' => (e e').elim, hown, hck, ?_, ?_, ?_, ?_, ?_, hl2⟩
    · intro x hx
      simp only [World.setDataRaw]
      rw [World.set_other _ _ hx, hacc x]
      simp only [e, and_false, if_neg hx, Nat.add_zero, if_false, Nat.sub_zero]
    · simp only [e, and_false, if_false, Nat.add_zero]; exact hle
    · exact ⟨{ t with amount := BitVec.ofNat 64 ((w2.acc k).lamports - r.toNat) }, r, by rw [hkr], by rw [hkr], hnat, by rw [hkr]; exact hsum⟩
    · intro _
      refine ⟨by rw [hkr]; simp only; rw [hka], hyo, t, { t with amount := BitVec.ofNat 64 ((w2.acc k).lamports - r.toNat) }, htd, by rw [hkr], rfl, ?_⟩
      rw [hka] at hsum ⊢
      simp only at hsum ⊢
      omega
    · intro e'; exact (e e').elim

/-- A deposit of SOL is wrapping followed by a deposit of wrapped SOL. -/
theorem deposit_fx {sd : U128} {a v : U64} {rc : EverAddress} {ev : Pubkey} {py : Bytes} (h : run env ctx (.deposit sd a rc v ev py) w = .ok w') :
    ∃ f cr ct w1 kv dp mv kt ks inner, ctx.accounts[0]? = some f ∧ ctx.accounts[1]? = some cr ∧ ctx.accounts[2]? = some ct ∧
      ctx.accounts[5]? = some env.nativeMint ∧ IsAddr env env.ataId (ataSeeds env cr env.nativeMint) ct ∧ ctx.isSigner cr = true ∧
      ctx.isSigner f = true ∧ ((w.acc ct).lamports = 0 → (w.acc f).owner = env.systemId) ∧ (a.toNat = 0 ∨ (w.acc cr).owner = env.systemId) ∧
      Wrapped env f cr ct a.toNat w w1 ∧ Relayed env ctx f cr ct kv dp mv kt ks sd inner ∧
      TP.run env inner noCpi (.depositMultiTokenSol sd wsolName wsolSymbol a rc v ev py) w1 = .ok w' ∧ wrap env ctx a w = .ok w1 := by
  simp only [run, processDeposit, bind_ok, acct_ok, invokeCtx, require_ok, exists_const, TP.Client.depositSolIx, TP.Client.vaultAddr,
    TP.Client.settingsAddr, TP.Client.multiVaultAddr, TP.Client.tokenSettingsSolAddr, TP.Client.depositAddr, addrOf_ok, packed_ok, Except.ok.injEq,
    TP.process, orErr_ok] at h
  obtain ⟨w1, hw, f, h0, cr, h1, ct, h2, ix, ⟨kv, hkv, ks, hks, mv, hmv, kt, hkt, dp, hdp, data, ⟨hwf, rfl⟩, rfl⟩, inner, ⟨-, hgv, hwr', hsg, hin⟩, i, hi, hr⟩ := h
  obtain ⟨f', cr', ct', e0, e1, e2, h5, hata, hsig, hf, hc, hwr⟩ := wrap_fx hw
  rw [h0] at e0; rw [h1] at e1; rw [h2] at e2
  cases e0; cases e1; cases e2
  rw [TP.Instr.codec.decAll_enc _ hwf] at hi
  cases hi
  have hfs : ctx.isSigner f = true := hsg (Meta.new f true) (by simp) rfl
  refine ⟨f, cr, ct, w1, kv, dp, mv, kt, ks, inner, h0, h1, h2, h5, hata, hsig, hfs, fun e => (hf e).2, hc, hwr,
    ⟨by rw [← hin]; rfl, by rw [← hin]; rfl, ?_, ?_, ?_, by rw [← hin]; rfl, hkv, hdp, hmv, hkt, hks⟩, hr, hw⟩
  rotate_left
  · intro k hk
    rw [← hin] at hk
    obtain ⟨m, hm, rfl⟩ := List.mem_map.1 hk
    exact hgv m hm
  · intro k hk
    rw [← hin] at hk
    obtain ⟨m, hm, rfl⟩ := List.mem_map.1 hk
    rw [List.mem_filter] at hm
    have := hwr' m hm.1 hm.2
    simp only [Ctx.isWritable, Bool.and_eq_true, List.contains_iff_mem] at this
    exact this.2
  intro k hk
  rw [← hin] at hk
  have hm : ∀ k, ctx.isSigner k = true → k ∈ ctx.signers := by
    intro k hk
    simp only [Ctx.isSigner, Bool.and_eq_true, List.contains_iff_mem] at hk
    exact hk.2
  have : k = f ∨ k = cr := by simpa [Ix.ctx, Meta.new, Meta.readonly] using hk
  rcases this with rfl | rfl
  · exact ⟨hm _ hfs, .inl rfl⟩
  · exact ⟨hm _ hsig, .inr rfl⟩

/-- Wrapping as a sequence of operations. -/
theorem wrap_ops {amount : U64} (h : wrap env ctx amount w = .ok w') :
    Ops env ctx (fun op => ∀ p s f k sp o, op = .createFunded p s f k sp o → p = env.ataId) w w' := by
  simp only [wrap, bind_ok, acct_ok, require_ok, exists_const, TP.ex_unit, Prod.exists] at h
  obtain ⟨f, h0, cr, h1, ct, h2, -, -, -, -, mi, h5, hmi, k, n, hk, hct, w1, ha, w2, hs, hy⟩ := h
  refine Ops.trans ?_ (Ops.trans (Ops.one (.sys cr k amount.toNat) (by intro _ _ _ _ _ _ e; cases e) hs)
    (Ops.one (.sync k) (by intro _ _ _ _ _ _ e; cases e) hy))
  unfold ensureToken at ha
  split at ha
  · obtain ⟨k', n', w3, hk', b1, b2⟩ := TP.ataCreate_ok ha
    exact Ops.trans (Ops.one (.createFunded env.ataId (ataSeeds env cr env.nativeMint ++ [[n']]) f k' 165 env.splId)
      (by intro _ _ _ _ _ _ e; cases e; rfl) ⟨findAddr_create hk', b1⟩) (Ops.one (.initAcc k' env.nativeMint cr) (by intro _ _ _ _ _ _ e; cases e) b2)
  · cases ha; exact .refl _

/-- Seen from the bridge, wrapping is a step of other programs. -/
theorem wrapped_ext {L : Pubkey → Prop} {f cr ct : Pubkey} {n : Nat} (hd : env.Distinct) (hf : (w.acc ct).lamports = 0 → ¬ L f ∧ (w.acc f).owner = env.systemId)
    (hc : ¬ L cr ∧ (n = 0 ∨ (w.acc cr).owner = env.systemId)) (hct : ¬ L ct) (h : Wrapped env f cr ct n w w') : ExtStep env L w w' := by
  have hown : ∀ k, k ≠ ct → (w'.acc k).owner = (w.acc k).owner ∧ (w'.acc k).data = (w.acc k).data := by
    intro k hk; rw [h.rest k hk]; exact ⟨rfl, rfl⟩
  have hlam : ∀ k, k ≠ ct → (¬ (w.acc k).owner = env.systemId ∨ L k) → w'.acc k = w.acc k := by
    intro k hk ho
    rw [h.rest k hk]
    have e1 : ¬ (k = f ∧ (w.acc ct).lamports = 0) := by
      rintro ⟨rfl, e⟩
      obtain ⟨x1, x2⟩ := hf e
      rcases ho with ho | ho
      · exact ho x2
      · exact x1 ho
    have e2 : (if k = cr then n else 0) = 0 := by
      split
      · rename_i e
        subst e
        rcases hc.2 with h0 | h0
        · exact h0
        · rcases ho with ho | ho
          · exact (ho h0).elim
          · exact (hc.1 ho).elim
      · rfl
    rw [if_neg e1, e2]
    rfl
  obtain ⟨t, r, hto, htd, -, -⟩ := h.synced
  have hwas : (w.acc ct).owner = env.splId ∨ (w.acc ct).owner = env.systemId := by
    by_cases e : (w.acc ct).lamports = 0
    · exact .inr (h.new e).2.1
    · exact .inl (h.old e).2.1
  constructor
  · intro k hk
    have hne : k ≠ ct := by
      rintro rfl
      rcases hwas with e | e <;> rcases hk with e' | e' <;> rw [e] at e'
      · exact hd.rlSpl e'.symm
      · exact hd.tpSpl e'.symm
      · exact hd.rlSys e'.symm
      · exact hd.tpSys e'.symm
    rw [hlam k hne (.inl (by rcases hk with e | e <;> rw [e]; exact hd.rlSys; exact hd.tpSys))]
    exact ⟨rfl, rfl, Nat.le_refl _⟩
  · intro k hL _
    rw [hlam k (by rintro rfl; exact hct hL) (.inr hL)]
    exact ⟨rfl, rfl, Nat.le_refl _⟩
  · intro k hk hne
    by_cases e : k = ct
    · subst e
      rw [hto] at hk
      rcases hk with e | e
      · exact (hd.rlSpl e.symm).elim
      · exact (hd.tpSpl e.symm).elim
    · exact (hne (hown k e).1.symm).elim
  · intro k t0 ho ht _ hdel hcl
    by_cases e : k = ct
    · subst e
      have hne0 : (w.acc k).lamports ≠ 0 := by
        intro e0
        rw [(h.new e0).2.1] at ho
        exact hd.sysSpl ho
      obtain ⟨hl, -, t1, t1', a1, a2, a3, a4⟩ := h.old hne0
      rw [ht] at a1
      cases a1
      rw [a3] at a2
      exact ⟨_, hto, a2, rfl, rfl, hdel, hcl, rfl, a4, by omega⟩
    · rw [hlam k e (.inl (by rw [ho]; exact fun x => hd.sysSpl x.symm))]
      exact ⟨t0, ho, ht, rfl, rfl, hdel, hcl, rfl, Nat.le_refl _, Nat.le_refl _⟩
  · intro k m a ho hm hau _ hfr
    by_cases e : k = ct
    · subst e
      exfalso
      have hne0 : (w.acc k).lamports ≠ 0 := by
        intro e0
        rw [(h.new e0).2.1] at ho
        exact hd.sysSpl ho
      obtain ⟨-, -, t1, -, a1, -⟩ := h.old hne0
      rw [hm] at a1
      cases a1
    · rw [hlam k e (.inl (by rw [ho]; exact fun x => hd.sysSpl x.symm))]
      exact ⟨m, ho, hm, hau, rfl, hfr, Nat.le_refl _, Nat.le_refl _⟩
  · intro k hL ho hz
    rw [hlam k (by rintro rfl; exact hct hL) (.inr hL)]
    exact ⟨.inl ho, fun e => (hd.sysSpl (e.symm.trans ho)).elim, hz⟩
  · exact ⟨[], by rw [h.logs]; simp⟩

end NP

namespace TP

/-- A deposit of a token of Solana touches no account but those at six positions of its list. -/
theorem depositSol_rest {cpi : Pubkey → World → Except Err World} {sd : U128} {name symbol : Bytes} {a : U64} {rc : EverAddress} {v : U64} {ev : Pubkey} {py : Bytes}
    (h : run env ctx cpi (.depositMultiTokenSol sd name symbol a rc v ev py) w = .ok w') {j : Pubkey}
    (hj : ∀ n, n = 0 ∨ n = 2 ∨ n = 3 ∨ n = 4 ∨ n = 6 ∨ n = 7 → ctx.accounts[n]? ≠ some j) : w'.acc j = w.acc j := by
  simp only [run, processDepositSol, bind_ok, acct_ok, sysvar_ok, require_ok, exists_const, ex_unit, deriveAt_ok, mintOf_ok, tokenOf_ok, orErr_ok, Prod.exists,
    validatePda_ok, checkedAdd_some, checkedSub_some] at h
  obtain ⟨f, h0, cr, h1, ct, h2, kv, h3, dp, h4, mi, h5, mv, h6, kt, h7, ks, -, -, -, -, -, rent, -, -, hsig, ss, sn, hss, hnm, hsy, w1, hdep, t, ht,
    hem, hmi, m, hm, hva, hmv, tv, htv, tot, htot, hlim, w2, b2, w3, b3, dn, hdn, w4, b4, fee, hfee, sup, hsup, net, hnet, w5, b5, b6⟩ := h
  have n0 : j ≠ f := fun e => hj 0 (by simp) (by rw [h0, e])
  have n2 : j ≠ ct := fun e => hj 2 (by simp) (by rw [h2, e])
  have n3 : j ≠ kv := fun e => hj 3 (by simp) (by rw [h3, e])
  have n4 : j ≠ dp := fun e => hj 4 (by simp) (by rw [h4, e])
  have n6 : j ≠ mv := fun e => hj 6 (by simp) (by rw [h6, e])
  have n7 : j ≠ kt := fun e => hj 7 (by simp) (by rw [h7, e])
  have e1 : w1.acc j = w.acc j := by
    unfold deployOnce at hdep
    split at hdep
    · obtain ⟨-, -, -, -, x5, -⟩ := deploySol_fx hdep
      exact x5 j n3 n7 n0
    · cases hdep; rfl
  have e2 : w2.acc j = w1.acc j := by
    obtain ⟨-, -, -, -, -, -, -, s, d, s', -, -, -, -, -, -, -, hor⟩ := splTransfer_ok b2
    rcases hor with ⟨-, rfl⟩ | ⟨-, -, -, -, -, -, hrest⟩
    · rfl
    · exact hrest j n2 n3
  rw [pack_other b6 n7, pack_other b5 n4]
  show w4.acc j = _
  rw [create_keeps (findAddr_create hdn) b4 n4 n0, sys_other b3 n0 n6, e2, e1]

end TP
end Verif
