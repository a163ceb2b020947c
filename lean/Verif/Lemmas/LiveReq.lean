import Verif.Lemmas.LiveDep
/-!
# Requests that succeed
-/
set_option linter.unusedSimpArgs false
namespace Verif
variable {env : Env} {ctx : Ctx} {w w1 : World}

/-- An address nobody uses, which may have been given lamports. -/
structure Unused (env : Env) (a : Account) : Prop where
  owner : a.owner = env.systemId
  empty : a.data.len = 0

theorem createPdaFunded_live {f k o : Pubkey} {space : Nat} (hu : Unused env (w.acc k)) (hne : f ≠ k)
    (hsys : env.systemId ∈ ctx.accounts) (hwk : ctx.isWritable k = true) (hwf : ctx.isWritable f = true) (hs : ctx.isSigner f = true)
    (hwal : Wallet env w f (max 1 (env.rent space))) (hmax : env.rent space < 2 ^ 64) :
    ∃ w1, createPdaFunded env ctx (fun a => ctx.isSigner a || a == k) f k space o w = .ok w1 ∧ Eff [k] w w1 ∧
      w1.acc k = ⟨max (max 1 (env.rent space)) (w.acc k).lamports, o, .raw (zeros space)⟩ ∧
      ∀ j, j ≠ k → (w1.acc j).lamports = (w.acc j).lamports - (if j = f then max 1 (env.rent space) - (w.acc k).lamports else 0) := by
  have hne' := hne.symm
  have hfo := hwal.system
  have hfd := hwal.empty
  have hle := hwal.rich
  by_cases h0 : (w.acc k).lamports = 0
  · have hx : ∃ w1, createPdaFunded env ctx (fun a => ctx.isSigner a || a == k) f k space o w = .ok w1 := by
      simp only [createPdaFunded, h0, if_true, sysCreate, bind_ok, require_ok, exists_const, sysTransfer_ok]
      refine ⟨_, by simp, trivial, ⟨hu.empty, hu.owner⟩, hsys, ⟨hwf, hwk⟩, by simp [hs], ?_, ?_, ?_, ?_, rfl⟩
      · rw [World.set_other _ _ hne]; exact hfd
      · rw [World.set_other _ _ hne]; exact hle
      · rw [World.set_other _ _ hne]; exact .inr hfo
      · simp [hne']; omega
    obtain ⟨w1, h⟩ := hx
    refine ⟨w1, h, ?_⟩
    simp only [createPdaFunded, h0, if_true, sysCreate, bind_ok, require_ok, exists_const] at h
    obtain ⟨-, -, -, h⟩ := h
    have hk := sysTransfer_acc h
    refine ⟨fun j hj => ?_, ?_, fun j hj => ?_⟩
    · simp only [List.mem_cons, List.not_mem_nil, or_false] at hj
      rw [hk j, World.set_other _ _ hj]; exact ⟨rfl, rfl⟩
    · rw [hk k, World.set_same]; simp [hne', h0]
    · rw [hk j, World.set_other _ _ hj]; simp [hj, h0]
  · by_cases hneed : max 1 (env.rent space) - (w.acc k).lamports = 0
    · refine ⟨w.set k ⟨(w.acc k).lamports, o, .raw (zeros space)⟩, ?_, fun j hj => ?_, ?_, fun j hj => ?_⟩
      · simp only [createPdaFunded, h0, if_false, bind_ok, require_ok, exists_const, hneed, if_true, Except.ok.injEq, exists_eq_left']
        exact ⟨by simp, hsys, hwk, ⟨hu.empty, hu.owner⟩, trivial⟩
      · simp only [List.mem_cons, List.not_mem_nil, or_false] at hj
        rw [World.set_other _ _ hj]; exact ⟨rfl, rfl⟩
      · rw [World.set_same]; congr 1; omega
      · rw [World.set_other _ _ hj, hneed]; simp
    · obtain ⟨w1, h1, e1, l1⟩ := sysTransfer_live (ctx := ctx) (w := w) (dst := k) (n := max 1 (env.rent space) - (w.acc k).lamports) hsys hwf hwk hs
        ⟨hfo, hfd, by omega⟩ hne (by omega)
      refine ⟨w1.set k ⟨(w1.acc k).lamports, o, .raw (zeros space)⟩, ?_, fun j hj => ?_, ?_, fun j hj => ?_⟩
      · simp only [createPdaFunded, h0, if_false, bind_ok, require_ok, exists_const, hneed, Except.ok.injEq]
        exact ⟨by simp, hsys, hwk, ⟨hu.empty, hu.owner⟩, w1, h1, rfl⟩
      · simp only [List.mem_cons, List.not_mem_nil, or_false] at hj
        rw [World.set_other _ _ hj]; exact e1 j (by simp)
      · rw [World.set_same, l1 k]; congr 1; simp [hne']; omega
      · rw [World.set_other _ _ hj, l1 j]; simp [hj]

end Verif

namespace Verif.TP
open Codec Verif

variable {env : Env} {ctx : Ctx} {w w' w1 : World} {cpi : Pubkey → World → Except Err World}

theorem loadRound_live {kr : Pubkey} {krs : Pubkey} {rs : RL.Settings} {rr : RL.RelayRound} (hs : RL.Ready env w krs rs) (hr : RL.RoundReady env w kr rr)
    (hnow : (ctx.now.setWidth 32).toNat < rr.roundEnd.toNat) : loadRound env ctx krs kr w = .ok (rs, rr) := by
  obtain ⟨⟨-, h1, h2⟩, n, pn, pd, h3, h4, -⟩ := hs
  obtain ⟨⟨-, h5, h6⟩, n', h7, h8⟩ := hr
  exact loadRound_ok.2 ⟨⟨h1, h2, n, pn, h3, h4⟩, ⟨h5, h6, n', h7, h8⟩, hnow⟩

/-- The account of a new withdrawal is created, its record stored and the votes are paid for in advance. -/
theorem openWithdrawal_live {E : Type} {ec : Codec E} {f au k : Pubkey} {rs : RL.Settings} {rr : RL.RelayRound} {pda : PDA} {len : U32} {e : E}
    {pn : Option U8} {tok : Bytes} {rec : Pubkey} {amt : U128} {n : U8} (hp : ctx.program = env.tpId)
    (ha : findAddr env (proposalSeeds rr.roundNumber pda (env.hash (ec.enc e))) env.tpId = .ok (k, n)) (hv : Vacant env (w.acc k)) (hne : f ≠ k)
    (hsys : env.systemId ∈ ctx.accounts) (hwk : ctx.isWritable k = true) (hwf : ctx.isWritable f = true) (hs : ctx.isSigner f = true)
    (hwal : Wallet env w f (max 1 (env.rent recLen) + relayReparation * rr.relays.length))
    (hmax : max 1 (env.rent recLen) + relayReparation * rr.relays.length < 2 ^ 64)
    (hwf' : (withdrawalC ec).wf (withdrawalRecord n pn au rr.roundNumber (RL.requiredVotes rr.relays.length rs.minRequiredVotes) pda len e (epochOf ctx.now)
      rr.relays.length) = true)
    (hfit : ((withdrawalC ec).enc (withdrawalRecord n pn au rr.roundNumber (RL.requiredVotes rr.relays.length rs.minRequiredVotes) pda len e (epochOf ctx.now)
      rr.relays.length)).length ≤ recLen) :
    ∃ w', openWithdrawal env ctx ec f au k rs rr pda len e pn tok rec amt w = .ok w' := by
  obtain ⟨w1, h1, s1, e1, l1⟩ := createPda_live (ctx := ctx) (o := ctx.program) (space := recLen) (by rw [hp]; exact ha) hv hne hsys hwk hwf hs
    (hwal.eff (Eff.refl [] w) (by simp) (by have := hwal.rich; omega)) (by omega)
  obtain ⟨w2, h2, -, -, l2, -, e2⟩ := pack_live (w := w1) (k := k) (b := zeros recLen) (c := withdrawalC ec)
    (by rw [s1]) (RL.zeros_len _) hwf' hfit hwk (by rw [s1])
  have wal2 : Wallet env w2 f (relayReparation * rr.relays.length) := by
    refine (hwal.eff e1 (by simpa using hne) (m := 0) (Nat.zero_le _)).eff e2 (by simpa using hne) ?_
    rw [l2, l1 f hne, if_pos rfl]
    have := hwal.rich; omega
  obtain ⟨w3, h3, -⟩ := sysTransfer_live (ctx := ctx) (w := w2.log (withdrawRequestLogC.enc
      ⟨k, tok, rec, amt, pda.eventTimestamp, pda.eventTransactionLt, pda.eventConfiguration, key.enc (env.hash (ec.enc e)), 0#64⟩)) hsys hwf hwk hs
      (wal2.eff ((Eff.refl [] w2).log) (by simp) wal2.rich) hne (by show (w2.acc k).lamports + _ < _; rw [l2, s1]; exact hmax)
  refine ⟨w3, ?_⟩
  simp only [openWithdrawal, bind_ok, deriveAt_ok]
  exact ⟨n, by rw [hp]; exact ha, by rw [if_pos hv.1]; simp only [bind_ok]; exact ⟨w1, h1, w2, h2, h3⟩⟩

/-- The proxy account of a recipient is created and given the attached lamports. -/
theorem openProxy_live {payload : Bytes} {mint who f px : Pubkey} {i : Nat} {att : U64} {n : U8} {m : MintAcc} (hp : ctx.program = env.tpId) (hpl : payload ≠ [])
    (h0 : ctx.accounts[i]? = some px) (h1 : ctx.accounts[i + 1]? = some mint) (h2 : ctx.accounts[i + 2]? = some env.splId)
    (ha : findAddr env (proxySeeds mint who) env.tpId = .ok (px, n)) (hu : Unused env (w.acc px)) (hm : (w.acc mint).data = .mint m) (hne : f ≠ px)
    (hsys : env.systemId ∈ ctx.accounts) (hwk : ctx.isWritable px = true) (hwf : ctx.isWritable f = true) (hs : ctx.isSigner f = true)
    (hwal : Wallet env w f (max 1 (env.rent 165) + att.toNat)) (hmax : max (max 1 (env.rent 165)) (w.acc px).lamports + att.toNat < 2 ^ 64) :
    ∃ w1, openProxy env ctx payload mint who f env.systemId i att w = .ok (some n, w1) ∧ Eff [px] w w1 ∧ (w1.acc px).owner = env.splId ∧
      ∀ j, j ≠ px → (w1.acc j).lamports = (w.acc j).lamports - (if j = f then (max 1 (env.rent 165) - (w.acc px).lamports) + att.toNat else 0) := by
  have m_px : mint ≠ px := by rintro rfl; have := hu.empty; rw [hm] at this; simp [Data.len] at this
  obtain ⟨w1, b1, e1, s1, l1⟩ := createPdaFunded_live (ctx := ctx) (o := env.splId) (space := 165) hu hne hsys hwk hwf hs
    (hwal.eff (Eff.refl [] w) (by simp) (by have := hwal.rich; omega)) (by omega)
  obtain ⟨w2, b2, e2, o2, d2, l2, a2⟩ := splInitAccount_live (env := env) (ctx := ctx) (w := w1) (k := px) (mint := mint) (o := px)
    (List.mem_of_getElem? h2) (List.mem_of_getElem? h1) hwk (by rw [s1]) (by rw [s1]) (by rw [s1]; simp only; omega)
    (.inr ⟨m, by rw [(e1 mint (by simpa using m_px)).1]; exact hm⟩)
  have wal2 : Wallet env w2 f att.toNat := by
    refine (hwal.eff e1 (by simpa using hne) (m := 0) (Nat.zero_le _)).eff e2 (by simpa using hne) ?_
    rw [a2 f hne, l1 f hne, if_pos rfl]
    have := hwal.rich; omega
  obtain ⟨w3, b3, e3, l3⟩ := sysTransfer_live (ctx := ctx) (w := w2) (dst := px) hsys hwf hwk hs wal2 hne (by rw [l2, s1]; exact hmax)
  refine ⟨w3, ?_, fun j hj => ?_, ?_, fun j hj => ?_⟩
  · simp only [openProxy, if_neg hpl, createProxyAccount, bind_ok, acct_ok, require_ok, exists_const, Prod.exists, Except.ok.injEq, Prod.mk.injEq]
    refine ⟨px, h0, mint, h1, env.splId, h2, rfl, n, w2, ⟨px, n, by rw [hp]; exact ha, rfl, hu.owner, ?_⟩, w3, b3, rfl, rfl⟩
    rw [if_pos hu.empty]
    simp only [bind_ok, require_ok, exists_const, pdaSigns_ok, Except.ok.injEq, Prod.mk.injEq]
    exact ⟨⟨trivial, trivial⟩, _, ⟨px, by rw [hp]; exact findAddr_create ha, rfl⟩, w1, b1, w2, b2, trivial, rfl⟩
  · have c1 := e1 j hj
    have c2 := e2 j hj
    have c3 := e3 j (by simp)
    exact ⟨by rw [c3.1, c2.1, c1.1], by rw [c3.2, c2.2, c1.2]⟩
  · rw [(e3 px (by simp)).2]; exact o2
  · rw [l3 j, a2 j hj, l1 j hj, if_neg hj]
    split <;> omega

theorem requestSol_fits {n : U8} {pn : Option U8} {au : Pubkey} {round votes : U32} {pda : PDA} {len : U32} {e : WSolEvent} {day : I64} {relays : Nat}
    (h : e.payload.length + relays ≤ 798) :
    (withdrawalC wSolEventC).wf (withdrawalRecord n pn au round votes pda len e day relays) = true ∧
      ((withdrawalC wSolEventC).enc (withdrawalRecord n pn au round votes pda len e day relays)).length ≤ recLen := by
  constructor
  · simp only [withdrawalC, wSolEventC, withdrawalRecord, wf_iso, wf_pair, Bool.and_eq_true, wf_vec, wf_bytes, decide_eq_true_eq, List.length_replicate]
    refine ⟨rfl, ?_, rfl, rfl, rfl, ?_, rfl, ⟨rfl, rfl, rfl, by omega⟩, rfl, by simp [wmetaC], by omega, by simp⟩
    · cases pn <;> simp
    · simp
  · cases pn <;>
    · simp only [withdrawalC, wSolEventC, withdrawalRecord, enc_iso, enc_pair, List.length_append, len_bool, AccountKind.enc_proposal_none,
        AccountKind.enc_proposal_some, len_key, len_u32, PDA.len_codec, len_u128, len_bytes, Props.len_wmeta, Props.len_vec_vote, recLen, List.length_cons,
        List.length_nil, List.length_replicate]
      omega

theorem requestEver_fits {n : U8} {pn : Option U8} {au : Pubkey} {round votes : U32} {pda : PDA} {len : U32} {e : WEverEvent} {day : I64} {relays : Nat}
    (un : validUtf8 e.name = true) (uy : validUtf8 e.symbol = true)
    (h : e.name.length + e.symbol.length + e.payload.length + relays ≤ 787) :
    (withdrawalC wEverEventC).wf (withdrawalRecord n pn au round votes pda len e day relays) = true ∧
      ((withdrawalC wEverEventC).enc (withdrawalRecord n pn au round votes pda len e day relays)).length ≤ recLen := by
  constructor
  · simp only [withdrawalC, wEverEventC, withdrawalRecord, wf_iso, wf_pair, Bool.and_eq_true, wf_vec, wf_bytes, wf_str, decide_eq_true_eq,
      List.length_replicate, un, uy, and_true]
    refine ⟨rfl, ?_, rfl, rfl, rfl, ?_, rfl, ⟨?_, by omega, by omega, rfl, rfl, rfl, by omega⟩, rfl, by simp [wmetaC], by omega, by simp⟩
    · cases pn <;> simp
    · simp
    · simp
  · cases pn <;>
    · simp only [withdrawalC, wEverEventC, withdrawalRecord, enc_iso, enc_pair, List.length_append, len_bool, AccountKind.enc_proposal_none,
        AccountKind.enc_proposal_some, len_key, len_u32, PDA.len_codec, len_u128, len_bytes, len_str, len_u8, len_everAddressC, Props.len_wmeta, Props.len_vec_vote,
        recLen, List.length_cons, List.length_nil, List.length_replicate]
      omega

/-- `process_withdraw_multi_token_sol_request` on healthy accounts; `w1` is the state after the proxy account was set up, if one is needed. -/
theorem solRequest_live {f au k kt krs kr mint kv who : Pubkey} {extra : List Pubkey} {t : TokenSettings} {v : TokenAcc} {rs : RL.Settings} {rr : RL.RelayRound}
    {pda : PDA} {amount : U128} {payload : Bytes} {att : U64} {pn : Option U8} {n : U8} (hp : ctx.program = env.tpId)
    (hacc : ctx.accounts = [f, au, k, kt, krs, kr, env.systemId, env.rentId, env.clockId] ++ extra)
    (hsf : ctx.isSigner f = true) (hsa : ctx.isSigner au = true) (hwf : ctx.isWritable f = true) (hwk : ctx.isWritable k = true)
    (h : SolReady env w mint kt kv t v) (hrs : RL.Ready env w krs rs) (hrr : RL.RoundReady env w kr rr)
    (hnow : (ctx.now.setWidth 32).toNat < rr.roundEnd.toNat) (hopen : openProxy env ctx payload mint who f env.systemId 9 att w = .ok (pn, w1))
    (ha : findAddr env (proposalSeeds rr.roundNumber pda (env.hash (wSolEventC.enc ⟨mint, amount, who, payload⟩))) env.tpId = .ok (k, n))
    (hv : Vacant env (w1.acc k)) (hwal : Wallet env w1 f (max 1 (env.rent recLen) + relayReparation * rr.relays.length))
    (hmax : max 1 (env.rent recLen) + relayReparation * rr.relays.length < 2 ^ 64) (hpl : payload.length + rr.relays.length ≤ 798) :
    ∃ w', run env ctx cpi (.withdrawMultiTokenSolRequest pda who amount payload att) w = .ok w' := by
  obtain ⟨nn, vn, hls, -, -⟩ := loadSol_live hp h
  have hfit := fun x y z d => requestSol_fits (n := n) (pn := pn) (au := au) (round := x) (votes := y) (pda := pda) (len := z) (e := ⟨mint, amount, who, payload⟩) (day := d)
    (relays := rr.relays.length) hpl
  obtain ⟨w', h'⟩ := openWithdrawal_live (pda := pda) (e := (⟨mint, amount, who, payload⟩ : WSolEvent)) (ec := wSolEventC) (rs := rs) (rr := rr) (au := au) (pn := pn)
    (len := WSolEvent.lenField ⟨mint, amount, who, payload⟩) (tok := env.keyString mint) (rec := who) (amt := amount)
    hp ha hv (by rintro rfl; have := hwal.rich; have := hv.1; omega) (by rw [hacc]; simp) hwk hwf hsf hwal hmax (hfit _ _ _ _).1 (hfit _ _ _ _).2
  refine ⟨w', ?_⟩
  simp only [run, processSolRequest, bind_ok, acct_ok, sysvar_ok, require_ok, exists_const, ex_unit, Prod.exists]
  exact ⟨f, by rw [hacc]; rfl, au, by rw [hacc]; rfl, k, by rw [hacc]; rfl, kt, by rw [hacc]; rfl, krs, by rw [hacc]; rfl, kr, by rw [hacc]; rfl,
    env.systemId, by rw [hacc]; rfl, env.rentId, by rw [hacc]; rfl, rfl, env.clockId, by rw [hacc]; rfl, rfl, hsa, _, hls, rs, rr,
    loadRound_live hrs hrr hnow, pn, w1, hopen, h'⟩

/-- `process_withdraw_multi_token_ever_request` on healthy accounts. -/
theorem everRequest_live {f au k krs kr km who : Pubkey} {extra : List Pubkey} {rs : RL.Settings} {rr : RL.RelayRound} {tok : EverAddress} {name symbol : Bytes}
    {dec : U8} {pda : PDA} {amount : U128} {payload : Bytes} {att : U64} {pn : Option U8} {n nm : U8} (hp : ctx.program = env.tpId)
    (hacc : ctx.accounts = [f, au, k, krs, kr, env.systemId, env.rentId, env.clockId] ++ extra)
    (hsf : ctx.isSigner f = true) (hsa : ctx.isSigner au = true) (hwf : ctx.isWritable f = true) (hwk : ctx.isWritable k = true)
    (hname : name.length ≤ maxNameLen) (hsymbol : symbol.length ≤ maxNameLen) (un : validUtf8 name = true) (uy : validUtf8 symbol = true)
    (hrs : RL.Ready env w krs rs) (hrr : RL.RoundReady env w kr rr) (hnow : (ctx.now.setWidth 32).toNat < rr.roundEnd.toNat)
    (hm : requestMint env ctx payload tok = .ok (km, nm)) (hopen : openProxy env ctx payload km who f env.systemId 8 att w = .ok (pn, w1))
    (ha : findAddr env (proposalSeeds rr.roundNumber pda (env.hash (wEverEventC.enc ⟨tok, name, symbol, dec, amount, who, payload⟩))) env.tpId = .ok (k, n))
    (hv : Vacant env (w1.acc k)) (hwal : Wallet env w1 f (max 1 (env.rent recLen) + relayReparation * rr.relays.length))
    (hmax : max 1 (env.rent recLen) + relayReparation * rr.relays.length < 2 ^ 64)
    (hpl : name.length + symbol.length + payload.length + rr.relays.length ≤ 787) :
    ∃ w', run env ctx cpi (.withdrawMultiTokenEverRequest pda tok name symbol dec who amount payload att) w = .ok w' := by
  have hfit := fun x y z d => requestEver_fits (n := n) (pn := pn) (au := au) (round := x) (votes := y) (pda := pda) (len := z)
    (e := ⟨tok, name, symbol, dec, amount, who, payload⟩) (day := d) (relays := rr.relays.length) un uy hpl
  obtain ⟨w', h'⟩ := openWithdrawal_live (pda := pda) (e := (⟨tok, name, symbol, dec, amount, who, payload⟩ : WEverEvent)) (ec := wEverEventC) (rs := rs) (rr := rr)
    (au := au) (pn := pn) (len := WEverEvent.lenField ⟨tok, name, symbol, dec, amount, who, payload⟩) (tok := tok.show) (rec := who) (amt := amount)
    hp ha hv (by rintro rfl; have := hwal.rich; have := hv.1; omega) (by rw [hacc]; simp) hwk hwf hsf hwal hmax (hfit _ _ _ _).1 (hfit _ _ _ _).2
  refine ⟨w', ?_⟩
  simp only [run, processEverRequest, bind_ok, acct_ok, sysvar_ok, require_ok, exists_const, ex_unit, Prod.exists]
  exact ⟨f, by rw [hacc]; rfl, au, by rw [hacc]; rfl, k, by rw [hacc]; rfl, krs, by rw [hacc]; rfl, kr, by rw [hacc]; rfl,
    env.systemId, by rw [hacc]; rfl, env.rentId, by rw [hacc]; rfl, rfl, env.clockId, by rw [hacc]; rfl, rfl, hsa, hname, hsymbol, rs, rr,
    loadRound_live hrs hrr hnow, km, nm, hm, pn, w1, hopen, h'⟩

end Verif.TP
