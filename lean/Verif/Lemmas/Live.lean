import Verif.Spec.Client
import Verif.Lemmas.NPFx
import Verif.Lemmas.RLLive
/-!
# Instructions that succeed: building blocks
-/
set_option linter.unusedSimpArgs false
namespace Verif
open Codec Verif

/-- Signers, writable accounts and account lists of built instructions. -/
macro "built" : tactic => `(tactic| simp [Ix.ctx, Ctx.isSigner, Ctx.isWritable, Meta.new, Meta.readonly])

variable {env : Env} {ctx : Ctx} {w w' w1 : World}

/-- Owners and data are what they were, except in the accounts listed. -/
def Eff (D : List Pubkey) (w w1 : World) : Prop := ∀ j, j ∉ D → (w1.acc j).data = (w.acc j).data ∧ (w1.acc j).owner = (w.acc j).owner

theorem Eff.refl (D : List Pubkey) (w : World) : Eff D w w := fun _ _ => ⟨rfl, rfl⟩
theorem Eff.trans {D D' : List Pubkey} {w2 : World} (h : Eff D w w1) (h' : Eff D' w1 w2) : Eff (D ++ D') w w2 := fun j hj => by
  simp only [List.mem_append, not_or] at hj
  exact ⟨(h' j hj.2).1.trans (h j hj.1).1, (h' j hj.2).2.trans (h j hj.1).2⟩
theorem Eff.log {D : List Pubkey} {b : Bytes} (h : Eff D w w1) : Eff D w (w1.log b) := h

theorem holds_eff {α : Type} {c : Codec α} {len : Nat} {D : List Pubkey} {k : Pubkey} {x : α} (h : Eff D w w1) (hk : k ∉ D)
    (hh : Holds c len (w.acc k) x) : Holds c len (w1.acc k) x := by
  obtain ⟨b, r, hb, hl, hd⟩ := hh
  exact ⟨b, r, (h k hk).1.trans hb, hl, hd⟩

/-- Storing a record. -/
theorem pack_live {α : Type} {c : Codec α} {len : Nat} {a : α} {k : Pubkey} {b : Bytes} (hb : (w.acc k).data = .raw b) (hl : b.length = len)
    (hwf : c.wf a = true) (hfit : (c.enc a).length ≤ len) (hw : ctx.isWritable k = true) (ho : (w.acc k).owner = ctx.program) :
    ∃ w1, pack ctx c len a k w = .ok w1 ∧ Holds c len (w1.acc k) a ∧ (w1.acc k).owner = (w.acc k).owner ∧
      (∀ j, (w1.acc j).lamports = (w.acc j).lamports) ∧ (∀ j, j ≠ k → w1.acc j = w.acc j) ∧ Eff [k] w w1 := by
  obtain ⟨b', h⟩ := RL.pack_mk hb hl hwf hfit hw ho
  refine ⟨_, h, RL.pack_holds h, ?_, ?_, ?_, ?_⟩
  · simp
  · intro j
    simp only [World.setDataRaw]
    by_cases e : j = k <;> simp [World.set, e]
  · intro j hj; simp [hj]
  · intro j hj; simp only [List.mem_cons, List.not_mem_nil, or_false] at hj; simp [hj]

/-- Paying lamports from a wallet. -/
theorem sysTransfer_live {src dst : Pubkey} {n : Nat} (hsys : env.systemId ∈ ctx.accounts) (hw : ctx.isWritable src = true)
    (hwd : ctx.isWritable dst = true) (hs : ctx.isSigner src = true) (hwal : Wallet env w src n) (hne : src ≠ dst)
    (hmax : (w.acc dst).lamports + n < 2 ^ 64) :
    ∃ w1, sysTransfer env ctx ctx.signs src dst n w = .ok w1 ∧ Eff [] w w1 ∧
      ∀ j, (w1.acc j).lamports = (w.acc j).lamports - (if j = src then n else 0) + (if j = dst then n else 0) := by
  have h : sysTransfer env ctx ctx.signs src dst n w = .ok _ :=
    sysTransfer_ok.2 ⟨hsys, ⟨hw, hwd⟩, hs, hwal.empty, hwal.rich, .inr hwal.system, by simpa [hne.symm] using hmax, rfl⟩
  refine ⟨_, h, fun j _ => ?_, fun j => ?_⟩
  · rw [sysTransfer_acc h j]; exact ⟨rfl, rfl⟩
  · rw [sysTransfer_acc h j]

/-- Creating a derived account. -/
theorem createPda_live {f k : Pubkey} {seeds : List Bytes} {n : U8} {space : Nat} {o : Pubkey}
    (ha : findAddr env seeds ctx.program = .ok (k, n)) (hv : Vacant env (w.acc k)) (hne : f ≠ k)
    (hsys : env.systemId ∈ ctx.accounts) (hwk : ctx.isWritable k = true) (hwf : ctx.isWritable f = true) (hs : ctx.isSigner f = true)
    (hwal : Wallet env w f (max 1 (env.rent space))) (hmax : env.rent space < 2 ^ 64) :
    ∃ w1, createPda env ctx f k seeds n space o w = .ok w1 ∧ w1.acc k = ⟨max 1 (env.rent space), o, .raw (zeros space)⟩ ∧ Eff [k] w w1 ∧
      ∀ j, j ≠ k → (w1.acc j).lamports = (w.acc j).lamports - (if j = f then max 1 (env.rent space) else 0) := by
  have hc := findAddr_create ha
  obtain ⟨w1, h⟩ := RL.createPda_mk (o := o) hc hv hne hsys hwk hwf hs hwal.system hwal.empty hwal.rich hmax
  refine ⟨w1, h, createPda_self hc h, fun j hj => ?_, fun j hj => ?_⟩
  · simp only [List.mem_cons, List.not_mem_nil, or_false] at hj
    exact createPda_acc hc h j hj
  · obtain ⟨-, -, -, -, -, -, -, -, -, -, -, rfl⟩ := createPda_ok hc h
    by_cases e : j = f
    · subst e; simp [World.set_other _ _ hj]
    · simp [e, World.set_other _ _ hj]

/-- Lamports from an account of the program. -/
theorem moveLamports_live {a b : Pubkey} {n : Nat} (hn : n ≤ (w.acc a).lamports) (hwa : ctx.isWritable a = true) (hwb : ctx.isWritable b = true)
    (ho : (w.acc a).owner = ctx.program) (hne : a ≠ b) (hmax : (w.acc b).lamports + n < 2 ^ 64) :
    ∃ w1, moveLamports ctx a b n w = .ok w1 ∧ Eff [] w w1 ∧
      ∀ j, (w1.acc j).lamports = (w.acc j).lamports - (if j = a then n else 0) + (if j = b then n else 0) := by
  have h : ∃ w1, moveLamports ctx a b n w = .ok w1 := by
    simp only [moveLamports, debit, credit, bind_ok, require_ok, exists_const, Except.ok.injEq]
    exact ⟨_, _, ⟨hn, .inr hwa, .inr ho, rfl⟩, by simpa [hne.symm] using hmax, .inr hwb, rfl⟩
  obtain ⟨w1, h⟩ := h
  obtain ⟨-, -, -, -, -, hacc⟩ := moveLamports_ok h
  exact ⟨w1, h, fun j _ => by rw [hacc j]; exact ⟨rfl, rfl⟩, fun j => by rw [hacc j]⟩

end Verif

namespace Verif.TP
open Codec Verif

variable {env : Env} {ctx : Ctx} {w w' w1 : World} {sg : Pubkey → Bool}

theorem spendAuth_owner_live {t : TokenAcc} {a : Pubkey} {n : U64} (h : t.delegate ≠ some a) (ho : t.owner = a) : spendAuth t a n = .ok t := by
  simp [spendAuth, h, ho]

/-- A transfer of tokens. -/
theorem splTransfer_live {src dst auth mint : Pubkey} {n : U64} (hspl : env.splId ∈ ctx.accounts) (hau : auth ∈ ctx.accounts)
    (hws : ctx.isWritable src = true) (hwd : ctx.isWritable dst = true) (hsg : sg auth = true) (hs : Spendable env w src mint auth n.toNat)
    (hd : Payable env w dst mint n.toNat) : ∃ w1, splTransfer env ctx sg src dst auth n w = .ok w1 ∧ Eff [src, dst] w w1 ∧
      (w1.acc src).owner = env.splId ∧ (w1.acc dst).owner = env.splId ∧ (∀ j, j ≠ src → j ≠ dst → w1.acc j = w.acc j) := by
  obtain ⟨so, s, sd, sm, sown, sdel, sfr, sn, snat⟩ := hs
  obtain ⟨do_, ⟨d, dd, dm, dfr, dn⟩, dl⟩ := hd
  have hex : ∃ w1, splTransfer env ctx sg src dst auth n w = .ok w1 := by
    have hc : splCall env ctx [src, dst] [auth] w = .ok () := splCall_ok.2
      ⟨hspl, by simpa using hau, by simpa using ⟨hws, hwd⟩, by simpa using ⟨so, do_⟩⟩
    by_cases e : src = dst
    · simp only [splTransfer, bind_ok, require_ok, exists_const, tokenOf_ok, if_pos e]
      exact ⟨w, (), hc, s, sd, d, dd, ⟨sfr, dfr⟩, sn, sm.trans dm.symm, s, spendAuth_owner_live sdel sown, hsg, rfl⟩
    · cases hn : s.isNative.isSome
      · simp only [splTransfer, bind_ok, require_ok, exists_const, tokenOf_ok, if_neg e]
        exact ⟨_, (), hc, s, sd, d, dd, ⟨sfr, dfr⟩, sn, sm.trans dm.symm, s, spendAuth_owner_live sdel sown, hsg, dn,
          if_neg (by rw [hn]; simp)⟩
      · simp only [splTransfer, bind_ok, require_ok, exists_const, tokenOf_ok, if_neg e]
        refine ⟨((w.setDataRaw src (.token { s with amount := s.amount - n })).setDataRaw dst
            (.token { d with amount := d.amount + n })).setLamports src ((w.acc src).lamports - n.toNat) |>.setLamports dst
              ((w.acc dst).lamports + n.toNat), (), hc, s, sd, d, dd, ⟨sfr, dfr⟩, sn, sm.trans dm.symm, s,
          spendAuth_owner_live sdel sown, hsg, dn, ?_⟩
        rw [if_pos hn]
        simp only [bind_ok, require_ok, exists_const]
        exact ⟨snat hn, dl, trivial⟩
  obtain ⟨w1, h⟩ := hex
  refine ⟨w1, h, ?_⟩
  obtain ⟨-, -, -, -, -, -, -, s1, d1, s2, -, -, -, -, -, -, -, hcase⟩ := splTransfer_ok h
  rcases hcase with ⟨rfl, rfl⟩ | ⟨-, -, -, -, ha, hb, hc⟩
  · exact ⟨Eff.refl _ _, so, so, fun _ _ _ => rfl⟩
  · refine ⟨fun j hj => ?_, by rw [ha], by rw [hb], hc⟩
    simp only [List.mem_cons, List.not_mem_nil, or_false, not_or] at hj
    rw [hc j hj.1 hj.2]; exact ⟨rfl, rfl⟩

/-- Minting tokens. -/
theorem splMintTo_live {mint dst auth : Pubkey} {n : U64} {m : MintAcc} {d : TokenAcc} (hspl : env.splId ∈ ctx.accounts) (hau : auth ∈ ctx.accounts)
    (hws : ctx.isWritable mint = true) (hwd : ctx.isWritable dst = true) (hsg : sg auth = true) (om : (w.acc mint).owner = env.splId)
    (od : (w.acc dst).owner = env.splId) (hm : (w.acc mint).data = .mint m) (hd : (w.acc dst).data = .token d) (ha : m.mintAuthority = some auth)
    (hdm : d.mint = mint) (hfr : d.frozen = false) (hnat : d.isNative = none) (h1 : d.amount.toNat + n.toNat < 2 ^ 64)
    (h2 : m.supply.toNat + n.toNat < 2 ^ 64) : ∃ w1, splMintTo env ctx sg mint dst auth n w = .ok w1 ∧ Eff [mint, dst] w w1 ∧
      (w1.acc mint).owner = env.splId ∧ (w1.acc dst).owner = env.splId ∧ (∀ j, j ≠ mint → j ≠ dst → w1.acc j = w.acc j) := by
  have hex : ∃ w1, splMintTo env ctx sg mint dst auth n w = .ok w1 := by
    have hc : splCall env ctx [mint, dst] [auth] w = .ok () := splCall_ok.2
      ⟨hspl, by simpa using hau, by simpa using ⟨hws, hwd⟩, by simpa using ⟨om, od⟩⟩
    simp only [splMintTo, bind_ok, require_ok, exists_const, tokenOf_ok, mintOf_ok]
    exact ⟨_, (), hc, d, hd, hfr, hnat, hdm, m, hm, ha, hsg, h1, h2, rfl⟩
  obtain ⟨w1, h⟩ := hex
  refine ⟨w1, h, ?_⟩
  obtain ⟨-, -, -, -, -, -, -, -, m1, d1, -, -, -, -, -, -, -, -, -, ea, eb, hc⟩ := splMintTo_ok h
  refine ⟨fun j hj => ?_, by rw [ea]; exact om, by rw [eb]; exact od, hc⟩
  simp only [List.mem_cons, List.not_mem_nil, or_false, not_or] at hj
  rw [hc j hj.1 hj.2]; exact ⟨rfl, rfl⟩

/-- Burning tokens. -/
theorem splBurn_live {mint src auth : Pubkey} {n : U64} {m : MintAcc} {d : TokenAcc} (hspl : env.splId ∈ ctx.accounts) (hau : auth ∈ ctx.accounts)
    (hws : ctx.isWritable mint = true) (hwd : ctx.isWritable src = true) (hsg : sg auth = true) (om : (w.acc mint).owner = env.splId)
    (od : (w.acc src).owner = env.splId) (hm : (w.acc mint).data = .mint m) (hd : (w.acc src).data = .token d)
    (hdel : d.delegate ≠ some auth) (hown : d.owner = auth)
    (hdm : d.mint = mint) (hfr : d.frozen = false) (hnat : d.isNative = none) (h1 : n.toNat ≤ d.amount.toNat)
    (h2 : n.toNat ≤ m.supply.toNat) : ∃ w1, splBurn env ctx sg src mint auth n w = .ok w1 ∧ Eff [mint, src] w w1 ∧
      (w1.acc mint).owner = env.splId ∧ (w1.acc src).owner = env.splId ∧ (∀ j, j ≠ mint → j ≠ src → w1.acc j = w.acc j) := by
  have hex : ∃ w1, splBurn env ctx sg src mint auth n w = .ok w1 := by
    have hc : splCall env ctx [src, mint] [auth] w = .ok () := splCall_ok.2
      ⟨hspl, by simpa using hau, by simpa using ⟨hwd, hws⟩, by simpa using ⟨od, om⟩⟩
    simp only [splBurn, bind_ok, require_ok, exists_const, tokenOf_ok, mintOf_ok]
    exact ⟨_, (), hc, d, hd, m, hm, hfr, hnat, h1, hdm, d, spendAuth_owner_live hdel hown, hsg, h2, rfl⟩
  obtain ⟨w1, h⟩ := hex
  refine ⟨w1, h, ?_⟩
  obtain ⟨-, -, -, -, -, -, -, -, m1, d1, s1, -, -, -, -, -, -, -, -, -, ea, eb, hc⟩ := splBurn_ok h
  refine ⟨fun j hj => ?_, by rw [ea]; exact om, by rw [eb]; exact od, hc⟩
  simp only [List.mem_cons, List.not_mem_nil, or_false, not_or] at hj
  rw [hc j hj.1 hj.2]; exact ⟨rfl, rfl⟩

/-- Initializing a token account. -/
theorem splInitAccount_live {k mint o : Pubkey} (hspl : env.splId ∈ ctx.accounts) (hm : mint ∈ ctx.accounts) (hw : ctx.isWritable k = true)
    (ho : (w.acc k).owner = env.splId) (hd : (w.acc k).data = .raw (zeros 165)) (hr : env.rent 165 ≤ (w.acc k).lamports)
    (hmint : mint = env.nativeMint ∨ ∃ m, (w.acc mint).data = .mint m) :
    ∃ w1, splInitAccount env ctx k mint o w = .ok w1 ∧ Eff [k] w w1 ∧ (w1.acc k).owner = env.splId ∧
      (w1.acc k).data = .token (freshToken env mint o (w.acc k).lamports) ∧ (w1.acc k).lamports = (w.acc k).lamports ∧ (∀ j, j ≠ k → w1.acc j = w.acc j) := by
  have hc : splCall env ctx [k] [mint] w = .ok () := splCall_ok.2 ⟨hspl, by simpa using hm, by simpa using hw, by simpa using ho⟩
  have hq : mint = env.nativeMint ∨ (mintOf (w.acc mint).data).isOk = true := hmint.imp id fun ⟨m, hm⟩ => by rw [hm]; rfl
  refine ⟨w.setDataRaw k (.token (freshToken env mint o (w.acc k).lamports)), ?_, ?_, ?_, ?_, ?_, ?_⟩
  · simp only [splInitAccount, bind_ok, require_ok, exists_const]
    exact ⟨(), hc, hd, hr, hq, trivial⟩
  · intro j hj; simp only [List.mem_cons, List.not_mem_nil, or_false] at hj; simp [hj]
  · simp [ho]
  · simp
  · simp
  · intro j hj; simp [hj]

/-- Initializing a mint. -/
theorem splInitMint_live {k o : Pubkey} {dec : U8} (hspl : env.splId ∈ ctx.accounts) (hm : env.rentId ∈ ctx.accounts) (hw : ctx.isWritable k = true)
    (ho : (w.acc k).owner = env.splId) (hd : (w.acc k).data = .raw (zeros 82)) (hr : env.rent 82 ≤ (w.acc k).lamports) :
    ∃ w1, splInitMint env ctx k o dec w = .ok w1 ∧ Eff [k] w w1 ∧ (w1.acc k).owner = env.splId ∧
      (w1.acc k).data = .mint ⟨some o, 0#64, dec, none⟩ ∧ (w1.acc k).lamports = (w.acc k).lamports ∧ (∀ j, j ≠ k → w1.acc j = w.acc j) := by
  have hc : splCall env ctx [k] [env.rentId] w = .ok () := splCall_ok.2 ⟨hspl, by simpa using hm, by simpa using hw, by simpa using ho⟩
  refine ⟨w.setDataRaw k (.mint ⟨some o, 0#64, dec, none⟩), ?_, ?_, ?_, ?_, ?_, ?_⟩
  · simp only [splInitMint, bind_ok, require_ok, exists_const]
    exact ⟨(), hc, hd, hr, trivial⟩
  · intro j hj; simp only [List.mem_cons, List.not_mem_nil, or_false] at hj; simp [hj]
  · simp [ho]
  · simp
  · simp
  · intro j hj; simp [hj]

end Verif.TP
