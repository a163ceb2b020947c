import Verif.TokenProxy.Processor
/-!
# Operations and their effect on single accounts

Every handler is a sequence of a few kinds of operations. `Exec` names them, `Ch` describes what one operation can do to
one account, `Ops` is a sequence of operations each of which is permitted by `W`.
-/
namespace Verif

@[simp] theorem setLamports_acc (w : World) (k k' : Pubkey) (n : Nat) :
    (w.setLamports k n).acc k' = if k' = k then { w.acc k with lamports := n } else w.acc k' := rfl

@[simp] theorem setDataRaw_acc (w : World) (k k' : Pubkey) (d : Data) :
    (w.setDataRaw k d).acc k' = if k' = k then { w.acc k with data := d } else w.acc k' := rfl

@[simp] theorem setLamports_logs (w : World) (k : Pubkey) (n : Nat) : (w.setLamports k n).logs = w.logs := rfl
@[simp] theorem setDataRaw_logs (w : World) (k : Pubkey) (d : Data) : (w.setDataRaw k d).logs = w.logs := rfl

theorem isWritable_mem {ctx : Ctx} {k : Pubkey} (h : ctx.isWritable k = true) : k ∈ ctx.accounts := by
  simp only [Ctx.isWritable, Bool.and_eq_true, List.contains_iff_mem] at h; exact h.1

theorem isSigner_mem {ctx : Ctx} {k : Pubkey} (h : ctx.isSigner k = true) : k ∈ ctx.accounts ∧ k ∈ ctx.signers := by
  simpa only [Ctx.isSigner, Bool.and_eq_true, List.contains_iff_mem] using h

/-- The operations a handler performs. -/
inductive Op
  | log (b : Bytes)
  | sys (src dst : Pubkey) (n : Nat)
  | create (funder k : Pubkey) (seeds : List Bytes) (nonce : U8) (space : Nat) (owner : Pubkey)
  | createFunded (prog : Pubkey) (seeds : List Bytes) (funder k : Pubkey) (space : Nat) (owner : Pubkey)
  | write (k : Pubkey) (b b' : Bytes)
  | move (a b : Pubkey) (n : Nat)
  | close (k : Pubkey)
  | xfer (signs : Pubkey → Bool) (src dst auth : Pubkey) (n : U64)
  | mintTo (signs : Pubkey → Bool) (mint dst auth : Pubkey) (n : U64)
  | burn (signs : Pubkey → Bool) (src mint auth : Pubkey) (n : U64)
  | initAcc (k mint owner : Pubkey)
  | initMint (k auth : Pubkey) (decimals : U8)
  | sync (k : Pubkey)

/-- Execution of one operation. -/
def Exec (env : Env) (ctx : Ctx) (op : Op) (w w' : World) : Prop :=
  match op with
  | .log b => w' = w.log b
  | .sys src dst n => sysTransfer env ctx ctx.signs src dst n w = .ok w'
  | .create funder k seeds nonce space owner => env.createAddr (seeds ++ [[nonce]]) ctx.program = some k ∧
      createPda env ctx funder k seeds nonce space owner w = .ok w'
  | .createFunded prog seeds funder k space owner => env.createAddr seeds prog = some k ∧
      createPdaFunded env ctx (fun a => ctx.isSigner a || a == k) funder k space owner w = .ok w'
  | .write k b b' => (w.acc k).data = .raw b ∧ b'.length = b.length ∧ (w.acc k).owner = ctx.program ∧
      ctx.isWritable k = true ∧ w' = w.setDataRaw k (.raw b')
  | .move a b n => moveLamports ctx a b n w = .ok w'
  | .close k => zeroAccount env ctx k w = .ok w'
  | .xfer sg src dst auth n => splTransfer env ctx sg src dst auth n w = .ok w'
  | .mintTo sg mint dst auth n => splMintTo env ctx sg mint dst auth n w = .ok w'
  | .burn sg src mint auth n => splBurn env ctx sg src mint auth n w = .ok w'
  | .initAcc k mint owner => splInitAccount env ctx k mint owner w = .ok w'
  | .initMint k auth dec => splInitMint env ctx k auth dec w = .ok w'
  | .sync k => splSyncNative env ctx k w = .ok w'

/-- What one operation can do to one account. -/
inductive Ch (env : Env) (ctx : Ctx) (op : Op) (k : Pubkey) (a a' : Account) : Prop
  /-- nothing -/
  | same (h : a' = a)
  /-- lamports arrive -/
  | gain (hw : ctx.isWritable k = true) (hl : a.lamports ≤ a'.lamports) (hd : a'.data = a.data) (ho : a'.owner = a.owner)
  /-- a signing wallet pays -/
  | pay (hw : ctx.isWritable k = true) (hs : ctx.isSigner k = true) (hsys : a.owner = env.systemId)
      (hlen : a.data.len = 0) (hd : a'.data = a.data) (ho : a'.owner = a.owner)
  /-- the running program takes lamports from its own account -/
  | move (b : Pubkey) (n : Nat) (hop : op = .move k b n) (hw : ctx.isWritable k = true) (how : a.owner = ctx.program)
      (hl : a.lamports ≤ a'.lamports + n) (hd : a'.data = a.data) (ho : a'.owner = a.owner)
  /-- the running program writes its own account -/
  | write (b b' : Bytes) (hop : op = .write k b b') (hw : ctx.isWritable k = true) (how : a.owner = ctx.program)
      (hb : a.data = .raw b) (hlen : b'.length = b.length) (h : a' = { a with data := .raw b' })
  /-- the running program gives its account back to the system -/
  | close (hop : op = .close k) (hw : ctx.isWritable k = true) (how : a.owner = ctx.program)
      (h : a' = { lamports := a.lamports, owner := env.systemId, data := .raw (zeros a.data.len) })
  /-- an account is created at an address derived for the running program -/
  | create (funder : Pubkey) (seeds : List Bytes) (nonce : U8) (space : Nat) (owner : Pubkey)
      (hop : op = .create funder k seeds nonce space owner) (hw : ctx.isWritable k = true)
      (hsys : a.owner = env.systemId) (hlen : a.data.len = 0) (hl : a.lamports = 0)
      (haddr : env.createAddr (seeds ++ [[nonce]]) ctx.program = some k)
      (h : a' = { lamports := max 1 (env.rent space), owner := owner, data := .raw (zeros space) })
  /-- the same, also allowed if the address already holds lamports -/
  | createFunded (prog : Pubkey) (seeds : List Bytes) (funder : Pubkey) (space : Nat) (owner : Pubkey) (n : Nat)
      (hop : op = .createFunded prog seeds funder k space owner) (hw : ctx.isWritable k = true)
      (hsys : a.owner = env.systemId) (hlen : a.data.len = 0)
      (haddr : env.createAddr seeds prog = some k) (hl : a.lamports ≤ n) (hn : 1 ≤ n)
      (h : a' = { lamports := n, owner := owner, data := .raw (zeros space) })
  /-- source of a token transfer -/
  | xferSrc (sg : Pubkey → Bool) (dst auth : Pubkey) (n : U64) (s s' : TokenAcc)
      (hop : op = .xfer sg k dst auth n) (hw : ctx.isWritable k = true) (how : a.owner = env.splId)
      (hb : a.data = .token s) (hn : n.toNat ≤ s.amount.toNat) (hsp : spendAuth s auth n = .ok s') (hsg : sg auth = true)
      (hd : a'.data = .token { s' with amount := s.amount - n }) (ho : a'.owner = a.owner)
      (hl : a'.lamports = if s.isNative.isSome then a.lamports - n.toNat else a.lamports)
  /-- destination of a token transfer -/
  | xferDst (sg : Pubkey → Bool) (src auth : Pubkey) (n : U64) (d : TokenAcc)
      (hop : op = .xfer sg src k auth n) (hw : ctx.isWritable k = true) (how : a.owner = env.splId)
      (hb : a.data = .token d) (hn : d.amount.toNat + n.toNat < 2 ^ 64)
      (hd : a'.data = .token { d with amount := d.amount + n }) (ho : a'.owner = a.owner)
      (hl : a.lamports ≤ a'.lamports)
  /-- destination of newly minted tokens -/
  | mintDst (sg : Pubkey → Bool) (mint auth : Pubkey) (n : U64) (d : TokenAcc)
      (hop : op = .mintTo sg mint k auth n) (hw : ctx.isWritable k = true) (how : a.owner = env.splId)
      (hb : a.data = .token d) (hm : d.mint = mint) (hn : d.amount.toNat + n.toNat < 2 ^ 64)
      (h : a' = { a with data := .token { d with amount := d.amount + n } })
  /-- mint whose supply grows -/
  | mintMint (sg : Pubkey → Bool) (dst auth : Pubkey) (n : U64) (m : MintAcc)
      (hop : op = .mintTo sg k dst auth n) (hw : ctx.isWritable k = true) (how : a.owner = env.splId)
      (hb : a.data = .mint m) (hauth : m.mintAuthority = some auth) (hsg : sg auth = true)
      (hn : m.supply.toNat + n.toNat < 2 ^ 64)
      (h : a' = { a with data := .mint { m with supply := m.supply + n } })
  /-- token account whose tokens are burned -/
  | burnSrc (sg : Pubkey → Bool) (mint auth : Pubkey) (n : U64) (s s' : TokenAcc)
      (hop : op = .burn sg k mint auth n) (hw : ctx.isWritable k = true) (how : a.owner = env.splId)
      (hb : a.data = .token s) (hm : s.mint = mint) (hn : n.toNat ≤ s.amount.toNat)
      (hsp : spendAuth s auth n = .ok s') (hsg : sg auth = true)
      (h : a' = { a with data := .token { s' with amount := s.amount - n } })
  /-- mint whose supply shrinks -/
  | burnMint (sg : Pubkey → Bool) (src auth : Pubkey) (n : U64) (m : MintAcc)
      (hop : op = .burn sg src k auth n) (hw : ctx.isWritable k = true) (how : a.owner = env.splId)
      (hb : a.data = .mint m) (hn : n.toNat ≤ m.supply.toNat)
      (h : a' = { a with data := .mint { m with supply := m.supply - n } })
  /-- new token account -/
  | initAcc (mint owner : Pubkey) (hop : op = .initAcc k mint owner) (hw : ctx.isWritable k = true)
      (how : a.owner = env.splId) (hb : a.data = .raw (zeros 165))
      (h : a' = { a with data := .token (freshToken env mint owner a.lamports) })
  /-- new mint -/
  | initMint (auth : Pubkey) (dec : U8) (hop : op = .initMint k auth dec) (hw : ctx.isWritable k = true)
      (how : a.owner = env.splId) (hb : a.data = .raw (zeros 82))
      (h : a' = { a with data := (Data.mint ⟨some auth, 0#64, dec, none⟩) })
  /-- wrapped SOL account brought up to date -/
  | sync (t : TokenAcc) (n : U64) (hop : op = .sync k) (hw : ctx.isWritable k = true) (how : a.owner = env.splId)
      (hb : a.data = .token t) (hn : t.amount.toNat ≤ n.toNat)
      (h : a' = { a with data := .token { t with amount := n } })

theorem sysTransfer_ok {env : Env} {ctx : Ctx} {sg : Pubkey → Bool} {src dst : Pubkey} {n : Nat} {w w' : World} :
    sysTransfer env ctx sg src dst n w = .ok w' ↔
      (env.systemId ∈ ctx.accounts ∧ (ctx.isWritable src = true ∧ ctx.isWritable dst = true) ∧ sg src = true ∧
       (w.acc src).data.len = 0 ∧ n ≤ (w.acc src).lamports ∧ (n = 0 ∨ (w.acc src).owner = env.systemId) ∧
       ((w.setLamports src ((w.acc src).lamports - n)).acc dst).lamports + n < 2 ^ 64 ∧
       w' = (w.setLamports src ((w.acc src).lamports - n)).setLamports dst
          (((w.setLamports src ((w.acc src).lamports - n)).acc dst).lamports + n)) := by
  simp only [sysTransfer, bind_ok, require_ok, exists_const, Except.ok.injEq, eq_comm (a := w')]

/-- A system transfer as lamport changes of single accounts. -/
theorem sysTransfer_acc {env : Env} {ctx : Ctx} {sg : Pubkey → Bool} {src dst : Pubkey} {n : Nat} {w w' : World}
    (h : sysTransfer env ctx sg src dst n w = .ok w') (k : Pubkey) :
    w'.acc k = { w.acc k with lamports := (w.acc k).lamports - (if k = src then n else 0) + (if k = dst then n else 0) } := by
  obtain ⟨-, -, -, -, -, -, -, rfl⟩ := sysTransfer_ok.1 h
  by_cases h1 : k = src <;> by_cases h2 : k = dst
  · subst h1; subst h2; simp
  · subst h1; simp [h2]
  · subst h2; simp [h1]
  · simp [h1, h2]

theorem createPda_ok {env : Env} {ctx : Ctx} {funder k : Pubkey} {seeds : List Bytes} {nonce : U8} {space : Nat}
    {owner : Pubkey} {w w' : World} (haddr : env.createAddr (seeds ++ [[nonce]]) ctx.program = some k)
    (h : createPda env ctx funder k seeds nonce space owner w = .ok w') :
    (w.acc k).lamports = 0 ∧ (w.acc k).data.len = 0 ∧ (w.acc k).owner = env.systemId ∧ funder ≠ k ∧
    env.systemId ∈ ctx.accounts ∧ ctx.isWritable k = true ∧ ctx.isWritable funder = true ∧ ctx.isSigner funder = true ∧
    (w.acc funder).owner = env.systemId ∧ (w.acc funder).data.len = 0 ∧
    max 1 (env.rent space) ≤ (w.acc funder).lamports ∧
    w' = (w.set k { lamports := max 1 (env.rent space), owner := owner, data := .raw (zeros space) }).setLamports funder
      ((w.acc funder).lamports - max 1 (env.rent space)) := by
  simp only [createPda, bind_ok, pdaSigns, haddr, Except.ok.injEq, exists_eq_left', sysCreate, require_ok,
    exists_const] at h
  obtain ⟨hsk, hl, ⟨hlen, hsys⟩, h⟩ := h
  obtain ⟨hmem, ⟨hwf, hwk⟩, hs, hflen, hle, hown, -, rfl⟩ := sysTransfer_ok.1 h
  have hne : funder ≠ k := by
    rintro rfl
    simp at hle
  have hne' : k ≠ funder := fun e => hne e.symm
  simp only [World.set_other _ _ hne] at hflen hle hown ⊢
  simp only [hne, beq_iff_eq, Bool.or_eq_true, or_false] at hs
  have hn : max 1 (env.rent space) ≠ 0 := by omega
  refine ⟨hl, hlen, hsys, hne, hmem, hwk, hwf, hs, hown.resolve_left hn, hflen, hle, ?_⟩
  simp only [World.setLamports, World.set, World.mk.injEq, and_true]
  funext x
  by_cases h1 : x = k
  · subst h1; simp [hne']
  · by_cases h2 : x = funder
    · subst h2; simp [h1]
    · simp [h1, h2]

theorem createPdaFunded_ok {env : Env} {ctx : Ctx} {funder k : Pubkey} {space : Nat}
    {owner : Pubkey} {w w' : World}
    (h : createPdaFunded env ctx (fun a => ctx.isSigner a || a == k) funder k space owner w = .ok w') :
    (w.acc k).data.len = 0 ∧ (w.acc k).owner = env.systemId ∧ ctx.isWritable k = true ∧
    ∃ n, (w.acc k).lamports ≤ n ∧ 1 ≤ n ∧
      w'.acc k = { lamports := n, owner := owner, data := .raw (zeros space) } ∧
      (∀ x, x ≠ k → w'.acc x = { w.acc x with lamports :=
        (w.acc x).lamports - (if x = funder then n - (w.acc k).lamports else 0) }) ∧
      w'.logs = w.logs ∧
      (n = (w.acc k).lamports ∨ (funder ≠ k ∧ ctx.isSigner funder = true ∧ ctx.isWritable funder = true ∧
        (w.acc funder).owner = env.systemId ∧ (w.acc funder).data.len = 0 ∧
        n - (w.acc k).lamports ≤ (w.acc funder).lamports)) := by
  unfold createPdaFunded at h
  by_cases h0 : (w.acc k).lamports = 0
  · simp only [h0, if_true, sysCreate, bind_ok, require_ok, exists_const] at h
    obtain ⟨-, -, ⟨hlen, hsys⟩, h⟩ := h
    obtain ⟨hmem, ⟨hwf, hwk⟩, hs, hflen, hle, hown, -, rfl⟩ := sysTransfer_ok.1 h
    have hne : funder ≠ k := by
      rintro rfl
      simp at hle
    have hne' : k ≠ funder := fun e => hne e.symm
    simp only [World.set_other _ _ hne] at hflen hle hown ⊢
    simp only [hne, beq_iff_eq, Bool.or_eq_true, or_false] at hs
    have hn : max 1 (env.rent space) ≠ 0 := by omega
    refine ⟨hlen, hsys, hwk, max 1 (env.rent space), by omega, by omega, ?_, ?_, rfl,
      .inr ⟨hne, hs, hwf, hown.resolve_left hn, hflen, by omega⟩⟩
    · simp [hne']
    · intro x hx
      by_cases h2 : x = funder
      · subst h2; simp [hx, World.set_other, h0]
      · simp [hx, h2, World.set_other]
  · simp only [h0, if_false, bind_ok, require_ok, exists_const] at h
    obtain ⟨-, -, hwk, ⟨hlen, hsys⟩, h⟩ := h
    by_cases hneed : max 1 (env.rent space) - (w.acc k).lamports = 0
    · simp only [hneed, if_true, bind_ok, Except.ok.injEq, exists_eq_left'] at h
      subst h
      refine ⟨hlen, hsys, hwk, (w.acc k).lamports, Nat.le_refl _, by omega, by simp, ?_, rfl, .inl rfl⟩
      intro x hx
      simp [World.set_other _ _ hx]
    · simp only [hneed, if_false, bind_ok, Except.ok.injEq] at h
      obtain ⟨w1, h1, rfl⟩ := h
      have hk := sysTransfer_acc h1
      obtain ⟨hmem, ⟨hwf, -⟩, hs, hflen, hle, hown, -, hw1⟩ := sysTransfer_ok.1 h1
      by_cases hne : funder = k
      · subst hne
        refine ⟨hlen, hsys, hwk, (w.acc funder).lamports, Nat.le_refl _, by omega, ?_, ?_, by rw [hw1]; rfl, .inl rfl⟩
        · simp [hk]; omega
        · intro x hx
          simp [World.set_other _ _ hx, hk, hx]
      · have hne' : k ≠ funder := fun e => hne e.symm
        refine ⟨hlen, hsys, hwk, max 1 (env.rent space), by omega, by omega, ?_, ?_, by rw [hw1]; rfl,
          .inr ⟨hne, hs, hwf, hown.resolve_left hneed, hflen, hle⟩⟩
        · simp [hk, hne']; omega
        · intro x hx
          simp [World.set_other _ _ hx, hk, hx]

theorem moveLamports_ok {ctx : Ctx} {a b : Pubkey} {n : Nat} {w w' : World}
    (h : moveLamports ctx a b n w = .ok w') :
    n ≤ (w.acc a).lamports ∧ (n = 0 ∨ ctx.isWritable a = true) ∧ (n = 0 ∨ (w.acc a).owner = ctx.program) ∧
    (n = 0 ∨ ctx.isWritable b = true) ∧ w'.logs = w.logs ∧
    ∀ k, w'.acc k = { w.acc k with lamports := (w.acc k).lamports - (if k = a then n else 0) + (if k = b then n else 0) } := by
  simp only [moveLamports, debit, credit, bind_ok, require_ok, exists_const, Except.ok.injEq] at h
  obtain ⟨w1, ⟨h1, h2, h3, rfl⟩, -, h5, rfl⟩ := h
  refine ⟨h1, h2, h3, h5, rfl, ?_⟩
  intro k
  by_cases e1 : k = a <;> by_cases e2 : k = b
  · subst e1; subst e2; simp
  · subst e1; simp [e2]
  · subst e2; simp [e1]
  · simp [e1, e2]

theorem splCall_ok {env : Env} {ctx : Ctx} {wr ot : List Pubkey} {w : World} {u : Unit} :
    splCall env ctx wr ot w = .ok u ↔ env.splId ∈ ctx.accounts ∧ (∀ k ∈ ot, k ∈ ctx.accounts) ∧
      (∀ k ∈ wr, ctx.isWritable k = true) ∧ (∀ k ∈ wr, (w.acc k).owner = env.splId) := by
  simp only [splCall, bind_ok, require_ok, exists_const]

/-- Inversion of a token transfer between different accounts. -/
theorem splTransfer_ok {env : Env} {ctx : Ctx} {sg : Pubkey → Bool} {src dst auth : Pubkey} {n : U64} {w w' : World}
    (h : splTransfer env ctx sg src dst auth n w = .ok w') :
    env.splId ∈ ctx.accounts ∧ auth ∈ ctx.accounts ∧ ctx.isWritable src = true ∧ ctx.isWritable dst = true ∧
    (w.acc src).owner = env.splId ∧ (w.acc dst).owner = env.splId ∧ sg auth = true ∧
    ∃ s d s', (w.acc src).data = .token s ∧ (w.acc dst).data = .token d ∧ s.mint = d.mint ∧
      s.frozen = false ∧ d.frozen = false ∧
      n.toNat ≤ s.amount.toNat ∧ spendAuth s auth n = .ok s' ∧
      ((src = dst ∧ w' = w) ∨
       (src ≠ dst ∧ d.amount.toNat + n.toNat < 2 ^ 64 ∧ w'.logs = w.logs ∧
        (s.isNative.isSome = true → n.toNat ≤ (w.acc src).lamports) ∧
        w'.acc src = ⟨if s.isNative.isSome then (w.acc src).lamports - n.toNat else (w.acc src).lamports, env.splId,
          .token { s' with amount := s.amount - n }⟩ ∧
        w'.acc dst = ⟨if s.isNative.isSome then (w.acc dst).lamports + n.toNat else (w.acc dst).lamports, env.splId,
          .token { d with amount := d.amount + n }⟩ ∧
        ∀ k, k ≠ src → k ≠ dst → w'.acc k = w.acc k)) := by
  simp only [splTransfer, bind_ok, splCall_ok, exists_const, require_ok, tokenOf_ok] at h
  obtain ⟨⟨hm, ha, hw, ho⟩, s, hs, d, hd, hfr, hn, hmint, s', hsp, hsg, h⟩ := h
  simp only [List.mem_cons, List.not_mem_nil, or_false, forall_eq_or_imp, forall_eq] at ha hw ho
  refine ⟨hm, ha, hw.1, hw.2, ho.1, ho.2, hsg, s, d, s', hs, hd, hmint, hfr.1, hfr.2, hn, hsp, ?_⟩
  by_cases e : src = dst
  · simp only [e, if_true, Except.ok.injEq] at h
    exact .inl ⟨e, h.symm⟩
  · simp only [e, if_false, bind_ok, require_ok, exists_const] at h
    obtain ⟨hov, h⟩ := h
    have e' : dst ≠ src := fun h => e h.symm
    refine .inr ⟨e, hov, ?_⟩
    by_cases hnat : s.isNative.isSome = true
    · simp only [hnat, if_true, bind_ok, require_ok, exists_const, Except.ok.injEq] at h ⊢
      obtain ⟨h1, -, rfl⟩ := h
      refine ⟨rfl, fun _ => h1, ?_, ?_, ?_⟩
      · simp [e, ho.1]
      · simp [e', ho.2]
      · intro k h1 h2; simp [h1, h2]
    · simp only [hnat, if_false, Except.ok.injEq, Bool.false_eq_true] at h ⊢
      subst h
      refine ⟨rfl, fun h => h.elim, ?_, ?_, ?_⟩
      · simp [e, ho.1]
      · simp [e', ho.2]
      · intro k h1 h2; simp [h1, h2]

theorem splMintTo_ok {env : Env} {ctx : Ctx} {sg : Pubkey → Bool} {mint dst auth : Pubkey} {n : U64} {w w' : World}
    (h : splMintTo env ctx sg mint dst auth n w = .ok w') :
    env.splId ∈ ctx.accounts ∧ auth ∈ ctx.accounts ∧ ctx.isWritable mint = true ∧ ctx.isWritable dst = true ∧
    (w.acc mint).owner = env.splId ∧ (w.acc dst).owner = env.splId ∧ sg auth = true ∧ mint ≠ dst ∧
    ∃ m d, (w.acc mint).data = .mint m ∧ (w.acc dst).data = .token d ∧ d.mint = mint ∧ d.frozen = false ∧
      d.isNative = none ∧ m.mintAuthority = some auth ∧
      d.amount.toNat + n.toNat < 2 ^ 64 ∧ m.supply.toNat + n.toNat < 2 ^ 64 ∧ w'.logs = w.logs ∧
      w'.acc mint = { w.acc mint with data := .mint { m with supply := m.supply + n } } ∧
      w'.acc dst = { w.acc dst with data := .token { d with amount := d.amount + n } } ∧
      ∀ k, k ≠ mint → k ≠ dst → w'.acc k = w.acc k := by
  simp only [splMintTo, bind_ok, splCall_ok, exists_const, require_ok, tokenOf_ok, mintOf_ok, Except.ok.injEq] at h
  obtain ⟨⟨hm, ha, hw, ho⟩, d, hd, hfr, hnat, hmint, m, hmm, hauth, hsg, h1, h2, rfl⟩ := h
  simp only [List.mem_cons, List.not_mem_nil, or_false, forall_eq_or_imp, forall_eq] at ha hw ho
  have e : mint ≠ dst := by rintro rfl; rw [hd] at hmm; cases hmm
  have e' : dst ≠ mint := fun h => e h.symm
  refine ⟨hm, ha, hw.1, hw.2, ho.1, ho.2, hsg, e, m, d, hmm, hd, hmint, hfr, hnat, hauth, h1, h2, rfl, ?_, ?_, ?_⟩
  · simp [e]
  · simp [e']
  · intro k h1 h2; simp [h1, h2]

theorem splBurn_ok {env : Env} {ctx : Ctx} {sg : Pubkey → Bool} {src mint auth : Pubkey} {n : U64} {w w' : World}
    (h : splBurn env ctx sg src mint auth n w = .ok w') :
    env.splId ∈ ctx.accounts ∧ auth ∈ ctx.accounts ∧ ctx.isWritable mint = true ∧ ctx.isWritable src = true ∧
    (w.acc mint).owner = env.splId ∧ (w.acc src).owner = env.splId ∧ sg auth = true ∧ mint ≠ src ∧
    ∃ m s s', (w.acc mint).data = .mint m ∧ (w.acc src).data = .token s ∧ s.mint = mint ∧ s.frozen = false ∧
      s.isNative = none ∧ spendAuth s auth n = .ok s' ∧
      n.toNat ≤ s.amount.toNat ∧ n.toNat ≤ m.supply.toNat ∧ w'.logs = w.logs ∧
      w'.acc mint = { w.acc mint with data := .mint { m with supply := m.supply - n } } ∧
      w'.acc src = { w.acc src with data := .token { s' with amount := s.amount - n } } ∧
      ∀ k, k ≠ mint → k ≠ src → w'.acc k = w.acc k := by
  simp only [splBurn, bind_ok, splCall_ok, exists_const, require_ok, tokenOf_ok, mintOf_ok, Except.ok.injEq] at h
  obtain ⟨⟨hm, ha, hw, ho⟩, s, hs, m, hmm, hfr, hnat, hn, hmint, s', hsp, hsg, h2, rfl⟩ := h
  simp only [List.mem_cons, List.not_mem_nil, or_false, forall_eq_or_imp, forall_eq] at ha hw ho
  have e : mint ≠ src := by rintro rfl; rw [hs] at hmm; cases hmm
  have e' : src ≠ mint := fun h => e h.symm
  refine ⟨hm, ha, hw.2, hw.1, ho.2, ho.1, hsg, e, m, s, s', hmm, hs, hmint, hfr, hnat, hsp, hn, h2, rfl, ?_, ?_, ?_⟩
  · simp [e]
  · simp [e']
  · intro k h1 h2; simp [h1, h2]

theorem splInitAccount_ok {env : Env} {ctx : Ctx} {k mint owner : Pubkey} {w w' : World}
    (h : splInitAccount env ctx k mint owner w = .ok w') :
    env.splId ∈ ctx.accounts ∧ mint ∈ ctx.accounts ∧ ctx.isWritable k = true ∧ (w.acc k).owner = env.splId ∧
    (w.acc k).data = .raw (zeros 165) ∧ env.rent 165 ≤ (w.acc k).lamports ∧
    (mint = env.nativeMint ∨ ∃ m, (w.acc mint).data = .mint m) ∧
    w' = w.setDataRaw k (.token (freshToken env mint owner (w.acc k).lamports)) := by
  simp only [splInitAccount, bind_ok, splCall_ok, exists_const, require_ok, Except.ok.injEq] at h
  obtain ⟨⟨hm, ha, hw, ho⟩, hz, hr, hmi, rfl⟩ := h
  simp only [List.mem_cons, List.not_mem_nil, or_false, forall_eq] at ha hw ho
  refine ⟨hm, ha, hw, ho, hz, hr, ?_, rfl⟩
  rcases hmi with h | h
  · exact .inl h
  · refine .inr ?_
    cases hd : (w.acc mint).data with
    | mint m => exact ⟨m, rfl⟩
    | _ => rw [hd] at h; simp [mintOf, Except.isOk, Except.toBool] at h

theorem splInitMint_ok {env : Env} {ctx : Ctx} {k auth : Pubkey} {dec : U8} {w w' : World}
    (h : splInitMint env ctx k auth dec w = .ok w') :
    env.splId ∈ ctx.accounts ∧ env.rentId ∈ ctx.accounts ∧ ctx.isWritable k = true ∧ (w.acc k).owner = env.splId ∧
    (w.acc k).data = .raw (zeros 82) ∧ env.rent 82 ≤ (w.acc k).lamports ∧
    w' = w.setDataRaw k (.mint ⟨some auth, 0#64, dec, none⟩) := by
  simp only [splInitMint, bind_ok, splCall_ok, exists_const, require_ok, Except.ok.injEq] at h
  obtain ⟨⟨hm, ha, hw, ho⟩, hz, hr, rfl⟩ := h
  simp only [List.mem_cons, List.not_mem_nil, or_false, forall_eq] at ha hw ho
  exact ⟨hm, ha, hw, ho, hz, hr, rfl⟩

theorem splSyncNative_ok {env : Env} {ctx : Ctx} {k : Pubkey} {w w' : World}
    (h : splSyncNative env ctx k w = .ok w') :
    env.splId ∈ ctx.accounts ∧ ctx.isWritable k = true ∧ (w.acc k).owner = env.splId ∧
    ∃ t r, (w.acc k).data = .token t ∧ t.isNative = some r ∧ r.toNat ≤ (w.acc k).lamports ∧
      (w.acc k).lamports < 2 ^ 64 ∧ t.amount.toNat ≤ (w.acc k).lamports - r.toNat ∧
      w' = w.setDataRaw k (.token { t with amount := BitVec.ofNat 64 ((w.acc k).lamports - r.toNat) }) := by
  simp only [splSyncNative, bind_ok, splCall_ok, exists_const, require_ok, tokenOf_ok, orErr_ok, Except.ok.injEq] at h
  obtain ⟨⟨hm, ha, hw, ho⟩, t, ht, r, hr, ⟨h1, h2⟩, h3, rfl⟩ := h
  simp only [List.mem_cons, List.not_mem_nil, or_false, forall_eq] at hw ho
  exact ⟨hm, hw, ho, t, r, ht, hr, h1, h2, h3, rfl⟩

theorem exec_ch {env : Env} {ctx : Ctx} {op : Op} {w w' : World} (h : Exec env ctx op w w') (k : Pubkey) :
    Ch env ctx op k (w.acc k) (w'.acc k) := by
  cases op with
  | log b => cases h; exact .same rfl
  | sys src dst n =>
    have hk := sysTransfer_acc h k
    obtain ⟨-, ⟨hws, hwd⟩, hs, hlen, hle, hown, -, -⟩ := sysTransfer_ok.1 h
    rw [hk]
    by_cases h1 : k = src
    · subst h1
      by_cases hn : n = 0
      · subst hn; exact .same (by simp)
      · exact .pay hws hs (hown.resolve_left hn) hlen rfl rfl
    · by_cases h2 : k = dst
      · subst h2; exact .gain hwd (by simp [h1]) rfl rfl
      · exact .same (by simp [h1, h2])
  | create funder k' seeds nonce space owner =>
    obtain ⟨haddr, h⟩ := h
    obtain ⟨hl, hlen, hsys, hne, hmem, hwk, hwf, hs, hfo, hflen, hle, rfl⟩ := createPda_ok haddr h
    by_cases h1 : k = k'
    · subst h1
      exact .create funder seeds nonce space owner rfl hwk hsys hlen hl haddr (by simp [hne.symm])
    · by_cases h2 : k = funder
      · subst h2
        exact .pay hwf hs hfo hflen (by simp [World.set_other, h1]) (by simp [World.set_other, h1])
      · exact .same (by simp [World.set_other, h1, h2])
  | createFunded prog seeds funder k' space owner =>
    obtain ⟨haddr, h⟩ := h
    obtain ⟨hlen, hsys, hwk, n, hn, h1n, hk, hx, -, hpay⟩ := createPdaFunded_ok h
    by_cases h1 : k = k'
    · subst h1
      exact .createFunded prog seeds funder space owner n rfl hwk hsys hlen haddr hn h1n hk
    · rw [hx k h1]
      by_cases h2 : k = funder
      · subst h2
        rcases hpay with rfl | ⟨-, hs, hwf, hfo, hflen, -⟩
        · exact .same (by simp)
        · exact .pay hwf hs hfo hflen rfl rfl
      · exact .same (by simp [h2])
  | write k' b b' =>
    obtain ⟨hb, hlen, ho, hw, rfl⟩ := h
    by_cases hk : k = k'
    · subst hk; exact .write b b' rfl hw ho hb hlen (by simp)
    · exact .same (by simp [hk])
  | move a b n =>
    obtain ⟨hle, hwa, hoa, hwb, -, hk⟩ := moveLamports_ok h
    rw [hk]
    by_cases hn : n = 0
    · subst hn; exact .same (by simp)
    · by_cases h1 : k = a
      · subst h1
        exact .move b n rfl (hwa.resolve_left hn) (hoa.resolve_left hn) (by simp; split <;> omega) rfl rfl
      · by_cases h2 : k = b
        · subst h2; exact .gain (hwb.resolve_left hn) (by simp [h1]) rfl rfl
        · exact .same (by simp [h1, h2])
  | close k' =>
    simp only [Exec, zeroAccount, bind_ok, require_ok, exists_const, Except.ok.injEq] at h
    obtain ⟨ho, hw, rfl⟩ := h
    by_cases hk : k = k'
    · subst hk; exact .close rfl hw ho (by simp)
    · exact .same (by simp [World.set_other, hk])
  | xfer sg src dst auth n =>
    obtain ⟨-, -, hws, hwd, hos, hod, hsg, s, d, s', hs, hd, -, -, -, hn, hsp, h⟩ := splTransfer_ok h
    rcases h with ⟨-, rfl⟩ | ⟨e, hov, -, -, h1, h2, h3⟩
    · exact .same rfl
    · by_cases e1 : k = src
      · subst e1
        exact .xferSrc sg dst auth n s s' rfl hws hos hs hn hsp hsg (by rw [h1]) (by rw [h1, hos]) (by rw [h1])
      · by_cases e2 : k = dst
        · subst e2
          exact .xferDst sg src auth n d rfl hwd hod hd hov (by rw [h2]) (by rw [h2, hod])
            (by rw [h2]; simp only; split <;> omega)
        · exact .same (h3 k e1 e2)
  | mintTo sg mint dst auth n =>
    obtain ⟨-, -, hwm, hwd, hom, hod, hsg, hne, m, d, hm, hd, hdm, -, -, hauth, h1, h2, -, e1, e2, e3⟩ := splMintTo_ok h
    by_cases k1 : k = mint
    · subst k1; exact .mintMint sg dst auth n m rfl hwm hom hm hauth hsg h2 e1
    · by_cases k2 : k = dst
      · subst k2; exact .mintDst sg mint auth n d rfl hwd hod hd hdm h1 e2
      · exact .same (e3 k k1 k2)
  | burn sg src mint auth n =>
    obtain ⟨-, -, hwm, hwd, hom, hod, hsg, hne, m, s, s', hm, hs, hdm, -, -, hsp, h1, h2, -, e1, e2, e3⟩ := splBurn_ok h
    by_cases k1 : k = mint
    · subst k1; exact .burnMint sg src auth n m rfl hwm hom hm h2 e1
    · by_cases k2 : k = src
      · subst k2; exact .burnSrc sg mint auth n s s' rfl hwd hod hs hdm h1 hsp hsg e2
      · exact .same (e3 k k1 k2)
  | initAcc k' mint owner =>
    obtain ⟨-, -, hw, ho, hz, -, -, rfl⟩ := splInitAccount_ok h
    by_cases hk : k = k'
    · subst hk; exact .initAcc mint owner rfl hw ho hz (by simp)
    · exact .same (by simp [hk])
  | initMint k' auth dec =>
    obtain ⟨-, -, hw, ho, hz, -, rfl⟩ := splInitMint_ok h
    by_cases hk : k = k'
    · subst hk; exact .initMint auth dec rfl hw ho hz (by simp)
    · exact .same (by simp [hk])
  | sync k' =>
    obtain ⟨-, hw, ho, t, r, ht, hr, h1, h2, h3, rfl⟩ := splSyncNative_ok h
    by_cases hk : k = k'
    · subst hk
      exact .sync t (BitVec.ofNat 64 ((w.acc k).lamports - r.toNat)) rfl hw ho ht
        (by rw [BitVec.toNat_ofNat, Nat.mod_eq_of_lt (by omega)]; exact h3) (by simp)
    · exact .same (by simp [hk])

/-- A sequence of operations, each permitted by `W`. -/
inductive Ops (env : Env) (ctx : Ctx) (W : Op → Prop) : World → World → Prop
  | refl (w : World) : Ops env ctx W w w
  | step {w w1 w2 : World} (op : Op) (h : Ops env ctx W w w1) (hw : W op) (he : Exec env ctx op w1 w2) : Ops env ctx W w w2

namespace Ops
variable {env : Env} {ctx : Ctx} {W W' : Op → Prop} {w w1 w2 : World}

theorem one (op : Op) (hw : W op) (he : Exec env ctx op w w1) : Ops env ctx W w w1 := .step op (.refl w) hw he

theorem trans (h : Ops env ctx W w w1) (h' : Ops env ctx W w1 w2) : Ops env ctx W w w2 := by
  induction h' with
  | refl => exact h
  | step op _ hw he ih => exact .step op ih hw he

theorem mono (h : Ops env ctx W w w1) (hm : ∀ op, W op → W' op) : Ops env ctx W' w w1 := by
  induction h with
  | refl => exact .refl _
  | step op _ hw he ih => exact .step op ih (hm _ hw) he

/-- A reflexive and transitive relation between states that holds for every permitted operation holds for the sequence. -/
theorem lift {R : World → World → Prop} (h : Ops env ctx W w w1) (hr : ∀ x, R x x)
    (ht : ∀ x y z, R x y → R y z → R x z) (hs : ∀ op x y, W op → Exec env ctx op x y → R x y) : R w w1 := by
  induction h with
  | refl => exact hr _
  | step op _ hw he ih => exact ht _ _ _ ih (hs _ _ _ hw he)

end Ops

end Verif
