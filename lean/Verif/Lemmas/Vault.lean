import Verif.Spec.Vault
import Verif.Lemmas.TPDep
import Verif.Lemmas.TPFee
/-!
# Token accounts and mints only the program can use
-/
namespace Verif.TP
open Codec Verif

variable {env : Env} {L : Pubkey → Prop} {ctx : Ctx} {w w' w0 : World} {k mint own : Pubkey} {i : Instr} {nat : Option U64} {dec : U8}

/-- One step of a history, with all that is known about it. -/
inductive Step (env : Env) (L : Pubkey → Prop) (e : Ev) : Prop
  | rl (ctx : Ctx) (i : RL.Instr) (hact : e.act = .rl ctx i) (hp : ctx.program = env.rlId) (hs : ∀ k ∈ ctx.signers, ¬ L k)
      (hr : RL.run env ctx i e.pre = .ok e.post)
  | tp (ctx : Ctx) (i : Instr) (hact : e.act = .tp ctx i) (hp : ctx.program = env.tpId) (hs : ∀ k ∈ ctx.signers, ¬ L k)
      (hr : run env ctx noCpi i e.pre = .ok e.post)
  | stale (ctx : Ctx) (i : Instr) (p : Pubkey) (w1 : World) (hact : e.act = .tp ctx i) (hp : ctx.program = env.tpId)
      (hs : ∀ k ∈ ctx.signers, ¬ L k) (hst : Stale env ctx p w1 e.pre e.post i)
  | ext (hact : e.act = .ext) (h : ExtStep env L e.pre e.post)
  | purge (hact : e.act = .purge) (h : Purge env e.pre e.post)

theorem _root_.Verif.Run.steps {top : Bool} {tr : List Ev} (h : Run env L top w tr w') : ∀ e ∈ tr, Step env L e := by
  have add : ∀ {t : List Ev} {x : Ev}, (∀ e ∈ t, Step env L e) → Step env L x → ∀ e ∈ t ++ [x], Step env L e := by
    intro t x h1 h2 e he
    rcases List.mem_append.1 he with he | he
    · exact h1 e he
    · rw [List.mem_singleton.1 he]; exact h2
  induction h with
  | nil => intro e he; cases he
  | rl ctx i h hp hs hr ih => exact add ih (.rl ctx i rfl hp hs hr)
  | tp ctx i h hp hs hr ih => exact add ih (.tp ctx i rfl hp hs hr)
  | payload ctx i p h hin hp hs hpl hno hr ih ih' =>
    refine add (fun e he => ?_) (.stale ctx i p _ rfl hp hs (payload_ok hno hr))
    rcases List.mem_append.1 he with he | he
    · exact ih e he
    · exact ih' e he
  | ext h hx ih => exact add ih (.ext rfl hx)
  | purge h hp ih => exact add ih (.purge rfl hp)

theorem spendAuth_owner {t t' : TokenAcc} {a : Pubkey} {n : U64} (hd : t.delegate = none) (h : spendAuth t a n = .ok t') :
    t' = t ∧ t.owner = a := by
  unfold spendAuth at h
  rw [hd] at h
  simp only [reduceCtorEq, if_false] at h
  split at h
  · rename_i e; cases h; exact ⟨rfl, e⟩
  · cases h

theorem Guarded.congr (h : Guarded env w k mint own nat) (ho : (w'.acc k).owner = (w.acc k).owner) (hd : (w'.acc k).data = (w.acc k).data)
    (hl : (w.acc k).lamports ≤ (w'.acc k).lamports) : Guarded env w' k mint own nat :=
  ⟨ho.trans h.owner, by rw [hd]; exact h.data, fun e => Nat.le_trans (h.live e) hl⟩

theorem bal_congr (hd : (w'.acc k).data = (w.acc k).data) : bal w' k = bal w k := by unfold bal; rw [hd]
theorem supply_congr (hd : (w'.acc k).data = (w.acc k).data) : supply w' k = supply w k := by unfold supply; rw [hd]

/-- An operation that spends from `k` with the authority of `own`. -/
inductive SpendOp (k own : Pubkey) : Op → Prop
  | xfer (sg : Pubkey → Bool) (dst : Pubkey) (n : U64) (h : sg own = true) : SpendOp k own (.xfer sg k dst own n)
  | burn (sg : Pubkey → Bool) (m : Pubkey) (n : U64) (h : sg own = true) : SpendOp k own (.burn sg k m own n)

/-- A guarded account through one operation. -/
theorem Guarded.op {op : Op} (hd : env.Distinct) (hp : ctx.program = env.tpId ∨ ctx.program = env.rlId) (h : Guarded env w k mint own nat)
    (he : Exec env ctx op w w') : Guarded env w' k mint own nat ∧ (bal w' k < bal w k → SpendOp k own op) := by
  obtain ⟨t, ht, hm, ho, hde, hca, hna⟩ := h.data
  have keep : (w'.acc k).owner = (w.acc k).owner → (w'.acc k).data = (w.acc k).data → (w.acc k).lamports ≤ (w'.acc k).lamports →
      Guarded env w' k mint own nat ∧ (bal w' k < bal w k → SpendOp k own op) :=
    fun h1 h2 h3 => ⟨h.congr h1 h2 h3, fun hb => by rw [bal_congr h2] at hb; omega⟩
  have nsys : (w.acc k).owner ≠ env.systemId := by rw [h.owner]; exact hd.sysSpl.symm
  have nprog : (w.acc k).owner ≠ ctx.program := by
    rw [h.owner]; rcases hp with e | e <;> rw [e]
    · exact hd.tpSpl.symm
    · exact hd.rlSpl.symm
  have hbal : bal w k = t.amount.toNat := by unfold bal; rw [ht]
  cases exec_ch he k with
  | same e => exact keep (by rw [e]) (by rw [e]) (by rw [e]; exact Nat.le_refl _)
  | gain _ hl hd' ho' => exact keep ho' hd' hl
  | pay _ _ hs => exact (nsys hs).elim
  | move x n hop _ how => exact (nprog how).elim
  | write b b' hop hw how => exact (nprog how).elim
  | close hop hw how => exact (nprog how).elim
  | create f sd n sp o hop hw hsys => exact (nsys hsys).elim
  | createFunded p sd f sp o n hop hw hsys => exact (nsys hsys).elim
  | xferSrc sg dst auth n s s' hop hw how hb hn hsp hsg hd' ho' hl =>
    rw [ht] at hb; cases hb
    obtain ⟨rfl, rfl⟩ := spendAuth_owner hde hsp
    refine ⟨⟨ho'.trans h.owner, ⟨_, hd', hm, ho, hde, hca, hna⟩, fun e => ?_⟩, fun _ => ?_⟩
    · rw [hl, hna, e]; simpa using h.live e
    · subst hop; rw [ho] at hsg ⊢; exact .xfer sg dst n hsg
  | xferDst sg src auth n d hop hw how hb hn hd' ho' hl =>
    rw [ht] at hb; cases hb
    refine ⟨⟨ho'.trans h.owner, ⟨_, hd', hm, ho, hde, hca, hna⟩, fun e => Nat.le_trans (h.live e) hl⟩, fun hlt => ?_⟩
    exfalso
    have : bal w' k = (t.amount + n).toNat := by unfold bal; rw [hd']
    rw [this, hbal, BitVec.toNat_add, Nat.mod_eq_of_lt hn] at hlt
    omega
  | mintDst sg m au n d hop hw how hb hm' hn e =>
    rw [ht] at hb; cases hb
    refine ⟨⟨by rw [e]; exact h.owner, ⟨_, congrArg Account.data e, hm, ho, hde, hca, hna⟩, fun x => by rw [e]; exact h.live x⟩, fun hlt => ?_⟩
    exfalso
    have : bal w' k = (t.amount + n).toNat := by unfold bal; rw [e]
    rw [this, hbal, BitVec.toNat_add, Nat.mod_eq_of_lt hn] at hlt
    omega
  | mintMint sg d au n m hop hw how hb => rw [ht] at hb; cases hb
  | burnSrc sg m au n s s' hop hw how hb hm' hn hsp hsg e =>
    rw [ht] at hb; cases hb
    obtain ⟨rfl, rfl⟩ := spendAuth_owner hde hsp
    refine ⟨⟨by rw [e]; exact h.owner, ⟨_, congrArg Account.data e, hm, ho, hde, hca, hna⟩, fun x => by rw [e]; exact h.live x⟩, fun _ => ?_⟩
    subst hop; rw [ho] at hsg ⊢; exact .burn sg m n hsg
  | burnMint sg m au n s hop hw how hb => rw [ht] at hb; cases hb
  | initAcc m o hop hw how hb => rw [ht] at hb; cases hb
  | initMint m o hop hw how hb => rw [ht] at hb; cases hb
  | sync x n hop hw how hb hn e =>
    rw [ht] at hb; cases hb
    refine ⟨⟨by rw [e]; exact h.owner, ⟨_, congrArg Account.data e, hm, ho, hde, hca, hna⟩, fun x => by rw [e]; exact h.live x⟩, fun hlt => ?_⟩
    exfalso
    have : bal w' k = n.toNat := by unfold bal; rw [e]
    omega

theorem Guarded.ops {W : Op → Prop} (hd : env.Distinct) (hp : ctx.program = env.tpId ∨ ctx.program = env.rlId) (h : Guarded env w k mint own nat)
    (ho : Ops env ctx W w w') : Guarded env w' k mint own nat ∧ (bal w' k < bal w k → ∃ op, W op ∧ SpendOp k own op) := by
  refine ho.lift (R := fun x y => Guarded env x k mint own nat → Guarded env y k mint own nat ∧
    (bal y k < bal x k → ∃ op, W op ∧ SpendOp k own op)) (fun _ h => ⟨h, fun hb => absurd hb (Nat.lt_irrefl _)⟩) ?_ ?_ h
  · intro x y z f g hx
    obtain ⟨hy, h1⟩ := f hx
    obtain ⟨hz, h2⟩ := g hy
    refine ⟨hz, fun hb => ?_⟩
    by_cases hc : bal y k < bal x k
    · exact h1 hc
    · exact h2 (by omega)
  · intro op x y hW he hx
    obtain ⟨h1, h2⟩ := hx.op hd hp he
    exact ⟨h1, fun hb => ⟨op, hW, h2 hb⟩⟩

/-- The instructions that can take tokens out of an account only the program can spend from. -/
inductive Pays (env : Env) (ctx : Ctx) (k : Pubkey) : Instr → Prop
  | withdraw (m : Pubkey) (ha : IsAddr env ctx.program (vaultSeeds m) k) : Pays env ctx k .withdrawMultiTokenSol
  | approve (m : Pubkey) (ha : IsAddr env ctx.program (vaultSeeds m) k) : Pays env ctx k .approveWithdrawSol
  | fee (m : Pubkey) (n : U64) (ha : IsAddr env ctx.program (vaultSeeds m) k) : Pays env ctx k (.withdrawSolFee n)
  | proxy (m c : Pubkey) (n : U64) (ha : IsAddr env ctx.program (proxySeeds m c) k) (hs : ctx.isSigner c = true) :
      Pays env ctx k (.withdrawProxy n)

theorem pays_of {op : Op} (hs : ∀ k ∈ ctx.signers, ¬ L k) (hL : L own) (hW : Why env ctx w0 i op) (h : SpendOp k own op) :
    k = own ∧ Pays env ctx k i := by
  have no : ctx.isSigner own = true → False := fun e => hs own (isSigner_mem e).2 hL
  cases h with
  | xfer sg dst n hsg =>
    cases hW with
    | xfer => exact (no hsg).elim
    | vaultPay p vault dst m n hi ha =>
      rcases hi with rfl | rfl | rfl
      · exact ⟨rfl, .withdraw m ha⟩
      · exact ⟨rfl, .approve m ha⟩
      · exact ⟨rfl, .fee m n ha⟩
    | proxyPay proxy dst m c n hi hsig ha => subst hi; exact ⟨rfl, .proxy m c n ha hsig⟩
  | burn sg m n hsg =>
    cases hW with
    | burn => exact (no hsg).elim

/-- What a step of a history does to a guarded account whose owner nobody else can sign for. -/
theorem guarded_step {e : Ev} (hd : env.Distinct) (hL : L own) (hs : Step env L e) (h : Guarded env e.pre k mint own nat)
    (hlive : e.act = .purge → nat = none ∨ ((e.pre.acc k).owner = env.splId → 1 ≤ (e.pre.acc k).lamports)) :
    Guarded env e.post k mint own nat ∧ (bal e.post k < bal e.pre k → ∃ ctx i, e.act = .tp ctx i ∧ ctx.program = env.tpId ∧
      (∀ k ∈ ctx.signers, ¬ L k) ∧ run env ctx noCpi i e.pre = .ok e.post ∧ k = own ∧ Pays env ctx k i) := by
  cases hs with
  | rl ctx i hact hp hs hr =>
    obtain ⟨h1, h2⟩ := h.ops hd (.inr hp) (RL.run_ops hr)
    refine ⟨h1, fun hb => ?_⟩
    obtain ⟨op, hW, hop⟩ := h2 hb
    cases hop <;> cases hW
  | tp ctx i hact hp hs hr =>
    obtain ⟨h1, h2⟩ := h.ops hd (.inl hp) (run_ops hr)
    refine ⟨h1, fun hb => ?_⟩
    obtain ⟨op, hW, hop⟩ := h2 hb
    exact ⟨ctx, i, hact, hp, hs, hr, pays_of hs hL hW hop⟩
  | stale ctx i p w1 hact hp hs hst =>
    have key : (e.post.acc k) = e.pre.acc k := by
      obtain ⟨t, ht, -⟩ := h.data
      have : ∀ {E : Type} {ec : Codec E} {r : Withdrawal E} {k' : Pubkey}, putWithdrawal ctx ec r k' e.pre = .ok e.post →
          e.post.acc k = e.pre.acc k := by
        intro E ec r k' hput
        obtain ⟨b, b', hb, -, -, -, h⟩ := pack_ok.1 hput
        rw [h]
        by_cases e' : k = k'
        · subst e'; rw [ht] at hb; cases hb
        · simp [e']
      cases hst with
      | ever k' m r n pn l hk' hr hi hst hm hkind hl hp h => exact this h
      | sol k' r n pn l hk' hr hi hst hkind hl hp h => exact this h
    refine ⟨h.congr (by rw [key]) (by rw [key]) (by rw [key]; exact Nat.le_refl _), fun hb => ?_⟩
    have := bal_congr (w := e.pre) (w' := e.post) (k := k) (by rw [key])
    omega
  | ext hact hx =>
    obtain ⟨t, ht, hm, ho, hde, hca, hna⟩ := h.data
    obtain ⟨t', h1, h2, h3, h4, h5, h6, h7, h8, h9⟩ := hx.token k t h.owner ht (by rw [ho]; exact hL) hde hca
    refine ⟨⟨h1, ⟨t', h2, h3.trans hm, h4.trans ho, h5, h6, h7.trans hna⟩, fun x => Nat.le_trans (h.live x) h9⟩, fun hb => ?_⟩
    unfold bal at hb
    rw [h2, ht] at hb
    simp only at hb
    omega
  | purge hact hx =>
    have hl : (e.pre.acc k).lamports ≠ 0 := by
      rcases hlive hact with hn | hn
      · have := h.live hn; omega
      · have := hn h.owner; omega
    have key : (e.post.acc k) = e.pre.acc k := by rw [hx.2 k, if_neg hl]
    refine ⟨h.congr (by rw [key]) (by rw [key]) (by rw [key]; exact Nat.le_refl _), fun hb => ?_⟩
    have := bal_congr (w := e.pre) (w' := e.post) (k := k) (by rw [key])
    omega

/-- The same over a history. -/
theorem _root_.Verif.Run.guarded {top : Bool} {tr : List Ev} (hd : env.Distinct) (hr : Run env L top w tr w') (hL : L own)
    (h : Guarded env w k mint own nat)
    (hlive : nat = none ∨ ∀ e ∈ tr, e.act = .purge → (e.pre.acc k).owner = env.splId → 1 ≤ (e.pre.acc k).lamports) :
    Guarded env w' k mint own nat ∧ ∀ e ∈ tr, Guarded env e.pre k mint own nat ∧ Guarded env e.post k mint own nat ∧
      (bal e.post k < bal e.pre k → ∃ ctx i, e.act = .tp ctx i ∧ ctx.program = env.tpId ∧
        (∀ k ∈ ctx.signers, ¬ L k) ∧ run env ctx noCpi i e.pre = .ok e.post ∧ k = own ∧ Pays env ctx k i) := by
  have hst := hr.steps
  have := hr.fold (P := fun x t => Guarded env x k mint own nat ∧ ∀ e ∈ t, Guarded env e.pre k mint own nat ∧ Guarded env e.post k mint own nat ∧
      (bal e.post k < bal e.pre k → ∃ ctx i, e.act = .tp ctx i ∧ ctx.program = env.tpId ∧
        (∀ k ∈ ctx.signers, ¬ L k) ∧ run env ctx noCpi i e.pre = .ok e.post ∧ k = own ∧ Pays env ctx k i)) []
    ⟨h, fun e he => absurd he List.not_mem_nil⟩ ?_
  · simpa using this
  · rintro e he t ⟨h1, h2⟩
    obtain ⟨h3, h4⟩ := guarded_step hd hL (hst e he) h1 (fun ha => hlive.imp_right fun f => f e he ha)
    refine ⟨h3, fun x hx => ?_⟩
    rcases List.mem_append.1 hx with hx | hx
    · exact h2 x hx
    · rw [List.mem_singleton.1 hx]; exact ⟨h1, h3, h4⟩

/-! ## Mints -/

theorem GuardedMint.congr {auth : Pubkey} (h : GuardedMint env w k auth dec) (ho : (w'.acc k).owner = (w.acc k).owner)
    (hd : (w'.acc k).data = (w.acc k).data)
    (hl : (w.acc k).lamports ≤ (w'.acc k).lamports) : GuardedMint env w' k auth dec :=
  ⟨ho.trans h.owner, by rw [hd]; exact h.data, Nat.le_trans h.live hl⟩

/-- A guarded mint through one operation. -/
theorem GuardedMint.op {op : Op} {auth : Pubkey} (hd : env.Distinct) (hp : ctx.program = env.tpId ∨ ctx.program = env.rlId)
    (h : GuardedMint env w k auth dec) (he : Exec env ctx op w w') : GuardedMint env w' k auth dec ∧
      (supply w k < supply w' k → ∃ sg dst n, sg auth = true ∧ op = .mintTo sg k dst auth n) := by
  obtain ⟨m, hm, ha, hde, hf⟩ := h.data
  have keep : (w'.acc k).owner = (w.acc k).owner → (w'.acc k).data = (w.acc k).data → (w.acc k).lamports ≤ (w'.acc k).lamports →
      GuardedMint env w' k auth dec ∧ (supply w k < supply w' k → ∃ sg dst n, sg auth = true ∧ op = .mintTo sg k dst auth n) :=
    fun h1 h2 h3 => ⟨h.congr h1 h2 h3, fun hb => by rw [supply_congr h2] at hb; omega⟩
  have nsys : (w.acc k).owner ≠ env.systemId := by rw [h.owner]; exact hd.sysSpl.symm
  have nprog : (w.acc k).owner ≠ ctx.program := by
    rw [h.owner]; rcases hp with e | e <;> rw [e]
    · exact hd.tpSpl.symm
    · exact hd.rlSpl.symm
  cases exec_ch he k with
  | same e => exact keep (by rw [e]) (by rw [e]) (by rw [e]; exact Nat.le_refl _)
  | gain _ hl hd' ho' => exact keep ho' hd' hl
  | pay _ _ hs => exact (nsys hs).elim
  | move x n hop _ how => exact (nprog how).elim
  | write b b' hop hw how => exact (nprog how).elim
  | close hop hw how => exact (nprog how).elim
  | create f sd n sp o hop hw hsys => exact (nsys hsys).elim
  | createFunded p sd f sp o n hop hw hsys => exact (nsys hsys).elim
  | xferSrc sg dst auth n s s' hop hw how hb => rw [hm] at hb; cases hb
  | xferDst sg src auth n d hop hw how hb => rw [hm] at hb; cases hb
  | mintDst sg m au n d hop hw how hb => rw [hm] at hb; cases hb
  | mintMint sg d au n m' hop hw how hb hau hsg hn e =>
    rw [hm] at hb; cases hb
    rw [ha] at hau; cases hau
    exact ⟨⟨by rw [e]; exact h.owner, ⟨_, congrArg Account.data e, ha, hde, hf⟩, by rw [e]; exact h.live⟩, fun _ => ⟨sg, d, n, hsg, hop⟩⟩
  | burnSrc sg m au n s s' hop hw how hb => rw [hm] at hb; cases hb
  | burnMint sg m' au n s hop hw how hb hn e =>
    rw [hm] at hb; cases hb
    refine ⟨⟨by rw [e]; exact h.owner, ⟨_, congrArg Account.data e, ha, hde, hf⟩, by rw [e]; exact h.live⟩, fun hlt => ?_⟩
    exfalso
    unfold supply at hlt
    rw [e, hm] at hlt
    simp only at hlt
    rw [BitVec.toNat_sub_of_le (by rw [BitVec.le_def]; exact hn)] at hlt
    omega
  | initAcc m o hop hw how hb => rw [hm] at hb; cases hb
  | initMint m o hop hw how hb => rw [hm] at hb; cases hb
  | sync x n hop hw how hb => rw [hm] at hb; cases hb

theorem GuardedMint.ops {W : Op → Prop} {auth : Pubkey} (hd : env.Distinct) (hp : ctx.program = env.tpId ∨ ctx.program = env.rlId)
    (h : GuardedMint env w k auth dec)
    (ho : Ops env ctx W w w') : GuardedMint env w' k auth dec ∧
      (supply w k < supply w' k → ∃ sg dst n, sg auth = true ∧ W (.mintTo sg k dst auth n)) := by
  refine ho.lift (R := fun x y => GuardedMint env x k auth dec → GuardedMint env y k auth dec ∧
    (supply x k < supply y k → ∃ sg dst n, sg auth = true ∧ W (.mintTo sg k dst auth n)))
    (fun _ h => ⟨h, fun hb => absurd hb (Nat.lt_irrefl _)⟩) ?_ ?_ h
  · intro x y z f g hx
    obtain ⟨hy, h1⟩ := f hx
    obtain ⟨hz, h2⟩ := g hy
    refine ⟨hz, fun hb => ?_⟩
    by_cases hc : supply x k < supply y k
    · exact h1 hc
    · exact h2 (by omega)
  · intro op x y hW he hx
    obtain ⟨h1, h2⟩ := hx.op hd hp he
    refine ⟨h1, fun hb => ?_⟩
    obtain ⟨sg, dst, n, hs, rfl⟩ := h2 hb
    exact ⟨sg, dst, n, hs, hW⟩

/-- What a step of a history does to a guarded mint whose authority nobody else can sign for. -/
theorem guardedMint_step {e : Ev} {auth : Pubkey} (hd : env.Distinct) (hL : L auth) (hs : Step env L e) (h : GuardedMint env e.pre k auth dec) :
    GuardedMint env e.post k auth dec ∧ (supply e.pre k < supply e.post k → ∃ ctx i, e.act = .tp ctx i ∧ ctx.program = env.tpId ∧
      (∀ k ∈ ctx.signers, ¬ L k) ∧ run env ctx noCpi i e.pre = .ok e.post ∧
      (i = .withdrawMultiTokenEver ∨ i = .approveWithdrawEver ∨ ∃ n, i = .withdrawEverFee n)) := by
  cases hs with
  | rl ctx i hact hp hs hr =>
    obtain ⟨h1, h2⟩ := h.ops hd (.inr hp) (RL.run_ops hr)
    refine ⟨h1, fun hb => ?_⟩
    obtain ⟨sg, dst, n, -, hW⟩ := h2 hb
    cases hW
  | tp ctx i hact hp hs hr =>
    obtain ⟨h1, h2⟩ := h.ops hd (.inl hp) (run_ops hr)
    refine ⟨h1, fun hb => ?_⟩
    obtain ⟨sg, dst, n, -, hW⟩ := h2 hb
    cases hW with
    | mintTo p mint dst n t hi ha =>
      exact ⟨ctx, i, hact, hp, hs, hr, hi.imp_right (Or.imp_right fun h => ⟨n, h⟩)⟩
  | stale ctx i p w1 hact hp hs hst =>
    have key : (e.post.acc k) = e.pre.acc k := by
      obtain ⟨t, ht, -⟩ := h.data
      have : ∀ {E : Type} {ec : Codec E} {r : Withdrawal E} {k' : Pubkey}, putWithdrawal ctx ec r k' e.pre = .ok e.post →
          e.post.acc k = e.pre.acc k := by
        intro E ec r k' hput
        obtain ⟨b, b', hb, -, -, -, h⟩ := pack_ok.1 hput
        rw [h]
        by_cases e' : k = k'
        · subst e'; rw [ht] at hb; cases hb
        · simp [e']
      cases hst with
      | ever k' m r n pn l hk' hr hi hst hm hkind hl hp h => exact this h
      | sol k' r n pn l hk' hr hi hst hkind hl hp h => exact this h
    refine ⟨h.congr (by rw [key]) (by rw [key]) (by rw [key]; exact Nat.le_refl _), fun hb => ?_⟩
    have := supply_congr (w := e.pre) (w' := e.post) (k := k) (by rw [key])
    omega
  | ext hact hx =>
    obtain ⟨m, hm, ha, hde, hf⟩ := h.data
    obtain ⟨m', h1, h2, h3, h4, h5, h6, h7⟩ := hx.mint k m auth h.owner hm ha hL hf
    refine ⟨⟨h1, ⟨m', h2, h3, h4.trans hde, h5⟩, Nat.le_trans h.live h7⟩, fun hb => ?_⟩
    unfold supply at hb
    rw [h2, hm] at hb
    simp only at hb
    omega
  | purge hact hx =>
    have hl : (e.pre.acc k).lamports ≠ 0 := by have := h.live; omega
    have key : (e.post.acc k) = e.pre.acc k := by rw [hx.2 k, if_neg hl]
    refine ⟨h.congr (by rw [key]) (by rw [key]) (by rw [key]; exact Nat.le_refl _), fun hb => ?_⟩
    have := supply_congr (w := e.pre) (w' := e.post) (k := k) (by rw [key])
    omega

/-- The same over a history. -/
theorem _root_.Verif.Run.guardedMint {top : Bool} {tr : List Ev} {auth : Pubkey} (hd : env.Distinct) (hr : Run env L top w tr w') (hL : L auth)
    (h : GuardedMint env w k auth dec) :
    GuardedMint env w' k auth dec ∧ ∀ e ∈ tr, GuardedMint env e.pre k auth dec ∧ GuardedMint env e.post k auth dec ∧
      (supply e.pre k < supply e.post k → ∃ ctx i, e.act = .tp ctx i ∧ ctx.program = env.tpId ∧
        (∀ k ∈ ctx.signers, ¬ L k) ∧ run env ctx noCpi i e.pre = .ok e.post ∧
        (i = .withdrawMultiTokenEver ∨ i = .approveWithdrawEver ∨ ∃ n, i = .withdrawEverFee n)) := by
  have hst := hr.steps
  have := hr.fold (P := fun x t => GuardedMint env x k auth dec ∧ ∀ e ∈ t, GuardedMint env e.pre k auth dec ∧ GuardedMint env e.post k auth dec ∧
      (supply e.pre k < supply e.post k → ∃ ctx i, e.act = .tp ctx i ∧ ctx.program = env.tpId ∧
        (∀ k ∈ ctx.signers, ¬ L k) ∧ run env ctx noCpi i e.pre = .ok e.post ∧
        (i = .withdrawMultiTokenEver ∨ i = .approveWithdrawEver ∨ ∃ n, i = .withdrawEverFee n))) []
    ⟨h, fun e he => absurd he List.not_mem_nil⟩ ?_
  · simpa using this
  · rintro e he t ⟨h1, h2⟩
    obtain ⟨h3, h4⟩ := guardedMint_step hd hL (hst e he) h1
    refine ⟨h3, fun x hx => ?_⟩
    rcases List.mem_append.1 hx with hx | hx
    · exact h2 x hx
    · rw [List.mem_singleton.1 hx]; exact ⟨h1, h3, h4⟩

/-- The supply of a guarded mint falls only by burning. -/
theorem GuardedMint.less {W : Op → Prop} {auth : Pubkey} (hd : env.Distinct) (hp : ctx.program = env.tpId ∨ ctx.program = env.rlId)
    (h : GuardedMint env w k auth dec) (ho : Ops env ctx W w w') :
    supply w' k < supply w k → ∃ sg src au n, W (.burn sg src k au n) := by
  refine (ho.lift (R := fun x y => GuardedMint env x k auth dec → GuardedMint env y k auth dec ∧
    (supply y k < supply x k → ∃ sg src au n, W (.burn sg src k au n)))
    (fun _ h => ⟨h, fun hb => absurd hb (Nat.lt_irrefl _)⟩) ?_ ?_ h).2
  · intro x y z f g hx
    obtain ⟨hy, h1⟩ := f hx
    obtain ⟨hz, h2⟩ := g hy
    refine ⟨hz, fun hb => ?_⟩
    by_cases hc : supply y k < supply x k
    · exact h1 hc
    · exact h2 (by omega)
  · intro op x y hW he hx
    refine ⟨(hx.op hd hp he).1, fun hb => ?_⟩
    obtain ⟨m, hm, ha, hde, hf⟩ := hx.data
    have nsys : (x.acc k).owner ≠ env.systemId := by rw [hx.owner]; exact hd.sysSpl.symm
    have nprog : (x.acc k).owner ≠ ctx.program := by
      rw [hx.owner]; rcases hp with e | e <;> rw [e]
      · exact hd.tpSpl.symm
      · exact hd.rlSpl.symm
    cases exec_ch he k with
    | same e => rw [supply_congr (w := x) (w' := y) (by rw [e])] at hb; omega
    | gain _ hl hd' ho' => rw [supply_congr (w := x) (w' := y) hd'] at hb; omega
    | pay _ _ hs => exact (nsys hs).elim
    | move _ n hop _ how => exact (nprog how).elim
    | write b b' hop hw how => exact (nprog how).elim
    | close hop hw how => exact (nprog how).elim
    | create f sd n sp o hop hw hsys => exact (nsys hsys).elim
    | createFunded p sd f sp o n hop hw hsys => exact (nsys hsys).elim
    | xferSrc sg dst auth n s s' hop hw how hb => rw [hm] at hb; cases hb
    | xferDst sg src auth n d hop hw how hb => rw [hm] at hb; cases hb
    | mintDst sg m au n d hop hw how hb => rw [hm] at hb; cases hb
    | mintMint sg d au n m' hop hw how hb' hau hsg hn e =>
      rw [hm] at hb'; cases hb'
      exfalso
      unfold supply at hb
      rw [e, hm] at hb
      simp only at hb
      rw [BitVec.toNat_add, Nat.mod_eq_of_lt hn] at hb
      omega
    | burnSrc sg m au n s s' hop hw how hb => rw [hm] at hb; cases hb
    | burnMint sg src au n s hop hw how hb hn e => exact ⟨sg, src, au, n, hop ▸ hW⟩
    | initAcc m o hop hw how hb => rw [hm] at hb; cases hb
    | initMint m o hop hw how hb => rw [hm] at hb; cases hb
    | sync x n hop hw how hb => rw [hm] at hb; cases hb

/-- The instructions that change the supply of a guarded mint. -/
theorem supply_step {e : Ev} {auth : Pubkey} (hd : env.Distinct) (hL : L auth) (hs : Step env L e) (h : GuardedMint env e.pre k auth dec)
    (hne : supply e.post k ≠ supply e.pre k) : (e.act = .ext ∧ supply e.post k < supply e.pre k) ∨
      ∃ ctx i, e.act = .tp ctx i ∧ ctx.program = env.tpId ∧ run env ctx noCpi i e.pre = .ok e.post ∧
      (i = .withdrawMultiTokenEver ∨ i = .approveWithdrawEver ∨ (∃ n, i = .withdrawEverFee n) ∨
        ∃ sd n r v x p, i = .depositMultiTokenEver sd n r v x p) := by
  by_cases hb : supply e.pre k < supply e.post k
  · obtain ⟨ctx, i, h1, h2, -, h3, h4⟩ := (guardedMint_step hd hL hs h).2 hb
    refine .inr ⟨ctx, i, h1, h2, h3, ?_⟩
    rcases h4 with h | h | h
    · exact .inl h
    · exact .inr (.inl h)
    · exact .inr (.inr (.inl h))
  have hlt : supply e.post k < supply e.pre k := by omega
  obtain ⟨m, hm, -⟩ := h.data
  have none : (e.post.acc k).data = (e.pre.acc k).data → False := fun h' => hne (supply_congr h')
  cases hs with
  | rl ctx i hact hp hs hr =>
    obtain ⟨sg, src, au, n, hW⟩ := h.less hd (.inr hp) (RL.run_ops hr) hlt
    cases hW
  | tp ctx i hact hp hs hr =>
    obtain ⟨sg, src, au, n, hW⟩ := h.less hd (.inl hp) (run_ops hr) hlt
    cases hW with
    | burn _ _ _ _ sd r v x p hi => exact .inr ⟨ctx, i, hact, hp, hr, .inr (.inr (.inr ⟨sd, n, r, v, x, p, hi⟩))⟩
  | stale ctx i p w1 hact hp hs hst =>
    exfalso
    have : ∀ {E : Type} {ec : Codec E} {r : Withdrawal E} {k' : Pubkey}, putWithdrawal ctx ec r k' e.pre = .ok e.post →
        e.post.acc k = e.pre.acc k := by
      intro E ec r k' hput
      obtain ⟨b, b', hb, -, -, -, h⟩ := pack_ok.1 hput
      rw [h]
      by_cases e' : k = k'
      · subst e'; rw [hm] at hb; cases hb
      · simp [e']
    cases hst with
    | ever k' m r n pn l hk' hr hi hst hm hkind hl hp h => exact none (by rw [this h])
    | sol k' r n pn l hk' hr hi hst hkind hl hp h => exact none (by rw [this h])
  | ext hact hx => exact .inl ⟨hact, hlt⟩
  | purge hact hx =>
    have hl : (e.pre.acc k).lamports ≠ 0 := by have := h.live; omega
    exact (none (by rw [hx.2 k, if_neg hl])).elim

end Verif.TP
