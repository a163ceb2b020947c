import Verif.Spec.Global
import Verif.Lemmas.TPOps
import Verif.Lemmas.RLWhy
/-!
# Frame and conservation for all operations
-/
set_option linter.unusedSimpArgs false
namespace Verif
variable {env : Env} {ctx : Ctx} {w w' : World}

/-! ## Lamports -/

theorem sum_shift {f f' : Pubkey → Nat} {a b : Pubkey} {n : Nat} (hle : n ≤ f a)
    (h : ∀ x, f' x = f x - (if x = a then n else 0) + (if x = b then n else 0)) (S : List Pubkey) (hS : S.Nodup) :
    (S.map f').sum + (if a ∈ S then n else 0) = (S.map f).sum + (if b ∈ S then n else 0) := by
  induction S with
  | nil => simp
  | cons x S ih =>
    obtain ⟨hx, hS⟩ := List.nodup_cons.1 hS
    have ih := ih hS
    have hx' := h x
    simp only [List.map_cons, List.sum_cons, List.mem_cons]
    by_cases e1 : x = a
    · subst e1
      simp only [true_or, if_true, hx, if_false] at ih hx' ⊢
      by_cases e2 : x = b
      · subst e2
        simp only [hx, if_true, if_false, true_or] at ih hx' ⊢
        omega
      · have e3 : b ≠ x := fun h => e2 h.symm
        simp only [e2, e3, if_false, false_or] at ih hx' ⊢
        omega
    · have e1' : a ≠ x := fun h => e1 h.symm
      simp only [e1, e1', if_false, false_or] at ih hx' ⊢
      by_cases e2 : x = b
      · subst e2
        simp only [hx, if_true, if_false, true_or] at ih hx' ⊢
        omega
      · have e3 : b ≠ x := fun h => e2 h.symm
        simp only [e2, e3, if_false, false_or] at ih hx' ⊢
        omega

theorem writable_mem {k : Pubkey} (h : ctx.isWritable k = true) : k ∈ ctx.accounts ∧ k ∈ ctx.writables := by
  simpa [Ctx.isWritable] using h

/-- Every operation moves lamports from one account to another, if any. -/
theorem exec_lamports {op : Op} (h : Exec env ctx op w w') :
    (∀ k, (w'.acc k).lamports = (w.acc k).lamports) ∨ ∃ a b n, n ≤ (w.acc a).lamports ∧ ctx.isWritable a = true ∧ ctx.isWritable b = true ∧
      ∀ k, (w'.acc k).lamports = (w.acc k).lamports - (if k = a then n else 0) + (if k = b then n else 0) := by
  cases op with
  | log b => cases h; exact .inl fun _ => rfl
  | sys src dst n =>
    obtain ⟨-, ⟨hws, hwd⟩, -, -, hle, -, -, -⟩ := sysTransfer_ok.1 h
    exact .inr ⟨src, dst, n, hle, hws, hwd, fun k => by rw [sysTransfer_acc h k]⟩
  | create funder k' seeds nonce space owner =>
    obtain ⟨haddr, h⟩ := h
    obtain ⟨hl, hlen, hsys, hne, hmem, hwk, hwf, hs, hfo, hflen, hle, rfl⟩ := createPda_ok haddr h
    refine .inr ⟨funder, k', max 1 (env.rent space), hle, hwf, hwk, fun k => ?_⟩
    by_cases h1 : k = k'
    · subst h1; simp [hne.symm, hl]
    · by_cases h2 : k = funder
      · subst h2; simp [World.set_other, h1]
      · simp [World.set_other, h1, h2]
  | createFunded prog seeds funder k' space owner =>
    obtain ⟨haddr, h⟩ := h
    obtain ⟨hlen, hsys, hwk, n, hn, h1n, hk, hx, -, hpay⟩ := createPdaFunded_ok h
    rcases hpay with rfl | ⟨hne, -, hwf, -, -, hle⟩
    · refine .inl fun k => ?_
      by_cases h1 : k = k'
      · subst h1; rw [hk]
      · rw [hx k h1]; simp
    · refine .inr ⟨funder, k', n - (w.acc k').lamports, hle, hwf, hwk, fun k => ?_⟩
      by_cases h1 : k = k'
      · subst h1; rw [hk]; simp [hne.symm]; omega
      · rw [hx k h1]; simp [h1]
  | write k' b b' =>
    obtain ⟨hb, hlen, ho, hw, rfl⟩ := h
    exact .inl fun k => by simp only [World.setDataRaw]; by_cases e : k = k' <;> simp [World.set, e]
  | move a b n =>
    obtain ⟨hle, hwa, hoa, hwb, -, hk⟩ := moveLamports_ok h
    rcases hwa with rfl | hwa
    · exact .inl fun k => by rw [hk]; simp
    · rcases hwb with rfl | hwb
      · exact .inl fun k => by rw [hk]; simp
      · exact .inr ⟨a, b, n, hle, hwa, hwb, fun k => by rw [hk]⟩
  | close k' =>
    simp only [Exec, zeroAccount, bind_ok, require_ok, exists_const, Except.ok.injEq] at h
    obtain ⟨ho, hw, rfl⟩ := h
    refine .inl fun k => ?_
    by_cases hk : k = k'
    · subst hk; simp
    · simp [World.set_other, hk]
  | xfer sg src dst auth n =>
    obtain ⟨-, -, hws, hwd, hos, hod, hsg, s, d, s', hs, hd, -, -, -, hn, hsp, h⟩ := splTransfer_ok h
    rcases h with ⟨-, rfl⟩ | ⟨e, hov, -, hnat, h1, h2, h3⟩
    · exact .inl fun _ => rfl
    · by_cases hna : s.isNative.isSome = true
      · refine .inr ⟨src, dst, n.toNat, hnat hna, hws, hwd, fun k => ?_⟩
        by_cases e1 : k = src
        · subst e1; rw [h1]; simp [hna, e]
        · by_cases e2 : k = dst
          · subst e2; rw [h2]; simp [hna, e1]
          · rw [h3 k e1 e2]; simp [e1, e2]
      · refine .inl fun k => ?_
        by_cases e1 : k = src
        · subst e1; rw [h1]; simp [hna]
        · by_cases e2 : k = dst
          · subst e2; rw [h2]; simp [hna]
          · rw [h3 k e1 e2]
  | mintTo sg mint dst auth n =>
    obtain ⟨-, -, hwm, hwd, hom, hod, hsg, hne, m, d, hm, hd, hdm, -, -, hauth, h1, h2, -, e1, e2, e3⟩ := splMintTo_ok h
    refine .inl fun k => ?_
    by_cases k1 : k = mint
    · subst k1; rw [e1]
    · by_cases k2 : k = dst
      · subst k2; rw [e2]
      · rw [e3 k k1 k2]
  | burn sg src mint auth n =>
    obtain ⟨-, -, hwm, hwd, hom, hod, hsg, hne, m, s, s', hm, hs, hdm, -, -, hsp, h1, h2, -, e1, e2, e3⟩ := splBurn_ok h
    refine .inl fun k => ?_
    by_cases k1 : k = mint
    · subst k1; rw [e1]
    · by_cases k2 : k = src
      · subst k2; rw [e2]
      · rw [e3 k k1 k2]
  | initAcc k' mint owner =>
    obtain ⟨-, -, hw, ho, hz, -, -, rfl⟩ := splInitAccount_ok h
    exact .inl fun k => by simp only [World.setDataRaw]; by_cases e : k = k' <;> simp [World.set, e]
  | initMint k' auth dec =>
    obtain ⟨-, -, hw, ho, hz, -, rfl⟩ := splInitMint_ok h
    exact .inl fun k => by simp only [World.setDataRaw]; by_cases e : k = k' <;> simp [World.set, e]
  | sync k' =>
    obtain ⟨-, hw, ho, t, r, ht, hr, h1, h2, h3, rfl⟩ := splSyncNative_ok h
    exact .inl fun k => by simp only [World.setDataRaw]; by_cases e : k = k' <;> simp [World.set, e]

theorem Ops.lamports {W : Op → Prop} (h : Ops env ctx W w w') {S : List Pubkey} (hS : S.Nodup) (hsub : ∀ k ∈ ctx.accounts, k ∈ S) :
    lamportSum S w' = lamportSum S w := by
  refine h.lift (R := fun x y => lamportSum S y = lamportSum S x) (fun _ => rfl) (fun _ _ _ h1 h2 => h2.trans h1) ?_
  intro op x y _ he
  rcases exec_lamports he with h | ⟨a, b, n, hle, ha, hb, h⟩
  · exact congrArg List.sum (List.map_congr_left fun k _ => h k)
  · have := sum_shift (f := fun k => (x.acc k).lamports) (f' := fun k => (y.acc k).lamports) hle h S hS
    rw [if_pos (hsub a (writable_mem ha).1), if_pos (hsub b (writable_mem hb).1)] at this
    exact Nat.add_right_cancel this

/-! ## Confinement -/

theorem exec_logs {op : Op} (h : Exec env ctx op w w') : ∃ l, w'.logs = w.logs ++ l := by
  have same : w'.logs = w.logs → ∃ l, w'.logs = w.logs ++ l := fun h => ⟨[], by rw [h]; simp⟩
  cases op with
  | log b => cases h; exact ⟨[b], rfl⟩
  | sys src dst n => obtain ⟨-, -, -, -, -, -, -, rfl⟩ := sysTransfer_ok.1 h; exact same rfl
  | create funder k' seeds nonce space owner =>
    obtain ⟨-, -, -, -, -, -, -, -, -, -, -, rfl⟩ := createPda_ok h.1 h.2; exact same rfl
  | createFunded prog seeds funder k' space owner =>
    obtain ⟨-, -, -, n, -, -, -, -, hlog, -⟩ := createPdaFunded_ok h.2
    exact same hlog
  | write k' b b' => obtain ⟨-, -, -, -, rfl⟩ := h; exact same rfl
  | move a b n => obtain ⟨-, -, -, -, hlog, -⟩ := moveLamports_ok h; exact same hlog
  | close k' =>
    simp only [Exec, zeroAccount, bind_ok, require_ok, exists_const, Except.ok.injEq] at h
    obtain ⟨-, -, rfl⟩ := h; exact same rfl
  | xfer sg src dst auth n =>
    obtain ⟨-, -, -, -, -, -, -, s, d, s', -, -, -, -, -, -, -, h⟩ := splTransfer_ok h
    rcases h with ⟨-, rfl⟩ | ⟨-, -, hlog, -⟩
    · exact same rfl
    · exact same hlog
  | mintTo sg mint dst auth n =>
    obtain ⟨-, -, -, -, -, -, -, -, m, d, -, -, -, -, -, -, -, -, hlog, -⟩ := splMintTo_ok h
    exact same hlog
  | burn sg src mint auth n =>
    obtain ⟨-, -, -, -, -, -, -, -, m, s, s', -, -, -, -, -, -, -, -, hlog, -⟩ := splBurn_ok h
    exact same hlog
  | initAcc k' mint owner => obtain ⟨-, -, -, -, -, -, -, rfl⟩ := splInitAccount_ok h; exact same rfl
  | initMint k' auth dec => obtain ⟨-, -, -, -, -, -, rfl⟩ := splInitMint_ok h; exact same rfl
  | sync k' => obtain ⟨-, -, -, t, r, -, -, -, -, -, rfl⟩ := splSyncNative_ok h; exact same rfl

theorem Ch.writable {op : Op} {k : Pubkey} {a a' : Account} (h : Ch env ctx op k a a') (hne : a' ≠ a) : ctx.isWritable k = true := by
  cases h <;> first | assumption | exact (hne ‹_›).elim

theorem Ops.confined {W : Op → Prop} (h : Ops env ctx W w w') : Confined ctx w w' := by
  refine h.lift (R := Confined ctx) (fun x => ⟨fun k h => (h rfl).elim, [], by simp⟩) (fun x y z h1 h2 => ⟨fun k h => ?_, ?_⟩) (fun op x y _ he => ⟨fun k h => ?_, ?_⟩)
  · by_cases e : y.acc k = x.acc k
    · exact h2.changed k (by rw [e]; exact h)
    · exact h1.changed k e
  · obtain ⟨l1, e1⟩ := h1.logs
    obtain ⟨l2, e2⟩ := h2.logs
    exact ⟨l1 ++ l2, by rw [e2, e1, List.append_assoc]⟩
  · exact writable_mem ((exec_ch he k).writable h)
  · exact exec_logs he

theorem Ops.respects {W : Op → Prop} (h : Ops env ctx W w w')
    (hf : ∀ p s f k sp o, W (.createFunded p s f k sp o) → p = ctx.program ∨ p = env.ataId) : Respects env ctx w w' := by
  refine h.lift (R := Respects env ctx) (fun x k _ => ⟨rfl, rfl, Nat.le_refl _⟩) (fun x y z h1 h2 k hk => ?_) (fun op x y hW he k hk => ?_)
  · obtain ⟨a1, a2, a3⟩ := h1 k hk
    obtain ⟨b1, b2, b3⟩ := h2 k (by unfold MayTouch at hk ⊢; rw [a1, a2]; exact hk)
    exact ⟨b1.trans a1, b2.trans a2, Nat.le_trans a3 b3⟩
  · have no1 : ctx.isSigner k = true → False := fun h => hk (.inl h)
    have no2 : (x.acc k).owner = ctx.program → False := fun h => hk (.inr (.inl h))
    have no3 : (x.acc k).owner = env.splId → False := fun h => hk (.inr (.inr (.inl h)))
    have no4 : ∀ s p, (x.acc k).owner = env.systemId → (x.acc k).data.len = 0 → (p = ctx.program ∨ p = env.ataId) → env.createAddr s p = some k → False :=
      fun s p h1 h2 h3 h4 => hk (.inr (.inr (.inr ⟨h1, h2, s, p, h3, h4⟩)))
    cases exec_ch he k with
    | same e => rw [e]; exact ⟨rfl, rfl, Nat.le_refl _⟩
    | gain hw hl hd ho => exact ⟨ho, hd, hl⟩
    | pay hw hs hsy hlen hd ho => exact (no1 hs).elim
    | move b n hop hw how hl hd ho => exact (no2 how).elim
    | write b b' hop hw how hb hlen e => exact (no2 how).elim
    | close hop hw how e => exact (no2 how).elim
    | create f s n sp o hop hw hsy hlen hl ha e => exact (no4 _ _ hsy hlen (.inl rfl) ha).elim
    | createFunded p s f sp o n hop hw hsy hlen ha hl hn e =>
      subst hop
      exact (no4 _ _ hsy hlen (hf _ _ _ _ _ _ hW) ha).elim
    | xferSrc sg dst auth n s s' hop hw how hb hn hsp hsg hd ho hl => exact (no3 how).elim
    | xferDst sg src auth n d hop hw how hb hn hd ho hl => exact (no3 how).elim
    | mintDst sg m au n d hop hw how hb hm hn e => exact (no3 how).elim
    | mintMint sg d au n m hop hw how hb ha hsg hn e => exact (no3 how).elim
    | burnSrc sg m au n s s' hop hw how hb hm hn hsp hsg e => exact (no3 how).elim
    | burnMint sg m au n s hop hw how hb hn e => exact (no3 how).elim
    | initAcc m o hop hw how hb e => exact (no3 how).elim
    | initMint au dec hop hw how hb e => exact (no3 how).elim
    | sync t n hop hw how hb hn e => exact (no3 how).elim

/-! ## Consent to spending tokens -/

namespace TP

theorem Agreed.back {k : Pubkey} {t t' : TokenAcc} (h : Agreed env ctx k t') (ho : t'.owner = t.owner) (hd : t'.delegate = t.delegate ∨ t'.delegate = none) :
    Agreed env ctx k t := by
  rcases h with h | ⟨d, h1, h2⟩ | h
  · exact .inl (ho ▸ h)
  · rcases hd with hd | hd
    · exact .inr (.inl ⟨d, hd ▸ h1, h2⟩)
    · rw [hd] at h1; cases h1
  · exact .inr (.inr h)

theorem spendAuth_keeps {s s' : TokenAcc} {auth : Pubkey} {n : U64} (h : spendAuth s auth n = .ok s') :
    s'.owner = s.owner ∧ (s'.delegate = s.delegate ∨ s'.delegate = none) ∧ (s.delegate = some auth ∨ s.owner = auth) := by
  unfold spendAuth at h
  split at h
  next hd =>
    split at h
    · cases h
      refine ⟨rfl, ?_, .inl hd⟩
      dsimp only
      split
      · exact .inr rfl
      · exact .inl rfl
    · cases h
  next hd =>
    split at h
    next ho => cases h; exact ⟨rfl, .inl rfl, .inr ho⟩
    · cases h

/-- What becomes of a token account in one instruction. -/
def Consented (env : Env) (ctx : Ctx) (k : Pubkey) (x y : World) : Prop :=
  ∀ t, (x.acc k).owner = env.splId → (x.acc k).data = .token t → (y.acc k).owner = env.splId ∧ ∃ t', (y.acc k).data = .token t' ∧ t'.mint = t.mint ∧
    t'.owner = t.owner ∧ (t'.delegate = t.delegate ∨ t'.delegate = none) ∧ (t'.amount.toNat < t.amount.toNat → Agreed env ctx k t)

theorem run_consent {i : Instr} (hsys : env.systemId ≠ env.splId) (hprog : ctx.program ≠ env.splId) (h : run env ctx noCpi i w = .ok w') (k : Pubkey) :
    Consented env ctx k w w' := by
  refine (run_ops h).lift (R := Consented env ctx k) (fun x t ho hd => ⟨ho, t, hd, rfl, rfl, .inl rfl, fun h => (Nat.lt_irrefl _ h).elim⟩)
    (fun x y z h1 h2 t ho hd => ?_) (fun op x y hW he t ho hd => ?_)
  · obtain ⟨ho1, t1, hd1, hm1, hw1, hg1, ha1⟩ := h1 t ho hd
    obtain ⟨ho2, t2, hd2, hm2, hw2, hg2, ha2⟩ := h2 t1 ho1 hd1
    refine ⟨ho2, t2, hd2, hm2.trans hm1, hw2.trans hw1, ?_, fun hlt => ?_⟩
    · rcases hg2 with e | e
      · rw [e]; exact hg1
      · exact .inr e
    · by_cases hc : t2.amount.toNat < t1.amount.toNat
      · exact (ha2 hc).back hw1 hg1
      · exact ha1 (by omega)
  · have spend : ∀ {sg : Pubkey → Bool} {auth : Pubkey} {n : U64} {s s' : TokenAcc}, (x.acc k).data = .token s → spendAuth s auth n = .ok s' →
        (y.acc k).data = .token { s' with amount := s.amount - n } → s'.mint = s.mint → sg auth = true →
        (sg = ctx.signs ∨ Agreed env ctx k t) → ∃ t', (y.acc k).data = .token t' ∧ t'.mint = t.mint ∧
          t'.owner = t.owner ∧ (t'.delegate = t.delegate ∨ t'.delegate = none) ∧ (t'.amount.toNat < t.amount.toNat → Agreed env ctx k t) := by
      intro sg auth n s s' hb hsp hy hmm hsg hor
      rw [hd] at hb; cases hb
      obtain ⟨e1, e2, e3⟩ := spendAuth_keeps hsp
      refine ⟨_, hy, hmm, e1, e2, fun _ => ?_⟩
      rcases hor with e | h
      · rw [e] at hsg
        rcases e3 with e3 | e3
        · exact .inr (.inl ⟨auth, e3, hsg⟩)
        · exact .inl (by rw [e3]; exact hsg)
      · exact h
    have hmint : ∀ {auth : Pubkey} {n : U64} {s s' : TokenAcc}, spendAuth s auth n = .ok s' → s'.mint = s.mint := by
      intro auth n s s' h
      unfold spendAuth at h
      split at h
      · split at h
        · cases h; rfl
        · cases h
      · split at h
        · cases h; rfl
        · cases h
    have keep : ∀ {a : U64}, t.amount.toNat ≤ a.toNat → (y.acc k).data = .token { t with amount := a } → ∃ t', (y.acc k).data = .token t' ∧ t'.mint = t.mint ∧
          t'.owner = t.owner ∧ (t'.delegate = t.delegate ∨ t'.delegate = none) ∧ (t'.amount.toNat < t.amount.toNat → Agreed env ctx k t) :=
      fun hle hy => ⟨_, hy, rfl, rfl, .inl rfl, fun h => absurd h (by simp only; omega)⟩
    cases exec_ch he k with
    | same e => rw [e]; exact ⟨ho, t, hd, rfl, rfl, .inl rfl, fun h => (Nat.lt_irrefl _ h).elim⟩
    | gain hw hl hd' ho' => rw [ho', hd']; exact ⟨ho, t, hd, rfl, rfl, .inl rfl, fun h => (Nat.lt_irrefl _ h).elim⟩
    | pay hw hs hsy hlen hd' ho' => exact absurd (hsy.symm.trans ho) hsys
    | move b n hop hw how hl hd ho' => exact absurd (how.symm.trans ho) hprog
    | write b b' hop hw how hb hlen e => exact absurd (how.symm.trans ho) hprog
    | close hop hw how e => exact absurd (how.symm.trans ho) hprog
    | create f s n sp o hop hw hsy hlen hl ha e => exact absurd (hsy.symm.trans ho) hsys
    | createFunded p s f sp o n hop hw hsy hlen ha hl hn e => exact absurd (hsy.symm.trans ho) hsys
    | xferSrc sg dst auth n s s' hop hw how hb hn hsp hsg hd' ho' hl =>
      refine ⟨ho'.trans ho, spend hb hsp hd' (hmint hsp) hsg ?_⟩
      subst hop
      cases hW with
      | xfer => exact .inl rfl
      | vaultPay p _ _ m _ hi ha => exact .inr (.inr (.inr (.inl ⟨m, ha⟩)))
      | proxyPay _ _ m c _ hi hsig ha => exact .inr (.inr (.inr (.inr ⟨m, c, ha, hsig⟩)))
    | xferDst sg src auth n d hop hw how hb hn hd' ho' hl =>
      rw [hd] at hb; cases hb
      exact ⟨ho'.trans ho, keep (by rw [BitVec.toNat_add]; omega) hd'⟩
    | mintDst sg m au n d hop hw how hb hm hn e =>
      rw [hd] at hb; cases hb
      exact ⟨by rw [e]; exact ho, keep (a := t.amount + n) (by rw [BitVec.toNat_add]; omega) (by rw [e])⟩
    | mintMint sg d au n m hop hw how hb ha hsg hn e => rw [hd] at hb; cases hb
    | burnSrc sg m au n s s' hop hw how hb hm hn hsp hsg e =>
      refine ⟨by rw [e]; exact ho, spend hb hsp (by rw [e]) (hmint hsp) hsg ?_⟩
      subst hop
      cases hW with
      | burn => exact .inl rfl
    | burnMint sg m au n s hop hw how hb hn e => rw [hd] at hb; cases hb
    | initAcc m o hop hw how hb e => rw [hd] at hb; cases hb
    | initMint au dec hop hw how hb e => rw [hd] at hb; cases hb
    | sync t' n hop hw how hb hn e =>
      rw [hd] at hb; cases hb
      exact ⟨by rw [e]; exact ho, keep hn (by rw [e])⟩

end TP

end Verif
