import Verif.Lemmas.Ops
import Verif.Spec.Views
/-!
# Reading and writing packed accounts
-/
namespace Verif

theorem setDataRaw_self {w : World} {k : Pubkey} {d : Data} (h : (w.acc k).data = d) : w.setDataRaw k d = w := by
  subst h
  cases w with
  | mk acc logs =>
    simp only [World.setDataRaw, World.set, World.mk.injEq, and_true]
    funext x
    split
    · rename_i e; subst e; rfl
    · rfl

/-- The bytes `b'` are those of record `a` written over `b`. -/
structure Stored {α : Type} (c : Codec α) (a : α) (b b' : Bytes) : Prop where
  wf : c.wf a = true
  fits : (c.enc a).length ≤ b.length
  eq : b' = c.enc a ++ b.drop (c.enc a).length

namespace Stored
variable {α : Type} {c : Codec α} {a : α} {b b' : Bytes}

theorem length (h : Stored c a b b') : b'.length = b.length := by
  have := h.fits
  rw [h.eq]; simp; omega

theorem dec (h : Stored c a b b') : c.dec b' = some (a, b.drop (c.enc a).length) := by
  rw [h.eq]; exact c.dec_enc _ _ h.wf

end Stored

theorem packBytes_ok {α : Type} {c : Codec α} {a : α} {b b' : Bytes} :
    packBytes c a b = .ok b' ↔ Stored c a b b' := by
  unfold packBytes
  constructor
  · intro h
    split at h
    · rename_i hc; cases h; exact ⟨hc.1, hc.2, rfl⟩
    · cases h
  · rintro ⟨h1, h2, rfl⟩
    rw [if_pos ⟨h1, h2⟩]

theorem setData_ok {ctx : Ctx} {k : Pubkey} {d : Data} {w w' : World} :
    setData ctx k d w = .ok w' ↔
      ((w.acc k).data = d ∨ (ctx.isWritable k = true ∧ (w.acc k).owner = ctx.program)) ∧ w' = w.setDataRaw k d := by
  unfold setData
  constructor
  · intro h
    split at h
    · rename_i hd; cases h; exact ⟨.inl hd, (setDataRaw_self hd).symm⟩
    · simp only [bind_ok, require_ok, exists_const, Except.ok.injEq] at h
      exact ⟨.inr ⟨h.1, h.2.1⟩, h.2.2.symm⟩
  · rintro ⟨h, rfl⟩
    split
    · rename_i hd; rw [setDataRaw_self hd]
    · rename_i hd
      obtain ⟨h1, h2⟩ := h.resolve_left hd
      simp [require, h1, h2, bind, Except.bind]

theorem pack_ok {α : Type} {ctx : Ctx} {c : Codec α} {len : Nat} {a : α} {k : Pubkey} {w w' : World} :
    pack ctx c len a k w = .ok w' ↔
      ∃ b b', (w.acc k).data = .raw b ∧ b.length = len ∧ Stored c a b b' ∧
        (b' = b ∨ (ctx.isWritable k = true ∧ (w.acc k).owner = ctx.program)) ∧ w' = w.setDataRaw k (.raw b') := by
  unfold pack
  split
  · rename_i b hb
    split
    · rename_i hl
      simp only [bind_ok, packBytes_ok, setData_ok, hb, Data.raw.injEq, exists_and_left, eq_comm (a := b)]
      exact ⟨fun h => ⟨b, rfl, hl, h⟩, fun ⟨_, e, _, h⟩ => e ▸ h⟩
    · rename_i hl
      simp only [error_ok, false_iff, hb, Data.raw.injEq]
      rintro ⟨b1, b', rfl, h, -⟩
      exact hl h
  · rename_i hb
    simp only [error_ok, false_iff]
    rintro ⟨b1, b', h, -⟩
    exact hb _ h

theorem unpackUnchecked_ok {α : Type} {c : Codec α} {len : Nat} {d : Data} {a : α} :
    unpackUnchecked c len d = .ok a ↔ ∃ b r, d = .raw b ∧ b.length = len ∧ c.dec b = some (a, r) := by
  unfold unpackUnchecked
  split
  · rename_i b
    split
    · rename_i hl
      split
      · rename_i a' r hd
        simp [hl, hd]
      · rename_i hd
        simp [hl, hd]
    · rename_i hl
      simp [hl]
  · rename_i hb
    simp only [error_ok, false_iff]
    rintro ⟨b1, r, h, -⟩
    exact hb _ h

theorem unpack_ok {α : Type} {c : Codec α} {len : Nat} {ini : α → Bool} {d : Data} {a : α} :
    unpack c len ini d = .ok a ↔ ∃ b r, d = .raw b ∧ b.length = len ∧ c.dec b = some (a, r) ∧ ini a = true := by
  simp only [unpack, bind_ok, unpackUnchecked_ok, require_ok, exists_const, Except.ok.injEq]
  constructor
  · rintro ⟨a', ⟨b, r, h1, h2, h3⟩, h4, rfl⟩; exact ⟨b, r, h1, h2, h3, h4⟩
  · rintro ⟨b, r, h1, h2, h3, h4⟩; exact ⟨a, ⟨b, r, h1, h2, h3⟩, h4, rfl⟩

/-- A stored record, as an operation. -/
theorem Ops.pack {α : Type} {env : Env} {ctx : Ctx} {W : Op → Prop} {c : Codec α} {len : Nat} {a : α} {k : Pubkey}
    {w w' : World} (h : Verif.pack ctx c len a k w = .ok w')
    (hW : ∀ b b', (w.acc k).data = .raw b → b.length = len → Stored c a b b' → W (.write k b b')) :
    Ops env ctx W w w' := by
  obtain ⟨b, b', hb, hl, hs, hd, rfl⟩ := pack_ok.1 h
  rcases hd with rfl | ⟨hw, ho⟩
  · rw [setDataRaw_self hb]; exact .refl _
  · exact .one (.write k b b') (hW b b' hb hl hs) ⟨hb, hs.length, ho, hw, rfl⟩

theorem acct_ok {ctx : Ctx} {i : Nat} {k : Pubkey} : acct ctx i = .ok k ↔ ctx.accounts[i]? = some k := by
  simp [acct]

theorem sysvar_ok {id k : Pubkey} {u : Unit} : sysvar id k = .ok u ↔ k = id := by
  simp [sysvar]

theorem validatePda_ok {env : Env} {prog : Pubkey} {seeds : List Bytes} {n : U8} {k : Pubkey} {u : Unit} :
    validatePda env prog seeds n k = .ok u ↔ findAddr env seeds prog = .ok (k, n) := by
  simp only [validatePda, bind_ok, require_ok, exists_const, Prod.exists]
  constructor
  · rintro ⟨a, m, h, rfl, rfl⟩; exact h
  · intro h; exact ⟨k, n, h, rfl, rfl⟩

theorem validateProgramdata_ok {env : Env} {prog : Pubkey} {n : U8} {k : Pubkey} {u : Unit} :
    validateProgramdata env prog n k = .ok u ↔ findAddr env [seedKey prog] env.loaderId = .ok (k, n) := by
  simp only [validateProgramdata, bind_ok, require_ok, exists_const, Prod.exists]
  constructor
  · rintro ⟨a, m, h, rfl, rfl⟩; exact h
  · intro h; exact ⟨k, n, h, rfl, rfl⟩

theorem validateInitializer_ok {a : Pubkey} {d : Data} {u : Unit} :
    validateInitializer a d = .ok u ↔ d = .programData (some a) := by
  unfold validateInitializer
  split
  · simp
  · rename_i h
    simp only [error_ok, false_iff]
    exact h a

theorem intoSettings_some {a : AccountKind} {x y : U8} : a.intoSettings = some (x, y) ↔ a = .settings x y := by
  cases a <;> simp [AccountKind.intoSettings]
theorem intoProposal_some {a : AccountKind} {x : U8} {y : Option U8} : a.intoProposal = some (x, y) ↔ a = .proposal x y := by
  cases a <;> simp [AccountKind.intoProposal]
theorem intoRelayRound_some {a : AccountKind} {x : U8} : a.intoRelayRound = some x ↔ a = .relayRound x := by
  cases a <;> simp [AccountKind.intoRelayRound]

theorem holds_iff {α : Type} {c : Codec α} {len : Nat} {a : Account} {x : α} :
    Holds c len a x ↔ unpackUnchecked c len a.data = .ok x := unpackUnchecked_ok.symm

theorem unpack_holds {α : Type} {c : Codec α} {len : Nat} {ini : α → Bool} {a : Account} {x : α} :
    unpack c len ini a.data = .ok x ↔ Holds c len a x ∧ ini x = true := by
  rw [unpack_ok]
  constructor
  · rintro ⟨b, r, h1, h2, h3, h4⟩; exact ⟨⟨b, r, h1, h2, h3⟩, h4⟩
  · rintro ⟨⟨b, r, h1, h2, h3⟩, h4⟩; exact ⟨b, r, h1, h2, h3, h4⟩

/-- Writing back the record that is there changes nothing. -/
theorem Stored_same {α : Type} {c : Codec α} {a : α} {b b' r : Bytes} (hd : c.dec b = some (a, r)) (h : Stored c a b b') :
    b' = b := by
  have := c.eq_of_dec hd
  rw [h.eq, this]
  simp

/-- What `createPda` leaves alone. -/
theorem createPda_acc {env : Env} {ctx : Ctx} {f k : Pubkey} {seeds : List Bytes} {n : U8} {space : Nat} {o : Pubkey}
    {w w' : World} (ha : env.createAddr (seeds ++ [[n]]) ctx.program = some k)
    (h : createPda env ctx f k seeds n space o w = .ok w') (x : Pubkey) (hx : x ≠ k) :
    (w'.acc x).data = (w.acc x).data ∧ (w'.acc x).owner = (w.acc x).owner := by
  obtain ⟨-, -, -, hne, -, -, -, -, -, -, -, rfl⟩ := createPda_ok ha h
  simp only [setLamports_acc]
  split
  · rename_i e; subst e; simp [World.set_other _ _ hne]
  · simp [World.set_other _ _ hx]

theorem createPda_self {env : Env} {ctx : Ctx} {f k : Pubkey} {seeds : List Bytes} {n : U8} {space : Nat} {o : Pubkey}
    {w w' : World} (ha : env.createAddr (seeds ++ [[n]]) ctx.program = some k)
    (h : createPda env ctx f k seeds n space o w = .ok w') :
    w'.acc k = ⟨max 1 (env.rent space), o, .raw (zeros space)⟩ := by
  obtain ⟨-, -, -, hne, -, -, -, -, -, -, -, rfl⟩ := createPda_ok ha h
  simp [hne.symm]

end Verif
