import Verif.NativeProxy.Processor
import Verif.Spec.Grants
import Verif.Lemmas.Day
/-!
# More signatures and permissions to write do not change what an instruction does
-/
set_option linter.unusedSimpArgs false
namespace Verif

/-- What succeeds on the left succeeds on the right with the same result. -/
def Le {α : Type} (x y : Except Err α) : Prop := ∀ a, x = .ok a → y = .ok a

namespace Le
variable {α β : Type}

theorem rfl' {x : Except Err α} : Le x x := fun _ h => h

theorem bind {x y : Except Err α} {f g : α → Except Err β} (h : Le x y) (hf : ∀ a, Le (f a) (g a)) : Le (x >>= f) (y >>= g) := by
  intro b hb
  rw [bind_ok] at hb ⊢
  obtain ⟨a, h1, h2⟩ := hb
  exact ⟨a, h a h1, hf a b h2⟩

theorem req {p q : Prop} {_ : Decidable p} {_ : Decidable q} {e : Err} (h : p → q) : Le (require p e) (require q e) := by
  intro u hu
  rw [require_ok] at hu ⊢
  exact h hu

theorem ite {p : Prop} {_ : Decidable p} {x x' y y' : Except Err α} (h : Le x x') (h' : Le y y') : Le (if p then x else y) (if p then x' else y') := by
  split
  · exact h
  · exact h'

end Le

/-- `ctx` with other permissions and another time. -/
abbrev Ctx.grant (ctx : Ctx) (s m : List Pubkey) (n : I64) : Ctx := ⟨ctx.program, ctx.accounts, s, m, n⟩

structure Adds (ctx : Ctx) (s m : List Pubkey) : Prop where
  signers : ∀ k ∈ ctx.signers, k ∈ s
  writables : ∀ k ∈ ctx.writables, k ∈ m

variable {env : Env} {ctx : Ctx} {s m : List Pubkey} {n : I64} {w : World} {k : Pubkey}

theorem Adds.sig (h : Adds ctx s m) (hk : ctx.isSigner k = true) : (ctx.grant s m n).isSigner k = true := by
  simp only [Ctx.isSigner, Ctx.grant, Bool.and_eq_true, List.contains_iff_mem] at hk ⊢
  exact ⟨hk.1, h.signers k hk.2⟩

theorem Adds.wr (h : Adds ctx s m) (hk : ctx.isWritable k = true) : (ctx.grant s m n).isWritable k = true := by
  simp only [Ctx.isWritable, Ctx.grant, Bool.and_eq_true, List.contains_iff_mem] at hk ⊢
  exact ⟨hk.1, h.writables k hk.2⟩

theorem Adds.sigs (h : Adds ctx s m) (k : Pubkey) (hk : ctx.signs k = true) : (ctx.grant s m n).signs k = true := h.sig hk

theorem Adds.or (h : Adds ctx s m) {p : Pubkey} (k : Pubkey) (hk : (ctx.isSigner k || k == p) = true) :
    ((ctx.grant s m n).isSigner k || k == p) = true := by
  rw [Bool.or_eq_true] at hk ⊢
  exact hk.imp h.sig id

theorem Adds.pda (_ : Adds ctx s m) {sd : List Bytes} {α : Type} {f g : (Pubkey → Bool) → Except Err α}
    (hf : ∀ p, Le (f fun k => ctx.isSigner k || k == p) (g fun k => (ctx.grant s m n).isSigner k || k == p)) :
    Le (pdaSigns env ctx sd >>= f) (pdaSigns env (ctx.grant s m n) sd >>= g) := by
  intro a ha
  unfold pdaSigns at ha ⊢
  show (match env.createAddr sd ctx.program with
    | none => .error .invalidSeeds
    | some p => .ok fun k => (ctx.grant s m n).isSigner k || k == p) >>= g = .ok a
  cases h1 : env.createAddr sd ctx.program with
  | none => rw [h1] at ha; exact ha
  | some p => rw [h1] at ha; exact hf p a ha

theorem grant_acct {i : Nat} : acct (ctx.grant s m n) i = acct ctx i := rfl

/-- Go through a handler step by step. `h : Adds ctx s m`. -/
macro "mono" h:ident "[" ls:term,* "]" : tactic => do
  let alts ← ls.getElems.mapM fun l => `(tactic| with_reducible refine $l)
  let one : Lean.TSyntax `tactic ← `(tactic| first
    | with_reducible exact Le.rfl'
    | (first $[| $alts:tactic]* | fail)
    | (with_reducible refine Adds.pda $h fun _ => ?_)
    | (with_reducible refine Le.bind ?_ fun _ => ?_)
    | (with_reducible refine Le.ite ?_ ?_)
    | (with_reducible apply Le.req
       first
         | exact id
         | exact Adds.sig $h
         | exact Adds.wr $h
         | exact fun x => ⟨Adds.wr $h x.1, Adds.wr $h x.2⟩
         | exact Or.imp_right (Adds.wr $h)
         | exact fun x k hk => Adds.wr $h (x k hk))
    | exact Le.rfl')
  `(tactic| repeat ($one:tactic))

/-! ## Runtime -/

section
variable {a b o : Pubkey} {i j : Nat} {sg sg' : Pubkey → Bool} {x : U64}

theorem grant_setData (h : Adds ctx s m) {d : Data} : Le (setData ctx k d w) (setData (ctx.grant s m n) k d w) := by
  unfold setData
  mono h []

theorem grant_move (h : Adds ctx s m) : Le (moveLamports ctx a b i w) (moveLamports (ctx.grant s m n) a b i w) := by
  unfold moveLamports debit credit
  mono h []

theorem grant_zero (h : Adds ctx s m) : Le (zeroAccount env ctx k w) (zeroAccount env (ctx.grant s m n) k w) := by
  unfold zeroAccount
  mono h []

theorem grant_sys (h : Adds ctx s m) (hs : ∀ k, sg k = true → sg' k = true) :
    Le (sysTransfer env ctx sg a b i w) (sysTransfer env (ctx.grant s m n) sg' a b i w) := by
  unfold sysTransfer
  mono h [Le.req (hs _)]

theorem grant_create (h : Adds ctx s m) (hs : ∀ k, sg k = true → sg' k = true) :
    Le (sysCreate env ctx sg a b i j o w) (sysCreate env (ctx.grant s m n) sg' a b i j o w) := by
  unfold sysCreate
  mono h [Le.req (hs _), grant_sys h hs]

theorem grant_pda (h : Adds ctx s m) {sd : List Bytes} {nc : U8} :
    Le (createPda env ctx a b sd nc i o w) (createPda env (ctx.grant s m n) a b sd nc i o w) := by
  unfold createPda
  mono h [grant_create h (Adds.or h)]

theorem grant_pack (h : Adds ctx s m) {α : Type} {c : Codec α} {v : α} : Le (pack ctx c i v k w) (pack (ctx.grant s m n) c i v k w) := by
  unfold pack
  split
  · split
    · mono h [grant_setData h]
    · mono h []
  · mono h []

theorem grant_call (h : Adds ctx s m) {l l' : List Pubkey} : Le (splCall env ctx l l' w) (splCall env (ctx.grant s m n) l l' w) := by
  unfold splCall
  mono h []

theorem grant_xfer (h : Adds ctx s m) (hs : ∀ k, sg k = true → sg' k = true) :
    Le (splTransfer env ctx sg a b o x w) (splTransfer env (ctx.grant s m n) sg' a b o x w) := by
  unfold splTransfer
  mono h [Le.req (hs _), grant_call h]

theorem grant_mint (h : Adds ctx s m) (hs : ∀ k, sg k = true → sg' k = true) :
    Le (splMintTo env ctx sg a b o x w) (splMintTo env (ctx.grant s m n) sg' a b o x w) := by
  unfold splMintTo
  mono h [Le.req (hs _), grant_call h]

theorem grant_burn (h : Adds ctx s m) (hs : ∀ k, sg k = true → sg' k = true) :
    Le (splBurn env ctx sg a b o x w) (splBurn env (ctx.grant s m n) sg' a b o x w) := by
  unfold splBurn
  mono h [Le.req (hs _), grant_call h]

theorem grant_initAcc (h : Adds ctx s m) : Le (splInitAccount env ctx a b o w) (splInitAccount env (ctx.grant s m n) a b o w) := by
  unfold splInitAccount
  mono h [grant_call h]

theorem grant_initMint (h : Adds ctx s m) {d : U8} : Le (splInitMint env ctx a o d w) (splInitMint env (ctx.grant s m n) a o d w) := by
  unfold splInitMint
  mono h [grant_call h]

theorem grant_sync (h : Adds ctx s m) : Le (splSyncNative env ctx a w) (splSyncNative env (ctx.grant s m n) a w) := by
  unfold splSyncNative
  mono h [grant_call h]

theorem grant_funded (h : Adds ctx s m) (hs : ∀ k, sg k = true → sg' k = true) :
    Le (createPdaFunded env ctx sg a b i o w) (createPdaFunded env (ctx.grant s m n) sg' a b i o w) := by
  unfold createPdaFunded
  mono h [Le.req (hs _), grant_create h hs, grant_sys h (Adds.sigs h)]

theorem grant_ata (h : Adds ctx s m) : Le (ataCreate env ctx a b o w) (ataCreate env (ctx.grant s m n) a b o w) := by
  unfold ataCreate
  mono h [grant_funded h (Adds.or h), grant_initAcc h]

end

end Verif
