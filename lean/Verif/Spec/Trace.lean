import Verif.Spec.Views
/-!
# Histories

A history is a sequence of instructions of the round loader and of the token proxy, sent by anyone with any accounts, mixed
with arbitrary activity of all other programs. `L` is a set of *locked* keys: keys nobody can sign for during the history.
On the real chain every address derived for the two programs is locked, except the proxy accounts the token proxy signs for when it
executes a payload. Theorems about an account assume that it is locked only where they need it.
-/
namespace Verif

/-- What other programs can do in one step, by the rules of the runtime, the system program and the token program. -/
structure ExtStep (env : Env) (L : Pubkey → Prop) (w w' : World) : Prop where
  /-- only the owner program changes data or takes lamports -/
  bridge : ∀ k, (w.acc k).owner = env.rlId ∨ (w.acc k).owner = env.tpId →
    (w'.acc k).owner = (w.acc k).owner ∧ (w'.acc k).data = (w.acc k).data ∧ (w.acc k).lamports ≤ (w'.acc k).lamports
  /-- a system account changes only with its signature, except that it can receive lamports -/
  locked : ∀ k, L k → (w.acc k).owner = env.systemId →
    (w'.acc k).owner = (w.acc k).owner ∧ (w'.acc k).data = (w.acc k).data ∧ (w.acc k).lamports ≤ (w'.acc k).lamports
  /-- an account can be assigned to a bridge program only with its own signature and with zero data -/
  fresh : ∀ k, (w'.acc k).owner = env.rlId ∨ (w'.acc k).owner = env.tpId → (w.acc k).owner ≠ (w'.acc k).owner →
    ¬ L k ∧ ∃ n, (w'.acc k).data = .raw (zeros n)
  /-- tokens leave an account only with the signature of its owner or delegate -/
  token : ∀ k t, (w.acc k).owner = env.splId → (w.acc k).data = .token t → L t.owner → t.delegate = none →
    t.closeAuthority = none → ∃ t', (w'.acc k).owner = env.splId ∧ (w'.acc k).data = .token t' ∧ t'.mint = t.mint ∧
      t'.owner = t.owner ∧ t'.delegate = none ∧ t'.closeAuthority = none ∧ t'.isNative = t.isNative ∧
      t.amount.toNat ≤ t'.amount.toNat ∧ (w.acc k).lamports ≤ (w'.acc k).lamports
  /-- tokens are minted only with the signature of the mint authority; anyone can burn their own -/
  mint : ∀ k m a, (w.acc k).owner = env.splId → (w.acc k).data = .mint m → m.mintAuthority = some a → L a →
    m.freezeAuthority = none → ∃ m', (w'.acc k).owner = env.splId ∧ (w'.acc k).data = .mint m' ∧
      m'.mintAuthority = some a ∧ m'.decimals = m.decimals ∧ m'.freezeAuthority = none ∧ m'.supply.toNat ≤ m.supply.toNat ∧
      (w.acc k).lamports ≤ (w'.acc k).lamports
  /-- an account of the token program stays with it, or is closed; what is not a token account or a mint holds zeros
  (multisig accounts are not modelled) -/
  settled : ∀ k, L k → (w.acc k).owner = env.splId → (∀ b, (w.acc k).data = .raw b → ∃ n, b = zeros n) →
    ((w'.acc k).owner = env.splId ∨ (w'.acc k).owner = env.systemId) ∧ ((w'.acc k).owner = env.systemId → ∃ n, (w'.acc k).data = .raw (zeros n)) ∧
      (∀ b, (w'.acc k).data = .raw b → ∃ n, b = zeros n)
  /-- log records are never removed -/
  logs : ∃ l, w'.logs = w.logs ++ l

/-- End of a transaction: accounts without lamports cease to exist. -/
def Purge (env : Env) (w w' : World) : Prop :=
  w'.logs = w.logs ∧ ∀ k, w'.acc k = if (w.acc k).lamports = 0 then ⟨0, env.systemId, .raw []⟩ else w.acc k

/-- What happened in one step of a history. -/
inductive Act
  | rl (ctx : Ctx) (i : RL.Instr)
  | tp (ctx : Ctx) (i : TP.Instr)
  | ext
  | purge

/-- A step with the states before and after. -/
structure Ev where
  act : Act
  pre : World
  post : World

/-- No payload is executed. -/
def noCpi : Pubkey → World → Except Err World := fun _ _ => .error .cpi

/-- The instructions of a payload, signed for by `p`, turned the state into `c`. -/
def cpiTo (p : Pubkey) (c : World) : Pubkey → World → Except Err World := fun q _ => if q = p then .ok c else .error .cpi

/-- `Run env L top w tr w'`: history `tr` leads from `w` to `w'`. `top` is false inside a payload, where no transaction ends.
A payload execution is recorded as the steps of the payload followed by the step of the token proxy, which then starts in the state
the payload produced. -/
inductive Run (env : Env) (L : Pubkey → Prop) : Bool → World → List Ev → World → Prop
  | nil (top : Bool) (w : World) : Run env L top w [] w
  | rl {top : Bool} {w w1 w2 : World} {tr : List Ev} (ctx : Ctx) (i : RL.Instr) (h : Run env L top w tr w1)
      (hp : ctx.program = env.rlId) (hs : ∀ k ∈ ctx.signers, ¬ L k) (hr : RL.run env ctx i w1 = .ok w2) :
      Run env L top w (tr ++ [⟨.rl ctx i, w1, w2⟩]) w2
  | tp {top : Bool} {w w1 w2 : World} {tr : List Ev} (ctx : Ctx) (i : TP.Instr) (h : Run env L top w tr w1)
      (hp : ctx.program = env.tpId) (hs : ∀ k ∈ ctx.signers, ¬ L k) (hr : TP.run env ctx noCpi i w1 = .ok w2) :
      Run env L top w (tr ++ [⟨.tp ctx i, w1, w2⟩]) w2
  | payload {top : Bool} {w w1 c w2 : World} {tr tr' : List Ev} (ctx : Ctx) (i : TP.Instr) (p : Pubkey)
      (h : Run env L top w tr w1) (hin : Run env L false w1 tr' c)
      (hp : ctx.program = env.tpId) (hs : ∀ k ∈ ctx.signers, ¬ L k) (hpl : ¬ L p)
      (hno : ∀ x, TP.run env ctx noCpi i w1 ≠ .ok x) (hr : TP.run env ctx (cpiTo p c) i w1 = .ok w2) :
      Run env L top w (tr ++ tr' ++ [⟨.tp ctx i, c, w2⟩]) w2
  | ext {top : Bool} {w w1 w2 : World} {tr : List Ev} (h : Run env L top w tr w1) (he : ExtStep env L w1 w2) :
      Run env L top w (tr ++ [⟨.ext, w1, w2⟩]) w2
  | purge {w w1 w2 : World} {tr : List Ev} (h : Run env L true w tr w1) (hp : Purge env w1 w2) :
      Run env L true w (tr ++ [⟨.purge, w1, w2⟩]) w2

/-- The chain before the bridge programs were deployed: no account belongs to them and locked keys hold no data. -/
structure Genesis (env : Env) (L : Pubkey → Prop) (w : World) : Prop where
  owner : ∀ k, (w.acc k).owner ≠ env.rlId ∧ (w.acc k).owner ≠ env.tpId
  locked : ∀ k, L k → (w.acc k).owner = env.systemId ∧ (w.acc k).data = .raw []

/-- A state that can occur. -/
def Reach (env : Env) (L : Pubkey → Prop) (w : World) : Prop := ∃ w0 tr, Genesis env L w0 ∧ Run env L true w0 tr w

end Verif
