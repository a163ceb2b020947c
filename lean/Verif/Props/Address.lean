import Verif.Spec.Address
import Verif.Props.Wire
import Verif.Lemmas.TPOps
import Verif.Lemmas.RLWhy
/-!
# C83: addresses
-/
namespace Verif.Props
open Verif Codec

theorem num_length (n x : Nat) : (Wire.num n x).length = n := by simp [Wire.num]

theorem key_length (k : Pubkey) : (Wire.key k).length = 32 := num_length _ _

theorem key_inj {a b : Pubkey} (h : Wire.key a = Wire.key b) : a = b := by
  rw [← wire_key, ← wire_key] at h
  exact (enc_inj _ rfl rfl (congrArg (· ++ ([] : Bytes)) h)).1

theorem u32_inj {a b : U32} (h : Wire.num 4 a.toNat = Wire.num 4 b.toNat) : a = b := by
  rw [← wire_u32, ← wire_u32] at h
  exact (enc_inj _ rfl rfl (congrArg (· ++ ([] : Bytes)) h)).1

theorem u64_inj {a b : U64} (h : Wire.num 8 a.toNat = Wire.num 8 b.toNat) : a = b := by
  rw [← wire_u64, ← wire_u64] at h
  exact (enc_inj _ rfl rfl (congrArg (· ++ ([] : Bytes)) h)).1

theorem u128_inj {a b : U128} (h : Wire.num 16 a.toNat = Wire.num 16 b.toNat) : a = b := by
  rw [← wire_u128, ← wire_u128] at h
  exact (enc_inj _ rfl rfl (congrArg (· ++ ([] : Bytes)) h)).1

theorem proposal_inj {n n' : U32} {p p' : PDA} {h h' : Pubkey}
    (e : ([ascii "proposal", Wire.num 4 n.toNat, Wire.num 4 p.eventTimestamp.toNat, Wire.num 8 p.eventTransactionLt.toNat,
      Wire.key p.eventConfiguration, Wire.key h] : List Bytes).flatten =
      ([ascii "proposal", Wire.num 4 n'.toNat, Wire.num 4 p'.eventTimestamp.toNat, Wire.num 8 p'.eventTransactionLt.toNat,
      Wire.key p'.eventConfiguration, Wire.key h'] : List Bytes).flatten) : n = n' ∧ p = p' ∧ h = h' := by
  simp only [List.flatten_cons, List.flatten_nil, List.append_nil] at e
  have e := List.append_cancel_left e
  obtain ⟨e1, e⟩ := List.append_inj e (by simp only [num_length])
  obtain ⟨e2, e⟩ := List.append_inj e (by simp only [num_length])
  obtain ⟨e3, e⟩ := List.append_inj e (by simp only [num_length])
  obtain ⟨e4, e5⟩ := List.append_inj e (by simp only [key_length])
  refine ⟨u32_inj e1, ?_, key_inj e5⟩
  cases p; cases p'
  simp only at e2 e3 e4
  rw [u32_inj e2, u64_inj e3, key_inj e4]

theorem one_key {s : Bytes} {a b : Pubkey} (e : ([s, Wire.key a] : List Bytes).flatten = ([s, Wire.key b] : List Bytes).flatten) : a = b := by
  simp only [List.flatten_cons, List.flatten_nil, List.append_nil] at e
  exact key_inj (List.append_cancel_left e)

theorem tp_parts_length (env : Env) (r : TP.Role) : (r.parts env).flatten.length =
    match r with
    | .settings => 8 | .multiVault => 10 | .tokenSol _ => 40 | .tokenEver _ => 40 | .mint _ => 36 | .vault _ => 37 | .proxy _ _ => 69
    | .deposit _ => 23 | .withdrawal _ _ _ => 88 := by
  cases r <;> simp [TP.Role.parts, ascii, key_length, num_length]

theorem rl_parts_length (r : RL.Role) : r.parts.flatten.length =
    match r with | .settings => 8 | .round _ => 15 | .proposal _ _ _ => 88 := by
  cases r <;> simp [RL.Role.parts, ascii, key_length, num_length]

/-- C83: no two records of the token proxy have the same address unless two different byte strings have the same hash. -/
theorem C83_token_proxy (env : Env) (r r' : TP.Role) (b b' : U8) (h : preimage (r.parts env) b = preimage (r'.parts env) b') :
    TP.Role.Same env r r' ∧ b = b' := by
  have hl := congrArg List.length h
  simp only [preimage, List.length_append, List.length_cons, List.length_nil] at hl
  obtain ⟨e, eb⟩ := List.append_inj h (by omega)
  refine ⟨?_, (List.cons.inj eb).1⟩
  have hl := congrArg List.length e
  rw [tp_parts_length, tp_parts_length] at hl
  cases r <;> cases r' <;> first | (simp only at hl; omega) | skip
  · exact .refl _
  · exact .refl _
  · rw [one_key e]; exact .refl _
  · exact .mixed' _ _ (one_key e).symm
  · exact .mixed _ _ (one_key e)
  · exact .token _ _ (one_key e)
  · exact .mint _ _ (one_key e)
  · rw [one_key e]; exact .refl _
  · simp only [TP.Role.parts, List.flatten_cons, List.flatten_nil, List.append_nil] at e
    obtain ⟨e1, e2⟩ := List.append_inj (List.append_cancel_left e) (by simp only [key_length])
    rw [key_inj e1, key_inj e2]; exact .refl _
  · simp only [TP.Role.parts, List.flatten_cons, List.flatten_nil, List.append_nil] at e
    rw [u128_inj (List.append_cancel_left e)]; exact .refl _
  · obtain ⟨rfl, rfl, rfl⟩ := proposal_inj e
    exact .refl _

/-- C83: nor have two records of the round loader. -/
theorem C83_round_loader (r r' : RL.Role) (b b' : U8) (h : preimage r.parts b = preimage r'.parts b') : r = r' ∧ b = b' := by
  have hl := congrArg List.length h
  simp only [preimage, List.length_append, List.length_cons, List.length_nil] at hl
  obtain ⟨e, eb⟩ := List.append_inj h (by omega)
  refine ⟨?_, (List.cons.inj eb).1⟩
  have hl := congrArg List.length e
  rw [rl_parts_length, rl_parts_length] at hl
  cases r <;> cases r' <;> first | (simp only at hl; omega) | skip
  · rfl
  · simp only [RL.Role.parts, List.flatten_cons, List.flatten_nil, List.append_nil] at e
    rw [u32_inj (List.append_cancel_left e)]
  · obtain ⟨rfl, rfl, rfl⟩ := proposal_inj e
    rfl

/-- C83: the parts respect the limits of the chain: at most 16 of them with the bump, none longer than 32 bytes. -/
theorem C83_limits (env : Env) :
    (∀ r : TP.Role, (r.parts env).length + 1 ≤ 16 ∧ ∀ s ∈ r.parts env, s.length ≤ 32) ∧
    (∀ r : RL.Role, r.parts.length + 1 ≤ 16 ∧ ∀ s ∈ r.parts, s.length ≤ 32) := by
  constructor <;> intro r <;> cases r <;> simp [TP.Role.parts, RL.Role.parts, ascii, key_length, num_length]

example : (preimage ((TP.Role.vault 7#256).parts Toy.env) 255).length = 38 ∧
    preimage ((TP.Role.vault 7#256).parts Toy.env) 255 = [118, 97, 117, 108, 116, 7] ++ zeros 31 ++ [255] := by decide +kernel

/-! ## Where the programs create accounts -/

theorem slot_role {env : Env} {ctx : Ctx} (hp : ctx.program = env.tpId) {s : List Bytes} {n : Nat} {o : Pubkey} (h : TP.Slot env ctx s n o) :
    ∃ r : TP.Role, s = r.parts env ∧ n = r.size ∧ o = r.owner env := by
  cases h with
  | settings => exact ⟨.settings, rfl, rfl, hp⟩
  | multiVault => exact ⟨.multiVault, rfl, rfl, hp⟩
  | tokenSol m => exact ⟨.tokenSol m, by simp only [TP.tokenSettingsSolSeeds, seedKey, wire_key]; rfl, rfl, hp⟩
  | tokenEver t => exact ⟨.tokenEver t, by simp only [TP.tokenSettingsEverSeeds, TP.tokenHash, seedKey, wire_key, wire_ever]; rfl, rfl, hp⟩
  | deposit sd => exact ⟨.deposit sd, by simp only [depositSeeds, seedU128, wire_u128]; rfl, rfl, hp⟩
  | withdrawal r p h =>
    exact ⟨.withdrawal r p h, by simp only [proposalSeeds, seedU32, seedU64, seedKey, wire_u32, wire_u64, wire_key]; rfl, rfl, hp⟩
  | vault m => exact ⟨.vault m, by simp only [TP.vaultSeeds, seedKey, wire_key]; rfl, rfl, rfl⟩
  | mint t => exact ⟨.mint t, by simp only [TP.mintSeeds, TP.tokenHash, seedKey, wire_key, wire_ever]; rfl, rfl, rfl⟩

theorem len_same {env : Env} {ctx : Ctx} {op : Op} {k : Pubkey} {a a' : Account} (h : Ch env ctx op k a a') :
    (a'.owner = a.owner ∧ a'.data.len = a.data.len) ∨ (op = .close k ∧ a'.owner = env.systemId ∧ a'.data.len = a.data.len) ∨
    (∃ f s n sp o, op = .create f k s n sp o ∧ a.data.len = 0 ∧ a'.owner = o ∧ a'.data.len = sp) ∨
    (∃ p s f sp o, op = .createFunded p s f k sp o ∧ a.data.len = 0 ∧ a'.owner = o ∧ a'.data.len = sp) := by
  cases h with
  | same e => subst e; exact .inl ⟨rfl, rfl⟩
  | gain hw hl hd ho => exact .inl ⟨ho, by rw [hd]⟩
  | pay hw hs hsy hlen hd ho => exact .inl ⟨ho, by rw [hd]⟩
  | move b n hop hw how hl hd ho => exact .inl ⟨ho, by rw [hd]⟩
  | write b b' hop hw how hb hlen e => subst e; exact .inl ⟨rfl, by rw [hb]; exact hlen⟩
  | close hop hw how e => subst e; exact .inr (.inl ⟨hop, rfl, by simp [Data.len, zeros]⟩)
  | create f s n sp o hop hw hsy hlen hl ha e => subst e; exact .inr (.inr (.inl ⟨f, s, n, sp, o, hop, hlen, rfl, by simp [Data.len, zeros]⟩))
  | createFunded p s f sp o n hop hw hsy hlen ha hl hn e =>
    subst e; exact .inr (.inr (.inr ⟨p, s, f, sp, o, hop, hlen, rfl, by simp [Data.len, zeros]⟩))
  | xferSrc sg dst auth n s s' hop hw how hb hn hsp hsg hd ho hl => exact .inl ⟨ho, by rw [hd, hb]; rfl⟩
  | xferDst sg src auth n d hop hw how hb hn hd ho hl => exact .inl ⟨ho, by rw [hd, hb]; rfl⟩
  | mintDst sg m au n d hop hw how hb hm hn e => subst e; exact .inl ⟨rfl, by rw [hb]; rfl⟩
  | mintMint sg d au n m hop hw how hb ha hsg hn e => subst e; exact .inl ⟨rfl, by rw [hb]; rfl⟩
  | burnSrc sg m au n s s' hop hw how hb hm hn hsp hsg e => subst e; exact .inl ⟨rfl, by rw [hb]; rfl⟩
  | burnMint sg m au n s hop hw how hb hn e => subst e; exact .inl ⟨rfl, by rw [hb]; rfl⟩
  | initAcc m o hop hw how hb e => subst e; exact .inl ⟨rfl, by rw [hb]; exact (zeros_length 165).symm⟩
  | initMint m o hop hw how hb e => subst e; exact .inl ⟨rfl, by rw [hb]; exact (zeros_length 82).symm⟩
  | sync t n hop hw how hb hn e => subst e; exact .inl ⟨rfl, by rw [hb]; rfl⟩

/-- An instruction only creates accounts that satisfy `C` and only gives up accounts if `D`. -/
theorem created_of {env : Env} {ctx : Ctx} {W : Op → Prop} {D : Prop} {C : Account → Prop} {w w' : World} {k : Pubkey} (h : Ops env ctx W w w')
    (hC : ∀ a b : Account, b.owner = a.owner → b.data.len = a.data.len → C a → C b)
    (hclose : W (.close k) → D)
    (hcreate : ∀ f s n sp o (a : Account), W (.create f k s n sp o) → a.owner = o → a.data.len = sp → C a)
    (hfunded : ∀ p s f sp o (a : Account), W (.createFunded p s f k sp o) → a.owner = o → a.data.len = sp → C a)
    (ho : (w'.acc k).owner ≠ (w.acc k).owner) :
    (D ∧ (w'.acc k).owner = env.systemId) ∨ ((w.acc k).data.len = 0 ∧ C (w'.acc k)) := by
  have key := h.lift (R := fun x z => ((z.acc k).owner = (x.acc k).owner ∧ (z.acc k).data.len = (x.acc k).data.len) ∨
      (D ∧ (z.acc k).owner = env.systemId ∧ ((z.acc k).data.len = (x.acc k).data.len ∨ (x.acc k).data.len = 0)) ∨
      ((x.acc k).data.len = 0 ∧ C (z.acc k)))
    (fun _ => .inl ⟨rfl, rfl⟩)
    (fun x y z f g => by
      rcases g with ⟨g1, g2⟩ | ⟨gd, g1, g2⟩ | ⟨g1, g2⟩
      · rcases f with ⟨f1, f2⟩ | ⟨fd, f1, f2⟩ | ⟨f1, f2⟩
        · exact .inl ⟨g1.trans f1, g2.trans f2⟩
        · exact .inr (.inl ⟨fd, g1.trans f1, by rw [g2]; exact f2⟩)
        · exact .inr (.inr ⟨f1, hC _ _ g1 g2 f2⟩)
      · refine .inr (.inl ⟨gd, g1, ?_⟩)
        rcases f with ⟨f1, f2⟩ | ⟨fd, f1, f2⟩ | ⟨f1, f2⟩ <;> omega
      · refine .inr (.inr ⟨?_, g2⟩)
        rcases f with ⟨f1, f2⟩ | ⟨fd, f1, f2⟩ | ⟨f1, f2⟩ <;> omega)
    (fun op x z hW he => by
      rcases len_same (exec_ch he k) with h | ⟨rfl, h1, h2⟩ | ⟨f, s, n, sp, o, rfl, h1, h2, h3⟩ | ⟨p, s, f, sp, o, rfl, h1, h2, h3⟩
      · exact .inl h
      · exact .inr (.inl ⟨hclose hW, h1, .inl h2⟩)
      · exact .inr (.inr ⟨h1, hcreate _ _ _ _ _ _ hW h2 h3⟩)
      · exact .inr (.inr ⟨h1, hfunded _ _ _ _ _ _ hW h2 h3⟩))
  rcases key with ⟨h1, h2⟩ | ⟨hd, h1, -⟩ | h
  · exact absurd h1 ho
  · exact .inl ⟨hd, h1⟩
  · exact .inr h

/-- C83: an instruction of the token proxy changes the owner of an account only by closing a deposit or a withdrawal, or by creating, in an empty
account, something at its published address, with its published size and owner; apart from token accounts of recipients, which belong at the address
every wallet knows. -/
theorem C83_created {env : Env} {ctx : Ctx} {i : TP.Instr} {w w' : World} {k : Pubkey} (hp : ctx.program = env.tpId)
    (h : TP.run env ctx noCpi i w = .ok w') (ho : (w'.acc k).owner ≠ (w.acc k).owner) :
    ((i = .closeDeposit ∨ i = .closeWithdrawal) ∧ (w'.acc k).owner = env.systemId) ∨
    ((w.acc k).data.len = 0 ∧
      ((∃ r : TP.Role, IsAddr env env.tpId (r.parts env) k ∧ (w'.acc k).owner = r.owner env ∧ (w'.acc k).data.len = r.size) ∨
        ∃ owner mint, IsAddr env env.ataId [Wire.key owner, Wire.key env.splId, Wire.key mint] k ∧ (w'.acc k).owner = env.splId ∧
          (w'.acc k).data.len = 165)) := by
  refine created_of (C := fun a => (∃ r : TP.Role, IsAddr env env.tpId (r.parts env) k ∧ a.owner = r.owner env ∧ a.data.len = r.size) ∨
    ∃ owner mint, IsAddr env env.ataId [Wire.key owner, Wire.key env.splId, Wire.key mint] k ∧ a.owner = env.splId ∧ a.data.len = 165)
    (TP.run_ops h) ?_ ?_ ?_ ?_ ho
  · intro a b e1 e2 h
    rw [e1, e2]; exact h
  · intro hW
    cases hW with
    | closeDeposit _ _ _ _ _ hi => exact .inl hi
    | closeWithdrawal _ _ _ hi => exact .inr hi
  · intro f s n sp o a hW h1 h2
    cases hW with
    | create _ _ _ _ _ _ hs ha =>
      obtain ⟨r, rfl, rfl, rfl⟩ := slot_role hp hs
      exact .inl ⟨r, ⟨n, by rw [← hp]; exact ha⟩, h1, h2⟩
  · intro p s f sp o a hW h1 h2
    cases hW with
    | proxy _ _ m r n ha =>
      refine .inl ⟨.proxy m r, ⟨n, ?_⟩, h1, h2⟩
      rw [← hp, ← ha]
      simp only [TP.proxySeeds, seedKey, wire_key]; rfl
    | ata _ _ m r n ha =>
      refine .inr ⟨r, m, ⟨n, ?_⟩, h1, h2⟩
      rw [← ha]
      simp only [ataSeeds, wire_key]

/-- The vault of gold on the toy chain. -/
example : (TP.run Toy.env (Toy.depCtx 1) noCpi (.depositMultiTokenSol 1 (ascii "Gold") (ascii "GLD") 50000 Toy.home 7 0 []) (Toy.get Toy.tpInit) =
      .ok (Toy.get Toy.tpDeposited)) ∧
    ((Toy.get Toy.tpDeposited).acc Toy.tpVault).owner ≠ ((Toy.get Toy.tpInit).acc Toy.tpVault).owner :=
  ⟨Toy.get_tp (a := Toy.tpInit) (c := Toy.depCtx 1) (i := .depositMultiTokenSol 1 (ascii "Gold") (ascii "GLD") 50000 Toy.home 7 0 [])
    (by decide +kernel), by decide +kernel⟩

/-- C83: an instruction of the round loader changes the owner of an account only by creating a record, in an empty account, at its published address
and with its published size. -/
theorem C83_created_rl {env : Env} {ctx : Ctx} {i : RL.Instr} {w w' : World} {k : Pubkey} (h : RL.run env ctx i w = .ok w')
    (ho : (w'.acc k).owner ≠ (w.acc k).owner) :
    (w.acc k).data.len = 0 ∧
      ∃ r : RL.Role, IsAddr env ctx.program r.parts k ∧ (w'.acc k).owner = ctx.program ∧ (w'.acc k).data.len = r.size := by
  have := created_of (D := False) (C := fun a => ∃ r : RL.Role, IsAddr env ctx.program r.parts k ∧ a.owner = ctx.program ∧ a.data.len = r.size)
    (RL.run_ops h) ?_ ?_ ?_ ?_ ho
  · rcases this with ⟨h, -⟩ | h
    · exact h.elim
    · exact h
  · intro a b e1 e2 h
    rw [e1, e2]; exact h
  · intro hW
    cases hW
  · intro f s n sp o a hW h1 h2
    cases hW with
    | createSettings _ _ _ _ _ _ _ _ ha => exact ⟨.settings, ⟨n, ha⟩, h1, h2⟩
    | createRound _ _ _ num ha =>
      exact ⟨.round num, ⟨n, by rw [← ha]; simp only [relayRoundSeeds, seedU32, wire_u32]; rfl⟩, h1, h2⟩
    | createProposal _ _ _ r p d _ ha =>
      exact ⟨.proposal r p d, ⟨n, by rw [← ha]; simp only [proposalSeeds, seedU32, seedU64, seedKey, wire_u32, wire_u64, wire_key]; rfl⟩, h1, h2⟩
  · intro p s f sp o a hW h1 h2
    cases hW

end Verif.Props
