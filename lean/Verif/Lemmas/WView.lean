import Verif.Lemmas.TPBack
import Verif.Lemmas.TPFx
import Verif.Props.Encoding
/-!
# Typed and generic views of a withdrawal record
-/
namespace Verif.TP
open Codec Verif

variable {env : Env} {L : Pubkey → Prop} {ctx : Ctx} {w w' w0 : World} {k : Pubkey} {i : Instr}

/-- The length fields are those the token proxy writes. -/
def Exact {E : Type} (ec : Codec E) (x : Withdrawal E) : Prop :=
  x.eventLen.toNat = (ec.enc x.event).length ∧ x.metaLen = 17#32

theorem Exact.view {E : Type} {ec : Codec E} {x : Withdrawal E} (h : Exact ec x) (hw : (withdrawalC ec).wf x = true) (r : Bytes) :
    GenericProposal.codec.dec ((withdrawalC ec).enc x ++ r) = some (x.view ec, r) := by
  have hlt : (ec.enc x.event).length < 2 ^ 32 := by rw [← h.1]; exact x.eventLen.isLt
  exact Props.C45_withdrawal ec x r hw hlt (by rw [← h.1]; simp) h.2

/-- Both views of the same bytes agree up to the event. -/
theorem views_start {E : Type} {ec : Codec E} {b r r' : Bytes} {x : Withdrawal E} {p : GenericProposal}
    (hx : (withdrawalC ec).dec b = some (x, r)) (hp : GenericProposal.codec.dec b = some (p, r')) :
    p.isInitialized = x.isInitialized ∧ p.accountKind = x.accountKind ∧ p.author = x.author ∧ p.roundNumber = x.roundNumber ∧
    p.requiredVotes = x.requiredVotes ∧ p.pda = x.pda ∧ x.eventLen.toNat = p.event.length ∧
    p.event ++ (bytes.enc p.metaData ++ ((vec voteC).enc p.signers ++ r')) =
      ec.enc x.event ++ (u32.enc x.metaLen ++ (wmetaC.enc x.md ++ ((vec voteC).enc x.signers ++ r))) := by
  obtain ⟨hw, hb⟩ := ((withdrawalC ec).law _ _ _).1 hx
  obtain ⟨hw', hb'⟩ := (GenericProposal.codec.law _ _ _).1 hp
  rw [hb] at hb'
  simp only [withdrawalC, GenericProposal.codec, enc_iso, enc_pair, wf_iso, wf_pair, Bool.and_eq_true, List.append_assoc] at hb' hw hw'
  obtain ⟨h1, h2, h3, h4, h5, h6, h7, h8, h9, h10, h11⟩ := hw
  obtain ⟨g1, g2, g3, g4, g5, g6, g7, g8, g9⟩ := hw'
  obtain ⟨e1, hb'⟩ := Codec.enc_inj _ h1 g1 hb'
  obtain ⟨e2, hb'⟩ := Codec.enc_inj _ h2 g2 hb'
  obtain ⟨e3, hb'⟩ := Codec.enc_inj _ h3 g3 hb'
  obtain ⟨e4, hb'⟩ := Codec.enc_inj _ h4 g4 hb'
  obtain ⟨e5, hb'⟩ := Codec.enc_inj _ h5 g5 hb'
  obtain ⟨e6, hb'⟩ := Codec.enc_inj _ h6 g6 hb'
  simp only [wf_bytes, decide_eq_true_eq] at g7
  have hn : (BitVec.ofNat 32 p.event.length : U32).toNat = p.event.length := by simp [Nat.mod_eq_of_lt g7]
  rw [Props.bytes_enc_eq _ _ hn, List.append_assoc] at hb'
  obtain ⟨e7, hb'⟩ := Codec.enc_inj u32 h7 rfl hb'
  exact ⟨e1.symm, e2.symm, e3.symm, e4.symm, e5.symm, e6.symm, by rw [e7, hn], hb'.symm⟩

/-- If the event bytes agree and the meta data can be read, the generic view is that of the typed record. -/
theorem views_agree {E : Type} {ec : Codec E} {b r r' : Bytes} {x : Withdrawal E} {p : GenericProposal} {md : WMeta}
    (hx : (withdrawalC ec).dec b = some (x, r)) (hp : GenericProposal.codec.dec b = some (p, r'))
    (hm : wmetaC.decAll p.metaData = some md) (he : ec.enc x.event = p.event) :
    p = x.view ec ∧ md = x.md ∧ Exact ec x := by
  obtain ⟨e1, e2, e3, e4, e5, e6, e7, hb⟩ := views_start hx hp
  rw [he] at hb
  have hb := List.append_cancel_left hb
  obtain ⟨hmw, hme⟩ := (wmetaC.decAll_iff _ _).1 hm
  obtain ⟨hw, -⟩ := ((withdrawalC ec).law _ _ _).1 hx
  obtain ⟨hw', -⟩ := (GenericProposal.codec.law _ _ _).1 hp
  simp only [withdrawalC, GenericProposal.codec, wf_iso, wf_pair, Bool.and_eq_true] at hw hw'
  obtain ⟨h1, h2, h3, h4, h5, h6, h7, h8, h9, h10, h11⟩ := hw
  obtain ⟨g1, g2, g3, g4, g5, g6, g7, g8, g9⟩ := hw'
  have hn : (17#32 : U32).toNat = p.metaData.length := by rw [hme, Props.len_wmeta]; rfl
  rw [Props.bytes_enc_eq _ _ hn, List.append_assoc] at hb
  obtain ⟨e8, hb⟩ := Codec.enc_inj u32 rfl h9 hb
  rw [hme] at hb
  obtain ⟨e9, hb⟩ := Codec.enc_inj wmetaC hmw h10 hb
  obtain ⟨e10, -⟩ := Codec.enc_inj (vec voteC) g9 h11 hb
  refine ⟨?_, e9, by rw [he]; exact e7, e8.symm⟩
  cases p
  simp only at e1 e2 e3 e4 e5 e6 e10 he hme
  simp only [Withdrawal.view, e1, e2, e3, e4, e5, e6, he, hme, e9, e10]

/-- With one possible reading, any typed view has the event of the generic view. -/
theorem OneReading.ever {b r r' : Bytes} {x : Withdrawal WEverEvent} {p : GenericProposal} (h : OneReading p.event)
    (hl : b.length = recLen) (hx : (withdrawalC wEverEventC).dec b = some (x, r)) (hp : GenericProposal.codec.dec b = some (p, r')) :
    wEverEventC.enc x.event = p.event := by
  obtain ⟨-, -, -, -, -, -, -, hb⟩ := views_start hx hp
  obtain ⟨hw, -⟩ := ((withdrawalC wEverEventC).law _ _ _).1 hx
  simp only [withdrawalC, wf_iso, wf_pair, Bool.and_eq_true] at hw
  refine h.1 _ x.event _ ?_ (by rw [hb]; exact wEverEventC.dec_enc _ _ hw.2.2.2.2.2.2.2.1)
  have := GenericProposal.codec.eq_of_dec hp
  have := congrArg List.length this
  simp only [GenericProposal.codec, enc_iso, enc_pair, List.length_append, hl] at this
  simp only [List.length_append]
  omega

theorem OneReading.sol {b r r' : Bytes} {x : Withdrawal WSolEvent} {p : GenericProposal} (h : OneReading p.event)
    (hl : b.length = recLen) (hx : (withdrawalC wSolEventC).dec b = some (x, r)) (hp : GenericProposal.codec.dec b = some (p, r')) :
    wSolEventC.enc x.event = p.event := by
  obtain ⟨-, -, -, -, -, -, -, hb⟩ := views_start hx hp
  obtain ⟨hw, -⟩ := ((withdrawalC wSolEventC).law _ _ _).1 hx
  simp only [withdrawalC, wf_iso, wf_pair, Bool.and_eq_true] at hw
  refine h.2 _ x.event _ ?_ (by rw [hb]; exact wSolEventC.dec_enc _ _ hw.2.2.2.2.2.2.2.1)
  have := GenericProposal.codec.eq_of_dec hp
  have := congrArg List.length this
  simp only [GenericProposal.codec, enc_iso, enc_pair, List.length_append, hl] at this
  simp only [List.length_append]
  omega

/-- The bytes of a withdrawal record. -/
def WBytes (p : GenericProposal) (md : WMeta) (b : Bytes) : Prop :=
  b.length = recLen ∧ (∃ r, GenericProposal.codec.dec b = some (p, r)) ∧ p.isInitialized = true ∧
    (∃ n pn, p.accountKind = .proposal n pn) ∧ wmetaC.decAll p.metaData = some md

theorem withdrawalAt_bytes {p : GenericProposal} {md : WMeta} :
    WithdrawalAt env w k p md ↔ Bytes' env (WBytes p md) (w.acc k) := by
  constructor
  · rintro ⟨h1, ⟨b, r, hb, hl, hdec⟩, h3, h4, h5⟩
    exact ⟨h1, b, hb, hl, ⟨r, hdec⟩, h3, h4, h5⟩
  · rintro ⟨h1, b, hb, hl, ⟨r, hdec⟩, h3, h4, h5⟩
    exact ⟨h1, ⟨b, r, hb, hl, hdec⟩, h3, h4, h5⟩

theorem wbytes_zeros (p : GenericProposal) (md : WMeta) (n : Nat) : ¬ WBytes p md (zeros n) := by
  rintro ⟨-, ⟨r, hdec⟩, hi, -⟩
  obtain ⟨q, hq⟩ := header_genericProposal hdec
  have := zeros_any hq
  rw [hi] at this
  cases this

theorem WithdrawalAt.unique {p p' : GenericProposal} {md md' : WMeta} (h : WithdrawalAt env w k p md)
    (h' : WithdrawalAt env w k p' md') : p = p' ∧ md = md' := by
  have e := h.2.1.unique h'.2.1
  subst e
  have h1 := h.2.2.2.2
  rw [h'.2.2.2.2] at h1
  cases h1
  exact ⟨rfl, rfl⟩

theorem WithdrawalAt.congr {p : GenericProposal} {md : WMeta} (h : WithdrawalAt env w k p md)
    (ho : (w'.acc k).owner = (w.acc k).owner) (hd : (w'.acc k).data = (w.acc k).data) : WithdrawalAt env w' k p md := by
  refine ⟨ho.trans h.1, ?_, h.2.2⟩
  have := h.2.1
  unfold Holds at this ⊢
  rw [hd]; exact this

theorem WithdrawalAt.marked {p : GenericProposal} {md : WMeta} (h : WithdrawalAt env w k p md) :
    Marked env (w.acc k) p.accountKind := by
  obtain ⟨h1, ⟨b, r, hb, -, hdec⟩, h3, -⟩ := h
  obtain ⟨q, hq⟩ := header_genericProposal hdec
  rw [h3] at hq
  exact ⟨h1, b, q, hb, hq⟩

/-- A typed record written over exact bytes. -/
theorem wbytes_write {E : Type} {ec : Codec E} {x' : Withdrawal E} {b b' : Bytes} (hl : b.length = recLen)
    (hs : Stored (withdrawalC ec) x' b b') (he : Exact ec x') (hi : x'.isInitialized = true)
    (hk : ∃ n pn, x'.accountKind = .proposal n pn) : WBytes (x'.view ec) x'.md b' := by
  refine ⟨hs.length.trans hl, ⟨b.drop ((withdrawalC ec).enc x').length, ?_⟩, hi, hk, ?_⟩
  · rw [hs.eq]; exact he.view hs.wf _
  · refine (wmetaC.decAll_iff _ _).2 ⟨?_, rfl⟩
    have := hs.wf
    simp only [withdrawalC, wf_iso, wf_pair, Bool.and_eq_true] at this
    exact this.2.2.2.2.2.2.2.2.2.1

theorem EverCh.exact {x x' : Withdrawal WEverEvent} (h : EverCh env ctx w0 x i x') :
    x'.event = x.event ∧ x'.eventLen = x.eventLen ∧ x'.metaLen = x.metaLen := by
  cases h <;> exact ⟨rfl, rfl, rfl⟩

theorem SolCh.exact {x x' : Withdrawal WSolEvent} (h : SolCh env ctx w0 x i x') :
    x'.event = x.event ∧ x'.eventLen = x.eventLen ∧ x'.metaLen = x.metaLen := by
  cases h <;> exact ⟨rfl, rfl, rfl⟩

end Verif.TP
