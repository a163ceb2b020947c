import Verif.Base.Bytes
/-!
# Borsh codecs

A `Codec` bundles an encoder, a prefix decoder, the set of encodable values and the proof that the two are
inverse to each other: decoding succeeds with `(a, r)` exactly if the input is the encoding of `a` followed by `r`.
Combinators mirror `#[derive(BorshSerialize, BorshDeserialize)]`.
-/
namespace Verif

/-- `BorshSerialize` and `BorshDeserialize` of a type, as used in `bridge-derive/src/lib.rs:24-39`. -/
structure Codec (α : Type) where
  /-- `BorshSerialize::try_to_vec` -/
  enc : α → Bytes
  /-- `BorshDeserialize::deserialize`: value and unread rest, `none` on error -/
  dec : Bytes → Option (α × Bytes)
  /-- values that can be serialized (`Vec` length below `2^32`, `String`s valid UTF-8) -/
  wf : α → Bool
  law : ∀ bs a r, dec bs = some (a, r) ↔ (wf a = true ∧ bs = enc a ++ r)

namespace Codec
variable {α β γ : Type}

theorem dec_enc (c : Codec α) (a : α) (r : Bytes) (h : c.wf a = true) :
    c.dec (c.enc a ++ r) = some (a, r) := (c.law _ _ _).2 ⟨h, rfl⟩

theorem dec_enc_nil (c : Codec α) (a : α) (h : c.wf a = true) :
    c.dec (c.enc a) = some (a, []) := by simpa using c.dec_enc a [] h

theorem wf_of_dec (c : Codec α) {bs : Bytes} {a : α} {r : Bytes} (h : c.dec bs = some (a, r)) :
    c.wf a = true := ((c.law _ _ _).1 h).1

theorem eq_of_dec (c : Codec α) {bs : Bytes} {a : α} {r : Bytes} (h : c.dec bs = some (a, r)) :
    bs = c.enc a ++ r := ((c.law _ _ _).1 h).2

/-- Encodings are injective and prefix free. -/
theorem enc_inj (c : Codec α) {a b : α} {r s : Bytes} (ha : c.wf a = true) (hb : c.wf b = true)
    (h : c.enc a ++ r = c.enc b ++ s) : a = b ∧ r = s := by
  have h1 := c.dec_enc a r ha
  have h2 := c.dec_enc b s hb
  rw [h, h2] at h1
  simpa [eq_comm] using h1

/-- `try_from_slice`: decode and require that all bytes are consumed. Used in `round-loader/src/processor.rs:26`. -/
def decAll (c : Codec α) (bs : Bytes) : Option α :=
  match c.dec bs with
  | some (a, []) => some a
  | _ => none

theorem decAll_iff (c : Codec α) (bs : Bytes) (a : α) :
    c.decAll bs = some a ↔ c.wf a = true ∧ bs = c.enc a := by
  have h := c.law bs a []
  simp only [List.append_nil] at h
  rw [← h]
  unfold decAll
  split
  · rename_i a' heq; simp [heq]
  · rename_i hne
    constructor
    · intro h'; cases h'
    · intro h'; exact absurd h' (hne a)

theorem decAll_enc (c : Codec α) (a : α) (h : c.wf a = true) : c.decAll (c.enc a) = some a :=
  (c.decAll_iff _ _).2 ⟨h, rfl⟩

/-! ## Fixed-width integers -/

/-- Fixed-width little-endian integer of `n` bytes. Used in `round-loader/src/state.rs:37-46`. -/
def uint (w n : Nat) (h : w = 8 * n) : Codec (BitVec w) where
  enc x := leEnc n x.toNat
  dec bs := if n ≤ bs.length then some (BitVec.ofNat w (leDec (bs.take n)), bs.drop n) else none
  wf _ := true
  law bs a r := by
    subst h
    constructor
    · intro h
      split at h
      · rename_i hn
        simp only [Option.some.injEq, Prod.mk.injEq] at h
        obtain ⟨h1, h2⟩ := h
        refine ⟨rfl, ?_⟩
        have hl : (bs.take n).length = n := by simp [hn]
        have hlt := leDec_lt (bs.take n)
        rw [hl, pow256] at hlt
        rw [← h1, BitVec.toNat_ofNat, Nat.mod_eq_of_lt hlt]
        have h3 := leEnc_leDec (bs.take n)
        rw [hl] at h3
        rw [h3, ← h2, List.take_append_drop]
      · cases h
    · rintro ⟨-, rfl⟩
      have hl : n ≤ (leEnc n a.toNat ++ r).length := by simp
      rw [if_pos hl]
      have h1 : (leEnc n a.toNat ++ r).take n = leEnc n a.toNat :=
        List.take_left' (leEnc_length _ _)
      have h2 : (leEnc n a.toNat ++ r).drop n = r := List.drop_left' (leEnc_length _ _)
      rw [h1, h2, leDec_leEnc, pow256, Nat.mod_eq_of_lt a.isLt]
      simp

/-- Borsh of `u8`, as used in `bridge-utils/src/state.rs:54-62`. -/
def u8 : Codec U8 := uint 8 1 rfl
/-- Borsh of `u32`, as used in `round-loader/src/state.rs:37-46`. -/
def u32 : Codec U32 := uint 32 4 rfl
/-- Borsh of `u64`, as used in `token-proxy/src/state.rs:91-108`. -/
def u64 : Codec U64 := uint 64 8 rfl
/-- Borsh of `u128`, as used in `token-proxy/src/state.rs:166-177`. -/
def u128 : Codec U128 := uint 128 16 rfl
/-- Borsh of `i64`, as used in `token-proxy/src/state.rs:418-423`. -/
def i64 : Codec I64 := uint 64 8 rfl
/-- Borsh of `Pubkey`, `Hash`, `[u8; 32]`, as used in `round-loader/src/state.rs:56-64`. -/
def key : Codec Pubkey := uint 256 32 rfl

@[simp] theorem wf_uint {w n h} (x : BitVec w) : (uint w n h).wf x = true := rfl
@[simp] theorem wf_u8 (x) : u8.wf x = true := rfl
@[simp] theorem wf_u32 (x) : u32.wf x = true := rfl
@[simp] theorem wf_u64 (x) : u64.wf x = true := rfl
@[simp] theorem wf_u128 (x) : u128.wf x = true := rfl
@[simp] theorem wf_i64 (x) : i64.wf x = true := rfl
@[simp] theorem wf_key (x) : key.wf x = true := rfl

@[simp] theorem len_u8 (x) : (u8.enc x).length = 1 := leEnc_length _ _
@[simp] theorem len_u32 (x) : (u32.enc x).length = 4 := leEnc_length _ _
@[simp] theorem len_u64 (x) : (u64.enc x).length = 8 := leEnc_length _ _
@[simp] theorem len_u128 (x) : (u128.enc x).length = 16 := leEnc_length _ _
@[simp] theorem len_i64 (x) : (i64.enc x).length = 8 := leEnc_length _ _
@[simp] theorem len_key (x) : (key.enc x).length = 32 := leEnc_length _ _

@[simp] theorem enc_u8 (x : U8) : u8.enc x = [x] := by
  simp [u8, uint, leEnc]

/-! ## Structs -/

/-- Nothing (unit payload). Used in `token-proxy/src/instruction.rs:8-347`. -/
def unit : Codec Unit where
  enc _ := []
  dec bs := some ((), bs)
  wf _ := true
  law bs a r := by simp

@[simp] theorem wf_unit (x) : unit.wf x = true := rfl
@[simp] theorem enc_unit (x) : unit.enc x = [] := rfl

/-- Two consecutive fields. Used in `round-loader/src/state.rs:37-46`. -/
def pair (c : Codec α) (d : Codec β) : Codec (α × β) where
  enc x := c.enc x.1 ++ d.enc x.2
  dec bs :=
    match c.dec bs with
    | none => none
    | some (a, r) =>
      match d.dec r with
      | none => none
      | some (b, r') => some ((a, b), r')
  wf x := c.wf x.1 && d.wf x.2
  law bs x r := by
    obtain ⟨a, b⟩ := x
    constructor
    · intro h
      split at h
      · cases h
      · rename_i a' r' h1
        split at h
        · cases h
        · rename_i b' r'' h2
          simp only [Option.some.injEq, Prod.mk.injEq] at h
          obtain ⟨⟨rfl, rfl⟩, rfl⟩ := h
          obtain ⟨w1, e1⟩ := (c.law _ _ _).1 h1
          obtain ⟨w2, e2⟩ := (d.law _ _ _).1 h2
          simp [w1, w2, e1, e2]
    · rintro ⟨hw, rfl⟩
      simp only [Bool.and_eq_true] at hw
      simp only [List.append_assoc]
      rw [c.dec_enc _ _ hw.1]
      simp only
      rw [d.dec_enc _ _ hw.2]

@[simp] theorem wf_pair (c : Codec α) (d : Codec β) (x : α × β) :
    (pair c d).wf x = (c.wf x.1 && d.wf x.2) := rfl
@[simp] theorem enc_pair (c : Codec α) (d : Codec β) (x : α × β) :
    (pair c d).enc x = c.enc x.1 ++ d.enc x.2 := rfl

/-- Rename a tuple into a struct. Used in `round-loader/src/state.rs:37-46`. -/
def iso (c : Codec α) (f : α → β) (g : β → α) (fg : ∀ b, f (g b) = b) (gf : ∀ a, g (f a) = a) :
    Codec β where
  enc b := c.enc (g b)
  dec bs :=
    match c.dec bs with
    | none => none
    | some (a, r) => some (f a, r)
  wf b := c.wf (g b)
  law bs b r := by
    constructor
    · intro h
      split at h
      · cases h
      · rename_i a r' h1
        simp only [Option.some.injEq, Prod.mk.injEq] at h
        obtain ⟨rfl, rfl⟩ := h
        rw [gf]
        exact (c.law _ _ _).1 h1
    · rintro ⟨hw, rfl⟩
      rw [c.dec_enc _ _ hw]
      simp [fg]

@[simp] theorem wf_iso (c : Codec α) (f : α → β) (g : β → α) (fg gf) (b : β) :
    (iso c f g fg gf).wf b = c.wf (g b) := rfl
@[simp] theorem enc_iso (c : Codec α) (f : α → β) (g : β → α) (fg gf) (b : β) :
    (iso c f g fg gf).enc b = c.enc (g b) := rfl

/-- One field whose type refines `α`: values outside the image of `f` are never produced or accepted. Used in `token-proxy/src/state.rs:461-472`. -/
def prism (c : Codec α) (f : α → β) (g : β → Option α) (h : ∀ a b, g b = some a ↔ f a = b) :
    Codec β where
  enc b := match g b with
    | none => []
    | some a => c.enc a
  dec bs :=
    match c.dec bs with
    | none => none
    | some (a, r) => some (f a, r)
  wf b := match g b with
    | none => false
    | some a => c.wf a
  law bs b r := by
    constructor
    · intro hd
      split at hd
      · cases hd
      · rename_i a r' h1
        simp only [Option.some.injEq, Prod.mk.injEq] at hd
        obtain ⟨rfl, rfl⟩ := hd
        rw [(h a (f a)).2 rfl]
        exact (c.law _ _ _).1 h1
    · rintro ⟨hw, rfl⟩
      split at hw
      · cases hw
      · rename_i a hg
        rw [c.dec_enc _ _ hw]
        simp [(h a b).1 hg]

/-! ## Booleans, options, enums, vectors, strings -/

/-- `bool`: one byte 0 or 1. Used in `round-loader/src/state.rs:37-46`. -/
def bool : Codec Bool where
  enc b := [if b then 1#8 else 0#8]
  dec
    | [] => none
    | x :: r => if x = 0#8 then some (false, r) else if x = 1#8 then some (true, r) else none
  wf _ := true
  law bs b r := by
    cases bs with
    | nil => simp
    | cons x xs =>
      cases b
      · by_cases h0 : x = 0#8
        · simp [h0]
        · by_cases h1 : x = 1#8 <;> simp [h0, h1]
      · by_cases h0 : x = 0#8
        · simp [h0]
        · by_cases h1 : x = 1#8 <;> simp [h1, h0]

@[simp] theorem wf_bool (b) : bool.wf b = true := rfl
@[simp] theorem len_bool (b) : (bool.enc b).length = 1 := rfl

/-- `Option<T>`: tag byte 0 or 1. Used in `round-loader/src/instruction.rs:6-105`. -/
def option (c : Codec α) : Codec (Option α) where
  enc
    | none => [0#8]
    | some a => 1#8 :: c.enc a
  dec
    | [] => none
    | x :: r =>
      if x = 0#8 then some (none, r)
      else if x = 1#8 then
        match c.dec r with
        | none => none
        | some (a, r') => some (some a, r')
      else none
  wf
    | none => true
    | some a => c.wf a
  law bs b r := by
    cases bs with
    | nil => cases b <;> simp
    | cons x xs =>
      simp only
      by_cases h0 : x = 0#8
      · cases b <;> simp [h0]
      · by_cases h1 : x = 1#8
        · cases b with
          | none => simp only [h1]; cases h : c.dec xs <;> simp
          | some a =>
            have hl := c.law xs a r
            simp only [h1]
            cases h : c.dec xs with
            | none => rw [h] at hl; simpa using hl
            | some p => rw [h] at hl; simpa [Prod.ext_iff] using hl
        · cases b <;> simp [h0, h1]

@[simp] theorem wf_option_none (c : Codec α) : (option c).wf none = true := rfl
@[simp] theorem wf_option_some (c : Codec α) (a : α) : (option c).wf (some a) = c.wf a := rfl
@[simp] theorem enc_option_none (c : Codec α) : (option c).enc none = [0#8] := rfl
@[simp] theorem enc_option_some (c : Codec α) (a : α) : (option c).enc (some a) = 1#8 :: c.enc a := rfl

/-- Enum: a one-byte variant index followed by the payload of that variant.
`cs[i]` is the codec of the values of variant `i` and `tag` the variant of a value. Used in `token-proxy/src/state.rs:461-472`. -/
def enum (tag : α → Nat) (cs : List (Codec α)) (hlen : cs.length ≤ 256)
    (htag : ∀ i c a, cs[i]? = some c → c.wf a = true → tag a = i) : Codec α where
  enc a :=
    match cs[tag a]? with
    | none => []
    | some c => BitVec.ofNat 8 (tag a) :: c.enc a
  dec
    | [] => none
    | x :: r =>
      match cs[x.toNat]? with
      | none => none
      | some c => c.dec r
  wf a :=
    match cs[tag a]? with
    | none => false
    | some c => c.wf a
  law bs a r := by
    constructor
    · intro h
      cases bs with
      | nil => cases h
      | cons x xs =>
        simp only at h
        split at h
        · cases h
        · rename_i c hc
          obtain ⟨hw, rfl⟩ := (c.law _ _ _).1 h
          have ht := htag _ _ _ hc hw
          rw [ht, hc]
          simp [hw]
    · rintro ⟨hw, rfl⟩
      split at hw
      · cases hw
      · rename_i c hc
        have hlt : tag a < 256 := by
          have := (List.getElem?_eq_some_iff.1 hc).1
          omega
        simp only [List.cons_append]
        have : (BitVec.ofNat 8 (tag a)).toNat = tag a := by simp; omega
        rw [this, hc]
        exact c.dec_enc _ _ hw

/-- Values of a variant codec carry the tag of that variant. -/
theorem prism_tag {c : Codec α} {f : α → β} {g : β → Option α} {h} {tag : β → Nat} {i : Nat}
    (ht : ∀ a, tag (f a) = i) {b : β} (hw : (prism c f g h).wf b = true) : tag b = i := by
  simp only [prism] at hw
  split at hw
  · cases hw
  · rename_i a hg
    rw [← (h a b).1 hg, ht]

/-- Decode exactly `n` consecutive values. Used in `round-loader/src/state.rs:56-64`. -/
def decN (c : Codec α) : Nat → Bytes → Option (List α × Bytes)
  | 0, bs => some ([], bs)
  | n + 1, bs =>
    match c.dec bs with
    | none => none
    | some (a, r) =>
      match decN c n r with
      | none => none
      | some (l, r') => some (a :: l, r')

/-- Concatenated encodings. Used in `round-loader/src/state.rs:56-64`. -/
def encAll (c : Codec α) : List α → Bytes
  | [] => []
  | a :: l => c.enc a ++ encAll c l

theorem decN_law (c : Codec α) (n : Nat) (bs : Bytes) (l : List α) (r : Bytes) :
    decN c n bs = some (l, r) ↔ (l.length = n ∧ l.all c.wf = true ∧ bs = encAll c l ++ r) := by
  induction n generalizing bs l r with
  | zero =>
    cases l with
    | nil => simp [decN, encAll]
    | cons a l => simp [decN]
  | succ n ih =>
    constructor
    · intro h
      simp only [decN] at h
      split at h
      · cases h
      · rename_i a r1 h1
        split at h
        · cases h
        · rename_i l' r2 h2
          simp only [Option.some.injEq, Prod.mk.injEq] at h
          obtain ⟨rfl, rfl⟩ := h
          obtain ⟨hl, hw, rfl⟩ := (ih _ _ _).1 h2
          obtain ⟨hwa, rfl⟩ := (c.law _ _ _).1 h1
          simp only [List.all_eq_true] at hw
          simpa [hl, hwa, encAll] using hw
    · rintro ⟨hl, hw, rfl⟩
      cases l with
      | nil => cases hl
      | cons a l =>
        simp only [List.length_cons, Nat.add_right_cancel_iff] at hl
        simp only [List.all_cons, Bool.and_eq_true] at hw
        have h2 := (ih (encAll c l ++ r) l r).2 ⟨hl, hw.2, rfl⟩
        simp only [decN, encAll, List.append_assoc]
        rw [c.dec_enc _ _ hw.1]
        simp only
        rw [h2]

/-- `Vec<T>`: `u32` length, then the elements. Used in `round-loader/src/state.rs:56-86`. -/
def vec (c : Codec α) : Codec (List α) where
  enc l := u32.enc (BitVec.ofNat 32 l.length) ++ encAll c l
  dec bs :=
    match u32.dec bs with
    | none => none
    | some (n, r) => decN c n.toNat r
  wf l := decide (l.length < 2 ^ 32) && l.all c.wf
  law bs l r := by
    constructor
    · intro h
      split at h
      · cases h
      · rename_i n r' h1
        obtain ⟨-, rfl⟩ := (u32.law _ _ _).1 h1
        obtain ⟨hl, hw, rfl⟩ := (decN_law c _ _ _ _).1 h
        have := n.isLt
        refine ⟨by simp only [Bool.and_eq_true, decide_eq_true_eq, hw, and_true]; omega, ?_⟩
        rw [hl]; simp
    · rintro ⟨hw, rfl⟩
      simp only [Bool.and_eq_true, decide_eq_true_eq] at hw
      simp only [List.append_assoc]
      rw [u32.dec_enc _ _ rfl]
      simp only
      have : (BitVec.ofNat 32 l.length).toNat = l.length := by
        rw [BitVec.toNat_ofNat, Nat.mod_eq_of_lt hw.1]
      rw [this]
      exact (decN_law c _ _ _ _).2 ⟨rfl, hw.2, rfl⟩

@[simp] theorem wf_vec (c : Codec α) (l : List α) :
    (vec c).wf l = (decide (l.length < 2 ^ 32) && l.all c.wf) := rfl

theorem encAll_length (c : Codec α) (k : Nat) (hk : ∀ a, (c.enc a).length = k) (l : List α) :
    (encAll c l).length = k * l.length := by
  induction l with
  | nil => simp [encAll]
  | cons a l ih => simp [encAll, ih, hk, Nat.mul_add]; omega

@[simp] theorem encAll_u8 (l : Bytes) : encAll u8 l = l := by
  induction l with
  | nil => rfl
  | cons a l ih => simp [encAll, ih]

theorem encAll_append (c : Codec α) (l m : List α) : encAll c (l ++ m) = encAll c l ++ encAll c m := by
  induction l with
  | nil => rfl
  | cons a l ih => simp [encAll, ih]

/-- `Vec<u8>`. Used in `token-proxy/src/state.rs:390-396`. -/
def bytes : Codec Bytes := vec u8

@[simp] theorem wf_bytes (l : Bytes) : bytes.wf l = decide (l.length < 2 ^ 32) := by
  simp [bytes, vec, u8]

@[simp] theorem len_bytes (l : Bytes) : (bytes.enc l).length = 4 + l.length := by
  simp [bytes, vec]

/-- UTF-8 well-formedness (RFC 3629, as `std::str::from_utf8`), by a finite-state machine:
`need` continuation bytes are still expected and the next one must be in `[lo, hi]`. Used in `token-proxy/src/state.rs:91-108`. -/
def utf8Go : Nat → Nat → Nat → Bytes → Bool
  | 0, _, _, [] => true
  | _ + 1, _, _, [] => false
  | 0, _, _, b :: bs =>
    let x := b.toNat
    if x < 0x80 then utf8Go 0 0x80 0xBF bs
    else if 0xC2 ≤ x ∧ x ≤ 0xDF then utf8Go 1 0x80 0xBF bs
    else if x = 0xE0 then utf8Go 2 0xA0 0xBF bs
    else if x = 0xED then utf8Go 2 0x80 0x9F bs
    else if 0xE1 ≤ x ∧ x ≤ 0xEF then utf8Go 2 0x80 0xBF bs
    else if x = 0xF0 then utf8Go 3 0x90 0xBF bs
    else if 0xF1 ≤ x ∧ x ≤ 0xF3 then utf8Go 3 0x80 0xBF bs
    else if x = 0xF4 then utf8Go 3 0x80 0x8F bs
    else false
  | n + 1, lo, hi, b :: bs =>
    if lo ≤ b.toNat ∧ b.toNat ≤ hi then utf8Go n 0x80 0xBF bs else false

/-- The bytes of a valid Rust `String`. Used in `token-proxy/src/state.rs:91-108`. -/
def validUtf8 (bs : Bytes) : Bool := utf8Go 0 0x80 0xBF bs

/-- Restrict a codec to values passing a test (decoder error otherwise). Used in `token-proxy/src/state.rs:91-108`. -/
def guard (c : Codec α) (p : α → Bool) : Codec α where
  enc := c.enc
  dec bs :=
    match c.dec bs with
    | none => none
    | some (a, r) => if p a then some (a, r) else none
  wf a := c.wf a && p a
  law bs a r := by
    constructor
    · intro h
      split at h
      · cases h
      · rename_i a' r' h1
        split at h
        · rename_i hp
          simp only [Option.some.injEq, Prod.mk.injEq] at h
          obtain ⟨rfl, rfl⟩ := h
          obtain ⟨hw, he⟩ := (c.law _ _ _).1 h1
          simp [hw, hp, he]
        · cases h
    · rintro ⟨hw, rfl⟩
      simp only [Bool.and_eq_true] at hw
      rw [c.dec_enc _ _ hw.1]
      simp [hw.2]

@[simp] theorem enc_guard (c : Codec α) (p) (a : α) : (guard c p).enc a = c.enc a := rfl
@[simp] theorem wf_guard (c : Codec α) (p) (a : α) : (guard c p).wf a = (c.wf a && p a) := rfl

/-- `String`, kept as its UTF-8 bytes. Used in `token-proxy/src/state.rs:91-108`. -/
def str : Codec Bytes := guard bytes validUtf8

@[simp] theorem wf_str (l : Bytes) : str.wf l = (decide (l.length < 2 ^ 32) && validUtf8 l) := by
  simp [str]
@[simp] theorem len_str (l : Bytes) : (str.enc l).length = 4 + l.length := by
  simp [str]

end Codec
end Verif
