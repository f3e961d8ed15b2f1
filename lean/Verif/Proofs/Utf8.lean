import Verif.Model.Rust
/-! UTF-8 lemmas: decoding inverts encoding, and only encodings decode strictly. -/
namespace Scribe

@[simp] theorem enc_nil : enc [] = [] := rfl
@[simp] theorem enc_cons (c : Char) (t : Text) : enc (c :: t) = String.utf8EncodeChar c ++ enc t := by
  simp [enc]
@[simp] theorem enc_append (a b : Text) : enc (a ++ b) = enc a ++ enc b := by simp [enc]
@[simp] theorem blen_nil : blen [] = 0 := rfl
@[simp] theorem blen_append (a b : Text) : blen (a ++ b) = blen a + blen b := by simp [blen]
theorem blen_cons (c : Char) (t : Text) : blen (c :: t) = c.utf8Size + blen t := by simp [blen]
theorem length_enc (t : Text) : (enc t).length = blen t := rfl

theorem blen_pos {t : Text} (h : t ≠ []) : 0 < blen t := by
  cases t with
  | nil => exact absurd rfl h
  | cons c t => rw [blen_cons]; have := c.utf8Size_pos; omega

theorem blen_eq_zero {t : Text} : blen t = 0 ↔ t = [] := by
  constructor
  · intro h; by_cases ht : t = []
    · exact ht
    · have := blen_pos ht; omega
  · rintro rfl; rfl

theorem char_val_range (c : Char) : c.val.toNat < 0xD800 ∨ (0xDFFF < c.val.toNat ∧ c.val.toNat < 0x110000) := c.valid

theorem ofNat_of_eq (c : Char) (n : Nat) (h : n = c.val.toNat) : Char.ofNat n = c := by
  subst h; exact Char.ofNat_toNat c

theorem toNat_ofNat_of_valid {n : Nat} (h : n < 0xD800 ∨ (0xDFFF < n ∧ n < 0x110000)) :
    (Char.ofNat n).val.toNat = n := by
  have hv : n.isValidChar := h
  unfold Char.ofNat
  rw [dif_pos hv]
  simp [Char.ofNatAux]

/-- Decoding the first character of an encoding. -/
theorem decode1_enc (c : Char) (rest : Bytes) :
    ∃ b bs, String.utf8EncodeChar c = b :: bs ∧
      decode1 b.toNat (bs ++ rest) = .char c (bs.length + 1) := by
  have hv := char_val_range c
  unfold String.utf8EncodeChar
  simp only
  generalize hn : c.val.toNat = n at hv
  split
  · refine ⟨_, _, rfl, ?_⟩
    have : (UInt8.ofNat n).toNat = n := by simp; omega
    rw [this, decode1, if_pos (by omega), ofNat_of_eq c n hn.symm]; rfl
  split
  · refine ⟨_, _, rfl, ?_⟩
    have h0 : (UInt8.ofNat (n / 64 % 0x20 + 0xc0)).toNat = n / 64 + 0xc0 := by simp; omega
    have h1 : (UInt8.ofNat (n % 0x40 + 0x80)).toNat = n % 64 + 0x80 := by simp; omega
    rw [h0, decode1, if_neg (by omega), if_pos (by omega)]
    simp only [byteAt, List.cons_append, List.nil_append, List.getElem?_cons_zero, Option.getD_some, h1]
    rw [if_pos (by simp [isCont]; omega), ofNat_of_eq c _ (by omega)]; rfl
  split
  · refine ⟨_, _, rfl, ?_⟩
    have h0 : (UInt8.ofNat (n / 4096 % 0x10 + 0xe0)).toNat = n / 4096 + 0xe0 := by simp; omega
    have h1 : (UInt8.ofNat (n / 64 % 0x40 + 0x80)).toNat = n / 64 % 64 + 0x80 := by simp; omega
    have h2 : (UInt8.ofNat (n % 0x40 + 0x80)).toNat = n % 64 + 0x80 := by simp; omega
    rw [h0, decode1, if_neg (by omega), if_neg (by omega), if_pos (by omega)]
    simp only [byteAt, List.cons_append, List.nil_append, List.getElem?_cons_zero,
      List.getElem?_cons_succ, Option.getD_some, h1, h2]
    rw [if_pos (by omega), if_pos (by simp [isCont]; omega), ofNat_of_eq c _ (by omega)]; rfl
  · refine ⟨_, _, rfl, ?_⟩
    have h0 : (UInt8.ofNat (n / 262144 % 0x08 + 0xf0)).toNat = n / 262144 + 0xf0 := by simp; omega
    have h1 : (UInt8.ofNat (n / 4096 % 0x40 + 0x80)).toNat = n / 4096 % 64 + 0x80 := by simp; omega
    have h2 : (UInt8.ofNat (n / 64 % 0x40 + 0x80)).toNat = n / 64 % 64 + 0x80 := by simp; omega
    have h3 : (UInt8.ofNat (n % 0x40 + 0x80)).toNat = n % 64 + 0x80 := by simp; omega
    rw [h0, decode1, if_neg (by omega), if_neg (by omega), if_neg (by omega), if_pos (by omega)]
    simp only [byteAt, List.cons_append, List.nil_append, List.getElem?_cons_zero,
      List.getElem?_cons_succ, Option.getD_some, h1, h2, h3]
    rw [if_pos (by omega), if_pos (by simp [isCont]; omega), if_pos (by simp [isCont]; omega),
      ofNat_of_eq c _ (by omega)]; rfl

theorem lossyGo_enc (t : Text) : ∀ n, t.length ≤ n → lossyGo n (enc t) = t := by
  induction t with
  | nil => intro n _; cases n <;> rfl
  | cons c t ih =>
    intro n hn
    cases n with
    | zero => simp at hn
    | succ n =>
      obtain ⟨b, bs, he, hd⟩ := decode1_enc c (enc t)
      rw [enc_cons, he, List.cons_append, lossyGo, hd]
      simp only [Nat.add_sub_cancel, List.drop_left]
      rw [ih n (by simpa using hn)]

theorem length_le_blen (t : Text) : t.length ≤ blen t := by
  induction t with
  | nil => simp
  | cons c t ih => rw [blen_cons]; have := c.utf8Size_pos; simp; omega

/-- Lossy decoding of a valid encoding is the text: no replacement characters appear. -/
@[simp] theorem lossy_enc (t : Text) : lossy (enc t) = t :=
  lossyGo_enc t _ (length_le_blen t)

theorem strictGo_enc (t : Text) : ∀ n, t.length ≤ n → strictGo n (enc t) = some t := by
  induction t with
  | nil => intro n _; cases n <;> rfl
  | cons c t ih =>
    intro n hn
    cases n with
    | zero => simp at hn
    | succ n =>
      obtain ⟨b, bs, he, hd⟩ := decode1_enc c (enc t)
      rw [enc_cons, he, List.cons_append, strictGo, hd]
      simp only [Nat.add_sub_cancel, List.drop_left]
      rw [ih n (by simpa using hn)]; rfl

@[simp] theorem strict_enc (t : Text) : strict (enc t) = some t :=
  strictGo_enc t _ (length_le_blen t)

theorem enc_injective {a b : Text} (h : enc a = enc b) : a = b := by
  have := congrArg lossy h; simpa using this

theorem byteAt_pos {bs : Bytes} {i : Nat} (h : 0 < byteAt bs i) : ∃ b, bs[i]? = some b ∧ b.toNat = byteAt bs i := by
  unfold byteAt at *
  cases hb : bs[i]? with
  | none => simp [hb] at h
  | some b => exact ⟨b, rfl, by simp⟩

theorem u8_eq {b : UInt8} {n : Nat} (h : b.toNat = n % 256) : b = UInt8.ofNat n := by
  apply UInt8.toNat_inj.mp; simp [h]

/-- A decoded character is exactly its encoding. -/
theorem enc_of_decode1 {b : UInt8} {bs : Bytes} {c : Char} {w : Nat}
    (h : decode1 b.toNat bs = .char c w) :
    b :: bs = String.utf8EncodeChar c ++ bs.drop (w - 1) := by
  have hb := b.toNat_lt
  unfold decode1 at h
  simp only at h
  split at h
  · injection h with hc hw
    subst hw
    have hval : c.val.toNat = b.toNat := by rw [← hc, toNat_ofNat_of_valid (by omega)]
    unfold String.utf8EncodeChar
    simp only [hval]
    rw [if_pos (by omega)]
    simp
  split at h
  · split at h
    · rename_i hr hcont
      rw [Dec.char.injEq] at h
      obtain ⟨hc, hw⟩ := h
      subst hw
      simp only [isCont, Bool.and_eq_true, decide_eq_true_eq] at hcont
      have hval : c.val.toNat = (b.toNat - 0xC0) * 64 + (byteAt bs 0 - 0x80) := by
        rw [← hc, toNat_ofNat_of_valid (by omega)]
      obtain ⟨b1, hb1, hb1'⟩ := byteAt_pos (bs := bs) (i := 0) (by omega)
      cases bs with
      | nil => simp at hb1
      | cons x bs =>
        simp only [List.getElem?_cons_zero, Option.some.injEq] at hb1
        subst hb1
        unfold String.utf8EncodeChar
        simp only [hval]
        rw [if_neg (by omega), if_pos (by omega)]
        simp only [List.cons_append, List.nil_append, Nat.reduceSub, List.drop_succ_cons, List.drop_zero]
        rw [← u8_eq (b := b) (by omega), ← u8_eq (b := x) (by omega)]
    · exact absurd h (by simp)
  split at h
  · split at h
    · split at h
      · rename_i hr hr1 hcont
        rw [Dec.char.injEq] at h
        obtain ⟨hc, hw⟩ := h
        subst hw
        simp only [isCont, Bool.and_eq_true, decide_eq_true_eq] at hcont
        have hval : c.val.toNat = (b.toNat - 0xE0) * 4096 + (byteAt bs 0 - 0x80) * 64 + (byteAt bs 1 - 0x80) := by
          rw [← hc, toNat_ofNat_of_valid (by omega)]
        obtain ⟨b1, hb1, hb1'⟩ := byteAt_pos (bs := bs) (i := 0) (by omega)
        obtain ⟨b2, hb2, hb2'⟩ := byteAt_pos (bs := bs) (i := 1) (by omega)
        rcases bs with _ | ⟨x, _ | ⟨y, bs⟩⟩
        · simp at hb1
        · simp at hb2
        · skip
          simp only [List.getElem?_cons_zero, List.getElem?_cons_succ, Option.some.injEq] at hb1 hb2
          subst hb1 hb2
          unfold String.utf8EncodeChar
          simp only [hval]
          rw [if_neg (by omega), if_neg (by omega), if_pos (by omega)]
          simp only [List.cons_append, List.nil_append, Nat.reduceSub, List.drop_succ_cons, List.drop_zero]
          rw [← u8_eq (b := b) (by omega), ← u8_eq (b := x) (by omega), ← u8_eq (b := y) (by omega)]
      · exact absurd h (by simp)
    · exact absurd h (by simp)
  split at h
  · split at h
    · split at h
      · split at h
        · rename_i hr hr1 hcont hcont3
          rw [Dec.char.injEq] at h
          obtain ⟨hc, hw⟩ := h
          subst hw
          simp only [isCont, Bool.and_eq_true, decide_eq_true_eq] at hcont hcont3
          have hval : c.val.toNat = (b.toNat - 0xF0) * 262144 + (byteAt bs 0 - 0x80) * 4096
              + (byteAt bs 1 - 0x80) * 64 + (byteAt bs 2 - 0x80) := by
            rw [← hc, toNat_ofNat_of_valid (by omega)]
          obtain ⟨b1, hb1, hb1'⟩ := byteAt_pos (bs := bs) (i := 0) (by omega)
          obtain ⟨b2, hb2, hb2'⟩ := byteAt_pos (bs := bs) (i := 1) (by omega)
          obtain ⟨b3, hb3, hb3'⟩ := byteAt_pos (bs := bs) (i := 2) (by omega)
          rcases bs with _ | ⟨x, _ | ⟨y, _ | ⟨z, bs⟩⟩⟩
          · simp at hb1
          · simp at hb2
          · simp at hb3
          · skip
            simp only [List.getElem?_cons_zero, List.getElem?_cons_succ, Option.some.injEq] at hb1 hb2 hb3
            subst hb1 hb2 hb3
            unfold String.utf8EncodeChar
            simp only [hval]
            rw [if_neg (by omega), if_neg (by omega), if_neg (by omega)]
            simp only [List.cons_append, List.nil_append, Nat.reduceSub, List.drop_succ_cons, List.drop_zero]
            rw [← u8_eq (b := b) (by omega), ← u8_eq (b := x) (by omega), ← u8_eq (b := y) (by omega),
              ← u8_eq (b := z) (by omega)]
        · exact absurd h (by simp)
      · exact absurd h (by simp)
    · exact absurd h (by simp)
  · exact absurd h (by simp)

theorem enc_of_strictGo : ∀ (n : Nat) (bs : Bytes) (t : Text), strictGo n bs = some t → enc t = bs := by
  intro n
  induction n with
  | zero =>
    intro bs t h
    cases bs with
    | nil => simp only [strictGo, Option.some.injEq] at h; subst h; rfl
    | cons => simp [strictGo] at h
  | succ n ih =>
    intro bs t h
    cases bs with
    | nil => simp only [strictGo, Option.some.injEq] at h; subst h; rfl
    | cons b bs =>
      rw [strictGo] at h
      cases hd : decode1 b.toNat bs with
      | bad w => rw [hd] at h; simp at h
      | char c w =>
        rw [hd] at h
        simp only [Option.map_eq_some_iff] at h
        obtain ⟨t', ht', rfl⟩ := h
        rw [enc_cons, ih _ _ ht', enc_of_decode1 hd]

/-- Strict decoding accepts exactly the encodings. -/
theorem strict_eq_some {bs : Bytes} {t : Text} : strict bs = some t ↔ bs = enc t := by
  constructor
  · intro h; exact (enc_of_strictGo _ _ _ h).symm
  · rintro rfl; exact strict_enc t

end Scribe
