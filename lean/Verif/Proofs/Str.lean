import Verif.Model.Str
import Verif.Proofs.Utf8
/-! # Lemmas about string slicing by byte offsets -/
namespace Scribe

theorem strSplit_append (a b : Text) : strSplit (a ++ b) (blen a) = .ok (a, b) := by
  induction a with
  | nil => cases b <;> rfl
  | cons c a ih =>
    have hp : 0 < c.utf8Size := Char.utf8Size_pos c
    rw [blen_cons]
    obtain ⟨n, hn⟩ : ∃ n, c.utf8Size + blen a = n + 1 := ⟨c.utf8Size + blen a - 1, by omega⟩
    rw [hn]
    simp only [List.cons_append, strSplit]
    rw [if_pos (by omega), show n + 1 - c.utf8Size = blen a by omega, ih]
    rfl

/-- Slicing succeeds exactly at character boundaries. -/
theorem strSplit_ok {t : Text} {i : Nat} {a b : Text} : strSplit t i = .ok (a, b) ↔ t = a ++ b ∧ blen a = i := by
  constructor
  · intro h
    induction t generalizing i a b with
    | nil =>
      cases i with
      | zero => cases h; exact ⟨rfl, rfl⟩
      | succ n => cases h
    | cons c t ih =>
      cases i with
      | zero => cases h; exact ⟨rfl, rfl⟩
      | succ n =>
        simp only [strSplit] at h
        split at h
        · cases hs : strSplit t (n + 1 - c.utf8Size) with
          | error e => rw [hs] at h; cases h
          | ok x =>
            rw [hs] at h
            obtain ⟨x, y⟩ := x
            cases h
            obtain ⟨h1, h2⟩ := ih hs
            refine ⟨by rw [h1]; rfl, ?_⟩
            show blen (c :: x) = n + 1
            rw [blen_cons]; omega
        · cases h
  · rintro ⟨rfl, rfl⟩
    exact strSplit_append a b

theorem strFrom_append (a b : Text) : strFrom (a ++ b) (blen a) = .ok b := by
  unfold strFrom; rw [strSplit_append]; rfl

theorem strSlice_append (a b c : Text) : strSlice (a ++ b ++ c) (blen a) (blen a + blen b) = .ok b := by
  unfold strSlice; rw [← blen_append, strSplit_append]; exact strFrom_append a b

theorem mem_charIndices {t : Text} {n : Nat} {p : Nat × Char} :
    p ∈ charIndices n t ↔ ∃ a b, t = a ++ p.2 :: b ∧ p.1 = n + blen a := by
  induction t generalizing n with
  | nil => simp [charIndices]
  | cons c t ih =>
    simp only [charIndices, List.mem_cons, ih]
    constructor
    · rintro (rfl | ⟨a, b, rfl, h⟩)
      · exact ⟨[], t, rfl, rfl⟩
      · exact ⟨c :: a, b, rfl, by rw [blen_cons, h]; omega⟩
    · rintro ⟨a, b, h1, h2⟩
      cases a with
      | nil =>
        simp only [List.nil_append, List.cons.injEq] at h1
        left; exact Prod.ext h2 h1.1.symm
      | cons d a =>
        simp only [List.cons_append, List.cons.injEq] at h1
        obtain ⟨rfl, rfl⟩ := h1
        right; exact ⟨a, b, rfl, by rw [h2, blen_cons]; omega⟩

theorem charIndices_pairwise (t : Text) (n : Nat) : (charIndices n t).Pairwise fun x y => x.1 < y.1 := by
  induction t generalizing n with
  | nil => exact List.Pairwise.nil
  | cons c t ih =>
    refine List.Pairwise.cons ?_ (ih _)
    intro p hp
    obtain ⟨a, _, _, h⟩ := mem_charIndices.mp hp
    have := Char.utf8Size_pos c
    simp only [h]; omega

/-- A byte prefix of an encoding that is itself an encoding is a character prefix. -/
theorem prefix_of_enc {a b : Text} : enc a <+: enc b ↔ a <+: b := by
  constructor
  · rintro ⟨r, hr⟩
    induction a generalizing b with
    | nil => exact List.nil_prefix
    | cons c a ih =>
      cases b with
      | nil =>
        have := congrArg List.length hr
        simp only [List.length_append, length_enc, blen_cons] at this
        have h2 : blen [] = 0 := rfl
        have := Char.utf8Size_pos c
        omega
      | cons d b =>
        obtain ⟨x, xs, h1, h2⟩ := decode1_enc c (enc a ++ r)
        obtain ⟨y, ys, k1, k2⟩ := decode1_enc d (enc b)
        have e : x :: (xs ++ (enc a ++ r)) = y :: (ys ++ enc b) := by
          rw [enc_cons, enc_cons, h1, k1] at hr; simpa using hr
        obtain ⟨e1, e2⟩ := List.cons.inj e
        rw [e1, e2, k2] at h2
        simp only [Dec.char.injEq, Nat.add_right_cancel_iff] at h2
        obtain ⟨rfl, _⟩ := h2
        rw [h1] at k1
        obtain ⟨_, rfl⟩ := List.cons.inj k1
        obtain ⟨z, rfl⟩ := ih (List.append_cancel_left e2)
        exact ⟨z, rfl⟩
  · rintro ⟨r, rfl⟩; exact ⟨enc r, by simp [enc]⟩
end Scribe
