import Verif.Proofs.Str
import Verif.Model.File
/-! Names with dots. -/
namespace Scribe

/-- An ASCII byte occurs in an encoding only as that character. -/
theorem mem_enc_ascii {c : Char} (hc : c.val.toNat < 128) {t : Text} : UInt8.ofNat c.val.toNat ∈ enc t ↔ c ∈ t := by
  have one : ∀ x : Char, UInt8.ofNat c.val.toNat ∈ String.utf8EncodeChar x ↔ c = x := by
    intro x
    have hx := char_val_range x
    unfold String.utf8EncodeChar
    simp only
    have hcx : c = x ↔ c.val.toNat = x.val.toNat := ⟨fun h => by rw [h], fun h => Char.ext (UInt32.toNat_inj.mp h)⟩
    rw [hcx]
    generalize c.val.toNat = m at *
    generalize x.val.toNat = n at *
    have e : ∀ k : Nat, UInt8.ofNat m = UInt8.ofNat k ↔ m = k % 256 := by
      intro k
      rw [← UInt8.toNat_inj]
      simp; omega
    split
    · simp only [List.mem_singleton, e]; omega
    split
    · simp only [List.mem_cons, List.not_mem_nil, or_false, e]; omega
    split
    · simp only [List.mem_cons, List.not_mem_nil, or_false, e]; omega
    · simp only [List.mem_cons, List.not_mem_nil, or_false, e]; omega
  induction t with
  | nil => simp
  | cons x t ih => rw [enc_cons, List.mem_append, List.mem_cons]; exact or_congr (one x) ih

/-- Splitting at the last dot. -/
theorem splitDot_dot {pre ext : Bytes} (h : 46 ∉ ext) : Path.splitDot (pre ++ 46 :: ext) = (some pre, ext) := by
  have e : (List.takeWhile (· != 46) (pre ++ 46 :: ext).reverse).reverse = ext := by
    rw [List.reverse_append, List.reverse_cons, List.append_assoc, List.takeWhile_append_of_pos]
    · simp
    · intro x hx
      simp only [bne_iff_ne]
      rintro rfl
      exact h (List.mem_reverse.mp hx)
  unfold Path.splitDot
  simp only [e]
  rw [if_neg (by simp; omega)]
  congr 2
  rw [List.length_append, List.length_cons, show pre.length + (ext.length + 1) - ext.length - 1 = pre.length by omega, List.take_left]

theorem splitDot_none {name : Bytes} (h : 46 ∉ name) : Path.splitDot name = (none, name) := by
  have e : (List.takeWhile (· != 46) name.reverse).reverse = name := by
    have := List.takeWhile_append_of_pos (p := (· != (46 : UInt8))) (l₁ := name.reverse) (l₂ := []) (by
      intro x hx
      simp only [bne_iff_ne]
      rintro rfl
      exact h (List.mem_reverse.mp hx))
    rw [List.append_nil] at this
    rw [this]; simp
  unfold Path.splitDot
  simp only [e, if_true]

end Scribe
