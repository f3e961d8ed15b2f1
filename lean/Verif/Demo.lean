import Verif.Proofs.Uax29
import Verif.Model.GapBuffer
/-! A concrete character table and allocator, used only in the examples beside the theorems and in the
counterexamples. -/
namespace Scribe.Demo
open Uax29

/-- A few characters of each kind; everything else is `other`. -/
def cls (c : Char) : Cls :=
  if c = '\r' then .cr
  else if c = '\n' then .lf
  else if c.toNat < 32 then .control
  else if 0x300 ≤ c.toNat ∧ c.toNat < 0x370 then .extend
  else if c.toNat = 0x200D then .zwj
  else if 0x1F1E6 ≤ c.toNat ∧ c.toNat ≤ 0x1F1FF then .ri
  else if c.toNat = 0x1F468 ∨ c.toNat = 0x1F467 then .pict
  else .other

def table : Table where
  cls := cls
  lf := by
    intro c; unfold cls
    constructor
    · intro h; by_cases h1 : c = '\r'
      · simp [h1] at h
      · by_cases h2 : c = '\n'
        · exact h2
        · rw [if_neg h1, if_neg h2] at h
          repeat (split at h; · cases h)
          cases h
    · rintro rfl; rfl
  cr := by
    intro c; unfold cls
    constructor
    · intro h; by_cases h1 : c = '\r'
      · exact h1
      · rw [if_neg h1] at h
        repeat (split at h; · cases h)
        cases h
    · rintro rfl; rfl

/-- The segmenter of the demo table. -/
def seg : Segmenter := segmenter table

/-- Allocates exactly what is asked for, filled with 0xFF. -/
def tight : Alloc where
  get := fun _ _ n => List.replicate n 0xFF
  enough := by simp

/-- Allocates 5 bytes more than asked for, filled with `'x'`. -/
def loose : Alloc where
  get := fun _ _ n => List.replicate (n + 5) 0x78
  enough := by simp

/-- String literal to text. -/
def s (x : String) : Text := x.toList

example : seg.segs (s "aéb\r\nc\n\n") = [s "a", s "é", s "b", s "\r\n", s "c", s "\n", s "\n"] := by decide
example : seg.segs (s "👨‍👧x🇦🇧🇨") =
    [s "👨‍👧", s "x", s "🇦🇧", s "🇨"] := by decide

end Scribe.Demo
