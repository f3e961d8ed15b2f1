import Verif.Demo
import Verif.Spec.Cost
/-!
# The tests of the repository, on the model

The files of this directory restate the unit tests and the documentation examples of /repo/src, with the same names and the same literals, for the
model. They are evidence that the model describes the code the tests were written for; nothing is claimed from them.
-/
namespace Scribe.RepoTests
open Uax29

/-- The demo table with the two characters of `नी`. -/
def cls (c : Char) : Cls :=
  if c.toNat = 0x940 then .spacing else if c.toNat = 0x928 then .consonant else Demo.cls c

def table : Table where
  cls := cls
  lf := by
    intro c; unfold cls
    by_cases h1 : c.toNat = 0x940
    · rw [if_pos h1]; exact ⟨nofun, by rintro rfl; exact absurd h1 (by decide)⟩
    · rw [if_neg h1]
      by_cases h2 : c.toNat = 0x928
      · rw [if_pos h2]; exact ⟨nofun, by rintro rfl; exact absurd h2 (by decide)⟩
      · rw [if_neg h2]; exact Demo.table.lf c
  cr := by
    intro c; unfold cls
    by_cases h1 : c.toNat = 0x940
    · rw [if_pos h1]; exact ⟨nofun, by rintro rfl; exact absurd h1 (by decide)⟩
    · rw [if_neg h1]
      by_cases h2 : c.toNat = 0x928
      · rw [if_pos h2]; exact ⟨nofun, by rintro rfl; exact absurd h2 (by decide)⟩
      · rw [if_neg h2]; exact Demo.table.cr c

/-- The segmentation used by the tests. -/
def S : Segmenter := segmenter table

/-- The allocator used by the tests: that of `Vec`. -/
abbrev A : Alloc := Spec.vec

/-- String literals. -/
abbrev s := Demo.s

/-- `assert!`. -/
def check (p : Prop) [Decidable p] : R Unit := if p then .ok () else .error .unwrap

/-- `Option::unwrap`. -/
def unwrap {α : Type} : Option α → R α
  | some a => .ok a
  | none => .error .unwrap

/-- The test runs to its end. -/
def Passes (test : R Unit) : Prop := test = .ok ()

instance (test : R Unit) : Decidable (Passes test) :=
  match test with
  | .ok () => isTrue rfl
  | .error _ => isFalse nofun

/-- A check that fails fails the test. -/
example : ¬ Passes (check (1 = 2)) ∧ ¬ Passes (do let x ← unwrap (none : Option Nat); check (x = x)) := by decide

end Scribe.RepoTests
