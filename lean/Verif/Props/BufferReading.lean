import Verif.Proofs.BufferReadingBounds
import Verif.Demo
/-!
# C111: what the calls of a buffer read
-/
namespace Scribe.Props
open Spec Buf
variable (S : Segmenter) (A : Alloc)

theorem started (k : Nat) (t : Option Text) (cs : List Cmd) :
    ∃ b, execAll S A (match t with | some t => Buf.fromContent A k t | none => Buf.new A k) cs = .ok b ∧ Sane b ∧
      ZSim b ((ZDoc.new A.grant k (t.getD []) t.isSome).steps S.segs A.grant cs) := by
  have h : ∀ b0, ZSim b0 (ZDoc.new A.grant k (t.getD []) t.isSome) → Sane b0 → ∃ b, execAll S A b0 cs = .ok b ∧ Sane b ∧
      ZSim b ((ZDoc.new A.grant k (t.getD []) t.isSome).steps S.segs A.grant cs) := by
    intro b0 h0 hs
    obtain ⟨b, h1, h2⟩ := h0.steps (S := S) cs hs
    obtain ⟨b', h3, h4⟩ := execAll_safe (S := S) (A := A) cs hs
    rw [h1] at h3; cases h3
    exact ⟨b, h1, h4, h2⟩
  cases t with
  | none => exact h _ (ZSim.new k) (sane_new k)
  | some t => exact h _ (ZSim.fromContent k t) (sane_fromContent k t)

/-- **C111.** What every call reads, after any calls: what `ZDoc.effort` says of the document. The functions with counters do what the functions without do. -/
theorem C111_exact (k : Nat) (t : Option Text) (cs : List Cmd) (c : Cmd) (w : Effort) :
    ∃ b b', execAll S A (match t with | some t => Buf.fromContent A k t | none => Buf.new A k) cs = .ok b ∧ exec S A b c = .ok b' ∧
      execR S A b w c = .ok (b', w + ((ZDoc.new A.grant k (t.getD []) t.isSome).steps S.segs A.grant cs).effort S.segs A.grant c) := by
  obtain ⟨b, h1, h2, h3⟩ := started S A k t cs
  obtain ⟨b', h4, h5⟩ := h3.stepR (S := S) (A := A) h2 c w
  exact ⟨b, b', h1, h4, h5⟩

/-- **C111, one call.** A call that is no undo or redo decodes at most so many times the bytes of the text (once for an insertion, seven times for `delete`), and twice those of a new one. -/
theorem C111_call (k : Nat) (t : Option Text) (cs : List Cmd) (c : Cmd) (hc : c ≠ .undo ∧ c ≠ .redo) (b : Buf)
    (h : execAll S A (match t with | some t => Buf.fromContent A k t | none => Buf.new A k) cs = .ok b) (u : Text) (hu : b.data.toStr = .ok u) :
    ∃ b' e, execR S A b ⟨0, 0⟩ c = .ok (b', e) ∧ e.decoded ≤ times c * blen u + 2 * newBytes c ∧ e.visited ≤ times c * blen u + 2 * newBytes c := by
  obtain ⟨b0, h1, h2, h3⟩ := started S A k t cs
  rw [h] at h1; cases h1
  obtain ⟨b', h4, h5⟩ := h3.stepR (S := S) (A := A) h2 c ⟨0, 0⟩
  generalize (ZDoc.new A.grant k (t.getD []) t.isSome).steps S.segs A.grant cs = d at *
  rw [show b.data.toStr = .ok d.zip.text from h3.data.rep.toStr] at hu
  cases hu
  refine ⟨b', _, h5, ?_⟩
  rw [show (⟨0, 0⟩ : Effort) = nothing from rfl, Effort.nothing_add]
  show Effort.AtMost _ _
  have hcut : ∀ p q, (d.performing S.segs A.grant (d.cutNow S.segs p q)).AtMost (6 * blen d.zip.text) := fun p q =>
    ((effort_atMost d.zip (.read (lo p q) (hi p q))).add (effort_atMost d.zip (.delete (lo p q) (hi p q)))).mono (by omega)
  have hrep : ∀ s, (d.replacing S.segs A.grant s).AtMost (2 * blen d.zip.text + 2 * blen s) := fun s => by
    unfold ZDoc.replacing
    split
    · exact (whole_atMost d.zip).mono (by omega)
    · exact (((whole_atMost d.zip).add (whole_atMost d.zip)).add (swapping_atMost d s)).mono (by omega)
  cases c with
  | insert s => exact (insert_atMost d.zip s _).mono (by simp only [times]; omega)
  | delete => exact ((lookup_atMost d.zip _).add (hcut _ _)).mono (by simp only [times]; omega)
  | deleteRange p q => exact (hcut p q).mono (by simp only [times]; omega)
  | replace s => exact hrep s
  | reload s => exact hrep s
  | move m => exact (moving_atMost d.zip d.cursor m).mono (by simp only [times]; omega)
  | undo => exact absurd rfl hc.1
  | redo => exact absurd rfl hc.2
  | _ => exact nothing_atMost _

/-- **C111, undo and redo.** Taking back a step of `n` edits decodes at most `3 n` times, making it again at most `6 n` times, the bytes of the text and of the strings that the
step remembers. -/
theorem C111_steps (k : Nat) (t : Option Text) (cs : List Cmd) (b : Buf)
    (h : execAll S A (match t with | some t => Buf.fromContent A k t | none => Buf.new A k) cs = .ok b) (u : Text) (hu : b.data.toStr = .ok u) :
    let d := (ZDoc.new A.grant k (t.getD []) t.isSome).steps S.segs A.grant cs
    (∀ rs, d.lastStep = some rs → ∃ b' e, execR S A b ⟨0, 0⟩ .undo = .ok (b', e) ∧
      e.decoded ≤ 3 * rs.length * (blen u + (rs.map Recipe.bytes).sum) ∧ e.visited ≤ 3 * rs.length * (blen u + (rs.map Recipe.bytes).sum)) ∧
    (∀ rs, d.redo.head? = some rs → ∃ b' e, execR S A b ⟨0, 0⟩ .redo = .ok (b', e) ∧
      e.decoded ≤ 6 * rs.length * (blen u + (rs.map Recipe.bytes).sum) ∧ e.visited ≤ 6 * rs.length * (blen u + (rs.map Recipe.bytes).sum)) := by
  intro d
  obtain ⟨b0, h1, h2, h3⟩ := started S A k t cs
  rw [h] at h1; cases h1
  rw [show b.data.toStr = .ok d.zip.text from h3.data.rep.toStr] at hu
  cases hu
  constructor
  · intro rs hrs
    obtain ⟨b', h4, h5⟩ := h3.stepR (S := S) (A := A) h2 .undo ⟨0, 0⟩
    refine ⟨b', _, h5, ?_⟩
    rw [show (⟨0, 0⟩ : Effort) = nothing from rfl, Effort.nothing_add]
    show Effort.AtMost (d.effort S.segs A.grant .undo) _
    simp only [ZDoc.effort, hrs, Option.map_some, Option.getD_some]
    have := revertingAll_atMost (S := S) (A := A) rs.reverse d (blen d.zip.text + (rs.map Recipe.bytes).sum) (by rw [List.map_reverse, List.sum_reverse_nat]; exact Nat.le_refl _)
    rwa [List.length_reverse] at this
  · intro rs hrs
    obtain ⟨b', h4, h5⟩ := h3.stepR (S := S) (A := A) h2 .redo ⟨0, 0⟩
    refine ⟨b', _, h5, ?_⟩
    rw [show (⟨0, 0⟩ : Effort) = nothing from rfl, Effort.nothing_add]
    show Effort.AtMost (d.effort S.segs A.grant .redo) _
    simp only [ZDoc.effort, hrs, Option.map_some, Option.getD_some]
    exact performingAll_atMost rs d _ (Nat.le_refl _)

/-- **C111, at the end.** An insertion with the cursor at the end of the text decodes all of it, whatever was called before and wherever the gap is; and so does an attempt to move
further to the right. -/
theorem C111_end (k : Nat) (t : Option Text) (cs : List Cmd) (b : Buf)
    (h : execAll S A (match t with | some t => Buf.fromContent A k t | none => Buf.new A k) cs = .ok b) (u : Text) (hu : b.data.toStr = .ok u) (s : Text) :
    let d := (ZDoc.new A.grant k (t.getD []) t.isSome).steps S.segs A.grant cs
    b.cursor.position = endPos (d.zip.clusters S.segs) →
      (∃ b' e, execR S A b ⟨0, 0⟩ (.insert s) = .ok (b', e) ∧ e.decoded = blen u) ∧
      (∃ b' e, execR S A b ⟨0, 0⟩ (.move .right) = .ok (b', e) ∧ e.decoded = blen u) := by
  intro d hd
  obtain ⟨b0, h1, h2, h3⟩ := started S A k t cs
  rw [h] at h1; cases h1
  rw [show b.data.toStr = .ok d.zip.text from h3.data.rep.toStr] at hu
  cases hu
  rw [h3.cursor] at hd
  constructor
  · obtain ⟨b', h4, h5⟩ := h3.stepR (S := S) (A := A) h2 (.insert s) ⟨0, 0⟩
    refine ⟨b', _, h5, ?_⟩
    rw [show (⟨0, 0⟩ : Effort) = nothing from rfl, Effort.nothing_add]
    exact insert_end d.zip s _ hd
  · obtain ⟨b', h4, h5⟩ := h3.stepR (S := S) (A := A) h2 (.move .right) ⟨0, 0⟩
    refine ⟨b', _, h5, ?_⟩
    rw [show (⟨0, 0⟩ : Effort) = nothing from rfl, Effort.nothing_add]
    refine lookup_end d.zip _ ?_
    rw [← hd]
    exact Or.inr ⟨rfl, Nat.le_succ _⟩

/-! ## Cases -/

/-- What the calls read, one by one. -/
private def costs (t : String) (cs : List Cmd) : R (List Nat) :=
  let rec go (b : Buf) : List Cmd → R (List Nat)
    | [] => .ok []
    | c :: cs => do
      let (b, e) ← execR Demo.seg Demo.tight b ⟨0, 0⟩ c
      return e.decoded :: (← go b cs)
  go (Buf.fromContent Demo.tight 0 (Demo.s t)) cs

/-- Typing at the end of a text of 8 bytes: all of it is decoded for every insertion and every move. -/
example : costs "ab\ncdefg" [.move .lastLine, .move .endOfLine, .insert (Demo.s "x"), .move .right, .insert (Demo.s "y"), .move .right] = .ok [16, 16, 8, 9, 9, 10] := by decide +kernel

/-- The column is not there in the line above: three times the text. Deleting reads what it deletes. Undo and redo look the place up again. -/
example : costs "ab\ncdefg" [.move (.to ⟨1, 4⟩), .move .up, .delete, .undo, .redo, .replace (Demo.s "abcdefg"), .replace (Demo.s "z")] = .ok [8, 24, 41, 2, 18, 7, 16] := by decide +kernel

/-- A group of three edits, taken back and made again. -/
example : costs "abc" [.startGroup, .insert (Demo.s "x"), .insert (Demo.s "y"), .deleteRange ⟨0, 3⟩ ⟨0, 5⟩, .endGroup, .undo, .redo] = .ok [0, 3, 4, 22, 0, 17, 23] := by decide +kernel

end Scribe.Props
