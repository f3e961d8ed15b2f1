import Verif.Proofs.Unwind
import Verif.Demo
/-!
# Property C90: callbacks that panic

A change callback may panic in the middle of a call, and the caller may catch the panic and go on. `fate` says which calls of the callback panic.
-/
namespace Scribe.Props
open Unwind
open Scribe.Buf (Cmd)
variable (S : Segmenter) (A : Alloc) (fate : Fate)

/-- **C90.** Whatever the callback does, no sequence of calls panics by itself, and the contents can always be read. -/
theorem C90_goes_on (k : Nat) (t : Text) (cs : List Cmd) :
    (∃ b u, session S A fate (Buf.new A k) cs = .ok b ∧ b.data.toStr = .ok u) ∧
    (∃ b u, session S A fate (Buf.fromContent A k t) cs = .ok b ∧ b.data.toStr = .ok u) := by
  have main : ∀ (cs : List Cmd) (b : Buf), Sane b → ∃ b' u, session S A fate b cs = .ok b' ∧ b'.data.toStr = .ok u := by
    intro cs
    induction cs with
    | nil => intro b h; obtain ⟨u, hu⟩ := h.toStr; exact ⟨b, u, rfl, hu⟩
    | cons c cs ih =>
      intro b h
      obtain ⟨o, b', h1, h2, h3⟩ := exec_sane (fate := fate) (S := S) (A := A) h c
      obtain ⟨b2, u, e1, e2⟩ := ih b' h3
      refine ⟨b2, u, ?_, e2⟩
      rw [session, h1, Except.ok_bind']
      rcases h2 with rfl | rfl <;> exact e1
  exact ⟨main cs _ (sane_new k), main cs _ (sane_fromContent k t)⟩

/-- C90: a call that returns has done what it does with a callback that never panics. -/
theorem C90_returned (b b' : Buf) (c : Cmd) (h : exec S A fate b c = .ok (.done b')) : Buf.exec S A b c = .ok b' :=
  exec_done h

/-- C90: it always returns if there is no callback, or none of its calls panics. -/
theorem C90_quiet (b : Buf) (c : Cmd) (h : b.callback = false ∨ ∀ n, fate n = false) :
    exec S A fate b c = (Buf.exec S A b c).map .done := exec_quiet h c

/-- C90: when an edit is unwound, contents and cursor are those of the finished edit, but undo history, open group and `modified` do not know of it. -/
theorem C90_unwound_edit (b b' : Buf) (c : Cmd) (hc : Unwind.Edits c) (h : exec S A fate b c = .ok (.unwound b')) :
    (∃ b1, Buf.exec S A b c = .ok b1 ∧ b'.data = b1.data ∧ b'.cursor = b1.cursor ∧ b'.log = b1.log) ∧
    b'.history = b.history ∧ b'.group = b.group ∧ b'.modified = b.modified := by
  rcases exec_edits (S := S) (A := A) (fate := fate) b c hc with ⟨e, h1, _⟩ | ⟨b1, h1, h2 | ⟨h2, _⟩⟩
  · rw [h1] at h; cases h
  · rw [h2] at h; cases h
  · rw [h2] at h
    obtain rfl := Out.unwound.inj (Except.ok.inj h)
    exact ⟨⟨b1, h1, rfl, rfl, rfl⟩, rfl, rfl, rfl⟩

/-- C90: nothing but edits, `undo` and `redo` is unwound. -/
theorem C90_only_edits (b b' : Buf) (c : Cmd) (h : exec S A fate b c = .ok (.unwound b')) : Unwind.Edits c ∨ c = .undo ∨ c = .redo := by
  cases c with
  | insert _ | delete | deleteRange _ _ | replace _ | reload _ => exact Or.inl trivial
  | undo => exact Or.inr (Or.inl rfl)
  | redo => exact Or.inr (Or.inr rfl)
  | move m =>
    simp only [exec] at h
    cases hm : Cursor.move S b.data b.cursor m with
    | error e => rw [hm] at h; cases h
    | ok c => rw [hm] at h; cases h
  | _ => cases h

/-- C90: when `undo` is unwound, history and group are those after a finished `undo`. A step that is a single edit has been taken back completely. Of a group, some of its last edits
have been taken back: contents and cursor are as if only those had been in the group. -/
theorem C90_unwound_undo (b b' : Buf) (h : exec S A fate b .undo = .ok (.unwound b')) :
    b'.group = none ∧ b'.history = undoneHistory b ∧
    ((∃ op, undone b = some (.simple op) ∧ Buf.exec S A b .undo = .ok b') ∨
     ∃ xs ys b1, undone b = some (.group (xs ++ ys)) ∧ ys ≠ [] ∧ Buf.exec S A { b with group := some ys } .undo = .ok b1 ∧
      b'.data = b1.data ∧ b'.cursor = b1.cursor ∧ b'.log = b1.log) := undo_unwound h

/-- C90: when `redo` is unwound, the history is that after a finished `redo`. A step that is a single edit has been made completely. Of a group, some of its first edits have been made:
contents and cursor are as if only those had been in the group. -/
theorem C90_unwound_redo (b b' : Buf) (h : exec S A fate b .redo = .ok (.unwound b')) :
    b'.group = b.group ∧ b'.history = b.history.forth.2 ∧
    ((∃ op, b.history.next.head? = some (.simple op) ∧ Buf.exec S A b .redo = .ok b') ∨
     ∃ xs ys b1, b.history.next.head? = some (.group (xs ++ ys)) ∧ xs ≠ [] ∧
      Buf.exec S A { b with history := { b.history with next := [.group xs] } } .redo = .ok b1 ∧
      b'.data = b1.data ∧ b'.cursor = b1.cursor ∧ b'.log = b1.log) := redo_unwound h

/-- C90: only the last report of a call panics. A call is unwound by the first report that panics, so nothing is reported after it; a call that returns had
none that panics. -/
theorem C90_reports (b : Buf) (c : Cmd) :
    (∀ b', exec S A fate b c = .ok (.done b') → ∃ ps, b'.log = b.log ++ ps ∧ ∀ i, i < ps.length → fate (b.log.length + i) = false) ∧
    (∀ b', exec S A fate b c = .ok (.unwound b') → ∃ ps p, b'.log = b.log ++ ps ++ [p] ∧ fate (b.log.length + ps.length) = true ∧
      ∀ i, i < ps.length → fate (b.log.length + i) = false) := told_exec b c

/-! The callback panics at its first call, or at its second. -/

private abbrev b0 : Buf := { Buf.fromContent Demo.tight 0 (Demo.s "ab") with callback := true }
private abbrev first : Fate := fun n => n == 0
private abbrev second : Fate := fun n => n == 1

/-- The text is changed, but the buffer says it is not, and there is nothing to undo. -/
example : (do
    let b ← session Demo.seg Demo.tight first b0 [.insert (Demo.s "x")]
    return (← b.data.toStr, b.modified, b.history.previous.length)) = Except.ok (ε := Panic) (Demo.s "xab", false, 0) := by decide +kernel

/-- An edit that is not in the history makes an earlier step take back the wrong text. -/
example : (do
    let b ← session Demo.seg Demo.tight second b0 [.insert (Demo.s "x"), .insert (Demo.s "y"), .undo]
    b.data.toStr) = Except.ok (ε := Panic) (Demo.s "xab") := by decide +kernel

/-- A group of two insertions, with one of them taken back; `redo` then inserts both again. -/
example : (do
    let b ← session Demo.seg Demo.tight (fun n => n == 2) b0 [.startGroup, .insert (Demo.s "x"), .insert (Demo.s "y"), .endGroup, .undo]
    let c ← session Demo.seg Demo.tight (fun n => n == 2) b [.redo]
    return (← b.data.toStr, b.history.previous.length, ← c.data.toStr)) = Except.ok (ε := Panic) (Demo.s "xab", 0, Demo.s "yxxab") := by decide +kernel

end Scribe.Props
