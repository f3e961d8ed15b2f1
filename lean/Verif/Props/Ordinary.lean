import Verif.Proofs.Closed
import Verif.Proofs.GapRun
import Verif.Props.History
/-!
# Property C49: ordinary text

The theorems C03–C19 about positions and undo assume that no call merges grapheme clusters. Here: on text made of
ordinary clusters (`Uax29.Ordinary`: letters with marks, newlines, emoji sequences, flags, Hangul syllables, …, no CR) that is
never an issue, so the same conclusions hold with no such assumption.
-/
namespace Scribe.Props
open Spec Buf

/-- **C49.** Ordinary clusters put side by side never merge, for every Unicode table. -/
theorem C49_ordinary_clusters (T : Uax29.Table) (cs : List Text) (h : ∀ c ∈ cs, Uax29.Ordinary T.cls c) :
    (Uax29.segmenter T).segs cs.flatten = cs := (Uax29.ordinary_closed T).apart cs h

/-- Text with accents, a flag, an emoji family, a tab and newlines is ordinary; a leading accent, CR LF, half a flag are not. -/
example : Over Demo.seg.segs (Uax29.Ordinary Demo.table.cls) (Demo.s "aéb\n\tx🇦🇧👨‍👧👨\n") := by
  unfold Over; decide +kernel
example : ¬ Over Demo.seg.segs (Uax29.Ordinary Demo.table.cls) (Demo.s "́a") := by unfold Over; decide +kernel
example : ¬ Over Demo.seg.segs (Uax29.Ordinary Demo.table.cls) (Demo.s "a\r\n") := by unfold Over; decide +kernel
example : ¬ Over Demo.seg.segs (Uax29.Ordinary Demo.table.cls) (Demo.s "🇦") := by unfold Over; decide +kernel

theorem Start.over {S A b d t} {P : Text → Prop} (h : Start A b d t) (ht : Over S.segs P t) : DocOver S P d := by
  cases h with
  | new k => exact docOver_new ht _
  | load k t => exact docOver_new ht _

/-- C49: gap buffers holding ordinary text. Whatever sequence of insertions of ordinary strings, deletions of any ranges and
queries, everything observable is what the plain text gives: no gap, no allocator, no assumption about merging. -/
theorem C49_gap_buffer (S : Segmenter) (P : Text → Prop) (hP : Closed S.segs P) (A : Alloc) (k : Nat) (t : Text)
    (cs : List GapBuffer.Call) (ht : Over S.segs P t) (hs : ∀ s ∈ inserted cs, Over S.segs P s) :
    ∃ g, GapBuffer.run S A (GapBuffer.new A k t) cs = .ok ((runText S.segs t cs).1, g) ∧
      GapBuffer.toStr g = .ok (runText S.segs t cs).2 ∧ Over S.segs P (runText S.segs t cs).2 := by
  have key : ∀ (cs : List GapBuffer.Call) (t : Text), Over S.segs P t → (∀ s ∈ inserted cs, Over S.segs P s) →
      CleanCalls S.segs t cs ∧ Over S.segs P (runText S.segs t cs).2 := by
    intro cs
    induction cs with
    | nil => intro t ht _; exact ⟨trivial, ht⟩
    | cons c cs ih =>
      intro t ht hs
      have h1 : CleanCall S.segs t c ∧ Over S.segs P (callText S.segs t c).2 := by
        cases c with
        | insert s p =>
          have h := hs s (by simp [inserted])
          exact ⟨over_cleanInsert hP p ht h, over_insertAt hP p ht h⟩
        | delete p q => exact ⟨over_cleanDelete hP _ _ ht, over_deleteRange hP _ _ ht⟩
        | _ => exact ⟨trivial, ht⟩
      have h2 := ih _ h1.2 (fun s h => hs s (by cases c <;> simp [inserted, h]))
      exact ⟨⟨h1.1, h2.1⟩, h2.2⟩
  obtain ⟨hc, ho⟩ := key cs t ht hs
  obtain ⟨g, h1, h2⟩ := GapBuffer.run_holds (A := A) (GapBuffer.holds_new (A := A) k t) cs hc
  exact ⟨g, h1, h2.toStr, ho⟩

/-- C49: sequences of ordinary calls satisfy the assumptions of C12–C19 and C25. -/
theorem C49_ordinary_is_clean (S : Segmenter) (P : Text → Prop) (hP : Closed S.segs P) (A : Alloc) (b : Buf) (d : Doc) (t : Text)
    (cs : List Cmd) (h0 : Start A b d t) (ht : Over S.segs P t) (hc : OrdinaryCmds S.segs P d cs) : CleanCmds S.segs d cs :=
  (h0.over ht).cleanAll hP cs hc

theorem replace_group (segs : Text → List Text) (d : Doc) (x : Text) (hg : d.group = none) : (d.replace segs x).group = none := by
  unfold Doc.replace
  split
  · exact hg
  · unfold Doc.edit
    have e : (d.apply segs (Doc.replaceEdit d.text x)).group = none := by
      rw [show d.apply segs (Doc.replaceEdit d.text x) = d.applyAll segs [Doc.replaceEdit d.text x] from rfl, apply_group, hg]
    simp only [e]; exact e

theorem edit_group (segs : Text → List Text) (d : Doc) (x : Edit) (hg : d.group = none) : (d.edit segs x).group = none := by
  unfold Doc.edit
  have e : (d.apply segs x).group = none := by
    rw [show d.apply segs x = d.applyAll segs [x] from rfl, apply_group, hg]
  simp only [e]; exact e

theorem typing_group {segs : Text → List Text} {P : Text → Prop} {d : Doc} {c : Cmd} (hg : d.group = none) (hc : TypingCmd segs P c) :
    (d.step segs c).group = none := by
  cases c with
  | insert s => exact edit_group _ _ _ hg
  | delete => exact edit_group _ _ _ hg
  | deleteRange p q => cases hc
  | replace x => exact replace_group _ _ _ hg
  | reload x => exact replace_group _ _ _ hg
  | undo =>
    show (d.undo1 segs).group = none
    unfold Doc.undo1
    rw [hg]
    cases d.undo with
    | nil => rfl
    | cons es rest => exact revert_group _ _ _
  | redo =>
    show (d.redo1 segs).group = none
    unfold Doc.redo1
    cases d.redo with
    | nil => exact hg
    | cons es rest => simp only; rw [apply_group]; exact hg
  | startGroup => cases hc
  | endGroup => show d.endGroup.group = none; unfold Doc.endGroup; rw [hg]
  | _ => exact hg

theorem typing_ordinary {segs : Text → List Text} {P : Text → Prop} (cs : List Cmd) {d : Doc} (hg : d.group = none)
    (hc : ∀ c ∈ cs, TypingCmd segs P c) : OrdinaryCmds segs P d cs ∧ SyncOutside segs d cs ∧ (d.steps segs cs).group = none := by
  induction cs generalizing d with
  | nil => exact ⟨trivial, trivial, hg⟩
  | cons c cs ih =>
    have h1 := hc c (by simp)
    have h2 := ih (typing_group hg h1) (fun x hx => hc x (by simp [hx]))
    refine ⟨⟨?_, h2.1⟩, ⟨?_, h2.2.1⟩, h2.2.2⟩
    · cases c <;> first | exact h1 | trivial | exact Or.inr (Or.inl hg) | cases h1
    · cases c <;> first | trivial | exact Or.inl hg | exact hg

/-- C49: an editing session on ordinary text. Any sequence of insertions, deletions at the cursor, replacements, undo, redo,
movements, cursor assignments, saves and reloads on a new or loaded buffer runs without panic; the contents are the present of the
snapshot history; undoing often enough brings back the initial text; and if `modified` is false the contents are what is on disk. -/
theorem C49_editing_session (S : Segmenter) (P : Text → Prop) (hP : Closed S.segs P) (A : Alloc) (b0 : Buf) (d0 : Doc) (t0 : Text)
    (cs : List Cmd) (h0 : Start A b0 d0 t0) (ht : Over S.segs P t0) (hc : ∀ c ∈ cs, TypingCmd S.segs P c) :
    (∃ b, execAll S A b0 cs = .ok b ∧ b.data.toStr = .ok (snaps S.segs d0 (Snap.new t0) cs).present ∧
      (b.modified = false → ∃ t, lastSync S.segs d0 (if b0.modified then none else some t0) cs = some t ∧ b.data.toStr = .ok t)) ∧
    ∀ n, cs.length ≤ n → ∃ b, execAll S A b0 (cs ++ List.replicate n .undo) = .ok b ∧ b.data.toStr = .ok t0 := by
  have hg : d0.group = none := by cases h0 <;> rfl
  obtain ⟨ho, hs, hgn⟩ := typing_ordinary cs hg hc
  have hcl := C49_ordinary_is_clean S P hP A b0 d0 t0 cs h0 ht ho
  obtain ⟨b, h1, h2⟩ := (h0.tri (S := S)).execAll (A := A) cs hcl
  refine ⟨⟨b, h1, h2.data, fun hm => ?_⟩, fun n hn => C13_undo_everything S A b0 d0 t0 cs n h0 hcl hn⟩
  refine C18_unmodified_is_on_disk S A b0 b d0 t0 cs h0 hcl hs h1 hm ?_
  have := h2.sim.group
  rw [hgn] at this
  left
  cases hb : b.group with
  | none => rfl
  | some x => rw [hb] at this; cases this

/-- A session with accents, an emoji family and undo beyond a reload. -/
example : ∀ c ∈ [Cmd.insert (Demo.s "né\n👨‍👧"), .move .right, .delete, .saved, .undo, .redo, .reload (Demo.s "x\ny"), .undo],
    TypingCmd Demo.seg.segs (Uax29.Ordinary Demo.table.cls) c := by
  have h1 : Over Demo.seg.segs (Uax29.Ordinary Demo.table.cls) (Demo.s "né\n👨‍👧") := by unfold Over; decide +kernel
  have h2 : Over Demo.seg.segs (Uax29.Ordinary Demo.table.cls) (Demo.s "x\ny") := by unfold Over; decide +kernel
  intro c hc
  simp only [List.mem_cons, List.not_mem_nil, or_false] at hc
  rcases hc with rfl | rfl | rfl | rfl | rfl | rfl | rfl | rfl <;> first | exact h1 | exact h2 | trivial
example : (execAll Demo.seg Demo.tight (Buf.fromContent Demo.tight 0 (Demo.s "q"))
    [.insert (Demo.s "né\n👨‍👧"), .move .right, .delete, .saved, .undo, .redo, .reload (Demo.s "x\ny"), .undo] >>= fun b => b.data.toStr) =
    .ok (Demo.s "n\n👨‍👧q") := by decide +kernel

end Scribe.Props
