import Verif.Props.Recipe
import Verif.Props.Findings
/-!
# Property C69: edits do not move the cursor

Neither editing nor undo and redo touch the cursor, except when the whole text is replaced. A cursor can so be left at a position
that no longer exists, and what is typed there is lost.
-/
namespace Scribe.Spec
variable {segs : Text → List Text} {grant : Nat → Nat → Nat → Nat}

/-- Not a replacement. -/
def Recipe.Local : Recipe → Prop
  | .swap _ _ => False
  | _ => True

structure ZDoc.Local (d : ZDoc) : Prop where
  undo : ∀ rs ∈ d.undo, ∀ r ∈ rs, r.Local
  redo : ∀ rs ∈ d.redo, ∀ r ∈ rs, r.Local
  group : ∀ rs, d.group = some rs → ∀ r ∈ rs, r.Local

/-- Same cursor and history. -/
structure ZDoc.Still (d d' : ZDoc) : Prop where
  cursor : d'.cursor = d.cursor
  undo : d'.undo = d.undo
  redo : d'.redo = d.redo
  group : d'.group = d.group

theorem ZDoc.Still.rfl' (d : ZDoc) : d.Still d := ⟨rfl, rfl, rfl, rfl⟩
theorem ZDoc.Still.trans {d d' d'' : ZDoc} (h : d.Still d') (h' : d'.Still d'') : d.Still d'' :=
  ⟨h'.cursor.trans h.cursor, h'.undo.trans h.undo, h'.redo.trans h.redo, h'.group.trans h.group⟩
theorem ZDoc.Still.local' {d d' : ZDoc} (h : d.Still d') (hl : d.Local) : d'.Local :=
  ⟨by rw [h.undo]; exact hl.undo, by rw [h.redo]; exact hl.redo, by rw [h.group]; exact hl.group⟩

theorem ZDoc.alter_still (d : ZDoc) (c p) : d.Still (d.alter segs grant c p) := by
  unfold ZDoc.alter ZDoc.report
  split <;> exact ⟨rfl, rfl, rfl, rfl⟩

theorem ZDoc.perform_still (d : ZDoc) {r : Recipe} (h : r.Local) : d.Still (d.perform segs grant r) := by
  cases r with
  | put s p => exact d.alter_still _ _
  | cut o p q => exact d.alter_still _ _
  | swap o n => exact h.elim

theorem ZDoc.revert_still (d : ZDoc) {r : Recipe} (h : r.Local) : d.Still (d.revert segs grant r) := by
  cases r with
  | put s p => exact d.alter_still _ _
  | cut o p q =>
    cases o with
    | none => exact .rfl' d
    | some o => exact d.alter_still _ _
  | swap o n => exact h.elim

theorem ZDoc.foldl_still {f : ZDoc → Recipe → ZDoc} (hf : ∀ (d : ZDoc) (r : Recipe), r.Local → d.Still (f d r)) (rs : List Recipe) (d : ZDoc)
    (h : ∀ r ∈ rs, r.Local) : d.Still (rs.foldl f d) := by
  induction rs generalizing d with
  | nil => exact .rfl' d
  | cons r rs ih => exact (hf d r (h r (by simp))).trans (ih _ fun r hr => h r (by simp [hr]))

theorem ZDoc.push_local {d : ZDoc} (hl : d.Local) {rs : List Recipe} (h : ∀ r ∈ rs, r.Local) : (d.push rs).Local := by
  refine ⟨?_, (by intro x hx; cases hx), hl.group⟩
  intro x hx
  rcases List.mem_cons.mp hx with rfl | hx
  · exact h
  · exact hl.undo x hx

theorem ZDoc.edit_local {d : ZDoc} (hl : d.Local) {r : Recipe} (h : r.Local) :
    (d.edit segs grant r).cursor = d.cursor ∧ (d.edit segs grant r).Local := by
  have hs := d.perform_still (segs := segs) (grant := grant) h
  have hl' := hs.local' hl
  unfold ZDoc.edit
  dsimp only
  cases hg : (d.perform segs grant r).group with
  | none => exact ⟨hs.cursor, push_local hl' (by simpa using h)⟩
  | some rs =>
    refine ⟨hs.cursor, hl'.undo, hl'.redo, ?_⟩
    intro x hx
    cases hx
    intro r' hr'
    rcases List.mem_append.mp hr' with hr' | hr'
    · exact hl'.group rs hg r' hr'
    · rw [List.mem_singleton.mp hr']; exact h

theorem ZDoc.step_local {d : ZDoc} (hl : d.Local) (c : Buf.Cmd) (hc : ¬ Props.Swaps c) :
    (d.step segs grant c).Local ∧ (¬ Props.MovesCursor c → (d.step segs grant c).cursor = d.cursor) := by
  cases c with
  | insert s => have := ZDoc.edit_local (segs := segs) (grant := grant) hl (r := .put s d.cursor.position) trivial; exact ⟨this.2, fun _ => this.1⟩
  | delete => have := ZDoc.edit_local (segs := segs) (grant := grant) hl (r := d.cutNow segs d.cursor.position (d.deleteEnd segs)) trivial; exact ⟨this.2, fun _ => this.1⟩
  | deleteRange p q => have := ZDoc.edit_local (segs := segs) (grant := grant) hl (r := d.cutNow segs p q) trivial; exact ⟨this.2, fun _ => this.1⟩
  | replace t => exact (hc trivial).elim
  | reload t => exact (hc trivial).elim
  | undo =>
    have rev : ∀ (d : ZDoc) (rs : List Recipe), (∀ r ∈ rs, r.Local) → d.Still (d.revertAll segs grant rs) := fun d rs h =>
      foldl_still (fun d r h => d.revert_still h) _ d (fun r hr => h r (List.mem_reverse.mp hr))
    have pop : (match d.undo with
        | rs :: rest => ZDoc.revertAll segs grant { d with group := none, undo := rest, redo := rs :: d.redo } rs
        | [] => { d with group := none }).Local ∧ (match d.undo with
        | rs :: rest => ZDoc.revertAll segs grant { d with group := none, undo := rest, redo := rs :: d.redo } rs
        | [] => { d with group := none }).cursor = d.cursor := by
      cases hu : d.undo with
      | nil => exact ⟨⟨(by intro x hx; cases hx), hl.redo, (by intro x hx; cases hx)⟩, rfl⟩
      | cons rs rest =>
        have h1 := hl.undo
        rw [hu] at h1
        have hs := rev { d with group := none, undo := rest, redo := rs :: d.redo } rs (h1 rs (by simp))
        refine ⟨hs.local' ⟨fun x hx => h1 x (by simp [hx]), ?_, (by intro x hx; cases hx)⟩, hs.cursor⟩
        intro x hx
        rcases List.mem_cons.mp hx with rfl | hx
        · exact h1 _ (by simp)
        · exact hl.redo x hx
    show (d.undo1 segs grant).Local ∧ (_ → (d.undo1 segs grant).cursor = d.cursor)
    unfold ZDoc.undo1
    cases hg : d.group with
    | none => exact ⟨pop.1, fun _ => pop.2⟩
    | some rs =>
      cases rs with
      | nil => exact ⟨pop.1, fun _ => pop.2⟩
      | cons r rs =>
        have hs := rev { d with group := none } (r :: rs) (hl.group _ hg)
        exact ⟨hs.local' ⟨hl.undo, hl.redo, (by intro x hx; cases hx)⟩, fun _ => hs.cursor⟩
  | redo =>
    show (d.redo1 segs grant).Local ∧ (_ → (d.redo1 segs grant).cursor = d.cursor)
    unfold ZDoc.redo1
    cases hu : d.redo with
    | nil => exact ⟨hl, fun _ => rfl⟩
    | cons rs rest =>
      have h1 := hl.redo
      rw [hu] at h1
      have hs := foldl_still (f := ZDoc.perform segs grant) (fun d r h => d.perform_still h) rs { d with undo := rs :: d.undo, redo := rest } (h1 rs (by simp))
      refine ⟨hs.local' ⟨?_, fun x hx => h1 x (by simp [hx]), hl.group⟩, fun _ => hs.cursor⟩
      intro x hx
      rcases List.mem_cons.mp hx with rfl | hx
      · exact h1 _ (by simp)
      · exact hl.undo x hx
  | startGroup =>
    refine ⟨⟨hl.undo, hl.redo, ?_⟩, fun _ => rfl⟩
    intro rs hrs
    simp only [ZDoc.step, Option.some.injEq] at hrs
    cases hg : d.group with
    | none => rw [hg] at hrs; subst hrs; intro r hr; cases hr
    | some rs' => rw [hg] at hrs; subst hrs; exact hl.group _ hg
  | endGroup =>
    show (d.endGroup).Local ∧ (_ → (d.endGroup).cursor = d.cursor)
    unfold ZDoc.endGroup
    have h0 : ({ d with group := none } : ZDoc).Local := ⟨hl.undo, hl.redo, (by intro x hx; cases hx)⟩
    cases hg : d.group with
    | none => exact ⟨h0, fun _ => rfl⟩
    | some rs =>
      cases rs with
      | nil => exact ⟨h0, fun _ => rfl⟩
      | cons r rs => exact ⟨push_local h0 (hl.group _ hg), fun _ => rfl⟩
  | move m => exact ⟨⟨hl.undo, hl.redo, hl.group⟩, fun h => (h trivial).elim⟩
  | setCursor p => exact ⟨⟨hl.undo, hl.redo, hl.group⟩, fun h => (h trivial).elim⟩
  | setCallback v => exact ⟨⟨hl.undo, hl.redo, hl.group⟩, fun _ => rfl⟩
  | saved => exact ⟨⟨hl.undo, hl.redo, hl.group⟩, fun _ => rfl⟩

theorem ZDoc.steps_local (cs : List Buf.Cmd) {d : ZDoc} (hl : d.Local) (hc : ∀ c ∈ cs, ¬ Props.Swaps c) :
    (d.steps segs grant cs).Local ∧ ((∀ c ∈ cs, ¬ Props.MovesCursor c) → (d.steps segs grant cs).cursor = d.cursor) := by
  induction cs generalizing d with
  | nil => exact ⟨hl, fun _ => rfl⟩
  | cons c cs ih =>
    obtain ⟨h1, h2⟩ := ZDoc.step_local (segs := segs) (grant := grant) hl c (hc c (by simp))
    obtain ⟨h3, h4⟩ := ih h1 (fun c h => hc c (by simp [h]))
    exact ⟨h3, fun hm => (h4 fun c h => hm c (by simp [h])).trans (h2 (hm c (by simp)))⟩

end Scribe.Spec

namespace Scribe.Props
open Spec Buf

/-- **C69.** In a session in which the whole text is never replaced, no insertion, deletion, undo, redo, group or save moves the cursor:
only movements do. -/
theorem C69_edits_leave_cursor (S : Segmenter) (A : Alloc) (k : Nat) (t : Option Text) (cs cs' : List Cmd) (b b' : Buf)
    (hc : ∀ c ∈ cs ++ cs', ¬ Swaps c) (hm : ∀ c ∈ cs', ¬ MovesCursor c)
    (h : execAll S A (match t with | some t => Buf.fromContent A k t | none => Buf.new A k) cs = .ok b)
    (h' : execAll S A b cs' = .ok b') : b'.cursor = b.cursor := by
  have hl0 : (ZDoc.new A.grant k (t.getD []) t.isSome).Local :=
    ⟨(fun x hx => by cases hx), (fun x hx => by cases hx), (fun x hx => by cases hx)⟩
  obtain ⟨b0, h, h0, hs0⟩ : ∃ b0, execAll S A b0 cs = .ok b ∧ ZSim b0 (ZDoc.new A.grant k (t.getD []) t.isSome) ∧ Sane b0 := by
    cases t with
    | none => exact ⟨_, h, ZSim.new k, sane_new k⟩
    | some t => exact ⟨_, h, ZSim.fromContent k t, sane_fromContent k t⟩
  obtain ⟨b1, h1, h2⟩ := h0.steps (S := S) (A := A) cs hs0
  obtain ⟨b1', h1', hs⟩ := execAll_safe (S := S) (A := A) cs hs0
  rw [h] at h1 h1'; cases h1; cases h1'
  obtain ⟨b2, h3, h4⟩ := h2.steps (S := S) (A := A) cs' hs
  rw [h'] at h3; cases h3
  rw [h4.cursor, h2.cursor]
  exact (ZDoc.steps_local cs' (ZDoc.steps_local cs hl0 (fun c h => hc c (by simp [h]))).1 (fun c h => hc c (by simp [h]))).2 hm

/-- The hypotheses: edits, undo and redo with the cursor in the middle. -/
example : ∀ c ∈ ([.move .right, .insert (Demo.s "x")] ++ [.insert (Demo.s "y\n"), .deleteRange ⟨0, 0⟩ ⟨1, 0⟩, .undo, .undo, .redo] : List Cmd), ¬ Swaps c := by
  intro c hc; simp at hc; rcases hc with rfl | rfl | rfl | rfl | rfl | rfl | rfl <;> exact id

/-- **C69, typing is lost.** If the cursor stands where there is no text, any number of insertions leave contents and cursor alone;
each still counts as an edit and calls the callback. -/
theorem C69_typing_lost (S : Segmenter) (A : Alloc) (b : Buf) (d : Doc) (ss : List Text) (h : Reached S A b d) (hg : b.group = none)
    (hb : exists? S.segs d.text b.cursor.position = false) :
    ∃ b', execAll S A b (ss.map .insert) = .ok b' ∧ b'.data.toStr = .ok d.text ∧ b'.cursor = b.cursor ∧
      b'.history.previous.length = b.history.previous.length + ss.length ∧
      b'.log = b.log ++ (if b.callback then List.replicate ss.length b.cursor.position else []) := by
  have hh := h.holds
  clear h
  induction ss generalizing b with
  | nil => exact ⟨b, rfl, hh.toStr, rfl, rfl, by simp⟩
  | cons s ss ih =>
    obtain ⟨g', h1, h2, h3⟩ := hh.insert (A := A) s b.cursor.position
    have hl : locate (S.segs d.text) b.cursor.position = none := by
      unfold exists? at hb
      cases hl : locate (S.segs d.text) b.cursor.position with
      | none => rfl
      | some x => rw [hl] at hb; cases hb
    have e : insertAt S.segs d.text s b.cursor.position = d.text := by unfold insertAt; rw [hl]
    rw [e] at h2 h3
    have h3 := h3 (by intro x y hxy; rw [hl] at hxy; cases hxy)
    let b1 := ({ b with data := g' }.report b.cursor.position).store (.insert s b.cursor.position)
    have e1 : exec S A b (.insert s) = .ok b1 := by
      simp only [exec, Buf.insert, runOp, h1, Except.ok_bind']; rfl
    have f1 : b1.data = g' ∧ b1.cursor = b.cursor ∧ b1.group = none ∧ b1.callback = b.callback ∧
        b1.history.previous.length = b.history.previous.length + 1 ∧ b1.log = b.log ++ (if b.callback then [b.cursor.position] else []) := by
      simp only [b1, Buf.store, report_group, hg, report_history, History.add]
      unfold Buf.report
      split
      · simp
      · simp
    obtain ⟨k1, k2, k3, k4, k5, k6⟩ := f1
    obtain ⟨b2, m1, m2, m3, m4, m5⟩ := ih b1 k3 (by rw [k2]; exact hb) (by rw [k1]; exact h3)
    refine ⟨b2, ?_, m2, m3.trans k2, by rw [m4, k5, List.length_cons]; omega, ?_⟩
    · simp only [List.map_cons, execAll, e1, Except.ok_bind', m1]
    · rw [m5, k6, k4, k2]
      cases b.callback
      · simp
      · simp [List.replicate_succ]

/-- The cursor at the end of a line; an undo takes the line away; typing has no effect until the cursor is moved. -/
example : (execAll Demo.seg Demo.tight (Buf.fromContent Demo.tight 0 (Demo.s "ab"))
      [.insert (Demo.s "x\nyz"), .move .down, .undo, .insert (Demo.s "lost"), .insert (Demo.s "lost"), .move .firstLine, .insert (Demo.s "k")] >>=
    fun b => b.data.toStr >>= fun t => .ok (t, b.cursor.position, b.history.previous.length)) = .ok (Demo.s "kab", ⟨0, 0⟩, 3) := by
  decide +kernel

end Scribe.Props
