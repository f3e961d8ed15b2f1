import Verif.Spec.Calls
import Verif.Spec.Snap
import Verif.Proofs.Sim
/-! Documents refine snapshot histories. -/
namespace Scribe
open Spec Buf
variable {S : Segmenter} {A : Alloc}

/-- The undo stack leads back from `t` through the texts `ts`. -/
def PastR : List (List Edit) → Text → List Text → Prop
  | [], _, [] => True
  | es :: rest, t, t0 :: ts => Chain es t0 t ∧ PastR rest t0 ts
  | _, _, _ => False

/-- The redo stack leads on from `t` through the texts `ts`. -/
def FutureR : List (List Edit) → Text → List Text → Prop
  | [], _, [] => True
  | es :: rest, t, t1 :: ts => Chain es t t1 ∧ FutureR rest t1 ts
  | _, _, _ => False

def GroupR : Option (List Edit) → Option (Option Text) → Text → Prop
  | none, none, _ => True
  | some [], some none, _ => True
  | some (e :: es), some (some b), t => Chain (e :: es) b t
  | _, _, _ => False

structure SnapRel (d : Doc) (s : Snap) : Prop where
  present : s.present = d.text
  past : PastR d.undo s.base s.past
  future : FutureR d.redo s.base s.future
  group : GroupR d.group s.group d.text

theorem PastR.length {u t ts} (h : PastR u t ts) : u.length = ts.length := by
  induction u generalizing t ts with
  | nil => cases ts with
    | nil => rfl
    | cons => cases h
  | cons e u ih => cases ts with
    | nil => cases h
    | cons t0 ts => simp [ih h.2]

theorem FutureR.length {u t ts} (h : FutureR u t ts) : u.length = ts.length := by
  induction u generalizing t ts with
  | nil => cases ts with
    | nil => rfl
    | cons => cases h
  | cons e u ih => cases ts with
    | nil => cases h
    | cons t0 ts => simp [ih h.2]

theorem snap_edit {d : Doc} {s : Snap} (h : SnapRel d s) (e : Edit) (he : e.before = d.text) :
    SnapRel (d.edit S.segs e) (s.edit e.after) := by
  obtain ⟨⟨s1, s2, s3, s4⟩, s5⟩ := apply_same S.segs d e
  obtain ⟨hp, hpast, hfut, hg⟩ := h
  unfold Doc.edit Snap.edit
  simp only
  rw [s3]
  cases hdg : d.group with
  | none =>
    rw [hdg] at hg
    cases hsg : s.group with
    | some x => rw [hsg] at hg; cases hg
    | none =>
      have hb : s.base = s.present := by unfold Snap.base; rw [hsg]
      rw [hb] at hpast
      refine ⟨s5.symm, ?_, trivial, ?_⟩
      · simp only [Doc.push, Snap.base]
        refine ⟨⟨by rw [he, hp], rfl⟩, ?_⟩
        rw [s1]; exact hpast
      · simp only [Doc.push]; rw [s3, hdg]; trivial
  | some es =>
    rw [hdg] at hg
    cases es with
    | nil =>
      cases hsg : s.group with
      | none => rw [hsg] at hg; cases hg
      | some x =>
        rw [hsg] at hg
        cases x with
        | some x => cases hg
        | none =>
          have hb : s.base = s.present := by unfold Snap.base; rw [hsg]
          rw [hb] at hpast hfut
          refine ⟨s5.symm, ?_, ?_, ?_⟩
          · simp only [Snap.base]; rw [s1]; exact hpast
          · simp only [Snap.base]; rw [s2]; exact hfut
          · exact ⟨by rw [he, hp], s5.symm⟩
    | cons e0 es =>
      cases hsg : s.group with
      | none => rw [hsg] at hg; cases hg
      | some x =>
        rw [hsg] at hg
        cases x with
        | none => cases hg
        | some x =>
          have hb : s.base = x := by unfold Snap.base; rw [hsg]
          rw [hb] at hpast hfut
          refine ⟨s5.symm, ?_, ?_, ?_⟩
          · simp only [Snap.base]; rw [s1]; exact hpast
          · simp only [Snap.base]; rw [s2]; exact hfut
          · simp only
            show Chain ((e0 :: es) ++ [e]) x _
            exact Chain.append hg ⟨he, s5.symm⟩

theorem snap_undo {d : Doc} {s : Snap} (h : SnapRel d s) : SnapRel (d.undo1 S.segs) s.undo := by
  obtain ⟨hp, hpast, hfut, hg⟩ := h
  have pop : s.base = s.present → SnapRel (match d.undo with
        | es :: rest => Doc.revertAll S.segs { d with group := none, undo := rest, redo := es :: d.redo } es
        | [] => { d with group := none })
      (match s.past with
        | t :: ts => ⟨ts, t, s.present :: s.future, none⟩
        | [] => { s with group := none }) := by
    intro hb
    rw [hb] at hpast hfut
    cases hdu : d.undo with
    | nil =>
      rw [hdu] at hpast
      cases hsp : s.past with
      | cons => rw [hsp] at hpast; cases hpast
      | nil => exact ⟨hp, trivial, hfut, trivial⟩
    | cons es rest =>
      rw [hdu] at hpast
      cases hsp : s.past with
      | nil => rw [hsp] at hpast; cases hpast
      | cons t ts =>
        rw [hsp] at hpast
        have hch : Chain es t d.text := by rw [← hp]; exact hpast.1
        obtain ⟨⟨s1, s2, s3, s4⟩, s5⟩ := revertAll_same S.segs es
          { d with group := none, undo := rest, redo := es :: d.redo } hch
        refine ⟨s5.symm, ?_, ?_, ?_⟩
        · rw [s1]; exact hpast.2
        · rw [s2]; exact ⟨by rw [hp]; exact hch, hfut⟩
        · rw [s3]; trivial
  unfold Doc.undo1 Snap.undo
  cases hdg : d.group with
  | none =>
    rw [hdg] at hg
    cases hsg : s.group with
    | some x => rw [hsg] at hg; cases hg
    | none => exact pop (by unfold Snap.base; rw [hsg])
  | some es =>
    rw [hdg] at hg
    cases es with
    | nil =>
      cases hsg : s.group with
      | none => rw [hsg] at hg; cases hg
      | some x =>
        rw [hsg] at hg
        cases x with
        | some x => cases hg
        | none => exact pop (by unfold Snap.base; rw [hsg])
    | cons e0 es =>
      cases hsg : s.group with
      | none => rw [hsg] at hg; cases hg
      | some x =>
        rw [hsg] at hg
        cases x with
        | none => cases hg
        | some x =>
          have hb : s.base = x := by unfold Snap.base; rw [hsg]
          rw [hb] at hpast hfut
          obtain ⟨⟨s1, s2, s3, s4⟩, s5⟩ := revertAll_same S.segs (e0 :: es) { d with group := none } hg
          refine ⟨s5.symm, ?_, ?_, ?_⟩
          · rw [s1]; exact hpast
          · rw [s2]; exact hfut
          · rw [s3]; trivial

theorem base_of_noEdits {d : Doc} {s : Snap} (h : SnapRel d s) (hc : d.group = none ∨ d.group = some []) : s.base = s.present := by
  have hg := h.group
  unfold Snap.base
  rcases hc with hc | hc
  · rw [hc] at hg
    cases hsg : s.group with
    | none => rfl
    | some x => rw [hsg] at hg; cases hg
  · rw [hc] at hg
    cases hsg : s.group with
    | none => rfl
    | some x => cases x with
      | none => rfl
      | some x => rw [hsg] at hg; cases hg

theorem snap_redo {d : Doc} {s : Snap} (h : SnapRel d s) (hc : d.redo = [] ∨ d.group = none ∨ d.group = some []) :
    SnapRel (d.redo1 S.segs) s.redo := by
  unfold Doc.redo1 Snap.redo
  cases hdr : d.redo with
  | nil =>
    have hf := h.future
    rw [hdr] at hf
    cases hsf : s.future with
    | nil => exact h
    | cons => rw [hsf] at hf; cases hf
  | cons es rest =>
    have hc' : d.group = none ∨ d.group = some [] := by
      rcases hc with hc | hc
      · rw [hdr] at hc; cases hc
      · exact hc
    have hb := base_of_noEdits h hc'
    obtain ⟨hp, hpast, hfut, hg⟩ := h
    rw [hb] at hpast hfut
    rw [hdr] at hfut
    cases hsf : s.future with
    | nil => rw [hsf] at hfut; cases hfut
    | cons t ts =>
      rw [hsf] at hfut
      have hch : Chain es d.text t := by rw [← hp]; exact hfut.1
      obtain ⟨⟨s1, s2, s3, s4⟩, s5⟩ := applyAll_same S.segs es { d with undo := es :: d.undo, redo := rest } hch
      have hb' : ({ s with past := s.present :: s.past, present := t, future := ts } : Snap).base = t := by
        unfold Snap.base
        rcases hc' with hc' | hc'
        · rw [hc'] at hg
          cases hsg : s.group with
          | none => rfl
          | some x => rw [hsg] at hg; cases hg
        · rw [hc'] at hg
          cases hsg : s.group with
          | none => rfl
          | some x => cases x with
            | none => rfl
            | some x => rw [hsg] at hg; cases hg
      refine ⟨s5.symm, ?_, ?_, ?_⟩
      · rw [s1, hb']; exact ⟨hfut.1, hpast⟩
      · rw [s2, hb']; exact hfut.2
      · rw [s3]
        show GroupR d.group s.group _
        rcases hc' with hc' | hc'
        · rw [hc'] at hg ⊢
          cases hsg : s.group with
          | none => trivial
          | some x => rw [hsg] at hg; cases hg
        · rw [hc'] at hg ⊢
          cases hsg : s.group with
          | none => rw [hsg] at hg; cases hg
          | some x => cases x with
            | none => trivial
            | some x => rw [hsg] at hg; cases hg

theorem snap_replace {d : Doc} {s : Snap} (h : SnapRel d s) (c : Text) :
    SnapRel (d.replace S.segs c) (if c = s.present then s else s.edit c) := by
  unfold Doc.replace
  rw [h.present]
  split
  · exact h
  · exact snap_edit h (Doc.replaceEdit d.text c) rfl

theorem snap_endGroup {d : Doc} {s : Snap} (h : SnapRel d s) : SnapRel d.endGroup s.endGroup := by
  obtain ⟨hp, hpast, hfut, hg⟩ := h
  unfold Doc.endGroup Snap.endGroup
  cases hdg : d.group with
  | none =>
    rw [hdg] at hg
    cases hsg : s.group with
    | some x => rw [hsg] at hg; cases hg
    | none =>
      have hb : s.base = s.present := by unfold Snap.base; rw [hsg]
      rw [hb] at hpast hfut
      exact ⟨hp, hpast, hfut, trivial⟩
  | some es =>
    rw [hdg] at hg
    cases es with
    | nil =>
      cases hsg : s.group with
      | none => rw [hsg] at hg; cases hg
      | some x =>
        rw [hsg] at hg
        cases x with
        | some x => cases hg
        | none =>
          have hb : s.base = s.present := by unfold Snap.base; rw [hsg]
          rw [hb] at hpast hfut
          exact ⟨hp, hpast, hfut, trivial⟩
    | cons e0 es =>
      cases hsg : s.group with
      | none => rw [hsg] at hg; cases hg
      | some x =>
        rw [hsg] at hg
        cases x with
        | none => cases hg
        | some x =>
          have hb : s.base = x := by unfold Snap.base; rw [hsg]
          rw [hb] at hpast hfut
          exact ⟨hp, ⟨by simp only [Snap.base]; rw [hp]; exact hg, hpast⟩, trivial, trivial⟩

theorem snap_startGroup {d : Doc} {s : Snap} (h : SnapRel d s) : SnapRel (d.step S.segs .startGroup) s.startGroup := by
  obtain ⟨hp, hpast, hfut, hg⟩ := h
  have hb : s.startGroup.base = s.base := by
    unfold Snap.startGroup Snap.base
    rcases s.group with _ | _ | x <;> rfl
  refine ⟨hp, by rw [hb]; exact hpast, by rw [hb]; exact hfut, ?_⟩
  unfold Snap.startGroup Doc.step
  simp only
  cases hdg : d.group with
  | none =>
    rw [hdg] at hg
    cases hsg : s.group with
    | some x => rw [hsg] at hg; cases hg
    | none => trivial
  | some es =>
    rw [hdg] at hg
    cases hsg : s.group with
    | none => rw [hsg] at hg; cases es <;> cases hg
    | some x => rw [hsg] at hg; exact hg

theorem snap_step {d : Doc} {s : Snap} (h : SnapRel d s) (c : Cmd) (hc : CleanCmd S.segs d c) :
    SnapRel (d.step S.segs c) (s.step S.segs d.cursor.position c) := by
  have hp := h.present
  cases c with
  | insert x =>
    have := snap_edit (S := S) h (Doc.insertEdit S.segs d.text x d.cursor.position) rfl
    simp only [Snap.step, hp]; exact this
  | delete =>
    have := snap_edit (S := S) h (Doc.deleteEdit S.segs d.text d.cursor.position (Doc.deleteEnd S.segs d.text d.cursor.position)) rfl
    simp only [Snap.step, hp]; exact this
  | deleteRange q r =>
    have := snap_edit (S := S) h (Doc.deleteEdit S.segs d.text (lo q r) (hi q r)) rfl
    simp only [Snap.step, hp]; exact this
  | replace c => exact snap_replace h c
  | undo => exact snap_undo h
  | redo => exact snap_redo h hc
  | startGroup => exact snap_startGroup h
  | endGroup => exact snap_endGroup h
  | move m => exact ⟨h.present, h.past, h.future, h.group⟩
  | setCursor p => exact ⟨h.present, h.past, h.future, h.group⟩
  | setCallback b => exact ⟨h.present, h.past, h.future, h.group⟩
  | saved => exact ⟨h.present, h.past, h.future, h.group⟩
  | reload c =>
    have := snap_replace (S := S) h c
    exact ⟨this.present, this.past, this.future, this.group⟩

theorem snap_steps {d : Doc} {s : Snap} (h : SnapRel d s) (cs : List Cmd) (hc : CleanCmds S.segs d cs) :
    SnapRel (d.steps S.segs cs) (snaps S.segs d s cs) := by
  induction cs generalizing d s with
  | nil => exact h
  | cons c cs ih => exact ih (snap_step h c hc.1) hc.2

theorem snapRel_new (t : Text) (m : Bool) : SnapRel (Doc.new t m) (Snap.new t) := ⟨rfl, trivial, trivial, trivial⟩

/-- Buffer, document and snapshots agree. -/
structure Tri (S : Segmenter) (b : Buf) (d : Doc) (s : Snap) : Prop where
  sim : Sim S b d
  snap : SnapRel d s

namespace Tri
variable {b : Buf} {d : Doc} {s : Snap}

theorem exec (h : Tri S b d s) (c : Cmd) (hc : CleanCmd S.segs d c) :
    ∃ b', Buf.exec S A b c = .ok b' ∧ Tri S b' (d.step S.segs c) (s.step S.segs d.cursor.position c) := by
  obtain ⟨b', h1, h2⟩ := exec_sim (A := A) h.sim c hc
  exact ⟨b', h1, h2, snap_step h.snap c hc⟩

theorem execAll (h : Tri S b d s) (cs : List Cmd) (hc : CleanCmds S.segs d cs) :
    ∃ b', Buf.execAll S A b cs = .ok b' ∧ Tri S b' (d.steps S.segs cs) (snaps S.segs d s cs) := by
  obtain ⟨b', h1, h2⟩ := execAll_sim (A := A) h.sim cs hc
  exact ⟨b', h1, h2, snap_steps h.snap cs hc⟩

theorem data (h : Tri S b d s) : b.data.toStr = .ok s.present := by rw [h.snap.present]; exact h.sim.face.data.toStr

theorem previous (h : Tri S b d s) : b.history.previous.length = s.past.length := by
  rw [h.sim.undo.length_eq, h.snap.past.length]

theorem next (h : Tri S b d s) : b.history.next.length = s.future.length := by
  rw [h.sim.redo.length_eq, h.snap.future.length]

theorem group_none (h : Tri S b d s) (hg : b.group = none) : d.group = none ∧ s.group = none := by
  have h1 := h.sim.group
  have h2 := h.snap.group
  rw [hg] at h1
  have hd : d.group = none := by
    cases hd : d.group with
    | none => rfl
    | some x => rw [hd] at h1; cases h1
  refine ⟨hd, ?_⟩
  rw [hd] at h2
  cases hs : s.group with
  | none => rfl
  | some x => rw [hs] at h2; cases h2

theorem group_of_snap (h : Tri S b d s) (hg : s.group = none) : b.group = none ∧ d.group = none := by
  have h1 := h.sim.group
  have h2 := h.snap.group
  rw [hg] at h2
  have hd : d.group = none := by
    cases hd : d.group with
    | none => rfl
    | some x => rw [hd] at h2; cases x <;> cases h2
  refine ⟨?_, hd⟩
  rw [hd] at h1
  cases hb : b.group with
  | none => rfl
  | some x => rw [hb] at h1; cases h1

theorem group_empty (h : Tri S b d s) (hg : b.group = some []) : d.group = some [] ∧ s.group = some none := by
  have h1 := h.sim.group
  have h2 := h.snap.group
  rw [hg] at h1
  have hd : d.group = some [] := by
    cases hd : d.group with
    | none => rw [hd] at h1; cases h1
    | some x =>
      rw [hd] at h1
      cases h1 with
      | some h1 => cases h1; rfl
  refine ⟨hd, ?_⟩
  rw [hd] at h2
  cases hs : s.group with
  | none => rw [hs] at h2; cases h2
  | some x => cases x with
    | none => rfl
    | some x => rw [hs] at h2; cases h2

theorem group_base (h : Tri S b d s) (hg : b.group = none ∨ b.group = some []) : s.base = s.present := by
  rcases hg with hg | hg
  · unfold Snap.base; rw [(h.group_none hg).2]
  · unfold Snap.base; rw [(h.group_empty hg).2]

end Tri

theorem cleanCmds_append {segs : Text → List Text} {d : Doc} {x y : List Cmd} :
    CleanCmds segs d (x ++ y) ↔ CleanCmds segs d x ∧ CleanCmds segs (d.steps segs x) y := by
  induction x generalizing d with
  | nil => simp [CleanCmds, Doc.steps]
  | cons c x ih =>
    simp only [List.cons_append, CleanCmds, ih]
    exact ⟨fun ⟨a, b, c⟩ => ⟨⟨a, b⟩, c⟩, fun ⟨⟨a, b⟩, c⟩ => ⟨a, b, c⟩⟩

theorem snaps_append {segs : Text → List Text} {d : Doc} {s : Snap} {x y : List Cmd} :
    snaps segs d s (x ++ y) = snaps segs (d.steps segs x) (snaps segs d s x) y := by
  induction x generalizing d s with
  | nil => rfl
  | cons c x ih => exact ih

end Scribe
