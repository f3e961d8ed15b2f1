import Verif.Spec.Office
import Verif.Props.Desktop
/-! # Several programs on one disk -/
namespace Scribe
open Spec Props
variable {σ : Type} {S : Segmenter} {A : Alloc}

/-- Every workspace shows the documents of its program. -/
def Busy (S : Segmenter) (A : Alloc) (s : Nat → Syntaxes σ) (o : Office σ) (d : Offices σ) : Prop :=
  ∀ i, Desks S A ⟨o.ws i, o.disk⟩ (s i) ⟨d.docs i, d.disk⟩

theorem Busy.step {s : Nat → Syntaxes σ} {o : Office σ} {d : Offices σ} (h : Busy S A s o d) (ev : Event σ) :
    ∃ o', o.step S A ev = .ok o' ∧ Busy S A s o' (d.step S.segs A.grant s ev) ∧ ∀ i, (o'.ws i).path = (o.ws i).path := by
  cases ev with
  | deed who W a =>
    obtain ⟨e', h1, h2, h3⟩ := (h who).step (W := W) a
    refine ⟨_, by simp only [Office.step, h1, Except.ok_bind']; rfl, fun i => ?_, fun i => ?_⟩
    · simp only [Offices.step]
      by_cases hi : i = who
      · subst hi; simp only [if_pos]; exact h2
      · simp only [if_neg hi]; exact ⟨(h i).docs, h2.disk⟩
    · by_cases hi : i = who
      · subst hi; simp only [if_pos]; exact h3
      · simp only [if_neg hi]
  | outside disk => exact ⟨_, rfl, fun i => ⟨(h i).docs, rfl⟩, fun i => rfl⟩

theorem Busy.steps {s : Nat → Syntaxes σ} (es : List (Event σ)) : ∀ {o : Office σ} {d : Offices σ}, Busy S A s o d →
    ∃ o', o.steps S A es = .ok o' ∧ Busy S A s o' (d.steps S.segs A.grant s es) ∧ ∀ i, (o'.ws i).path = (o.ws i).path := by
  induction es with
  | nil => intro o d h; exact ⟨o, rfl, h, fun _ => rfl⟩
  | cons a as ih =>
    intro o d h
    obtain ⟨o1, f1, f2, f3⟩ := h.step a
    obtain ⟨o2, g1, g2, g3⟩ := ih f2
    exact ⟨o2, by simp only [Office.steps, f1, Except.ok_bind', g1], g2, fun i => (g3 i).trans (f3 i)⟩

theorem officeSteps_snoc (es : List (Event σ)) (ev : Event σ) (o : Office σ) : o.steps S A (es ++ [ev]) = o.steps S A es >>= fun o => o.step S A ev := by
  induction es generalizing o with
  | nil =>
    simp only [List.nil_append, Office.steps, Except.ok_bind']
    cases o.step S A ev <;> rfl
  | cons b as ih =>
    simp only [List.cons_append, Office.steps]
    cases o.step S A b with
    | error x => rfl
    | ok e' => exact ih e'

/-- How writing ends does not depend on what is on the disk. -/
theorem writeAll_ending (file : Nat) (rs : List WriteRes) (disk disk' : Disk) (bs : Bytes) : (writeAll file rs disk bs).2 = (writeAll file rs disk' bs).2 := by
  induction rs generalizing disk disk' bs with
  | nil => rfl
  | cons r rs ih =>
    unfold writeAll
    split
    · rfl
    · cases r with
      | failed => rfl
      | interrupted => exact ih _ _ _
      | wrote n =>
        cases n with
        | zero => rfl
        | succ n => exact ih _ _ _

theorem save_blind (b : FileBuf σ) (env : SaveEnv) (disk disk' : Disk) :
    (b.save env disk).map (fun r => r.2) = (b.save env disk').map (fun r => r.2) := by
  unfold FileBuf.save
  split
  · rfl
  · rfl
  · rfl
  · rename_i file _ _
    cases b.buf.data.toStr with
    | error e => rfl
    | ok t =>
      simp only [Except.ok_bind']
      have h := writeAll_ending file env.writes (fun f => if f = file then some [] else disk f) (fun f => if f = file then some [] else disk' f) (enc t)
      revert h
      generalize writeAll file env.writes (fun f => if f = file then some [] else disk f) (enc t) = r
      generalize writeAll file env.writes (fun f => if f = file then some [] else disk' f) (enc t) = r'
      obtain ⟨r1, r2⟩ := r; obtain ⟨r1', r2'⟩ := r'
      rintro rfl
      cases r2 <;> rfl

theorem saveBuf_blind {W : FileTree} {w : Workspace σ} {b : FileBuf σ} {env : SaveEnv} (disk disk' : Disk) {e e' : Editor σ}
    (h : Editor.saveBuf W ⟨w, disk⟩ b env = .ok e) (h' : Editor.saveBuf W ⟨w, disk'⟩ b env = .ok e') : e.ws = e'.ws := by
  unfold Editor.saveBuf at h h'
  obtain ⟨⟨x, y, z⟩, h1, h2⟩ := Except.bind_inv h
  obtain ⟨⟨x', y', z'⟩, h1', h2'⟩ := Except.bind_inv h'
  have := save_blind b (W.env b.path env) disk disk'
  simp only at h1 h1'
  rw [h1, h1'] at this
  simp only [Except.map, Except.ok.injEq, Prod.mk.injEq] at this
  cases h2; cases h2'
  simp only [this.2]

/-- What does not look at files does not depend on them. -/
theorem step_blind {W : FileTree} {w : Workspace σ} {a : Deed σ} (ha : ¬ ReadsFiles a) (disk disk' : Disk) {e e' : Editor σ}
    (h : Editor.step S A W ⟨w, disk⟩ a = .ok e) (h' : Editor.step S A W ⟨w, disk'⟩ a = .ok e') : e.ws = e'.ws := by
  cases a with
  | openPath | reload => exact absurd trivial ha
  | fresh | close | next | previous =>
    simp only [Editor.step] at h h'
    obtain ⟨x, h1, h2⟩ := Except.bind_inv h
    obtain ⟨x', h1', h2'⟩ := Except.bind_inv h'
    rw [h1] at h1'; cases h1'; cases h2; cases h2'; rfl
  | updateSyntax | setSyntax => cases h; cases h'; rfl
  | cmd c =>
    simp only [Editor.step] at h h'
    cases hc : w.current with
    | none => rw [hc] at h h'; cases h; cases h'; rfl
    | some b =>
      rw [hc] at h h'
      obtain ⟨x, h1, h2⟩ := Except.bind_inv h
      obtain ⟨x', h1', h2'⟩ := Except.bind_inv h'
      rw [h1] at h1'; cases h1'; cases h2; cases h2'; rfl
  | save env =>
    simp only [Editor.step] at h h'
    cases hc : w.current with
    | none => rw [hc] at h h'; cases h; cases h'; rfl
    | some b => rw [hc] at h h'; exact saveBuf_blind disk disk' h h'
  | saveAs p env =>
    simp only [Editor.step] at h h'
    cases hc : w.current with
    | none => rw [hc] at h h'; cases h; cases h'; rfl
    | some b => rw [hc] at h h'; exact saveBuf_blind disk disk' h h'

/-- If everything is written, everything is written. -/
theorem written_all (rs : List WriteRes) (n : Nat) (h : (written rs n).2 = true) : (written rs n).1 = n := by
  induction rs generalizing n with
  | nil => cases n with | zero => rfl | succ n => cases h
  | cons r rs ih =>
    cases n with
    | zero => rfl
    | succ n =>
      cases r with
      | failed => cases h
      | interrupted => exact ih _ h
      | wrote k =>
        cases k with
        | zero => cases h
        | succ k =>
          simp only [written] at h ⊢
          rw [ih _ h]; omega

/-- A program by itself, with its disk replaced before each step. -/
def alone (S : Segmenter) (A : Alloc) : Workspace σ → List (FileTree × Deed σ) → (Workspace σ → Prop)
  | w, [], w' => w' = w
  | w, (W, a) :: as, w' => ∃ disk e, Editor.step S A W ⟨w, disk⟩ a = .ok e ∧ alone S A e.ws as w'

theorem alone_of_steps (who : Nat) (es : List (Event σ)) : ∀ {o o' : Office σ}, o.steps S A es = .ok o' → alone S A (o.ws who) (deedsOf who es) (o'.ws who) := by
  induction es with
  | nil => intro o o' h; cases h; rfl
  | cons ev es ih =>
    intro o o' h
    simp only [Office.steps] at h
    obtain ⟨o1, h1, h2⟩ := Except.bind_inv h
    have := ih h2
    cases ev with
    | outside disk => cases h1; exact this
    | deed i W a =>
      simp only [Office.step] at h1
      obtain ⟨e, k1, k2⟩ := Except.bind_inv h1
      cases k2
      by_cases hi : i = who
      · subst hi
        simp only [deedsOf, List.filterMap_cons, if_pos]
        refine ⟨o.disk, e, k1, ?_⟩
        simp only [if_pos] at this
        exact this
      · have hi' : ¬ who = i := fun h => hi h.symm
        simp only [deedsOf, List.filterMap_cons, if_neg hi]
        simp only [if_neg hi'] at this
        exact this

theorem alone_unique {as : List (FileTree × Deed σ)} (ha : ∀ x ∈ as, ¬ ReadsFiles x.2) :
    ∀ {w w1 w2 : Workspace σ}, alone S A w as w1 → alone S A w as w2 → w1 = w2 := by
  induction as with
  | nil => rintro w w1 w2 rfl rfl; rfl
  | cons x as ih =>
    rintro w w1 w2 ⟨d, e, h1, h2⟩ ⟨d', e', h1', h2'⟩
    have := step_blind (ha x (by simp)) d d' h1 h1'
    rw [← this] at h2'
    exact ih (fun y hy => ha y (by simp [hy])) h2 h2'

end Scribe
