import Verif.Spec.Batch
import Verif.Spec.Calls
import Verif.Proofs.Typing
namespace Scribe.Spec
open Buf (Cmd)
variable {S : Segmenter} {P : Text → Prop}

theorem over_app (hP : Closed S.segs P) {a b : Text} (ha : Over S.segs P a) (hb : Over S.segs P b) : Over S.segs P (a ++ b) := by
  intro c hc
  rw [over_append hP ha hb] at hc
  exact (List.mem_append.mp hc).elim (ha c) (hb c)

/-- Cutting a part and inserting a text at a place of what remains. -/
theorem cut_step (hP : Closed S.segs P) {d : Doc} {x s y z w r : Text} (ht : d.text = x ++ s ++ y) (hx : Over S.segs P x) (hs : Over S.segs P s)
    (hy : Over S.segs P y) (hz : Over S.segs P z) (hw : Over S.segs P w) (hr : Over S.segs P r) (he : x ++ y = z ++ w) :
    CleanCmds S.segs d [.deleteRange (endPos (S.segs x)) (endPos (S.segs (x ++ s))), .move (.to (endPos (S.segs z))), .insert r] ∧
      (d.steps S.segs [.deleteRange (endPos (S.segs x)) (endPos (S.segs (x ++ s))), .move (.to (endPos (S.segs z))), .insert r]).text = z ++ r ++ w := by
  have hxs := over_app hP hx hs
  have s1 : S.segs d.text = S.segs (x ++ s) ++ S.segs y := by rw [ht, over_append hP hxs hy]
  have s2 : S.segs d.text = S.segs x ++ (S.segs s ++ S.segs y) := by rw [s1, over_append hP hx hs, List.append_assoc]
  have hov : Over S.segs P d.text := by rw [ht]; exact over_app hP hxs hy
  have hle : (endPos (S.segs x)).line < (endPos (S.segs (x ++ s))).line ∨
      (endPos (S.segs x)).line = (endPos (S.segs (x ++ s))).line ∧ (endPos (S.segs x)).offset ≤ (endPos (S.segs (x ++ s))).offset := by
    rw [over_append hP hx hs]; exact endPos_le_append _ _
  have hlo : lo (endPos (S.segs x)) (endPos (S.segs (x ++ s))) = endPos (S.segs x) := by unfold lo; rw [if_pos hle]
  have hhi : hi (endPos (S.segs x)) (endPos (S.segs (x ++ s))) = endPos (S.segs (x ++ s)) := by unfold hi; rw [if_pos hle]
  generalize hp : endPos (S.segs x) = p at *
  generalize hq : endPos (S.segs (x ++ s)) = q at *
  obtain ⟨e1, _⟩ := step_edit S.segs d (Doc.deleteEdit S.segs d.text (lo p q) (hi p q)) rfl
  have t1 : (d.step S.segs (.deleteRange p q)).text = x ++ y := by
    show (d.edit _ _).text = _
    rw [e1]
    show deleteRange _ _ _ _ = _
    rw [hlo, hhi]
    unfold deleteRange
    rw [← hq, after_cut s1, s2, ← hp, locate_append]
    simp only [S.join]
  have c1 : CleanCmd S.segs d (.deleteRange p q) := by
    refine ⟨over_cleanDelete hP _ _ hov, Or.inl ?_⟩
    rw [hhi, ← hq]; exact exists_cut s1
  generalize hd1 : d.step S.segs (.deleteRange p q) = d1 at t1
  have s3 : S.segs d1.text = S.segs z ++ S.segs w := by rw [t1, he, over_append hP hz hw]
  have hov1 : Over S.segs P d1.text := by rw [t1]; exact over_app hP hx hy
  have cur : (d1.step S.segs (.move (.to (endPos (S.segs z))))).cursor.position = endPos (S.segs z) := by
    show (tryMove S.segs d1.text d1.cursor _).position = _
    rw [tryMove, if_pos (exists_cut s3)]
  have t2 : (d1.step S.segs (.move (.to (endPos (S.segs z))))).text = d1.text := rfl
  generalize hd2 : d1.step S.segs (.move (.to (endPos (S.segs z)))) = d2 at cur t2
  have c3 : CleanCmd S.segs d2 (.insert r) := ⟨over_cleanInsert hP _ (by rw [t2]; exact hov1) hr, fun h => hP.noCrlf (hr _ h)⟩
  obtain ⟨e3, _⟩ := step_edit S.segs d2 (Doc.insertEdit S.segs d2.text r d2.cursor.position) rfl
  have t3 : (d2.step S.segs (.insert r)).text = z ++ r ++ w := by
    show (d2.edit _ _).text = _
    rw [e3]
    show insertAt _ _ _ _ = _
    rw [t2, cur, insert_at s3, S.join, S.join]
  refine ⟨⟨c1, ?_⟩, ?_⟩
  · rw [hd1]
    refine ⟨trivial, ?_⟩
    rw [hd2]
    exact ⟨c3, trivial⟩
  · rw [steps_cons, hd1, steps_cons, hd2, steps_cons, steps_nil, t3]

theorem swap_step (hP : Closed S.segs P) {d : Doc} {x s y r : Text} (ht : d.text = x ++ s ++ y) (hx : Over S.segs P x) (hs : Over S.segs P s)
    (hy : Over S.segs P y) (hr : Over S.segs P r) :
    CleanCmds S.segs d (swap S.segs x s r) ∧ (d.steps S.segs (swap S.segs x s r)).text = x ++ r ++ y :=
  cut_step hP ht hx hs hy hx hy hr rfl

theorem source_over (hP : Closed S.segs P) {ps : List Piece} {rest : Text} (hps : Pieces S.segs P ps) (hr : Over S.segs P rest) :
    Over S.segs P (source ps rest) ∧ Over S.segs P (target ps rest) := by
  induction ps with
  | nil => exact ⟨hr, hr⟩
  | cons p ps ih =>
    obtain ⟨h1, h2⟩ := ih (fun q hq => hps q (by simp [hq]))
    obtain ⟨k1, k2, k3⟩ := hps p (by simp)
    unfold source target at *
    rw [List.flatMap_cons, List.flatMap_cons, List.append_assoc _ _ rest, List.append_assoc _ _ rest]
    exact ⟨over_app hP (over_app hP k1 k2) h1, over_app hP (over_app hP k1 k3) h2⟩

theorem steps_app (segs) (d : Doc) (a b : List Cmd) : d.steps segs (a ++ b) = (d.steps segs a).steps segs b := List.foldl_append ..

theorem backward_step (hP : Closed S.segs P) (rest : Text) (hr : Over S.segs P rest) (ps : List Piece) (hps : Pieces S.segs P ps) (x : Text)
    (hx : Over S.segs P x) (d : Doc) (ht : d.text = x ++ source ps rest) :
    CleanCmds S.segs d (backward S.segs x ps) ∧ (d.steps S.segs (backward S.segs x ps)).text = x ++ target ps rest := by
  induction ps generalizing x with
  | nil => exact ⟨trivial, ht⟩
  | cons p ps ih =>
    obtain ⟨k1, k2, k3⟩ := hps p (by simp)
    have hps' : Pieces S.segs P ps := fun q hq => hps q (by simp [hq])
    have hxk := over_app hP hx k1
    obtain ⟨m1, m2⟩ := ih hps' (x ++ p.keep ++ p.old) (over_app hP hxk k2) (by rw [ht]; simp [source])
    obtain ⟨n1, n2⟩ := swap_step (x := x ++ p.keep) (s := p.old) (y := target ps rest) (r := p.new) hP m2 hxk k2 (source_over hP hps' hr).2 k3
    rw [backward]
    exact ⟨cleanCmds_app.mpr ⟨m1, n1⟩, by rw [steps_app, n2]; simp [target]⟩

theorem forward_step (hP : Closed S.segs P) (rest : Text) (hr : Over S.segs P rest) (ps : List Piece) (hps : Pieces S.segs P ps) (x : Text)
    (hx : Over S.segs P x) (d : Doc) (ht : d.text = x ++ source ps rest) :
    CleanCmds S.segs d (forward S.segs x ps) ∧ (d.steps S.segs (forward S.segs x ps)).text = x ++ target ps rest := by
  induction ps generalizing x d with
  | nil => exact ⟨trivial, ht⟩
  | cons p ps ih =>
    obtain ⟨k1, k2, k3⟩ := hps p (by simp)
    have hps' : Pieces S.segs P ps := fun q hq => hps q (by simp [hq])
    have hxk := over_app hP hx k1
    obtain ⟨n1, n2⟩ := swap_step (d := d) (x := x ++ p.keep) (s := p.old) (y := source ps rest) (r := p.new) hP (by rw [ht]; simp [source]) hxk k2
      (source_over hP hps' hr).1 k3
    obtain ⟨m1, m2⟩ := ih hps' (x ++ p.keep ++ p.new) (over_app hP hxk k3) _ n2
    rw [forward]
    exact ⟨cleanCmds_app.mpr ⟨n1, m1⟩, by rw [steps_app, m2]; simp [target]⟩

theorem backward_inGroup (segs) (x : Text) (ps : List Piece) :
    (∀ c ∈ backward segs x ps, Props.InGroup c) ∧ (ps ≠ [] → ∃ c ∈ backward segs x ps, Props.IsEdit c) := by
  induction ps generalizing x with
  | nil => exact ⟨fun _ h => (by cases h), fun h => absurd rfl h⟩
  | cons p ps ih =>
    rw [backward]
    refine ⟨fun c hc => ?_, fun _ => ⟨.insert p.new, by simp [swap], trivial⟩⟩
    rcases List.mem_append.mp hc with hc | hc
    · exact (ih _).1 c hc
    · simp only [swap, List.mem_cons, List.not_mem_nil, or_false] at hc
      rcases hc with rfl | rfl | rfl <;> trivial

end Scribe.Spec
