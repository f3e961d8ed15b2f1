import Verif.Proofs.Office
/-! # Property C97: several programs on one disk -/
namespace Scribe.Props
open Spec Workspace
variable {σ : Type}

/-- **C97.** Any number of programs with workspaces on one disk, and others that change files at any time in any way: nothing panics, each program sees its own
list of documents with a selection, and the files are those of the specification, in which what others do changes no document. -/
theorem C97_programs (S : Segmenter) (A : Alloc) (fs : Nat → Fs) (root : Nat → Path) (s : Nat → Syntaxes σ) (w0 : Nat → Workspace σ) (disk0 : Disk)
    (h0 : ∀ i, Workspace.new (fs i) (root i) (some (s i)) = some (w0 i)) (es : List (Event σ)) :
    let d := Offices.steps S.segs A.grant s ⟨fun _ => noSheets, disk0⟩ es
    ∃ o, Office.steps S A ⟨w0, disk0⟩ es = .ok o ∧ o.disk = d.disk ∧ ∀ i,
      let t := (d.docs i).tabs
      (o.ws i).currentBufferIndex = (if t.items.isEmpty then none else some t.sel) ∧
      (o.ws i).current = (contents (o.ws i))[t.sel]? ∧
      List.Forall₂ (Shows S.segs fun g p => g.inBounds S p) (contents (o.ws i)) t.items ∧
      (o.ws i).bufferPaths = t.items.map (fun x => x.path.map fun p => if (w0 i).path <+: p then p.drop (w0 i).path.length else p) := by
  intro d
  have h : Busy S A s (⟨w0, disk0⟩ : Office σ) ⟨fun _ => noSheets, disk0⟩ := fun i => ⟨studies_new (h0 i), rfl⟩
  obtain ⟨o, h1, h2, h3⟩ := h.steps es
  refine ⟨o, h1, (h2 0).disk, fun i => ?_⟩
  obtain ⟨k1, k2, k3, k4, _⟩ := (h2 i).docs.sees (h3 i)
  exact ⟨k1, k2, k3, k4⟩

/-- C97: a program that opens and reloads nothing does not notice the others: its workspace depends on what it does itself only. -/
theorem C97_unnoticed (S : Segmenter) (A : Alloc) (who : Nat) (o1 o2 o1' o2' : Office σ) (es es' : List (Event σ)) (hw : o1.ws who = o2.ws who)
    (h1 : o1.steps S A es = .ok o1') (h2 : o2.steps S A es' = .ok o2') (hsame : deedsOf who es = deedsOf who es')
    (hlook : ∀ x ∈ deedsOf who es, ¬ ReadsFiles x.2) : o1'.ws who = o2'.ws who := by
  have k1 := alone_of_steps who es h1
  have k2 := alone_of_steps who es' h2
  rw [← hsame, ← hw] at k2
  exact alone_unique hlook k1 k2

/-- C97: a file holds what it held at the beginning, or what someone else left there, or what a save of one of the programs wrote: bytes of the text that its
current buffer had then, from the start. -/
theorem C97_files (S : Segmenter) (A : Alloc) (fs : Nat → Fs) (root : Nat → Path) (s : Nat → Syntaxes σ) (w0 : Nat → Workspace σ) (disk0 : Disk)
    (h0 : ∀ i, Workspace.new (fs i) (root i) (some (s i)) = some (w0 i)) (es : List (Event σ)) (o : Office σ)
    (ho : Office.steps S A ⟨w0, disk0⟩ es = .ok o) (n : Nat) :
    o.disk n = disk0 n ∨ ∃ pre ev post, es = pre ++ ev :: post ∧
      ((∃ disk, ev = .outside disk ∧ o.disk n = disk n) ∨
        ∃ who W a o1 b t k, ev = .deed who W a ∧ Saves a ∧ Office.steps S A ⟨w0, disk0⟩ pre = .ok o1 ∧ (o1.ws who).current = some b ∧
          b.buf.data.toStr = .ok t ∧ o.disk n = some ((enc t).take k)) := by
  induction es using List.reverseRecOn generalizing o with
  | nil => cases ho; exact Or.inl rfl
  | append_singleton es ev ih =>
    rw [officeSteps_snoc] at ho
    obtain ⟨o1, h1, h2⟩ := Except.bind_inv ho
    cases ev with
    | outside disk => cases h2; exact Or.inr ⟨es, _, [], rfl, Or.inl ⟨disk, rfl, rfl⟩⟩
    | deed who W a =>
      simp only [Office.step] at h2
      obtain ⟨e, k1, k2⟩ := Except.bind_inv h2
      cases k2
      have h : Busy S A s (⟨w0, disk0⟩ : Office σ) ⟨fun _ => noSheets, disk0⟩ := fun i => ⟨studies_new (h0 i), rfl⟩
      obtain ⟨o1', g1, g2, _⟩ := h.steps es
      rw [h1] at g1; cases g1
      rcases step_file (g2 who) k1 n with heq | ⟨ha, b, t, k, m1, m2, m3⟩
      · rcases ih o1 h1 with h | ⟨pre, ev', post, k1, k2⟩
        · exact Or.inl (heq.trans h)
        · refine Or.inr ⟨pre, ev', post ++ [.deed who W a], by rw [k1]; simp, ?_⟩
          simp only [heq]; exact k2
      · exact Or.inr ⟨es, _, [], rfl, Or.inr ⟨who, W, a, o1, b, t, k, rfl, ha, h1, m1, m2, m3⟩⟩

/-- C97 (finding): saving does not look at what is in the file. Whatever others have written there since the buffer was loaded or saved is replaced, and no
other program notices: their workspaces, with what `modified()` returns for their buffers of the same file, stay as they are. -/
theorem C97_overwrites (S : Segmenter) (A : Alloc) (W : FileTree) (o o' : Office σ) (who n : Nat) (b : FileBuf σ) (t : Text) (env : SaveEnv)
    (hb : (o.ws who).current = some b) (ht : b.buf.data.toStr = .ok t) (hp : b.path.getD [] ≠ []) (hn : W.slot (b.path.getD []) = some n)
    (hc : ∃ f, env.create = some (some f)) (hw : (written env.writes (enc t).length).2 = true)
    (h : o.step S A (.deed who W (.save env)) = .ok o') : o'.disk n = some (enc t) ∧ (∀ m, m ≠ n → o'.disk m = o.disk m) ∧ ∀ i, i ≠ who → o'.ws i = o.ws i := by
  simp only [Office.step, Editor.step, hb] at h
  obtain ⟨e, k1, k2⟩ := Except.bind_inv h
  cases k2
  unfold Editor.saveBuf at k1
  obtain ⟨⟨steps, en, b'⟩, m1, m2⟩ := Except.bind_inv k1
  cases m2
  obtain ⟨f, hf⟩ := hc
  obtain ⟨y, ys, hy⟩ : ∃ y ys, b.path.getD [] = y :: ys := by cases hq : b.path.getD [] with | nil => exact absurd hq hp | cons y ys => exact ⟨y, ys, rfl⟩
  simp only [FileBuf.save, FileTree.env, hf, hy, ht, Except.ok_bind', Option.map_some, Option.bind_some] at m1
  rw [hy] at hn
  rw [hn] at m1
  simp only at m1
  obtain ⟨q1, q2⟩ := writeAll_written n env.writes (fun f => if f = n then some [] else o.disk f) (enc t) [] (by simp)
  have hend := q2.mpr hw
  have hall : (enc t).take (written env.writes (enc t).length).1 = enc t := by rw [written_all _ _ hw, List.take_length]
  rw [hend] at m1
  cases m1
  have hdisk : ((fun f => if f = n then some [] else o.disk f) :: (writeAll n env.writes (fun f => if f = n then some [] else o.disk f) (enc t)).1).getLast?.getD o.disk =
      fun f => if f = n then some (enc t) else o.disk f := by
    show final o.disk (_ :: _) = _
    rw [final_cons, q1, hall]
    funext f
    by_cases hf : f = n <;> simp [hf]
  refine ⟨?_, fun m hm => ?_, fun i hi => by simp [hi]⟩
  · exact (congrFun hdisk n).trans (if_pos rfl)
  · exact (congrFun hdisk m).trans (if_neg hm)

/-- Two programs open the same file and change it; both save, and a third party has written to it in between; the second save wins, and the first program's
buffer is still not modified. -/
def officeEvents : List (Event Nat) :=
  [.deed 0 deskTree (.openPath 0 true (demoPath [0x61])), .deed 1 deskTree (.openPath 0 true (demoPath [0x61])), .deed 0 deskTree (.cmd (.insert (Demo.s "xy"))),
    .deed 1 deskTree (.cmd (.insert (Demo.s "z"))), .deed 0 deskTree (.save ⟨some (some 0), [.wrote 9]⟩),
    .outside (fun f => if f = 0 then some (enc (Demo.s "other")) else none), .deed 1 deskTree (.save ⟨some (some 0), [.wrote 9]⟩)]

def officeEnd : Offices Nat :=
  Offices.steps Demo.seg.segs Demo.tight.grant (fun _ => demoSyn) ⟨fun _ => noSheets, fun f => if f = 0 then some (enc (Demo.s "ab")) else none⟩ officeEvents

example : deskView ⟨officeEnd.docs 0, officeEnd.disk⟩ = ([(Demo.s "xyab", some (demoPath [0x61]), false)], [some (enc (Demo.s "zab")), none]) := by
  decide +kernel

example : deskView ⟨officeEnd.docs 1, officeEnd.disk⟩ = ([(Demo.s "zab", some (demoPath [0x61]), false)], [some (enc (Demo.s "zab")), none]) := by
  decide +kernel

/-- What the first program does in it. -/
example : (deedsOf 0 officeEvents).length = 3 ∧ ∀ x ∈ (deedsOf 0 officeEvents).drop 1, ¬ ReadsFiles x.2 := by
  refine ⟨rfl, ?_⟩
  simp [officeEvents, deedsOf, ReadsFiles]

end Scribe.Props
