import Verif.Proofs.Desktop
import Verif.Demo
/-!
# Property C87: a whole program on a disk
-/
namespace Scribe.Props
open Spec Workspace
variable {σ : Type}

/-- **C87.** Whatever a program does with a workspace on a disk that nobody else changes - opening, editing, switching, saving, saving under other names, reloading,
with any failures - nothing panics, what it sees is a list of documents with a selection, and the files are those of the specification. -/
theorem C87_program (S : Segmenter) (A : Alloc) (W : FileTree) (fs : Fs) (path : Path) (s : Syntaxes σ) (w0 : Workspace σ) (disk0 : Disk)
    (h0 : Workspace.new fs path (some s) = some w0) (as : List (Deed σ)) :
    let d := Desktop.steps S.segs A.grant s W ⟨noSheets, disk0⟩ as
    let t := d.docs.tabs
    ∃ e, Editor.steps S A W ⟨w0, disk0⟩ as = .ok e ∧ e.disk = d.disk ∧
      e.ws.currentBufferIndex = (if t.items.isEmpty then none else some t.sel) ∧
      e.ws.current = (contents e.ws)[t.sel]? ∧
      List.Forall₂ (Shows S.segs fun g p => g.inBounds S p) (contents e.ws) t.items ∧
      e.ws.bufferPaths = t.items.map (fun x => x.path.map fun p => if w0.path <+: p then p.drop w0.path.length else p) := by
  intro d t
  have h : Desks S A (⟨w0, disk0⟩ : Editor σ) s ⟨noSheets, disk0⟩ := ⟨studies_new h0, rfl⟩
  obtain ⟨e, h1, h2, h3⟩ := h.steps (W := W) as
  obtain ⟨k1, k2, k3, k4, _⟩ := h2.docs.sees h3
  exact ⟨e, h1, h2.disk, k1, k2, k3, k4⟩

theorem steps_snoc (S : Segmenter) (A : Alloc) (W : FileTree) (e : Editor σ) (as : List (Deed σ)) (a : Deed σ) :
    e.steps S A W (as ++ [a]) = e.steps S A W as >>= fun e => e.step S A W a := by
  induction as generalizing e with
  | nil =>
    show (do let e' ← e.step S A W a; Editor.steps S A W e' []) = Except.ok e >>= fun e => e.step S A W a
    rw [Except.ok_bind']
    cases e.step S A W a <;> rfl
  | cons b as ih =>
    simp only [List.cons_append, Editor.steps]
    cases e.step S A W b with
    | error x => rfl
    | ok e' => exact ih e'

/-- C87: only saving writes to the disk. -/
theorem C87_only_saves (S : Segmenter) (A : Alloc) (W : FileTree) (e e' : Editor σ) (a : Deed σ) (ha : ¬ Saves a) (h : e.step S A W a = .ok e') :
    e'.disk = e.disk := by
  cases a with
  | fresh | close | next | previous | openPath =>
    simp only [Editor.step] at h
    obtain ⟨w, _, h2⟩ := Except.bind_inv h
    cases h2; rfl
  | updateSyntax | setSyntax => cases h; rfl
  | cmd c =>
    simp only [Editor.step] at h
    split at h
    · cases h; rfl
    · obtain ⟨w, _, h2⟩ := Except.bind_inv h
      cases h2; rfl
  | reload r =>
    simp only [Editor.step] at h
    split at h
    · cases h; rfl
    · obtain ⟨w, _, h2⟩ := Except.bind_inv h
      cases h2; rfl
  | save | saveAs => exact absurd trivial ha

/-- What one step can do to a file. -/
theorem step_file {S : Segmenter} {A : Alloc} {W : FileTree} {s : Syntaxes σ} {e1 e : Editor σ} {d : Desktop σ} {a : Deed σ} (g2 : Desks S A e1 s d)
    (h2 : e1.step S A W a = .ok e) (n : Nat) :
    e.disk n = e1.disk n ∨ (Saves a ∧ ∃ b t k, e1.ws.current = some b ∧ b.buf.data.toStr = .ok t ∧ e.disk n = some ((enc t).take k)) := by
  by_cases ha : Saves a
  · have main : ∀ (b b0 : FileBuf σ) (env : SaveEnv), e1.ws.current = some b0 → b.buf = b0.buf → Editor.saveBuf W e1 b env = .ok e →
        e.disk n = e1.disk n ∨ (Saves a ∧ ∃ b t k, e1.ws.current = some b ∧ b.buf.data.toStr = .ok t ∧ e.disk n = some ((enc t).take k)) := by
      intro b b0 env hb hbb hs
      obtain ⟨t, ht⟩ : ∃ t, b0.buf.data.toStr = .ok t := by
        rcases g2.docs.selected with ⟨k, _⟩ | ⟨b', x, k1, k2, k3⟩
        · rw [hb] at k; cases k
        · rw [hb] at k1; cases k1; exact ⟨_, (k3.shows (S := S)).text⟩
      unfold Editor.saveBuf at hs
      obtain ⟨⟨steps, en, b'⟩, m1, m2⟩ := Except.bind_inv hs
      cases m2
      rcases List.eq_nil_or_concat steps with rfl | ⟨ds, dk, rfl⟩
      · exact Or.inl rfl
      · rw [← hbb] at ht
        obtain ⟨file, c1, ⟨p, c2, k, c3⟩, c4⟩ := C21_crash_points b b' t ht _ e1.disk _ en m1 dk (by simp)
        have hd : (ds.concat dk).getLast?.getD e1.disk = dk := by simp
        by_cases hn : n = file
        · subst hn
          refine Or.inr ⟨ha, b0, t, p.length, hb, by rw [← hbb]; exact ht, ?_⟩
          show ((ds.concat dk).getLast?.getD e1.disk) n = _
          rw [hd, c2, ← c3, List.take_left]
        · refine Or.inl ?_
          show ((ds.concat dk).getLast?.getD e1.disk) n = _
          rw [hd, c4 n hn]
    cases a with
    | save env =>
      simp only [Editor.step] at h2
      cases hc : e1.ws.current with
      | none => rw [hc] at h2; cases h2; exact Or.inl rfl
      | some b => rw [hc] at h2; rw [hc] at main; exact main b b env rfl rfl h2
    | saveAs p env =>
      simp only [Editor.step] at h2
      cases hc : e1.ws.current with
      | none => rw [hc] at h2; cases h2; exact Or.inl rfl
      | some b => rw [hc] at h2; rw [hc] at main; exact main { b with path := some p } b env rfl rfl h2
    | _ => cases ha
  · exact Or.inl (congrFun (C87_only_saves S A W e1 e a ha h2) n)

/-- C87: a file holds what it held at the beginning, or what a save of the program wrote to it: the bytes of the text that the current buffer had then, or an
initial part of them (all, if that save returned `Ok`: C20). Never anything else. -/
theorem C87_files (S : Segmenter) (A : Alloc) (W : FileTree) (fs : Fs) (path : Path) (s : Syntaxes σ) (w0 : Workspace σ) (disk0 : Disk)
    (h0 : Workspace.new fs path (some s) = some w0) (as : List (Deed σ)) (e : Editor σ) (he : Editor.steps S A W ⟨w0, disk0⟩ as = .ok e) (n : Nat) :
    e.disk n = disk0 n ∨ ∃ pre a post e1 b t k, as = pre ++ a :: post ∧ Saves a ∧ Editor.steps S A W ⟨w0, disk0⟩ pre = .ok e1 ∧ e1.ws.current = some b ∧
      b.buf.data.toStr = .ok t ∧ e.disk n = some ((enc t).take k) := by
  induction as using List.reverseRecOn generalizing e with
  | nil => cases he; exact Or.inl rfl
  | append_singleton as a ih =>
    rw [steps_snoc] at he
    obtain ⟨e1, h1, h2⟩ := Except.bind_inv he
    have h : Desks S A (⟨w0, disk0⟩ : Editor σ) s ⟨noSheets, disk0⟩ := ⟨studies_new h0, rfl⟩
    obtain ⟨e1', g1, g2, _⟩ := h.steps (W := W) as
    rw [h1] at g1; cases g1
    rcases step_file g2 h2 n with heq | ⟨ha, b, t, k, m1, m2, m3⟩
    · rcases ih e1 h1 with h | ⟨pre, a', post, e2, b, t, k, k1, k2⟩
      · exact Or.inl (heq.trans h)
      · refine Or.inr ⟨pre, a', post ++ [a], e2, b, t, k, by rw [k1]; simp, ?_⟩
        rw [heq]; exact k2
    · exact Or.inr ⟨as, a, [], e1, b, t, k, rfl, ha, h1, m1, m2, m3⟩

/-- A file is opened and edited, a save fails half-way, the buffer is saved under another name, reloaded, and the first file opened again. -/
def deskDeeds : List (Deed Nat) :=
  [.openPath 0 true (demoPath [0x61]), .cmd (.insert (Demo.s "xy")), .save ⟨some (some 0), [.wrote 1, .interrupted, .failed]⟩,
    .saveAs (demoPath [0x62]) ⟨some (some 0), [.wrote 2, .wrote 9]⟩, .cmd .delete, .reload true, .openPath 1 true (demoPath [0x61])]

def deskTree : FileTree where
  slot p := if p = demoPath [0x61] then some 0 else if p = demoPath [0x62] then some 1 else none
  real p := p
  leads _ _ h := h
  idem _ _ _ := rfl

/-- The texts and paths of the documents, which are modified, and the two files. -/
def deskView (d : Desktop Nat) : List (Text × Option Path × Bool) × List (Option Bytes) :=
  (d.docs.tabs.items.map fun x => (x.doc.zip.text, x.path, decide (x.doc.mark ≠ some x.doc.undo.length)), [d.disk 0, d.disk 1])

example : deskView (Desktop.steps Demo.seg.segs Demo.tight.grant demoSyn deskTree ⟨noSheets, fun f => if f = 0 then some (enc (Demo.s "ab")) else none⟩ deskDeeds) =
    ([(Demo.s "xyab", some (demoPath [0x62]), false), (Demo.s "x", some (demoPath [0x61]), false)], [some (enc (Demo.s "x")), some (enc (Demo.s "xyab"))]) := by
  decide +kernel

end Scribe.Props
