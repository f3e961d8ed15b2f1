import Verif.Proofs.Twin
import Verif.Props.Desktop
/-! # Property C98: the dialogue of a program -/
namespace Scribe.Props
open Spec Workspace
variable {σ : Type}

/-- **C98.** Whatever a program does with a workspace and its files, and whatever it asks in between, no call panics, and every value that is returned
is the one that the documents and files (`Desktop`) say. -/
theorem C98_dialogue (S : Segmenter) (A : Alloc) (W : FileTree) (fs : Fs) (path : Path) (s : Syntaxes σ) (w0 : Workspace σ) (disk0 : Disk)
    (h0 : Workspace.new fs path (some s) = some w0) (ls : List (Line σ)) :
    let r := Desktop.talk S.segs A.grant s W w0.path ⟨noSheets, disk0⟩ ls
    ∃ e, Editor.talk S A W ⟨w0, disk0⟩ ls = .ok (r.1, e) ∧ e.disk = r.2.disk := by
  have h : Desks S A (⟨w0, disk0⟩ : Editor σ) s ⟨noSheets, disk0⟩ := ⟨studies_new h0, rfl⟩
  obtain ⟨e, h1, h2, _⟩ := h.talk (W := W) ls
  exact ⟨e, h1, h2.disk⟩

theorem twin_start {S : Segmenter} {P : Text → Prop} (disk : Disk) : TwinD S P (⟨noSheets, disk⟩ : Desktop σ) ⟨noSheets, disk⟩ := ⟨.nil, rfl, rfl, rfl⟩

/-- C98: if all texts are made of clusters that do not merge, the program cannot find out how memory is allocated: it is told the same, and leaves the same files. -/
theorem C98_same (S : Segmenter) (P : Text → Prop) (hP : Closed S.segs P) (A A' : Alloc) (W : FileTree) (fs : Fs) (path : Path) (s : Syntaxes σ)
    (w0 : Workspace σ) (disk0 : Disk) (h0 : Workspace.new fs path (some s) = some w0) (ls : List (Line σ))
    (hl : Desktop.OrdinaryLines S.segs A.grant s W P ⟨noSheets, disk0⟩ ls) :
    ∃ rs e e', Editor.talk S A W ⟨w0, disk0⟩ ls = .ok (rs, e) ∧ Editor.talk S A' W ⟨w0, disk0⟩ ls = .ok (rs, e') ∧ e.disk = e'.disk := by
  obtain ⟨e, h1, h2⟩ := C98_dialogue S A W fs path s w0 disk0 h0 ls
  obtain ⟨e', k1, k2⟩ := C98_dialogue S A' W fs path s w0 disk0 h0 ls
  obtain ⟨m1, m2⟩ := (twin_start (S := S) (P := P) disk0).talk (g := A.grant) (g' := A'.grant) hP s w0.path ls hl
  rw [m1] at k1
  exact ⟨_, e, e', h1, k1, by rw [h2, k2, m2.disk]⟩

/-- Clusters of one character of `ok`. -/
def Single (ok : Char → Prop) (c : Text) : Prop := ∃ x, ok x ∧ c = [x]

section
variable {S : Segmenter} {ok : Char → Prop}

theorem single_flatten {cs : List Text} (h : ∀ c ∈ cs, Single ok c) : cs = cs.flatten.map (fun x => [x]) ∧ ∀ x ∈ cs.flatten, ok x := by
  induction cs with
  | nil => exact ⟨rfl, by simp⟩
  | cons c cs ih =>
    obtain ⟨x, hx, rfl⟩ := h c (by simp)
    obtain ⟨k1, k2⟩ := ih fun d hd => h d (by simp [hd])
    refine ⟨by simpa using k1, fun y hy => ?_⟩
    rw [List.flatten_cons, List.singleton_append, List.mem_cons] at hy
    rcases hy with rfl | hy
    · exact hx
    · exact k2 y hy

theorem single_closed (hok : ∀ t : Text, (∀ c ∈ t, ok c) → S.segs t = t.map fun c => [c]) : Closed S.segs (Single ok) := by
  refine ⟨fun cs h => ?_, by rintro ⟨x, _, h⟩; cases h⟩
  obtain ⟨k1, k2⟩ := single_flatten h
  rw [hok _ k2, ← k1]

theorem single_over (hok : ∀ t : Text, (∀ c ∈ t, ok c) → S.segs t = t.map fun c => [c]) {t : Text} : Over S.segs (Single ok) t ↔ ∀ c ∈ t, ok c := by
  constructor
  · intro h
    have := (single_flatten h).2
    rwa [S.join] at this
  · intro h c hc
    rw [hok t h] at hc
    obtain ⟨x, hx, rfl⟩ := List.mem_map.mp hc
    exact ⟨x, h x hx, rfl⟩

theorem plain_read {W : FileTree} {disk : Disk} (h : PlainDisk ok disk) {docs : Studio σ} {readable : Bool} {p : Path} {t : Text}
    (hr : ((⟨docs, disk⟩ : Desktop σ).files W readable).readToString p = some t) : ∀ c ∈ t, ok c := by
  unfold Fs.readToString Desktop.files at hr
  simp only at hr
  cases readable with
  | false => cases hr
  | true =>
    rw [if_pos rfl] at hr
    obtain ⟨bs, h1, h2⟩ := Option.bind_eq_some_iff.mp hr
    obtain ⟨n, _, h4⟩ := Option.bind_eq_some_iff.mp h1
    rw [strict_eq_some] at h2
    subst h2
    exact h n t h4

theorem plain_step (hok : ∀ t : Text, (∀ c ∈ t, ok c) → S.segs t = t.map fun c => [c]) {W : FileTree} {g : Nat → Nat → Nat → Nat} {s : Syntaxes σ} {d : Desktop σ}
    (h : TwinD S (Single ok) d d) (hd : PlainDisk ok d.disk) (a : Deed σ) : PlainDisk ok (d.step S.segs g s W a).disk := by
  have same : ∀ {d' : Desktop σ}, d'.disk = d.disk → PlainDisk ok d'.disk := by intro d' h; rw [h]; exact hd
  have save : ∀ {d : Desktop σ} (env : SaveEnv), TwinD S (Single ok) d d → PlainDisk ok d.disk → PlainDisk ok (d.save S.segs g s W env).disk := by
    intro d env h hd
    unfold Desktop.save
    split
    · rename_i x f hx hc
      split
      · rename_i n hn
        intro m t ht
        simp only at ht
        split at ht
        · have hpre : t <+: x.doc.zip.text := by
            rw [← prefix_of_enc, ← Option.some.inj ht]
            exact List.take_prefix _ _
          obtain ⟨y, hy⟩ := hpre
          obtain ⟨x1, x2, k1, k2, k3⟩ := h.selected.resolve_left (by rw [hx]; simp)
          rw [hx] at k1; cases k1
          have := (single_over hok).mp (k3.doc.overText (single_closed hok))
          intro c hc
          exact this c (by rw [← hy]; simp [hc])
        · rename_i hmn
          split at ht
          · exact hd m t ht
          · exact hd m t ht
      · exact hd
    · exact hd
  cases a with
  | save env => exact save env h hd
  | saveAs p env => exact save env (h.setPath (g := g) (g' := g) s (some p)) hd
  | reload readable =>
    unfold Desktop.step
    dsimp only
    split
    · exact hd
    · exact hd
  | _ => exact same rfl

theorem plain_lines (hok : ∀ t : Text, (∀ c ∈ t, ok c) → S.segs t = t.map fun c => [c]) {W : FileTree} {g : Nat → Nat → Nat → Nat} {s : Syntaxes σ} (ls : List (Line σ))
    {d : Desktop σ} (h : TwinD S (Single ok) d d) (hd : PlainDisk ok d.disk) (hl : ∀ l ∈ ls, PlainLine ok l) :
    Desktop.OrdinaryLines S.segs g s W (Single ok) d ls := by
  induction ls generalizing d with
  | nil => trivial
  | cons l ls ih =>
    have hl1 : Desktop.OrdinaryLine S.segs W (Single ok) d l := by
      have := hl l (by simp)
      cases l with
      | ask q => trivial
      | deed a =>
        cases a with
        | cmd c => cases c <;> first | trivial | exact (single_over hok).mpr this
        | openPath clock readable p => exact fun t ht => (single_over hok).mpr (plain_read hd (docs := d.docs) ht)
        | reload readable => exact fun x p t _ _ ht => (single_over hok).mpr (plain_read hd (docs := d.docs) ht)
        | _ => trivial
    refine ⟨hl1, ?_⟩
    cases l with
    | ask q => exact ih h hd fun l h => hl l (by simp [h])
    | deed a => exact ih (h.step (single_closed hok) (g := g) (g' := g) s a hl1) (plain_step hok h hd a) fun l h => hl l (by simp [h])

/-- C98: the same with a condition on the program and the initial files only: all strings consist of characters that are clusters on their own in any combination
(like Latin letters, and unlike combining accents). -/
theorem C98_same_plain (S : Segmenter) (ok : Char → Prop) (hok : ∀ t : Text, (∀ c ∈ t, ok c) → S.segs t = t.map fun c => [c]) (A A' : Alloc) (W : FileTree)
    (fs : Fs) (path : Path) (s : Syntaxes σ) (w0 : Workspace σ) (disk0 : Disk) (h0 : Workspace.new fs path (some s) = some w0) (ls : List (Line σ))
    (hd : PlainDisk ok disk0) (hl : ∀ l ∈ ls, PlainLine ok l) :
    ∃ rs e e', Editor.talk S A W ⟨w0, disk0⟩ ls = .ok (rs, e) ∧ Editor.talk S A' W ⟨w0, disk0⟩ ls = .ok (rs, e') ∧ e.disk = e'.disk :=
  C98_same S (Single ok) (single_closed hok) A A' W fs path s w0 disk0 h0 ls (plain_lines hok ls (twin_start disk0) hd hl)

/-- Characters that are ordinary clusters on their own are such characters. -/
theorem ordinary_single (T : Uax29.Table) (t : Text) (h : ∀ c ∈ t, Uax29.Ordinary T.cls [c]) :
    (Uax29.segmenter T).segs t = t.map fun c => [c] := by
  have := Uax29.ordinary_apart T (t.map fun c => [c]) (by simpa using h)
  have e : (t.map fun c => [c]).flatten = t := by
    clear h this
    induction t with
    | nil => rfl
    | cons c t ih => simp [ih]
  rw [e] at this
  exact this

end

/-- A program opens a file, searches it, edits, saves and reads. -/
def talkLines : List (Line Nat) :=
  [.ask .data, .deed (.openPath 0 true (demoPath [0x61])), .ask .data, .ask (.search (Demo.s "b")), .deed (.cmd (.move (.to ⟨0, 2⟩))), .deed (.cmd (.insert (Demo.s "\nb"))),
    .deed (.cmd (.move (.to ⟨7, 0⟩))), .ask .modified, .deed (.save ⟨some (some 0), [.wrote 9]⟩), .ask .modified, .ask (.search (Demo.s "b")), .ask (.read ⟨1, 1⟩ ⟨0, 1⟩),
    .ask .lineCount, .ask .paths, .deed (.openPath 0 true (demoPath [0x63])), .deed .close, .ask .index]

/-- What it is told. -/
example : (Desktop.talk Demo.seg.segs Demo.tight.grant demoSyn deskTree [] ⟨noSheets, fun f => if f = 0 then some (enc (Demo.s "ab")) else none⟩ talkLines).1 =
    [.nobody, .flag true, .text (Demo.s "ab"), .places [⟨0, 1⟩], .flag true, .done,
      .flag false, .flag true, .ended .ok, .flag false, .places [⟨0, 1⟩, ⟨1, 0⟩], .maybeText (some (Demo.s "b\nb")),
      .number 2, .maybePaths [some (demoPath [0x61])], .flag false, .done, .maybeNumber none] := by
  decide +kernel

/-- Its strings are plain. -/
example : ∀ l ∈ talkLines, PlainLine (fun c => Uax29.Ordinary Demo.table.cls [c]) l := by
  unfold talkLines PlainLine
  simp only [List.forall_mem_cons, List.not_mem_nil, false_implies, implies_true, and_true, true_and]
  decide +kernel

end Scribe.Props
