import Verif.Props.Workspace
import Verif.Proofs.Session
/-!
# Property C74: a whole program
-/
namespace Scribe.Props
open Spec Workspace
variable {σ : Type}

theorem studies_new {S : Segmenter} {A : Alloc} {fs : Fs} {path : Path} {s : Syntaxes σ} {w : Workspace σ} (h : Workspace.new fs path (some s) = some w) :
    Studies S A w s noSheets := by
  obtain ⟨h1, h2⟩ := rel_new (A := A) h
  exact ⟨⟨_, h1, ⟨.nil, rfl⟩, rfl⟩, h2⟩

/-- What is seen of a workspace that shows documents. -/
theorem _root_.Scribe.Studies.sees {S : Segmenter} {A : Alloc} {s : Syntaxes σ} {w w0 : Workspace σ} {e : Studio σ} (h : Studies S A w s e) (h5 : w.path = w0.path) :
    w.currentBufferIndex = (if e.tabs.items.isEmpty then none else some e.tabs.sel) ∧
      w.current = (contents w)[e.tabs.sel]? ∧
      List.Forall₂ (Shows S.segs fun g p => g.inBounds S p) (contents w) e.tabs.items ∧
      w.bufferPaths = e.tabs.items.map (fun x => x.path.map fun p => if w0.path <+: p then p.drop w0.path.length else p) ∧
      w.currentBufferTokens = .ok (match e.tabs.selected with
        | none => .error .emptyWorkspace
        | some x => match x.syn with
          | none => .error .missingSyntax
          | some y => .ok (x.doc.zip.text, y)) := by
  obtain ⟨⟨d, h2, h3, _⟩, _⟩ := h
  have hlen : d.tabs.items.length = e.tabs.items.length := h3.items.length_eq
  have hsel : d.tabs.sel = e.tabs.sel := h3.sel
  refine ⟨?_, ?_, ?_, ?_, ?_⟩
  · unfold currentBufferIndex
    cases h2 with
    | empty h hb hi => rw [h] at hlen; rw [hi, List.length_eq_zero_iff.mp hlen.symm]; rfl
    | sel a c z h hs hb hi =>
      have : e.tabs.items ≠ [] := by intro hn; rw [hn, h] at hlen; simp at hlen
      rw [hi, ← hsel, hs, if_neg (by simpa using this)]
  · rw [contents_eq h2, ← hsel]
    cases h2 with
    | empty h hb hi hc => rw [h, hc]; rfl
    | sel a c z h hs hb hi hc => rw [h, hs, hc, get_mid]
  · rw [contents_eq h2]
    exact h3.items.imp fun _ _ hb => hb.shows
  · rw [bufferPaths_rel h2]
    have hr : ∀ (b : FileBuf σ) (x : Sheet σ), Sheeted S A b x →
        w.relative b = x.path.map fun p => if w0.path <+: p then p.drop w0.path.length else p := by
      intro b x hb
      obtain ⟨k1, k2, k3⟩ := C43_relative w b
      rw [hb.path] at k1
      simp only [h5, hb.path] at k2 k3
      cases hx : x.path with
      | none => exact k1 hx
      | some p =>
        by_cases hp : w0.path <+: p
        · obtain ⟨q, rfl⟩ := hp
          rw [k2 q hx, Option.map_some, if_pos ⟨q, rfl⟩, List.drop_left]
        · rw [k3 p hx (fun q hq => hp ⟨q, hq.symm⟩), Option.map_some, if_neg hp]
    have := h3.items
    revert this
    generalize d.tabs.items = l
    generalize e.tabs.items = m
    intro hl
    induction hl with
    | nil => rfl
    | cons k1 _ ih => rw [List.map_cons, List.map_cons, ih, hr _ _ k1]
  · have key : (d.tabs.selected = none ∧ e.tabs.selected = none) ∨ ∃ b x, d.tabs.selected = some b ∧ e.tabs.selected = some x ∧ Sheeted S A b x := by
      unfold Tabs.selected
      rw [hsel]
      exact forall₂_get h3.items e.tabs.sel
    unfold currentBufferTokens
    rw [← h2.selected]
    rcases key with ⟨k1, k2⟩ | ⟨b, x, k1, k2, k3⟩
    · rw [k1, k2]
    · rw [k1, k2]
      have ht : b.buf.data.toStr = .ok x.doc.zip.text := (k3.shows (S := S)).text
      simp only [ht, Except.ok_bind', k3.syn]
      cases x.syn <;> rfl

/-- **C74.** Whatever a program does with a workspace and with the buffers in it, in whatever order, nothing panics, and what it sees is a list of documents with
a selection: the results of the calls, the current index, and for every open buffer contents, cursor, callback log, `modified`, undo and redo depth, existing positions,
id, path and syntax. -/
theorem C74_program (S : Segmenter) (A : Alloc) (s : Syntaxes σ) (fs : Fs) (path : Path) (w0 : Workspace σ) (h0 : Workspace.new fs path (some s) = some w0)
    (as : List (Act σ)) :
    let e := (noSheets.acts S.segs A.grant s as).2
    ∃ w, w0.acts S A as = .ok ((noSheets.acts S.segs A.grant s as).1, w) ∧
      w.currentBufferIndex = (if e.tabs.items.isEmpty then none else some e.tabs.sel) ∧
      w.current = (contents w)[e.tabs.sel]? ∧
      List.Forall₂ (Shows S.segs fun g p => g.inBounds S p) (contents w) e.tabs.items ∧
      w.bufferPaths = e.tabs.items.map (fun x => x.path.map fun p => if w0.path <+: p then p.drop w0.path.length else p) ∧
      w.currentBufferTokens = .ok (match e.tabs.selected with
        | none => .error .emptyWorkspace
        | some x => match x.syn with
          | none => .error .missingSyntax
          | some y => .ok (x.doc.zip.text, y)) := by
  intro e
  obtain ⟨w, h1, h2, h3⟩ := (studies_new (S := S) (A := A) h0).acts (S := S) as
  exact ⟨w, h1, h2.sees h3⟩

/-- C74: every buffer in a workspace is the result of calls on a freshly made buffer, so that all that is proved about buffers on their own holds for it. -/
theorem C74_buffers (S : Segmenter) (A : Alloc) (s : Syntaxes σ) (fs : Fs) (path : Path) (w0 w : Workspace σ) (h0 : Workspace.new fs path (some s) = some w0)
    (as : List (Act σ)) (rs : List Bool) (h : w0.acts S A as = .ok (rs, w)) : ∀ b ∈ contents w, Born S A b.buf := by
  obtain ⟨w', h1, ⟨⟨d, h2, h3, _⟩, _⟩, _⟩ := (studies_new (S := S) (A := A) h0).acts (S := S) as
  rw [h] at h1
  cases h1
  rw [contents_eq h2]
  intro b hb
  obtain ⟨i, hi, rfl⟩ := List.getElem_of_mem hb
  rcases forall₂_get h3.items i with ⟨k, _⟩ | ⟨a, x, k1, _, k3⟩
  · rw [List.getElem?_eq_getElem hi] at k; cases k
  · rw [List.getElem?_eq_getElem hi] at k1
    cases k1
    exact k3.born

/-- Two files are opened; the second is edited and the edit undone while the first gets another edit in between. -/
example :
    let as : List (Act Nat) := [.openPath 0 demoFs demoFs demoFs (demoPath [0x61, 46, 0x72]), .openPath 1 demoFs demoFs demoFs (demoPath [0x62]),
      .cmd (.insert (Demo.s "xy")), .previous, .cmd (.move .right), .cmd (.insert (Demo.s "!")), .next, .cmd .undo, .openPath 2 demoFs demoFs demoFs (demoPath [0x7a])]
    let e := ((noSheets.acts Demo.seg.segs Demo.tight.grant demoSyn as) : List Bool × Studio Nat)
    e.1 = [true, true, true, true, true, true, true, true, false] ∧ e.2.tabs.items.map (fun x => (x.doc.zip.text, x.doc.cursor.position)) =
      [(Demo.s "a!", ⟨0, 1⟩), (Demo.s "b", ⟨0, 0⟩)] ∧ e.2.tabs.sel = 1 := by
  decide +kernel

end Scribe.Props
