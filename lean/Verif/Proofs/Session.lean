import Verif.Spec.Session
import Verif.Proofs.Workspace
import Verif.Proofs.Recipe
import Mathlib.Data.List.Forall2
/-! # Sessions with a workspace refine a list of documents -/
namespace Scribe
open Spec Buf
variable {σ : Type} {S : Segmenter} {A : Alloc}

theorem born_step {b b' : Buf} (h : Born S A b) {c : Cmd} (hc : exec S A b c = .ok b') : Born S A b' := by
  obtain ⟨k, t, cs, h⟩ := h
  refine ⟨k, t, cs ++ [c], ?_⟩
  generalize Workspace.startBuf A k t = b0 at h
  induction cs generalizing b0 with
  | nil => cases h; simp only [List.nil_append, execAll, hc]; rfl
  | cons d cs ih =>
    simp only [List.cons_append, execAll] at h ⊢
    cases hd : exec S A b0 d with
    | error e => rw [hd] at h; cases h
    | ok b1 => rw [hd] at h; exact ih b1 h

theorem born_sane {b : Buf} (h : Born S A b) : Sane b := by
  obtain ⟨k, t, cs, h⟩ := h
  have hs : Sane (Workspace.startBuf A k t) := by
    cases t with
    | none => exact sane_new k
    | some t => exact sane_fromContent k t
  obtain ⟨b', e1, e2⟩ := execAll_safe (S := S) (A := A) cs hs
  rw [h] at e1; cases e1; exact e2

/-- A buffer and a document. -/
structure Sheeted (S : Segmenter) (A : Alloc) (b : FileBuf σ) (x : Sheet σ) : Prop where
  sim : ZSim b.buf x.doc
  born : Born S A b.buf
  id : b.id = x.id
  path : b.path = x.path
  syn : b.syn = x.syn

theorem syntaxFor_eq (s : Syntaxes σ) (b : FileBuf σ) : chooseSyntax s b = syntaxFor s b.path := rfl

/-- The lists correspond, the selections agree. -/
structure Tabbed (S : Segmenter) (A : Alloc) (t : Tabs (FileBuf σ)) (u : Tabs (Sheet σ)) : Prop where
  items : List.Forall₂ (Sheeted S A) t.items u.items
  sel : t.sel = u.sel

theorem Tabbed.add {t : Tabs (FileBuf σ)} {u : Tabs (Sheet σ)} (h : Tabbed S A t u) {b x} (hb : Sheeted S A b x) : Tabbed S A (t.add b) (u.add x) := by
  obtain ⟨items, sel⟩ := t
  obtain ⟨items', sel'⟩ := u
  obtain ⟨h1, h2⟩ := h
  cases h2
  unfold Tabs.add
  cases h1 with
  | nil => exact ⟨.cons hb .nil, rfl⟩
  | cons h1 h2 =>
    have h : List.Forall₂ (Sheeted S A) (_ :: _) (_ :: _) := .cons h1 h2
    exact ⟨List.rel_append (List.forall₂_take _ h) (.cons hb (List.forall₂_drop _ h)), rfl⟩

theorem Tabbed.close {t : Tabs (FileBuf σ)} {u : Tabs (Sheet σ)} (h : Tabbed S A t u) : Tabbed S A t.close u.close := by
  unfold Tabs.close
  rw [h.sel]
  exact ⟨List.rel_append (List.forall₂_take _ h.items) (List.forall₂_drop _ h.items), rfl⟩

theorem Tabbed.next {t : Tabs (FileBuf σ)} {u : Tabs (Sheet σ)} (h : Tabbed S A t u) : Tabbed S A t.next u.next := by
  refine ⟨h.items, ?_⟩
  show (t.sel + 1) % t.items.length = (u.sel + 1) % u.items.length
  rw [h.sel, h.items.length_eq]

theorem Tabbed.previous {t : Tabs (FileBuf σ)} {u : Tabs (Sheet σ)} (h : Tabbed S A t u) : Tabbed S A t.previous u.previous := by
  refine ⟨h.items, ?_⟩
  show (t.sel + t.items.length - 1) % t.items.length = (u.sel + u.items.length - 1) % u.items.length
  rw [h.sel, h.items.length_eq]

theorem forall₂_modify {α β : Type} {R : α → β → Prop} {f : α → α} {g : β → β} (hf : ∀ a b, R a b → R (f a) (g b)) (n : Nat) :
    ∀ {l : List α} {m : List β}, List.Forall₂ R l m → List.Forall₂ R (l.modify n f) (m.modify n g) := by
  induction n with
  | zero =>
    intro l m h
    cases h with
    | nil => exact .nil
    | cons h1 h2 => exact .cons (hf _ _ h1) h2
  | succ n ih =>
    intro l m h
    cases h with
    | nil => exact .nil
    | cons h1 h2 => exact .cons h1 (ih h2)

theorem Tabbed.edit {t : Tabs (FileBuf σ)} {u : Tabs (Sheet σ)} (h : Tabbed S A t u) {f g} (hf : ∀ b x, Sheeted S A b x → Sheeted S A (f b) (g x)) :
    Tabbed S A (t.edit f) (u.edit g) := by
  unfold Tabs.edit
  rw [h.sel]
  exact ⟨forall₂_modify hf _ h.items, rfl⟩

theorem forall₂_get {α β : Type} {R : α → β → Prop} {l : List α} {m : List β} (h : List.Forall₂ R l m) (i : Nat) :
    (l[i]? = none ∧ m[i]? = none) ∨ ∃ a b, l[i]? = some a ∧ m[i]? = some b ∧ R a b := by
  induction h generalizing i with
  | nil => exact Or.inl ⟨rfl, rfl⟩
  | cons h1 _ ih =>
    cases i with
    | zero => exact Or.inr ⟨_, _, rfl, rfl, h1⟩
    | succ i => exact ih i

theorem findIdx?_path {l : List (FileBuf σ)} {m : List (Sheet σ)} (h : List.Forall₂ (Sheeted S A) l m) (p : Path) :
    l.findIdx? (fun b => decide (b.path = some p)) = m.findIdx? (fun x => decide (x.path = some p)) := by
  induction h with
  | nil => rfl
  | cons h1 _ ih => simp only [List.findIdx?_cons, h1.path, ih]

theorem find_eq {d : Desk σ} {e : Studio σ} (h : Tabbed S A d.tabs e.tabs) (p : Path) : findPath d.tabs p = e.find p := by
  unfold findPath Studio.find
  rw [findIdx?_path h.items, h.sel]
  have : d.tabs.selected.bind (·.path) = e.tabs.selected.bind (·.path) := by
    unfold Tabs.selected
    rw [h.sel]
    rcases forall₂_get h.items e.tabs.sel with ⟨h1, h2⟩ | ⟨a, b, h1, h2, h3⟩
    · rw [h1, h2]; rfl
    · rw [h1, h2]; exact h3.path
  rw [this]

theorem sheeted_start (k : Nat) (t : Option Text) : ZSim (Workspace.startBuf A k t) (ZDoc.new A.grant k (t.getD []) t.isSome) ∧ Sane (Workspace.startBuf A k t) := by
  cases t with
  | none => exact ⟨ZSim.new k, sane_new k⟩
  | some t => exact ⟨ZSim.fromContent k t, sane_fromContent k t⟩

/-- The workspace shows the documents. -/
structure Studies (S : Segmenter) (A : Alloc) (w : Workspace σ) (s : Syntaxes σ) (e : Studio σ) : Prop where
  ex : ∃ d : Desk σ, Workspace.Rel A w d ∧ Tabbed S A d.tabs e.tabs ∧ d.nextId = e.nextId
  syntaxes : w.syntaxes = s

theorem Sheeted.adopted {s : Syntaxes σ} {b : FileBuf σ} {x : Sheet σ} (h : Sheeted S A b x) (n : Nat) :
    Sheeted S A (Spec.adopted s n b) ⟨x.doc, some n, x.path, some (x.syn.getD (syntaxFor s x.path))⟩ := by
  refine ⟨h.sim, h.born, rfl, h.path, ?_⟩
  show some (b.syn.getD (chooseSyntax s b)) = _
  rw [h.syn, syntaxFor_eq, h.path]

theorem Studies.call {w : Workspace σ} {s : Syntaxes σ} {e' : Studio σ} {r : Bool} {d : Desk σ} (c : Workspace.Call σ)
    (h1 : Workspace.Rel A w d) (hs : w.syntaxes = s)
    (h2 : (d.call A s c).1 = r ∧ Tabbed S A (d.call A s c).2.tabs e'.tabs ∧ (d.call A s c).2.nextId = e'.nextId) :
    ∃ w', w.call A c = .ok (r, w') ∧ Studies S A w' s e' ∧ w'.path = w.path := by
  obtain ⟨w', e1, e2, e3, e4⟩ := h1.call c
  rw [hs] at e1 e2
  rw [h2.1] at e1
  exact ⟨w', e1, ⟨⟨_, e2, h2.2⟩, e4.trans hs⟩, e3⟩

theorem Studies.act {w : Workspace σ} {s : Syntaxes σ} {e : Studio σ} (h : Studies S A w s e) (a : Act σ) :
    ∃ w', w.act S A a = .ok ((e.act S.segs A.grant s a).1, w') ∧ Studies S A w' s (e.act S.segs A.grant s a).2 ∧ w'.path = w.path := by
  obtain ⟨⟨d, h1, h2, h3⟩, hs⟩ := h
  cases a with
  | add k t cs id path syn =>
    obtain ⟨k1, k2⟩ := sheeted_start (A := A) k t
    obtain ⟨b, e1, e2⟩ := k1.steps (S := S) cs k2
    have e3 : Born S A b := ⟨k, t, cs, e1⟩
    obtain ⟨w', f1, f2⟩ := Studies.call (r := true) (e' := e.add s ((ZDoc.new A.grant k (t.getD []) t.isSome).steps S.segs A.grant cs) path syn)
      (.add ⟨b, id, path, syn⟩) h1 hs ⟨rfl, by
        show Tabbed S A (d.tabs.add _) (e.tabs.add _)
        rw [h3]
        exact h2.add (Sheeted.adopted (x := ⟨_, id, path, syn⟩) ⟨e2, e3, rfl, rfl, rfl⟩ e.nextId), congrArg (· + 1) h3⟩
    refine ⟨w', ?_, f2⟩
    simp only [Workspace.act, e1, Except.ok_bind']
    exact f1
  | openPath clock f0 f1 f2 p =>
    refine Studies.call (.openPath clock f0 f1 f2 p) h1 hs ?_
    have hf : (f0.canon p).bind (findPath d.tabs) = (f0.canon p).bind e.find := by
      cases f0.canon p with
      | none => rfl
      | some c => exact find_eq h2 c
    unfold Desk.call Studio.act
    dsimp only
    rw [hf]
    cases (f0.canon p).bind e.find with
    | some i => exact ⟨rfl, ⟨h2.items, rfl⟩, h3⟩
    | none =>
      dsimp only
      cases f1.readToString p with
      | none => exact ⟨rfl, h2, h3⟩
      | some text =>
        cases f2.canon p with
        | none => exact ⟨rfl, h2, h3⟩
        | some c =>
          refine ⟨rfl, ?_, congrArg (· + 1) h3⟩
          show Tabbed S A (d.tabs.add _) (e.tabs.add _)
          rw [h3]
          exact h2.add (Sheeted.adopted (b := ⟨_, none, some c, none⟩) (x := ⟨_, none, some c, none⟩)
            ⟨ZSim.fromContent clock text, ⟨clock, some text, [], rfl⟩, rfl, rfl, rfl⟩ e.nextId)
  | close => exact Studies.call .close h1 hs ⟨rfl, h2.close, h3⟩
  | next => exact Studies.call .next h1 hs ⟨rfl, h2.next, h3⟩
  | previous => exact Studies.call .previous h1 hs ⟨rfl, h2.previous, h3⟩
  | updateSyntax =>
    refine Studies.call .updateSyntax h1 hs ⟨?_, h2.edit fun b x hb => ?_, h3⟩
    · show (!d.tabs.items.isEmpty) = !e.tabs.items.isEmpty
      have := h2.items.length_eq
      cases hd : d.tabs.items <;> cases he : e.tabs.items <;> simp_all
    · exact ⟨hb.sim, hb.born, hb.id, hb.path, by show some (chooseSyntax s b) = _; rw [syntaxFor_eq, hb.path]⟩
  | cmd c =>
    -- the call as a function
    let f : FileBuf σ → FileBuf σ := fun b => match Buf.exec S A b.buf c with | .ok buf => { b with buf := buf } | .error _ => b
    obtain ⟨w', f1, f2⟩ := Studies.call (r := true) (e' := ⟨e.tabs.edit fun x => { x with doc := x.doc.step S.segs A.grant c }, e.nextId⟩)
      (.edit f) h1 hs ⟨rfl, h2.edit fun b x hb => by
        obtain ⟨b', e1, e2⟩ := hb.sim.step (S := S) (A := A) (born_sane hb.born) c
        have e4 := born_step hb.born e1
        have : f b = { b with buf := b' } := by show (match Buf.exec S A b.buf c with | .ok buf => _ | .error _ => _) = _; rw [e1]
        rw [this]
        exact ⟨e2, e4, hb.id, hb.path, hb.syn⟩, h3⟩
    refine ⟨w', ?_, f2⟩
    refine Eq.trans ?_ f1
    simp only [Workspace.act, Workspace.call]
    cases hc : w.current with
    | none => simp only [Option.map]; congr 2; cases w; cases hc; rfl
    | some b =>
      obtain ⟨x, hx⟩ : ∃ x, Sheeted S A b x := by
        cases h1 with
        | empty _ _ _ h => rw [h] at hc; cases hc
        | sel p q z hh _ _ _ h =>
          rw [h] at hc; cases hc
          rcases forall₂_get h2.items p.length with ⟨k1, _⟩ | ⟨_, x, k1, _, k3⟩
          · rw [hh, get_mid] at k1; cases k1
          · rw [hh, get_mid] at k1; cases k1; exact ⟨x, k3⟩
      obtain ⟨b', e1, _⟩ := hx.sim.step (S := S) (A := A) (born_sane hx.born) c
      simp only [Option.map, f, e1]
      rfl
  | setPath p => exact Studies.call (.edit fun b => { b with path := p }) h1 hs ⟨rfl, h2.edit fun b x hb => ⟨hb.sim, hb.born, hb.id, rfl, hb.syn⟩, h3⟩
  | setSyntax y => exact Studies.call (.edit fun b => { b with syn := y }) h1 hs ⟨rfl, h2.edit fun b x hb => ⟨hb.sim, hb.born, hb.id, hb.path, rfl⟩, h3⟩

theorem Studies.acts {s : Syntaxes σ} (as : List (Act σ)) : ∀ {w : Workspace σ} {e : Studio σ}, Studies S A w s e →
    ∃ w', w.acts S A as = .ok ((e.acts S.segs A.grant s as).1, w') ∧ Studies S A w' s (e.acts S.segs A.grant s as).2 ∧ w'.path = w.path := by
  induction as with
  | nil => intro w e h; exact ⟨w, rfl, h, rfl⟩
  | cons a as ih =>
    intro w e h
    obtain ⟨w1, e1, e2, e3⟩ := h.act (S := S) a
    obtain ⟨w2, f1, f2, f3⟩ := ih e2
    refine ⟨w2, ?_, f2, f3.trans e3⟩
    simp only [Workspace.acts, e1, Except.ok_bind', f1]
    rfl

theorem Sheeted.shows {b : FileBuf σ} {x : Sheet σ} (h : Sheeted S A b x) : Shows S.segs (fun g p => g.inBounds S p) b x := by
  have h2 := h.sim
  refine ⟨h2.data.rep.toStr, h2.cursor, h2.log.symm, ?_, ?_, ?_, fun p => GapBuffer.inBounds_rep h2.data.rep p, h.id, h.path, h.syn⟩
  · show (!b.buf.history.atMark) = decide (x.doc.mark ≠ some x.doc.undo.length)
    rw [h2.mark, h2.undo, List.length_map]
    unfold History.atMark
    cases b.buf.history.mark with
    | none => rfl
    | some m =>
      by_cases hm : b.buf.history.previous.length = m
      · subst hm; simp
      · have : ¬ (m = b.buf.history.previous.length) := fun h => hm h.symm
        simp [hm, this]
  · rw [h2.undo, List.length_map]
  · rw [h2.redo, List.length_map]

end Scribe
