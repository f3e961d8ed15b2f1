import Verif.Proofs.Snap
import Verif.Demo
import Mathlib.Logic.Function.Iterate
/-!
# Properties C12–C19: undo, redo, groups, modified

The theorems are about buffers reached from a new or loaded buffer by any sequence of *clean* calls
(`CleanCmd`, see `Verif/Spec/Doc.lean`).
-/
namespace Scribe.Props
open Spec Buf

theorem Start.tri {S A b d t} (h : Start A b d t) : Tri S b d (Snap.new t) := by
  cases h with
  | new k => exact ⟨sim_new k, snapRel_new _ _⟩
  | load k t => exact ⟨sim_fromContent k t, snapRel_new _ _⟩

theorem Reached.tri {S A b d} (h : Reached S A b d) : ∃ s, Tri S b d s := by
  induction h with
  | start h => exact ⟨_, h.tri⟩
  | step _ hc he ih =>
    obtain ⟨s, hs⟩ := ih
    obtain ⟨b'', h1, h2⟩ := hs.exec (A := A) _ hc
    rw [he] at h1
    obtain rfl := Except.ok.inj h1
    exact ⟨_, h2⟩

theorem Reached.all {S A b d b'} (h : Reached S A b d) (cs : List Cmd) (hc : CleanCmds S.segs d cs) (he : execAll S A b cs = .ok b') :
    Reached S A b' (d.steps S.segs cs) := by
  induction cs generalizing b d with
  | nil =>
    obtain rfl := Except.ok.inj he
    exact h
  | cons c cs ih =>
    obtain ⟨s, hs⟩ := h.tri
    obtain ⟨b1, h1, _⟩ := hs.exec (A := A) c hc.1
    simp only [execAll, h1, Except.ok_bind'] at he
    exact ih (h.step hc.1 h1) hc.2 he

/-- No clean call panics, and the document is what the buffer shows. -/
theorem reached_facts {S A b d} (h : Reached S A b d) :
    b.data.toStr = .ok d.text ∧ b.cursor = d.cursor ∧ b.callback = d.callback ∧ b.log = d.log ∧
      (∀ c, CleanCmd S.segs d c → ∃ b', exec S A b c = .ok b') := by
  obtain ⟨s, hs⟩ := h.tri
  refine ⟨hs.sim.face.data.toStr, hs.sim.face.cursor, hs.sim.face.callback, hs.sim.face.log, fun c hc => ?_⟩
  obtain ⟨b', h1, _⟩ := hs.exec (A := A) c hc
  exact ⟨b', h1⟩

theorem passive_clean {segs : Text → List Text} {ms : List Cmd} (hm : ∀ m ∈ ms, Passive m) (d : Doc) : CleanCmds segs d ms := by
  induction ms generalizing d with
  | nil => trivial
  | cons m ms ih =>
    refine ⟨?_, ih (fun x hx => hm x (by simp [hx])) _⟩
    have := hm m (by simp)
    cases m <;> trivial

theorem passive_snaps {segs : Text → List Text} {ms : List Cmd} (hm : ∀ m ∈ ms, Passive m) (d : Doc) (s : Snap) : snaps segs d s ms = s := by
  induction ms generalizing d with
  | nil => rfl
  | cons m ms ih =>
    have := hm m (by simp)
    have e : s.step segs d.cursor.position m = s := by cases m <;> first | rfl | cases this
    rw [snaps, e]
    exact ih (fun x hx => hm x (by simp [hx])) _

theorem edits_snap {segs : Text → List Text} {t : Text} {c : Cmd} (hc : Edits t c) (p : Position) {s : Snap} (hp : s.present = t) :
    ∃ t', s.step segs p c = s.edit t' := by
  cases c <;> first | exact ⟨_, rfl⟩ | cases hc | exact ⟨_, if_neg (by rw [hp]; exact hc)⟩

theorem execAll_append {S A} {b b1 : Buf} {x y : List Cmd} (h : execAll S A b x = .ok b1) :
    execAll S A b (x ++ y) = execAll S A b1 y := by
  induction x generalizing b with
  | nil => obtain rfl := Except.ok.inj h; rfl
  | cons c x ih =>
    simp only [List.cons_append, execAll] at h ⊢
    cases hc : exec S A b c with
    | error e => rw [hc] at h; cases h
    | ok b' => rw [hc] at h; simp only [Except.ok_bind'] at h ⊢; exact ih h

/-- **C12.** After an edit outside a group, any number of cursor movements and saves, and one undo, the contents are
exactly those before the edit. -/
theorem C12_undo_reverses (S : Segmenter) (A : Alloc) (b : Buf) (d : Doc) (c : Cmd) (ms : List Cmd)
    (h : Reached S A b d) (hg : b.group = none) (hc : CleanCmd S.segs d c) (he : Edits d.text c) (hm : ∀ m ∈ ms, Passive m) :
    ∃ b', execAll S A b (c :: ms ++ [.undo]) = .ok b' ∧ b'.data.toStr = b.data.toStr ∧
      b'.history.previous.length = b.history.previous.length := by
  obtain ⟨s, hs⟩ := h.tri
  have hcl : CleanCmds S.segs d (c :: ms ++ [.undo]) :=
    ⟨hc, cleanCmds_append.mpr ⟨passive_clean hm _, trivial, trivial⟩⟩
  obtain ⟨b', h1, h2⟩ := hs.execAll (A := A) _ hcl
  refine ⟨b', h1, ?_⟩
  obtain ⟨t', e⟩ := edits_snap (segs := S.segs) he d.cursor.position hs.snap.present
  have hsn : snaps S.segs d s (c :: ms ++ [.undo]) = ⟨s.past, s.present, t' :: [], none⟩ := by
    rw [List.cons_append, snaps, snaps_append, passive_snaps hm, snaps, snaps, e]
    simp only [Snap.step, Snap.edit, (hs.group_none hg).2, Snap.undo]
  rw [hsn] at h2
  exact ⟨by rw [h2.data, hs.data], by rw [h2.previous, hs.previous]⟩

/-- A concrete instance: inserting a multi-line string in the middle, moving around, undoing. -/
example : (execAll Demo.seg Demo.tight (Buf.fromContent Demo.tight 0 (Demo.s "ab\ncd"))
    [.move (.to ⟨1, 1⟩), .insert (Demo.s "é\nx"), .move .down, .setCursor ⟨5, 5⟩, .undo] >>= fun b => b.data.toStr) =
    .ok (Demo.s "ab\ncd") := by decide +kernel

/-- **C13.** After any sequence of clean calls (edits, undo, redo, groups, movements, saves, reloads), the contents
are the present text of the snapshot history, and the two undo stacks have its lengths. In particular none of these
calls panics. -/
theorem C13_snapshot_history (S : Segmenter) (A : Alloc) (b0 : Buf) (d0 : Doc) (t0 : Text) (cs : List Cmd)
    (h0 : Start A b0 d0 t0) (hc : CleanCmds S.segs d0 cs) :
    ∃ b, execAll S A b0 cs = .ok b ∧
      b.data.toStr = .ok (snaps S.segs d0 (Snap.new t0) cs).present ∧
      b.history.previous.length = (snaps S.segs d0 (Snap.new t0) cs).past.length ∧
      b.history.next.length = (snaps S.segs d0 (Snap.new t0) cs).future.length := by
  obtain ⟨b, h1, h2⟩ := (h0.tri (S := S)).execAll (A := A) cs hc
  exact ⟨b, h1, h2.data, h2.previous, h2.next⟩

/-- The number of undo steps a snapshot history can take. -/
def weight (s : Snap) : Nat := s.past.length + (match s.group with | some (some _) => 1 | _ => 0)

theorem weight_edit (s : Snap) (t : Text) : weight (s.edit t) ≤ weight s + 1 := by
  unfold weight Snap.edit
  rcases hg : s.group with _ | _ | x <;> simp only [List.length_cons] <;> omega

theorem weight_step (segs : Text → List Text) (p : Position) (s : Snap) (c : Cmd) : weight (s.step segs p c) ≤ weight s + 1 := by
  have hrep : ∀ c, weight (if c = s.present then s else s.edit c) ≤ weight s + 1 := by
    intro c; split
    · omega
    · exact weight_edit s c
  cases c with
  | insert x => exact weight_edit s _
  | delete => exact weight_edit s _
  | deleteRange q r => exact weight_edit s _
  | replace c => exact hrep c
  | reload c => exact hrep c
  | undo =>
    simp only [Snap.step]
    unfold Snap.undo weight
    rcases hg : s.group with _ | _ | x <;> rcases hp : s.past with _ | ⟨y, ys⟩ <;> simp only [List.length_cons, List.length_nil] <;> omega
  | redo =>
    simp only [Snap.step]
    unfold Snap.redo weight
    rcases hg : s.future with _ | ⟨y, ys⟩ <;> simp only [List.length_cons] <;> omega
  | startGroup =>
    simp only [Snap.step]
    unfold Snap.startGroup weight
    rcases hg : s.group with _ | _ | x <;> simp only [Option.getD_none, Option.getD_some] <;> omega
  | endGroup =>
    simp only [Snap.step]
    unfold Snap.endGroup weight
    rcases hg : s.group with _ | _ | x <;> simp only [List.length_cons] <;> omega
  | move m => simp only [Snap.step]; omega
  | setCursor p => simp only [Snap.step]; omega
  | setCallback b => simp only [Snap.step]; omega
  | saved => simp only [Snap.step]; omega

theorem weight_snaps (segs : Text → List Text) (cs : List Cmd) (d : Doc) (s : Snap) : weight (snaps segs d s cs) ≤ weight s + cs.length := by
  induction cs generalizing d s with
  | nil => simp [snaps]
  | cons c cs ih =>
    have := ih (d.step segs c) (s.step segs d.cursor.position c)
    have := weight_step segs d.cursor.position s c
    simp only [snaps, List.length_cons]; omega

/-- The oldest text of a history. -/
def oldest (s : Snap) : Option Text := (s.base :: s.past).getLast?

theorem oldest_edit (s : Snap) (t : Text) : oldest (s.edit t) = oldest s := by
  unfold oldest Snap.edit Snap.base
  rcases hg : s.group with _ | _ | x <;> simp only [List.getLast?_cons_cons]

theorem oldest_undo (s : Snap) : oldest s.undo = oldest s := by
  unfold oldest Snap.undo Snap.base
  rcases hg : s.group with _ | _ | x <;> rcases hp : s.past with _ | ⟨y, ys⟩ <;> simp only [List.getLast?_cons_cons]

theorem oldest_step {S : Segmenter} {d : Doc} {s : Snap} (h : SnapRel d s) (c : Cmd) (hc : CleanCmd S.segs d c) :
    oldest (s.step S.segs d.cursor.position c) = oldest s := by
  have hrep : ∀ c, oldest (if c = s.present then s else s.edit c) = oldest s := by
    intro c; split
    · rfl
    · exact oldest_edit s c
  cases c with
  | insert x => exact oldest_edit s _
  | delete => exact oldest_edit s _
  | deleteRange q r => exact oldest_edit s _
  | replace c => exact hrep c
  | reload c => exact hrep c
  | undo => exact oldest_undo s
  | redo =>
    simp only [Snap.step]
    unfold Snap.redo
    rcases hf : s.future with _ | ⟨y, ys⟩
    · rfl
    · simp only
      have hne : d.redo ≠ [] := by
        intro h0
        have := h.future.length
        rw [h0, hf] at this; simp at this
      have hc' : d.group = none ∨ d.group = some [] := by
        rcases hc with hc | hc
        · exact absurd hc hne
        · exact hc
      have hb := base_of_noEdits h hc'
      have hg : s.group = none ∨ s.group = some none := by
        have hg := h.group
        rcases hc' with hc' | hc' <;> rw [hc'] at hg <;> rcases hsg : s.group with _ | _ | x <;> rw [hsg] at hg <;>
          first | exact Or.inl rfl | exact Or.inr rfl | cases hg
      unfold oldest
      rw [hb]
      unfold Snap.base
      rcases hg with hg | hg <;> simp only [hg, List.getLast?_cons_cons]
  | startGroup =>
    simp only [Snap.step]
    unfold Snap.startGroup oldest Snap.base
    rcases hg : s.group with _ | _ | x <;> simp
  | endGroup =>
    simp only [Snap.step]
    unfold Snap.endGroup oldest Snap.base
    rcases hg : s.group with _ | _ | x <;> simp only [List.getLast?_cons_cons]
  | move m => rfl
  | setCursor p => rfl
  | setCallback b => rfl
  | saved => rfl

theorem oldest_snaps {S : Segmenter} (cs : List Cmd) {d : Doc} {s : Snap} (h : SnapRel d s) (hc : CleanCmds S.segs d cs) :
    oldest (snaps S.segs d s cs) = oldest s := by
  induction cs generalizing d s with
  | nil => rfl
  | cons c cs ih => rw [snaps, ih (snap_step h c hc.1) hc.2, oldest_step h c hc.1]

theorem clean_undos (segs : Text → List Text) (n : Nat) (d : Doc) : CleanCmds segs d (List.replicate n .undo) := by
  induction n generalizing d with
  | zero => trivial
  | succ n ih => exact ⟨trivial, ih _⟩

theorem weight_undos (segs : Text → List Text) (n : Nat) (d : Doc) (s : Snap) :
    weight (snaps segs d s (List.replicate n .undo)) = weight s - n := by
  induction n generalizing d s with
  | zero => rfl
  | succ n ih =>
    rw [List.replicate_succ, snaps, ih]
    have : weight (s.step segs d.cursor.position .undo) = weight s - 1 := by
      simp only [Snap.step]
      unfold Snap.undo weight
      rcases hg : s.group with _ | _ | x <;> rcases hp : s.past with _ | ⟨y, ys⟩ <;> simp
    omega

/-- C13: undoing as often as there were calls always gives back the initial text. -/
theorem C13_undo_everything (S : Segmenter) (A : Alloc) (b0 : Buf) (d0 : Doc) (t0 : Text) (cs : List Cmd) (n : Nat)
    (h0 : Start A b0 d0 t0) (hc : CleanCmds S.segs d0 cs) (hn : cs.length ≤ n) :
    ∃ b, execAll S A b0 (cs ++ List.replicate n .undo) = .ok b ∧ b.data.toStr = .ok t0 := by
  have hcl : CleanCmds S.segs d0 (cs ++ List.replicate n .undo) := cleanCmds_append.mpr ⟨hc, clean_undos _ _ _⟩
  obtain ⟨b, h1, h2⟩ := (h0.tri (S := S)).execAll (A := A) _ hcl
  refine ⟨b, h1, ?_⟩
  have ho := oldest_snaps (S := S) _ (h0.tri (S := S)).snap hcl
  rw [h2.data]
  have hw : weight (snaps S.segs d0 (Snap.new t0) (cs ++ List.replicate n .undo)) = 0 := by
    rw [snaps_append, weight_undos]
    have := weight_snaps S.segs cs d0 (Snap.new t0)
    have : weight (Snap.new t0) = 0 := rfl
    omega
  generalize snaps S.segs d0 (Snap.new t0) (cs ++ List.replicate n .undo) = s at ho hw
  unfold weight at hw
  unfold oldest Snap.base at ho
  rcases hg : s.group with _ | _ | x <;> rcases hp : s.past with _ | ⟨y, ys⟩ <;> simp [hg, hp, Snap.new] at ho hw
  · rw [ho]
  · rw [ho]

theorem undo_redo_snap (s : Snap) (hg : s.group = none) (hp : s.past ≠ []) : s.undo.redo = s := by
  unfold Snap.undo Snap.redo
  rcases s with ⟨_ | ⟨y, ys⟩, pr, fu, gr⟩
  · exact absurd rfl hp
  · simp only at hg; subst hg; rfl

theorem iterate_undo_redo (k : Nat) (s : Snap) (hg : s.group = none) (hk : k ≤ s.past.length) :
    Snap.redo^[k] (Snap.undo^[k] s) = s := by
  induction k generalizing s with
  | zero => rfl
  | succ k ih =>
    rw [Function.iterate_succ_apply Snap.undo, Function.iterate_succ_apply' Snap.redo]
    have hne : s.past ≠ [] := by intro h; rw [h] at hk; simp at hk
    have h1 : s.undo.group = none ∧ s.undo.past.length = s.past.length - 1 := by
      unfold Snap.undo
      rw [hg]
      rcases s with ⟨_ | ⟨y, ys⟩, pr, fu, gr⟩
      · exact absurd rfl hne
      · exact ⟨rfl, rfl⟩
    rw [ih s.undo h1.1 (by omega), undo_redo_snap s hg hne]

theorem snaps_undos (segs : Text → List Text) (n : Nat) (d : Doc) (s : Snap) :
    snaps segs d s (List.replicate n .undo) = Snap.undo^[n] s := by
  induction n generalizing d s with
  | zero => rfl
  | succ n ih => rw [List.replicate_succ, snaps, ih, Function.iterate_succ_apply]; rfl

theorem snaps_redos (segs : Text → List Text) (n : Nat) (d : Doc) (s : Snap) :
    snaps segs d s (List.replicate n .redo) = Snap.redo^[n] s := by
  induction n generalizing d s with
  | zero => rfl
  | succ n ih => rw [List.replicate_succ, snaps, ih, Function.iterate_succ_apply]; rfl

theorem apply_group (segs) (es : List Edit) (d : Doc) : (d.applyAll segs es).group = d.group := by
  induction es generalizing d with
  | nil => rfl
  | cons e es ih => exact (ih _).trans (apply_same segs d e).1.2.2.1

theorem clean_redos (segs : Text → List Text) (n : Nat) (d : Doc) (hg : d.group = none) : CleanCmds segs d (List.replicate n .redo) := by
  induction n generalizing d with
  | zero => trivial
  | succ n ih =>
    refine ⟨Or.inr (Or.inl hg), ih _ ?_⟩
    simp only [Doc.step, Doc.redo1]
    split
    · rw [apply_group]; exact hg
    · exact hg

theorem revert_group (segs) (es : List Edit) (d : Doc) : (d.revertAll segs es).group = d.group := by
  induction es using List.reverseRecOn generalizing d with
  | nil => rfl
  | append_singleton es e ih => rw [revertAll_snoc, ih]; exact (revert_same segs d e).1.2.2.1

theorem undos_group (segs : Text → List Text) (n : Nat) (d : Doc) (hg : d.group = none) :
    (d.steps segs (List.replicate n .undo)).group = none := by
  induction n generalizing d with
  | zero => exact hg
  | succ n ih =>
    apply ih
    simp only [Doc.step, Doc.undo1, hg]
    split
    · rw [revert_group]
    · rfl

/-- C13/C14: undoing `k` steps and redoing `k` steps gives back the same contents, for any number of steps there is. -/
theorem C13_undo_redo_k (S : Segmenter) (A : Alloc) (b : Buf) (d : Doc) (k : Nat)
    (h : Reached S A b d) (hg : b.group = none) (hk : k ≤ b.history.previous.length) :
    ∃ b', execAll S A b (List.replicate k .undo ++ List.replicate k .redo) = .ok b' ∧ b'.data.toStr = b.data.toStr ∧
      b'.history.previous.length = b.history.previous.length ∧ b'.history.next.length = b.history.next.length := by
  obtain ⟨s, hs⟩ := h.tri
  have hg' := hs.group_none hg
  have hcl : CleanCmds S.segs d (List.replicate k .undo ++ List.replicate k .redo) :=
    cleanCmds_append.mpr ⟨clean_undos _ _ _, clean_redos _ _ _ (undos_group _ _ _ hg'.1)⟩
  obtain ⟨b', h1, h2⟩ := hs.execAll (A := A) _ hcl
  rw [snaps_append, snaps_undos, snaps_redos, iterate_undo_redo k s hg'.2 (by rw [← hs.previous]; exact hk)] at h2
  exact ⟨b', h1, by rw [h2.data, hs.data], by rw [h2.previous, hs.previous], by rw [h2.next, hs.next]⟩

/-- **C14.** Undo then redo gives back the same contents when there is something to undo. -/
theorem C14_undo_redo (S : Segmenter) (A : Alloc) (b : Buf) (d : Doc) (h : Reached S A b d) (hg : b.group = none)
    (hp : b.history.previous ≠ []) :
    ∃ b', execAll S A b [.undo, .redo] = .ok b' ∧ b'.data.toStr = b.data.toStr := by
  obtain ⟨b', h1, h2, _⟩ := C13_undo_redo_k S A b d 1 h hg (List.length_pos_iff.mpr hp)
  exact ⟨b', h1, h2⟩

/-- C14: redo then undo gives back the same contents when there is something to redo. -/
theorem C14_redo_undo (S : Segmenter) (A : Alloc) (b : Buf) (d : Doc) (h : Reached S A b d) (hg : b.group = none)
    (hp : b.history.next ≠ []) :
    ∃ b', execAll S A b [.redo, .undo] = .ok b' ∧ b'.data.toStr = b.data.toStr := by
  obtain ⟨s, hs⟩ := h.tri
  have hg' := hs.group_none hg
  obtain ⟨b', h1, h2⟩ := hs.execAll (A := A) [.redo, .undo] ⟨Or.inr (Or.inl hg'.1), trivial, trivial⟩
  refine ⟨b', h1, ?_⟩
  rw [h2.data, hs.data]
  have hf : s.future ≠ [] := by
    intro h0; have := hs.next; rw [h0] at this; exact hp (List.length_eq_zero_iff.mp this)
  simp only [snaps, Snap.step]
  unfold Snap.redo Snap.undo
  rcases hs' : s.future with _ | ⟨y, ys⟩
  · exact absurd hs' hf
  · simp only [hg'.2]

/-- Several steps back and forth, over a group and a replacement. -/
example : (execAll Demo.seg Demo.tight (Buf.fromContent Demo.tight 0 (Demo.s "ab\ncd"))
    [.insert (Demo.s "x"), .startGroup, .delete, .insert (Demo.s "yy\n"), .endGroup, .replace (Demo.s "q"), .undo, .undo, .undo, .redo, .redo]
      >>= fun b => b.data.toStr) = .ok (Demo.s "yy\nab\ncd") := by decide +kernel

/-! ### C15 -/

theorem report_keeps (b : Buf) (p : Position) : (b.report p).group = b.group ∧ (b.report p).history = b.history :=
  ⟨report_group b p, report_history b p⟩

theorem replaceContent_keeps {S A} {b b' : Buf} {c : Text} (h : replaceContent S A c b = .ok b') :
    b'.group = b.group ∧ b'.history = b.history := by
  unfold replaceContent at h
  dsimp only at h
  cases h1 : Cursor.moveTo S (GapBuffer.new A b.data.clock c) (Cursor.new ⟨0, 0⟩) b.cursor.position with
  | error e => rw [h1] at h; cases h
  | ok r =>
    obtain ⟨ok, cu⟩ := r
    rw [h1] at h
    simp only [Except.ok_bind'] at h
    cases ok with
    | true =>
      obtain rfl := Except.ok.inj h
      exact report_keeps _ _
    | false =>
      cases h2 : Cursor.moveTo S (GapBuffer.new A b.data.clock c) cu ⟨b.cursor.position.line, 0⟩ with
      | error e => simp only [h2] at h; cases h
      | ok r2 =>
        simp only [h2] at h
        obtain rfl := Except.ok.inj h
        exact report_keeps _ _

theorem runOp_keeps {S A} {b b' : Buf} {op op' : SOp} (h : runOp S A b op = .ok (b', op')) :
    b'.group = b.group ∧ b'.history = b.history := by
  cases op with
  | insert c p =>
    simp only [runOp] at h
    cases h1 : b.data.insert S A c p with
    | error e => rw [h1] at h; cases h
    | ok g =>
      rw [h1] at h
      cases h
      exact report_keeps _ _
  | delete c r =>
    simp only [runOp] at h
    cases h1 : b.data.read S r with
    | error e => rw [h1] at h; cases h
    | ok c =>
      rw [h1] at h
      cases h2 : b.data.delete S r with
      | error e => rw [h2] at h; cases h
      | ok g =>
        rw [h2] at h
        cases h
        exact report_keeps _ _
  | replace o n =>
    simp only [runOp] at h
    cases h1 : replaceContent S A n b with
    | error e => rw [h1] at h; cases h
    | ok g =>
      rw [h1] at h
      cases h
      exact replaceContent_keeps h1

/-- What an editing call does to the stacks: it stores one operation (`true`) or does nothing (`false`). -/
theorem edit_stores {S A} {b b' : Buf} {c : Cmd} {t : Text} (ht : b.data.toStr = .ok t) (he : Edits t c) (hr : ∀ x, c ≠ .reload x)
    (h : exec S A b c = .ok b') :
    ∃ b1 op, b1.group = b.group ∧ b1.history = b.history ∧ b' = store b1 op := by
  have key : ∀ op0, (runOp S A b op0 >>= fun r => (pure (r.1.store r.2) : R Buf)) = .ok b' →
      ∃ b1 op, b1.group = b.group ∧ b1.history = b.history ∧ b' = store b1 op := by
    intro op0 h
    cases h1 : runOp S A b op0 with
    | error e => rw [h1] at h; cases h
    | ok r =>
      rw [h1] at h
      cases h
      obtain ⟨k1, k2⟩ := runOp_keeps (op' := r.2) (b' := r.1) h1
      exact ⟨r.1, r.2, k1, k2, rfl⟩
  cases c with
  | insert s => exact key _ h
  | deleteRange p q => exact key _ h
  | delete =>
    simp only [exec, delete] at h
    cases h1 : b.data.inBounds S ⟨b.cursor.position.line, b.cursor.position.offset + 1⟩ with
    | error e => rw [h1] at h; cases h
    | ok v => rw [h1] at h; exact key _ h
  | replace x =>
    simp only [exec, replace, ht, Except.ok_bind'] at h
    rw [if_neg he] at h
    exact key _ h
  | reload x => exact absurd rfl (hr x)
  | _ => cases he

/-- **C15.** After a successful edit outside a group there is nothing to redo: `redo` changes nothing at all. This holds in every
state, clean or not. -/
theorem C15_edit_clears_redo (S : Segmenter) (A : Alloc) (b b' : Buf) (c : Cmd) (t : Text) (hg : b.group = none)
    (ht : b.data.toStr = .ok t) (he : Edits t c) (hr : ∀ x, c ≠ .reload x) (h : exec S A b c = .ok b') :
    b'.history.next = [] ∧ exec S A b' .redo = .ok b' := by
  obtain ⟨b1, op, h1, h2, rfl⟩ := edit_stores ht he hr h
  have : (store b1 op).history.next = [] := by
    unfold store; rw [h1, hg]; rfl
  refine ⟨this, ?_⟩
  simp only [exec, redo, History.forth, this]
  rfl

/-- C15: ending a group that has edits also leaves nothing to redo. -/
theorem C15_group_clears_redo (S : Segmenter) (A : Alloc) (b : Buf) (op : SOp) (ops : List SOp) (hg : b.group = some (op :: ops)) :
    b.endGroup.history.next = [] ∧ exec S A b.endGroup .redo = .ok b.endGroup := by
  have : b.endGroup.history.next = [] := by
    unfold endGroup; rw [hg]; rfl
  refine ⟨this, ?_⟩
  simp only [exec, redo, History.forth, this]
  rfl

/-- Undo, edit, redo: the undone edit does not come back. -/
example : (execAll Demo.seg Demo.tight (Buf.fromContent Demo.tight 0 (Demo.s "ab"))
    [.insert (Demo.s "x"), .undo, .insert (Demo.s "y"), .redo] >>= fun b => b.data.toStr) = .ok (Demo.s "yab") := by decide +kernel

/-! ### C16, C17 -/

theorem inGroup_edit {s : Snap} (t : Text) (hg : s.group ≠ none) :
    (s.edit t).past = s.past ∧ (s.edit t).future = s.future ∧ (s.edit t).base = s.base ∧ (∃ x, (s.edit t).group = some (some x)) := by
  rcases s with ⟨a, b, c, _ | _ | x⟩
  · exact absurd rfl hg
  · exact ⟨rfl, rfl, rfl, _, rfl⟩
  · exact ⟨rfl, rfl, rfl, _, rfl⟩

theorem inGroup_step {segs : Text → List Text} {s : Snap} (p : Position) {c : Cmd} (hg : s.group ≠ none) (hc : InGroup c) :
    (s.step segs p c).past = s.past ∧ (s.step segs p c).future = s.future ∧ (s.step segs p c).base = s.base ∧
      (s.step segs p c).group ≠ none ∧
      (((∃ x, s.group = some (some x)) ∨ IsEdit c) → ∃ x, (s.step segs p c).group = some (some x)) := by
  have ed : ∀ t, (s.edit t).past = s.past ∧ (s.edit t).future = s.future ∧ (s.edit t).base = s.base ∧ (s.edit t).group ≠ none ∧
      ∃ x, (s.edit t).group = some (some x) := by
    intro t
    obtain ⟨h1, h2, h3, x, h4⟩ := inGroup_edit t hg
    exact ⟨h1, h2, h3, by rw [h4]; simp, x, h4⟩
  have same : s.past = s.past ∧ s.future = s.future ∧ s.base = s.base ∧ s.group ≠ none := ⟨rfl, rfl, rfl, hg⟩
  have rep : ∀ t, (if t = s.present then s else s.edit t).past = s.past ∧ (if t = s.present then s else s.edit t).future = s.future ∧
      (if t = s.present then s else s.edit t).base = s.base ∧ (if t = s.present then s else s.edit t).group ≠ none ∧
      (((∃ x, s.group = some (some x)) ∨ False) → ∃ x, (if t = s.present then s else s.edit t).group = some (some x)) := by
    intro t
    split
    · exact ⟨by simp, by simp, by simp, hg, fun h => h.elim id False.elim⟩
    · obtain ⟨h1, h2, h3, h4, h5⟩ := ed t
      exact ⟨h1, h2, h3, h4, fun _ => h5⟩
  cases c with
  | insert x => obtain ⟨h1, h2, h3, h4, h5⟩ := ed (insertAt segs s.present x p); exact ⟨h1, h2, h3, h4, fun _ => h5⟩
  | delete => obtain ⟨h1, h2, h3, h4, h5⟩ := ed (Spec.deleteRange segs s.present p (Doc.deleteEnd segs s.present p)); exact ⟨h1, h2, h3, h4, fun _ => h5⟩
  | deleteRange q r => obtain ⟨h1, h2, h3, h4, h5⟩ := ed (Spec.deleteRange segs s.present (lo q r) (hi q r)); exact ⟨h1, h2, h3, h4, fun _ => h5⟩
  | replace t => exact rep t
  | reload t => exact rep t
  | undo => cases hc
  | redo => cases hc
  | endGroup => cases hc
  | startGroup =>
    have : s.startGroup = s := by
      unfold Snap.startGroup
      rcases s with ⟨a, b, c, _ | g⟩
      · exact absurd rfl hg
      · rfl
    rw [show s.step segs p .startGroup = s from this]
    exact ⟨rfl, rfl, rfl, hg, fun h => h.elim id False.elim⟩
  | move m => exact ⟨rfl, rfl, rfl, hg, fun h => h.elim id False.elim⟩
  | setCursor q => exact ⟨rfl, rfl, rfl, hg, fun h => h.elim id False.elim⟩
  | setCallback v => exact ⟨rfl, rfl, rfl, hg, fun h => h.elim id False.elim⟩
  | saved => exact ⟨rfl, rfl, rfl, hg, fun h => h.elim id False.elim⟩

theorem inGroup_snaps {segs : Text → List Text} (cs : List Cmd) (d : Doc) (s : Snap) (hg : s.group ≠ none) (hc : ∀ c ∈ cs, InGroup c) :
    (snaps segs d s cs).past = s.past ∧ (snaps segs d s cs).future = s.future ∧ (snaps segs d s cs).base = s.base ∧
      (((∃ x, s.group = some (some x)) ∨ ∃ c ∈ cs, IsEdit c) → ∃ x, (snaps segs d s cs).group = some (some x)) := by
  induction cs generalizing d s with
  | nil => exact ⟨rfl, rfl, rfl, fun h => h.elim id (fun ⟨c, h, _⟩ => absurd h (by simp))⟩
  | cons c cs ih =>
    obtain ⟨h1, h2, h3, h4, h5⟩ := inGroup_step (segs := segs) d.cursor.position hg (hc c (by simp))
    obtain ⟨k1, k2, k3, k5⟩ := ih (d.step segs c) (s.step segs d.cursor.position c) h4 (fun x hx => hc x (by simp [hx]))
    rw [snaps]
    refine ⟨k1.trans h1, k2.trans h2, k3.trans h3, fun h => k5 ?_⟩
    rcases h with h | ⟨x, hx, he⟩
    · exact Or.inl (h5 (Or.inl h))
    · rcases List.mem_cons.mp hx with rfl | hx
      · exact Or.inl (h5 (Or.inr he))
      · exact Or.inr ⟨x, hx, he⟩

/-- The snapshots after a group has been opened and used. -/
theorem group_snaps {segs : Text → List Text} (cs : List Cmd) (d : Doc) (s : Snap) (hg : s.group = none) (hc : ∀ c ∈ cs, InGroup c)
    (he : ∃ c ∈ cs, IsEdit c) :
    ∃ t, snaps segs d s (.startGroup :: cs) = ⟨s.past, t, s.future, some (some s.present)⟩ := by
  have hg' : s.startGroup.group = some none := by unfold Snap.startGroup; rw [hg]; rfl
  obtain ⟨h1, h2, h3, h4⟩ := inGroup_snaps (segs := segs) cs (d.step segs .startGroup) s.startGroup (by rw [hg']; simp) hc
  obtain ⟨x, hx⟩ := h4 (Or.inr he)
  rw [snaps]
  show ∃ t, snaps segs (d.step segs .startGroup) s.startGroup cs = _
  have hb : s.startGroup.base = s.present := by unfold Snap.base; rw [hg']; rfl
  generalize snaps segs (d.step segs .startGroup) s.startGroup cs = u at *
  rcases u with ⟨a, b, c, g⟩
  simp only at hx h1 h2
  subst hx
  have : x = s.present := by rw [← hb, ← h3]; rfl
  subst this h1 h2
  exact ⟨b, rfl⟩

/-- **C16.** All edits between `start_operation_group` and `end_operation_group` are one step: one undo goes back to the text before
the group, one redo to the text after it. -/
theorem C16_group_is_one_step (S : Segmenter) (A : Alloc) (b : Buf) (d : Doc) (cs : List Cmd) (h : Reached S A b d)
    (hg : b.group = none) (hc : CleanCmds S.segs d (.startGroup :: cs ++ [.endGroup])) (hi : ∀ c ∈ cs, InGroup c) (he : ∃ c ∈ cs, IsEdit c) :
    ∃ b1 b2 b3, execAll S A b (.startGroup :: cs ++ [.endGroup]) = .ok b1 ∧
      b1.history.previous.length = b.history.previous.length + 1 ∧
      exec S A b1 .undo = .ok b2 ∧ b2.data.toStr = b.data.toStr ∧
      exec S A b2 .redo = .ok b3 ∧ b3.data.toStr = b1.data.toStr := by
  obtain ⟨s, hs⟩ := h.tri
  obtain ⟨t, ht⟩ := group_snaps (segs := S.segs) cs d s (hs.group_none hg).2 hi he
  obtain ⟨b1, e1, t1⟩ := hs.execAll (A := A) _ hc
  rw [snaps_append, ht] at t1
  simp only [snaps, Snap.step, Snap.endGroup] at t1
  obtain ⟨b2, e2, t2⟩ := t1.exec (A := A) .undo trivial
  simp only [Snap.step, Snap.undo] at t2
  obtain ⟨b3, e3, t3⟩ := t2.exec (A := A) .redo (Or.inr (Or.inl (t2.group_of_snap rfl).2))
  simp only [Snap.step, Snap.redo] at t3
  refine ⟨b1, b2, b3, e1, ?_, e2, ?_, e3, ?_⟩
  · rw [t1.previous, hs.previous]; rfl
  · rw [t2.data, hs.data]
  · rw [t3.data, t1.data]

/-- C16: a group without edits leaves no trace, and opening a group twice is opening it once. -/
theorem C16_empty_group (b : Buf) (hg : b.group = none) :
    b.startGroup.endGroup = b ∧ b.startGroup.startGroup = b.startGroup ∧ b.endGroup = b := by
  rcases b with ⟨da, cu, hi, g, ca, lo⟩
  simp only at hg
  subst hg
  exact ⟨rfl, rfl, rfl⟩

theorem inGroup_exec {S A} {b b' : Buf} {c : Cmd} {t : Text} (ht : b.data.toStr = .ok t) (hc : InGroup c) (ops : List SOp) (hg : b.group = some ops)
    (h : exec S A b c = .ok b') :
    b'.history.previous = b.history.previous ∧ b'.history.next = b.history.next ∧ (∃ ops', b'.group = some (ops ++ ops')) := by
  have st : ∀ (b1 : Buf) op, b1.group = b.group → b1.history = b.history → (store b1 op).history = b.history ∧ ∃ ops', (store b1 op).group = some (ops ++ ops') := by
    intro b1 op h1 h2
    unfold store
    rw [h1, hg]
    exact ⟨h2, [op], rfl⟩
  have nil : ∃ ops', b.group = some (ops ++ ops') := ⟨[], by rw [hg]; simp⟩
  have rep : ∀ x, replace S A b x = .ok b' → b'.history = b.history ∧ ∃ ops', b'.group = some (ops ++ ops') := by
    intro x h
    by_cases hx : x = t
    · unfold replace at h
      simp only [ht, Except.ok_bind', if_pos hx] at h
      cases h
      exact ⟨rfl, nil⟩
    · obtain ⟨b1, op, h1, h2, rfl⟩ := edit_stores (c := .replace x) ht hx (by simp) h
      exact st b1 op h1 h2
  have fin : (b'.history = b.history ∧ ∃ ops', b'.group = some (ops ++ ops')) →
      b'.history.previous = b.history.previous ∧ b'.history.next = b.history.next ∧ (∃ ops', b'.group = some (ops ++ ops')) :=
    fun ⟨h1, h2⟩ => ⟨by rw [h1], by rw [h1], h2⟩
  cases c with
  | insert s =>
    obtain ⟨b1, op, h1, h2, rfl⟩ := edit_stores (c := .insert s) ht trivial (by simp) h
    exact fin (st b1 op h1 h2)
  | delete =>
    obtain ⟨b1, op, h1, h2, rfl⟩ := edit_stores (c := .delete) ht trivial (by simp) h
    exact fin (st b1 op h1 h2)
  | deleteRange p q =>
    obtain ⟨b1, op, h1, h2, rfl⟩ := edit_stores (c := .deleteRange p q) ht trivial (by simp) h
    exact fin (st b1 op h1 h2)
  | replace x => exact fin (rep x h)
  | reload x =>
    simp only [exec, reloadWith] at h
    cases h1 : replace S A b x with
    | error e => rw [h1] at h; cases h
    | ok b1 =>
      rw [h1] at h
      cases h
      by_cases hx : x = t
      · unfold replace at h1
        simp only [ht, Except.ok_bind', if_pos hx] at h1
        cases h1
        exact ⟨rfl, rfl, nil⟩
      · obtain ⟨b2, op, k1, k2, rfl⟩ := edit_stores (c := .replace x) ht hx (by simp) h1
        obtain ⟨k3, k4⟩ := st b2 op k1 k2
        exact ⟨by show (store b2 op).history.previous = _; rw [k3], by show (store b2 op).history.next = _; rw [k3], k4⟩
  | undo => cases hc
  | redo => cases hc
  | endGroup => cases hc
  | startGroup =>
    cases h
    unfold startGroup
    rw [hg]
    exact ⟨rfl, rfl, nil⟩
  | move m =>
    simp only [exec] at h
    cases h1 : Cursor.move S b.data b.cursor m with
    | error e => rw [h1] at h; cases h
    | ok v => rw [h1] at h; cases h; exact ⟨rfl, rfl, nil⟩
  | setCursor q => cases h; exact ⟨rfl, rfl, nil⟩
  | setCallback v => cases h; exact ⟨rfl, rfl, nil⟩
  | saved => cases h; exact ⟨rfl, rfl, nil⟩

theorem reverseOp_keeps {S A} {b b' : Buf} {op : SOp} (h : reverseOp S A b op = .ok b') :
    b'.group = b.group ∧ b'.history = b.history := by
  cases op with
  | insert c p =>
    simp only [reverseOp] at h
    cases h1 : insertEnd S c p with
    | error e => rw [h1] at h; cases h
    | ok e =>
      rw [h1] at h
      cases e with
      | none => cases h; exact ⟨rfl, rfl⟩
      | some q =>
        simp only [Except.ok_bind'] at h
        cases h2 : b.data.delete S (Range.new p q) with
        | error e => rw [h2] at h; cases h
        | ok g => rw [h2] at h; cases h; exact report_keeps _ _
  | delete c r =>
    cases c with
    | none => cases h; exact ⟨rfl, rfl⟩
    | some c =>
      simp only [reverseOp] at h
      cases h2 : b.data.insert S A c r.start with
      | error e => rw [h2] at h; cases h
      | ok g => rw [h2] at h; cases h; exact report_keeps _ _
  | replace o n => exact replaceContent_keeps h

theorem reverseAll_keeps {S A} {ops : List SOp} {b b' : Buf} (h : reverseAll S A b ops = .ok b') :
    b'.group = b.group ∧ b'.history = b.history := by
  induction ops generalizing b with
  | nil => cases h; exact ⟨rfl, rfl⟩
  | cons op ops ih =>
    simp only [reverseAll] at h
    cases h1 : reverseOp S A b op with
    | error e => rw [h1] at h; cases h
    | ok b1 =>
      rw [h1] at h
      obtain ⟨k1, k2⟩ := ih h
      obtain ⟨l1, l2⟩ := reverseOp_keeps h1
      exact ⟨k1.trans l1, k2.trans l2⟩

/-- **C17.** Undo while a group with edits is open goes back to the text at the start of the group and closes the group. The undo
and redo stacks are those from before the group: the undone group cannot be redone. -/
theorem C17_undo_open_group (S : Segmenter) (A : Alloc) (b : Buf) (d : Doc) (cs : List Cmd) (h : Reached S A b d)
    (hg : b.group = none) (hc : CleanCmds S.segs d (.startGroup :: cs)) (hi : ∀ c ∈ cs, InGroup c) (he : ∃ c ∈ cs, IsEdit c) :
    ∃ b1 b2, execAll S A b (.startGroup :: cs) = .ok b1 ∧ exec S A b1 .undo = .ok b2 ∧
      b2.data.toStr = b.data.toStr ∧ b2.group = none ∧
      b2.history.previous = b.history.previous ∧ b2.history.next = b.history.next := by
  obtain ⟨s, hs⟩ := h.tri
  obtain ⟨t, ht⟩ := group_snaps (segs := S.segs) cs d s (hs.group_none hg).2 hi he
  obtain ⟨b1, e1, t1⟩ := hs.execAll (A := A) _ hc
  rw [ht] at t1
  obtain ⟨b2, e2, t2⟩ := t1.exec (A := A) .undo trivial
  simp only [Snap.step, Snap.undo] at t2
  refine ⟨b1, b2, e1, e2, by rw [t2.data, hs.data], (t2.group_of_snap rfl).1, ?_⟩
  -- the stacks
  have run : ∀ (cs : List Cmd) (b : Buf) (d : Doc) (s : Snap) (ops : List SOp), Tri S b d s → b.group = some ops → (∀ c ∈ cs, InGroup c) → CleanCmds S.segs d cs →
      ∀ b', execAll S A b cs = .ok b' → b'.history.previous = b.history.previous ∧ b'.history.next = b.history.next := by
    intro cs
    induction cs with
    | nil => intro b d s ops _ _ _ _ b' h; cases h; exact ⟨rfl, rfl⟩
    | cons c cs ih =>
      intro b d s ops ht hg hi hc b' h
      obtain ⟨bb, f1, f2⟩ := ht.exec (A := A) c hc.1
      obtain ⟨k1, k2, ops', k3⟩ := inGroup_exec ht.data (hi c (by simp)) ops hg f1
      simp only [execAll, f1, Except.ok_bind'] at h
      obtain ⟨l1, l2⟩ := ih bb _ _ _ f2 k3 (fun x hx => hi x (by simp [hx])) hc.2 b' h
      exact ⟨l1.trans k1, l2.trans k2⟩
  obtain ⟨bs, f1, f2⟩ := hs.exec (A := A) .startGroup trivial
  have hbs : bs = { b with group := some [] } := by
    have := Except.ok.inj f1
    rw [← this]; unfold startGroup; rw [hg]
  have hst := run cs bs _ _ [] f2 (by rw [hbs]) hi hc.2 b1 (by
    simp only [execAll] at e1
    rw [f1] at e1; exact e1)
  rw [hbs] at hst
  have hund : b2.history = b1.history := by
    simp only [exec, undo] at e2
    cases hgr : b1.group with
    | none => have := (t1.group_none hgr).2; cases this
    | some ops =>
      cases ops with
      | nil => have := (t1.group_empty hgr).2; cases this
      | cons op ops =>
        rw [hgr] at e2
        exact (reverseAll_keeps e2).2
  exact ⟨by rw [hund]; exact hst.1, by rw [hund]; exact hst.2⟩

/-- C17: undo with an open group that has no edits is undo without the group. -/
theorem C17_undo_empty_group (S : Segmenter) (A : Alloc) (b : Buf) (hg : b.group = some []) :
    exec S A b .undo = exec S A { b with group := none } .undo := by
  simp only [exec, undo, hg]
  rfl

/-- A group with a deletion and two insertions; undone while open, and undone and redone after being closed. -/
example : (execAll Demo.seg Demo.tight (Buf.fromContent Demo.tight 0 (Demo.s "ab\ncd"))
    [.insert (Demo.s "x"), .startGroup, .delete, .insert (Demo.s "é\n"), .move .down, .insert (Demo.s "z"), .undo] >>= fun b => b.data.toStr) =
    .ok (Demo.s "xab\ncd") := by decide +kernel
example : (execAll Demo.seg Demo.tight (Buf.fromContent Demo.tight 0 (Demo.s "ab\ncd"))
    [.insert (Demo.s "x"), .startGroup, .delete, .insert (Demo.s "é\n"), .move .down, .insert (Demo.s "z"), .endGroup, .undo, .redo]
      >>= fun b => b.data.toStr) = .ok (Demo.s "é\nzab\ncd") := by decide +kernel

/-! ### C18, C19 -/

/-- The marked state, if there is one, holds the text on disk. -/
def MarkOk (m : Option Nat) (s : Snap) (disk : Option Text) : Prop :=
  ∀ i, m = some i → ∃ t, disk = some t ∧ (s.past.reverse ++ s.base :: s.future)[i]? = some t

theorem markOk_edit {m : Option Nat} {s : Snap} {disk : Option Text} (h : MarkOk m s disk) (t : Text) :
    MarkOk (if s.group = none then m.filter fun i => decide (i ≤ s.past.length) else m) (s.edit t) disk := by
  intro i hi
  by_cases hg : s.group = none
  · rw [if_pos hg] at hi
    obtain ⟨hm, hle⟩ := Option.filter_eq_some_iff.mp hi
    obtain ⟨u, hu, hx⟩ := h i hm
    refine ⟨u, hu, ?_⟩
    have hle : i ≤ s.past.length := by simpa using hle
    have hb : s.base = s.present := by unfold Snap.base; rw [hg]
    unfold Snap.edit Snap.base
    simp only [hg]
    rw [hb] at hx
    rw [← hx]
    rcases Nat.lt_or_ge i s.past.length with hlt | hge
    · rw [List.getElem?_append_left (by simpa using Nat.lt_succ_of_lt hlt), List.getElem?_append_left (by simpa using hlt)]
      rw [List.reverse_cons, List.getElem?_append_left (by simpa using hlt)]
    · have : i = s.past.length := by omega
      subst this
      rw [List.getElem?_append_left (by simp), List.getElem?_append_right (by simp)]
      rw [List.reverse_cons, List.getElem?_append_right (by simp)]
      simp
  · rw [if_neg hg] at hi
    obtain ⟨u, hu, hx⟩ := h i hi
    obtain ⟨h1, h2, h3, _⟩ := inGroup_edit t hg
    exact ⟨u, hu, by rw [h1, h2, h3]; exact hx⟩

theorem applyAll_hist (segs) (es : List Edit) (d : Doc) : SameHist d (d.applyAll segs es) := by
  induction es generalizing d with
  | nil => exact ⟨rfl, rfl, rfl, rfl⟩
  | cons e es ih => exact (apply_same segs d e).1.trans (ih _)

theorem revertAll_hist (segs) (es : List Edit) (d : Doc) : SameHist d (d.revertAll segs es) := by
  induction es using List.reverseRecOn generalizing d with
  | nil => exact ⟨rfl, rfl, rfl, rfl⟩
  | append_singleton es e ih => rw [revertAll_snoc]; exact (revert_same segs d e).1.trans (ih _)

theorem markOk_step {S : Segmenter} {d : Doc} {s : Snap} {disk : Option Text} (hr : SnapRel d s) (h : MarkOk d.mark s disk) (c : Cmd)
    (hs : SyncOk d c) (hc : CleanCmd S.segs d c) :
    MarkOk (d.step S.segs c).mark (s.step S.segs d.cursor.position c)
      (syncOf d disk c) := by
  have hgrp : s.group = none ↔ d.group = none := by
    have hg := hr.group
    rcases hd : d.group with _ | _ | ⟨e, es⟩ <;> rcases hsg : s.group with _ | _ | x <;> rw [hd, hsg] at hg <;>
      first | (simp; done) | cases hg
  have hlen := hr.past.length
  have ed : ∀ e : Edit, MarkOk (d.edit S.segs e).mark (s.edit e.after) disk := by
    intro e
    have := markOk_edit h e.after
    have hm : (d.edit S.segs e).mark = if s.group = none then d.mark.filter fun i => decide (i ≤ s.past.length) else d.mark := by
      have hsame := (apply_same S.segs d e).1
      unfold Doc.edit
      simp only
      rcases hd : d.group with _ | es
      · rw [if_pos (hgrp.mpr hd), show (d.apply S.segs e).group = none from hsame.2.2.1.trans hd]
        simp only [Doc.push]
        rw [hsame.2.2.2, hsame.1, hlen]
      · rw [if_neg (fun hx => by rw [hgrp.mp hx] at hd; cases hd), show (d.apply S.segs e).group = some es from hsame.2.2.1.trans hd]
        exact hsame.2.2.2
    rw [hm]; exact this
  have rep : ∀ x, MarkOk (d.replace S.segs x).mark (if x = s.present then s else s.edit x) disk := by
    intro x
    unfold Doc.replace
    rw [hr.present]
    split
    · exact h
    · exact ed (Doc.replaceEdit d.text x)
  have hb : d.group = none ∨ d.group = some [] → s.base = s.present := fun hx => base_of_noEdits hr hx
  cases c with
  | insert x => 
    have := ed (Doc.insertEdit S.segs d.text x d.cursor.position)
    simp only [Snap.step, hr.present]
    exact this
  | delete =>
    have := ed (Doc.deleteEdit S.segs d.text d.cursor.position (Doc.deleteEnd S.segs d.text d.cursor.position))
    simp only [Snap.step, hr.present]
    exact this
  | deleteRange p q =>
    have := ed (Doc.deleteEdit S.segs d.text (lo p q) (hi p q))
    simp only [Snap.step, hr.present]
    exact this
  | replace x => exact rep x
  | reload x =>
    intro i hi
    refine ⟨x, rfl, ?_⟩
    simp only [Doc.step, Option.some.injEq] at hi
    have hsg := hgrp.mpr hs
    simp only [Snap.step]
    have hr' : SnapRel (d.step S.segs (.replace x)) (s.step S.segs d.cursor.position (.replace x)) := snap_step hr (.replace x) trivial
    simp only [Doc.step, Snap.step] at hr'
    have hl := hr'.past.length
    rw [hi] at hl
    rw [List.getElem?_append_right (by rw [List.length_reverse]; omega), List.length_reverse, hl, Nat.sub_self]
    simp only [List.getElem?_cons_zero]
    congr 1
    split
    · rename_i he; rw [hb (Or.inl hs), he]
    · unfold Snap.edit Snap.base; rw [hsg]
  | undo =>
    have hm : (d.step S.segs .undo).mark = d.mark := by
      simp only [Doc.step, Doc.undo1]
      split
      · exact (revertAll_hist _ _ _).2.2.2
      · split
        · exact (revertAll_hist _ _ _).2.2.2
        · rfl
    rw [hm]
    intro i hi
    obtain ⟨t, h1, h2⟩ := h i hi
    refine ⟨t, h1, ?_⟩
    rw [← h2]
    simp only [Snap.step]
    unfold Snap.undo Snap.base
    rcases hsg : s.group with _ | _ | x <;> rcases hsp : s.past with _ | ⟨y, ys⟩ <;> simp
  | redo =>
    have hm : (d.step S.segs .redo).mark = d.mark := by
      simp only [Doc.step, Doc.redo1]
      split
      · exact (applyAll_hist _ _ _).2.2.2
      · rfl
    rw [hm]
    intro i hi
    obtain ⟨t, h1, h2⟩ := h i hi
    refine ⟨t, h1, ?_⟩
    rw [← h2]
    simp only [Snap.step]
    unfold Snap.redo
    rcases hsf : s.future with _ | ⟨y, ys⟩
    · simp only [hsf]
    · have hc' : d.group = none ∨ d.group = some [] := by
        rcases hc with hc | hc
        · have := hr.future.length; rw [hc, hsf] at this; simp at this
        · exact hc
      rw [hb hc']
      have hsg : s.group = none ∨ s.group = some none := by
        have hg := hr.group
        rcases hc' with hd | hd <;> rcases hsg : s.group with _ | _ | x <;> rw [hd, hsg] at hg <;>
          first | (simp; done) | cases hg
      unfold Snap.base
      rcases hsg with hsg | hsg <;> simp [hsg]
  | startGroup =>
    intro i hi
    obtain ⟨t, h1, h2⟩ := h i hi
    refine ⟨t, h1, ?_⟩
    rw [← h2]
    simp only [Snap.step]
    unfold Snap.startGroup Snap.base
    rcases hsg : s.group with _ | _ | x <;> simp
  | endGroup =>
    simp only [Doc.step, Snap.step]
    unfold Doc.endGroup Snap.endGroup
    have hg := hr.group
    rcases hd : d.group with _ | _ | ⟨e, es⟩ <;> rcases hsg : s.group with _ | _ | x <;> rw [hd, hsg] at hg <;>
      first | (cases hg; done) | skip
    · intro i hi
      obtain ⟨t, h1, h2⟩ := h i hi
      refine ⟨t, h1, ?_⟩
      rw [← h2, hb (Or.inl hd)]
      rfl
    · intro i hi
      obtain ⟨t, h1, h2⟩ := h i hi
      refine ⟨t, h1, ?_⟩
      rw [← h2, hb (Or.inr hd)]
      rfl
    · intro i hi
      simp only [Doc.push] at hi
      obtain ⟨hm, hle⟩ := Option.filter_eq_some_iff.mp hi
      obtain ⟨t, h1, h2⟩ := h i hm
      refine ⟨t, h1, ?_⟩
      have hle : i ≤ s.past.length := by rw [← hlen]; simpa using hle
      have hbx : s.base = x := by unfold Snap.base; rw [hsg]
      rw [hbx] at h2
      rw [← h2]
      show ((x :: s.past).reverse ++ s.present :: [])[i]? = _
      rw [List.getElem?_append_left (by simp; omega), List.reverse_cons]
      rcases Nat.lt_or_ge i s.past.length with hlt | hge
      · rw [List.getElem?_append_left (by simpa using hlt), List.getElem?_append_left (by simpa using hlt)]
      · have : i = s.past.length := by omega
        subst this
        rw [List.getElem?_append_right (by simp), List.getElem?_append_right (by simp)]
        simp
  | move m => exact h
  | setCursor q => exact h
  | setCallback v => exact h
  | saved =>
    intro i hi
    simp only [Doc.step, Option.some.injEq] at hi
    refine ⟨d.text, rfl, ?_⟩
    simp only [Snap.step]
    rw [List.getElem?_append_right (by rw [List.length_reverse]; omega), List.length_reverse, ← hi, hlen, Nat.sub_self, hb hs, hr.present]
    rfl

theorem markOk_steps {S : Segmenter} {d : Doc} {s : Snap} {disk : Option Text} (hr : SnapRel d s) (h : MarkOk d.mark s disk) (cs : List Cmd)
    (hs : SyncOutside S.segs d cs) (hc : CleanCmds S.segs d cs) :
    MarkOk (d.steps S.segs cs).mark (snaps S.segs d s cs) (lastSync S.segs d disk cs) := by
  induction cs generalizing d s disk with
  | nil => exact h
  | cons c cs ih => exact ih (snap_step hr c hc.1) (markOk_step hr h c hs.1 hc.1) hs.2 hc.2

/-- **C18.** When `modified` is false (and no group with edits is open), the contents are the text last loaded, saved or
reloaded — whatever edits, undos, redos, groups, saves and reloads came before. -/
theorem C18_unmodified_is_on_disk (S : Segmenter) (A : Alloc) (b0 b : Buf) (d0 : Doc) (t0 : Text) (cs : List Cmd)
    (h0 : Start A b0 d0 t0) (hc : CleanCmds S.segs d0 cs) (hs : SyncOutside S.segs d0 cs) (he : execAll S A b0 cs = .ok b)
    (hm : b.modified = false) (hg : b.group = none ∨ b.group = some []) :
    ∃ t, lastSync S.segs d0 (if b0.modified then none else some t0) cs = some t ∧ b.data.toStr = .ok t := by
  have h0t := h0.tri (S := S)
  obtain ⟨b', e1, t1⟩ := h0t.execAll (A := A) cs hc
  obtain rfl := Except.ok.inj (he.symm.trans e1)
  have hinit : MarkOk d0.mark (Snap.new t0) (if b0.modified then none else some t0) := by
    cases h0 with
    | new k => intro i hi; cases hi
    | load k t => intro i hi; cases hi; exact ⟨_, rfl, rfl⟩
  have hmk := markOk_steps (S := S) h0t.snap hinit cs hs hc
  unfold modified History.atMark at hm
  rw [t1.sim.mark] at hm
  cases hmm : (d0.steps S.segs cs).mark with
  | none => rw [hmm] at hm; cases hm
  | some m =>
    rw [hmm] at hm
    have hpm : b.history.previous.length = m := by simpa using hm
    obtain ⟨t, h1, h2⟩ := hmk m hmm
    refine ⟨t, h1, ?_⟩
    rw [t1.previous] at hpm
    rw [t1.data]
    rw [List.getElem?_append_right (by rw [List.length_reverse]; omega), List.length_reverse, hpm, Nat.sub_self, t1.group_base hg] at h2
    simpa using h2

/-- C18: `modified` says "not at the mark", and right after loading, saving or reloading it is false. -/
theorem C18_fresh (S : Segmenter) (A : Alloc) (b b' : Buf) (k : Nat) (t : Text) :
    (Buf.fromContent A k t).modified = false ∧ (exec S A b .saved = .ok b' → b'.modified = false) ∧
    (∀ x, exec S A b (.reload x) = .ok b' → b'.modified = false) := by
  have hm : ∀ b : Buf, b.setMark.modified = false := by
    intro b; simp [setMark, modified, History.setMark, History.atMark]
  refine ⟨rfl, fun h => ?_, fun x h => ?_⟩
  · cases h; exact hm b
  · simp only [exec, reloadWith] at h
    cases h1 : replace S A b x with
    | error e => rw [h1] at h; cases h
    | ok b1 => rw [h1] at h; cases h; exact hm b1

/-- Save, undo past the save, edit (the saved state is lost), undo everything: still reported as modified. -/
example : (execAll Demo.seg Demo.tight (Buf.fromContent Demo.tight 0 (Demo.s "ab"))
    [.insert (Demo.s "x"), .insert (Demo.s "y"), .saved, .undo, .insert (Demo.s "z")] >>= fun b => .ok b.modified) = .ok true := by decide +kernel
example : (execAll Demo.seg Demo.tight (Buf.fromContent Demo.tight 0 (Demo.s "ab"))
    [.insert (Demo.s "x"), .insert (Demo.s "y"), .saved, .undo, .undo, .redo, .redo] >>= fun b => .ok b.modified) = .ok false := by decide +kernel

theorem iterate_undo_past (j : Nat) (s : Snap) (hg : s.group = none) (hj : j ≤ s.past.length) :
    (Snap.undo^[j] s).past.length = s.past.length - j ∧ (Snap.undo^[j] s).future.length = s.future.length + j ∧ (Snap.undo^[j] s).group = none := by
  induction j generalizing s with
  | zero => exact ⟨rfl, rfl, hg⟩
  | succ j ih =>
    rcases s with ⟨_ | ⟨y, ys⟩, pr, fu, gr⟩
    · simp at hj
    · simp only at hg
      subst hg
      rw [Function.iterate_succ_apply]
      have := ih ⟨ys, y, pr :: fu, none⟩ rfl (by simpa using hj)
      simp only [Snap.undo]
      simp only [List.length_cons] at this ⊢
      exact ⟨by omega, by omega, this.2.2⟩

theorem iterate_redo_past (j : Nat) (s : Snap) (hj : j ≤ s.future.length) :
    (Snap.redo^[j] s).past.length = s.past.length + j := by
  induction j generalizing s with
  | zero => rfl
  | succ j ih =>
    rcases s with ⟨pa, pr, _ | ⟨y, ys⟩, gr⟩
    · simp at hj
    · rw [Function.iterate_succ_apply]
      have := ih ⟨pr :: pa, y, ys, gr⟩ (by simpa using hj)
      simp only [List.length_cons] at this
      simp only [Snap.redo]
      omega

/-- **C19.** After a save, going back `j` steps and forward `i` of them, the buffer is reported as unmodified exactly when it is back at
the saved step. -/
theorem C19_mark_is_tracked (S : Segmenter) (A : Alloc) (b : Buf) (d : Doc) (i j : Nat) (h : Reached S A b d) (hg : b.group = none)
    (hj : j ≤ b.history.previous.length) (hi : i ≤ j) :
    ∃ b', execAll S A b (.saved :: (List.replicate j .undo ++ List.replicate i .redo)) = .ok b' ∧ (b'.modified = false ↔ i = j) := by
  obtain ⟨s, hs⟩ := h.tri
  have hg' := hs.group_none hg
  have hcl : CleanCmds S.segs d (.saved :: (List.replicate j .undo ++ List.replicate i .redo)) :=
    ⟨trivial, cleanCmds_append.mpr ⟨clean_undos _ _ _, clean_redos _ _ _ (undos_group _ _ _ hg'.1)⟩⟩
  obtain ⟨b', h1, h2⟩ := hs.execAll (A := A) _ hcl
  refine ⟨b', h1, ?_⟩
  rw [snaps, snaps_append, snaps_undos, snaps_redos] at h2
  have hj' : j ≤ s.past.length := by rw [← hs.previous]; exact hj
  obtain ⟨p1, p2, _⟩ := iterate_undo_past j s hg'.2 hj'
  have p3 := iterate_redo_past i (Snap.undo^[j] s) (by omega)
  have hprev := h2.previous
  simp only [Snap.step] at hprev
  rw [p3, p1] at hprev
  have hmark : b'.history.mark = some s.past.length := by
    rw [h2.sim.mark]
    have hm : ∀ (n : Nat) (d : Doc), (d.steps S.segs (List.replicate n .undo)).mark = d.mark := by
      intro n
      induction n with
      | zero => intro d; rfl
      | succ n ih =>
        intro d
        refine (ih _).trans ?_
        simp only [Doc.step, Doc.undo1]
        split
        · exact (revertAll_hist _ _ _).2.2.2
        · split
          · exact (revertAll_hist _ _ _).2.2.2
          · rfl
    have hm' : ∀ (n : Nat) (d : Doc), (d.steps S.segs (List.replicate n .redo)).mark = d.mark := by
      intro n
      induction n with
      | zero => intro d; rfl
      | succ n ih =>
        intro d
        refine (ih _).trans ?_
        simp only [Doc.step, Doc.redo1]
        split
        · exact (applyAll_hist _ _ _).2.2.2
        · rfl
    show ((d.step S.segs .saved).steps S.segs (List.replicate j .undo ++ List.replicate i .redo)).mark = _
    unfold Doc.steps at hm hm' ⊢
    rw [List.foldl_append, hm', hm]
    simp only [Doc.step]
    rw [hs.snap.past.length]
  unfold modified History.atMark
  rw [hmark, hprev]
  simp only [Bool.not_eq_false', beq_iff_eq]
  omega

/-- C19: every edit outside a group makes the buffer modified, in every state, clean or not. (A mark ahead of the present is
removed.) -/
theorem C19_edit_modifies (S : Segmenter) (A : Alloc) (b b' : Buf) (c : Cmd) (t : Text) (hg : b.group = none)
    (ht : b.data.toStr = .ok t) (he : Edits t c) (hr : ∀ x, c ≠ .reload x) (h : exec S A b c = .ok b') : b'.modified = true := by
  obtain ⟨b1, op, h1, h2, rfl⟩ := edit_stores ht he hr h
  have : (store b1 op).history = b.history.add (.simple op) := by
    unfold store; rw [h1, hg, ← h2]
  unfold modified History.atMark
  rw [this]
  unfold History.add
  simp only
  cases b.history.mark with
  | none => rfl
  | some m =>
    simp only
    by_cases hm : m ≥ (Op.simple op :: b.history.previous).length
    · rw [if_pos hm]; rfl
    · rw [if_neg hm]
      simp only [Bool.not_eq_true', beq_eq_false_iff_ne]
      omega

end Scribe.Props
