import Verif.Model.Shared
import Verif.Spec.Shared
import Verif.Proofs.Safe
/-! Buffers with shared pointers behave like buffers by value. -/
namespace Scribe.Shared
variable {ξ : Type} {S : Segmenter} {A : Alloc}

theorem error_bind {α β : Type} (e : Panic) (f : α → R β) : ((Except.error e : R α) >>= f) = .error e := rfl

theorem World.set_self {w : World ξ} {p : Ptr} {c : Cell} (h : w.cells[p]? = some c) : w.set p c = w := by
  obtain ⟨h1, h2⟩ := List.getElem?_eq_some_iff.mp h
  subst h2
  simp [World.set]

theorem World.set_set (w : World ξ) (p : Ptr) (c d : Cell) : (w.set p c).set p d = w.set p d := by
  simp [World.set]

theorem World.get_set {w : World ξ} {p : Ptr} {c : Cell} (h : w.cells[p]? = some c) (d : Cell) : (w.set p d).get p = .ok d := by
  obtain ⟨h1, _⟩ := List.getElem?_eq_some_iff.mp h
  simp [World.set, World.get, h1]

theorem World.get_of {w : World ξ} {p : Ptr} {c : Cell} (h : w.cells[p]? = some c) : w.get p = .ok c := by
  simp [World.get, h]

/-- Reading through a pointer whose cell is not being written: the value, and the world as before. -/
theorem withRead_pure {α β : Type} {w : World ξ} {p : Ptr} {c : Cell} (h : w.cells[p]? = some c) (hw : c.writing = false)
    (F : GapBuffer → R α) (G : α → β) :
    withRead w p (fun g w => F g >>= fun x => pure (G x, w)) = F c.value >>= fun x => .ok (G x, w) := by
  unfold withRead
  rw [World.get_of h, Except.ok_bind', if_neg (by simp [hw])]
  dsimp only
  cases hF : F c.value with
  | error e => rfl
  | ok a =>
    simp only [Except.ok_bind', pure, Except.pure, World.get_set h, World.set_set]
    have : ({ c with readers := c.readers + 1 - 1 } : Cell) = c := by cases c; simp
    simp only [this, World.set_self h]

/-- Writing through a pointer whose cell is free. -/
theorem withWrite_pure {w : World ξ} {p : Ptr} {g : GapBuffer} (h : w.cells[p]? = some (.free g)) (F : GapBuffer → R GapBuffer) :
    withWrite w p (fun g w => F g >>= fun x => pure (x, w)) = F g >>= fun x => .ok (w.set p (.free x)) := by
  unfold withWrite
  rw [World.get_of h, Except.ok_bind', if_neg (by simp [Cell.free])]
  show ((F g >>= fun x => pure (x, _)) >>= _) = _
  cases hF : F g with
  | error e => rfl
  | ok a => simp only [Except.ok_bind']; exact congrArg _ (World.set_set _ _ _ _)

/-! ## Cursor -/

theorem moveTo_eq {w : World ξ} {c : Cur} {k : Cell} (h : w.cells[c.data]? = some k) (hw : k.writing = false) (p : Position) :
    Cur.moveTo S w c p = Cursor.moveTo S k.value c.at_ p >>= fun r => .ok (r.1, { c with at_ := r.2 }, w) := by
  unfold Cur.moveTo Cursor.moveTo
  rw [withRead_pure h hw]
  cases k.value.inBounds S p with
  | error e => rfl
  | ok b => cases b <;> rfl

theorem moveToLine_eq {w : World ξ} {c : Cur} {k : Cell} (h : w.cells[c.data]? = some k) (hw : k.writing = false) (n : Nat) :
    Cur.moveToLine S w c n = Cursor.moveToLine S k.value c.at_ n >>= fun r => .ok ({ c with at_ := r }, w) := by
  unfold Cur.moveToLine Cursor.moveToLine
  simp only [moveTo_eq h hw]
  cases h1 : Cursor.moveTo S k.value c.at_ ⟨n, c.at_.sticky⟩ with
  | error e => rfl
  | ok r =>
    obtain ⟨ok, a⟩ := r
    simp only [Except.ok_bind']
    cases ok with
    | true => rfl
    | false =>
      simp only [Bool.not_false, if_true]
      rw [withRead_pure h hw]
      cases k.value.toStr with
      | error e => rfl
      | ok t =>
        simp only [Except.ok_bind', moveTo_eq (c := { c with at_ := a }) h hw]
        cases Cursor.moveTo S k.value a ⟨n, Cursor.lineEnd S t n⟩ with
        | error e => rfl
        | ok r => rfl

theorem move_eq {w : World ξ} {c : Cur} {k : Cell} (h : w.cells[c.data]? = some k) (hw : k.writing = false) (m : Cursor.Move) :
    Cur.move S w c m = Cursor.move S k.value c.at_ m >>= fun r => .ok ({ c with at_ := r }, w) := by
  cases m with
  | «to» p =>
    simp only [Cur.move, Cursor.move, moveTo_eq h hw]
    cases Cursor.moveTo S k.value c.at_ p <;> rfl
  | up =>
    simp only [Cur.move, Cursor.move, Cur.moveUp, Cursor.moveUp]
    split
    · rfl
    · cases subU c.at_.position.line 1 with
      | error e => rfl
      | ok n => exact moveToLine_eq h hw n
  | down => exact moveToLine_eq h hw _
  | left =>
    simp only [Cur.move, Cursor.move, Cur.moveLeft, Cursor.moveLeft]
    split
    · rfl
    · cases subU c.at_.position.offset 1 with
      | error e => rfl
      | ok n =>
        simp only [Except.ok_bind', moveTo_eq h hw]
        cases Cursor.moveTo S k.value c.at_ ⟨c.at_.position.line, n⟩ <;> rfl
  | right =>
    simp only [Cur.move, Cursor.move, Cur.moveRight, Cursor.moveRight, moveTo_eq h hw]
    cases Cursor.moveTo S k.value c.at_ ⟨c.at_.position.line, c.at_.position.offset + 1⟩ <;> rfl
  | startOfLine =>
    simp only [Cur.move, Cursor.move, Cur.moveToStartOfLine, Cursor.moveToStartOfLine, moveTo_eq h hw]
    cases Cursor.moveTo S k.value c.at_ ⟨c.at_.position.line, 0⟩ <;> rfl
  | endOfLine =>
    simp only [Cur.move, Cursor.move, Cur.moveToEndOfLine, Cursor.moveToEndOfLine]
    rw [withRead_pure h hw]
    cases k.value.toStr with
    | error e => rfl
    | ok t =>
      simp only [Except.ok_bind']
      cases (strLines t)[c.at_.position.line]? with
      | none => rfl
      | some l =>
        simp only [moveTo_eq h hw]
        cases Cursor.moveTo S k.value c.at_ ⟨c.at_.position.line, (S.segs l).length⟩ <;> rfl
  | lastLine =>
    simp only [Cur.move, Cursor.move, Cur.moveToLastLine, Cursor.moveToLastLine]
    rw [withRead_pure h hw]
    cases k.value.toStr with
    | error e => rfl
    | ok t =>
      simp only [Except.ok_bind', moveTo_eq h hw]
      cases Cursor.lastLine (S.segs t) (0, 0) with
      | mk line length =>
        dsimp only
        generalize (if length < c.at_.sticky then (⟨line, length⟩ : Position) else ⟨line, c.at_.sticky⟩) = q
        cases Cursor.moveTo S k.value c.at_ q <;> rfl
  | firstLine =>
    simp only [Cur.move, Cursor.move, Cur.moveToFirstLine, Cursor.moveToFirstLine]
    rw [withRead_pure h hw]
    cases k.value.toStr with
    | error e => rfl
    | ok t =>
      simp only [Except.ok_bind', moveTo_eq h hw]
      generalize (if _ < c.at_.sticky then (⟨0, _⟩ : Position) else ⟨0, c.at_.sticky⟩) = q
      cases Cursor.moveTo S k.value c.at_ q <;> rfl

/-! ## No panics -/

theorem wf_iff {g : GapBuffer} : WellFormed g ↔ ∃ pre post, Rep g pre post := by
  constructor
  · rintro ⟨pre, gap, post, h1, h2, h3⟩; exact ⟨pre, post, gap, h1, h2, h3⟩
  · rintro ⟨pre, post, gap, h1, h2, h3⟩; exact ⟨pre, gap, post, h1, h2, h3⟩

theorem Sound.cell {w : World ξ} (h : Sound w) {p : Ptr} (hp : p < w.cells.length) :
    ∃ g, w.cells[p]? = some (.free g) ∧ ∃ pre post, Rep g pre post := by
  have hm : w.cells[p] ∈ w.cells := List.getElem_mem hp
  obtain ⟨h1, h2⟩ := h.1 _ hm
  refine ⟨(w.cells[p]).value, ?_, wf_iff.mp (h.2 _ hm)⟩
  rw [List.getElem?_eq_getElem hp]
  generalize w.cells[p] = c at h1 h2 ⊢
  cases c; simp_all [Cell.free]

theorem Sound.set {w : World ξ} (h : Sound w) (p : Ptr) {g : GapBuffer} (hg : ∃ pre post, Rep g pre post) : Sound (w.set p (.free g)) := by
  constructor
  · intro c hc
    rcases List.mem_or_eq_of_mem_set hc with hc | rfl
    · exact h.1 c hc
    · exact ⟨rfl, rfl⟩
  · intro c hc
    rcases List.mem_or_eq_of_mem_set hc with hc | rfl
    · exact h.2 c hc
    · exact wf_iff.mpr hg

theorem Sound.alloc {w : World ξ} (h : Sound w) {g : GapBuffer} (hg : ∃ pre post, Rep g pre post) : Sound (w.alloc g).2 := by
  constructor
  · intro c hc
    rcases List.mem_append.mp hc with hc | hc
    · exact h.1 c hc
    · simp at hc; subst hc; exact ⟨rfl, rfl⟩
  · intro c hc
    rcases List.mem_append.mp hc with hc | hc
    · exact h.2 c hc
    · simp at hc; subst hc; exact wf_iff.mpr hg

/-- The invariant of buffers in sound worlds. -/
structure Fine (f : Callback ξ) (w : World ξ) (b : Buf ξ) : Prop where
  sound : Sound w
  data : b.data < w.cells.length
  cursor : b.cursor.data < w.cells.length
  callback : ∀ g, b.callback = some g → g = f
  previous : ∀ op ∈ b.history.previous, op.Ordered
  next : ∀ op ∈ b.history.next, op.Ordered
  group : ∀ ops, b.group = some ops → ∀ op ∈ ops, op.Ordered

/-- An operation has run: only the pointers may have changed. -/
structure Ran (w : World ξ) (b : Buf ξ) (w' : World ξ) (b' : Buf ξ) : Prop where
  sound : Sound w'
  len : w.cells.length ≤ w'.cells.length
  data : b'.data < w'.cells.length
  cursor : b'.cursor.data < w'.cells.length
  callback : b'.callback = b.callback
  history : b'.history = b.history
  group : b'.group = b.group

theorem Ran.refl {f : Callback ξ} {w : World ξ} {b : Buf ξ} (h : Fine f w b) : Ran w b w b :=
  ⟨h.sound, Nat.le_refl _, h.data, h.cursor, rfl, rfl, rfl⟩

theorem Ran.fine {f : Callback ξ} {w w' : World ξ} {b b' : Buf ξ} (r : Ran w b w' b') (h : Fine f w b) : Fine f w' b' :=
  ⟨r.sound, r.data, r.cursor, by rw [r.callback]; exact h.callback, by rw [r.history]; exact h.previous,
    by rw [r.history]; exact h.next, by rw [r.group]; exact h.group⟩

theorem Ran.trans {w w1 w2 : World ξ} {b b1 b2 : Buf ξ} (h : Ran w b w1 b1) (h' : Ran w1 b1 w2 b2) : Ran w b w2 b2 :=
  ⟨h'.sound, Nat.le_trans h.len h'.len, h'.data, h'.cursor, h'.callback.trans h.callback, h'.history.trans h.history,
    h'.group.trans h.group⟩

section
variable {f : Callback ξ} (hf : Behaves f)
include hf

theorem report_ok {w : World ξ} {b : Buf ξ} (h : Fine f w b) (p : Position) : ∃ w', Buf.report w b p = .ok w' ∧ Ran w b w' b := by
  unfold Buf.report
  cases hc : b.callback with
  | none => exact ⟨w, rfl, .refl h⟩
  | some g =>
    obtain rfl := h.callback g hc
    obtain ⟨w', h1, h2, h3⟩ := hf p w h.sound
    exact ⟨w', h1, h2, h3, Nat.lt_of_lt_of_le h.data h3, Nat.lt_of_lt_of_le h.cursor h3, rfl, rfl, rfl⟩

omit hf in
theorem write_ok {w : World ξ} {b : Buf ξ} (h : Fine f w b) (F : GapBuffer → R GapBuffer)
    (hF : ∀ g pre post, Rep g pre post → ∃ g', F g = .ok g' ∧ ∃ pre post, Rep g' pre post) :
    ∃ w', withWrite w b.data (fun g w => F g >>= fun x => pure (x, w)) = .ok w' ∧ Ran w b w' b := by
  obtain ⟨g, h1, pre, post, h2⟩ := h.sound.cell h.data
  obtain ⟨g', h3, h4⟩ := hF g pre post h2
  refine ⟨w.set b.data (.free g'), by rw [withWrite_pure h1, h3]; rfl, h.sound.set _ h4, ?_, ?_, ?_, rfl, rfl, rfl⟩
  · simp [World.set]
  · simpa [World.set] using h.data
  · simpa [World.set] using h.cursor

omit hf in
theorem read_ok {α β : Type} {w : World ξ} {p : Ptr} (h : Sound w) (hp : p < w.cells.length) (F : GapBuffer → R α) (G : α → β)
    (hF : ∀ g pre post, Rep g pre post → ∃ x, F g = .ok x) :
    ∃ x, withRead w p (fun g w => F g >>= fun x => pure (G x, w)) = .ok (G x, w) := by
  obtain ⟨g, h1, pre, post, h2⟩ := h.cell hp
  obtain ⟨x, h3⟩ := hF g pre post h2
  exact ⟨x, by rw [withRead_pure h1 rfl]; show (F g >>= _) = _; rw [h3]; rfl⟩

omit hf in
theorem moveTo_ok {w : World ξ} (h : Sound w) (c : Cur) (hc : c.data < w.cells.length) (p : Position) :
    ∃ ok a, Cur.moveTo S w c p = .ok (ok, { c with at_ := a }, w) := by
  obtain ⟨g, h1, pre, post, h2⟩ := h.cell hc
  obtain ⟨⟨ok, a⟩, h3⟩ := moveTo_safe (S := S) h2 c.at_ p
  exact ⟨ok, a, by rw [moveTo_eq h1 rfl]; show (Cursor.moveTo S g _ _ >>= _) = _; rw [h3]; rfl⟩

theorem replaceContent_ok {w : World ξ} {b : Buf ξ} (h : Fine f w b) (t : Text) :
    ∃ b' w', Buf.replaceContent S A w t b = .ok (b', w') ∧ Ran w b w' b' := by
  obtain ⟨g, h1, _⟩ := h.sound.cell h.data
  unfold Buf.replaceContent
  rw [World.get_of h1]
  simp only [Except.ok_bind']
  have hs : Sound (w.alloc (GapBuffer.new A (Cell.free g).value.clock t)).2 := h.sound.alloc ⟨_, _, GapBuffer.new_rep _ _⟩
  have hl : (w.alloc (GapBuffer.new A (Cell.free g).value.clock t)).1 < (w.alloc (GapBuffer.new A (Cell.free g).value.clock t)).2.cells.length := by
    simp [World.alloc]
  have hl2 : w.cells.length ≤ (w.alloc (GapBuffer.new A (Cell.free g).value.clock t)).2.cells.length := by simp [World.alloc]
  generalize w.alloc (GapBuffer.new A (Cell.free g).value.clock t) = pw at hs hl hl2 ⊢
  obtain ⟨q, w1⟩ := pw
  dsimp only at hs hl hl2 ⊢
  have key : ∀ a, ∃ b' w', (do
      let w ← Buf.report w1 { b with data := q, cursor := ⟨q, a⟩ } Position.new
      Except.ok (({ b with data := q, cursor := ⟨q, a⟩ } : Buf ξ), w) : R (Buf ξ × World ξ)) = .ok (b', w') ∧ Ran w b w' b' := by
    intro a
    have h2 : Fine f w1 { b with data := q, cursor := ⟨q, a⟩ } := ⟨hs, hl, hl, h.callback, h.previous, h.next, h.group⟩
    obtain ⟨w', h3, h4⟩ := report_ok hf h2 Position.new
    exact ⟨_, w', by rw [h3]; rfl, h4.sound, Nat.le_trans hl2 h4.len, h4.data, h4.cursor, rfl, rfl, rfl⟩
  obtain ⟨ok, a, h3⟩ := moveTo_ok (S := S) hs (Cur.new q ⟨0, 0⟩) hl b.cursor.at_.position
  rw [h3]
  simp only [Except.ok_bind']
  cases ok with
  | true => exact key a
  | false =>
    obtain ⟨ok, a, h4⟩ := moveTo_ok (S := S) hs ({ Cur.new q ⟨0, 0⟩ with at_ := a }) hl ⟨b.cursor.at_.position.line, 0⟩
    simp only [Bool.not_false, if_true, h4, Except.ok_bind']
    exact key a

theorem runOp_ok {w : World ξ} {b : Buf ξ} (h : Fine f w b) (op : SOp) (ho : op.Ordered) :
    ∃ b' op' w', Buf.runOp S A w b op = .ok (b', op', w') ∧ Ran w b w' b' ∧ op'.Ordered := by
  cases op with
  | insert s p =>
    obtain ⟨w1, h1, r1⟩ := write_ok h (fun g => g.insert S A s p) (fun _ _ _ hr => insert_safe hr s p)
    obtain ⟨w2, h2, r2⟩ := report_ok hf (r1.fine h) p
    exact ⟨b, .insert s p, w2, by simp only [Buf.runOp, h1, Except.ok_bind', h2], r1.trans r2, trivial⟩
  | delete c r =>
    obtain ⟨x, h0⟩ := read_ok h.sound h.data (fun g => g.read S r) id (fun _ _ _ hr => ⟨_, GapBuffer.read_rep hr r ho⟩)
    obtain ⟨w1, h1, r1⟩ := write_ok h (fun g => g.delete S r) (fun _ _ _ hr => delete_safe hr r ho)
    obtain ⟨w2, h2, r2⟩ := report_ok hf (r1.fine h) r.start
    exact ⟨b, .delete x r, w2, by simp only [id] at h0; simp only [Buf.runOp, h0, h1, Except.ok_bind', h2], r1.trans r2, ho⟩
  | replace o n =>
    obtain ⟨b1, w1, h1, r1⟩ := replaceContent_ok (S := S) (A := A) hf h n
    exact ⟨b1, .replace o n, w1, by simp only [Buf.runOp, h1, Except.ok_bind'], r1, trivial⟩

theorem reverseOp_ok {w : World ξ} {b : Buf ξ} (h : Fine f w b) (op : SOp) :
    ∃ b' w', Buf.reverseOp S A w b op = .ok (b', w') ∧ Ran w b w' b' := by
  cases op with
  | insert s p =>
    obtain ⟨q, hq⟩ := insertEnd_safe (S := S) s p
    simp only [Buf.reverseOp, hq, Except.ok_bind']
    cases q with
    | none => exact ⟨b, w, rfl, .refl h⟩
    | some q =>
      obtain ⟨w1, h1, r1⟩ := write_ok h (fun g => g.delete S (Range.new p q)) (fun _ _ _ hr => delete_safe hr _ (range_new_ok p q))
      obtain ⟨w2, h2, r2⟩ := report_ok hf (r1.fine h) p
      exact ⟨b, w2, by simp only [h1, Except.ok_bind', h2], r1.trans r2⟩
  | delete c r =>
    cases c with
    | none => exact ⟨b, w, rfl, .refl h⟩
    | some c =>
      obtain ⟨w1, h1, r1⟩ := write_ok h (fun g => g.insert S A c r.start) (fun _ _ _ hr => insert_safe hr c r.start)
      obtain ⟨w2, h2, r2⟩ := report_ok hf (r1.fine h) r.start
      exact ⟨b, w2, by simp only [Buf.reverseOp, h1, Except.ok_bind', h2], r1.trans r2⟩
  | replace o n => exact replaceContent_ok hf h o

theorem runAll_ok (ops : List SOp) {w : World ξ} {b : Buf ξ} (h : Fine f w b) (ho : ∀ op ∈ ops, op.Ordered) :
    ∃ b' w', Buf.runAll S A w b ops = .ok (b', w') ∧ Ran w b w' b' := by
  induction ops generalizing w b with
  | nil => exact ⟨b, w, rfl, .refl h⟩
  | cons op ops ih =>
    obtain ⟨b1, o1, w1, h1, k1, _⟩ := runOp_ok (S := S) (A := A) hf h op (ho op (by simp))
    obtain ⟨b2, w2, h2, k2⟩ := ih (k1.fine h) (fun x hx => ho x (by simp [hx]))
    exact ⟨b2, w2, by simp only [Buf.runAll, h1, Except.ok_bind', h2], k1.trans k2⟩

theorem reverseAll_ok (ops : List SOp) {w : World ξ} {b : Buf ξ} (h : Fine f w b) :
    ∃ b' w', Buf.reverseAll S A w b ops = .ok (b', w') ∧ Ran w b w' b' := by
  induction ops generalizing w b with
  | nil => exact ⟨b, w, rfl, .refl h⟩
  | cons op ops ih =>
    obtain ⟨b1, w1, h1, k1⟩ := reverseOp_ok (S := S) (A := A) hf h op
    obtain ⟨b2, w2, h2, k2⟩ := ih (k1.fine h)
    exact ⟨b2, w2, by simp only [Buf.reverseAll, h1, Except.ok_bind', h2], k1.trans k2⟩

theorem runAny_ok {w : World ξ} {b : Buf ξ} (h : Fine f w b) (op : Op) (ho : op.Ordered) :
    ∃ b' w', Buf.runAny S A w b op = .ok (b', w') ∧ Ran w b w' b' := by
  cases op with
  | simple op =>
    obtain ⟨b1, o1, w1, h1, k1, _⟩ := runOp_ok (S := S) (A := A) hf h op ho
    exact ⟨b1, w1, by simp only [Buf.runAny, h1, Except.ok_bind'], k1⟩
  | group ops => exact runAll_ok hf ops h ho

theorem reverseAny_ok {w : World ξ} {b : Buf ξ} (h : Fine f w b) (op : Op) :
    ∃ b' w', Buf.reverseAny S A w b op = .ok (b', w') ∧ Ran w b w' b' := by
  cases op with
  | simple op => exact reverseOp_ok hf h op
  | group ops => exact reverseAll_ok hf ops.reverse h

omit hf in
theorem store_fine {w : World ξ} {b : Buf ξ} {op : SOp} (hs : Fine f w b) (ho : op.Ordered) : Fine f w (b.store op) := by
  unfold Buf.store
  cases hg : b.group with
  | none =>
    refine ⟨hs.sound, hs.data, hs.cursor, hs.callback, ?_, ?_, ?_⟩
    · intro x hx
      simp only [History.add, List.mem_cons] at hx
      rcases hx with rfl | hx
      · exact ho
      · exact hs.previous x hx
    · intro x hx; simp [History.add] at hx
    · intro ops hx; cases hx
  | some ops =>
    refine ⟨hs.sound, hs.data, hs.cursor, hs.callback, hs.previous, hs.next, ?_⟩
    intro ops' hx x hm
    simp only [Option.some.injEq] at hx
    subst hx
    rcases List.mem_append.mp hm with hm | hm
    · exact hs.group ops hg x hm
    · simp at hm; subst hm; exact ho

theorem runStore_ok {w : World ξ} {b : Buf ξ} (h : Fine f w b) (op : SOp) (ho : op.Ordered) :
    ∃ b' w', (Buf.runOp S A w b op >>= fun r => (.ok (r.1.store r.2.1, r.2.2) : R (Buf ξ × World ξ))) = .ok (b', w') ∧ Fine f w' b' ∧ w.cells.length ≤ w'.cells.length := by
  obtain ⟨b1, o1, w1, h1, k1, ho1⟩ := runOp_ok (S := S) (A := A) hf h op ho
  exact ⟨_, _, by rw [h1]; rfl, store_fine (k1.fine h) ho1, k1.len⟩

omit hf in
theorem text_ok {w : World ξ} {b : Buf ξ} (h : Fine f w b) : ∃ t, Buf.text w b = .ok (t, w) :=
  read_ok h.sound h.data (fun g => g.toStr) id (fun _ _ _ hr => ⟨_, hr.toStr⟩)

theorem replace_ok {w : World ξ} {b : Buf ξ} (h : Fine f w b) (t : Text) : ∃ b' w', Buf.replace S A w b t = .ok (b', w') ∧ Fine f w' b' ∧ w.cells.length ≤ w'.cells.length := by
  obtain ⟨old, ho⟩ := text_ok h
  unfold Buf.replace
  simp only [ho, Except.ok_bind']
  split
  · exact ⟨b, w, rfl, h, Nat.le_refl _⟩
  · exact runStore_ok hf h (.replace old t) trivial

theorem pop_ok {w : World ξ} {b : Buf ξ} (h : Fine f w b) :
    ∃ b' w', (match b.history.back.1 with
      | some op => Buf.reverseAny S A w { b with history := b.history.back.2 } op
      | none => .ok ({ b with history := b.history.back.2 }, w)) = .ok (b', w') ∧ Fine f w' b' ∧ w.cells.length ≤ w'.cells.length := by
  unfold History.back
  cases hp : b.history.previous with
  | nil => exact ⟨_, _, rfl, h, Nat.le_refl _⟩
  | cons op ops =>
    simp only
    have h0 : Fine f w { b with history := { b.history with previous := ops, next := op :: b.history.next } } := by
      refine ⟨h.sound, h.data, h.cursor, h.callback, ?_, ?_, h.group⟩
      · intro x hx; exact h.previous x (by rw [hp]; simp; right; exact hx)
      · intro x hx
        simp only [List.mem_cons] at hx
        rcases hx with rfl | hx
        · exact h.previous _ (by rw [hp]; simp)
        · exact h.next x hx
    obtain ⟨b', w', h1, k⟩ := reverseAny_ok (S := S) (A := A) hf h0 op
    exact ⟨b', w', h1, k.fine h0, k.len⟩

theorem exec_ok {w : World ξ} {b : Buf ξ} (h : Fine f w b) (c : Scribe.Buf.Cmd) :
    ∃ b' w', Buf.exec S A f w b c = .ok (b', w') ∧ Fine f w' b' ∧ w.cells.length ≤ w'.cells.length := by
  cases c with
  | insert s => exact runStore_ok hf h (.insert s b.cursor.at_.position) trivial
  | delete =>
    obtain ⟨x, hx⟩ := read_ok h.sound h.data
      (fun g => g.inBounds S ⟨b.cursor.at_.position.line, b.cursor.at_.position.offset + 1⟩) id
      (fun _ _ _ hr => ⟨_, GapBuffer.inBounds_rep hr _⟩)
    simp only [id] at hx
    simp only [Buf.exec, Buf.delete, hx, Except.ok_bind']
    exact runStore_ok hf h (.delete none (Range.new _ _)) (range_new_ok _ _)
  | deleteRange p q => exact runStore_ok hf h (.delete none (Range.new p q)) (range_new_ok p q)
  | replace t => exact replace_ok hf h t
  | undo =>
    have hn : Fine f w { b with group := none } := ⟨h.sound, h.data, h.cursor, h.callback, h.previous, h.next, by simp⟩
    simp only [Buf.exec, Buf.undo]
    cases hg : b.group with
    | none => exact pop_ok hf hn
    | some ops =>
      simp only
      split
      · exact pop_ok hf hn
      · obtain ⟨b', w', h1, k⟩ := reverseAny_ok (S := S) (A := A) hf hn (.group ops)
        exact ⟨b', w', h1, k.fine hn, k.len⟩
  | redo =>
    simp only [Buf.exec, Buf.redo, History.forth]
    cases hp : b.history.next with
    | nil => exact ⟨_, _, rfl, h, Nat.le_refl _⟩
    | cons op ops =>
      simp only
      have h0 : Fine f w { b with history := { b.history with next := ops, previous := op :: b.history.previous } } := by
        refine ⟨h.sound, h.data, h.cursor, h.callback, ?_, ?_, h.group⟩
        · intro x hx
          simp only [List.mem_cons] at hx
          rcases hx with rfl | hx
          · exact h.next _ (by rw [hp]; simp)
          · exact h.previous x hx
        · intro x hx; exact h.next x (by rw [hp]; simp; right; exact hx)
      obtain ⟨b', w', h1, k⟩ := runAny_ok (S := S) (A := A) hf h0 op (h.next _ (by rw [hp]; simp))
      exact ⟨b', w', h1, k.fine h0, k.len⟩
  | startGroup =>
    refine ⟨_, _, rfl, ?_, Nat.le_refl _⟩
    unfold Buf.startGroup
    cases hg : b.group with
    | some ops => exact h
    | none => exact ⟨h.sound, h.data, h.cursor, h.callback, h.previous, h.next, by simp⟩
  | endGroup =>
    refine ⟨_, _, rfl, ?_, Nat.le_refl _⟩
    unfold Buf.endGroup
    cases hg : b.group with
    | none => exact h
    | some ops =>
      simp only
      split
      · exact ⟨h.sound, h.data, h.cursor, h.callback, h.previous, h.next, by simp⟩
      · refine ⟨h.sound, h.data, h.cursor, h.callback, ?_, ?_, by simp⟩
        · intro x hx
          simp only [History.add, List.mem_cons] at hx
          rcases hx with rfl | hx
          · exact h.group ops hg
          · exact h.previous x hx
        · intro x hx; simp [History.add] at hx
  | move m =>
    obtain ⟨g, h1, pre, post, hr⟩ := h.sound.cell h.cursor
    obtain ⟨c', h2, _⟩ := Cursor.move_rep (S := S) hr b.cursor.at_ m
    refine ⟨{ b with cursor := { b.cursor with at_ := c' } }, w, ?_, ⟨h.sound, h.data, h.cursor, h.callback, h.previous, h.next, h.group⟩, Nat.le_refl _⟩
    simp only [Buf.exec, move_eq h1 rfl]
    show ((Cursor.move S g _ _ >>= _) >>= _) = _
    rw [h2]; rfl
  | setCursor p => exact ⟨_, _, rfl, ⟨h.sound, h.data, h.cursor, h.callback, h.previous, h.next, h.group⟩, Nat.le_refl _⟩
  | setCallback v =>
    refine ⟨_, _, rfl, ⟨h.sound, h.data, h.cursor, ?_, h.previous, h.next, h.group⟩, Nat.le_refl _⟩
    intro g hg
    cases v <;> simp at hg
    exact hg.symm
  | saved => exact ⟨_, _, rfl, ⟨h.sound, h.data, h.cursor, h.callback, h.previous, h.next, h.group⟩, Nat.le_refl _⟩
  | reload t =>
    obtain ⟨b1, w1, h1, k1, l1⟩ := replace_ok (S := S) (A := A) hf h t
    exact ⟨{ b1 with history := b1.history.setMark }, w1, by simp only [Buf.exec, Buf.reloadWith, h1, Except.ok_bind'], ⟨k1.sound, k1.data, k1.cursor, k1.callback, k1.previous,
      k1.next, k1.group⟩, l1⟩

theorem execAll_ok (cs : List Scribe.Buf.Cmd) {w : World ξ} {b : Buf ξ} (h : Fine f w b) :
    ∃ b' w', Buf.execAll S A f w b cs = .ok (b', w') ∧ Fine f w' b' ∧ w.cells.length ≤ w'.cells.length := by
  induction cs generalizing w b with
  | nil => exact ⟨b, w, rfl, h, Nat.le_refl _⟩
  | cons c cs ih =>
    obtain ⟨b1, w1, h1, k1, l1⟩ := exec_ok (S := S) (A := A) hf h c
    obtain ⟨b2, w2, h2, k2, l2⟩ := ih k1
    exact ⟨b2, w2, by simp only [Buf.execAll, h1, Except.ok_bind', h2], k2, Nat.le_trans l1 l2⟩

end

theorem fine_fromContent (f : Callback ξ) {w : World ξ} (h : Sound w) (k : Nat) (t : Text) :
    Fine f (Buf.fromContent A w k t).2 (Buf.fromContent A w k t).1 :=
  ⟨h.alloc ⟨_, _, GapBuffer.new_rep k t⟩, by simp [Buf.fromContent, World.alloc], by simp [Buf.fromContent, World.alloc, Cur.new],
    (fun g hg => by cases hg), by simp [Buf.fromContent, History.new, History.setMark], by simp [Buf.fromContent, History.new, History.setMark],
    by simp [Buf.fromContent]⟩

theorem fine_new (f : Callback ξ) {w : World ξ} (h : Sound w) (k : Nat) :
    Fine f (Buf.new A w k).2 (Buf.new A w k).1 :=
  ⟨h.alloc ⟨_, _, GapBuffer.new_rep k []⟩, by simp [Buf.new, World.alloc], by simp [Buf.new, World.alloc, Cur.new],
    (fun g hg => by cases hg), by simp [Buf.new, History.new], by simp [Buf.new, History.new], by simp [Buf.new]⟩

/-! ## Refinement -/

/-- What one step does, observed from outside: the calls `obs` of the callback with the cells they see. -/
structure Step (f : Callback ξ) (eff : Position → List Cell → ξ → ξ) (w : World ξ) (b : Buf ξ) (a : Scribe.Buf)
    (w' : World ξ) (b' : Buf ξ) (a' : Scribe.Buf) (obs : List (Position × List Cell)) : Prop where
  own : Own w' f b' a'
  ext : w'.ext = obs.foldl (fun e o => eff o.1 o.2 e) w.ext
  len : w.cells.length ≤ w'.cells.length
  frame : ∀ q, q < w.cells.length → q ≠ b.data → w'.cells[q]? = w.cells[q]?
  ptr : b'.data = b.data ∨ w.cells.length ≤ b'.data
  seen : a.callback = true → (obs = [] → w'.cells = w.cells) ∧ ∀ o, obs.getLast? = some o → o.2 = w'.cells
  callback : a'.callback = a.callback
  log : a'.log = a.log ++ obs.map (·.1)

section
variable {f : Callback ξ} {eff : Position → List Cell → ξ → ξ}

theorem Step.refl {w : World ξ} {b : Buf ξ} {a : Scribe.Buf} (h : Own w f b a) : Step f eff w b a w b a [] :=
  ⟨h, rfl, Nat.le_refl _, fun _ _ _ => rfl, .inl rfl, fun _ => ⟨fun _ => rfl, fun o ho => by cases ho⟩, rfl, by simp⟩

theorem Step.trans {w w1 w2 : World ξ} {b b1 b2 : Buf ξ} {a a1 a2 : Scribe.Buf} {o1 o2 : List (Position × List Cell)}
    (h : Step f eff w b a w1 b1 a1 o1) (h' : Step f eff w1 b1 a1 w2 b2 a2 o2) : Step f eff w b a w2 b2 a2 (o1 ++ o2) where
  own := h'.own
  ext := by rw [h'.ext, h.ext, List.foldl_append]
  len := Nat.le_trans h.len h'.len
  frame := fun q hq hn => by
    have hn' : q ≠ b1.data := by
      rcases h.ptr with e | e
      · rw [e]; exact hn
      · intro e'; rw [← e'] at e; omega
    rw [h'.frame q (Nat.lt_of_lt_of_le hq h.len) hn', h.frame q hq hn]
  ptr := by
    have := h.len
    rcases h'.ptr with e | e
    · rw [e]; exact h.ptr
    · exact .inr (by omega)
  seen := fun hc => by
    obtain ⟨s1, s2⟩ := h.seen hc
    obtain ⟨s3, s4⟩ := h'.seen (by rw [h.callback]; exact hc)
    constructor
    · intro he
      obtain ⟨e1, e2⟩ := List.append_eq_nil_iff.mp he
      rw [s3 e2, s1 e1]
    · intro o ho
      rcases List.eq_nil_or_concat o2 with e | ⟨x, y, e⟩
      · subst e; rw [List.append_nil] at ho; rw [s3 rfl]; exact s2 o ho
      · apply s4
        subst e
        rw [List.concat_eq_append] at ho ⊢
        rw [← List.append_assoc, List.getLast?_append] at ho
        simpa using ho
  callback := h'.callback.trans h.callback
  log := by rw [h'.log, h.log]; simp

variable (hf : Looks f eff)
include hf

theorem report_step {w : World ξ} {b : Buf ξ} {a : Scribe.Buf} (h : Own w f b a) (p : Position) :
    ∃ w' obs, Buf.report w b p = .ok w' ∧ w'.cells = w.cells ∧ Own w' f b (a.report p) ∧
      w'.ext = obs.foldl (fun e o => eff o.1 o.2 e) w.ext ∧ obs = (if a.callback then [(p, w.cells)] else []) := by
  unfold Buf.report Scribe.Buf.report
  have hc := h.callback
  cases ha : a.callback with
  | false =>
    rw [ha] at hc
    simp only [Bool.false_eq_true, if_false] at hc
    rw [hc]
    exact ⟨w, [], rfl, rfl, h, rfl, rfl⟩
  | true =>
    rw [ha] at hc
    simp only [if_true] at hc
    rw [hc]
    refine ⟨{ w with ext := eff p w.cells w.ext }, [(p, w.cells)], hf p w h.idle, rfl, ?_, rfl, rfl⟩
    exact ⟨h.idle, h.cell, h.shared, h.cursor, h.history, h.group, by rw [h.callback, ha]; rfl⟩

omit hf in
theorem idle_set {w : World ξ} (h : Idle w) (p : Ptr) (g : GapBuffer) : Idle (w.set p (.free g)) := by
  intro c hc
  rcases List.mem_or_eq_of_mem_set hc with hc | rfl
  · exact h c hc
  · exact ⟨rfl, rfl⟩

omit hf in
theorem idle_alloc {w : World ξ} (h : Idle w) (g : GapBuffer) : Idle (w.alloc g).2 := by
  intro c hc
  rcases List.mem_append.mp hc with hc | hc
  · exact h c hc
  · simp at hc; subst hc; exact ⟨rfl, rfl⟩

/-- Writing through the buffer's pointer and reporting. -/
theorem write_step {w : World ξ} {b : Buf ξ} {a : Scribe.Buf} (h : Own w f b a) (F : GapBuffer → R GapBuffer) {g' : GapBuffer}
    (hF : F a.data = .ok g') (p : Position) :
    ∃ w1 w2 obs, withWrite w b.data (fun g w => F g >>= fun x => pure (x, w)) = .ok w1 ∧ Buf.report w1 b p = .ok w2 ∧
      Step f eff w b a w2 b (({ a with data := g' } : Scribe.Buf).report p) obs := by
  have hlt : b.data < w.cells.length := (List.getElem?_eq_some_iff.mp h.cell).1
  have h1 : Own (w.set b.data (.free g')) f b { a with data := g' } := by
    refine ⟨idle_set h.idle _ _, ?_, h.shared, h.cursor, h.history, h.group, h.callback⟩
    simp [World.set, hlt]
  obtain ⟨w2, obs, h2, h3, h4, h5, h6⟩ := report_step hf h1 p
  refine ⟨_, w2, obs, by rw [withWrite_pure h.cell, hF]; rfl, h2, h4, h5, ?_, ?_, .inl rfl, ?_, ?_, ?_⟩
  · rw [h3]; simp [World.set]
  · intro q hq hn
    rw [h3]
    simp only [World.set]
    rw [List.getElem?_set_ne (by omega)]
  · intro hc
    rw [h6, if_pos hc]
    refine ⟨by simp, fun o ho => ?_⟩
    simp at ho; subst ho; exact h3.symm
  · unfold Scribe.Buf.report; split <;> rfl
  · rw [h6]; unfold Scribe.Buf.report; dsimp only; split <;> simp

theorem replaceContent_step {w : World ξ} {b : Buf ξ} {a a' : Scribe.Buf} (h : Own w f b a) (t : Text)
    (ha : Scribe.Buf.replaceContent S A t a = .ok a') :
    ∃ b' w' obs, Buf.replaceContent S A w t b = .ok (b', w') ∧ Step f eff w b a w' b' a' obs ∧ w.cells.length ≤ b'.data ∧
      w'.cells[b.data]? = w.cells[b.data]? := by
  have hlt : b.data < w.cells.length := (List.getElem?_eq_some_iff.mp h.cell).1
  unfold Buf.replaceContent
  unfold Scribe.Buf.replaceContent at ha
  rw [World.get_of h.cell]
  simp only [Except.ok_bind', Cell.free] at ha ⊢
  have hi := idle_alloc h.idle (GapBuffer.new A a.data.clock t)
  have hp : (w.alloc (GapBuffer.new A a.data.clock t)).1 = w.cells.length := rfl
  have hcs : (w.alloc (GapBuffer.new A a.data.clock t)).2.cells = w.cells ++ [.free (GapBuffer.new A a.data.clock t)] := rfl
  have hx : (w.alloc (GapBuffer.new A a.data.clock t)).2.ext = w.ext := rfl
  generalize w.alloc (GapBuffer.new A a.data.clock t) = pw at hi hp hcs hx ⊢
  obtain ⟨q, w1⟩ := pw
  dsimp only at hi hp hcs hx ⊢
  subst hp
  have hq : w1.cells[w.cells.length]? = some (.free (GapBuffer.new A a.data.clock t)) := by rw [hcs]; simp
  have key : ∀ c, ∃ b' w' obs, (do
      let w ← Buf.report w1 { b with data := w.cells.length, cursor := ⟨w.cells.length, c⟩ } Position.new
      Except.ok (({ b with data := w1.cells.length - 1, cursor := ⟨w1.cells.length - 1, c⟩ } : Buf ξ), w) : R (Buf ξ × World ξ)) = .ok (b', w') ∧
      Step f eff w b a w' b' (({ a with data := GapBuffer.new A a.data.clock t, cursor := c } : Scribe.Buf).report Position.new) obs ∧
      w.cells.length ≤ b'.data ∧ w'.cells[b.data]? = w.cells[b.data]? := by
    intro c
    have h1 : Own w1 f { b with data := w.cells.length, cursor := ⟨w.cells.length, c⟩ }
        { a with data := GapBuffer.new A a.data.clock t, cursor := c } := ⟨hi, hq, rfl, rfl, h.history, h.group, h.callback⟩
    obtain ⟨w2, obs, h2, h3, h4, h5, h6⟩ := report_step hf h1 Position.new
    have hl : w1.cells.length - 1 = w.cells.length := by rw [hcs]; simp
    refine ⟨_, w2, obs, by rw [h2]; rfl, ⟨?_, by rw [h5, hx], ?_, ?_, .inr ?_, ?_, ?_, ?_⟩, ?_, ?_⟩
    · rw [hl]; exact h4
    · rw [h3, hcs]; simp
    · intro q hq hn
      rw [h3, hcs, List.getElem?_append_left hq]
    · exact Nat.le_of_eq hl.symm
    · intro hc
      rw [h6, if_pos hc]
      refine ⟨by simp, fun o ho => ?_⟩
      simp at ho; subst ho; exact h3.symm
    · unfold Scribe.Buf.report; split <;> rfl
    · rw [h6]; unfold Scribe.Buf.report; dsimp only; split <;> simp
    · exact Nat.le_of_eq hl.symm
    · rw [h3, hcs, List.getElem?_append_left hlt]
  have hl : w1.cells.length - 1 = w.cells.length := by rw [hcs]; simp
  rw [hl] at key
  rw [h.cursor]
  have e1 := moveTo_eq (S := S) (c := Cur.new w.cells.length ⟨0, 0⟩) hq rfl a.cursor.position
  rw [e1]
  dsimp only [Cell.free, Cur.new] at ha ⊢
  cases hm : Cursor.moveTo S (GapBuffer.new A a.data.clock t) (Cursor.new ⟨0, 0⟩) a.cursor.position with
  | error e => rw [hm] at ha; cases ha
  | ok r =>
    obtain ⟨ok, c⟩ := r
    rw [hm] at ha
    simp only [Except.ok_bind'] at ha ⊢
    cases ok with
    | true =>
      cases ha
      exact key c
    | false =>
      simp only [Bool.not_false, if_true] at ha ⊢
      have e2 := moveTo_eq (S := S) (c := ⟨w.cells.length, c⟩) hq rfl ⟨a.cursor.position.line, 0⟩
      rw [e2]
      dsimp only [Cell.free]
      cases hm2 : Cursor.moveTo S (GapBuffer.new A a.data.clock t) c ⟨a.cursor.position.line, 0⟩ with
      | error e => rw [hm2] at ha; cases ha
      | ok r =>
        obtain ⟨ok, c2⟩ := r
        rw [hm2] at ha
        cases ha
        exact key c2

theorem runOp_step {w : World ξ} {b : Buf ξ} {a a' : Scribe.Buf} {op op' : SOp} (h : Own w f b a)
    (ha : Scribe.Buf.runOp S A a op = .ok (a', op')) :
    ∃ b' w' obs, Buf.runOp S A w b op = .ok (b', op', w') ∧ Step f eff w b a w' b' a' obs := by
  cases op with
  | insert s p =>
    simp only [Scribe.Buf.runOp] at ha
    cases h1 : a.data.insert S A s p with
    | error e => rw [h1] at ha; cases ha
    | ok g' =>
      rw [h1] at ha; cases ha
      obtain ⟨w1, w2, obs, h2, h3, h4⟩ := write_step hf h (fun g => g.insert S A s p) h1 p
      exact ⟨b, w2, obs, by simp only [Buf.runOp, h2, Except.ok_bind', h3], h4⟩
  | delete c r =>
    simp only [Scribe.Buf.runOp] at ha
    cases h0 : a.data.read S r with
    | error e => rw [h0] at ha; cases ha
    | ok x =>
      rw [h0, Except.ok_bind'] at ha
      cases h1 : a.data.delete S r with
      | error e => rw [h1] at ha; cases ha
      | ok g' =>
        rw [h1] at ha; cases ha
        obtain ⟨w1, w2, obs, h2, h3, h4⟩ := write_step hf h (fun g => g.delete S r) h1 r.start
        have h5 := withRead_pure h.cell rfl (fun g => g.read S r) id
        simp only [id, Cell.free, h0, Except.ok_bind'] at h5
        exact ⟨b, w2, obs, by simp only [Buf.runOp, h5, h2, Except.ok_bind', h3], h4⟩
  | replace o n =>
    simp only [Scribe.Buf.runOp] at ha
    cases h1 : Scribe.Buf.replaceContent S A n a with
    | error e => rw [h1] at ha; cases ha
    | ok a1 =>
      rw [h1] at ha; cases ha
      obtain ⟨b', w', obs, h2, h3, _⟩ := replaceContent_step hf h n h1
      exact ⟨b', w', obs, by simp only [Buf.runOp, h2, Except.ok_bind'], h3⟩

theorem reverseOp_step {w : World ξ} {b : Buf ξ} {a a' : Scribe.Buf} {op : SOp} (h : Own w f b a)
    (ha : Scribe.Buf.reverseOp S A a op = .ok a') :
    ∃ b' w' obs, Buf.reverseOp S A w b op = .ok (b', w') ∧ Step f eff w b a w' b' a' obs := by
  cases op with
  | insert s p =>
    simp only [Scribe.Buf.reverseOp] at ha
    cases h0 : Scribe.Buf.insertEnd S s p with
    | error e => rw [h0] at ha; cases ha
    | ok x =>
      rw [h0, Except.ok_bind'] at ha
      cases x with
      | none => cases ha; exact ⟨b, w, [], by simp only [Buf.reverseOp, h0, Except.ok_bind'], .refl h⟩
      | some q =>
        dsimp only at ha
        cases h1 : a.data.delete S (Range.new p q) with
        | error e => rw [h1] at ha; cases ha
        | ok g' =>
          rw [h1] at ha; cases ha
          obtain ⟨w1, w2, obs, h2, h3, h4⟩ := write_step hf h (fun g => g.delete S (Range.new p q)) h1 p
          exact ⟨b, w2, obs, by simp only [Buf.reverseOp, h0, h2, Except.ok_bind', h3], h4⟩
  | delete c r =>
    cases c with
    | none => cases ha; exact ⟨b, w, [], rfl, .refl h⟩
    | some c =>
      simp only [Scribe.Buf.reverseOp] at ha
      cases h1 : a.data.insert S A c r.start with
      | error e => rw [h1] at ha; cases ha
      | ok g' =>
        rw [h1] at ha; cases ha
        obtain ⟨w1, w2, obs, h2, h3, h4⟩ := write_step hf h (fun g => g.insert S A c r.start) h1 r.start
        exact ⟨b, w2, obs, by simp only [Buf.reverseOp, h2, Except.ok_bind', h3], h4⟩
  | replace o n =>
    obtain ⟨b', w', obs, h2, h3, _⟩ := replaceContent_step hf h o ha
    exact ⟨b', w', obs, h2, h3⟩

theorem runAll_step (ops : List SOp) {w : World ξ} {b : Buf ξ} {a a' : Scribe.Buf} (h : Own w f b a)
    (ha : Scribe.Buf.runAll S A a ops = .ok a') :
    ∃ b' w' obs, Buf.runAll S A w b ops = .ok (b', w') ∧ Step f eff w b a w' b' a' obs := by
  induction ops generalizing w b a with
  | nil => cases ha; exact ⟨b, w, [], rfl, .refl h⟩
  | cons op ops ih =>
    simp only [Scribe.Buf.runAll] at ha
    cases h1 : Scribe.Buf.runOp S A a op with
    | error e => rw [h1] at ha; cases ha
    | ok r =>
      obtain ⟨a1, op1⟩ := r
      rw [h1] at ha
      obtain ⟨b1, w1, o1, h2, h3⟩ := runOp_step hf h h1
      obtain ⟨b2, w2, o2, h4, h5⟩ := ih h3.own ha
      exact ⟨b2, w2, o1 ++ o2, by simp only [Buf.runAll, h2, Except.ok_bind', h4], h3.trans h5⟩

theorem reverseAll_step (ops : List SOp) {w : World ξ} {b : Buf ξ} {a a' : Scribe.Buf} (h : Own w f b a)
    (ha : Scribe.Buf.reverseAll S A a ops = .ok a') :
    ∃ b' w' obs, Buf.reverseAll S A w b ops = .ok (b', w') ∧ Step f eff w b a w' b' a' obs := by
  induction ops generalizing w b a with
  | nil => cases ha; exact ⟨b, w, [], rfl, .refl h⟩
  | cons op ops ih =>
    simp only [Scribe.Buf.reverseAll] at ha
    cases h1 : Scribe.Buf.reverseOp S A a op with
    | error e => rw [h1] at ha; cases ha
    | ok a1 =>
      rw [h1] at ha
      obtain ⟨b1, w1, o1, h2, h3⟩ := reverseOp_step hf h h1
      obtain ⟨b2, w2, o2, h4, h5⟩ := ih h3.own ha
      exact ⟨b2, w2, o1 ++ o2, by simp only [Buf.reverseAll, h2, Except.ok_bind', h4], h3.trans h5⟩

theorem runAny_step {op : Op} {w : World ξ} {b : Buf ξ} {a a' : Scribe.Buf} (h : Own w f b a)
    (ha : Scribe.Buf.runAny S A a op = .ok a') :
    ∃ b' w' obs, Buf.runAny S A w b op = .ok (b', w') ∧ Step f eff w b a w' b' a' obs := by
  cases op with
  | simple op =>
    simp only [Scribe.Buf.runAny] at ha
    cases h1 : Scribe.Buf.runOp S A a op with
    | error e => rw [h1] at ha; cases ha
    | ok r =>
      obtain ⟨a1, op1⟩ := r
      rw [h1] at ha; cases ha
      obtain ⟨b1, w1, o1, h2, h3⟩ := runOp_step hf h h1
      exact ⟨b1, w1, o1, by simp only [Buf.runAny, h2, Except.ok_bind'], h3⟩
  | group ops => exact runAll_step hf ops h ha

theorem reverseAny_step {op : Op} {w : World ξ} {b : Buf ξ} {a a' : Scribe.Buf} (h : Own w f b a)
    (ha : Scribe.Buf.reverseAny S A a op = .ok a') :
    ∃ b' w' obs, Buf.reverseAny S A w b op = .ok (b', w') ∧ Step f eff w b a w' b' a' obs := by
  cases op with
  | simple op => exact reverseOp_step hf h ha
  | group ops => exact reverseAll_step hf ops.reverse h ha

omit hf in
/-- Bookkeeping after the step. -/
theorem Step.then {w w' : World ξ} {b b' b'' : Buf ξ} {a a' a'' : Scribe.Buf} {obs} (h : Step f eff w b a w' b' a' obs)
    (ho : Own w' f b'' a'') (hd : b''.data = b'.data) (hc : a''.callback = a'.callback) (hl : a''.log = a'.log) :
    Step f eff w b a w' b'' a'' obs :=
  ⟨ho, h.ext, h.len, h.frame, by rw [hd]; exact h.ptr, h.seen, hc.trans h.callback, hl.trans h.log⟩

omit hf in
/-- Bookkeeping before the step. -/
theorem Step.after {w w' : World ξ} {b b0 b' : Buf ξ} {a a0 a' : Scribe.Buf} {obs} (h : Step f eff w b a w' b' a' obs)
    (hd : b.data = b0.data) (hc : a.callback = a0.callback) (hl : a.log = a0.log) : Step f eff w b0 a0 w' b' a' obs :=
  ⟨h.own, h.ext, h.len, by rw [← hd]; exact h.frame, by rw [← hd]; exact h.ptr, by rw [← hc]; exact h.seen, h.callback.trans hc,
    by rw [← hl]; exact h.log⟩

omit hf in
theorem own_store {w : World ξ} {b : Buf ξ} {a : Scribe.Buf} (h : Own w f b a) (op : SOp) : Own w f (b.store op) (a.store op) := by
  unfold Buf.store Scribe.Buf.store
  rw [h.group]
  cases hg : a.group with
  | none => exact ⟨h.idle, h.cell, h.shared, h.cursor, by rw [h.history], rfl, h.callback⟩
  | some ops => exact ⟨h.idle, h.cell, h.shared, h.cursor, h.history, rfl, h.callback⟩

theorem runStore_step {w : World ξ} {b : Buf ξ} {a a' : Scribe.Buf} {op : SOp} (h : Own w f b a)
    (ha : (Scribe.Buf.runOp S A a op >>= fun r => (pure (r.1.store r.2) : R Scribe.Buf)) = .ok a') :
    ∃ b' w' obs, (Buf.runOp S A w b op >>= fun r => (.ok (r.1.store r.2.1, r.2.2) : R (Buf ξ × World ξ))) = .ok (b', w') ∧
      Step f eff w b a w' b' a' obs := by
  cases h1 : Scribe.Buf.runOp S A a op with
  | error e => rw [h1] at ha; cases ha
  | ok r =>
    obtain ⟨a1, op1⟩ := r
    rw [h1] at ha; cases ha
    obtain ⟨b1, w1, o1, h2, h3⟩ := runOp_step hf h h1
    refine ⟨b1.store op1, w1, o1, by rw [h2]; rfl, h3.then (own_store h3.own op1) ?_ ?_ ?_⟩
    · unfold Buf.store; split <;> rfl
    · unfold Scribe.Buf.store; split <;> rfl
    · unfold Scribe.Buf.store; split <;> rfl

omit hf in
theorem own_text {w : World ξ} {b : Buf ξ} {a : Scribe.Buf} (h : Own w f b a) {t : Text} (ht : a.data.toStr = .ok t) :
    Buf.text w b = .ok (t, w) := by
  have h5 := withRead_pure h.cell rfl (fun g => g.toStr) id
  simp only [id, Cell.free, ht, Except.ok_bind'] at h5
  exact h5

theorem replace_step {w : World ξ} {b : Buf ξ} {a a' : Scribe.Buf} {t : Text} (h : Own w f b a)
    (ha : Scribe.Buf.replace S A a t = .ok a') :
    ∃ b' w' obs, Buf.replace S A w b t = .ok (b', w') ∧ Step f eff w b a w' b' a' obs := by
  unfold Scribe.Buf.replace at ha
  cases ht : a.data.toStr with
  | error e => rw [ht] at ha; cases ha
  | ok old =>
    rw [ht, Except.ok_bind'] at ha
    unfold Buf.replace
    simp only [own_text h ht, Except.ok_bind']
    by_cases he : t = old
    · rw [if_pos he] at ha ⊢; cases ha; exact ⟨b, w, [], rfl, .refl h⟩
    · rw [if_neg he] at ha ⊢; exact runStore_step hf h ha

theorem pop_step {w : World ξ} {b : Buf ξ} {a a' : Scribe.Buf} (h : Own w f b a)
    (ha : (match a.history.back.1 with
      | some op => Scribe.Buf.reverseAny S A { a with history := a.history.back.2 } op
      | none => pure { a with history := a.history.back.2 }) = .ok a') :
    ∃ b' w' obs, (match b.history.back.1 with
      | some op => Buf.reverseAny S A w { b with history := b.history.back.2 } op
      | none => .ok ({ b with history := b.history.back.2 }, w)) = .ok (b', w') ∧ Step f eff w b a w' b' a' obs := by
  rw [h.history]
  have h0 : Own w f { b with history := a.history.back.2 } { a with history := a.history.back.2 } :=
    ⟨h.idle, h.cell, h.shared, h.cursor, rfl, h.group, h.callback⟩
  cases hb : a.history.back.1 with
  | none =>
    rw [hb] at ha; cases ha
    exact ⟨_, w, [], rfl, (Step.refl h).then h0 rfl rfl rfl⟩
  | some op =>
    rw [hb] at ha
    obtain ⟨b', w', obs, h1, h2⟩ := reverseAny_step hf h0 ha
    exact ⟨b', w', obs, h1, h2.after rfl rfl rfl⟩

theorem exec_step {w : World ξ} {b : Buf ξ} {a a' : Scribe.Buf} {c : Scribe.Buf.Cmd} (hc : ∀ v, c ≠ .setCallback v) (h : Own w f b a)
    (ha : Scribe.Buf.exec S A a c = .ok a') :
    ∃ b' w' obs, Buf.exec S A f w b c = .ok (b', w') ∧ Step f eff w b a w' b' a' obs := by
  have hcur : b.cursor.at_.position = a.cursor.position := by rw [h.cursor]
  cases c with
  | insert s => simp only [Buf.exec, Buf.insert, hcur]; exact runStore_step hf h ha
  | delete =>
    simp only [Scribe.Buf.exec, Scribe.Buf.delete] at ha
    cases h1 : a.data.inBounds S ⟨a.cursor.position.line, a.cursor.position.offset + 1⟩ with
    | error e => rw [h1] at ha; cases ha
    | ok x =>
      rw [h1, Except.ok_bind'] at ha
      have h5 := withRead_pure h.cell rfl (fun g => g.inBounds S ⟨a.cursor.position.line, a.cursor.position.offset + 1⟩) id
      simp only [id, Cell.free, h1, Except.ok_bind'] at h5
      simp only [Buf.exec, Buf.delete, hcur, h5, Except.ok_bind']
      exact runStore_step hf h ha
  | deleteRange p q => exact runStore_step hf h ha
  | replace t => exact replace_step hf h ha
  | undo =>
    simp only [Buf.exec, Buf.undo, h.group]
    simp only [Scribe.Buf.exec, Scribe.Buf.undo] at ha
    have h0 : Own w f { b with group := none } { a with group := none } := ⟨h.idle, h.cell, h.shared, h.cursor, h.history, rfl, h.callback⟩
    cases hg : a.group with
    | none =>
      rw [hg] at ha
      obtain ⟨b', w', obs, h1, h2⟩ := pop_step hf h0 ha
      exact ⟨b', w', obs, h1, h2.after rfl rfl rfl⟩
    | some ops =>
      rw [hg] at ha
      dsimp only at ha ⊢
      by_cases he : ops.isEmpty
      · rw [if_pos he] at ha ⊢
        obtain ⟨b', w', obs, h1, h2⟩ := pop_step hf h0 ha
        exact ⟨b', w', obs, h1, h2.after rfl rfl rfl⟩
      · rw [if_neg he] at ha ⊢
        obtain ⟨b', w', obs, h1, h2⟩ := reverseAny_step hf h0 ha
        exact ⟨b', w', obs, h1, h2.after rfl rfl rfl⟩
  | redo =>
    simp only [Buf.exec, Buf.redo, h.history]
    simp only [Scribe.Buf.exec, Scribe.Buf.redo] at ha
    have h0 : Own w f { b with history := a.history.forth.2 } { a with history := a.history.forth.2 } :=
      ⟨h.idle, h.cell, h.shared, h.cursor, rfl, h.group, h.callback⟩
    cases hb : a.history.forth.1 with
    | none =>
      rw [hb] at ha; cases ha
      exact ⟨_, w, [], rfl, (Step.refl h).then h0 rfl rfl rfl⟩
    | some op =>
      rw [hb] at ha
      obtain ⟨b', w', obs, h1, h2⟩ := runAny_step hf h0 ha
      exact ⟨b', w', obs, h1, h2.after rfl rfl rfl⟩
  | startGroup =>
    cases ha
    refine ⟨_, w, [], rfl, (Step.refl h).then ?_ ?_ ?_ ?_⟩
    · unfold Buf.startGroup Scribe.Buf.startGroup
      rw [h.group]
      cases hg : a.group with
      | none => exact ⟨h.idle, h.cell, h.shared, h.cursor, h.history, rfl, h.callback⟩
      | some ops => exact h
    · unfold Buf.startGroup; split <;> rfl
    · unfold Scribe.Buf.startGroup; split <;> rfl
    · unfold Scribe.Buf.startGroup; split <;> rfl
  | endGroup =>
    cases ha
    refine ⟨_, w, [], rfl, (Step.refl h).then ?_ ?_ ?_ ?_⟩
    · unfold Buf.endGroup Scribe.Buf.endGroup
      rw [h.group]
      cases hg : a.group with
      | none => exact h
      | some ops =>
        dsimp only
        split
        · exact ⟨h.idle, h.cell, h.shared, h.cursor, h.history, rfl, h.callback⟩
        · exact ⟨h.idle, h.cell, h.shared, h.cursor, by rw [h.history], rfl, h.callback⟩
    · unfold Buf.endGroup
      split
      · dsimp only; split <;> rfl
      · rfl
    · unfold Scribe.Buf.endGroup
      split
      · dsimp only; split <;> rfl
      · rfl
    · unfold Scribe.Buf.endGroup
      split
      · dsimp only; split <;> rfl
      · rfl
  | move m =>
    simp only [Scribe.Buf.exec] at ha
    cases h1 : Cursor.move S a.data a.cursor m with
    | error e => rw [h1] at ha; cases ha
    | ok c =>
      rw [h1] at ha; cases ha
      have hcell : w.cells[b.cursor.data]? = some (.free a.data) := by rw [h.shared]; exact h.cell
      have h2 := move_eq (S := S) hcell rfl m
      rw [h.cursor] at h2
      simp only [Cell.free, h1, Except.ok_bind'] at h2
      refine ⟨{ b with cursor := { b.cursor with at_ := c } }, w, [], by simp only [Buf.exec, h2, Except.ok_bind'],
        (Step.refl h).then ?_ rfl rfl rfl⟩
      exact ⟨h.idle, h.cell, h.shared, rfl, h.history, h.group, h.callback⟩
  | setCursor p =>
    cases ha
    refine ⟨_, w, [], rfl, (Step.refl h).then ?_ rfl rfl rfl⟩
    exact ⟨h.idle, h.cell, h.shared, by rw [h.cursor], h.history, h.group, h.callback⟩
  | setCallback v => exact absurd rfl (hc v)
  | saved =>
    cases ha
    refine ⟨_, w, [], rfl, (Step.refl h).then ?_ rfl rfl rfl⟩
    exact ⟨h.idle, h.cell, h.shared, h.cursor, by rw [h.history]; rfl, h.group, h.callback⟩
  | reload t =>
    simp only [Scribe.Buf.exec, Scribe.Buf.reloadWith] at ha
    cases h1 : Scribe.Buf.replace S A a t with
    | error e => rw [h1] at ha; cases ha
    | ok a1 =>
      rw [h1] at ha; cases ha
      obtain ⟨b1, w1, o1, h2, h3⟩ := replace_step hf h h1
      refine ⟨{ b1 with history := b1.history.setMark }, w1, o1, by simp only [Buf.exec, Buf.reloadWith, h2, Except.ok_bind'], h3.then ?_ rfl rfl rfl⟩
      have h4 := h3.own
      exact ⟨h4.idle, h4.cell, h4.shared, h4.cursor, by rw [h4.history]; rfl, h4.group, h4.callback⟩

/-- `Step` for sequences of calls. -/
structure Steps (f : Callback ξ) (eff : Position → List Cell → ξ → ξ) (w : World ξ) (b : Buf ξ) (a : Scribe.Buf)
    (w' : World ξ) (b' : Buf ξ) (a' : Scribe.Buf) (obs : List (Position × List Cell)) : Prop where
  own : Own w' f b' a'
  ext : w'.ext = obs.foldl (fun e o => eff o.1 o.2 e) w.ext
  len : w.cells.length ≤ w'.cells.length
  frame : ∀ q, q < w.cells.length → q ≠ b.data → w'.cells[q]? = w.cells[q]?
  ptr : b'.data = b.data ∨ w.cells.length ≤ b'.data
  log : a'.log = a.log ++ obs.map (·.1)

omit hf in
theorem Step.steps {w w' : World ξ} {b b' : Buf ξ} {a a' : Scribe.Buf} {obs} (h : Step f eff w b a w' b' a' obs) :
    Steps f eff w b a w' b' a' obs := ⟨h.own, h.ext, h.len, h.frame, h.ptr, h.log⟩

omit hf in
theorem Steps.trans {w w1 w2 : World ξ} {b b1 b2 : Buf ξ} {a a1 a2 : Scribe.Buf} {o1 o2 : List (Position × List Cell)}
    (h : Steps f eff w b a w1 b1 a1 o1) (h' : Steps f eff w1 b1 a1 w2 b2 a2 o2) : Steps f eff w b a w2 b2 a2 (o1 ++ o2) where
  own := h'.own
  ext := by rw [h'.ext, h.ext, List.foldl_append]
  len := Nat.le_trans h.len h'.len
  frame := fun q hq hn => by
    have hn' : q ≠ b1.data := by
      rcases h.ptr with e | e
      · rw [e]; exact hn
      · intro e'; rw [← e'] at e; omega
    rw [h'.frame q (Nat.lt_of_lt_of_le hq h.len) hn', h.frame q hq hn]
  ptr := by
    have := h.len
    rcases h'.ptr with e | e
    · rw [e]; exact h.ptr
    · exact .inr (by omega)
  log := by rw [h'.log, h.log]; simp

theorem exec_steps {w : World ξ} {b : Buf ξ} {a a' : Scribe.Buf} {c : Scribe.Buf.Cmd} (h : Own w f b a)
    (ha : Scribe.Buf.exec S A a c = .ok a') :
    ∃ b' w' obs, Buf.exec S A f w b c = .ok (b', w') ∧ Steps f eff w b a w' b' a' obs := by
  by_cases hc : ∀ v, c ≠ .setCallback v
  · obtain ⟨b', w', obs, h1, h2⟩ := exec_step hf hc h ha
    exact ⟨b', w', obs, h1, h2.steps⟩
  · simp only [not_forall, not_not] at hc
    obtain ⟨v, rfl⟩ := hc
    cases ha
    refine ⟨_, w, [], rfl, ⟨?_, rfl, Nat.le_refl _, fun _ _ _ => rfl, .inl rfl, by simp⟩⟩
    exact ⟨h.idle, h.cell, h.shared, h.cursor, h.history, h.group, rfl⟩

theorem execAll_steps (cs : List Scribe.Buf.Cmd) {w : World ξ} {b : Buf ξ} {a a' : Scribe.Buf} (h : Own w f b a)
    (ha : Scribe.Buf.execAll S A a cs = .ok a') :
    ∃ b' w' obs, Buf.execAll S A f w b cs = .ok (b', w') ∧ Steps f eff w b a w' b' a' obs := by
  induction cs generalizing w b a with
  | nil => cases ha; exact ⟨b, w, [], rfl, (Step.refl h).steps⟩
  | cons c cs ih =>
    simp only [Scribe.Buf.execAll] at ha
    cases h1 : Scribe.Buf.exec S A a c with
    | error e => rw [h1] at ha; cases ha
    | ok a1 =>
      rw [h1] at ha
      obtain ⟨b1, w1, o1, h2, h3⟩ := exec_steps hf h h1
      obtain ⟨b2, w2, o2, h4, h5⟩ := ih h3.own ha
      exact ⟨b2, w2, o1 ++ o2, by simp only [Buf.execAll, h2, Except.ok_bind', h4], h3.trans h5⟩

end

theorem own_fromContent (f : Callback ξ) {w : World ξ} (h : Idle w) (k : Nat) (t : Text) :
    Own (Buf.fromContent A w k t).2 f (Buf.fromContent A w k t).1 (Scribe.Buf.fromContent A k t) :=
  ⟨idle_alloc h _, by simp [Buf.fromContent, World.alloc, Scribe.Buf.fromContent], rfl, rfl, rfl, rfl, rfl⟩

theorem own_new (f : Callback ξ) {w : World ξ} (h : Idle w) (k : Nat) :
    Own (Buf.new A w k).2 f (Buf.new A w k).1 (Scribe.Buf.new A k) :=
  ⟨idle_alloc h _, by simp [Buf.new, World.alloc, Scribe.Buf.new], rfl, rfl, rfl, rfl, rfl⟩

end Scribe.Shared
