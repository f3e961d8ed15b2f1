import Verif.Props.History
import Verif.Props.Buffer
/-!
# Properties C50–C56: where the code departs from what one would expect

Each theorem says exactly what happens; they show that the conditions in `CleanCmd` and in the other properties cannot be
dropped. General theorems where possible, otherwise a concrete run.
-/
namespace Scribe.Props
open Spec Buf

theorem Reached.holds {S A b d} (h : Reached S A b d) : Holds S b.data d.text := by
  obtain ⟨s, hs⟩ := h.tri; exact hs.sim.face.data

/-- What a deletion with a missing end does, and what it stores: an operation that remembers no text. -/
theorem deleteRange_missing {S A} {b : Buf} {t : Text} {p q : Position} (h : Holds S b.data t) (hg : b.group = none)
    (hq : exists? S.segs t (hi p q) = false) : ∃ b1, exec S A b (.deleteRange p q) = .ok b1 ∧
      b1.data.toStr = .ok (Spec.deleteRange S.segs t (lo p q) (hi p q)) ∧
      (CleanDelete S.segs t (lo p q) (hi p q) → Holds S b1.data (Spec.deleteRange S.segs t (lo p q) (hi p q))) ∧
      b1.group = none ∧ b1.history = b.history.add (.simple (.delete none ⟨lo p q, hi p q⟩)) := by
  obtain ⟨g', hd, hs, hh⟩ := h.delete (Range.new p q) (range_new_ok p q)
  rw [range_new] at hd hs hh
  have hr := h.read (Range.new p q) (range_new_ok p q)
  rw [range_new] at hr
  have hn : readRange S.segs t (lo p q) (hi p q) = none := by
    unfold readRange
    unfold exists? at hq
    cases hl : locate (S.segs t) (hi p q) with
    | none => cases locate (S.segs t) (lo p q) <;> rfl
    | some x => rw [hl] at hq; cases hq
  simp only at hr
  rw [hn] at hr
  refine ⟨({ b with data := g' }.report (lo p q)).store (.delete none ⟨lo p q, hi p q⟩), ?_, ?_, ?_, ?_, ?_⟩
  · simp only [exec, Buf.deleteRange, runOp, range_new, hr, hd, Except.ok_bind']; rfl
  · have e : (({ b with data := g' }.report (lo p q)).store (.delete none ⟨lo p q, hi p q⟩)).data = g' := by
      unfold store Buf.report; split <;> split <;> rfl
    rw [e]; exact hs
  · have e : (({ b with data := g' }.report (lo p q)).store (.delete none ⟨lo p q, hi p q⟩)).data = g' := by
      unfold store Buf.report; split <;> split <;> rfl
    rw [e]; exact hh
  · unfold store
    rw [report_group]; simp only [hg]
  · unfold store
    rw [report_group]; simp only [hg]; rw [report_history]

/-- **C50.** Deleting a range whose end does not exist removes text (see C06), but undo does not bring it back: after `delete_range`
and `undo` the contents are still those after the deletion, though the history is one step back. Redo then deletes the same range
*again* in what is left. -/
theorem C50_clipped_delete_not_undone (S : Segmenter) (A : Alloc) (b : Buf) (d : Doc) (p q : Position) (h : Reached S A b d)
    (hg : b.group = none) (hq : exists? S.segs d.text (hi p q) = false) :
    ∃ b', execAll S A b [.deleteRange p q, .undo] = .ok b' ∧
      b'.data.toStr = .ok (Spec.deleteRange S.segs d.text (lo p q) (hi p q)) ∧
      b'.history.previous.length = b.history.previous.length ∧
      (CleanDelete S.segs d.text (lo p q) (hi p q) →
        ∃ b'', execAll S A b [.deleteRange p q, .undo, .redo] = .ok b'' ∧
          b''.data.toStr = .ok (Spec.deleteRange S.segs (Spec.deleteRange S.segs d.text (lo p q) (hi p q)) (lo p q) (hi p q))) := by
  obtain ⟨b1, e1, ht, hh, hg1, hh1⟩ := deleteRange_missing (A := A) h.holds hg hq
  have e2 : exec S A b1 .undo = .ok { b1 with
      group := none
      history := ⟨b.history.previous, [.simple (.delete none ⟨lo p q, hi p q⟩)], b1.history.mark⟩ } := by
    simp only [exec, undo, hg1, hh1, History.add, History.back, reverseAny, reverseOp]; rfl
  refine ⟨{ b1 with
      group := none
      history := ⟨b.history.previous, [.simple (.delete none ⟨lo p q, hi p q⟩)], b1.history.mark⟩ },
    by simp only [execAll, e1, Except.ok_bind', e2], ht, rfl, fun hc => ?_⟩
  have hr : AtOrBefore (lo p q) (hi p q) := by have := range_new_ok p q; rw [range_new] at this; exact this
  obtain ⟨g2, hd, hs, _⟩ := (hh hc).delete ⟨lo p q, hi p q⟩ hr
  let b2 : Buf := ⟨g2, b1.cursor, ⟨.simple (.delete none ⟨lo p q, hi p q⟩) :: b.history.previous, [], b1.history.mark⟩, none, b1.callback, b1.log⟩
  refine ⟨b2.report (lo p q), ?_, ?_⟩
  · simp only [execAll, e1, Except.ok_bind', e2]
    simp only [exec, redo, History.forth, runAny, runOp]
    rw [(hh hc).read ⟨lo p q, hi p q⟩ hr, hd]
    rfl
  · have e : (b2.report (lo p q)).data = g2 := by unfold Buf.report; split <;> rfl
    rw [e]; exact hs

/-- C50: the deletion did remove something, unless the range starts at the very end of the text. -/
theorem C50_clipped_delete_removes (S : Segmenter) (t : Text) (p q : Position) (hp : exists? S.segs t (lo p q) = true)
    (hq : exists? S.segs t (hi p q) = false) (he : lo p q ≠ endPos (S.segs t)) :
    (Spec.deleteRange S.segs t (lo p q) (hi p q)).length < t.length := by
  have hr : AtOrBefore (lo p q) (hi p q) := by have := range_new_ok p q; rw [range_new] at this; exact this
  generalize hi p q = q' at *
  generalize lo p q = p' at *
  clear p q
  rename' p' => p, q' => q
  unfold exists? at hp hq
  unfold Spec.deleteRange
  cases hl : locate (S.segs t) p with
  | none => rw [hl] at hp; cases hp
  | some x =>
    obtain ⟨a, c⟩ := x
    obtain ⟨hab, hpa⟩ := locate_eq_some.mp hl
    have hc : c ≠ [] := by rintro rfl; rw [List.append_nil] at hab; rw [hab, hpa] at he; exact he rfl
    have hcl : c.flatten ≠ [] := by
      cases c with
      | nil => exact absurd rfl hc
      | cons x c => have := S.nonempty t x (by rw [hab]; simp); simp [this]
    have ht : t.length = a.flatten.length + c.flatten.length := by
      rw [← S.join t, hab]; simp
    have hcl' : 0 < c.flatten.length := List.length_pos_of_ne_nil hcl
    simp only
    rw [List.length_append, ht]
    unfold afterEnd
    cases hl2 : locate (S.segs t) q with
    | some x => rw [hl2] at hq; cases hq
    | none =>
      simp only
      cases hl3 : locate (S.segs t) ⟨q.line + 1, 0⟩ with
      | none => simp only [List.flatten_nil, List.length_nil]; omega
      | some y =>
        obtain ⟨a', c'⟩ := y
        obtain ⟨hab', hpa'⟩ := locate_eq_some.mp hl3
        have hlt : Before p ⟨q.line + 1, 0⟩ := by
          unfold AtOrBefore at hr; unfold Before; simp only; omega
        obtain ⟨m, hm, _, hcm⟩ := split_mono_lt (hab.symm.trans hab') (by rw [hpa, hpa']; exact hlt)
        have hml : m.flatten ≠ [] := by
          cases m with
          | nil => exact absurd rfl hm
          | cons x m => have := S.nonempty t x (by rw [hab, hcm]; simp); simp [this]
        have := List.length_pos_of_ne_nil hml
        simp only
        rw [hcm, List.flatten_append, List.length_append]; omega

/-- Clip at the end of line 0, undo, redo: each step loses more. -/
example : (execAll Demo.seg Demo.tight (Buf.fromContent Demo.tight 0 (Demo.s "ab\ncd\nef")) [.deleteRange ⟨0, 1⟩ ⟨0, 9⟩, .undo] >>= fun b => b.data.toStr)
    = .ok (Demo.s "acd\nef") := by decide +kernel
example : (execAll Demo.seg Demo.tight (Buf.fromContent Demo.tight 0 (Demo.s "ab\ncd\nef")) [.deleteRange ⟨0, 1⟩ ⟨0, 9⟩, .undo, .redo] >>= fun b => b.data.toStr)
    = .ok (Demo.s "aef") := by decide +kernel

theorem crlfOnly_segs {S : Segmenter} {t : Text} (h : CrlfOnly t) : ['\n'] ∉ S.segs t := by
  intro hm
  obtain ⟨a, b, hab⟩ := List.append_of_mem hm
  have ht : t = a.flatten ++ '\n' :: b.flatten := by rw [← S.join t, hab]; simp
  have hl := h _ _ ht
  rcases List.eq_nil_or_concat a with rfl | ⟨a', c, rfl⟩
  · simp at hl
  · have hcr := S.crlf t _ b c hab (by simp)
    have hc : c ≠ [] := S.nonempty t c (by rw [hab]; simp)
    apply hcr
    have : (a' ++ [c]).flatten = a'.flatten ++ c := by simp
    rw [List.concat_eq_append, this, List.getLast?_append_of_ne_nil _ hc] at hl
    exact hl

/-- **C51.** A CRLF line break does not start a new line: in a text all of whose line breaks are CRLF, no position on line 1 or later exists,
although `line_count` counts every break. Positions on line 0 run through the whole text. -/
theorem C51_crlf_lines_do_not_exist (S : Segmenter) (A : Alloc) (b : Buf) (d : Doc) (h : Reached S A b d) (ht : CrlfOnly d.text) (p : Position) :
    b.data.inBounds S p = .ok (decide (p.line = 0 ∧ p.offset ≤ (S.segs d.text).length)) ∧ b.lineCount = .ok (countNl d.text + 1) := by
  have hn := crlfOnly_segs (S := S) ht
  constructor
  · rw [h.holds.inBounds, exists?]
    obtain ⟨l, o⟩ := p
    congr 1
    rw [Bool.eq_iff_iff, locate_single_line hn l o]
    simp
  · unfold lineCount; rw [h.holds.toStr]; rfl

/-- C51: in such a text `move_down` never leaves line 0. -/
theorem C51_cannot_move_down (S : Segmenter) (A : Alloc) (b : Buf) (d : Doc) (h : Reached S A b d) (ht : CrlfOnly d.text) :
    ∃ b', exec S A b (.move .down) = .ok b' ∧ b'.cursor.position = b.cursor.position := by
  have hb := fun l o (hl : l ≠ 0) => (C51_crlf_lines_do_not_exist S A b d h ht ⟨l, o⟩).1.trans (by rw [decide_eq_false (by simp [hl])])
  have h1 := hb (b.cursor.position.line + 1) b.cursor.sticky (by omega)
  have h2 := hb (b.cursor.position.line + 1) (Cursor.lineEnd S d.text (b.cursor.position.line + 1)) (by omega)
  refine ⟨{ b with cursor := { b.cursor with sticky := b.cursor.sticky } }, ?_, rfl⟩
  simp only [exec, Cursor.move, Cursor.moveDown, Cursor.moveToLine, Cursor.moveTo, h1, h2, h.holds.toStr, Except.ok_bind']
  rfl

example : CrlfOnly (Demo.s "ab\r\ncd\r\n") := by
  intro x y h
  have : x.length < 8 := by
    have := congrArg List.length h
    simp [Demo.s] at this; omega
  have key : ∀ n < 8, (Demo.s "ab\r\ncd\r\n").drop n = '\n' :: (Demo.s "ab\r\ncd\r\n").drop (n + 1) → ((Demo.s "ab\r\ncd\r\n").take n).getLast? = some '\r' := by
    decide +kernel
  have := key x.length this (by rw [h]; simp)
  rw [h] at this
  simpa using this
example : (Buf.lineCount (Buf.fromContent Demo.tight 0 (Demo.s "ab\r\ncd\r\n"))) = .ok 3 := by decide +kernel

/-! ### C52 -/

theorem locate_fresh_line {cs : List Text} (h : ['\n'] ∉ cs) {p : Position} (hp : p.line ≠ 0) : locate cs p = none := by
  obtain ⟨l, o⟩ := p
  rw [locate_single_line h, if_neg (fun hx => hp hx.1)]

/-- **C52.** Undoing the insertion of a text with CRLF line breaks destroys text that was there before. Precisely: if neither the buffer nor the
inserted string has a bare newline, but the string has a CRLF, then insert and undo leave only the text before the cursor: the string is
removed, and so is everything after the cursor. -/
theorem C52_crlf_undo_destroys (S : Segmenter) (A : Alloc) (b : Buf) (d : Doc) (s : Text) (x y : List Text) (h : Reached S A b d)
    (hg : b.group = none) (hl : locate (S.segs d.text) b.cursor.position = some (x, y)) (ht : CrlfOnly d.text) (hs : CrlfOnly s) (hnl : '\n' ∈ s)
    (hc : CleanInsert S.segs d.text s b.cursor.position) :
    ∃ b', execAll S A b [.insert s, .undo] = .ok b' ∧ b'.data.toStr = .ok x.flatten := by
  generalize hp : b.cursor.position = p at hl hc
  have htn := crlfOnly_segs (S := S) ht
  have hsn := crlfOnly_segs (S := S) hs
  obtain ⟨hxy, hxp⟩ := locate_eq_some.mp hl
  have hx : ['\n'] ∉ x := fun hm => htn (by rw [hxy]; simp [hm])
  have hy : ['\n'] ∉ y := fun hm => htn (by rw [hxy]; simp [hm])
  -- the insertion
  obtain ⟨g1, h1, _, hh⟩ := h.holds.insert (A := A) s p
  have hh := hh hc
  have hseg : S.segs (insertAt S.segs d.text s p) = x ++ (S.segs s ++ y) := by
    rw [insertAt, hl, hc x y hl, List.append_assoc]
  have hn : ['\n'] ∉ S.segs (insertAt S.segs d.text s p) := by
    rw [hseg]; simp [hx, hy, hsn]
  let b1 : Buf := ({ b with data := g1 }.report p).store (.insert s p)
  have e1 : exec S A b (.insert s) = .ok b1 := by
    simp only [exec, Buf.insert, runOp, hp, h1, Except.ok_bind']; rfl
  have hb1 : b1.data = g1 ∧ b1.group = none ∧ b1.history = b.history.add (.simple (.insert s p)) := by
    refine ⟨?_, ?_, ?_⟩
    · show (store _ _).data = g1
      unfold store Buf.report; split <;> split <;> rfl
    · show (store _ _).group = none
      unfold store; rw [report_group]; simp only [hg]
    · show (store _ _).history = _
      unfold store; rw [report_group]; simp only [hg]; rw [report_history]
  -- the end computed by undo
  obtain ⟨l, hlast⟩ : ∃ l, (splitNl s).getLast? = some l :=
    ⟨_, List.getLast?_eq_some_getLast (splitNl_ne_nil s)⟩
  have hcount : countNl s ≠ 0 := by
    intro h0
    rcases line_cases s with h' | ⟨u, v, _, rfl⟩
    · exact h' hnl
    · rw [countNl_append, countNl_nl] at h0; omega
  have hend : insertEnd S s p = .ok (some ⟨p.line + countNl s, (S.segs l).length⟩) := by
    unfold insertEnd
    simp only
    rw [subU, if_pos (by omega), Except.ok_bind', if_neg (by omega), hlast]
    rfl
  have hpl : p.line = 0 := by rw [← hxp, endPos_line_zero hx]
  have hle : AtOrBefore p ⟨p.line + countNl s, (S.segs l).length⟩ := Or.inl (by simp only; omega)
  have hrange : Range.new p ⟨p.line + countNl s, (S.segs l).length⟩ = ⟨p, ⟨p.line + countNl s, (S.segs l).length⟩⟩ := by
    rw [range_new]
    have : lo p ⟨p.line + countNl s, (S.segs l).length⟩ = p := if_pos hle
    have h2 : hi p ⟨p.line + countNl s, (S.segs l).length⟩ = ⟨p.line + countNl s, (S.segs l).length⟩ := if_pos hle
    rw [this, h2]
  obtain ⟨g2, h2, ht2, _⟩ := hh.delete ⟨p, ⟨p.line + countNl s, (S.segs l).length⟩⟩ hle
  have hres : Spec.deleteRange S.segs (insertAt S.segs d.text s p) p ⟨p.line + countNl s, (S.segs l).length⟩ = x.flatten := by
    unfold Spec.deleteRange
    rw [show locate (S.segs (insertAt S.segs d.text s p)) p = some (x, S.segs s ++ y) from locate_eq_some.mpr ⟨hseg, hxp⟩]
    simp only
    unfold afterEnd
    rw [locate_fresh_line hn (by simp only; omega), locate_fresh_line hn (by simp only; omega)]
    simp
  rw [hres] at ht2
  let b2 : Buf := { b1 with
      group := none
      history := ⟨b.history.previous, [.simple (.insert s p)], (b.history.add (.simple (.insert s p))).mark⟩ }
  refine ⟨{ b2 with data := g2 }.report p, ?_, ?_⟩
  · simp only [execAll, e1, Except.ok_bind']
    have : exec S A b1 .undo = reverseOp S A b2 (.insert s p) := by
      simp only [exec, undo, hb1.2.1, hb1.2.2, History.add, History.back, reverseAny]; rfl
    rw [this]
    simp only [reverseOp, hend, Except.ok_bind', hrange]
    rw [show b2.data = g1 from hb1.1, h2]
    rfl
  · have : ({ b2 with data := g2 }.report p).data = g2 := by unfold Buf.report; split <;> rfl
    rw [this]; exact ht2

/-- "a⏎b" with CRLF typed before "xyz", undone: everything is gone. -/
example : (execAll Demo.seg Demo.tight (Buf.fromContent Demo.tight 0 (Demo.s "xyz")) [.insert (Demo.s "a\r\nb"), .undo] >>= fun b => b.data.toStr) =
    .ok [] := by decide +kernel

/-! ### C53 -/

/-- **C53.** Edits made while a group is open stay out of the history until the group is closed: they do not discard the redo history and do not
change what `modified` says. In every state, clean or not. -/
theorem C53_pending_edits (S : Segmenter) (A : Alloc) (b b' : Buf) (c : Cmd) (t : Text) (ops : List SOp) (hg : b.group = some ops)
    (ht : b.data.toStr = .ok t) (he : Edits t c) (hr : ∀ x, c ≠ .reload x) (h : exec S A b c = .ok b') :
    b'.history = b.history ∧ b'.modified = b.modified ∧ ∃ op, b'.group = some (ops ++ [op]) := by
  obtain ⟨b1, op, h1, h2, rfl⟩ := edit_stores ht he hr h
  have e : store b1 op = { b1 with group := some (ops ++ [op]) } := by unfold store; rw [h1, hg]
  rw [e]
  refine ⟨h2, ?_, op, rfl⟩
  show (!b1.history.atMark) = !b.history.atMark
  rw [h2]

/-- So a buffer with unsaved pending edits is reported as unmodified … -/
example : (execAll Demo.seg Demo.tight (Buf.fromContent Demo.tight 0 (Demo.s "xyz")) [.startGroup, .insert (Demo.s "a")] >>= fun b => .ok b.modified) =
    .ok false := by decide +kernel
/-- … saving inside a group and then closing and undoing it leaves an unmodified buffer that differs from the file (which holds "ab") … -/
example : (execAll Demo.seg Demo.tight (Buf.fromContent Demo.tight 0 (Demo.s "b")) [.startGroup, .insert (Demo.s "a"), .saved, .endGroup, .undo] >>=
    fun b => b.data.toStr >>= fun t => .ok (b.modified, t)) = .ok (false, Demo.s "b") := by decide +kernel
/-- … and redo inside a group mixes an undone edit into it: afterwards undo gives "bqxyz", a text that never existed before. -/
example : (execAll Demo.seg Demo.tight (Buf.fromContent Demo.tight 0 (Demo.s "xyz"))
    [.insert (Demo.s "ab"), .undo, .startGroup, .insert (Demo.s "q"), .redo, .undo] >>= fun b => b.data.toStr) =
    .ok (Demo.s "bqxyz") := by decide +kernel

/-! ### C54 -/

theorem delete_nothing {S : Segmenter} {t : Text} {p q : Position} (h : NothingAhead S.segs t p) (hpq : AtOrBefore p q) :
    Spec.deleteRange S.segs t p q = t := by
  unfold Spec.deleteRange
  cases hl : locate (S.segs t) p with
  | none => rfl
  | some x =>
    obtain ⟨a, c⟩ := x
    obtain ⟨hab, hpa⟩ := locate_eq_some.mp hl
    have hc : c = [] := by
      rcases h with h | h
      · rw [exists?, hl] at h; cases h
      · by_contra hne
        have := endPos_lt_append a hne
        rw [← hab, ← h, hpa] at this
        exact Before.irrefl _ this
    subst hc
    obtain ⟨z, hz⟩ := GapBuffer.afterEnd_suffix (cs := S.segs t) (q := q)
    have hz' : afterEnd (S.segs t) q = [] := by
      by_contra hne
      -- the suffix would start strictly before the end of the text, hence before `p`
      have hlt : Before (endPos z) (endPos (S.segs t)) := by
        have := endPos_lt_append z hne; rw [← hz] at this; exact this
      have hpe : p = endPos (S.segs t) := by rw [hab, List.append_nil, hpa]
      unfold afterEnd at hz hne
      cases h2 : locate (S.segs t) q with
      | some y =>
        obtain ⟨u, v⟩ := y
        obtain ⟨huv, hq⟩ := locate_eq_some.mp h2
        rw [h2] at hne
        have := endPos_lt_append u (show v ≠ [] from hne)
        rw [← huv, ← hpe, hq] at this
        exact Before.irrefl _ (this.trans_le hpq)
      | none =>
        rw [h2] at hne
        simp only at hne
        cases h3 : locate (S.segs t) ⟨q.line + 1, 0⟩ with
        | none => rw [h3] at hne; exact hne rfl
        | some y =>
          obtain ⟨u, v⟩ := y
          obtain ⟨huv, hq⟩ := locate_eq_some.mp h3
          rw [h3] at hne
          have := endPos_lt_append u (show v ≠ [] from hne)
          rw [← huv, ← hpe, hq] at this
          have : AtOrBefore q p → False := by
            intro _; unfold AtOrBefore at *; unfold Before at this; simp only at this; omega
          unfold AtOrBefore at *; unfold Before at *; simp only at *; omega
    simp only [hz', List.flatten_nil, List.append_nil]
    have := S.join t
    rw [hab, List.append_nil] at this; exact this

/-- **C54.** Edits without effect still count: `delete` with nothing after the cursor, and `insert` with the cursor out of bounds, leave the
contents unchanged but add an undo step, discard the redo history and make the buffer modified. -/
theorem C54_ineffective_edits_count (S : Segmenter) (A : Alloc) (b : Buf) (d : Doc) (c : Cmd) (h : Reached S A b d) (hg : b.group = none)
    (hc : (c = .delete ∧ NothingAhead S.segs d.text b.cursor.position) ∨
      (∃ s, c = .insert s) ∧ exists? S.segs d.text b.cursor.position = false) :
    ∃ b', exec S A b c = .ok b' ∧ b'.data.toStr = b.data.toStr ∧ b'.history.previous.length = b.history.previous.length + 1 ∧
      b'.history.next = [] ∧ b'.modified = true := by
  have hed : Edits d.text c := by rcases hc with ⟨rfl, _⟩ | ⟨⟨s, rfl⟩, _⟩ <;> trivial
  have hr : ∀ x, c ≠ .reload x := by rcases hc with ⟨rfl, _⟩ | ⟨⟨s, rfl⟩, _⟩ <;> intro x hx <;> cases hx
  have hts := h.holds.toStr
  have main : ∃ b', exec S A b c = .ok b' ∧ b'.data.toStr = .ok d.text := by
    rcases hc with ⟨rfl, hn⟩ | ⟨⟨s, rfl⟩, hn⟩
    · let stop := Doc.deleteEnd S.segs d.text b.cursor.position
      have hle : AtOrBefore b.cursor.position stop := le_deleteEnd _ _ _
      have hnew : Range.new b.cursor.position stop = ⟨b.cursor.position, stop⟩ := by
        rw [range_new, show lo b.cursor.position stop = b.cursor.position from if_pos hle, show hi b.cursor.position stop = stop from if_pos hle]
      obtain ⟨g', hd, ht', _⟩ := h.holds.delete ⟨b.cursor.position, stop⟩ hle
      rw [delete_nothing hn hle] at ht'
      have e : exec S A b .delete = Buf.deleteRange S A b (Range.new b.cursor.position stop) := by
        simp only [exec, delete, h.holds.inBounds, Except.ok_bind']
        congr 2
        show _ = Doc.deleteEnd S.segs d.text b.cursor.position
        unfold Doc.deleteEnd
        cases exists? S.segs d.text ⟨b.cursor.position.line, b.cursor.position.offset + 1⟩ <;> rfl
      rw [e, hnew]
      simp only [Buf.deleteRange, runOp, h.holds.read ⟨b.cursor.position, stop⟩ hle, hd, Except.ok_bind']
      refine ⟨_, rfl, ?_⟩
      rw [← ht']
      congr 1
      unfold store Buf.report; split <;> split <;> rfl
    · obtain ⟨g', hi, ht', _⟩ := h.holds.insert (A := A) s b.cursor.position
      have : insertAt S.segs d.text s b.cursor.position = d.text := by
        unfold insertAt
        cases hl : locate (S.segs d.text) b.cursor.position with
        | none => rfl
        | some x => rw [exists?, hl] at hn; cases hn
      rw [this] at ht'
      simp only [exec, Buf.insert, runOp, hi, Except.ok_bind']
      refine ⟨_, rfl, ?_⟩
      rw [← ht']
      congr 1
      unfold store Buf.report; split <;> split <;> rfl
  obtain ⟨b', e, ht'⟩ := main
  refine ⟨b', e, by rw [ht', hts], ?_, (C15_edit_clears_redo S A b b' c d.text hg hts hed hr e).1, C19_edit_modifies S A b b' c d.text hg hts hed hr e⟩
  obtain ⟨b1, op, h1, h2, rfl⟩ := edit_stores hts hed hr e
  unfold store
  rw [h1, hg]
  simp only [History.add, h2, List.length_cons]

/-- Delete at the end of a freshly loaded text. -/
example : (execAll Demo.seg Demo.tight (Buf.fromContent Demo.tight 0 (Demo.s "ab")) [.insert (Demo.s "x"), .undo, .move .endOfLine, .delete] >>=
    fun b => b.data.toStr >>= fun t => .ok (b.modified, t, b.history.next.length)) = .ok (true, Demo.s "ab", 0) := by decide +kernel

end Scribe.Props
