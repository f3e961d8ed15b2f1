import Verif.Spec.Doc
import Verif.Proofs.GapRun
import Verif.Proofs.Cursor
/-! Running and reversing one operation. -/
namespace Scribe
open Spec
variable {S : Segmenter} {A : Alloc}

theorem Segmenter.segs_line' {l r : Text} (h : '\n' ∉ l) (hcr : ['\r', '\n'] ∉ S.segs (l ++ '\n' :: r)) :
    S.segs (l ++ '\n' :: r) = S.segs l ++ ['\n'] :: S.segs r := by
  have hj := S.join (l ++ '\n' :: r)
  have hex : ∃ c ∈ S.segs (l ++ '\n' :: r), '\n' ∈ c := by
    have : '\n' ∈ (S.segs (l ++ '\n' :: r)).flatten := by rw [hj]; simp
    obtain ⟨c, h1, h2⟩ := List.mem_flatten.mp this
    exact ⟨c, h1, h2⟩
  obtain ⟨a, c, b, hs, hc, ha⟩ := first_split (fun c : Text => '\n' ∈ c) hex
  have hafl : '\n' ∉ a.flatten := by
    intro hm
    obtain ⟨y, h1, h2⟩ := List.mem_flatten.mp hm
    exact ha y h1 h2
  have hcc : c = ['\n'] := by
    rcases S.newline _ c (by rw [hs]; simp) hc with h' | h'
    · exact h'
    · exact absurd (by rw [hs, h']; simp) hcr
  subst hcc
  rw [hs, List.flatten_append, List.flatten_cons] at hj
  obtain ⟨h1, h2⟩ := append_cons_inj hafl h hj
  have k1 := S.cut_left hs
  have k2 : S.segs (['\n'] :: b).flatten = [['\n']] ++ b := S.cut_right hs
  have k3 := S.cut_right k2
  rw [h1] at k1
  rw [show b.flatten = r from h2] at k3
  rw [hs, k1, k3]

/-- The end of a text, computed line by line as `Insert::reverse` does. -/
theorem endPos_lines {s : Text} (hcr : ['\r', '\n'] ∉ S.segs s) :
    (endPos (S.segs s)).line = countNl s ∧
      ∃ l, (splitNl s).getLast? = some l ∧ (endPos (S.segs s)).offset = (S.segs l).length ∧
        (countNl s = 0 → l = s) := by
  induction s using lines_induction with
  | h1 l h =>
    rw [endPos_line_zero (S.nl_notMem h), splitNl_no_nl h, countNl_zero h]
    exact ⟨rfl, l, rfl, rfl, fun _ => rfl⟩
  | h2 l r h ih =>
    have hs := S.segs_line' h hcr
    rw [hs] at hcr
    obtain ⟨h1, x, h2, h3, _⟩ := ih (fun hm => hcr (by simp [hm]))
    rw [hs, endPos_after_nl (S.nl_notMem h), splitNl_append h, countNl_append, countNl_zero h, countNl_nl]
    refine ⟨by simp [h1], x, ?_, h3, by omega⟩
    rw [List.getLast?_cons, h2]; rfl

theorem insertEnd_eq {s : Text} (hcr : ['\r', '\n'] ∉ S.segs s) (p : Position) :
    Buf.insertEnd S s p = .ok (some (advance p (S.segs s))) := by
  obtain ⟨h1, l, h2, h3, h4⟩ := endPos_lines hcr
  unfold Buf.insertEnd
  simp only
  rw [subU, if_pos (by omega), Except.ok_bind', h2]
  unfold advance
  simp only [h1, h3]
  by_cases h0 : countNl s = 0
  · rw [h4 h0, h0]; rfl
  · rw [if_neg (by omega), if_neg h0]
    simp; rfl

theorem advance_append (a cs : List Text) : advance (endPos a) cs = endPos (a ++ cs) := by
  rw [endPos_append_eq]; rfl

theorem le_advance (p : Position) (cs : List Text) : AtOrBefore p (advance p cs) := by
  unfold advance AtOrBefore
  simp only
  split
  · right; simp
  · left; simp; omega

/-- Undoing an insertion: deleting from `p` to `p` advanced by `s`. -/
theorem undo_insert {t s : Text} {p : Position} (hc : CleanInsert S.segs t s p) :
    CleanDelete S.segs (insertAt S.segs t s p) p (advance p (S.segs s)) ∧
      deleteRange S.segs (insertAt S.segs t s p) p (advance p (S.segs s)) = t := by
  cases hl : locate (S.segs t) p with
  | none =>
    have e : insertAt S.segs t s p = t := by rw [insertAt, hl]
    rw [e]
    refine ⟨?_, by rw [deleteRange, hl]⟩
    intro a b h; rw [hl] at h; cases h
  | some x =>
    obtain ⟨a, b⟩ := x
    have e : insertAt S.segs t s p = a.flatten ++ s ++ b.flatten := by rw [insertAt, hl]
    obtain ⟨hab, hp⟩ := locate_eq_some.mp hl
    have hseg := hc a b hl
    have h1 : locate (S.segs (a.flatten ++ s ++ b.flatten)) p = some (a, S.segs s ++ b) :=
      locate_eq_some.mpr ⟨by rw [hseg, List.append_assoc], hp⟩
    have h2 : locate (S.segs (a.flatten ++ s ++ b.flatten)) (advance p (S.segs s)) = some (a ++ S.segs s, b) :=
      locate_eq_some.mpr ⟨hseg, by rw [← hp, advance_append]⟩
    have h3 : afterEnd (S.segs (a.flatten ++ s ++ b.flatten)) (advance p (S.segs s)) = b := by rw [afterEnd, h2]
    have ht : a.flatten ++ b.flatten = t := by rw [← List.flatten_append, ← hab, S.join]
    rw [e]
    constructor
    · intro a' b' h'
      rw [h1] at h'
      obtain ⟨rfl, rfl⟩ := Prod.mk.inj (Option.some.inj h')
      rw [h3, ht, hab]
    · rw [deleteRange, h1]
      simp only
      rw [h3, ht]

/-- Undoing a deletion whose ends exist: inserting what was read. -/
theorem undo_delete {t d : Text} {p q : Position} (hpq : AtOrBefore p q) (hc : CleanDelete S.segs t p q)
    (hr : readRange S.segs t p q = some d) :
    CleanInsert S.segs (deleteRange S.segs t p q) d p ∧ insertAt S.segs (deleteRange S.segs t p q) d p = t := by
  unfold readRange at hr
  cases hl : locate (S.segs t) p with
  | none => rw [hl] at hr; cases hr
  | some x =>
    cases hl2 : locate (S.segs t) q with
    | none => rw [hl, hl2] at hr; cases hr
    | some y =>
      obtain ⟨a, b⟩ := x
      obtain ⟨a', b'⟩ := y
      rw [hl, hl2] at hr
      obtain ⟨c, rfl, rfl⟩ := locate_mono hl hl2 hpq
      simp at hr
      subst hr
      obtain ⟨hab, hp⟩ := locate_eq_some.mp hl
      have h3 : afterEnd (S.segs t) q = b' := by rw [afterEnd, hl2]
      have hseg := hc a _ hl
      rw [h3] at hseg
      have e : deleteRange S.segs t p q = a.flatten ++ b'.flatten := by rw [deleteRange, hl]; simp only; rw [h3]
      have h4 : locate (S.segs (a.flatten ++ b'.flatten)) p = some (a, b') := locate_eq_some.mpr ⟨hseg, hp⟩
      have ht : a.flatten ++ c.flatten ++ b'.flatten = t := by
        rw [← S.join t, hab]; simp
      have hcseg : S.segs c.flatten = c := S.cut_left (S.cut_right hab)
      rw [e]
      constructor
      · intro x y hxy
        rw [h4] at hxy
        obtain ⟨rfl, rfl⟩ := Prod.mk.inj (Option.some.inj hxy)
        rw [ht, hab, hcseg, List.append_assoc]
      · rw [insertAt, h4]; exact ht

theorem readRange_isSome (segs : Text → List Text) (t : Text) (p q : Position) :
    (readRange segs t p q).isSome = (exists? segs t p && exists? segs t q) := by
  unfold readRange exists?
  cases locate (segs t) p <;> cases locate (segs t) q <;> rfl

/-- A clean deletion without saved content changed nothing. -/
theorem cleanRange_none {t : Text} {p q : Position} (hc : CleanRange S.segs t p q) (hr : readRange S.segs t p q = none) :
    deleteRange S.segs t p q = t := by
  rcases hc.2 with h | h
  · have := readRange_isSome S.segs t p q
    rw [hr, h] at this
    simp at this
    unfold exists? at this
    unfold deleteRange
    cases hl : locate (S.segs t) p with
    | none => rfl
    | some x => rw [hl] at this; simp at this
  · exact h

/-- Texts, cursors and callbacks agree. -/
structure Face (S : Segmenter) (b : Buf) (d : Doc) : Prop where
  data : Holds S b.data d.text
  cursor : b.cursor = d.cursor
  callback : b.callback = d.callback
  log : b.log = d.log

theorem Face.report {b : Buf} {d : Doc} (h : Face S b d) (p : Position) : Face S (b.report p) (d.report (some p)) := by
  unfold Buf.report Doc.report
  simp only [h.callback]
  split
  · exact ⟨h.data, h.cursor, rfl, by simp [h.log]⟩
  · exact h

/-- An operation performs an edit. -/
inductive SRel (S : Segmenter) : SOp → Edit → Prop
  | insert (t s : Text) (p : Position) (hc : CleanInsert S.segs t s p) (hcr : ['\r', '\n'] ∉ S.segs s) :
    SRel S (.insert s p) (Doc.insertEdit S.segs t s p)
  | delete (t : Text) (r : Range) (hr : AtOrBefore r.start r.stop) (hc : CleanRange S.segs t r.start r.stop) :
    SRel S (.delete (readRange S.segs t r.start r.stop) r) (Doc.deleteEdit S.segs t r.start r.stop)
  | replace (t s : Text) : SRel S (.replace t s) (Doc.replaceEdit t s)

theorem report_history (b : Buf) (p : Position) : (b.report p).history = b.history := by unfold Buf.report; split <;> rfl
theorem report_group (b : Buf) (p : Position) : (b.report p).group = b.group := by unfold Buf.report; split <;> rfl

theorem replaceContent_sim {b : Buf} {d : Doc} (h : Face S b d) (t : Text) :
    ∃ b', Buf.replaceContent S A t b = .ok b' ∧ Face S b' ((d.setText S.segs t true).report (some ⟨0, 0⟩)) ∧
      b'.history = b.history ∧ b'.group = b.group := by
  have hn : Holds S (GapBuffer.new A b.data.clock t) t := GapBuffer.holds_new _ _
  have key : ∀ c, c = placeCursor S.segs t d.cursor.position →
      Face S (({ b with data := GapBuffer.new A b.data.clock t, cursor := c } : Buf).report Position.new)
        ((d.setText S.segs t true).report (some ⟨0, 0⟩)) := by
    intro c hc
    exact Face.report (b := { b with data := GapBuffer.new A b.data.clock t, cursor := c }) (d := d.setText S.segs t true) ⟨hn, hc, h.callback, h.log⟩ _
  unfold Buf.replaceContent
  simp only [Cursor.moveTo_holds hn, Except.ok_bind']
  rw [h.cursor]
  by_cases h1 : exists? S.segs t d.cursor.position = true
  · simp only [h1, if_true]
    refine ⟨_, rfl, key _ ?_, report_history _ _, report_group _ _⟩
    rw [placeCursor, if_pos h1]
  · by_cases h2 : exists? S.segs t ⟨d.cursor.position.line, 0⟩ = true
    · simp only [h1, h2, if_true]
      refine ⟨_, rfl, key _ ?_, report_history _ _, report_group _ _⟩
      rw [placeCursor, if_neg h1, if_pos h2]
    · simp only [h1, h2]
      refine ⟨_, rfl, key _ ?_, report_history _ _, report_group _ _⟩
      rw [placeCursor, if_neg h1, if_neg h2]
      rfl

/-- Running an operation. -/
theorem runOp_sim {b : Buf} {d : Doc} {op : SOp} {e : Edit} (h : Face S b d) (hop : SRel S op e) (ht : d.text = e.before) :
    ∃ b', Buf.runOp S A b op = .ok (b', op) ∧ Face S b' (d.apply S.segs e) ∧ b'.history = b.history ∧ b'.group = b.group := by
  cases hop with
  | insert t s p hc hcr =>
    have hd : Holds S b.data t := by have := h.data; rw [ht] at this; exact this
    obtain ⟨g', h1, _, h2⟩ := hd.insert (A := A) s p
    simp only [Buf.runOp, h1, Except.ok_bind']
    refine ⟨_, rfl, ?_, report_history _ _, report_group _ _⟩
    exact Face.report (b := { b with data := g' }) (d := d.setText S.segs (insertAt S.segs t s p) false) ⟨h2 hc, h.cursor, h.callback, h.log⟩ p
  | delete t r hr hc =>
    have hd : Holds S b.data t := by have := h.data; rw [ht] at this; exact this
    obtain ⟨g', h1, _, h2⟩ := hd.delete r hr
    simp only [Buf.runOp, hd.read r hr, h1, Except.ok_bind']
    refine ⟨_, rfl, ?_, report_history _ _, report_group _ _⟩
    exact Face.report (b := { b with data := g' }) (d := d.setText S.segs (deleteRange S.segs t r.start r.stop) false) ⟨h2 hc.1, h.cursor, h.callback, h.log⟩ r.start
  | replace t s =>
    obtain ⟨b', h1, h2, h3, h4⟩ := replaceContent_sim (A := A) h s
    simp only [Buf.runOp, h1, Except.ok_bind']
    exact ⟨b', rfl, h2, h3, h4⟩

/-- Reversing an operation. -/
theorem reverseOp_sim {b : Buf} {d : Doc} {op : SOp} {e : Edit} (h : Face S b d) (hop : SRel S op e) (ht : d.text = e.after) :
    ∃ b', Buf.reverseOp S A b op = .ok b' ∧ Face S b' (d.revert S.segs e) ∧ b'.history = b.history ∧ b'.group = b.group := by
  cases hop with
  | insert t s p hc hcr =>
    have hd : Holds S b.data (insertAt S.segs t s p) := by have := h.data; rw [ht] at this; exact this
    obtain ⟨k1, k2⟩ := undo_insert hc
    have hr : Range.new p (advance p (S.segs s)) = ⟨p, advance p (S.segs s)⟩ := range_new_of_le (le_advance _ _)
    obtain ⟨g', h1, _, h2⟩ := hd.delete ⟨p, advance p (S.segs s)⟩ (le_advance _ _)
    have h3 := h2 k1
    simp only [k2] at h3
    simp only [Buf.reverseOp, insertEnd_eq hcr, Except.ok_bind', hr, h1]
    refine ⟨_, rfl, ?_, report_history _ _, report_group _ _⟩
    exact Face.report (b := { b with data := g' }) (d := d.setText S.segs t false) ⟨h3, h.cursor, h.callback, h.log⟩ p
  | delete t r hr hc =>
    have hd : Holds S b.data (deleteRange S.segs t r.start r.stop) := by have := h.data; rw [ht] at this; exact this
    have hiff := readRange_isSome S.segs t r.start r.stop
    cases hread : readRange S.segs t r.start r.stop with
    | none =>
      rw [hread] at hiff
      have e0 := cleanRange_none hc hread
      refine ⟨b, rfl, ?_, rfl, rfl⟩
      have : d.revert S.segs (Doc.deleteEdit S.segs t r.start r.stop) = d := by
        unfold Doc.revert Doc.setText Doc.deleteEdit
        rw [← hiff]
        simp [Doc.report]
        have : t = d.text := by rw [ht, ← e0]; simp [Doc.deleteEdit, e0]
        rw [this]
      rw [this]; exact h
    | some x =>
      rw [hread] at hiff
      obtain ⟨k1, k2⟩ := undo_delete hr hc.1 hread
      obtain ⟨g', h1, _, h2⟩ := hd.insert (A := A) x r.start
      have h3 := h2 k1
      rw [k2] at h3
      simp only [Buf.reverseOp, h1, Except.ok_bind']
      refine ⟨_, rfl, ?_, report_history _ _, report_group _ _⟩
      have : (Doc.deleteEdit S.segs t r.start r.stop).undoAt = some r.start := by
        unfold Doc.deleteEdit; rw [← hiff]; rfl
      unfold Doc.revert
      rw [this]
      exact Face.report (b := { b with data := g' }) (d := d.setText S.segs t false) ⟨h3, h.cursor, h.callback, h.log⟩ r.start
  | replace t s =>
    obtain ⟨b', h1, h2, h3, h4⟩ := replaceContent_sim (A := A) h t
    exact ⟨b', h1, h2, h3, h4⟩

end Scribe
