import Verif.Proofs.Windows
import Verif.Props.Ordinary
import Verif.Props.Findings
/-!
# Property C100: files with CRLF line ends

CRLF is one cluster and no line break for positions (C51), and pasting text that contains it cannot be undone (C52). Here: a file with CRLF
line ends can be edited with everything C12–C19 promise, as long as nothing *inserted* contains CRLF. And, for a paste that does contain it,
exactly what undo leaves.
-/
namespace Scribe.Props
open Spec Buf

/-- **C100.** Ordinary clusters and CRLFs put side by side never merge, for every Unicode table. -/
theorem C100_crlf_clusters (T : Uax29.Table) (cs : List Text) (h : ∀ c ∈ cs, Uax29.Ordinary T.cls c ∨ c = ['\r', '\n']) :
    (Uax29.segmenter T).segs cs.flatten = cs := (Uax29.ordinary_crlfClosed T).apart cs h

/-- C100: gap buffers holding such text. Whatever is inserted (CRLF included) and deleted, everything observable is what the plain text gives. -/
theorem C100_gap_buffer (S : Segmenter) (P : Text → Prop) (hP : CrlfClosed S.segs P) (A : Alloc) (k : Nat) (t : Text)
    (cs : List GapBuffer.Call) (ht : Over S.segs (OrCrlf P) t) (hs : ∀ s ∈ inserted cs, Over S.segs (OrCrlf P) s) :
    ∃ g, GapBuffer.run S A (GapBuffer.new A k t) cs = .ok ((runText S.segs t cs).1, g) ∧
      GapBuffer.toStr g = .ok (runText S.segs t cs).2 ∧ Over S.segs (OrCrlf P) (runText S.segs t cs).2 := by
  have key : ∀ (cs : List GapBuffer.Call) (t : Text), Over S.segs (OrCrlf P) t → (∀ s ∈ inserted cs, Over S.segs (OrCrlf P) s) →
      CleanCalls S.segs t cs ∧ Over S.segs (OrCrlf P) (runText S.segs t cs).2 := by
    intro cs
    induction cs with
    | nil => intro t ht _; exact ⟨trivial, ht⟩
    | cons c cs ih =>
      intro t ht hs
      have h1 : CleanCall S.segs t c ∧ Over S.segs (OrCrlf P) (callText S.segs t c).2 := by
        cases c with
        | insert s p =>
          have h := hs s (by simp [inserted])
          exact ⟨apart_cleanInsert hP.apart p ht h, apart_insertAt hP.apart p ht h⟩
        | delete p q => exact ⟨apart_cleanDelete hP.apart _ _ ht, apart_deleteRange hP.apart _ _ ht⟩
        | _ => exact ⟨trivial, ht⟩
      have h2 := ih _ h1.2 (fun s h => hs s (by cases c <;> simp [inserted, h]))
      exact ⟨⟨h1.1, h2.1⟩, h2.2⟩
  obtain ⟨hc, ho⟩ := key cs t ht hs
  obtain ⟨g, h1, h2⟩ := GapBuffer.run_holds (A := A) (GapBuffer.holds_new (A := A) k t) cs hc
  exact ⟨g, h1, h2.toStr, ho⟩

/-- C100: sequences of such calls satisfy the assumptions of C12–C19 and C25. -/
theorem C100_is_clean (S : Segmenter) (P : Text → Prop) (hP : CrlfClosed S.segs P) (A : Alloc) (b : Buf) (d : Doc) (t : Text)
    (cs : List Cmd) (h0 : Start A b d t) (ht : Over S.segs (OrCrlf P) t) (hc : WindowsCmds S.segs P d cs) : CleanCmds S.segs d cs :=
  (windows_steps hP (h0.over ht) cs hc).1

theorem windowsTyping_weak {segs : Text → List Text} {P : Text → Prop} {c : Cmd} (h : WindowsTyping segs P c) :
    TypingCmd segs (OrCrlf P) c := by
  cases c <;> first | exact h | exact fun x hx => Or.inl (h x hx)

theorem windowsTyping_cmds {segs : Text → List Text} {P : Text → Prop} (cs : List Cmd) {d : Doc} (hg : d.group = none)
    (hc : ∀ c ∈ cs, WindowsTyping segs P c) : WindowsCmds segs P d cs := by
  induction cs generalizing d with
  | nil => trivial
  | cons c cs ih =>
    have h1 := hc c (by simp)
    refine ⟨?_, ih (typing_group hg (windowsTyping_weak h1)) (fun x hx => hc x (by simp [hx]))⟩
    cases c <;> first | exact h1 | exact Or.inr (Or.inl hg) | cases h1

/-- C100: an editing session on a file with CRLF line ends. Any sequence of insertions of text without CRLF, deletions at the cursor,
replacements, undo, redo, movements, cursor assignments, saves and reloads runs without panic; the contents are the present of the snapshot
history; undoing often enough brings back the initial text; if `modified` is false the contents are what is on disk; and no CRLF is ever torn
apart: every CR is followed by LF. -/
theorem C100_editing_session (S : Segmenter) (P : Text → Prop) (hP : CrlfClosed S.segs P) (hcr : ∀ c, P c → '\r' ∉ c) (A : Alloc) (b0 : Buf) (d0 : Doc)
    (t0 : Text) (cs : List Cmd) (h0 : Start A b0 d0 t0) (ht : Over S.segs (OrCrlf P) t0) (hc : ∀ c ∈ cs, WindowsTyping S.segs P c) :
    (∃ b, execAll S A b0 cs = .ok b ∧ b.data.toStr = .ok (snaps S.segs d0 (Snap.new t0) cs).present ∧
      CrPaired (snaps S.segs d0 (Snap.new t0) cs).present ∧
      (b.modified = false → ∃ t, lastSync S.segs d0 (if b0.modified then none else some t0) cs = some t ∧ b.data.toStr = .ok t)) ∧
    ∀ n, cs.length ≤ n → ∃ b, execAll S A b0 (cs ++ List.replicate n .undo) = .ok b ∧ b.data.toStr = .ok t0 := by
  have hg : d0.group = none := by cases h0 <;> rfl
  obtain ⟨_, hs, hgn⟩ := typing_ordinary cs hg fun c h => windowsTyping_weak (hc c h)
  obtain ⟨hcl, hov⟩ := windows_steps hP (h0.over ht) cs (windowsTyping_cmds cs hg hc)
  obtain ⟨b, h1, h2⟩ := (h0.tri (S := S)).execAll (A := A) cs hcl
  have hpr : (snaps S.segs d0 (Snap.new t0) cs).present = (d0.steps S.segs cs).text :=
    Except.ok.inj (h2.data.symm.trans h2.sim.face.data.toStr)
  refine ⟨⟨b, h1, h2.data, ?_, fun hm => ?_⟩, fun n hn => C13_undo_everything S A b0 d0 t0 cs n h0 hcl hn⟩
  · rw [hpr]; exact over_paired hcr hov.text
  · refine C18_unmodified_is_on_disk S A b0 b d0 t0 cs h0 hcl hs h1 hm ?_
    have := h2.sim.group
    rw [hgn] at this
    left
    cases hb : b.group with
    | none => rfl
    | some x => rw [hb] at this; cases this

/-- C100: `delete` with the cursor before a CRLF removes both characters, and undo brings both back. -/
theorem C100_delete_crlf (S : Segmenter) (P : Text → Prop) (hP : CrlfClosed S.segs P) (hcr : ∀ c, P c → '\r' ∉ c) (A : Alloc) (b : Buf) (d : Doc)
    (x y : Text) (h : Reached S A b d) (hg : b.group = none) (ht : Over S.segs (OrCrlf P) d.text)
    (hp : PlaceIn (S.segs d.text) b.cursor.position x ('\r' :: '\n' :: y)) :
    (∃ b', exec S A b .delete = .ok b' ∧ b'.data.toStr = .ok (x ++ y) ∧ b'.cursor = b.cursor) ∧
    ∃ b', execAll S A b [.delete, .undo] = .ok b' ∧ b'.data.toStr = .ok (x ++ '\r' :: '\n' :: y) := by
  obtain ⟨sn, hsn⟩ := h.tri
  obtain ⟨a, c, hab, rfl, hpost, hpos⟩ := hp
  rw [hsn.sim.face.cursor] at hpos
  have htext : d.text = a.flatten ++ '\r' :: '\n' :: y := by rw [← S.join d.text, hab, List.flatten_append, hpost]
  cases c with
  | nil => cases hpost
  | cons z c =>
    have hz : z = ['\r', '\n'] := by
      rcases ht z (by rw [hab]; simp) with h1 | h1
      · exfalso
        have hne := S.nonempty d.text z (by rw [hab]; simp)
        cases z with
        | nil => exact hne rfl
        | cons u z =>
          simp only [List.flatten_cons, List.cons_append, List.cons.injEq] at hpost
          exact hcr _ h1 (by rw [← hpost.1]; simp)
      · exact h1
    subst hz
    have hy : c.flatten = y := by simpa using hpost.symm
    have hcl : CleanCmd S.segs d .delete := apart_cleanDelete hP.apart _ _ ht
    have e1 : (d.step S.segs .delete).text = a.flatten ++ y ∧ (d.step S.segs .delete).cursor = d.cursor := by
      obtain ⟨k1, k2⟩ := step_edit S.segs d
        (Doc.deleteEdit S.segs d.text d.cursor.position (Doc.deleteEnd S.segs d.text d.cursor.position)) rfl
      refine ⟨?_, k2⟩
      show (d.edit _ _).text = _
      rw [k1]
      show Spec.deleteRange _ _ _ _ = _
      rw [← hpos, delete_one hab, List.flatten_append, hy]
    refine ⟨?_, ?_⟩
    · obtain ⟨b', f1, f2⟩ := hsn.execAll (A := A) [.delete] ⟨hcl, trivial⟩
      have f1' : exec S A b .delete = .ok b' := by
        simp only [execAll] at f1
        cases hx : exec S A b .delete with
        | error e => rw [hx] at f1; cases f1
        | ok b1 => rw [hx] at f1; exact f1
      refine ⟨b', f1', ?_, ?_⟩
      · rw [f2.sim.face.data.toStr]; exact congrArg _ e1.1
      · rw [f2.sim.face.cursor, hsn.sim.face.cursor]; exact e1.2
    · obtain ⟨b', f1, f2, _⟩ := C12_undo_reverses S A b d .delete [] h hg hcl trivial (by simp)
      exact ⟨b', f1, by rw [f2, hsn.sim.face.data.toStr, htext]⟩

theorem locate_shift (m y : List Text) (k n : Nat) (hk : 1 ≤ k) :
    locate (m ++ y) ⟨(endPos m).line + k, n⟩ = (locate y ⟨k, n⟩).map fun ab => (m ++ ab.1, ab.2) := by
  have shift : ∀ c, (endPos c).line = k → endPos (m ++ c) = ⟨(endPos m).line + k, (endPos c).offset⟩ := by
    intro c hc
    rw [← advance_append, advance]
    simp only [hc]
    rw [if_neg (by omega)]
  cases hl : locate y ⟨k, n⟩ with
  | some ab =>
    obtain ⟨hy, he⟩ := locate_eq_some.mp (show locate y ⟨k, n⟩ = some (ab.1, ab.2) from hl)
    refine locate_eq_some.mpr ⟨by rw [hy, List.append_assoc], ?_⟩
    rw [shift _ (by rw [he]), he]
  | none =>
    refine locate_eq_none.mpr fun a b hab he => ?_
    obtain ⟨c, -, rfl, hc⟩ := split_mono_lt hab (by rw [he]; left; simp only; omega)
    refine locate_eq_none.mp hl c b hc ?_
    have hline : (endPos c).line = k := by
      have := congrArg Position.line he
      simp only [endPos, List.count_append] at this ⊢
      omega
    rw [shift c hline] at he
    cases hq : endPos c with
    | mk l o =>
      rw [hq] at he hline
      simp only [Position.mk.injEq, true_and] at he
      simp only at hline
      rw [he, hline]

theorem afterEnd_shift (m y : List Text) (k n : Nat) (hk : 1 ≤ k) :
    afterEnd (m ++ y) ⟨(endPos m).line + k, n⟩ = afterEnd y ⟨k, n⟩ := by
  unfold afterEnd
  rw [locate_shift m y k n hk]
  cases locate y ⟨k, n⟩ with
  | some ab => rfl
  | none =>
    simp only [Option.map_none]
    rw [Nat.add_assoc, locate_shift m y (k + 1) 0 (by omega)]
    cases locate y ⟨k + 1, 0⟩ <;> rfl

theorem countNl_clusters (cs : List Text) (h : ∀ c ∈ cs, '\n' ∈ c → c = ['\n'] ∨ c = ['\r', '\n']) :
    countNl cs.flatten = cs.count ['\n'] + cs.count ['\r', '\n'] := by
  induction cs with
  | nil => rfl
  | cons c cs ih =>
    rw [List.flatten_cons, countNl_append, ih fun d hd => h d (by simp [hd])]
    by_cases hc : '\n' ∈ c
    · rcases h c (by simp) hc with rfl | rfl
      · rw [List.count_cons_self, List.count_cons_of_ne (by decide)]
        rw [show countNl ['\n'] = 1 from rfl]; omega
      · rw [List.count_cons_self, List.count_cons_of_ne (by decide)]
        rw [show countNl ['\r', '\n'] = 1 from rfl]; omega
    · rw [countNl_zero hc, List.count_cons_of_ne, List.count_cons_of_ne]
      · omega
      · rintro rfl; simp at hc
      · rintro rfl; simp at hc

/-- C100: what undo leaves after pasting text with CRLF, exactly, whatever the line ends around it. If the string has `k ≥ 1` CRLFs and `n` clusters after its
last line end, undo takes with it everything after the cursor up to line `k`, column `n`, counted from the cursor (clipped as deletions are, C06). -/
theorem C100_paste_undo (S : Segmenter) (A : Alloc) (b : Buf) (d : Doc) (s last : Text) (x y : List Text) (k : Nat) (h : Reached S A b d)
    (hg : b.group = none) (hl : locate (S.segs d.text) b.cursor.position = some (x, y)) (hc : CleanInsert S.segs d.text s b.cursor.position)
    (hk : (S.segs s).count ['\r', '\n'] = k) (hk1 : 1 ≤ k) (hlast : (splitNl s).getLast? = some last) :
    ∃ b', execAll S A b [.insert s, .undo] = .ok b' ∧
      b'.data.toStr = .ok (x.flatten ++ (afterEnd y ⟨k, (S.segs last).length⟩).flatten) := by
  generalize hp : b.cursor.position = p at hl hc
  obtain ⟨hxy, hxp⟩ := locate_eq_some.mp hl
  obtain ⟨g1, h1, _, hh⟩ := h.holds.insert (A := A) s p
  have hh := hh hc
  have hseg : S.segs (insertAt S.segs d.text s p) = (x ++ S.segs s) ++ y := by
    rw [insertAt, hl, hc x y hl]
  let b1 : Buf := ({ b with data := g1 }.report p).store (.insert s p)
  have e1 : exec S A b (.insert s) = .ok b1 := by
    simp only [exec, Buf.insert, runOp, hp, h1, Except.ok_bind']; rfl
  have hb1 : b1.data = g1 ∧ b1.group = none ∧ b1.history = b.history.add (.simple (.insert s p)) := by
    refine ⟨?_, ?_, ?_⟩
    · show (store _ _).data = g1
      unfold store Buf.report; split <;> split <;> rfl
    · show (store _ _).group = none
      unfold store; rw [report_group]; simp only [hg]
    · show (store _ _).history = _
      unfold store; rw [report_group]; simp only [hg]; rw [report_history]
  have hcount : countNl s = (S.segs s).count ['\n'] + k := by
    have := countNl_clusters (S.segs s) (S.newline s)
    rwa [S.join, hk] at this
  have hend : insertEnd S s p = .ok (some ⟨p.line + countNl s, (S.segs last).length⟩) := by
    unfold insertEnd
    simp only
    rw [subU, if_pos (by omega), Except.ok_bind', if_neg (by omega), hlast]
    rfl
  have hle : AtOrBefore p ⟨p.line + countNl s, (S.segs last).length⟩ := Or.inl (by simp only; omega)
  have hrange : Range.new p ⟨p.line + countNl s, (S.segs last).length⟩ = ⟨p, ⟨p.line + countNl s, (S.segs last).length⟩⟩ := by
    rw [range_new]
    have : lo p ⟨p.line + countNl s, (S.segs last).length⟩ = p := if_pos hle
    have h2 : hi p ⟨p.line + countNl s, (S.segs last).length⟩ = ⟨p.line + countNl s, (S.segs last).length⟩ := if_pos hle
    rw [this, h2]
  obtain ⟨g2, h2, ht2, _⟩ := hh.delete ⟨p, ⟨p.line + countNl s, (S.segs last).length⟩⟩ hle
  have hpos : (⟨p.line + countNl s, (S.segs last).length⟩ : Position) = ⟨(endPos (x ++ S.segs s)).line + k, (S.segs last).length⟩ := by
    rw [hcount, ← hxp]
    simp only [endPos, List.count_append]
    rw [Nat.add_assoc]
  have hres : Spec.deleteRange S.segs (insertAt S.segs d.text s p) p ⟨p.line + countNl s, (S.segs last).length⟩ =
      x.flatten ++ (afterEnd y ⟨k, (S.segs last).length⟩).flatten := by
    unfold Spec.deleteRange
    rw [show locate (S.segs (insertAt S.segs d.text s p)) p = some (x, S.segs s ++ y) from
      locate_eq_some.mpr ⟨by rw [hseg, List.append_assoc], hxp⟩]
    simp only
    rw [hseg, hpos, afterEnd_shift _ _ _ _ hk1]
  rw [hres] at ht2
  let b2 : Buf := { b1 with
      group := none
      history := ⟨b.history.previous, [.simple (.insert s p)], (b.history.add (.simple (.insert s p))).mark⟩ }
  refine ⟨{ b2 with data := g2 }.report p, ?_, ?_⟩
  · simp only [execAll, e1, Except.ok_bind']
    have : exec S A b1 .undo = reverseOp S A b2 (.insert s p) := by
      simp only [exec, undo, hb1.2.1, hb1.2.2, History.add, History.back, reverseAny]; rfl
    rw [this]
    simp only [reverseOp, hend, Except.ok_bind', hrange]
    rw [show b2.data = g1 from hb1.1, h2]
    rfl
  · have : ({ b2 with data := g2 }.report p).data = g2 := by unfold Buf.report; split <;> rfl
    rw [this]; exact ht2

theorem strLines_crlf {l r : Text} (h : '\n' ∉ l) : (strLines (l ++ '\r' :: '\n' :: r))[0]? = some l := by
  have : splitInclusive (l ++ '\r' :: '\n' :: r) = (l ++ ['\r'] ++ ['\n']) :: splitInclusive r := by
    rw [show l ++ '\r' :: '\n' :: r = (l ++ ['\r']) ++ '\n' :: r by simp]
    exact splitInclusive_append (by simp [h])
  rw [strLines, this]
  simp [stripEol]

/-- C51: where every movement goes in a text all of whose line breaks are CRLF. `move_to_end_of_line` goes to the end of the *first* line and
`move_to_start_of_line` to the start of the text, wherever the cursor is; `move_up` and `move_down` do not move. -/
theorem C51_movement (S : Segmenter) (A : Alloc) (b : Buf) (d : Doc) (x y : List Text) (o : Nat) (m : Cursor.Move) (h : Reached S A b d) (ht : CrlfOnly d.text)
    (hs : S.segs d.text = x ++ ['\r', '\n'] :: y) (hx : ['\r', '\n'] ∉ x) (hc : b.cursor.position = ⟨0, o⟩) (ho : o ≤ (S.segs d.text).length) :
    ∃ b', exec S A b (.move m) = .ok b' ∧ b'.cursor.position = ⟨0, crlfColumn x.length (S.segs d.text).length o b.cursor.sticky m⟩ := by
  have hb := fun l o => (C51_crlf_lines_do_not_exist S A b d h ht ⟨l, o⟩).1
  simp only at hb
  have htext : d.text = x.flatten ++ '\r' :: '\n' :: y.flatten := by rw [← S.join d.text, hs]; simp
  have hxn : '\n' ∉ x.flatten := by
    intro hm
    obtain ⟨c, hcx, hcm⟩ := List.mem_flatten.mp hm
    rcases S.newline d.text c (by rw [hs]; simp [hcx]) hcm with rfl | rfl
    · exact crlfOnly_segs (S := S) ht (by rw [hs]; simp [hcx])
    · exact hx hcx
  have hfirst : (strLines d.text)[0]? = some x.flatten := by rw [htext]; exact strLines_crlf hxn
  have hxs : S.segs x.flatten = x := (S.cut _ _ _ hs).1
  have hxl : x.length ≤ (S.segs d.text).length := by rw [hs]; simp
  have hlast : Cursor.lastLine (S.segs d.text) (0, 0) = (0, (S.segs d.text).length) := by
    have e := Cursor.lastLine_eq (S.segs d.text) ⟨0, 0⟩
    rw [← endPos_eq_foldl, endPos_line_zero (crlfOnly_segs (S := S) ht)] at e
    exact e
  have key : ∀ c, Cursor.move S b.data b.cursor m = .ok c →
      c.position = ⟨0, crlfColumn x.length (S.segs d.text).length o b.cursor.sticky m⟩ →
      ∃ b', exec S A b (.move m) = .ok b' ∧ b'.cursor.position = ⟨0, crlfColumn x.length (S.segs d.text).length o b.cursor.sticky m⟩ := by
    intro c h1 h2
    exact ⟨{ b with cursor := c }, by simp only [exec, h1, Except.ok_bind']; rfl, h2⟩
  have mt : ∀ p : Position, Cursor.moveTo S b.data b.cursor p =
      .ok (if p.line = 0 ∧ p.offset ≤ (S.segs d.text).length then (true, ⟨p, p.offset⟩) else (false, b.cursor)) := by
    intro p
    simp only [Cursor.moveTo, hb, Except.ok_bind']
    by_cases hp : p.line = 0 ∧ p.offset ≤ (S.segs d.text).length
    · rw [decide_eq_true hp, if_pos hp]; rfl
    · rw [decide_eq_false hp, if_neg hp]; rfl
  have toS := h.holds.toStr
  cases m with
  | «to» p =>
    refine key _ (by simp only [Cursor.move, mt, Except.ok_bind']; rfl) ?_
    simp only [crlfColumn]
    split
    · rename_i hp; cases p; simp only at hp ⊢; rw [hp.1]
    · exact hc
  | up => exact key b.cursor (by simp only [Cursor.move, Cursor.moveUp, hc]; rfl) hc
  | down =>
    obtain ⟨b', h1, h2⟩ := C51_cannot_move_down S A b d h ht
    exact ⟨b', h1, h2.trans hc⟩
  | left =>
    by_cases h0 : o = 0
    · subst h0
      exact key b.cursor (by simp only [Cursor.move, Cursor.moveLeft, hc]; rfl) (by simp [crlfColumn, hc])
    · refine key ⟨⟨0, o - 1⟩, o - 1⟩ ?_ rfl
      simp only [Cursor.move, Cursor.moveLeft, hc, mt]
      rw [if_neg h0, subU, if_pos (by omega), Except.ok_bind', Except.ok_bind', if_pos ⟨trivial, by omega⟩]; rfl
  | right =>
    by_cases h0 : o + 1 ≤ (S.segs d.text).length
    · refine key ⟨⟨0, o + 1⟩, o + 1⟩ ?_ (by simp only [crlfColumn]; rw [Nat.min_eq_left h0])
      simp only [Cursor.move, Cursor.moveRight, hc, mt]
      rw [if_pos ⟨trivial, h0⟩]; rfl
    · refine key b.cursor ?_ (by simp only [crlfColumn]; rw [Nat.min_eq_right (by omega), hc]; congr 1; omega)
      simp only [Cursor.move, Cursor.moveRight, hc, mt]
      rw [if_neg (fun hh => h0 hh.2)]; rfl
  | startOfLine =>
    refine key ⟨⟨0, 0⟩, 0⟩ ?_ rfl
    simp only [Cursor.move, Cursor.moveToStartOfLine, hc, mt]
    rw [if_pos ⟨trivial, by omega⟩]; rfl
  | endOfLine =>
    refine key ⟨⟨0, x.length⟩, x.length⟩ ?_ rfl
    simp only [Cursor.move, Cursor.moveToEndOfLine, toS, hc, Except.ok_bind', hfirst, mt, hxs]
    rw [if_pos ⟨trivial, hxl⟩]; rfl
  | firstLine =>
    refine key ⟨⟨0, min b.cursor.sticky x.length⟩, min b.cursor.sticky x.length⟩ ?_ rfl
    simp only [Cursor.move, Cursor.moveToFirstLine, toS, Except.ok_bind', hfirst, mt, Option.map_some, Option.getD_some, hxs]
    by_cases hl : x.length < b.cursor.sticky
    · rw [Nat.min_eq_right (by omega)]; simp only [if_pos hl]
      rw [if_pos ⟨trivial, hxl⟩]; rfl
    · rw [Nat.min_eq_left (by omega)]; simp only [if_neg hl]
      rw [if_pos ⟨trivial, by omega⟩]; rfl
  | lastLine =>
    refine key ⟨⟨0, min b.cursor.sticky (S.segs d.text).length⟩, min b.cursor.sticky (S.segs d.text).length⟩ ?_ rfl
    simp only [Cursor.move, Cursor.moveToLastLine, toS, Except.ok_bind', hlast, mt]
    by_cases hl : (S.segs d.text).length < b.cursor.sticky
    · rw [Nat.min_eq_right (by omega)]; simp only [if_pos hl]
      rw [if_pos ⟨trivial, Nat.le_refl _⟩]; rfl
    · rw [Nat.min_eq_left (by omega)]; simp only [if_neg hl]
      rw [if_pos ⟨trivial, by omega⟩]; rfl

/-- From the third line of "ab⏎cdef⏎g" (CRLF), the end of the line is after "ab". -/
example : (execAll Demo.seg Demo.tight (Buf.fromContent Demo.tight 0 (Demo.s "ab\r\ncdef\r\ng")) [.move (.to ⟨0, 8⟩), .move .endOfLine] >>=
    fun b => .ok b.cursor.position) = .ok ⟨0, 2⟩ := by decide +kernel

/-- Ordinary clusters meet the conditions, for every Unicode table. -/
example (T : Uax29.Table) : CrlfClosed (Uax29.segmenter T).segs (Uax29.Ordinary T.cls) ∧ ∀ c, Uax29.Ordinary T.cls c → '\r' ∉ c :=
  ⟨Uax29.ordinary_crlfClosed T, fun _ => Uax29.ordinary_noCr T⟩

/-- A file with CRLF line ends, an accent and a flag; a lone CR is not such text. -/
example : Over Demo.seg.segs (OrCrlf (Uax29.Ordinary Demo.table.cls)) (Demo.s "aé\r\n\tx🇦🇧\r\n\r\nq\n") := by
  unfold Over OrCrlf; decide +kernel
example : ¬ Over Demo.seg.segs (OrCrlf (Uax29.Ordinary Demo.table.cls)) (Demo.s "a\rb") := by unfold Over OrCrlf; decide +kernel

/-- A session: type, break the line, remove a CRLF, save, undo everything. -/
example : ∀ c ∈ [Cmd.insert (Demo.s "né\n"), .move .right, .delete, .saved, .undo, .redo, .reload (Demo.s "x\r\ny"), .undo],
    WindowsTyping Demo.seg.segs (Uax29.Ordinary Demo.table.cls) c := by
  have h1 : Over Demo.seg.segs (Uax29.Ordinary Demo.table.cls) (Demo.s "né\n") := by unfold Over; decide +kernel
  have h2 : Over Demo.seg.segs (OrCrlf (Uax29.Ordinary Demo.table.cls)) (Demo.s "x\r\ny") := by unfold Over OrCrlf; decide +kernel
  intro c hc
  simp only [List.mem_cons, List.not_mem_nil, or_false] at hc
  rcases hc with rfl | rfl | rfl | rfl | rfl | rfl | rfl | rfl <;> first | exact h1 | exact h2 | trivial
example : (execAll Demo.seg Demo.tight (Buf.fromContent Demo.tight 0 (Demo.s "q\r\nr\r\n"))
    [.move (.to ⟨0, 1⟩), .delete, .insert (Demo.s "né\n"), .saved, .undo] >>= fun b => b.data.toStr) = .ok (Demo.s "qr\r\n") := by decide +kernel
example : (execAll Demo.seg Demo.tight (Buf.fromContent Demo.tight 0 (Demo.s "q\r\nr\r\n"))
    [.move (.to ⟨0, 1⟩), .delete, .insert (Demo.s "né\n"), .saved, .undo, .undo] >>= fun b => b.data.toStr) = .ok (Demo.s "q\r\nr\r\n") := by decide +kernel

/-- Pasting "u⏎vw" (CRLF) before "ab⏎cdef⏎g" (LF), undone: the first line and two characters of the second are gone too. -/
example : (execAll Demo.seg Demo.tight (Buf.fromContent Demo.tight 0 (Demo.s "ab\ncdef\ng")) [.insert (Demo.s "u\r\nvw"), .undo] >>= fun b => b.data.toStr) =
    .ok (Demo.s "ef\ng") := by decide +kernel
example : (Demo.seg.segs (Demo.s "u\r\nvw")).count ['\r', '\n'] = 1 ∧ (splitNl (Demo.s "u\r\nvw")).getLast? = some (Demo.s "vw") ∧
    CleanInsert Demo.seg.segs (Demo.s "ab\ncdef\ng") (Demo.s "u\r\nvw") ⟨0, 0⟩ := by
  refine ⟨by decide +kernel, by decide +kernel, ?_⟩
  intro a b h
  have : locate (Demo.seg.segs (Demo.s "ab\ncdef\ng")) ⟨0, 0⟩ = some ([], Demo.seg.segs (Demo.s "ab\ncdef\ng")) := by decide +kernel
  rw [this] at h
  obtain ⟨rfl, rfl⟩ := Prod.mk.inj (Option.some.inj h)
  decide +kernel

end Scribe.Props
