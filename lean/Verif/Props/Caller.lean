import Verif.Props.Shared
import Verif.Spec.Caller
import Verif.Proofs.Undo
/-!
# Property C104: arguments of the caller's own types
-/
namespace Scribe.Shared
open Spec
variable {ξ : Type}

/-- **C104.** With an argument whose conversions return `s` and do nothing else, `insert` and `replace` do what they do with the string `s`. -/
theorem C104_strings (S : Segmenter) (A : Alloc) (w : World ξ) (b : Buf ξ) (a : Arg ξ) (s : Text) (h : a.Is s) :
    Buf.insertArg S A w b a = Buf.insert S A w b s ∧ Buf.replaceArg S A w b a = Buf.replace S A w b s := by
  constructor
  · unfold Buf.insertArg Buf.insert
    rw [(h w).2]
    rfl
  · unfold Buf.replaceArg Buf.replace
    cases Buf.text w b with
    | error e => rfl
    | ok x =>
      obtain ⟨old, w1⟩ := x
      simp only [Except.ok_bind', (h _).1]
      by_cases he : s = old
      · rw [if_pos he, if_pos he]
      · rw [if_neg he, if_neg he]
        cases Buf.text w1 b with
        | error e => rfl
        | ok y =>
          obtain ⟨old, w2⟩ := y
          simp only [Except.ok_bind', (h _).2]

/-- The pointers of a buffer stay valid while the conversions run. -/
theorem Fine.grow {f : Callback ξ} {w w' : World ξ} {b : Buf ξ} (h : Fine f w b) (hs : Sound w') (hl : w.cells.length ≤ w'.cells.length) : Fine f w' b :=
  ⟨hs, Nat.lt_of_lt_of_le h.data hl, Nat.lt_of_lt_of_le h.cursor hl, h.callback, h.previous, h.next, h.group⟩

theorem execArg_ok {S : Segmenter} {A : Alloc} {f : Callback ξ} (hf : Behaves f) {w : World ξ} {b : Buf ξ} (h : Fine f w b) (c : Buf.ArgCmd ξ) (hc : c.Behaves) :
    ∃ b' w', Buf.execArg S A f w b c = .ok (b', w') ∧ Fine f w' b' := by
  cases c with
  | cmd c =>
    obtain ⟨b', w', h1, h2, -⟩ := exec_ok (S := S) (A := A) hf h c
    exact ⟨b', w', h1, h2⟩
  | insert a =>
    obtain ⟨-, s, w1, h1, h2, h3⟩ := hc w h.sound
    obtain ⟨b', w', h4, h5, -⟩ := runStore_ok (S := S) (A := A) hf (h.grow h2 h3) (.insert s b.cursor.at_.position) trivial
    refine ⟨b', w', ?_, h5⟩
    simp only [Buf.execArg, Buf.insertArg, h1, Except.ok_bind']
    exact h4
  | replace a =>
    obtain ⟨old, ho⟩ := text_ok h
    obtain ⟨⟨s, w1, h1, h2, h3⟩, -⟩ := hc w h.sound
    simp only [Buf.execArg, Buf.replaceArg, ho, h1, Except.ok_bind']
    by_cases he : s = old
    · rw [if_pos he]
      exact ⟨b, w1, rfl, h.grow h2 h3⟩
    · rw [if_neg he]
      have hw1 := h.grow h2 h3
      obtain ⟨old', ho'⟩ := text_ok hw1
      obtain ⟨-, s', w2, k1, k2, k3⟩ := hc w1 h2
      obtain ⟨b', w', h4, h5, -⟩ := runStore_ok (S := S) (A := A) hf (hw1.grow k2 k3) (.replace old' s') trivial
      refine ⟨b', w', ?_, h5⟩
      simp only [ho', k1, Except.ok_bind']
      exact h4

theorem execArgs_ok {S : Segmenter} {A : Alloc} {f : Callback ξ} (hf : Behaves f) (cs : List (Buf.ArgCmd ξ)) : ∀ {w : World ξ} {b : Buf ξ}, Fine f w b →
    (∀ c ∈ cs, c.Behaves) → ∃ b' w', Buf.execArgs S A f w b cs = .ok (b', w') ∧ Fine f w' b' := by
  induction cs with
  | nil => intro w b h _; exact ⟨b, w, rfl, h⟩
  | cons c cs ih =>
    intro w b h hc
    obtain ⟨b1, w1, h1, h2⟩ := execArg_ok (S := S) (A := A) hf h c (hc c (by simp))
    obtain ⟨b2, w2, h3, h4⟩ := ih h2 (fun c' h' => hc c' (by simp [h']))
    exact ⟨b2, w2, by simp only [Buf.execArgs, h1, Except.ok_bind', h3], h4⟩

/-- **C104.** No sequence of calls panics, whatever the conversions and the callback do with the gap buffers they have pointers to. -/
theorem C104_no_panic (S : Segmenter) (A : Alloc) (f : Callback ξ) (hf : Behaves f) (w : World ξ) (hw : Sound w) (k : Nat) (t : Text) (cs : List (Buf.ArgCmd ξ))
    (hc : ∀ c ∈ cs, c.Behaves) :
    ∃ b w' u, Buf.execArgs S A f (Buf.fromContent A w k t).2 (Buf.fromContent A w k t).1 cs = .ok (b, w') ∧ Sound w' ∧ Buf.text w' b = .ok (u, w') := by
  obtain ⟨b, w', h1, h2⟩ := execArgs_ok (S := S) (A := A) hf cs (fine_fromContent (A := A) f hw k t) hc
  obtain ⟨u, h3⟩ := text_ok h2
  exact ⟨b, w', u, h1, h2.sound, h3⟩

theorem text_free {w : World ξ} {b : Buf ξ} {g : GapBuffer} {u : Text} (hc : w.cells[b.data]? = some (.free g)) (hu : g.toStr = .ok u) : Buf.text w b = .ok (u, w) :=
  (withRead_pure hc rfl (fun g => g.toStr) id).trans (by rw [show (Cell.free g).value = g from rfl, hu]; rfl)

theorem holds_toStr {S : Segmenter} {g : GapBuffer} {t : Text} (h : Holds S g t) : g.toStr = .ok t := h.toStr

/-- **C104.** What `insert` puts in is the converted string, at the cursor, in the text that the conversion left; undo takes out the string, and not what the conversion did. -/
theorem C104_insert (S : Segmenter) (A : Alloc) (w w1 : World ξ) (b : Buf ξ) (a : Arg ξ) (s u : Text) (g : GapBuffer) (hb : b.callback = none) (hg : b.group = none)
    (ha : a.into w = .ok (s, w1)) (hc : w1.cells[b.data]? = some (.free g)) (hu : Holds S g u) :
    ∃ b2 w2, Buf.insertArg S A w b a = .ok (b2, w2) ∧ Buf.text w2 b2 = .ok (insertAt S.segs u s b.cursor.at_.position, w2) ∧
      (CleanInsert S.segs u s b.cursor.at_.position → ['\r', '\n'] ∉ S.segs s →
        ∃ b3 w3, Buf.undo S A w2 b2 = .ok (b3, w3) ∧ Buf.text w3 b3 = .ok (u, w3)) := by
  have hl : b.data < w1.cells.length := (List.getElem?_eq_some_iff.mp hc).1
  obtain ⟨g2, i1, i2, i3⟩ := hu.insert (A := A) s b.cursor.at_.position
  have hc2 : (w1.set b.data (.free g2)).cells[b.data]? = some (.free g2) := by simp [World.set, hl]
  refine ⟨{ b with history := b.history.add (.simple (.insert s b.cursor.at_.position)) }, w1.set b.data (.free g2), ?_, text_free hc2 i2, fun hcl hcr => ?_⟩
  · simp only [Buf.insertArg, ha, Except.ok_bind', Buf.runOp, withWrite_pure hc, i1, Buf.report, hb, Buf.store, hg]
  · obtain ⟨v1, v2⟩ := undo_insert hcl
    have hle : AtOrBefore b.cursor.at_.position (advance b.cursor.at_.position (S.segs s)) := le_advance _ _
    have hr : Range.new b.cursor.at_.position (advance b.cursor.at_.position (S.segs s)) = ⟨b.cursor.at_.position, advance b.cursor.at_.position (S.segs s)⟩ :=
      range_new_of_le hle
    obtain ⟨g3, d1, d2, -⟩ := (i3 hcl).delete (Range.new b.cursor.at_.position (advance b.cursor.at_.position (S.segs s))) (by rw [hr]; exact hle)
    rw [hr, v2] at d2
    refine ⟨{ b with history := (b.history.add (.simple (.insert s b.cursor.at_.position))).back.2 }, (w1.set b.data (.free g2)).set b.data (.free g3), ?_, ?_⟩
    · simp only [Buf.undo, hg, History.add, History.back, Buf.reverseAny, Buf.reverseOp, insertEnd_eq hcr, Except.ok_bind', withWrite_pure hc2, d1, Buf.report, hb]
    · refine text_free (g := g3) ?_ d2
      rw [World.set_set]; simp [World.set, hl]

theorem replaceContent_text {S : Segmenter} {A : Alloc} {w : World ξ} {b : Buf ξ} {c : Cell} (hb : b.callback = none) (hc : w.cells[b.data]? = some c) (s : Text) :
    ∃ b' w', Buf.replaceContent S A w s b = .ok (b', w') ∧ Buf.text w' b' = .ok (s, w') ∧ b'.history = b.history ∧ b'.group = b.group ∧ b'.callback = none ∧
      w'.cells[b'.data]? = some (.free (GapBuffer.new A c.value.clock s)) := by
  have hn := GapBuffer.new_rep (A := A) c.value.clock s
  have hc1 : (w.alloc (GapBuffer.new A c.value.clock s)).2.cells[(w.alloc (GapBuffer.new A c.value.clock s)).1]? = some (.free (GapBuffer.new A c.value.clock s)) := by
    simp [World.alloc]
  have ht : (GapBuffer.new A c.value.clock s).toStr = .ok s := by rw [hn.toStr, List.append_nil]
  unfold Buf.replaceContent
  rw [World.get_of hc]
  simp only [Except.ok_bind']
  generalize w.alloc (GapBuffer.new A c.value.clock s) = pw at hc1 ⊢
  obtain ⟨q, w1⟩ := pw
  dsimp only at hc1 ⊢
  have mv : ∀ (x : Cursor) p, ∃ ok y, Cur.moveTo S w1 ⟨q, x⟩ p = .ok (ok, ⟨q, y⟩, w1) := by
    intro x p
    obtain ⟨⟨ok, y⟩, h⟩ := moveTo_safe (S := S) hn x p
    refine ⟨ok, y, ?_⟩
    rw [moveTo_eq (c := ⟨q, x⟩) hc1 rfl]
    change Cursor.moveTo S _ x p >>= _ = _
    rw [show (Cell.free (GapBuffer.new A c.value.clock s)).value = GapBuffer.new A c.value.clock s from rfl, h]
    rfl
  have key : ∀ y : Cursor, ∃ b' w', (do
      let w ← Buf.report w1 { b with data := q, cursor := ⟨q, y⟩ } Position.new
      Except.ok (({ b with data := q, cursor := ⟨q, y⟩ } : Buf ξ), w) : R (Buf ξ × World ξ)) = .ok (b', w') ∧ Buf.text w' b' = .ok (s, w') ∧
        b'.history = b.history ∧ b'.group = b.group ∧ b'.callback = none ∧ w'.cells[b'.data]? = some (.free (GapBuffer.new A c.value.clock s)) := by
    intro y
    refine ⟨{ b with data := q, cursor := ⟨q, y⟩ }, w1, ?_, text_free (by exact hc1) ht, rfl, rfl, hb, hc1⟩
    simp only [Buf.report, hb, Except.ok_bind']
  obtain ⟨ok, y, h1⟩ := mv (Cursor.new ⟨0, 0⟩) b.cursor.at_.position
  rw [show Cur.new q ⟨0, 0⟩ = ⟨q, Cursor.new ⟨0, 0⟩⟩ from rfl, h1]
  simp only [Except.ok_bind']
  cases ok with
  | true => exact key y
  | false =>
    obtain ⟨ok, z, h2⟩ := mv y ⟨b.cursor.at_.position.line, 0⟩
    simp only [Bool.not_false, if_true, h2, Except.ok_bind']
    exact key z

/-- **C104.** `replace` compares what `as_ref()` says with the contents before it ran. If they are equal nothing happens and `into()` does not run. Otherwise the contents
become what `into()` gives, whatever it was and whatever it did to the gap buffer, as one step: undo returns to the text that there was between the two conversions. -/
theorem C104_replace (S : Segmenter) (A : Alloc) (w w1 : World ξ) (b : Buf ξ) (a : Arg ξ) (said t u : Text) (g : GapBuffer) (hb : b.callback = none) (hg : b.group = none)
    (ht : Buf.text w b = .ok (t, w)) (ha : a.asRef w = .ok (said, w1)) (hc : w1.cells[b.data]? = some (.free g)) (hu : Holds S g u) :
    (said = t → Buf.replaceArg S A w b a = .ok (b, w1)) ∧
    (said ≠ t → ∀ given w2 c, a.into w1 = .ok (given, w2) → w2.cells[b.data]? = some c →
      ∃ b3 w3, Buf.replaceArg S A w b a = .ok (b3, w3) ∧ Buf.text w3 b3 = .ok (given, w3) ∧ b3.history = b.history.add (.simple (.replace u given)) ∧
        ∃ b4 w4, Buf.undo S A w3 b3 = .ok (b4, w4) ∧ Buf.text w4 b4 = .ok (u, w4)) := by
  constructor
  · intro he
    simp only [Buf.replaceArg, ht, ha, Except.ok_bind', if_pos he]
  · intro he given w2 c hi hc2
    obtain ⟨b3, w3, h1, h2, h3, h4, h5, h6⟩ := replaceContent_text (S := S) (A := A) hb hc2 given
    have hst : b3.store (.replace u given) = { b3 with history := b.history.add (.simple (.replace u given)) } := by
      simp only [Buf.store, h4, hg, h3]
    refine ⟨{ b3 with history := b.history.add (.simple (.replace u given)) }, w3, ?_, h2, rfl, ?_⟩
    · simp only [Buf.replaceArg, ht, ha, Except.ok_bind', if_neg he, text_free hc (holds_toStr hu), hi, Buf.runOp, h1, hst]
    · obtain ⟨b4, w4, k1, k2, -⟩ := replaceContent_text (S := S) (A := A) (b := { b3 with history := (b.history.add (.simple (.replace u given))).back.2 }) h5 h6 u
      refine ⟨b4, w4, ?_, k2⟩
      simp only [Buf.undo, h4, hg, History.add, History.back, Buf.reverseAny, Buf.reverseOp]
      simp only [History.add, History.back, h4, hg] at k1
      rw [← k1]

/-- A buffer with the text `ab`, and its contents after some calls. -/
def demoArgs (cs : List (Buf.ArgCmd Unit)) : R (Text × Bool) := do
  let (b, w) ← Buf.execArgs Demo.seg Demo.tight (meddle Demo.seg Demo.tight (Demo.s "!")) (Buf.fromContent Demo.tight ⟨[], ()⟩ 0 (Demo.s "ab")).2
    (Buf.fromContent Demo.tight ⟨[], ()⟩ 0 (Demo.s "ab")).1 cs
  let (t, _) ← Buf.text w b
  return (t, !b.history.atMark)

/-- Arguments as in the hypotheses. -/
theorem two_is (s : Text) : (Arg.two s s : Arg ξ).Is s := fun _ => ⟨rfl, rfl⟩

theorem two_behaves (x y : Text) : (Arg.two x y : Arg ξ).Behaves := fun w h => ⟨⟨x, w, rfl, h, Nat.le_refl _⟩, y, w, rfl, h, Nat.le_refl _⟩

theorem putFirst_ok {S : Segmenter} {A : Alloc} {w : World ξ} (hw : Sound w) (x : Text) :
    ∃ w', putFirst S A x w = .ok w' ∧ Sound w' ∧ w.cells.length ≤ w'.cells.length := by
  unfold putFirst
  split
  · rename_i h
    obtain ⟨g, h1, pre, post, h2⟩ := hw.cell h
    obtain ⟨g', h3, h4⟩ := insert_safe (S := S) (A := A) h2 x ⟨0, 0⟩
    exact ⟨w.set 0 (.free g'), by rw [withWrite_pure h1, h3]; rfl, hw.set 0 h4, by simp [World.set]⟩
  · exact ⟨w, rfl, hw, Nat.le_refl _⟩

theorem edits_behaves (S : Segmenter) (A : Alloc) (x y said given : Text) : (Arg.edits S A x y said given : Arg ξ).Behaves := by
  intro w hw
  obtain ⟨w1, h1, h2, h3⟩ := putFirst_ok (S := S) (A := A) hw x
  obtain ⟨w2, k1, k2, k3⟩ := putFirst_ok (S := S) (A := A) hw y
  exact ⟨⟨said, w1, by simp only [Arg.edits, h1, Except.ok_bind'], h2, h3⟩, given, w2, by simp only [Arg.edits, k1, Except.ok_bind'], k2, k3⟩

/-- The conversion puts `x` before the text: it stays when the insertion is undone, and is lost when the contents are replaced, unless `as_ref` did it. -/
example : demoArgs [.replace (.edits Demo.seg Demo.tight (Demo.s "y") (Demo.s "x") [] (Demo.s "cd")), .cmd .undo] = .ok (Demo.s "yab", false) ∧
    demoArgs [.replace (.edits Demo.seg Demo.tight (Demo.s "y") (Demo.s "x") (Demo.s "ab") (Demo.s "cd"))] = .ok (Demo.s "yab", false) ∧
    demoArgs [.insert (.edits Demo.seg Demo.tight [] (Demo.s "x") [] (Demo.s "cd"))] = .ok (Demo.s "cdxab", true) ∧
    demoArgs [.insert (.edits Demo.seg Demo.tight [] (Demo.s "x") [] (Demo.s "cd")), .cmd .undo] = .ok (Demo.s "xab", false) ∧
    demoArgs [.replace (.edits Demo.seg Demo.tight [] (Demo.s "x") [] (Demo.s "cd"))] = .ok (Demo.s "cd", true) ∧
    demoArgs [.replace (.edits Demo.seg Demo.tight [] (Demo.s "x") [] (Demo.s "cd")), .cmd .undo] = .ok (Demo.s "ab", false) := by
  decide +kernel

/-- Conversions that disagree: a replacement that changes something is ignored, and one that changes nothing is an edit. -/
example : demoArgs [.replace (.two (Demo.s "ab") (Demo.s "cd"))] = .ok (Demo.s "ab", false) ∧
    demoArgs [.replace (.two (Demo.s "cd") (Demo.s "ab"))] = .ok (Demo.s "ab", true) := by
  decide +kernel

end Scribe.Shared
