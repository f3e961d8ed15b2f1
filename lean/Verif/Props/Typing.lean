import Verif.Proofs.Typing
import Verif.Props.Ordinary
/-!
# Property C85: typing and erasing

The calls an editor makes while its user types, on ordinary text (C49).
-/
namespace Scribe.Props
open Spec Buf

/-- C13: edits with movements, cursor assignments and saves between them, outside a group, are as many steps as there are edits: that many undos bring back
the contents, and that many redos the result. -/
theorem C13_undo_edits (S : Segmenter) (A : Alloc) (b : Buf) (d : Doc) (cs : List Cmd) (h : Reached S A b d) (hg : b.group = none)
    (hc : CleanCmds S.segs d cs) (hcs : ∀ c ∈ cs, IsEdit c ∨ Passive c) :
    ∃ b1 b2 b3, execAll S A b cs = .ok b1 ∧ b1.history.previous.length = b.history.previous.length + countEdits cs ∧
      execAll S A b1 (List.replicate (countEdits cs) .undo) = .ok b2 ∧ b2.data.toStr = b.data.toStr ∧
      b2.history.previous.length = b.history.previous.length ∧
      execAll S A b2 (List.replicate (countEdits cs) .redo) = .ok b3 ∧ b3.data.toStr = b1.data.toStr := by
  obtain ⟨s, hs⟩ := h.tri
  obtain ⟨hg1, hg2⟩ := hs.group_none hg
  have key : ∀ (cs : List Cmd) (d : Doc) (s : Snap), s.group = none → (∀ c ∈ cs, IsEdit c ∨ Passive c) →
      (snaps S.segs d s cs).group = none ∧ (snaps S.segs d s cs).past.length = s.past.length + countEdits cs ∧
      ∃ f, Snap.undo^[countEdits cs] (snaps S.segs d s cs) = { s with future := f } := by
    intro cs
    induction cs with
    | nil => intro d s hg _; exact ⟨hg, rfl, s.future, rfl⟩
    | cons c cs ih =>
      intro d s hg hcs
      have main : ∀ s1 : Snap, s1.group = none → s.step S.segs d.cursor.position c = s1 →
          (s1 = s ∧ countEdits (c :: cs) = countEdits cs ∨
            s1.past = s.present :: s.past ∧ countEdits (c :: cs) = countEdits cs + 1) →
          (snaps S.segs d s (c :: cs)).group = none ∧ (snaps S.segs d s (c :: cs)).past.length = s.past.length + countEdits (c :: cs) ∧
          ∃ f, Snap.undo^[countEdits (c :: cs)] (snaps S.segs d s (c :: cs)) = { s with future := f } := by
        intro s1 hg1 e hk
        obtain ⟨k1, k2, f, k3⟩ := ih (d.step S.segs c) s1 hg1 (fun x hx => hcs x (by simp [hx]))
        have e2 : snaps S.segs d s (c :: cs) = snaps S.segs (d.step S.segs c) s1 cs := by rw [snaps, e]
        rw [e2]
        rcases hk with ⟨rfl, hk⟩ | ⟨hp, hk⟩
        · rw [hk]; exact ⟨k1, k2, f, k3⟩
        · rw [hk]
          refine ⟨k1, by rw [k2, hp, List.length_cons]; omega, s1.present :: f, ?_⟩
          rw [Function.iterate_succ_apply', k3]
          unfold Snap.undo
          simp only [hg1, hp]
          rcases s with ⟨a1, a2, a3, a4⟩
          simp only at hg; subst hg; rfl
      rcases hcs c (by simp) with hc | hc
      · obtain ⟨t', e⟩ := edits_snap (segs := S.segs) (t := s.present) (c := c) (by cases c <;> first | trivial | cases hc) d.cursor.position rfl
        have e3 : s.edit t' = ⟨s.present :: s.past, t', [], none⟩ := by unfold Snap.edit; rw [hg]
        refine main ⟨s.present :: s.past, t', [], none⟩ rfl (by rw [e, e3]) (Or.inr ⟨rfl, ?_⟩)
        cases c <;> first | rfl | cases hc
      · refine main s hg ?_ (Or.inl ⟨rfl, ?_⟩) <;> cases c <;> first | rfl | cases hc
  obtain ⟨k1, k2, f, k3⟩ := key cs d s hg2 hcs
  obtain ⟨b1, e1, t1⟩ := hs.execAll (A := A) cs hc
  obtain ⟨b2, e2, t2⟩ := t1.execAll (A := A) (List.replicate (countEdits cs) .undo) (clean_undos _ _ _)
  rw [snaps_undos, k3] at t2
  have hdg : (d.steps S.segs cs).group = none := by
    have := t1.snap.group
    rw [k1] at this
    cases hx : (d.steps S.segs cs).group with
    | none => rfl
    | some x => rw [hx] at this; cases x <;> cases this
  obtain ⟨b3, e3, t3⟩ := t2.execAll (A := A) (List.replicate (countEdits cs) .redo) (clean_redos _ _ _ (undos_group _ _ _ hdg))
  rw [← k3, snaps_redos, iterate_undo_redo _ _ k1 (by omega)] at t3
  exact ⟨b1, b2, b3, e1, by rw [t1.previous, k2, hs.previous], e2, by rw [t2.data, hs.data], by rw [t2.previous, hs.previous],
    e3, by rw [t3.data, t1.data]⟩

/-- Three edits among movements and a save. -/
example : (execAll Demo.seg Demo.tight (Buf.fromContent Demo.tight 0 (Demo.s "ab\ncd"))
    ([.insert (Demo.s "é\nx"), .move .down, .delete, .saved, .deleteRange ⟨0, 0⟩ ⟨1, 0⟩] ++ List.replicate 3 .undo) >>= fun b => b.data.toStr) =
    .ok (Demo.s "ab\ncd") ∧
    countEdits [.insert (Demo.s "é\nx"), .move .down, .delete, .saved, .deleteRange ⟨0, 0⟩ ⟨1, 0⟩] = 3 := by decide +kernel

variable {S : Segmenter} {P : Text → Prop}

theorem cursor_text {A b d} {pre post : Text} (hP : Closed S.segs P) (h : Reached S A b d) (hpre : Over S.segs P pre) (hpost : Over S.segs P post)
    (ht : b.data.toStr = .ok (pre ++ post)) (hc : b.cursor.position = endPos (S.segs pre)) :
    d.text = (S.segs pre ++ S.segs post).flatten ∧ d.cursor.position = endPos (S.segs pre) ∧ S.segs (pre ++ post) = S.segs pre ++ S.segs post := by
  obtain ⟨h1, h2, _⟩ := reached_facts h
  rw [ht] at h1
  refine ⟨?_, by rw [← h2, hc], over_append hP hpre hpost⟩
  rw [List.flatten_append, S.join, S.join]; exact (Except.ok.inj h1).symm

/-- **C85, typing.** With the cursor between `pre` and `post`, typing `s` cluster by cluster (insert, then step over it: to the right, after a newline
down and to the start of the line) gives `pre ++ s ++ post` with the cursor after `s`; the same text as inserting `s` at once. -/
theorem C85_typing (hP : Closed S.segs P) (hcr : ∀ c, P c → '\r' ∉ c) (A : Alloc) (b : Buf) (d : Doc)
    (pre post s : Text) (h : Reached S A b d) (hpre : Over S.segs P pre) (hpost : Over S.segs P post) (hs : Over S.segs P s)
    (ht : b.data.toStr = .ok (pre ++ post)) (hc : b.cursor.position = endPos (S.segs pre)) :
    (∃ b', execAll S A b (typeText S.segs s) = .ok b' ∧ b'.data.toStr = .ok (pre ++ s ++ post) ∧
      b'.cursor.position = endPos (S.segs (pre ++ s))) ∧
    ∃ b', exec S A b (.insert s) = .ok b' ∧ b'.data.toStr = .ok (pre ++ s ++ post) := by
  obtain ⟨k1, k2, k3⟩ := cursor_text hP h hpre hpost ht hc
  obtain ⟨m1, m2, m3⟩ := keys_step hP hcr (S.segs s) hpre hpost hs k1 k2
  obtain ⟨sn, hsn⟩ := h.tri
  obtain ⟨b', e1, e2⟩ := hsn.execAll (A := A) _ m1
  have hov : Over S.segs P d.text := by
    rw [k1]; exact over_flatten hP fun c hc => (List.mem_append.mp hc).elim (hpre c) (hpost c)
  obtain ⟨b1, f1, f2⟩ := hsn.exec (A := A) (.insert s) ⟨over_cleanInsert hP _ hov hs, fun h => hP.noCrlf (hs _ h)⟩
  refine ⟨⟨b', e1, ?_, ?_⟩, b1, f1, ?_⟩
  · rw [e2.sim.face.data.toStr, m2]; simp [S.join]
  · rw [e2.sim.face.cursor, m3, over_append hP hpre hs]
  · rw [f2.sim.face.data.toStr]
    show Except.ok (d.edit S.segs _).text = _
    rw [(step_edit S.segs d _ rfl).1]
    show Except.ok (insertAt _ _ _ _) = _
    have : S.segs d.text = S.segs pre ++ S.segs post := by
      rw [k1]; exact hP.apart _ fun c hc => (List.mem_append.mp hc).elim (hpre c) (hpost c)
    rw [k2, insert_at this, S.join, S.join]

/-- C85: typing outside a group makes one step for each cluster; undoing them all brings back the text. -/
theorem C85_undo_typing (hP : Closed S.segs P) (hcr : ∀ c, P c → '\r' ∉ c) (A : Alloc) (b : Buf) (d : Doc)
    (pre post s : Text) (h : Reached S A b d) (hg : b.group = none) (hpre : Over S.segs P pre) (hpost : Over S.segs P post) (hs : Over S.segs P s)
    (ht : b.data.toStr = .ok (pre ++ post)) (hc : b.cursor.position = endPos (S.segs pre)) :
    ∃ b1 b2 b3, execAll S A b (typeText S.segs s) = .ok b1 ∧ b1.history.previous.length = b.history.previous.length + (S.segs s).length ∧
      execAll S A b1 (List.replicate (S.segs s).length .undo) = .ok b2 ∧ b2.data.toStr = .ok (pre ++ post) ∧
      execAll S A b2 (List.replicate (S.segs s).length .redo) = .ok b3 ∧ b3.data.toStr = .ok (pre ++ s ++ post) := by
  obtain ⟨k1, k2, _⟩ := cursor_text hP h hpre hpost ht hc
  obtain ⟨m1, m2, _⟩ := keys_step hP hcr (S.segs s) hpre hpost hs k1 k2
  have hcount : ∀ xs : List Text, countEdits (xs.flatMap key) = xs.length ∧ ∀ c ∈ xs.flatMap key, IsEdit c ∨ Passive c := by
    intro xs
    induction xs with
    | nil => exact ⟨rfl, fun _ h => by cases h⟩
    | cons x xs ih =>
      rw [List.flatMap_cons, key]
      refine ⟨?_, ?_⟩
      · split <;> exact congrArg (· + 1) ih.1
      · intro c hc
        rcases List.mem_append.mp hc with hc | hc
        · split at hc <;> simp only [List.mem_cons, List.not_mem_nil, or_false] at hc
          · rcases hc with rfl | rfl | rfl
            · exact Or.inl trivial
            · exact Or.inr trivial
            · exact Or.inr trivial
          · rcases hc with rfl | rfl
            · exact Or.inl trivial
            · exact Or.inr trivial
        · exact ih.2 c hc
  obtain ⟨b1, b2, b3, e1, e2, e3, e4, _, e6, e7⟩ := C13_undo_edits S A b d _ h hg m1 (hcount (S.segs s)).2
  rw [(hcount _).1] at e2 e3 e6
  have hr := h.all _ m1 e1
  refine ⟨b1, b2, b3, e1, e2, e3, by rw [e4, ht], e6, ?_⟩
  rw [e7, (reached_facts hr).1, m2]; simp [S.join]

/-- **C85, erasing.** `n` times the backspace key (left, or up and to the end of the line, then delete) removes the last `n` clusters before the cursor, newlines
included, and leaves the cursor there; typing `s` and as many backspaces as it has clusters gives back text and cursor. -/
theorem C85_erasing (hP : Closed S.segs P) (hcr : ∀ c, P c → '\r' ∉ c) (A : Alloc) (b : Buf) (d : Doc)
    (pre s post : Text) (h : Reached S A b d) (hpre : Over S.segs P pre) (hs : Over S.segs P s) (hpost : Over S.segs P post)
    (ht : b.data.toStr = .ok (pre ++ s ++ post)) (hc : b.cursor.position = endPos (S.segs (pre ++ s))) :
    ∃ b', backspaces S A b (S.segs s).length = .ok b' ∧ b'.data.toStr = .ok (pre ++ post) ∧ b'.cursor.position = endPos (S.segs pre) := by
  have main : ∀ (n : Nat) (xs : List Text) (b : Buf) (d : Doc), xs.length = n → Reached S A b d → (∀ c ∈ xs, P c) →
      d.text = (S.segs pre ++ xs ++ S.segs post).flatten → d.cursor.position = endPos (S.segs pre ++ xs) →
      ∃ b', backspaces S A b n = .ok b' ∧ b'.data.toStr = .ok (pre ++ post) ∧ b'.cursor.position = endPos (S.segs pre) := by
    intro n
    induction n with
    | zero =>
      intro xs b d hn h _ ht hc
      obtain rfl := List.length_eq_zero_iff.mp hn
      obtain ⟨h1, h2, _⟩ := reached_facts h
      refine ⟨b, rfl, ?_, ?_⟩
      · rw [h1, ht]; simp [S.join]
      · rw [h2, hc]; simp
    | succ n ih =>
      intro xs b d hn h hx ht hc
      obtain ⟨ys, y, rfl⟩ : ∃ ys y, xs = ys ++ [y] := by
        rcases List.eq_nil_or_concat xs with rfl | ⟨ys, y, rfl⟩
        · cases hn
        · exact ⟨ys, y, by simp⟩
      have hpy : ∀ c ∈ S.segs pre ++ ys, P c := fun c hc => (List.mem_append.mp hc).elim (hpre c) fun h => hx c (by simp [h])
      obtain ⟨m1, m2, m3⟩ := backspace_step (d := d) (a := S.segs pre ++ ys) (b := S.segs post) (x := y) hP hcr hpy hpost (hx y (by simp))
        (by rw [ht]; simp) (by rw [hc]; simp)
      obtain ⟨sn, hsn⟩ := h.tri
      obtain ⟨b1, e1, e2⟩ := hsn.execAll (A := A) _ m1
      have hcur := (reached_facts h).2.1
      rw [← hcur] at e1 m1 m2 m3
      obtain ⟨b2, f1, f2⟩ := ih ys b1 _ (by simpa using hn) (h.all _ m1 e1) (fun c hc => hx c (by simp [hc])) m2 m3
      exact ⟨b2, by simp only [backspaces, e1, Except.ok_bind', f1], f2⟩
  obtain ⟨h1, h2, _⟩ := reached_facts h
  rw [ht] at h1
  refine main _ (S.segs s) b d rfl h hs ?_ ?_
  · rw [← Except.ok.inj h1]; simp [S.join]
  · rw [← h2, hc, over_append hP hpre hs]

/-- C85: `n` times `delete` removes the `n` clusters after the cursor, newlines included; at the end of the text it does nothing. The cursor stays. -/
theorem C85_deleting (hP : Closed S.segs P) (A : Alloc) (b : Buf) (d : Doc)
    (pre post : Text) (n : Nat) (h : Reached S A b d) (hpre : Over S.segs P pre) (hpost : Over S.segs P post)
    (ht : b.data.toStr = .ok (pre ++ post)) (hc : b.cursor.position = endPos (S.segs pre)) :
    ∃ b', execAll S A b (List.replicate n .delete) = .ok b' ∧ b'.data.toStr = .ok (pre ++ ((S.segs post).drop n).flatten) ∧ b'.cursor = b.cursor := by
  obtain ⟨k1, k2, _⟩ := cursor_text hP h hpre hpost ht hc
  obtain ⟨m1, m2, m3⟩ := deletes_step hP n hpre hpost k1 k2
  obtain ⟨sn, hsn⟩ := h.tri
  obtain ⟨b', e1, e2⟩ := hsn.execAll (A := A) _ m1
  refine ⟨b', e1, ?_, ?_⟩
  · rw [e2.sim.face.data.toStr, m2]; simp [S.join]
  · rw [e2.sim.face.cursor, m3, hsn.sim.face.cursor]

/-- Ordinary clusters meet the conditions, for every Unicode table. -/
example (T : Uax29.Table) : Closed (Uax29.segmenter T).segs (Uax29.Ordinary T.cls) ∧ ∀ c, Uax29.Ordinary T.cls c → '\r' ∉ c :=
  ⟨Uax29.ordinary_closed T, fun _ => Uax29.ordinary_noCr T⟩

/-- Two lines typed in the middle of a line, then erased, with a wide gap and with none. -/
example : (execAll Demo.seg Demo.tight (Buf.fromContent Demo.tight 0 (Demo.s "ab\ncd")) (.move .right :: typeText Demo.seg.segs (Demo.s "é\nx")) >>=
    fun b => do return (← b.data.toStr, b.cursor.position)) = .ok (Demo.s "aé\nxb\ncd", ⟨1, 1⟩) := by decide +kernel
example : (do
    let b ← execAll Demo.seg Demo.tight (Buf.fromContent Demo.tight 0 (Demo.s "aé\nxb")) [.move (.to ⟨1, 1⟩)]
    let b ← backspaces Demo.seg Demo.tight b 3
    return (← b.data.toStr, b.cursor.position)) = Except.ok (ε := Panic) (Demo.s "ab", ⟨0, 1⟩) := by decide +kernel
example : (execAll Demo.seg Demo.tight (Buf.fromContent Demo.tight 0 (Demo.s "ab\ncd")) (.move .right :: List.replicate 9 .delete) >>=
    fun b => b.data.toStr) = .ok (Demo.s "a") := by decide +kernel

end Scribe.Props
