import Verif.Spec.Typing
import Verif.Proofs.Closed
import Verif.Proofs.Cursor
import Verif.Proofs.Snap
namespace Scribe.Uax29
variable (T : Table)

theorem runSt_noCr {st st' : St} {c : Text} (hst : st ≠ .cr) (h : runSt T.cls st c = some st') : '\r' ∉ c := by
  induction c generalizing st with
  | nil => simp
  | cons x c ih =>
    unfold runSt at h
    rw [List.mem_cons, not_or]
    cases hc : cont st (T.cls x) with
    | none => rw [hc] at h; cases h
    | some st1 =>
      rw [hc] at h
      refine ⟨?_, ih ?_ h⟩
      · rintro rfl
        rw [(T.cr _).mpr rfl] at hc
        cases st <;> first | exact hst rfl | cases hc
      · rintro rfl
        cases st <;> cases hx : T.cls x <;> rw [hx] at hc <;> cases hc

theorem ordinary_noCr {c : Text} (h : Ordinary T.cls c) : '\r' ∉ c := by
  cases c with
  | nil => cases h
  | cons x c =>
    obtain ⟨h1, st, h2, _⟩ := h
    rw [List.mem_cons, not_or]
    refine ⟨?_, runSt_noCr T ?_ h2⟩
    · rintro rfl
      rw [(T.cr _).mpr rfl] at h1
      cases h1
    · cases hx : T.cls x <;> rw [hx] at h1 <;> first | decide | exact absurd h1 (by decide)

end Scribe.Uax29

namespace Scribe.Spec
open Buf (Cmd)
variable {S : Segmenter} {P : Text → Prop}

theorem over_noCr (hcr : ∀ c, P c → '\r' ∉ c) {t : Text} (ht : Over S.segs P t) : '\r' ∉ t := by
  intro h
  rw [← S.join t] at h
  obtain ⟨c, h1, h2⟩ := List.mem_flatten.mp h
  exact hcr c (ht c h1) h2

theorem over_append (hP : Closed S.segs P) {a b : Text} (ha : Over S.segs P a) (hb : Over S.segs P b) :
    S.segs (a ++ b) = S.segs a ++ S.segs b := by
  have := hP.apart (S.segs a ++ S.segs b) (by
    intro c hc
    rcases List.mem_append.mp hc with h | h
    · exact ha c h
    · exact hb c h)
  rwa [List.flatten_append, S.join, S.join] at this

theorem exists_cut {t : Text} {a b : List Text} (h : S.segs t = a ++ b) : exists? S.segs t (endPos a) = true := by
  unfold exists?; rw [h, locate_append]; rfl

/-- No position lies between the two sides of a cluster; there is none after the end. -/
theorem no_column {t : Text} {a b : List Text} (h : S.segs t = a ++ b) (hb : b.head? = some ['\n'] ∨ b = []) :
    exists? S.segs t ⟨(endPos a).line, (endPos a).offset + 1⟩ = false := by
  unfold exists?
  rw [Option.isSome_eq_false_iff, Option.isNone_iff_eq_none, locate_eq_none]
  intro a' b' h' he
  rw [h] at h'
  obtain ⟨c, hc, h1, h2⟩ := split_mono_lt h' (by rw [he]; exact Or.inr ⟨rfl, Nat.lt_succ_self _⟩)
  rcases hb with hb | hb
  · cases c with
    | nil => exact hc rfl
    | cons x c =>
      rw [h2] at hb
      obtain rfl : x = ['\n'] := by simpa using hb
      have k := endPos_le_append (a ++ [['\n']]) c
      rw [List.append_assoc, List.singleton_append, ← h1, he, endPos_concat] at k
      unfold AtOrBefore step at k
      simp at k
      omega
  · rw [hb] at h2
    cases c with
    | nil => exact hc rfl
    | cons x c => cases h2

theorem after_cut {t : Text} {a b : List Text} (h : S.segs t = a ++ b) : afterEnd (S.segs t) (endPos a) = b := by
  unfold afterEnd; rw [h, locate_append]

theorem flatten_of {t : Text} {a : List Text} (h : S.segs t = a) : t = a.flatten := by rw [← h, S.join]

theorem move_right {t : Text} {a b : List Text} {x : Text} (h : S.segs t = a ++ x :: b) (hx : x ≠ ['\n']) (c : Cursor)
    (hc : c.position = endPos a) : (moveCursor S.segs t c .right).position = endPos (a ++ [x]) := by
  have e : endPos (a ++ [x]) = ⟨(endPos a).line, (endPos a).offset + 1⟩ := by rw [endPos_concat, step, if_neg hx]
  have k := exists_cut (S := S) (t := t) (a := a ++ [x]) (b := b) (by rw [h]; simp)
  simp only [moveCursor, tryMove, hc, ← e, k, if_true]

theorem move_left {t : Text} {a b : List Text} {x : Text} (h : S.segs t = a ++ x :: b) (hx : x ≠ ['\n']) (c : Cursor)
    (hc : c.position = endPos (a ++ [x])) : (moveCursor S.segs t c .left).position = endPos a := by
  have e : endPos (a ++ [x]) = ⟨(endPos a).line, (endPos a).offset + 1⟩ := by rw [endPos_concat, step, if_neg hx]
  have k := exists_cut (S := S) h
  simp only [moveCursor, tryMove, hc, e, Nat.succ_ne_zero, if_false, Nat.add_sub_cancel]
  rw [if_pos k]

/-- A movement to an existing line ends on it. -/
theorem tryLine_line {t : Text} (hcr : '\r' ∉ t) {l o : Nat} (h : exists? S.segs t ⟨l, o⟩ = true) (c : Cursor) :
    (tryLine S.segs t c l).position.line = l ∧ exists? S.segs t (tryLine S.segs t c l).position = true := by
  obtain ⟨n, h1, _⟩ := (Cursor.exists_lineLen hcr l o).mp h
  have e := Cursor.lineEnd_eq (S := S) hcr h1
  unfold Cursor.lineEnd at e
  have k := (Cursor.exists_lineLen (S := S) hcr l n).mpr ⟨n, h1, Nat.le_refl _⟩
  unfold tryLine
  simp only [e]
  split
  · rename_i h2; exact ⟨rfl, h2⟩
  · simp only [k]; exact ⟨trivial, trivial⟩

theorem move_newline {t : Text} (hcr : '\r' ∉ t) {a b : List Text} (h : S.segs t = a ++ ['\n'] :: b) (c : Cursor)
    (hc : c.position = endPos a) :
    (moveCursor S.segs t (moveCursor S.segs t c .down) .startOfLine).position = endPos (a ++ [['\n']]) := by
  have e : endPos (a ++ [['\n']]) = ⟨(endPos a).line + 1, 0⟩ := by rw [endPos_concat, step, if_pos rfl]
  have k := exists_cut (S := S) (t := t) (a := a ++ [['\n']]) (b := b) (by rw [h]; simp)
  rw [e] at k
  have k1 := (tryLine_line hcr k c).1
  simp only [moveCursor, hc]
  rw [k1, tryMove, if_pos k, e]

theorem move_back {t : Text} (hcr : '\r' ∉ t) {a b : List Text} (h : S.segs t = a ++ ['\n'] :: b) (c : Cursor)
    (hc : c.position = endPos (a ++ [['\n']])) :
    (moveCursor S.segs t (moveCursor S.segs t c .up) .endOfLine).position = endPos a := by
  have e : endPos (a ++ [['\n']]) = ⟨(endPos a).line + 1, 0⟩ := by rw [endPos_concat, step, if_pos rfl]
  have k := exists_cut (S := S) h
  have no := no_column (S := S) h (Or.inl rfl)
  obtain ⟨k1, k2⟩ := tryLine_line hcr (l := (endPos a).line) (o := (endPos a).offset) k c
  have len : lineLen S.segs t (endPos a).line = some (endPos a).offset := by
    obtain ⟨n, h1, h2⟩ := (Cursor.exists_lineLen hcr (endPos a).line (endPos a).offset).mp k
    rw [h1]
    by_contra hne
    have : exists? S.segs t ⟨(endPos a).line, (endPos a).offset + 1⟩ = true :=
      (Cursor.exists_lineLen hcr _ _).mpr ⟨n, h1, by
        have : n ≠ (endPos a).offset := fun h => hne (by rw [h])
        omega⟩
    rw [no] at this; cases this
  have hm : moveCursor S.segs t c .up = tryLine S.segs t c (endPos a).line := by
    simp only [moveCursor, hc, e, Nat.succ_ne_zero, if_false, Nat.add_sub_cancel]
  rw [hm]
  generalize tryLine S.segs t c (endPos a).line = c' at k1 k2
  simp only [moveCursor, k1]
  obtain ⟨l, hl, hn⟩ := Option.map_eq_some_iff.mp len
  rcases strLines_getElem hcr _ hl with h1 | ⟨h1, rfl⟩
  · rw [h1]
    show (tryMove S.segs t c' ⟨_, (S.segs l).length⟩).position = _
    rw [hn, tryMove, if_pos k]
  · rw [h1]
    show c'.position = _
    rcases c' with ⟨⟨l', o'⟩, st⟩
    simp only at k1 k2 ⊢
    subst k1
    obtain ⟨n, h2, h3⟩ := (Cursor.exists_lineLen hcr _ _).mp k2
    rw [len] at h2
    obtain rfl := Option.some.inj h2
    have : (endPos a).offset = 0 := by rw [← hn]; simp
    show (⟨(endPos a).line, o'⟩ : Position) = endPos a
    rw [show o' = (endPos a).offset by omega]

/-- `delete` takes the cluster after the cursor. -/
theorem deleteEnd_eq {t : Text} {a b : List Text} {x : Text} (h : S.segs t = a ++ x :: b) :
    Doc.deleteEnd S.segs t (endPos a) = endPos (a ++ [x]) := by
  have k := exists_cut (S := S) (t := t) (a := a ++ [x]) (b := b) (by rw [h]; simp)
  unfold Doc.deleteEnd
  by_cases hx : x = ['\n']
  · subst hx
    rw [no_column h (Or.inl rfl), endPos_concat, step, if_pos rfl]; rfl
  · rw [endPos_concat, step, if_neg hx] at k
    rw [if_pos k, endPos_concat, step, if_neg hx]

theorem delete_one {t : Text} {a b : List Text} {x : Text} (h : S.segs t = a ++ x :: b) :
    deleteRange S.segs t (endPos a) (Doc.deleteEnd S.segs t (endPos a)) = (a ++ b).flatten := by
  rw [deleteEnd_eq h]
  unfold deleteRange
  rw [after_cut (S := S) (t := t) (a := a ++ [x]) (b := b) (by rw [h]; simp), h, locate_append]
  simp

/-- At the end of the text `delete` does nothing. -/
theorem delete_none {t : Text} {a : List Text} (h : S.segs t = a) :
    deleteRange S.segs t (endPos a) (Doc.deleteEnd S.segs t (endPos a)) = t := by
  have h' : S.segs t = a ++ [] := by rw [h, List.append_nil]
  have e : Doc.deleteEnd S.segs t (endPos a) = ⟨(endPos a).line + 1, 0⟩ := by
    unfold Doc.deleteEnd; rw [no_column h' (Or.inr rfl)]; rfl
  have none : ∀ l, (endPos a).line < l → locate (S.segs t) ⟨l, 0⟩ = none := by
    intro l hl
    rw [locate_eq_none]
    intro x y hxy he
    have k := endPos_le_append x y
    rw [← hxy, h, he] at k
    unfold AtOrBefore at k
    simp at k
    omega
  unfold deleteRange afterEnd
  rw [e, none _ (by simp), none _ (by simp; omega)]
  rw [h', locate_append]
  simp [← h, S.join]

theorem insert_at {t s : Text} {a b : List Text} (h : S.segs t = a ++ b) : insertAt S.segs t s (endPos a) = a.flatten ++ s ++ b.flatten := by
  unfold insertAt; rw [h, locate_append]

theorem step_edit (segs : Text → List Text) (d : Doc) (e : Edit) (he : e.whole = false) :
    (d.edit segs e).text = e.after ∧ (d.edit segs e).cursor = d.cursor := by
  have h : (d.apply segs e).text = e.after ∧ (d.apply segs e).cursor = d.cursor := by
    unfold Doc.apply Doc.setText Doc.report
    rw [he]
    simp only [Bool.false_eq_true, if_false]
    split <;> exact ⟨rfl, rfl⟩
  unfold Doc.edit
  dsimp only
  split <;> exact h

theorem steps_cons (segs : Text → List Text) (d : Doc) (c : Cmd) (cs : List Cmd) : d.steps segs (c :: cs) = (d.step segs c).steps segs cs := rfl
theorem steps_nil (segs : Text → List Text) (d : Doc) : d.steps segs [] = d := rfl

/-- One key. -/
theorem key_step (hP : Closed S.segs P) (hcr : ∀ c, P c → '\r' ∉ c) {d : Doc} {a b : List Text} {x : Text}
    (ha : ∀ c ∈ a, P c) (hb : ∀ c ∈ b, P c) (hx : P x) (ht : d.text = (a ++ b).flatten) (hc : d.cursor.position = endPos a) :
    CleanCmds S.segs d (key x) ∧ (d.steps S.segs (key x)).text = (a ++ x :: b).flatten ∧
      (d.steps S.segs (key x)).cursor.position = endPos (a ++ [x]) := by
  have hab : ∀ c ∈ a ++ b, P c := fun c h => (List.mem_append.mp h).elim (ha c) (hb c)
  have haxb : ∀ c ∈ a ++ x :: b, P c := by
    intro c h
    rcases List.mem_append.mp h with h | h
    · exact ha c h
    · rcases List.mem_cons.mp h with rfl | h
      · exact hx
      · exact hb c h
  have hs : S.segs d.text = a ++ b := by rw [ht]; exact hP.apart _ hab
  have hsx : S.segs x = [x] := by simpa using hP.apart [x] (by simpa using hx)
  have hover : Over S.segs P d.text := fun c h => hab c (by rwa [hs] at h)
  have hox : Over S.segs P x := by intro c h; rw [hsx] at h; rw [List.mem_singleton.mp h]; exact hx
  have hcl : CleanCmd S.segs d (.insert x) := ⟨over_cleanInsert hP _ hover hox, fun h => hP.noCrlf (hox _ h)⟩
  obtain ⟨e1, e2⟩ := step_edit S.segs d (Doc.insertEdit S.segs d.text x d.cursor.position) rfl
  have e3 : (d.step S.segs (.insert x)).text = (a ++ x :: b).flatten := by
    show (d.edit _ _).text = _
    rw [e1]
    show insertAt _ _ _ _ = _
    rw [hc, insert_at hs]; simp
  have e4 : (d.step S.segs (.insert x)).cursor.position = endPos a := by
    show (d.edit _ _).cursor.position = _
    rw [e2, hc]
  have hs' : S.segs (d.step S.segs (.insert x)).text = a ++ x :: b := by rw [e3]; exact hP.apart _ haxb
  generalize hd : d.step S.segs (.insert x) = d1 at e3 e4 hs'
  have hcr' : '\r' ∉ d1.text := over_noCr (S := S) hcr (fun c h => haxb c (by rwa [hs'] at h))
  unfold key
  split
  · rename_i hn
    subst hn
    refine ⟨⟨hcl, trivial, trivial, trivial⟩, ?_, ?_⟩
    · rw [steps_cons, hd]; exact e3
    · rw [steps_cons, hd]; exact move_newline hcr' hs' _ e4
  · rename_i hn
    refine ⟨⟨hcl, trivial, trivial⟩, ?_, ?_⟩
    · rw [steps_cons, hd]; exact e3
    · rw [steps_cons, hd]; exact move_right hs' hn _ e4

theorem cleanCmds_app {segs : Text → List Text} {d : Doc} {x y : List Cmd} :
    CleanCmds segs d (x ++ y) ↔ CleanCmds segs d x ∧ CleanCmds segs (d.steps segs x) y := by
  induction x generalizing d with
  | nil => exact ⟨fun h => ⟨trivial, h⟩, fun h => h.2⟩
  | cons c x ih =>
    show CleanCmd segs d c ∧ CleanCmds segs (d.step segs c) (x ++ y) ↔ (CleanCmd segs d c ∧ CleanCmds segs (d.step segs c) x) ∧ _
    rw [ih, and_assoc]; rfl

/-- Many keys. -/
theorem keys_step (hP : Closed S.segs P) (hcr : ∀ c, P c → '\r' ∉ c) (xs : List Text) {d : Doc} {a b : List Text}
    (ha : ∀ c ∈ a, P c) (hb : ∀ c ∈ b, P c) (hx : ∀ c ∈ xs, P c) (ht : d.text = (a ++ b).flatten) (hc : d.cursor.position = endPos a) :
    CleanCmds S.segs d (xs.flatMap key) ∧ (d.steps S.segs (xs.flatMap key)).text = (a ++ xs ++ b).flatten ∧
      (d.steps S.segs (xs.flatMap key)).cursor.position = endPos (a ++ xs) := by
  induction xs generalizing d a with
  | nil => exact ⟨trivial, by rw [List.append_nil]; exact ht, by rw [List.append_nil]; exact hc⟩
  | cons x xs ih =>
    obtain ⟨h1, h2, h3⟩ := key_step hP hcr ha hb (hx x (by simp)) ht hc
    have ha' : ∀ c ∈ a ++ [x], P c := by
      intro c h
      rcases List.mem_append.mp h with h | h
      · exact ha c h
      · rw [List.mem_singleton.mp h]; exact hx x (by simp)
    obtain ⟨k1, k2, k3⟩ := ih (d := d.steps S.segs (key x)) ha' (fun c h => hx c (by simp [h])) (by rw [h2]; simp) h3
    rw [List.flatMap_cons]
    have es : d.steps S.segs (key x ++ xs.flatMap key) = (d.steps S.segs (key x)).steps S.segs (xs.flatMap key) := List.foldl_append ..
    refine ⟨cleanCmds_app.mpr ⟨h1, k1⟩, ?_, ?_⟩
    · rw [es, k2]; simp
    · rw [es, k3]; simp

/-- One backspace. -/
theorem backspace_step (hP : Closed S.segs P) (hcr : ∀ c, P c → '\r' ∉ c) {d : Doc} {a b : List Text} {x : Text}
    (ha : ∀ c ∈ a, P c) (hb : ∀ c ∈ b, P c) (hx : P x) (ht : d.text = (a ++ x :: b).flatten) (hc : d.cursor.position = endPos (a ++ [x])) :
    CleanCmds S.segs d (backspace d.cursor.position) ∧ (d.steps S.segs (backspace d.cursor.position)).text = (a ++ b).flatten ∧
      (d.steps S.segs (backspace d.cursor.position)).cursor.position = endPos a := by
  have haxb : ∀ c ∈ a ++ x :: b, P c := by
    intro c h
    rcases List.mem_append.mp h with h | h
    · exact ha c h
    · rcases List.mem_cons.mp h with rfl | h
      · exact hx
      · exact hb c h
  have hs : S.segs d.text = a ++ x :: b := by rw [ht]; exact hP.apart _ haxb
  have hover : Over S.segs P d.text := fun c h => haxb c (by rwa [hs] at h)
  have hcr' : '\r' ∉ d.text := over_noCr (S := S) hcr hover
  have main : ∀ d1 : Doc, d1.text = d.text → d1.cursor.position = endPos a → CleanCmd S.segs d1 .delete ∧
      (d1.step S.segs .delete).text = (a ++ b).flatten ∧ (d1.step S.segs .delete).cursor.position = endPos a := by
    intro d1 h1 h2
    obtain ⟨e1, e2⟩ := step_edit S.segs d1
      (Doc.deleteEdit S.segs d1.text d1.cursor.position (Doc.deleteEnd S.segs d1.text d1.cursor.position)) rfl
    refine ⟨over_cleanDelete hP _ _ (by rw [h1]; exact hover), ?_, ?_⟩
    · show (d1.edit _ _).text = _
      rw [e1]
      show deleteRange _ _ _ _ = _
      rw [h1, h2]; exact delete_one hs
    · show (d1.edit _ _).cursor.position = _
      rw [e2, h2]
  unfold backspace
  by_cases hn : x = ['\n']
  · subst hn
    rw [if_pos (by rw [hc, endPos_concat, step, if_pos rfl])]
    obtain ⟨m1, m2, m3⟩ := main { d with cursor := moveCursor S.segs d.text (moveCursor S.segs d.text d.cursor .up) .endOfLine } rfl
      (move_back hcr' hs _ hc)
    exact ⟨⟨trivial, trivial, m1, trivial⟩, m2, m3⟩
  · rw [if_neg (by rw [hc, endPos_concat, step, if_neg hn]; simp)]
    obtain ⟨m1, m2, m3⟩ := main { d with cursor := moveCursor S.segs d.text d.cursor .left } rfl (move_left hs hn _ hc)
    exact ⟨⟨trivial, m1, trivial⟩, m2, m3⟩

/-- One `delete`. -/
theorem delete_step (hP : Closed S.segs P) {d : Doc} {a b : List Text}
    (ha : ∀ c ∈ a, P c) (hb : ∀ c ∈ b, P c) (ht : d.text = (a ++ b).flatten) (hc : d.cursor.position = endPos a) :
    CleanCmd S.segs d .delete ∧ (d.step S.segs .delete).text = (a ++ b.tail).flatten ∧ (d.step S.segs .delete).cursor = d.cursor := by
  have hab : ∀ c ∈ a ++ b, P c := fun c h => (List.mem_append.mp h).elim (ha c) (hb c)
  have hs : S.segs d.text = a ++ b := by rw [ht]; exact hP.apart _ hab
  obtain ⟨e1, e2⟩ := step_edit S.segs d
    (Doc.deleteEdit S.segs d.text d.cursor.position (Doc.deleteEnd S.segs d.text d.cursor.position)) rfl
  refine ⟨over_cleanDelete hP _ _ (fun c h => hab c (by rwa [hs] at h)), ?_, e2⟩
  show (d.edit _ _).text = _
  rw [e1]
  show deleteRange _ _ _ _ = _
  rw [hc]
  cases b with
  | nil => rw [List.append_nil] at hs; rw [delete_none hs, ht]; rfl
  | cons x b => exact delete_one hs

theorem deletes_step (hP : Closed S.segs P) (n : Nat) {d : Doc} {a b : List Text}
    (ha : ∀ c ∈ a, P c) (hb : ∀ c ∈ b, P c) (ht : d.text = (a ++ b).flatten) (hc : d.cursor.position = endPos a) :
    CleanCmds S.segs d (List.replicate n .delete) ∧ (d.steps S.segs (List.replicate n .delete)).text = (a ++ b.drop n).flatten ∧
      (d.steps S.segs (List.replicate n .delete)).cursor = d.cursor := by
  induction n generalizing d b with
  | zero => exact ⟨trivial, ht, rfl⟩
  | succ n ih =>
    obtain ⟨h1, h2, h3⟩ := delete_step hP ha hb ht hc
    obtain ⟨k1, k2, k3⟩ := ih (fun c h => hb c (List.mem_of_mem_tail h)) h2 (by rw [h3]; exact hc)
    rw [List.replicate_succ]
    refine ⟨⟨h1, k1⟩, ?_, k3.trans h3⟩
    rw [steps_cons, k2, List.drop_tail]

end Scribe.Spec
