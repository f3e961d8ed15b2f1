import Verif.Proofs.Block
import Verif.Props.Sheet
import Verif.Props.LineRange
import Verif.Props.Findings
/-!
# C113: indenting and outdenting lines
-/
namespace Scribe.Props
open Spec Buf
variable {S : Segmenter} {P : Text → Prop}

theorem asGroup_clean {d : Doc} {cs : List Cmd} (h : CleanCmds S.segs (d.step S.segs .startGroup) cs) : CleanCmds S.segs d (asGroup cs) :=
  ⟨trivial, cleanCmds_append.mpr ⟨h, trivial, trivial⟩⟩

theorem asGroup_text (d : Doc) (cs : List Cmd) : (d.steps S.segs (asGroup cs)).text = ((d.step S.segs .startGroup).steps S.segs cs).text := by
  show (((d.step S.segs .startGroup) :: []).foldl (fun _ x => x.steps S.segs (cs ++ [.endGroup])) d).text = _
  show ((d.step S.segs .startGroup).steps S.segs (cs ++ [.endGroup])).text = _
  rw [show (d.step S.segs .startGroup).steps S.segs (cs ++ [.endGroup]) = ((d.step S.segs .startGroup).steps S.segs cs).step S.segs .endGroup from by
    rw [Doc.steps, List.foldl_append]; rfl]
  generalize (d.step S.segs .startGroup).steps S.segs cs = x
  simp only [Doc.step, Doc.endGroup]
  split <;> rfl

theorem startGroup_text (d : Doc) : (d.step S.segs .startGroup).text = d.text := by
  simp only [Doc.step]
  try (split <;> rfl)

theorem group_result (A : Alloc) (b : Buf) (d : Doc) (cs : List Cmd) (h : Reached S A b d) (hg : b.group = none) (hc : CleanCmds S.segs d (asGroup cs))
    (hi : ∀ c ∈ cs, InGroup c) (he : ∃ c ∈ cs, IsEdit c) (u : Text) (hu : (d.steps S.segs (asGroup cs)).text = u) :
    ∃ b1 b2 b3, execAll S A b (asGroup cs) = .ok b1 ∧ b1.data.toStr = .ok u ∧ b1.history.previous.length = b.history.previous.length + 1 ∧
      exec S A b1 .undo = .ok b2 ∧ b2.data.toStr = b.data.toStr ∧ exec S A b2 .redo = .ok b3 ∧ b3.data.toStr = .ok u := by
  obtain ⟨b1, b2, b3, h1, h2, h3, h4, h5, h6⟩ := C16_group_is_one_step S A b d cs h hg hc hi he
  obtain ⟨s, hs⟩ := h.tri
  obtain ⟨b', e1, e2⟩ := hs.execAll (A := A) _ hc
  rw [show execAll S A b (asGroup cs) = .ok b1 from h1] at e1
  cases e1
  have ht : b1.data.toStr = .ok u := by rw [e2.sim.face.data.toStr, hu]
  exact ⟨b1, b2, b3, h1, ht, h2, h3, h4, h5, h6.trans ht⟩

/-- **C113.** Putting `s` before lines, as one group: every line that is named has it before it in the end, in whatever order they were named, and no other line is touched. One undo
takes all of it back, one redo makes it again. -/
theorem C113_indent (hP : Closed S.segs P) (A : Alloc) (b : Buf) (d : Doc) (h : Reached S A b d) (hg : b.group = none) (t : Text) (ht : b.data.toStr = .ok t)
    (hov : Over S.segs P t) (hcr : '\r' ∉ t) (s : Text) (hs : Over S.segs P s) (hn : '\n' ∉ s) (ls : List Nat) (hne : ls ≠ []) (hl : ∀ l ∈ ls, l < (splitNl t).length) :
    ∃ b1 b2 b3, execAll S A b (asGroup (indentCalls s ls)) = .ok b1 ∧ b1.data.toStr = .ok (indented s ls t) ∧
      b1.history.previous.length = b.history.previous.length + 1 ∧ exec S A b1 .undo = .ok b2 ∧ b2.data.toStr = .ok t ∧
      exec S A b2 .redo = .ok b3 ∧ b3.data.toStr = .ok (indented s ls t) := by
  obtain ⟨s', hs'⟩ := h.tri
  obtain rfl := Except.ok.inj (hs'.sim.face.data.toStr.symm.trans ht)
  have e0 := startGroup_text (S := S) d
  obtain ⟨k1, k2⟩ := indent_all hP hs hn ls (d := d.step S.segs .startGroup) (by rw [e0]; exact hov) (by
    intro l hm
    rw [e0, rows_splitNl hcr, List.length_map]
    exact hl l hm)
  have := group_result A b d (indentCalls s ls) h hg (asGroup_clean k1) (by
      intro c hc
      simp only [indentCalls, List.mem_flatMap, List.mem_cons, List.not_mem_nil, or_false] at hc
      obtain ⟨l, -, rfl | rfl⟩ := hc <;> trivial)
    (by
      obtain ⟨l, ls', rfl⟩ := List.exists_cons_of_ne_nil hne
      exact ⟨.insert s, by simp [indentCalls], trivial⟩)
    (indented s ls d.text) (by
      rw [asGroup_text, ← text_rows (S := S) ((d.step S.segs .startGroup).steps S.segs (indentCalls s ls)).text, k2, e0, indented]
      exact text_mapIdx hcr _ _ fun i l => by
        rw [List.flatten_append, S.join, List.flatten_flatten, List.map_replicate, S.join])
  rwa [ht] at this

/-- **C113.** Removing the first `n` clusters of lines, as one group. -/
theorem C113_outdent (hP : Closed S.segs P) (A : Alloc) (b : Buf) (d : Doc) (h : Reached S A b d) (hg : b.group = none) (t : Text) (ht : b.data.toStr = .ok t)
    (hov : Over S.segs P t) (hcr : '\r' ∉ t) (n : Nat) (ls : List Nat) (hne : ls ≠ [])
    (hl : ∀ l ∈ ls, ∃ x, (splitNl t)[l]? = some x ∧ n * ls.count l ≤ (S.segs x).length) :
    ∃ b1 b2 b3, execAll S A b (asGroup (outdentCalls n ls)) = .ok b1 ∧ b1.data.toStr = .ok (outdented S.segs n ls t) ∧
      b1.history.previous.length = b.history.previous.length + 1 ∧ exec S A b1 .undo = .ok b2 ∧ b2.data.toStr = .ok t ∧
      exec S A b2 .redo = .ok b3 ∧ b3.data.toStr = .ok (outdented S.segs n ls t) := by
  obtain ⟨s', hs'⟩ := h.tri
  obtain rfl := Except.ok.inj (hs'.sim.face.data.toStr.symm.trans ht)
  have e0 := startGroup_text (S := S) d
  obtain ⟨k1, k2⟩ := outdent_all hP n ls (d := d.step S.segs .startGroup) (by rw [e0]; exact hov) (by
    intro l hm
    obtain ⟨x, h1, h2⟩ := hl l hm
    rw [e0, rows_splitNl hcr, List.getElem?_map, h1]
    exact ⟨_, rfl, h2⟩)
  have := group_result A b d (outdentCalls n ls) h hg (asGroup_clean k1) (by
      intro c hc
      simp only [outdentCalls, List.mem_map] at hc
      obtain ⟨l, -, rfl⟩ := hc; trivial)
    (by
      obtain ⟨l, ls', rfl⟩ := List.exists_cons_of_ne_nil hne
      exact ⟨_, List.mem_cons_self, trivial⟩)
    (outdented S.segs n ls d.text) (by
      rw [asGroup_text, ← text_rows (S := S) ((d.step S.segs .startGroup).steps S.segs (outdentCalls n ls)).text, k2, e0, outdented]
      exact text_mapIdx hcr _ _ fun i l => rfl)
  rwa [ht] at this

/-- **C113.** Outdenting by the number of clusters of `s` what was indented with it gives the text from before, also if the lines are named in another order. -/
theorem C113_back (hP : Closed S.segs P) (A : Alloc) (b : Buf) (d : Doc) (h : Reached S A b d) (t : Text) (ht : b.data.toStr = .ok t)
    (hov : Over S.segs P t) (hcr : '\r' ∉ t) (s : Text) (hs : Over S.segs P s) (hn : '\n' ∉ s) (ls ls' : List Nat) (hp : ls'.Perm ls) (hl : ∀ l ∈ ls, l < (splitNl t).length) :
    ∃ b1, execAll S A b (asGroup (indentCalls s ls) ++ asGroup (outdentCalls (S.segs s).length ls')) = .ok b1 ∧ b1.data.toStr = .ok t := by
  obtain ⟨s', hs'⟩ := h.tri
  obtain rfl := Except.ok.inj (hs'.sim.face.data.toStr.symm.trans ht)
  have e0 := startGroup_text (S := S) d
  obtain ⟨k1, k2⟩ := indent_all hP hs hn ls (d := d.step S.segs .startGroup) (by rw [e0]; exact hov) (by
    intro l hm
    rw [e0, rows_splitNl hcr, List.length_map]
    exact hl l hm)
  rw [e0] at k2
  generalize hd1 : d.steps S.segs (asGroup (indentCalls s ls)) = d1
  have e1 : d1.text = ((d.step S.segs .startGroup).steps S.segs (indentCalls s ls)).text := by rw [← hd1, asGroup_text]
  have e2 : (d1.step S.segs .startGroup).text = ((d.step S.segs .startGroup).steps S.segs (indentCalls s ls)).text := by rw [startGroup_text, e1]
  have hov1 : Over S.segs P (d1.step S.segs .startGroup).text := by
    rw [e2]
    have : ∀ (ls : List Nat) (d : Doc), Over S.segs P d.text → (∀ l ∈ ls, l < (rows (S.segs d.text)).length) → Over S.segs P (d.steps S.segs (indentCalls s ls)).text := by
      intro ls
      induction ls with
      | nil => intro d h _; exact h
      | cons l ls ih =>
        intro d h hl
        obtain ⟨r, hr⟩ : ∃ r, (rows (S.segs d.text))[l]? = some r := ⟨_, List.getElem?_eq_getElem (hl l (by simp))⟩
        obtain ⟨-, m2, m3, -⟩ := indent_step hP h hr hs hn
        rw [show d.steps S.segs (indentCalls s (l :: ls)) = (d.steps S.segs [.move (.to ⟨l, 0⟩), .insert s]).steps S.segs (indentCalls s ls) from rfl]
        exact ih _ m2 (fun x hx => by rw [m3, List.length_set]; exact hl x (by simp [hx]))
    refine this ls _ (by rw [e0]; exact hov) fun l hm => ?_
    rw [e0, rows_splitNl hcr, List.length_map]
    exact hl l hm
  have hlen : ∀ k, ((List.replicate k (S.segs s)).flatten).length = (S.segs s).length * k := by
    intro k; rw [List.length_flatten, List.map_replicate, List.sum_replicate_nat, Nat.mul_comm]
  obtain ⟨m1, m2⟩ := outdent_all hP (S.segs s).length ls' hov1 (by
    intro l hm
    have hlt : l < (rows (S.segs d.text)).length := by rw [rows_splitNl hcr, List.length_map]; exact hl l (hp.mem_iff.mp hm)
    rw [e2, k2, List.getElem?_mapIdx, List.getElem?_eq_getElem hlt]
    refine ⟨_, rfl, ?_⟩
    rw [List.length_append, hlen, hp.count_eq]
    omega)
  obtain ⟨b1, x1, x2⟩ := hs'.execAll (A := A) (asGroup (indentCalls s ls) ++ asGroup (outdentCalls (S.segs s).length ls'))
    (cleanCmds_append.mpr ⟨asGroup_clean k1, by rw [hd1]; exact asGroup_clean m1⟩)
  refine ⟨b1, x1, ?_⟩
  rw [x2.sim.face.data.toStr, show d.steps S.segs (asGroup (indentCalls s ls) ++ asGroup (outdentCalls (S.segs s).length ls')) =
    (d.steps S.segs (asGroup (indentCalls s ls))).steps S.segs (asGroup (outdentCalls (S.segs s).length ls')) from List.foldl_append, hd1, asGroup_text,
    ← text_rows (S := S) ((d1.step S.segs .startGroup).steps S.segs (outdentCalls (S.segs s).length ls')).text, m2, e2, k2]
  rw [← text_rows (S := S) d.text]
  congr 2
  rw [text_rows]
  apply List.ext_getElem?
  intro i
  simp only [List.getElem?_mapIdx]
  cases (rows (S.segs d.text))[i]? with
  | none => rfl
  | some r =>
    simp only [Option.map_some, Option.some.injEq]
    rw [hp.count_eq, List.drop_left' (hlen _)]

/-- **C113.** On a line with fewer than `n` clusters the same call deletes the whole line with its newline (the last line becomes empty), and undo does not bring it back. -/
theorem C113_short (S : Segmenter) (A : Alloc) (b : Buf) (d : Doc) (h : Reached S A b d) (hg : b.group = none) (t : Text) (ht : b.data.toStr = .ok t)
    (hcr : '\r' ∉ t) (l n : Nat) (x : Text) (hx : (splitNl t)[l]? = some x) (hn : (S.segs x).length < n) :
    ∃ b1 b2, exec S A b (.deleteRange ⟨l, 0⟩ ⟨l, n⟩) = .ok b1 ∧ b1.data.toStr = .ok (unlines (deleteLines (splitNl t) l (l + 1))) ∧
      exec S A b1 .undo = .ok b2 ∧ b2.data.toStr = b1.data.toStr := by
  obtain rfl := Except.ok.inj (h.holds.toStr.symm.trans ht)
  have hlo : lo ⟨l, 0⟩ ⟨l, n⟩ = ⟨l, 0⟩ := if_pos (Or.inr ⟨rfl, by simp⟩)
  have hhi : hi ⟨l, 0⟩ ⟨l, n⟩ = ⟨l, n⟩ := if_pos (Or.inr ⟨rfl, by simp⟩)
  have hq : exists? S.segs d.text (hi ⟨l, 0⟩ ⟨l, n⟩) = false := by
    rw [hhi, exists_rows, Page.has, rows_splitNl hcr, List.getElem?_map, hx]
    simp; omega
  have hq2 : ∀ k, (rows (S.segs d.text)).length ≤ k → locate (S.segs d.text) ⟨k, 0⟩ = none := by
    intro k hk
    have : exists? S.segs d.text ⟨k, 0⟩ = false := by rw [exists_rows, Page.has, List.getElem?_eq_none hk]
    unfold exists? at this
    cases hl : locate (S.segs d.text) ⟨k, 0⟩ with
    | none => rfl
    | some y => rw [hl] at this; cases this
  have e : Spec.deleteRange S.segs d.text ⟨l, 0⟩ ⟨l, n⟩ = unlines (deleteLines (splitNl d.text) l (l + 1)) := by
    rw [← deleteRange_lines S hcr]
    have : afterEnd (S.segs d.text) ⟨l, n⟩ = afterEnd (S.segs d.text) ⟨l + 1, 0⟩ := by
      rw [hhi] at hq
      unfold exists? at hq
      unfold afterEnd
      cases h1 : locate (S.segs d.text) ⟨l, n⟩ with
      | some y => rw [h1] at hq; cases hq
      | none =>
        simp only
        cases h2 : locate (S.segs d.text) ⟨l + 1, 0⟩ with
        | some y => rfl
        | none =>
          simp only
          have : (rows (S.segs d.text)).length ≤ l + 1 := by
            apply Nat.le_of_not_lt
            intro hlt
            have : exists? S.segs d.text ⟨l + 1, 0⟩ = true := by rw [exists_rows, Page.has, List.getElem?_eq_getElem hlt]; simp
            unfold exists? at this
            rw [h2] at this; cases this
          rw [hq2 (l + 1 + 1) (by omega)]
    unfold Spec.deleteRange
    rw [this]
  obtain ⟨b', h1, h2, -, -⟩ := C50_clipped_delete_not_undone S A b d ⟨l, 0⟩ ⟨l, n⟩ h hg hq
  obtain ⟨b1, e1, k2, -⟩ := deleteRange_missing (A := A) h.holds hg hq
  simp only [execAll, e1, Except.ok_bind'] at h1
  rw [hlo, hhi, e] at h2
  rw [hlo, hhi, e] at k2
  cases h3 : exec S A b1 .undo with
  | error p => rw [h3] at h1; cases h1
  | ok b2 =>
    rw [h3] at h1
    cases h1
    exact ⟨b1, _, e1, k2, h3, h2.trans k2.symm⟩

/-! ## Cases -/

/-- Ordinary text meets the hypotheses. -/
example : Closed Demo.seg.segs (Uax29.Ordinary Demo.table.cls) := Uax29.ordinary_closed _

example : Over Demo.seg.segs (Uax29.Ordinary Demo.table.cls) (Demo.s "fé\nb\n\nd") ∧ Over Demo.seg.segs (Uax29.Ordinary Demo.table.cls) (Demo.s "# ") := by
  constructor <;> (show ∀ c ∈ _, _) <;> decide +kernel

example : indented (Demo.s "# ") [2, 0, 1] (Demo.s "fé\nb\n\nd") = Demo.s "# fé\n# b\n# \nd" ∧
    outdented Demo.seg.segs 2 [0, 2] (Demo.s "# fé\n# b\n# \nd") = Demo.s "fé\n# b\n\nd" := by decide +kernel

example : (do
    let b ← execAll Demo.seg Demo.tight (Buf.fromContent Demo.tight 0 (Demo.s "fé\nb\n\nd")) (asGroup (indentCalls (Demo.s "# ") [2, 0, 1]))
    let b2 ← execAll Demo.seg Demo.tight b [.undo]
    let b3 ← execAll Demo.seg Demo.tight b (asGroup (outdentCalls 2 [0, 1, 2]))
    return (← b.data.toStr, ← b2.data.toStr, ← b3.data.toStr)) = .ok (Demo.s "# fé\n# b\n# \nd", Demo.s "fé\nb\n\nd", Demo.s "fé\nb\n\nd") := by decide +kernel

/-- Short lines: the second, then the last, which becomes empty. -/
example : (do
    let b ← execAll Demo.seg Demo.tight (Buf.fromContent Demo.tight 0 (Demo.s "  a\n b\n\nd")) [.deleteRange ⟨1, 0⟩ ⟨1, 4⟩]
    let b2 ← execAll Demo.seg Demo.tight b [.undo]
    let b3 ← execAll Demo.seg Demo.tight b [.deleteRange ⟨2, 0⟩ ⟨2, 4⟩]
    return (← b.data.toStr, ← b2.data.toStr, ← b3.data.toStr)) = .ok (Demo.s "  a\n\nd", Demo.s "  a\n\nd", Demo.s "  a\n\n") := by decide +kernel

end Scribe.Props
