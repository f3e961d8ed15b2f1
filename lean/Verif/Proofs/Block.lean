import Verif.Proofs.Sheet
import Verif.Spec.Block
/-! # Indenting and outdenting lines -/
namespace Scribe
open Spec
variable {S : Segmenter} {P : Text → Prop}

theorem indent_step (hP : Closed S.segs P) {d : Doc} (h : Over S.segs P d.text) {l : Nat} {r : List Text} (hr : (rows (S.segs d.text))[l]? = some r) {s : Text}
    (hs : Over S.segs P s) (hn : '\n' ∉ s) :
    CleanCmds S.segs d [.move (.to ⟨l, 0⟩), .insert s] ∧ Over S.segs P (d.steps S.segs [.move (.to ⟨l, 0⟩), .insert s]).text ∧
    rows (S.segs (d.steps S.segs [.move (.to ⟨l, 0⟩), .insert s]).text) = (rows (S.segs d.text)).set l (S.segs s ++ r) ∧
    (d.steps S.segs [.move (.to ⟨l, 0⟩), .insert s]).cursor = ⟨⟨l, 0⟩, 0⟩ := by
  have hhas : (rows (S.segs d.text)).has ⟨l, 0⟩ = true := by simp [Page.has, hr]
  have e1 : d.step S.segs (.move (.to ⟨l, 0⟩)) = { d with cursor := ⟨⟨l, 0⟩, 0⟩ } := by
    show { d with cursor := moveCursor S.segs d.text d.cursor (.to ⟨l, 0⟩) } = _
    have : moveCursor S.segs d.text d.cursor (.to ⟨l, 0⟩) = (rows (S.segs d.text)).goTo d.cursor ⟨l, 0⟩ := tryMove_rows _ _ _
    rw [this, Page.goTo, hhas, if_pos rfl]
  have e3 := step_edit S.segs { d with cursor := ⟨⟨l, 0⟩, 0⟩ } (Doc.insertEdit S.segs d.text s ⟨l, 0⟩) rfl
  have es : d.steps S.segs [.move (.to ⟨l, 0⟩), .insert s] = Doc.edit S.segs { d with cursor := ⟨⟨l, 0⟩, 0⟩ } (Doc.insertEdit S.segs d.text s ⟨l, 0⟩) := by
    show ((d.step S.segs (.move (.to ⟨l, 0⟩))).step S.segs (.insert s)) = _
    rw [e1]; rfl
  have hsr : rows (S.segs s) = [S.segs s] := rows_no_nl fun hm => hn (by
    rw [← S.join s]; exact List.mem_flatten.mpr ⟨_, hm, by simp⟩)
  refine ⟨⟨trivial, ?_, trivial⟩, ?_, ?_, ?_⟩
  · rw [e1]
    exact ⟨over_cleanInsert hP _ h hs, fun h => hP.noCrlf (hs _ h)⟩
  · rw [es, e3.1]; exact over_insertAt hP _ h hs
  · rw [es, e3.1]
    show rows (S.segs (insertAt _ _ _ _)) = _
    rw [rows_insertAt (over_cleanInsert hP _ h hs), hsr, row_insert hr (Nat.zero_le _)]
    simp
  · rw [es, e3.2]

theorem outdent_step (hP : Closed S.segs P) {d : Doc} (h : Over S.segs P d.text) {l n : Nat} {r : List Text} (hr : (rows (S.segs d.text))[l]? = some r) (hn : n ≤ r.length) :
    CleanCmds S.segs d [.deleteRange ⟨l, 0⟩ ⟨l, n⟩] ∧ Over S.segs P (d.steps S.segs [.deleteRange ⟨l, 0⟩ ⟨l, n⟩]).text ∧
    rows (S.segs (d.steps S.segs [.deleteRange ⟨l, 0⟩ ⟨l, n⟩]).text) = (rows (S.segs d.text)).set l (r.drop n) ∧
    (d.steps S.segs [.deleteRange ⟨l, 0⟩ ⟨l, n⟩]).cursor = d.cursor := by
  have hlo : lo ⟨l, 0⟩ ⟨l, n⟩ = ⟨l, 0⟩ := if_pos (Or.inr ⟨rfl, by simp⟩)
  have hhi : hi ⟨l, 0⟩ ⟨l, n⟩ = ⟨l, n⟩ := if_pos (Or.inr ⟨rfl, by simp⟩)
  have hhas : (rows (S.segs d.text)).has ⟨l, n⟩ = true := by simp [Page.has, hr, hn]
  have e2 := step_edit S.segs d (Doc.deleteEdit S.segs d.text ⟨l, 0⟩ ⟨l, n⟩) rfl
  have es : d.steps S.segs [.deleteRange ⟨l, 0⟩ ⟨l, n⟩] = d.edit S.segs (Doc.deleteEdit S.segs d.text ⟨l, 0⟩ ⟨l, n⟩) := by
    show Doc.edit S.segs _ (Doc.deleteEdit S.segs d.text (lo _ _) (hi _ _)) = _
    rw [hlo, hhi]
  refine ⟨⟨?_, trivial⟩, ?_, ?_, ?_⟩
  · show CleanRange S.segs d.text (lo _ _) (hi _ _)
    rw [hlo, hhi]
    exact ⟨over_cleanDelete hP _ _ h, Or.inl (by rw [exists_rows]; exact hhas)⟩
  · rw [es, e2.1]; exact over_deleteRange hP _ _ h
  · rw [es, e2.1]
    show rows (S.segs (Spec.deleteRange _ _ _ _)) = _
    have := row_remove (o := 0) (n := n) hr (by omega)
    rw [Nat.zero_add] at this
    rw [rows_deleteRange (over_cleanDelete hP _ _ h), this]
    simp
  · rw [es, e2.2]

theorem count_cons_getElem (ls : List Nat) (l i : Nat) : (l :: ls).count i = ls.count i + if l = i then 1 else 0 := by
  rw [List.count_cons]; simp

theorem indent_all (hP : Closed S.segs P) {s : Text} (hs : Over S.segs P s) (hn : '\n' ∉ s) (ls : List Nat) : ∀ {d : Doc}, Over S.segs P d.text →
    (∀ l ∈ ls, l < (rows (S.segs d.text)).length) →
    CleanCmds S.segs d (indentCalls s ls) ∧ rows (S.segs (d.steps S.segs (indentCalls s ls)).text) =
      (rows (S.segs d.text)).mapIdx fun i r => (List.replicate (ls.count i) (S.segs s)).flatten ++ r := by
  induction ls with
  | nil =>
    intro d h _
    refine ⟨trivial, ?_⟩
    apply List.ext_getElem?
    intro i
    rw [List.getElem?_mapIdx]
    simp [indentCalls, Doc.steps]
  | cons l ls ih =>
    intro d h hl
    have hlt := hl l (by simp)
    obtain ⟨r, hr⟩ : ∃ r, (rows (S.segs d.text))[l]? = some r := ⟨_, List.getElem?_eq_getElem hlt⟩
    obtain ⟨k1, k2, k3, -⟩ := indent_step hP h hr hs hn
    obtain ⟨m1, m2⟩ := ih (d := d.steps S.segs [.move (.to ⟨l, 0⟩), .insert s]) k2 (fun x hx => by rw [k3, List.length_set]; exact hl x (by simp [hx]))
    rw [show indentCalls s (l :: ls) = [.move (.to ⟨l, 0⟩), .insert s] ++ indentCalls s ls from rfl]
    refine ⟨cleanCmds_append.mpr ⟨k1, m1⟩, ?_⟩
    rw [show d.steps S.segs ([.move (.to ⟨l, 0⟩), .insert s] ++ indentCalls s ls) = (d.steps S.segs [.move (.to ⟨l, 0⟩), .insert s]).steps S.segs (indentCalls s ls) from
      List.foldl_append, m2, k3]
    apply List.ext_getElem?
    intro i
    rw [List.getElem?_mapIdx, List.getElem?_mapIdx, List.getElem?_set, count_cons_getElem]
    by_cases hi : l = i
    · subst hi
      rw [if_pos rfl, if_pos hlt, hr, if_pos rfl, List.replicate_succ']
      simp
    · rw [if_neg hi, if_neg hi, Nat.add_zero]

theorem outdent_all (hP : Closed S.segs P) (n : Nat) (ls : List Nat) : ∀ {d : Doc}, Over S.segs P d.text →
    (∀ l ∈ ls, ∃ r, (rows (S.segs d.text))[l]? = some r ∧ n * ls.count l ≤ r.length) →
    CleanCmds S.segs d (outdentCalls n ls) ∧ rows (S.segs (d.steps S.segs (outdentCalls n ls)).text) =
      (rows (S.segs d.text)).mapIdx fun i r => r.drop (n * ls.count i) := by
  induction ls with
  | nil =>
    intro d h _
    refine ⟨trivial, ?_⟩
    apply List.ext_getElem?
    intro i
    rw [List.getElem?_mapIdx]
    simp [outdentCalls, Doc.steps]
  | cons l ls ih =>
    intro d h hl
    obtain ⟨r, hr, hle⟩ := hl l (by simp)
    have hlt := (List.getElem?_eq_some_iff.mp hr).1
    rw [List.count_cons_self, Nat.mul_add, Nat.mul_one] at hle
    obtain ⟨k1, k2, k3, -⟩ := outdent_step hP h hr (n := n) (by omega)
    obtain ⟨m1, m2⟩ := ih (d := d.steps S.segs [.deleteRange ⟨l, 0⟩ ⟨l, n⟩]) k2 (fun x hx => by
      rw [k3, List.getElem?_set]
      by_cases hi : l = x
      · subst hi
        rw [if_pos rfl, if_pos hlt]
        exact ⟨_, rfl, by rw [List.length_drop]; omega⟩
      · rw [if_neg hi]
        obtain ⟨r', h1, h2⟩ := hl x (by simp [hx])
        rw [count_cons_getElem, if_neg hi, Nat.add_zero] at h2
        exact ⟨r', h1, h2⟩)
    rw [show outdentCalls n (l :: ls) = [.deleteRange ⟨l, 0⟩ ⟨l, n⟩] ++ outdentCalls n ls from rfl]
    refine ⟨cleanCmds_append.mpr ⟨k1, m1⟩, ?_⟩
    rw [show d.steps S.segs ([.deleteRange ⟨l, 0⟩ ⟨l, n⟩] ++ outdentCalls n ls) = (d.steps S.segs [.deleteRange ⟨l, 0⟩ ⟨l, n⟩]).steps S.segs (outdentCalls n ls) from
      List.foldl_append, m2, k3]
    apply List.ext_getElem?
    intro i
    rw [List.getElem?_mapIdx, List.getElem?_mapIdx, List.getElem?_set, count_cons_getElem]
    by_cases hi : l = i
    · subst hi
      rw [if_pos rfl, if_pos hlt, hr, if_pos rfl]
      simp [Nat.mul_add, Nat.add_comm]
    · rw [if_neg hi, if_neg hi, Nat.add_zero]

/-- The text of a page of lines. -/
theorem text_mapIdx {t : Text} (hcr : '\r' ∉ t) (f : Nat → List Text → List Text) (g : Nat → Text → Text) (hfg : ∀ i l, (f i (S.segs l)).flatten = g i l) :
    Page.text ((rows (S.segs t)).mapIdx f) = unlines ((splitNl t).mapIdx g) := by
  rw [rows_splitNl hcr, Page.text, unlines]
  congr 1
  apply List.ext_getElem?
  intro i
  simp only [List.getElem?_map, List.getElem?_mapIdx]
  cases (splitNl t)[i]? with
  | none => rfl
  | some l => simp [hfg]

end Scribe
