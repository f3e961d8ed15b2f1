import Verif.Proofs.Block
import Verif.Spec.Splice
/-! # Replacing lines by other lines -/
namespace Scribe
open Spec
variable {S : Segmenter} {P : Text → Prop}

/-- Deleting from the start of row `i` to the end of row `j` leaves an empty row. -/
theorem block_remove {L : Page} {i j : Nat} {y : List Text} (hij : i ≤ j) (hj : L[j]? = some y) : L.remove ⟨i, 0⟩ ⟨j, y.length⟩ = L.take i ++ [] :: L.drop (j + 1) := by
  have hlt := (List.getElem?_eq_some_iff.mp hj).1
  obtain ⟨x, hi⟩ : ∃ x, L[i]? = some x := ⟨_, List.getElem?_eq_getElem (by omega)⟩
  rw [Page.remove, show L.has ⟨i, 0⟩ = true by simp [Page.has, hi], if_pos rfl, show L.has ⟨j, y.length⟩ = true by simp [Page.has, hj], if_pos rfl]
  show Page.glue (L.take i ++ [(L[i]?.getD []).take 0]) ((L[j]?.getD []).drop y.length :: L.drop (j + 1)) = _
  rw [glue_snoc_cons, hj]
  simp

/-- Inserting rows where a row is empty puts them in its place. -/
theorem block_insert (X Y M : Page) (hM : M ≠ []) : Page.insert (X ++ [] :: Y) ⟨X.length, 0⟩ M = X ++ M ++ Y := by
  have hx : (X ++ [] :: Y)[X.length]? = some [] := by simp
  have hhas : Page.has (X ++ [] :: Y) ⟨X.length, 0⟩ = true := by simp [Page.has]
  rw [Page.insert, hhas, if_pos rfl]
  show Page.glue (Page.glue ((X ++ [] :: Y).take X.length ++ [((X ++ [] :: Y)[X.length]?.getD []).take 0]) M)
    (((X ++ [] :: Y)[X.length]?.getD []).drop 0 :: (X ++ [] :: Y).drop (X.length + 1)) = _
  have e1 : (X ++ [] :: Y).take X.length = X := by simp
  have e2 : (X ++ [] :: Y).drop (X.length + 1) = Y := by simp
  rw [e1, e2, hx]
  obtain ⟨m, M', rfl⟩ := List.exists_cons_of_ne_nil hM
  simp only [Option.getD_some, List.take_zero, List.drop_zero]
  rw [glue_snoc_cons, List.nil_append]
  rcases List.eq_nil_or_concat (m :: M') with h | ⟨N, z, h⟩
  · cases h
  · rw [List.concat_eq_append] at h
    rw [h, ← List.append_assoc, glue_snoc_cons]
    simp

theorem splice_steps (hP : Closed S.segs P) {d : Doc} (h : Over S.segs P d.text) {i j : Nat} {y : List Text} (hij : i ≤ j) (hj : (rows (S.segs d.text))[j]? = some y) {s : Text}
    (hs : Over S.segs P s) :
    CleanCmds S.segs d (spliceCalls i j y.length s) ∧ Over S.segs P (d.steps S.segs (spliceCalls i j y.length s)).text ∧
    rows (S.segs (d.steps S.segs (spliceCalls i j y.length s)).text) = (rows (S.segs d.text)).take i ++ rows (S.segs s) ++ (rows (S.segs d.text)).drop (j + 1) ∧
    (d.steps S.segs (spliceCalls i j y.length s)).cursor = ⟨⟨i, 0⟩, 0⟩ := by
  have hle : AtOrBefore ⟨i, 0⟩ ⟨j, y.length⟩ := by
    rcases Nat.lt_or_eq_of_le hij with h | h
    · exact Or.inl h
    · exact Or.inr ⟨h, Nat.zero_le _⟩
  have hlo : lo ⟨i, 0⟩ ⟨j, y.length⟩ = ⟨i, 0⟩ := if_pos hle
  have hhi : hi ⟨i, 0⟩ ⟨j, y.length⟩ = ⟨j, y.length⟩ := if_pos hle
  have hhas : (rows (S.segs d.text)).has ⟨j, y.length⟩ = true := by simp [Page.has, hj]
  have hlt := (List.getElem?_eq_some_iff.mp hj).1
  have e2 := step_edit S.segs d (Doc.deleteEdit S.segs d.text ⟨i, 0⟩ ⟨j, y.length⟩) rfl
  generalize hd1 : d.edit S.segs (Doc.deleteEdit S.segs d.text ⟨i, 0⟩ ⟨j, y.length⟩) = d1 at e2
  have es1 : d.step S.segs (.deleteRange ⟨i, 0⟩ ⟨j, y.length⟩) = d1 := by
    show Doc.edit S.segs _ (Doc.deleteEdit S.segs d.text (lo _ _) (hi _ _)) = _
    rw [hlo, hhi, hd1]
  have ht1 : d1.text = Spec.deleteRange S.segs d.text ⟨i, 0⟩ ⟨j, y.length⟩ := e2.1
  have hov1 : Over S.segs P d1.text := by rw [ht1]; exact over_deleteRange hP _ _ h
  have hr1 : rows (S.segs d1.text) = (rows (S.segs d.text)).take i ++ [] :: (rows (S.segs d.text)).drop (j + 1) := by
    rw [ht1, rows_deleteRange (over_cleanDelete hP _ _ h), block_remove hij hj]
  have hlen : ((rows (S.segs d.text)).take i).length = i := by rw [List.length_take]; omega
  have hhas1 : (rows (S.segs d1.text)).has ⟨i, 0⟩ = true := by
    have : (rows (S.segs d1.text))[i]? = some [] := by rw [hr1, List.getElem?_append_right (by omega), hlen]; simp
    simp [Page.has, this]
  have es2 : d1.step S.segs (.move (.to ⟨i, 0⟩)) = { d1 with cursor := ⟨⟨i, 0⟩, 0⟩ } := by
    show { d1 with cursor := moveCursor S.segs d1.text d1.cursor (.to ⟨i, 0⟩) } = _
    have : moveCursor S.segs d1.text d1.cursor (.to ⟨i, 0⟩) = (rows (S.segs d1.text)).goTo d1.cursor ⟨i, 0⟩ := tryMove_rows _ _ _
    rw [this, Page.goTo, hhas1, if_pos rfl]
  have e3 := step_edit S.segs { d1 with cursor := ⟨⟨i, 0⟩, 0⟩ } (Doc.insertEdit S.segs d1.text s ⟨i, 0⟩) rfl
  have es : d.steps S.segs (spliceCalls i j y.length s) = Doc.edit S.segs { d1 with cursor := ⟨⟨i, 0⟩, 0⟩ } (Doc.insertEdit S.segs d1.text s ⟨i, 0⟩) := by
    show (((d.step S.segs (.deleteRange ⟨i, 0⟩ ⟨j, y.length⟩)).step S.segs (.move (.to ⟨i, 0⟩))).step S.segs (.insert s)) = _
    rw [es1, es2]; rfl
  refine ⟨⟨?_, trivial, ?_, trivial⟩, ?_, ?_, ?_⟩
  · show CleanRange S.segs d.text (lo _ _) (hi _ _)
    rw [hlo, hhi]
    exact ⟨over_cleanDelete hP _ _ h, Or.inl (by rw [exists_rows]; exact hhas)⟩
  · rw [es1, es2]
    exact ⟨over_cleanInsert hP _ hov1 hs, fun h => hP.noCrlf (hs _ h)⟩
  · rw [es, e3.1]; exact over_insertAt hP _ hov1 hs
  · rw [es, e3.1]
    show rows (S.segs (insertAt _ _ _ _)) = _
    rw [rows_insertAt (over_cleanInsert hP _ hov1 hs), hr1]
    have := block_insert ((rows (S.segs d.text)).take i) ((rows (S.segs d.text)).drop (j + 1)) (rows (S.segs s)) (rows_ne_nil _)
    rwa [hlen] at this
  · rw [es, e3.2]

theorem splitNl_unlines : ∀ {ls : List Text}, ls ≠ [] → (∀ l ∈ ls, '\n' ∉ l) → splitNl (unlines ls) = ls
  | [l], _, h => by rw [show unlines [l] = l by simp [unlines, List.intercalate]]; exact splitNl_no_nl (h l (by simp))
  | l :: m :: ls, _, h => by
    rw [show unlines (l :: m :: ls) = l ++ '\n' :: unlines (m :: ls) by simp [unlines, List.intercalate, List.intersperse], splitNl_append (h l (by simp)),
      splitNl_unlines (by simp) fun x hx => h x (by simp [hx])]

theorem mem_rows_or {c : Text} : ∀ {cs : List Text}, c ∈ cs → c = ['\n'] ∨ ∃ r ∈ rows cs, c ∈ r := by
  intro cs
  induction cs using clusters_induction with
  | h1 a h => intro hc; exact Or.inr ⟨a, by rw [rows_no_nl h]; simp, hc⟩
  | h2 a b h ih =>
    intro hc
    rw [rows_nl h]
    rcases List.mem_append.mp hc with hc | hc
    · exact Or.inr ⟨a, by simp, hc⟩
    · rcases List.mem_cons.mp hc with hc | hc
      · exact Or.inl hc
      · rcases ih hc with h | ⟨r, h1, h2⟩
        · exact Or.inl h
        · exact Or.inr ⟨r, by simp [h1], h2⟩

theorem splitNl_clean (t : Text) : ∀ l ∈ splitNl t, '\n' ∉ l := by
  induction t using lines_induction with
  | h1 l h => rw [splitNl_no_nl h]; intro x hx; rw [List.mem_singleton] at hx; rwa [hx]
  | h2 l r h ih =>
    rw [splitNl_append h]
    intro x hx
    rcases List.mem_cons.mp hx with rfl | hx
    · exact h
    · exact ih x hx

theorem mem_splitNl {c : Char} (t : Text) : ∀ l ∈ splitNl t, c ∈ l → c ∈ t := by
  induction t using lines_induction with
  | h1 l h => rw [splitNl_no_nl h]; intro x hx; rw [List.mem_singleton] at hx; rw [hx]; exact id
  | h2 l r h ih =>
    rw [splitNl_append h]
    intro x hx hc
    rcases List.mem_cons.mp hx with rfl | hx
    · simp [hc]
    · simp [ih x hx hc]

theorem mem_unlines {c : Char} : ∀ {ls : List Text}, c ∈ unlines ls → c = '\n' ∨ ∃ l ∈ ls, c ∈ l
  | [], h => by simp [unlines, List.intercalate] at h
  | [l], h => Or.inr ⟨l, by simp, by rwa [show unlines [l] = l by simp [unlines, List.intercalate]] at h⟩
  | l :: m :: ls, h => by
    rw [show unlines (l :: m :: ls) = l ++ '\n' :: unlines (m :: ls) by simp [unlines, List.intercalate, List.intersperse]] at h
    rcases List.mem_append.mp h with h | h
    · exact Or.inr ⟨l, by simp, h⟩
    · rcases List.mem_cons.mp h with h | h
      · exact Or.inl h
      · rcases mem_unlines h with h | ⟨x, h1, h2⟩
        · exact Or.inl h
        · exact Or.inr ⟨x, by simp [h1], h2⟩

/-- Lines of ordinary text make ordinary text. -/
theorem over_unlines {t : Text} (hcr : '\r' ∉ t) (hov : Over S.segs P t) (hnl : P ['\n']) {new : List Text} (hne : new ≠ []) (hm : ∀ l ∈ new, l ∈ splitNl t) :
    Over S.segs P (unlines new) ∧ '\r' ∉ unlines new := by
  have h2 : '\r' ∉ unlines new := by
    intro h
    rcases mem_unlines h with h | ⟨l, h1, h2⟩
    · exact absurd h (by decide)
    · exact hcr (mem_splitNl t l (hm l h1) h2)
  refine ⟨?_, h2⟩
  intro c hc
  rcases mem_rows_or hc with rfl | ⟨r, hr, hcr'⟩
  · exact hnl
  · rw [rows_splitNl h2, splitNl_unlines hne fun l hl => splitNl_clean t l (hm l hl)] at hr
    obtain ⟨l, hl, rfl⟩ := List.mem_map.mp hr
    refine hov c (mem_rows _ (S.segs l) ?_ c hcr')
    rw [rows_splitNl hcr]
    exact List.mem_map.mpr ⟨l, hm l hl, rfl⟩

end Scribe
