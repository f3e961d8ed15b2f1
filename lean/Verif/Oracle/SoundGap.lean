import Verif.Oracle.Gap
import Verif.Oracle.SoundBasic
import Verif.Props.GapBuffer
import Verif.Props.Position
import Verif.Props.Cursor
import Verif.Props.Token
/-! # The executable forms in `Verif/Oracle/Gap.lean` follow from the theorems -/
namespace Scribe.Oracle
open Spec Props GapBuffer

variable {S : Segmenter} {A A' : Alloc} {g g' : GapBuffer} {t s : Text} {p q : Position}

theorem s_C01 (k : Nat) (t : Text) (cs : List Call) : o_C01_no_panic S A k t cs = true := by
  obtain ⟨os, g, h⟩ := C01_no_panic S A k t cs
  simp [o_C01_no_panic, h]

theorem s_C02 (k : Nat) (t : Text) (cs : List Call) (p q : Position) : o_C02_contents S A k t cs p q = true := by
  simp only [o_C02_contents, okImp_iff]
  rintro ⟨os, g⟩ h
  obtain ⟨pre, gap, post, h1, h2, h3, h4, h5, h6⟩ := C02_contents S A k t cs os g h
  have e1 : g.data.take g.gapStart = enc pre := by rw [h1, h2, List.append_assoc]; simp [blen]
  have e2 : g.data.drop (g.gapStart + g.gapLength) = enc post := by
    rw [h1, h2, h3]; unfold blen; rw [← List.length_append]; simp
  have e3 : g.gapStart + g.gapLength ≤ g.data.length := by rw [h1, h2, h3]; simp [blen]
  simp only [e1, e2, e3, lossy_enc, h4, Bool.and_eq_true, decide_eq_true_eq, okImp_iff, someImp_iff, true_and]
  refine ⟨?_, ?_⟩
  · rw [List.all_eq_true]
    intro c hc
    rcases h5 c hc with h | ⟨s, hs, h⟩
    · simp [h]
    · simp only [Bool.or_eq_true, List.any_eq_true, List.contains_iff_mem]
      exact Or.inr ⟨s, hs, h⟩
  · rintro v hv w rfl
    obtain ⟨a, b, e⟩ := h6 p q w hv
    simp only [infix?, List.any_eq_true, List.mem_range, List.isPrefixOf_iff_prefix]
    exact ⟨a.length, by rw [← e]; simp; omega, b, by rw [← e]; simp⟩

theorem s_C03 (h : Holds S g t) : o_C03_insert S A g t s p = true := by
  simp only [o_C03_insert, someImp_iff]
  rintro ⟨x, y⟩ hp
  obtain ⟨h1, g', h2, h3⟩ := C03_insert S A g t s x y p h (place?_some.mp hp)
  simp only [Bool.and_eq_true, decide_eq_true_eq, okAnd_iff]
  exact ⟨h1, g', h2, h3⟩

theorem s_C03_again (h : Holds S g t) : o_C03_insert_again S A g t s p = true := by
  simp only [o_C03_insert_again, someImp_iff, imp_iff, okAnd_iff]
  rintro ⟨x, y⟩ hp hc
  obtain ⟨g', h2, h3⟩ := C03_insert_again S A g t s x y p h (place?_some.mp hp) hc
  exact ⟨g', h2, holdsB_iff.mpr h3⟩

theorem s_C04 (h : Holds S g t) : o_C04_insert_out_of_bounds S A g t s p = true := by
  simp only [o_C04_insert_out_of_bounds, imp_iff, okAnd_iff, Bool.and_eq_true, decide_eq_true_eq]
  intro hp
  obtain ⟨g', h2, h3, h4⟩ := C04_insert_out_of_bounds S A g t s p h (place?_none.mp hp)
  exact ⟨g', h2, h3, holdsB_iff.mpr h4⟩

theorem s_C05 (h : Holds S g t) : o_C05_delete S g t p q = true := by
  simp only [o_C05_delete, imp_iff, someImp_iff, okAnd_iff, Bool.and_eq_true, decide_eq_true_eq]
  rintro hpq ⟨x, y⟩ hp ⟨x', y'⟩ hq
  obtain ⟨g', d, h1, h2, h3, h4⟩ := C05_delete S g t x y x' y' p q hpq h (place?_some.mp hp) (place?_some.mp hq)
  refine ⟨g', h1, ⟨h2, ?_⟩, ?_⟩ <;> simp [h4, h3]

theorem s_C05_swapped : o_C05_delete_swapped S g p q = true := by
  simp only [o_C05_delete_swapped, decide_eq_true_eq]; exact C05_delete_swapped S g p q

theorem s_C05_again (h : Holds S g t) : o_C05_delete_again S g t p q = true := by
  simp only [o_C05_delete_again, imp_iff, someImp_iff, okAnd_iff]
  rintro hpq ⟨x, y⟩ hp ⟨x', y'⟩ hq hc
  obtain ⟨g', h1, h2⟩ := C05_delete_again S g t x y x' y' p q hpq h (place?_some.mp hp) (place?_some.mp hq) hc
  exact ⟨g', h1, holdsB_iff.mpr h2⟩

theorem s_C06 (h : Holds S g t) : o_C06_delete_clips S g t p q = true := by
  simp only [o_C06_delete_clips, imp_iff]
  intro hpq
  obtain ⟨h1, h2⟩ := C06_delete_clips S g t p q hpq h
  cases hp : place? (S.segs t) p with
  | none => simpa using h1 (place?_none.mp hp)
  | some v =>
    obtain ⟨x, y⟩ := v
    cases hq : place? (S.segs t) q with
    | some v => rfl
    | none =>
      obtain ⟨g', k1, k2, k3⟩ := h2 x y (place?_some.mp hp) (place?_none.mp hq)
      simp only [okAnd_iff]
      refine ⟨g', k1, ?_⟩
      cases hl : place? (S.segs t) ⟨q.line + 1, 0⟩ with
      | none => simpa using k3 (place?_none.mp hl)
      | some v =>
        obtain ⟨u, v⟩ := v
        obtain ⟨k4, d, k5⟩ := k2 u v (place?_some.mp hl)
        simp only [Bool.and_eq_true, decide_eq_true_eq, List.isSublist_iff_sublist]
        refine ⟨k4, ?_⟩
        rw [k5, List.append_assoc]
        exact List.Sublist.append (List.Sublist.refl _) (List.sublist_append_right _ _)

theorem s_C07 (h : Holds S g t) : o_C07_read S g t p q = true := by
  simp only [o_C07_read, imp_iff]
  intro hpq
  obtain ⟨h1, h2⟩ := C07_read S g t p q hpq h
  cases hp : place? (S.segs t) p with
  | none => simpa using h2.mpr (Or.inl (place?_none.mp hp))
  | some v =>
    obtain ⟨x, y⟩ := v
    cases hq : place? (S.segs t) q with
    | none => simpa using h2.mpr (Or.inr (place?_none.mp hq))
    | some v =>
      obtain ⟨x', y'⟩ := v
      obtain ⟨m, k1, k2, k3⟩ := h1 x y x' y' (place?_some.mp hp) (place?_some.mp hq)
      simp only [okAnd_iff, someAnd_iff, Bool.and_eq_true, decide_eq_true_eq]
      exact ⟨_, k1, m, rfl, k2, k3⟩

theorem s_C08 (h : Holds S g t) : o_C08_in_bounds S g t p = true := by
  simp only [o_C08_in_bounds, decide_eq_true_eq]
  obtain ⟨b, h1, h2⟩ := C08_in_bounds S g t p h
  rw [h1]
  cases hp : place? (S.segs t) p with
  | none =>
    have : b = false := by
      cases b
      · rfl
      · obtain ⟨x, y, k⟩ := h2.mp rfl
        exact absurd k (place?_none.mp hp x y)
    rw [this]; rfl
  | some v => rw [h2.mpr ⟨v.1, v.2, place?_some.mp hp⟩]; rfl

theorem s_C08_lines (h : Holds S g t) : o_C08_in_bounds_lines S g t p = true := by
  simp only [o_C08_in_bounds_lines, imp_iff, okAnd_iff, beq_iff_eq]
  intro hcr
  obtain ⟨b, h1, h2⟩ := C08_in_bounds_lines S g t p h hcr
  refine ⟨b, h1, ?_⟩
  rw [Bool.eq_iff_iff, h2, someAnd_iff]
  simp

theorem s_C09 (h : Holds S g t) (h' : Holds S g' t) (cs : List Call) : o_C09_gap_unobservable S A A' g g' t cs = true := by
  simp only [o_C09_gap_unobservable, imp_iff, okAnd_iff, Bool.and_eq_true, decide_eq_true_eq]
  intro hc
  obtain ⟨g1, g1', k1, k2, k3, k4⟩ := C09_gap_unobservable S A A' g g' t cs h h' hc
  exact ⟨_, k1, _, k2, ⟨⟨rfl, rfl⟩, k3⟩, k4⟩

theorem s_C10 (h : Holds S g t) (n : Nat) : o_C10_positions_ordered S g t p q n = true := by
  obtain ⟨h1, h2, h3⟩ := C10_positions_ordered S g t h
  simp only [o_C10_positions_ordered, imp_iff, someImp_iff, okAnd_iff, someAnd_iff, Bool.and_eq_true, decide_eq_true_eq]
  constructor
  · rintro hpq ⟨x, y⟩ hp ⟨x', y'⟩ hq
    obtain ⟨m, k1, k2, k3⟩ := h1 p q x y x' y' (place?_some.mp hp) (place?_some.mp hq) hpq
    exact ⟨_, k3, m, rfl, k1, k2⟩
  · obtain ⟨r, k1, k2, k3⟩ := h3 ((S.segs t).take n) ((S.segs t).drop n) (List.take_append_drop _ _).symm
    rw [k3 (endPos ((S.segs t).take n)) ⟨_, _, (List.take_append_drop n (S.segs t)).symm, rfl, rfl, rfl⟩]
    exact k2

theorem s_C11 (h : Holds S g t) : o_C11_read_back S A g t s p q = true := by
  simp only [o_C11_read_back, imp_iff, someImp_iff, okAnd_iff, Bool.and_eq_true, decide_eq_true_eq]
  rintro ⟨x, y⟩ hp hc
  obtain ⟨g', k1, k2, k3⟩ := C11_read_back S A g t s x y p h (place?_some.mp hp) hc
  refine ⟨g', k1, k2, ?_⟩
  rintro hpq ⟨xu, v⟩ hq e
  dsimp only at e ⊢
  rw [e] at hq
  exact place?_some.mpr (k3 q _ v hpq (place?_some.mp hq))

theorem s_C45 (h : Reachable S A g) : o_C45_contiguous S A g s p q = true := by
  obtain ⟨u, h1, h2, h3⟩ := C45_contiguous S A g h
  simp only [o_C45_contiguous, okAnd_iff, Bool.and_eq_true, Bool.or_eq_true, decide_eq_true_eq, List.any_eq_true, List.mem_range]
  refine ⟨u, h1, ?_, ?_⟩
  · obtain ⟨g', k1, k2⟩ := h2 s p
    rcases k2 with k | ⟨x, y, rfl, k⟩
    · exact ⟨g', k1, u, k, Or.inl rfl⟩
    · refine ⟨g', k1, _, k, Or.inr ⟨x.length, by simp; omega, by simp⟩⟩
  · obtain ⟨g', x, d, y, k1, rfl, k3⟩ := h3 p q
    refine ⟨g', k1, _, k3, x.length, by simp; omega, ?_⟩
    have : x.length + ((x ++ d ++ y).length - (x ++ y).length) = (x ++ d).length := by simp; omega
    rw [this, List.drop_left]; simp

theorem s_C32 (a b c : Position) : o_C32_position_order a b c = true := by
  obtain ⟨h1, h2, h3, h4, h5, _⟩ := C32_position_order a b c
  simp only [o_C32_position_order, Bool.and_eq_true, decide_eq_true_eq]
  exact ⟨⟨⟨⟨h1, h2⟩, h3⟩, h4⟩, h5⟩

theorem s_C32_range (p q x : Position) : o_C32_range p q x = true := by
  obtain ⟨h1, h2, h3, h4⟩ := C32_range p q x
  simp only [o_C32_range, Bool.and_eq_true, decide_eq_true_eq]
  exact ⟨⟨⟨h1, h2⟩, h3⟩, h4⟩

theorem s_C33 (s e l : Nat) (p : Position) : o_C33_line_range s e l p = true := by
  simp only [o_C33_line_range, decide_eq_true_eq]; exact C33_line_range s e l p

theorem s_C34 (p : Position) (d : Distance) (a b : Text) : o_C34_distance p d a b = true := by
  simp only [o_C34_distance, decide_eq_true_eq]; exact C34_distance p d a b

theorem s_C34_extent (p : Position) (s : Text) : o_C34_distance_is_extent S p s = true := by
  simp only [o_C34_distance_is_extent, imp_iff, decide_eq_true_eq]; exact C34_distance_is_extent S p s

theorem s_C35 (t : Text) (extra : Nat) : o_C35_line_iterator t extra = true := by
  obtain ⟨ls, h1, h2, h3, h4⟩ := C35_line_iterator t
  simp only [o_C35_line_iterator, okAnd_iff, Bool.and_eq_true, decide_eq_true_eq]
  refine ⟨_, h4 _, ?_⟩
  rw [← h1]
  have take_eq : List.take ls.length ((List.range (ls.length + extra)).map fun i => ls[i]?.map fun l => (i, l)) =
      (List.range ls.length).map fun i => ls[i]?.map fun l => (i, l) := by
    rw [← List.map_take, List.take_range]; congr 2; omega
  refine ⟨⟨⟨?_, ?_⟩, ?_⟩, ?_⟩
  · apply List.ext_getElem?
    intro i
    simp only [List.getElem?_drop, List.getElem?_map]
    rw [List.getElem?_replicate]
    by_cases hi : i < extra
    · rw [if_pos hi, List.getElem?_range (by omega)]
      simp
    · rw [if_neg hi, List.getElem?_eq_none (by simp; omega)]; rfl
  · rw [take_eq, List.map_map]
    apply List.map_congr_left
    intro i hi
    simp only [List.mem_range] at hi
    simp [hi]
  · rw [take_eq, List.map_map]
    conv_rhs => rw [← h2]
    congr 1
    apply List.ext_getElem?
    intro i
    simp only [List.getElem?_map]
    by_cases hi : i < ls.length
    · rw [List.getElem?_range hi]; simp [hi]
    · rw [List.getElem?_eq_none (by simp; omega), List.getElem?_eq_none (by omega)]; rfl
  · rw [List.all_eq_true]
    intro i hi
    simp only [List.mem_range] at hi
    have e : (((List.range (ls.length + extra)).map fun i => ls[i]?.map fun l => (i, l))[i]?.join.map (·.2)).getD [] = ls[i] := by
      rw [List.getElem?_map, List.getElem?_range (by omega)]; simp [hi]
    rw [e]
    have := h3 i ls[i] (by simp)
    split
    · rename_i hl
      rw [if_pos hl] at this
      obtain ⟨b, hb, hn⟩ := this
      rw [hb]; simp [hn]
    · rename_i hl
      rw [if_neg hl] at this
      simpa using this

open Cursor

theorem s_C26 (h : Reachable S A g) (c : Cursor) : o_C26_move_to S g c p = true := by
  obtain ⟨b, h1, h2⟩ := C26_move_to S A g c p h
  simp only [o_C26_move_to, okAnd_iff, decide_eq_true_eq]
  exact ⟨b, h1, h2⟩

theorem s_C26_text (h : Holds S g t) (c : Cursor) : o_C26_move_to_text S g t c p = true := by
  obtain ⟨h1, h2⟩ := C26_move_to_text S g t c p h
  simp only [o_C26_move_to_text, decide_eq_true_eq]
  cases hp : place? (S.segs t) p with
  | none => exact h2 (place?_none.mp hp)
  | some v => exact h1 ⟨v.1, v.2, place?_some.mp hp⟩

theorem s_C27_new (h : Holds S g t) (ms : List Move) : o_C27_new_cursor S g t p ms = true := by
  simp only [o_C27_new_cursor, imp_iff, okAnd_iff, decide_eq_true_eq]
  intro hcr hp hms hret
  exact C27_new_cursor S g t p ms h hcr hp hms hret

theorem s_C26_stay (h : Reachable S A g) (c : Cursor) (ms : List Move) : o_C26_moves_stay_in_bounds S g c ms = true := by
  obtain ⟨c', h1, h2⟩ := C26_moves_stay_in_bounds S A g c ms h
  simp only [o_C26_moves_stay_in_bounds, okAnd_iff, imp_iff, decide_eq_true_eq]
  exact ⟨c', h1, h2⟩

theorem s_C27 (h : Holds S g t) (l k : Nat) (ms : List Move) : o_C27_vertical S g t l k ms = true := by
  simp only [o_C27_vertical, imp_iff, someImp_iff, someAnd_iff, decide_eq_true_eq]
  intro hcr hms n hn
  exact C27_vertical S g t l n k ms h hcr hms hn

theorem s_C27_return (h : Holds S g t) (c : Cursor) (ms : List Move) : o_C27_vertical_return S g t c p ms = true := by
  simp only [o_C27_vertical_return, imp_iff, okImp_iff, okAnd_iff, decide_eq_true_eq]
  rintro hcr hms hr ⟨ok, c1⟩ hp rfl
  exact C27_vertical_return S g t c c1 p ms h hcr hms hp hr

theorem s_C28_left (h : Holds S g t) (c : Cursor) : o_C28_left S g t c = true := by
  simp only [o_C28_left, imp_iff, decide_eq_true_eq]; exact C28_left S g t c h

theorem s_C28_right (h : Holds S g t) (c : Cursor) : o_C28_right S g t c = true := by
  simp only [o_C28_right, imp_iff, someImp_iff, decide_eq_true_eq]
  intro hcr n hn; exact C28_right S g t c n h hcr hn

theorem s_C28_start (h : Holds S g t) (c : Cursor) : o_C28_start S g t c = true := by
  simp only [o_C28_start, imp_iff, decide_eq_true_eq]; exact C28_start S g t c h

theorem s_C28_end (h : Holds S g t) (c : Cursor) : o_C28_end S g t c = true := by
  simp only [o_C28_end, imp_iff, someImp_iff, okAnd_iff, decide_eq_true_eq]
  intro hcr n hn hb; exact C28_end S g t c n h hcr hn hb

theorem s_C29_first (h : Holds S g t) (c : Cursor) : o_C29_first_line S g t c = true := by
  simp only [o_C29_first_line, imp_iff, someAnd_iff, decide_eq_true_eq]; exact C29_first_line S g t c h

theorem s_C29_last (h : Holds S g t) (c : Cursor) : o_C29_last_line S g t c = true := by
  simp only [o_C29_last_line, imp_iff, someAnd_iff, decide_eq_true_eq]; exact C29_last_line S g t c h

end Scribe.Oracle
