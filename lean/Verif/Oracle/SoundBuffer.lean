import Verif.Oracle.Buffer
import Verif.Oracle.SoundBasic
import Verif.Props.History
import Verif.Props.Buffer
import Verif.Props.Search
import Verif.Props.Findings
import Verif.Props.Fused
import Verif.Props.Counts
import Verif.Props.LineRange
/-! # The executable forms in `Verif/Oracle/Buffer.lean` follow from the theorems -/
namespace Scribe.Oracle
open Spec Props Buf

variable {S : Segmenter} {A : Alloc} {b : Buf} {d : Doc}

theorem startOf_start (content : Option Text) : Start A (startOf A content).1 (startOf A content).2.1 (startOf A content).2.2 := by
  cases content with
  | none => exact .new 0
  | some t => exact .load 0 t

theorem reached_all : ∀ (cs : List Cmd) {b : Buf} {d : Doc} {b' : Buf}, Reached S A b d → CleanCmds S.segs d cs → execAll S A b cs = .ok b' →
    Reached S A b' (d.steps S.segs cs)
  | [], _, _, _, h, _, he => by cases he; exact h
  | c :: cs, b, d, b', h, hc, he => by
    unfold execAll at he
    cases k : exec S A b c with
    | error e => rw [k] at he; cases he
    | ok b1 => rw [k] at he; exact reached_all cs (h.step hc.1 k) hc.2 he

theorem session_reached {content : Option Text} {cs : List Cmd} (h : session S A content cs = some (b, d)) : Reached S A b d := by
  unfold session at h
  dsimp only at h
  split at h
  · rename_i hc
    split at h
    · rename_i b' he
      cases h
      exact reached_all cs (.start (startOf_start content)) hc he
    · cases h
  · cases h

theorem s_C47 (content : Option Text) (cs : List Cmd) : o_C47_no_panic S A content cs = true := by
  simp only [o_C47_no_panic, okAnd_iff]
  cases content with
  | none => obtain ⟨b, u, h1, h2⟩ := (C47_no_panic S A 0 [] cs).1; exact ⟨b, h1, u, h2, trivial⟩
  | some t => obtain ⟨b, u, h1, h2⟩ := (C47_no_panic S A 0 t cs).2; exact ⟨b, h1, u, h2, trivial⟩

theorem s_C12 (h : Reached S A b d) (c : Cmd) (ms : List Cmd) : o_C12_undo_reverses S A b d c ms = true := by
  simp only [o_C12_undo_reverses, imp_iff, okAnd_iff, Bool.and_eq_true, decide_eq_true_eq]
  intro hg hc he hm
  exact C12_undo_reverses S A b d c ms h hg hc he hm

theorem s_C13 (content : Option Text) (cs : List Cmd) : o_C13_snapshot_history S A content cs = true := by
  simp only [o_C13_snapshot_history, imp_iff, okAnd_iff, Bool.and_eq_true, decide_eq_true_eq]
  intro hc
  obtain ⟨b, h1, h2, h3, h4⟩ := C13_snapshot_history S A _ _ _ cs (startOf_start content) hc
  exact ⟨b, h1, ⟨h2, h3⟩, h4⟩

theorem s_C13_everything (content : Option Text) (cs : List Cmd) (k : Nat) : o_C13_undo_everything S A content cs k = true := by
  simp only [o_C13_undo_everything, imp_iff, okAnd_iff, decide_eq_true_eq]
  intro hc
  exact C13_undo_everything S A _ _ _ cs _ (startOf_start content) hc (by omega)

theorem s_C13_k (h : Reached S A b d) (k : Nat) : o_C13_undo_redo_k S A b k = true := by
  simp only [o_C13_undo_redo_k, imp_iff, okAnd_iff, Bool.and_eq_true, decide_eq_true_eq]
  intro hg hk
  obtain ⟨b', h1, h2, h3, h4⟩ := C13_undo_redo_k S A b d k h hg hk
  exact ⟨b', h1, ⟨h2, h3⟩, h4⟩

theorem s_C14_ur (h : Reached S A b d) : o_C14_undo_redo S A b = true := by
  simp only [o_C14_undo_redo, imp_iff, okAnd_iff, decide_eq_true_eq]; exact C14_undo_redo S A b d h

theorem s_C14_ru (h : Reached S A b d) : o_C14_redo_undo S A b = true := by
  simp only [o_C14_redo_undo, imp_iff, okAnd_iff, decide_eq_true_eq]; exact C14_redo_undo S A b d h

theorem s_C15 (c : Cmd) : o_C15_edit_clears_redo S A b c = true := by
  simp only [o_C15_edit_clears_redo, imp_iff, okImp_iff]
  intro hg t ht he
  split
  · rfl
  · rename_i hr
    simp only [okImp_iff, Bool.and_eq_true, decide_eq_true_eq]
    intro b' h
    exact C15_edit_clears_redo S A b b' c t hg ht he (fun x hx => hr x hx) h

theorem s_C15_group : o_C15_group_clears_redo S A b = true := by
  simp only [o_C15_group_clears_redo, imp_iff, Bool.and_eq_true, decide_eq_true_eq]
  rintro ⟨h1, h2⟩
  cases hg : b.group with
  | none => exact absurd hg h1
  | some ops =>
    cases ops with
    | nil => exact absurd hg h2
    | cons op ops => exact C15_group_clears_redo S A b op ops hg

theorem s_C16 (h : Reached S A b d) (cs : List Cmd) : o_C16_group_is_one_step S A b d cs = true := by
  simp only [o_C16_group_is_one_step, imp_iff, okAnd_iff, Bool.and_eq_true, decide_eq_true_eq]
  intro hg hc hi he
  obtain ⟨b1, b2, b3, h1, h2, h3, h4, h5, h6⟩ := C16_group_is_one_step S A b d cs h hg hc hi he
  exact ⟨b1, h1, h2, b2, h3, h4, b3, h5, h6⟩

theorem s_C16_empty : o_C16_empty_group b = true := by
  simp only [o_C16_empty_group, imp_iff, decide_eq_true_eq]; exact C16_empty_group b

theorem s_C17 (h : Reached S A b d) (cs : List Cmd) : o_C17_undo_open_group S A b d cs = true := by
  simp only [o_C17_undo_open_group, imp_iff, okAnd_iff, decide_eq_true_eq]
  intro hg hc hi he
  obtain ⟨b1, b2, h1, h2, h3⟩ := C17_undo_open_group S A b d cs h hg hc hi he
  exact ⟨b1, h1, b2, h2, h3⟩

theorem s_C17_empty : o_C17_undo_empty_group S A b = true := by
  simp only [o_C17_undo_empty_group, imp_iff, decide_eq_true_eq]; exact C17_undo_empty_group S A b

theorem s_C18 (content : Option Text) (cs : List Cmd) : o_C18_unmodified_is_on_disk S A content cs = true := by
  simp only [o_C18_unmodified_is_on_disk, imp_iff, okImp_iff, someAnd_iff, decide_eq_true_eq]
  intro hc hs b he hm hg
  exact C18_unmodified_is_on_disk S A _ b _ _ cs (startOf_start content) hc hs he hm hg

theorem s_C18_fresh (t : Text) : o_C18_fresh S A b t = true := by
  simp only [o_C18_fresh, okImp_iff, Bool.and_eq_true, decide_eq_true_eq]
  refine ⟨⟨(C18_fresh S A b b 0 t).1, fun b' h => (C18_fresh S A b b' 0 t).2.1 h⟩, fun b' h => (C18_fresh S A b b' 0 t).2.2 t h⟩

theorem s_C19 (h : Reached S A b d) (i j : Nat) : o_C19_mark_is_tracked S A b i j = true := by
  simp only [o_C19_mark_is_tracked, imp_iff, okAnd_iff, decide_eq_true_eq]
  intro hg hj hi
  exact C19_mark_is_tracked S A b d i j h hg hj hi

theorem allEdit_at (es : List Cmd) : ∀ {b : Buf}, allEdit S A b es = true → ∀ x c y b' t, es = x ++ c :: y → execAll S A b x = .ok b' → b'.data.toStr = .ok t →
    Edits t c ∧ ∀ z, c ≠ .reload z := by
  induction es with
  | nil => intro b _ x c y b' t h; cases x <;> cases h
  | cons e es ih =>
    intro b h x c y b' t h1 h2 h3
    simp only [allEdit, Bool.and_eq_true, okAnd_iff, decide_eq_true_eq] at h
    obtain ⟨⟨⟨u, hu, he⟩, hr⟩, b1, hb1, ha⟩ := h
    cases x with
    | nil =>
      cases h1; cases h2
      rw [hu] at h3; cases h3
      refine ⟨he, fun z hz => ?_⟩
      subst hz; cases hr
    | cons e' x =>
      obtain ⟨h0, h4⟩ := List.cons.inj h1
      subst h0
      simp only [execAll, hb1, Except.ok_bind'] at h2
      exact ih ha x c y b' t h4 h2 h3

theorem s_C19_undone (content : Option Text) (cs es : List Cmd) (i : Nat) : o_C19_edits_undone S A content cs es i = true := by
  simp only [o_C19_edits_undone, imp_iff, okImp_iff, okAnd_iff, decide_eq_true_eq]
  rintro hi b h hg ⟨b1, h1, he⟩
  refine C19_edits_undone S A _ b _ _ cs es i (startOf_start content) h hg (fun x c y b' t k1 k2 k3 => ?_) hi
  simp only [execAll, h1, Except.ok_bind'] at k2
  exact allEdit_at es he x c y b' t k1 k2 k3

theorem s_C19_modifies (c : Cmd) : o_C19_edit_modifies S A b c = true := by
  simp only [o_C19_edit_modifies, imp_iff, okImp_iff]
  intro hg t ht he
  split
  · rfl
  · rename_i hr
    simp only [okImp_iff]
    intro b' h
    exact C19_edit_modifies S A b b' c t hg ht he (fun x hx => hr x hx) h

theorem s_C23 (c : Text) : o_C23_replace S A b c = true := by
  simp only [o_C23_replace, okImp_iff]
  intro old ht
  obtain ⟨h1, h2⟩ := C23_replace S A b old c ht
  split
  · rename_i h; simpa using h1 h
  · rename_i h
    obtain ⟨b', k1, k2, k3, k4, k5, k6⟩ := h2 h
    simp only [okAnd_iff, Bool.and_eq_true, decide_eq_true_eq]
    refine ⟨b', k1, ⟨k2, k6⟩, ?_⟩
    split
    · rename_i e; exact k3 e
    · rename_i e
      have e : exists? S.segs c b.cursor.position = false := by simpa using e
      split
      · rename_i e'; exact k4 e e'
      · rename_i e'
        exact k5 e (by simpa using e')

theorem s_C25 (h : Reached S A b d) (c : Cmd) (q : Position) : o_C25_callback_covers_changes S A b d c q = true := by
  simp only [o_C25_callback_covers_changes, imp_iff]
  intro hcb
  split
  · rfl
  · rename_i hs
    simp only [imp_iff, okAnd_iff, someImp_iff, someAnd_iff, Bool.and_eq_true, decide_eq_true_eq]
    intro hc
    obtain ⟨b', t, t', ps, h1, h2, h3, h4, h5, h6⟩ := C25_callback_covers_changes S A b d c h hcb (fun v hv => hs v hv) hc
    have e : b'.log.drop b.log.length = ps := by rw [h4]; simp
    refine ⟨b', h1, t, h2, t', h3, ?_⟩
    rw [e]
    refine ⟨⟨h4, h5⟩, ?_⟩
    rintro hq ⟨x, y⟩ hp
    obtain ⟨y', k⟩ := h6 q x y hq (place?_some.mp hp)
    exact ⟨(x, y'), place?_some.mpr k, rfl⟩

theorem s_C25_no (h : Reached S A b d) (c : Cmd) : o_C25_no_callback S A b d c = true := by
  simp only [o_C25_no_callback, imp_iff, okAnd_iff, decide_eq_true_eq]; exact C25_no_callback S A b d c h

theorem s_C46 (h : Reached S A b d) (c : Cmd) : o_C46_cursor_stays_in_bounds S A b d c = true := by
  simp only [o_C46_cursor_stays_in_bounds, imp_iff, okAnd_iff, decide_eq_true_eq]; exact C46_cursor_stays_in_bounds S A b d c h

theorem s_C46_always (content : Option Text) (cs : List Cmd) : o_C46_always_in_bounds S A content cs = true := by
  simp only [o_C46_always_in_bounds, imp_iff, okAnd_iff, decide_eq_true_eq]
  exact C46_always_in_bounds S A _ _ _ cs (startOf_start content)

theorem s_C31 : o_C31_line_count b = true := by
  simp only [o_C31_line_count, okImp_iff, Bool.and_eq_true, decide_eq_true_eq]; exact C31_line_count b

theorem s_C31_exists (h : Reached S A b d) (l : Nat) : o_C31_line_exists S b l = true := by
  simp only [o_C31_line_exists, okImp_iff, imp_iff, decide_eq_true_eq]
  intro t ht hcr n hn
  exact C31_line_exists S A b d t n l h ht hcr hn

theorem s_C30 (needle : Text) : o_C30_search b needle = true := by
  simp only [o_C30_search, okImp_iff, okAnd_iff, Bool.and_eq_true, decide_eq_true_eq]
  intro t ht
  obtain ⟨r, h1, h2, h3⟩ := C30_search b t needle ht
  refine ⟨r, h1, ⟨h2, ?_⟩, ?_⟩
  · simp only [List.all_eq_true, List.mem_range, imp_iff, decide_eq_true_eq]
    rintro i hi n hn ⟨k1, k2⟩
    obtain ⟨y, hy⟩ := List.isPrefixOf_iff_prefix.mp k1
    refine (h3 _).mpr ⟨(strLines t)[i], ((strLines t)[i]).take n, y, by simp, ?_, ?_, ?_⟩
    · have e : (strLines t)[i]?.getD [] = (strLines t)[i] := by simp [hi]
      rw [e] at hy
      rw [List.append_assoc, hy, List.take_append_drop]
    · simp [hi]
    · rw [hy]; exact k2
  · simp only [List.all_eq_true, someAnd_iff, List.any_eq_true, List.mem_range, Bool.and_eq_true, decide_eq_true_eq]
    intro p hp
    obtain ⟨l, x, y, k1, k2, k3, k4⟩ := (h3 p).mp hp
    have e : l.drop x.length = needle ++ y := by rw [k2, List.append_assoc]; simp
    refine ⟨l, k1, x.length, ?_, ⟨?_, ?_⟩, ?_⟩
    · rw [k2]; simp only [List.length_append]; omega
    · rw [e, List.isPrefixOf_iff_prefix]; exact ⟨y, rfl⟩
    · rw [e]; exact k4
    · rw [k3, k2, List.append_assoc]; simp

theorem s_C30_text (needle : Text) (n : Nat) : o_C30_search_text b needle n = true := by
  simp only [o_C30_search_text, okImp_iff, imp_iff, okAnd_iff, decide_eq_true_eq]
  intro t ht hn hnl hcr
  obtain ⟨r, h1, h2, h3⟩ := C30_search_text b t needle ht hn hnl hcr
  refine ⟨r, h1, ?_⟩
  intro k
  obtain ⟨v, hv⟩ := List.isPrefixOf_iff_prefix.mp k
  have hx : (t.take n).reverse = (t.take n).reverse.takeWhile (· != '\n') ++ (t.take n).reverse.dropWhile (· != '\n') :=
    (List.takeWhile_append_dropWhile).symm
  have hx' : t.take n = ((t.take n).reverse.dropWhile (· != '\n')).reverse ++ ((t.take n).reverse.takeWhile (· != '\n')).reverse := by
    conv_lhs => rw [← List.reverse_reverse (t.take n), hx, List.reverse_append]
  have hw : '\n' ∉ ((t.take n).reverse.takeWhile (· != '\n')).reverse := by
    intro hm
    have := List.all_eq_true.mp (List.all_takeWhile (p := (· != '\n')) (l := (t.take n).reverse)) _ (List.mem_reverse.mp hm)
    simp at this
  refine (h3 _).mpr ⟨((t.take n).reverse.dropWhile (· != '\n')).reverse, ((t.take n).reverse.takeWhile (· != '\n')).reverse, v, ?_, ?_, hw, ?_, rfl⟩
  · rw [← hx', List.append_assoc, hv, List.take_append_drop]
  · cases k : (t.take n).reverse.dropWhile (· != '\n') with
    | nil => exact Or.inl rfl
    | cons c cs =>
      right
      have := List.head?_dropWhile_not (· != '\n') (t.take n).reverse
      rw [k] at this
      simp at this
      simp [this]
  · dsimp only
    conv_lhs => rw [hx', List.count_append, List.count_eq_zero_of_not_mem hw]
    rfl

theorem s_C30_positions (h : Reached S A b d) (needle : Text) : o_C30_search_positions S b needle = true := by
  simp only [o_C30_search_positions, okImp_iff, imp_iff, List.all_eq_true, Bool.and_eq_true, decide_eq_true_eq]
  intro t ht hn hnl hcr hs ha r hr p hp
  exact C30_search_positions S A b d t needle r p h ht hn hnl hcr hs ha hr hp

theorem s_C50 (h : Reached S A b d) (p q : Position) : o_C50_clipped_delete_not_undone S A b d p q = true := by
  simp only [o_C50_clipped_delete_not_undone, imp_iff, okAnd_iff, Bool.and_eq_true, decide_eq_true_eq]
  intro hg hq
  obtain ⟨b', h1, h2, h3, h4⟩ := C50_clipped_delete_not_undone S A b d p q h hg hq
  exact ⟨⟨b', h1, h2, h3⟩, h4⟩

theorem s_C51 (h : Reached S A b d) (p : Position) : o_C51_crlf_lines_do_not_exist S b d p = true := by
  simp only [o_C51_crlf_lines_do_not_exist, imp_iff, Bool.and_eq_true, decide_eq_true_eq]
  intro ht
  exact C51_crlf_lines_do_not_exist S A b d h (crlfOnlyB_sound _ ht) p

theorem s_C51_down (h : Reached S A b d) : o_C51_cannot_move_down S A b d = true := by
  simp only [o_C51_cannot_move_down, imp_iff, okAnd_iff, decide_eq_true_eq]
  intro ht
  exact C51_cannot_move_down S A b d h (crlfOnlyB_sound _ ht)

theorem s_C52 (h : Reached S A b d) (s : Text) : o_C52_crlf_undo_destroys S A b d s = true := by
  simp only [o_C52_crlf_undo_destroys, imp_iff, okAnd_iff, someImp_iff, decide_eq_true_eq]
  rintro hg ht hs hnl hc ⟨x, y⟩ hl
  exact C52_crlf_undo_destroys S A b d s x y h hg hl (crlfOnlyB_sound _ ht) (crlfOnlyB_sound _ hs) hnl hc

theorem s_C55 (s m r q : Text) : o_C55_gap_observable S s m r q = true := by
  simp only [o_C55_gap_observable, imp_iff, Bool.and_eq_true, decide_eq_true_eq]
  intro h1 h2 h3 hn hq
  exact C55_gap_observable S s m r q h1 h2 h3 hn hq

theorem s_C55_undo (h : Reached S A b d) (s : Text) : o_C55_mark_undo S A b d s = true := by
  simp only [o_C55_mark_undo, imp_iff, okAnd_iff, someImp_iff, decide_eq_true_eq]
  rintro hg h1 hs ⟨x, y⟩ hl last hx hm
  simp only at hx
  have hx : x = x.dropLast ++ [last] := (List.dropLast_append_getLast? last (by rw [hx]; rfl)).symm
  obtain ⟨b', h2, h3⟩ := C55_mark_undo S A b d s last x.dropLast y h hg (by rw [← hx]; exact hl) h1 hs hm
  refine ⟨b', h2, ?_⟩
  rw [h3]
  conv => rhs; rw [hx]
  simp

theorem s_C53 (c : Cmd) : o_C53_pending_edits S A b c = true := by
  simp only [o_C53_pending_edits, someImp_iff, okImp_iff, imp_iff]
  intro ops hg t ht he
  split
  · rfl
  · rename_i hr
    simp only [okImp_iff, Bool.and_eq_true, decide_eq_true_eq, someAnd_iff]
    intro b' h
    obtain ⟨h1, h2, op, h3⟩ := C53_pending_edits S A b b' c t ops hg ht he (fun x hx => hr x hx) h
    exact ⟨⟨h1, h2⟩, _, h3, by simp, by simp⟩

theorem s_C54 (h : Reached S A b d) (s : Text) : o_C54_ineffective_edits_count S A b d s = true := by
  simp only [o_C54_ineffective_edits_count, imp_iff, okAnd_iff, Bool.and_eq_true, decide_eq_true_eq]
  intro hg
  constructor
  · intro hn
    obtain ⟨b', h1, h2, h3, h4, h5⟩ := C54_ineffective_edits_count S A b d .delete h hg (Or.inl ⟨rfl, hn⟩)
    exact ⟨b', h1, ⟨⟨h2, h3⟩, h4⟩, h5⟩
  · intro hn
    obtain ⟨b', h1, h2, h3, h4, h5⟩ := C54_ineffective_edits_count S A b d (.insert s) h hg (Or.inr ⟨⟨s, rfl⟩, hn⟩)
    exact ⟨b', h1, ⟨⟨h2, h3⟩, h4⟩, h5⟩

theorem s_C56 (c : Cmd) : o_C56_bookkeeping S A b c = true := by
  simp only [o_C56_bookkeeping, okImp_iff, Bool.and_eq_true, decide_eq_true_eq]
  intro t ht b' h
  exact C56_bookkeeping S A b b' c t ht h

theorem s_C57 (cs : List Cmd) : o_C57_new_buffer_modified S A cs = true := by
  simp only [o_C57_new_buffer_modified, imp_iff, okImp_iff]
  intro hc b h
  refine C57_new_buffer_modified S A 0 cs b (fun c hm => ⟨?_, ?_⟩) h
  · rintro rfl; have := hc _ hm; simp at this
  · rintro x rfl; have := hc _ hm; simp at this

theorem s_C78_read {g : GapBuffer} {t : Text} (h : Holds S g t) (a b : Nat) : o_C78_read S g t a b = true := by
  simp only [o_C78_read, imp_iff, Bool.and_eq_true, decide_eq_true_eq]
  exact C78_read S g t a b h

theorem s_C78_delete {g : GapBuffer} {t : Text} (h : Holds S g t) (a b : Nat) : o_C78_delete S g t a b = true := by
  simp only [o_C78_delete, imp_iff, okAnd_iff, Bool.and_eq_true, decide_eq_true_eq]
  exact C78_delete S g t a b h

theorem s_C78_undo (h : Reached S A b d) (s e : Nat) : o_C78_undo S A b d s e = true := by
  simp only [o_C78_undo, imp_iff, okAnd_iff, decide_eq_true_eq]
  intro hse hg hcr
  exact C78_undo S A b d s e hse h hg hcr

end Scribe.Oracle
