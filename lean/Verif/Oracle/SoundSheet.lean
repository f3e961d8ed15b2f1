import Verif.Oracle.Sheet
import Verif.Oracle.SoundFile
import Verif.Oracle.SoundBuffer
import Verif.Props.Sheet
/-! # The executable forms of C92 and C93 follow from the theorems -/
namespace Scribe.Oracle
open Spec Props Buf

variable {A : Alloc} {b : Buf} {d : Doc} (T : Uax29.Table)

theorem fitB_fit {S : Segmenter} (s : LineEditor) (c : Cmd) (h : fitB S T s c = true) : s.Fit S.segs (Uax29.Ordinary T.cls) c := by
  cases c with
  | insert t => exact overB_iff.mp h
  | replace t => exact overB_iff.mp h
  | reload t => exact overB_iff.mp h
  | deleteRange p q => simpa [fitB, LineEditor.Fit] using h
  | redo => simpa [fitB, LineEditor.Fit, or_assoc] using h
  | _ => trivial

theorem fitAllB_fit {S : Segmenter} (cs : List Cmd) (s : LineEditor) (h : fitAllB S T s cs = true) : s.FitAll S.segs (Uax29.Ordinary T.cls) cs := by
  induction cs generalizing s with
  | nil => trivial
  | cons c cs ih =>
    rw [fitAllB, Bool.and_eq_true] at h
    exact ⟨fitB_fit T s c h.1, ih _ h.2⟩

theorem s_C92 (content : Option Text) (cs : List Cmd) (p q : Position) : o_C92_lines (Uax29.segmenter T) A T content cs p q = true := by
  have h0 := startOf_start (A := A) content
  unfold o_C92_lines
  generalize startOf A content = x at *
  obtain ⟨b0, d0, t0⟩ := x
  simp only [imp_iff, okAnd_iff, Bool.and_eq_true, decide_eq_true_eq, overB_iff]
  intro ht hc
  obtain ⟨b, h1, h2, h3, h4, h5, h6, h7, _⟩ := C92_lines (Uax29.ordinary_closed T) (fun _ => Uax29.ordinary_noCr T) A b0 d0 t0 cs h0 ht (fitAllB_fit T cs _ hc) _ rfl
  refine ⟨b, h1, ⟨⟨⟨⟨h2, h3⟩, h4⟩, h5⟩, h6 p⟩, ?_⟩
  have := h7 (lo p q) (hi p q) (lo_le_hi p q)
  rwa [range_new_of_le (lo_le_hi p q), ← range_new] at this

theorem ofLine_parts (es : List RowEdit) (i : Nat) :
    RowEdit.ofLine ((es.filter fun e => e.line == 0) ++ es.filter fun e => !(e.line == 0)) i = RowEdit.ofLine es i := by
  simp only [RowEdit.ofLine, List.filter_append, List.filter_filter]
  by_cases hi : i = 0
  · subst hi
    have : ∀ es : List RowEdit, es.filter (fun a => a.line == 0 && !(a.line == 0)) = [] := fun es => List.filter_eq_nil_iff.mpr (by simp)
    rw [this, List.append_nil]
    exact List.filter_congr (by simp)
  · have : ∀ es : List RowEdit, es.filter (fun a => a.line == i && (a.line == 0)) = [] := fun es => List.filter_eq_nil_iff.mpr (by
      intro a _; simp only [Bool.and_eq_true, beq_iff_eq]; omega)
    rw [this, List.nil_append]
    exact List.filter_congr (by
      intro e _
      by_cases h : e.line = i
      · simp [h, hi]
      · simp [h])

theorem s_C93 (h : Reached (Uax29.segmenter T) A b d) (es : List RowEdit) : o_C93 (Uax29.segmenter T) A T b es = true := by
  simp only [o_C93, okImp_iff, imp_iff, okAnd_iff, Bool.and_eq_true, decide_eq_true_eq, overB_iff, List.all_eq_true, Bool.not_eq_true', List.mem_range]
  intro t ht ho h1 h2
  have hs : ∀ e ∈ es, Over (Uax29.segmenter T).segs (Uax29.Ordinary T.cls) e.put ∧ '\n' ∉ e.put := fun e he => ⟨(h1 e he).1.1, by simpa using (h1 e he).1.2⟩
  have hl : ∀ e ∈ es, e.line < (rows ((Uax29.segmenter T).segs t)).length := fun e he => (h1 e he).2
  have ha : ∀ i r, (rows ((Uax29.segmenter T).segs t))[i]? = some r → RowEdit.Allowed (Uax29.segmenter T).segs r (RowEdit.ofLine es i) := by
    intro i r hr
    have := h2 i (List.getElem?_eq_some_iff.mp hr).1
    rwa [hr] at this
  obtain ⟨b1, e1, e2⟩ := C93_by_line (Uax29.ordinary_closed T) A b d t es h ht ho hs hl ha
  refine ⟨b1, e1, e2, ?_⟩
  obtain ⟨b2, b3, f1, f2, f3⟩ := C93_interleaving (Uax29.ordinary_closed T) A A b b d d t es
    ((es.filter fun e => e.line == 0) ++ es.filter fun e => !(e.line == 0)) h h ht ht ho hs hl ha (ofLine_parts es)
  rw [e1] at f1; cases f1
  exact ⟨b3, f2, by rw [← f3, e2]⟩

end Scribe.Oracle
