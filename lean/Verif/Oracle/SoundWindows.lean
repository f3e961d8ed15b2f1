import Verif.Oracle.Windows
import Verif.Oracle.SoundFile
import Verif.Props.Windows
/-! # The executable forms of C100 follow from the theorems -/
namespace Scribe.Oracle
open Spec Props

variable {S : Segmenter} {A : Alloc}

theorem overCrlfB_iff {T : Uax29.Table} {t : Text} : overCrlfB S T t = true ↔ Over S.segs (OrCrlf (Uax29.Ordinary T.cls)) t := by
  simp [overCrlfB, Over, OrCrlf]

theorem pairedB_of {t : Text} (h : CrPaired t) : pairedB t = true := by
  induction t with
  | nil => rfl
  | cons c t ih =>
    simp only [pairedB, Bool.and_eq_true, Bool.or_eq_true, decide_eq_true_eq]
    refine ⟨?_, ih fun x y e => h (c :: x) y (by rw [e]; rfl)⟩
    by_cases hc : c = '\r'
    · right; subst hc; exact h [] t rfl
    · left; exact hc

theorem windowsTypingB_sound {T : Uax29.Table} {c : Buf.Cmd} (h : windowsTypingB S T c = true) : WindowsTyping S.segs (Uax29.Ordinary T.cls) c := by
  cases c <;> simp_all [windowsTypingB, WindowsTyping, overB_iff, overCrlfB_iff]

theorem s_C100_clusters (T : Uax29.Table) (ts : List Text) : o_C100_clusters (Uax29.segmenter T) T ts = true := by
  simp only [o_C100_clusters, imp_iff, decide_eq_true_eq, List.all_eq_true, Bool.or_eq_true]
  exact C100_crlf_clusters T ts

theorem s_C100_gap (T : Uax29.Table) (k : Nat) (t : Text) (cs : List GapBuffer.Call) : o_C100_gap_buffer (Uax29.segmenter T) A T k t cs = true := by
  simp only [o_C100_gap_buffer, imp_iff, okAnd_iff, Bool.and_eq_true, decide_eq_true_eq, overCrlfB_iff, List.all_eq_true]
  intro h1 h2
  obtain ⟨g, e1, e2, e3⟩ := C100_gap_buffer (Uax29.segmenter T) _ (Uax29.ordinary_crlfClosed T) A k t cs h1 h2
  exact ⟨_, e1, ⟨rfl, e2⟩, e3⟩

theorem s_C100_session (T : Uax29.Table) (content : Option Text) (cs : List Buf.Cmd) (k : Nat) :
    o_C100_editing_session (Uax29.segmenter T) A T content cs k = true := by
  simp only [o_C100_editing_session, imp_iff, okAnd_iff, someAnd_iff, Bool.and_eq_true, decide_eq_true_eq, overCrlfB_iff, List.all_eq_true]
  intro h1 h2
  obtain ⟨⟨b, e1, e2, e5, e3⟩, e4⟩ := C100_editing_session (Uax29.segmenter T) _ (Uax29.ordinary_crlfClosed T) (fun _ => Uax29.ordinary_noCr T) A _ _ _ cs
    (startOf_start content) h1 (fun c hc => windowsTypingB_sound (h2 c hc))
  exact ⟨⟨b, e1, ⟨e2, pairedB_of e5⟩, e3⟩, e4 _ (by omega)⟩

theorem s_C100_delete_crlf (T : Uax29.Table) (b : Buf) (d : Doc) (h : Reached (Uax29.segmenter T) A b d) :
    o_C100_delete_crlf (Uax29.segmenter T) A T b d = true := by
  simp only [o_C100_delete_crlf, imp_iff, someImp_iff, overCrlfB_iff]
  intro hg ht ⟨x, y⟩ hl
  simp only
  split
  next y =>
    obtain ⟨hab, hp⟩ := locate_eq_some.mp hl
    simp only [okAnd_iff, Bool.and_eq_true, decide_eq_true_eq]
    exact C100_delete_crlf (Uax29.segmenter T) _ (Uax29.ordinary_crlfClosed T) (fun _ => Uax29.ordinary_noCr T) A b d x.flatten y.flatten h hg ht
      ⟨x, _, hab, rfl, by simp, hp⟩
  next => rfl

theorem s_C100_paste_undo (T : Uax29.Table) (b : Buf) (d : Doc) (s : Text) (h : Reached (Uax29.segmenter T) A b d) :
    o_C100_paste_undo (Uax29.segmenter T) A T b d s = true := by
  simp only [o_C100_paste_undo, imp_iff, someImp_iff, overCrlfB_iff, okAnd_iff, decide_eq_true_eq]
  intro hg ht hs ⟨x, y⟩ hl last hlast hk
  exact C100_paste_undo (Uax29.segmenter T) A b d s last x y _ h hg hl (apart_cleanInsert (Uax29.ordinary_crlfClosed T).apart _ ht hs) rfl hk hlast

theorem s_C51_movement (b : Buf) (d : Doc) (m : Cursor.Move) (h : Reached S A b d) : o_C51_movement S A b d m = true := by
  simp only [o_C51_movement, imp_iff, okAnd_iff, decide_eq_true_eq]
  intro ht hm ⟨hl, ho⟩
  have hsplit : ∃ y, S.segs d.text = (S.segs d.text).takeWhile (· != ['\r', '\n']) ++ ['\r', '\n'] :: y := by
    generalize S.segs d.text = cs at hm
    clear ho
    induction cs with
    | nil => cases hm
    | cons c cs ih =>
      by_cases hc : c = ['\r', '\n']
      · exact ⟨cs, by simp [hc]⟩
      · obtain ⟨y, hy⟩ := ih (by rcases List.mem_cons.mp hm with h | h; exact absurd h.symm hc; exact h)
        refine ⟨y, ?_⟩
        rw [List.takeWhile_cons_of_pos (by simpa using hc), List.cons_append, ← hy]
  obtain ⟨y, hy⟩ := hsplit
  refine C51_movement S A b d _ y b.cursor.position.offset m h (crlfOnlyB_sound _ ht) hy ?_ ?_ ho
  · intro hin
    have hall := List.all_takeWhile (p := fun c : Text => c != ['\r', '\n']) (l := S.segs d.text)
    have := List.all_eq_true.mp hall _ hin
    simp at this
  · cases hp : b.cursor.position with
    | mk l o => rw [hp] at hl; simp only at hl; rw [hl]

end Scribe.Oracle
