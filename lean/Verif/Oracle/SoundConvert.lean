import Verif.Oracle.Convert
import Verif.Oracle.SoundBasic
import Verif.Props.Convert
/-! # The executable forms of C119 follow from the theorems -/
namespace Scribe.Oracle
open Spec Props Unwind

variable {S : Segmenter} {A : Alloc} {fate : Fate}

theorem agreesB_iff {c : ConvCmd} : agreesB c = true ↔ Agrees c := by
  cases c with
  | cmd c => simp [agreesB, Agrees]
  | insert v => simp [agreesB, Agrees]
  | replace v => rcases v with ⟨_ | s, _ | s'⟩ <;> simp [agreesB, Agrees]

theorem s_C119_untouched (b c) : o_C119_untouched S A fate b c = true := by
  simp only [o_C119_untouched, okImp_iff, imp_iff, decide_eq_true_eq]
  exact fun t ht hp => C119_untouched S A fate b t ht c hp

theorem s_C119_converted (b c) : o_C119_converted S A fate b c = true := by
  simp only [o_C119_converted, okImp_iff, imp_iff, agreesB_iff]
  intro t ht ha
  cases hc : plainCall c with
  | none => rfl
  | some c' => exact decide_eq_true (C119_converted S A fate b t ht c ha c' hc)

theorem s_C119_unneeded (b v) : o_C119_unneeded S A fate b v = true := by
  simp only [o_C119_unneeded, okImp_iff, imp_iff, decide_eq_true_eq]
  exact fun t ht hv => C119_unneeded S A fate b t ht v hv

theorem s_C119_session (k t cs) : o_C119_session S A fate k t cs = true := by
  simp only [o_C119_session, imp_iff, List.all_eq_true, agreesB_iff, Bool.and_eq_true, decide_eq_true_eq, okAnd_iff]
  intro ha
  obtain ⟨h1, b', u, h2, h3⟩ := C119_session S A fate k t cs ha
  exact ⟨h1, b', h2, u, h3, trivial⟩

end Scribe.Oracle
