import Verif.Oracle.Stream
import Verif.Oracle.SoundFile
import Verif.Props.Stream
/-! # The executable forms of C101 follow from the theorems -/
namespace Scribe.Oracle
open Spec Props TokenIter

variable {S : Segmenter} {H : Highlighter}

theorem s_C101_stream [DecidableEq H.Scopes] [DecidableEq H.Err] (hO : OffsetsOk H) (data : Text) : o_C101_stream S H data = true := by
  obtain ⟨h1, h2⟩ := C101_stream S H data hO
  simp only [o_C101_stream, okAnd_iff]
  cases hs : stream S.segs H data with
  | error e => exact ⟨_, (h1 e).mpr hs, decide_eq_true rfl⟩
  | ok r =>
    obtain ⟨ts, err⟩ := r
    obtain ⟨it, it', k1, k2, k3⟩ := (h2 ts err).mp hs
    refine ⟨_, k1, ?_⟩
    have hl := C70_token_count S H data hO it it' ts k1 k2
    simp only [okAnd_iff, someAnd_iff, Bool.and_eq_true]
    exact ⟨_, collects_drained k2 _ (Nat.lt_succ_of_le hl), _, rfl, decide_eq_true rfl, decide_eq_true k3⟩

theorem s_C101_error [DecidableEq H.Err] (hO : OffsetsOk H) (data : Text) : o_C101_error S H data = true := by
  simp only [o_C101_error, okAnd_iff]
  rcases C101_error S H data hO with ⟨e, h1, _, h2⟩ | ⟨it, ts, it', k1, k2, k3⟩
  · exact ⟨_, h1, decide_eq_true h2⟩
  · refine ⟨_, k1, ?_⟩
    have hl := C70_token_count S H data hO it it' ts k1 k2
    simp only [okAnd_iff, someAnd_iff]
    exact ⟨_, collects_drained k2 _ (Nat.lt_succ_of_le hl), _, rfl, decide_eq_true k3⟩

end Scribe.Oracle
