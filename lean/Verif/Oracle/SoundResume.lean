import Verif.Oracle.Resume
import Verif.Oracle.SoundParser
import Verif.Props.Resume
/-! # The executable forms of C103 follow from the theorems -/
namespace Scribe.Oracle
open Spec Props TokenIter

variable {S : Segmenter} {H : Highlighter}

theorem s_C103_calls [DecidableEq H.Scopes] [DecidableEq H.Err] (data : Text) (n : Nat) : o_C103_calls S H data n = true := by
  have h := C103_calls S H data
  simp only [o_C103_calls, okAnd_iff]
  cases hs : callRun S.segs H data with
  | error e => rw [hs] at h; exact ⟨_, h, decide_eq_true rfl⟩
  | ok r =>
    obtain ⟨cs, r⟩ := r
    rw [hs] at h
    obtain ⟨it, h1, w1, w2, w3⟩ := h
    refine ⟨_, h1, ?_⟩
    dsimp only
    by_cases hle : n ≤ cs.length
    · rw [w1 n hle]
      simp only [Bool.and_eq_true, Bool.or_eq_true, decide_eq_true_eq]
      refine ⟨Or.inr hle, ?_⟩
      rw [List.take_append_of_le_length (by rw [seen_length]; exact hle)]
    · cases r with
      | true =>
        obtain ⟨p, hp⟩ := w2 rfl n (by omega)
        rw [hp]
        simpa using hle
      | false =>
        have := w3 rfl (n - cs.length)
        rw [Nat.add_sub_cancel' (by omega)] at this
        rw [this]
        simp only [Bool.and_eq_true, decide_eq_true_eq]
        refine ⟨rfl, ?_⟩
        rw [List.take_of_length_le (by rw [List.length_append, seen_length, List.length_replicate]; omega)]

theorem s_C103_pieces (data : Text) (n i : Nat) : o_C103_pieces S H data n i = true := by
  obtain ⟨r, hr⟩ : ∃ r, TokenIter.new H data = .ok r := by
    have h := C103_calls S H data
    split at h
    · exact ⟨_, h⟩
    · obtain ⟨it, h, _⟩ := h; exact ⟨_, h⟩
  simp only [o_C103_pieces, okAnd_iff]
  refine ⟨r, hr, ?_⟩
  cases r with
  | error e => rfl
  | ok it =>
    dsimp only
    cases hw : watch S n it with
    | error p => rfl
    | ok os =>
      dsimp only
      cases hi : os[i]? with
      | none => rfl
      | some x =>
        obtain ⟨o, w⟩ := x
        match o, hi with
        | none, _ => rfl
        | some .newline, _ => rfl
        | some (.lexeme v k p), hi =>
          obtain ⟨l, a, b, h1, h2⟩ := C103_pieces S H data it hr n os hw v k p w (List.mem_of_getElem? hi)
          simp only [someAnd_iff]
          refine ⟨l, h1, ?_⟩
          rw [List.any_eq_true]
          refine ⟨a.length, ?_, List.isPrefixOf_iff_prefix.mpr ⟨b, ?_⟩⟩
          · have h3 : (l.filter (· != '\n')).length ≤ l.length := List.length_filter_le _ _
            rw [h2] at h3
            rw [List.mem_range]
            simp only [List.length_append] at h3
            omega
          · rw [h2, List.append_assoc, List.drop_left]

end Scribe.Oracle
