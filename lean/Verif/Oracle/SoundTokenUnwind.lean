import Verif.Oracle.TokenUnwind
import Verif.Oracle.SoundResume
import Verif.Props.TokenUnwind
/-! # The executable forms of C107 follow from the theorems -/
namespace Scribe.Oracle
open Spec Props TokenUnwind

variable {S : Segmenter} {H : Highlighter}

theorem s_C107_calls [DecidableEq H.Scopes] [DecidableEq H.Err] (boom : H.Err → Bool) (data : Text) (n : Nat) : o_C107_calls S H boom data n = true := by
  have h := C107_calls S H boom data
  simp only [o_C107_calls]
  cases hs : goRun S.segs H boom data with
  | error e =>
    rw [hs] at h
    simp only at h
    rw [h]
    cases hb : boom e with
    | true => simpa using hb
    | false => simp [hb]
  | ok cs =>
    rw [hs] at h
    obtain ⟨it, h1, h2⟩ := h
    rw [h1]
    exact decide_eq_true (h2 n)

theorem s_C107_same [DecidableEq H.Scopes] [DecidableEq H.Err] (boom : H.Err → Bool) (calm : Bool) (data : Text) (n : Nat) : o_C107_same S H boom calm data n = true := by
  simp only [o_C107_same]
  generalize hb : (fun e => !calm && boom e) = bm
  cases hn : TokenUnwind.new bm data with
  | unwound => rfl
  | done r =>
    cases r with
    | error e => rfl
    | ok it0 =>
      dsimp only
      generalize aftergoing S bm n it0 = it
      obtain ⟨h1, h2, h3⟩ := C107_same S H bm it
      generalize TokenUnwind.next S bm it = x at h1 h2 h3 ⊢
      obtain ⟨o, it1⟩ := x
      cases o with
      | done o => rw [h1 o rfl]; simp
      | unwound =>
        cases hx : TokenIter.next S it with
        | error p => rfl
        | ok r =>
          dsimp only
          cases calm with
          | false => rfl
          | true =>
            obtain ⟨p, hp⟩ := h3 (fun e => by rw [← hb]; rfl) rfl
            rw [hx] at hp; cases hp

theorem s_C107_forgotten [DecidableEq H.Scopes] [DecidableEq H.Err] (data : Text) : o_C107_forgotten S H data = true := by
  have h := C107_forgotten S.segs H data
  simp only [o_C107_forgotten]
  rw [h]
  cases goRun S.segs H (fun _ => false) data with
  | error e => exact decide_eq_true rfl
  | ok cs => simp [Except.map]

theorem s_C107_pieces (boom : H.Err → Bool) (data : Text) (n i : Nat) : o_C107_pieces S H boom data n i = true := by
  simp only [o_C107_pieces]
  cases hn : TokenUnwind.new boom data with
  | unwound => rfl
  | done r =>
    cases r with
    | error e => rfl
    | ok it =>
      dsimp only
      cases hi : (behold S boom n it)[i]? with
      | none => rfl
      | some x =>
        obtain ⟨o, w⟩ := x
        match o, hi with
        | .unwound, _ => rfl
        | .done none, _ => rfl
        | .done (some .newline), _ => rfl
        | .done (some (.lexeme v k p)), hi =>
          obtain ⟨l, a, b, h1, h2⟩ := C107_pieces S H boom data it hn n v k p w (List.mem_of_getElem? hi)
          simp only [someAnd_iff]
          refine ⟨l, h1, ?_⟩
          rw [List.any_eq_true]
          refine ⟨a.length, ?_, List.isPrefixOf_iff_prefix.mpr ⟨b, ?_⟩⟩
          · have h3 : (l.filter (· != '\n')).length ≤ l.length := List.length_filter_le _ _
            rw [h2] at h3
            rw [List.mem_range]
            simp only [List.length_append] at h3
            omega
          · rw [h2, List.append_assoc, List.drop_left]

end Scribe.Oracle
