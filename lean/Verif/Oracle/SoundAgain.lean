import Verif.Oracle.Again
import Verif.Oracle.SoundStream
import Verif.Props.Again
/-! # The executable forms of C116 follow from the theorems -/
namespace Scribe.Oracle
open Spec Props TokenIter

variable {S : Segmenter} {H : Highlighter}

theorem aboveB_iff {K : Type} {n : Nat} {t : Token K} : aboveB n t = true ↔ Above n t := by
  cases t <;> simp [aboveB, Above]

theorem allTokens_error {t : Text} {e : H.Err} (h : TokenIter.new H t = .ok (.error e)) : allTokens S H t = some (.error e) := by
  unfold allTokens; rw [h]

theorem allTokens_ok (hO : OffsetsOk H) {t : Text} {it it' : TokenIter H} {ts : List (Token H.Scopes)} (h : TokenIter.new H t = .ok (.ok it)) (hc : Collects S it ts it') :
    allTokens S H t = some (.ok (ts, it'.error)) := by
  unfold allTokens; rw [h]
  have hl := C70_token_count S H t hO it it' ts h hc
  simp only [collects_drained hc _ (show ts.length < enoughCalls t from Nat.lt_succ_of_le hl)]

theorem s_C116_resume [DecidableEq H.Scopes] [DecidableEq H.Err] (hO : OffsetsOk H) (y c c' : Text) : o_C116_resume S H y c c' = true := by
  simp only [o_C116_resume, someImp_iff, someAnd_iff, decide_eq_true_eq]
  intro s hs
  obtain ⟨pre, h1, h2, h3⟩ := C116_resume S H hO y s hs
  have h2' : pre.all (aboveB (y.count '\n' + 1)) = true := by
    rw [List.all_eq_true]; exact fun t ht => aboveB_iff.mpr (h2 t ht)
  have key : ∀ c, tokensBefore S H y s c = some pre := by
    intro c
    obtain ⟨it, k1, k2⟩ := h3 c
    unfold tokensBefore
    rcases k2 with ⟨e, it', a1, a2, a3⟩ | ⟨jt, ts, jt', it', a1, a2, a3, a4⟩
    · rw [allTokens_ok hO k1 a2, show resumed S H s c = some (.error e) from allTokens_error (S := S) (H := H.resume s) a1]
      exact if_pos ⟨a3, h1, h2'⟩
    · rw [allTokens_ok hO k1 a3, show resumed S H s c = some (.ok (ts, jt'.error)) from allTokens_ok (H := H.resume s) hO a1 a2]
      dsimp only
      have e : (pre ++ .newline :: ts.map (lower (y.count '\n' + 1))).take ((pre ++ .newline :: ts.map (lower (y.count '\n' + 1))).length - (ts.length + 1)) = pre := by
        rw [List.length_append, List.length_cons, List.length_map, Nat.add_sub_cancel, List.take_left]
      rw [e]
      exact if_pos ⟨rfl, a4, h1, h2'⟩
  exact ⟨pre, key c, key c'⟩

theorem s_C116_patch [DecidableEq H.Scopes] [DecidableEq H.Parser] [DecidableEq H.Err] (hO : OffsetsOk H) (y y' c : Text) : o_C116_patch S H y y' c = true := by
  simp only [o_C116_patch, imp_iff]
  rintro ⟨h1, h2⟩
  obtain ⟨s, hs⟩ := Option.isSome_iff_exists.mp h2
  obtain ⟨pre, pre', r1, r2, h3⟩ := C116_patch S H hO y y' s hs (h1.symm.trans hs)
  obtain ⟨post, it, it', jt, jt', k1, k2, k3, k4, k5⟩ := h3 c
  rw [allTokens_ok hO k1 k2, allTokens_ok hO k3 k4]
  simp only [Bool.and_eq_true, List.any_eq_true, decide_eq_true_eq, List.mem_range]
  refine ⟨k5, pre.length, by simp; omega, by rw [List.take_left]; exact r1, pre'.length, by simp; omega, by rw [List.take_left]; exact r2, ?_⟩
  rw [List.drop_left, List.drop_left, List.map_map, List.map_map]
  congr 1
  funext t
  cases t with
  | newline => rfl
  | lexeme v k p => simp only [Function.comp_apply, lower]; congr 2; omega

theorem s_C116_states [DecidableEq H.Scopes] [DecidableEq H.Parser] (y z : Text) : o_C116_states H y z = true :=
  decide_eq_true (C116_states H y z)

end Scribe.Oracle
