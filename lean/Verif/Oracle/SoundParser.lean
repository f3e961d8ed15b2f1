import Verif.Oracle.Parser
import Verif.Oracle.SoundStream
import Verif.Props.Parser
/-! # The executable forms of C102 follow from the theorems -/
namespace Scribe.Oracle
open Spec Props TokenIter

variable {S : Segmenter} {H : Highlighter}

theorem collects_drainAny {it it' : TokenIter H} {ts : List (Token H.Scopes)} (h : Collects S it ts it') :
    ∀ n, ts.length < n → drainAny S n it = some (ts, it'.error.map some) := by
  induction h with
  | stop e =>
    intro n hn
    cases n with
    | zero => cases hn
    | succ n => rw [drainAny, e]
  | next e _ ih =>
    intro n hn
    cases n with
    | zero => cases hn
    | succ n => rw [drainAny, e]; dsimp only; rw [ih n (by simp at hn; omega)]; rfl

theorem panics_drainAny {it : TokenIter H} {ts : List (Token H.Scopes)} (h : PanicsAfter S it ts) : ∀ n, ts.length < n → drainAny S n it = some (ts, some none) := by
  induction h with
  | now e =>
    intro n hn
    cases n with
    | zero => cases hn
    | succ n => rw [drainAny, e]
  | next e _ ih =>
    intro n hn
    cases n with
    | zero => cases hn
    | succ n => rw [drainAny, e]; dsimp only; rw [ih n (by simp at hn; omega)]; rfl

theorem ends_drainAny {it : TokenIter H} {ts : List (Token H.Scopes)} {r} (h : Ends S it ts r) (n : Nat) (hn : ts.length < n) : drainAny S n it = some (ts, r) := by
  match r, h with
  | none, ⟨it', h1, h2⟩ => rw [collects_drainAny h1 n hn, h2]; rfl
  | some (some e), ⟨it', h1, h2⟩ => rw [collects_drainAny h1 n hn, h2]; rfl
  | some none, h => exact panics_drainAny h n hn

theorem s_C102_any [DecidableEq H.Scopes] [DecidableEq H.Err] (data : Text) : o_C102_any S H data = true := by
  obtain ⟨h1, h2⟩ := C102_any S H data
  simp only [o_C102_any, okAnd_iff]
  cases hs : tokenRun S.segs H data with
  | error e => exact ⟨_, (h1 e).mpr hs, decide_eq_true rfl⟩
  | ok r =>
    obtain ⟨ts, r⟩ := r
    obtain ⟨it, k1, k2⟩ := (h2 ts r).mp hs
    have hl := (C102_prefix S H data it k1 ts r k2).2.2.2
    exact ⟨_, k1, decide_eq_true (ends_drainAny k2 _ (by unfold enoughCalls; omega))⟩

theorem s_C102_prefix (data : Text) (i : Nat) : o_C102_prefix S H data i = true := by
  obtain ⟨h1, h2⟩ := C102_any S H data
  simp only [o_C102_prefix, okAnd_iff]
  cases hs : tokenRun S.segs H data with
  | error e => exact ⟨_, (h1 e).mpr hs, rfl⟩
  | ok r =>
    obtain ⟨ts, r⟩ := r
    obtain ⟨it, k1, k2⟩ := (h2 ts r).mp hs
    obtain ⟨a, b, c, d⟩ := C102_prefix S H data it k1 ts r k2
    refine ⟨_, k1, ?_⟩
    simp only [someAnd_iff, Bool.and_eq_true, Bool.or_eq_true]
    refine ⟨_, ends_drainAny k2 _ (by unfold enoughCalls; omega), ⟨List.isPrefixOf_iff_prefix.mpr a, ?_⟩, ?_⟩
    · cases r with
      | none => exact Or.inr (decide_eq_true (b rfl))
      | some r => exact Or.inl rfl
    · dsimp only
      cases hi : ts[i]? with
      | none => rfl
      | some t =>
        cases t with
        | newline => rfl
        | lexeme v k p =>
          have hlt : i < ts.length := (List.getElem?_eq_some_iff.mp hi).1
          have hg : ts[i] = .lexeme v k p := (List.getElem?_eq_some_iff.mp hi).2
          refine decide_eq_true (c (ts.take i) v k p (ts.drop (i + 1)) ?_)
          rw [← hg, List.getElem_cons_drop, List.take_append_drop]

end Scribe.Oracle
