import Verif.Oracle.SoundDesktop
import Verif.Oracle.Office
import Verif.Props.Office
/-! # The executable forms of C97 follow from the theorems -/
namespace Scribe.Oracle
open Spec Props

variable (S : Segmenter) (A : Alloc)

theorem s_C97_programs (s : Syntaxes Nat) (root : Path) (disk : Disk) (es : List (Event Nat)) (ps : List Position) (m k : Nat) :
    o_C97_programs S A s root disk es ps m k = true := by
  simp only [o_C97_programs, someImp_iff, okAnd_iff]
  intro w0 h0
  obtain ⟨o, h1, h2, h3⟩ := C97_programs S A _ _ (fun _ => s) (fun _ => w0) disk (fun _ => h0) es
  refine ⟨o, h1, ?_⟩
  simp only [Bool.and_eq_true, decide_eq_true_eq, List.all_eq_true]
  refine ⟨fun n _ => congrFun h2 n, fun i _ => ?_⟩
  obtain ⟨k1, k2, k3, k4⟩ := h3 i
  exact ⟨⟨⟨k1, k2⟩, pairwiseB_iff (fun _ _ => showsB_iff) k3⟩, k4⟩

theorem deedsOf_mine (who : Nat) (es : List (Event Nat)) : deedsOf who (es.filter (mineB who)) = deedsOf who es := by
  induction es with
  | nil => rfl
  | cons ev es ih =>
    cases ev with
    | outside d => exact ih
    | deed i W a =>
      by_cases hi : i = who
      · rw [List.filter_cons_of_pos (by simp [mineB, hi])]
        simp only [deedsOf, List.filterMap_cons, if_pos hi] at ih ⊢
        rw [ih]
      · rw [List.filter_cons_of_neg (by simp [mineB, hi]), ih]
        simp only [deedsOf, List.filterMap_cons, if_neg hi]

theorem s_C97_unnoticed (s : Syntaxes Nat) (root : Path) (disk : Disk) (pre es : List (Event Nat)) (who : Nat) :
    o_C97_unnoticed S A s root disk pre es who = true := by
  simp only [o_C97_unnoticed, someImp_iff, okImp_iff, imp_iff, decide_eq_true_eq, List.all_eq_true]
  intro w0 _ o _ hl o1 h1 o2 h2
  have := C97_unnoticed S A who o o o1 o2 es (es.filter (mineB who)) rfl h1 h2 (deedsOf_mine who es).symm fun x hx hL => by
    have := hl x hx
    rw [(peeksB_iff x.2).mpr hL] at this
    cases this
  rw [this]
  exact ⟨rfl, rfl⟩

theorem s_C97_files (s : Syntaxes Nat) (root : Path) (disk : Disk) (es : List (Event Nat)) (n : Nat) : o_C97_files S A s root disk es n = true := by
  simp only [o_C97_files, someImp_iff, okImp_iff, Bool.or_eq_true, List.any_eq_true, decide_eq_true_eq]
  intro w0 h0 o ho
  rcases C97_files S A _ _ (fun _ => s) (fun _ => w0) disk (fun _ => h0) es o ho n with h | ⟨pre, ev, post, rfl, h⟩
  · exact Or.inl h
  · refine Or.inr ⟨pre.length, by simp, ?_⟩
    rw [someAnd_iff]
    refine ⟨ev, by simp, ?_⟩
    rcases h with ⟨d, rfl, h⟩ | ⟨who, W, a, o1, b, t, k, rfl, k2, k3, k4, k5, k6⟩
    · exact decide_eq_true h
    · simp only [someAnd_iff, Bool.and_eq_true, okAnd_iff, decide_eq_true_eq, savesB_iff]
      exact ⟨k2, o1, by rw [List.take_left]; exact k3, b, k4, t, k5, _, k6, List.take_prefix _ _⟩

theorem s_C97_overwrites (W : FileTree) (s : Syntaxes Nat) (root : Path) (disk : Disk) (es : List (Event Nat)) (who m : Nat) (env : SaveEnv) :
    o_C97_overwrites S A W s root disk es who m env = true := by
  simp only [o_C97_overwrites, someImp_iff, okImp_iff, imp_iff, Bool.and_eq_true, Bool.or_eq_true, decide_eq_true_eq]
  rintro w0 _ o _ b hb t ht n hn ⟨hp, hc, hw⟩ o' ho'
  have hc' : ∃ f, env.create = some (some f) := by
    split at hc
    · rename_i f h; exact ⟨f, h⟩
    · cases hc
  obtain ⟨h1, h2, h3⟩ := C97_overwrites S A W o o' who n b t env hb ht hp hn hc' hw ho'
  refine ⟨⟨h1, ?_⟩, ?_⟩
  · by_cases hm : m = n
    · exact Or.inl hm
    · exact Or.inr (h2 m hm)
  · by_cases hm : m = who
    · exact Or.inl hm
    · rw [h3 m hm]; exact Or.inr ⟨rfl, rfl⟩

end Scribe.Oracle
