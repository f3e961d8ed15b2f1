import Verif.Oracle.SoundDesktop
import Verif.Oracle.Dialogue
import Verif.Props.Dialogue
/-! # The executable forms of C98 follow from the theorems -/
namespace Scribe.Oracle
open Spec Props

theorem s_C98_dialogue (S : Segmenter) (A : Alloc) (W : FileTree) (s : Syntaxes Nat) (root : Path) (disk : Disk) (ls : List (Line Nat)) (m : Nat) :
    o_C98_dialogue S A W s root disk ls m = true := by
  simp only [o_C98_dialogue, someImp_iff, okAnd_iff]
  intro w0 h0
  obtain ⟨e, h1, h2⟩ := C98_dialogue S A W _ root s w0 disk h0 ls
  refine ⟨_, h1, ?_⟩
  simp only [Bool.and_eq_true, decide_eq_true_eq, List.all_eq_true, true_and]
  exact fun n _ => congrFun h2 n

theorem s_C98_same_plain (T : Uax29.Table) (A A' : Alloc) (W : FileTree) (s : Syntaxes Nat) (root : Path) (ts : List Text) (ls : List (Line Nat)) (m : Nat) :
    o_C98_same_plain (Uax29.segmenter T) A W T A' s root ts ls m = true := by
  simp only [o_C98_same_plain, someImp_iff, imp_iff, okAnd_iff]
  intro w0 h0 hp
  simp only [Bool.and_eq_true, List.all_eq_true] at hp
  have plain : ∀ {t}, aloneB T t = true → ∀ c ∈ t, Uax29.Ordinary T.cls [c] := fun h => by simpa [aloneB] using h
  obtain ⟨rs, e, e', h1, h2, h3⟩ := C98_same_plain (Uax29.segmenter T) (fun c => Uax29.Ordinary T.cls [c]) (fun t h => ordinary_single T t h) A A' W _ root s w0
    (diskOf ts) h0 ls (by
      intro n t ht
      simp only [diskOf, Option.map_eq_some_iff] at ht
      obtain ⟨t', h1, h2⟩ := ht
      rw [enc_injective h2] at h1
      exact plain (hp.1 t (List.mem_of_getElem? h1)))
    (by
      intro l hl
      have := hp.2 l hl
      cases l with
      | ask q => trivial
      | deed a =>
        cases a with
        | cmd c => cases c <;> first | trivial | exact plain this
        | _ => trivial)
  refine ⟨_, h1, _, h2, ?_⟩
  simp only [Bool.and_eq_true, decide_eq_true_eq, List.all_eq_true, true_and]
  exact fun n _ => congrFun h3 n

end Scribe.Oracle
