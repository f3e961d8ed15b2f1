import Verif.Oracle.SoundBasic
import Verif.Oracle.Overlap
import Verif.Props.Overlap
/-! # The executable forms of C99 follow from the theorems -/
namespace Scribe.Oracle
open Spec Props

theorem s_C99_exact (b0 : FileBuf Nat) (bs : List (FileBuf Nat)) (disk0 : Disk) (ts : List Tick) (m k : Nat) :
    o_C99_exact b0 bs disk0 ts m k = true := by
  simp only [o_C99_exact, imp_iff, okAnd_iff]
  intro h
  have ht : ∀ i : Nat, ((bs[i]?).getD b0).buf.data.toStr = .ok (((bs[i]?).getD b0).buf.data.toStr.toOption.getD []) := by
    intro i
    have hm : (bs[i]?).getD b0 ∈ b0 :: bs := by
      cases hi : bs[i]? with
      | none => simp
      | some b => simpa using Or.inr (List.mem_of_getElem? hi)
    have := List.all_eq_true.mp h _ hm
    cases hs : ((bs[i]?).getD b0).buf.data.toStr with
    | ok t => rfl
    | error e => rw [hs] at this; cases this
  obtain ⟨s, h1, h2, h3, h4⟩ := C99_exact (fun i : Nat => (bs[i]?).getD b0) _ ht disk0 ts
  refine ⟨s, h1, ?_⟩
  simp only [Bool.and_eq_true, decide_eq_true_eq, List.all_eq_true]
  exact ⟨fun n _ => h2 n, fun i _ => ⟨fun e _ => h3 i e, h4 i⟩⟩

theorem s_C99_alone (b : FileBuf Nat) (disk : Disk) (who : Nat) (file : Option Nat) (ws : List WriteRes) (m : Nat) : o_C99_alone b disk who file ws m = true := by
  simp only [o_C99_alone, okImp_iff, okAnd_iff]
  intro t ht r hr
  obtain ⟨s, h1, h2, h3, h4⟩ := C99_alone (⟨disk, fun _ => b, fun _ => .before⟩ : Savers Nat) who rfl t ht file ws r.1 r.2.1 r.2.2 hr
  refine ⟨s, h1, ?_⟩
  simp only [Bool.and_eq_true, decide_eq_true_eq, List.all_eq_true]
  exact ⟨⟨fun n _ => congrFun h2 n, h3⟩, fun e _ => h4 e⟩

end Scribe.Oracle
