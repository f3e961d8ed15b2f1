import Verif.Oracle.Rest
import Verif.Oracle.SoundBasic
import Verif.Props.Workspace
/-! # The executable forms of C38–C44 follow from the theorems -/
namespace Scribe.Oracle
open Spec Props Workspace

variable {A : Alloc} {s : Syntaxes Nat} {root : Path} {cs : List (Call Nat)}

theorem after_intro {P : Workspace Nat → Bool} (h : ∀ w, Runs A s cs w → P w = true) : after A s root cs P = true := by
  simp only [after, someImp_iff, okImp_iff]
  exact fun w0 h0 w hw => h w ⟨_, _, w0, h0, hw⟩

@[simp] theorem sameW_refl (w : Workspace Nat) : sameW w w = true := by simp [sameW]

theorem s_C38 (k : Nat) : o_C38_workspace_is_a_list A s root cs k = true := by
  simp only [o_C38_workspace_is_a_list, someImp_iff, okAnd_iff, imp_iff, Bool.and_eq_true, decide_eq_true_eq]
  intro w0 h0
  obtain ⟨w, h1, h2, h3, h4, h5, h6⟩ := C38_workspace_is_a_list A s _ _ w0 h0 cs
  exact ⟨w, h1, ⟨⟨⟨h2, h3⟩, h4⟩, h5⟩, h6 k⟩

theorem s_C38_results (c : Call Nat) : o_C38_results A s root cs c = true := by
  refine after_intro fun w h => ?_
  simp only [okAnd_iff]
  obtain ⟨w', h1, _⟩ := C38_results A s cs w h c
  exact ⟨_, h1, by simp⟩

theorem s_C39 (c : Call Nat) : o_C39_others_untouched A s root cs c = true := by
  refine after_intro fun w h => ?_
  simp only [okImp_iff, someImp_iff, List.isSublist_iff_sublist]
  rintro ⟨r, w'⟩ hc i hi
  exact C39_others_untouched A s cs w w' h c r hc i hi

theorem s_C39_back (ms : List (Call Nat)) : o_C39_coming_back A s root cs ms = true := by
  simp only [o_C39_coming_back, imp_iff, List.all_eq_true]
  intro hm
  refine after_intro fun w h => ?_
  simp only [okImp_iff, imp_iff]
  intro w' hr hn hi
  rw [C39_coming_back A s cs ms w w' h (fun m hm' => by have := hm m hm'; cases m <;> simp_all [Selects]) hr hn hi, sameW_refl]

theorem s_C40 : o_C40_cycle A s root cs = true := by
  refine after_intro fun w h => ?_
  simp only [okAnd_iff, Bool.and_eq_true, List.all_eq_true, List.any_eq_true, List.mem_range, decide_eq_true_eq]
  obtain ⟨h1, h2, h3, h4⟩ := C40_cycle A s cs w h
  refine ⟨⟨⟨⟨w, h1, sameW_refl w⟩, w, h2, sameW_refl w⟩, w, h3, sameW_refl w⟩, fun j hj => ?_⟩
  obtain ⟨k, w', k1, k2, k3⟩ := h4 j hj
  exact ⟨k, k1, w', k2, k3⟩

theorem s_C41 (hk : ∀ c ∈ cs, KeepsId c) : o_C41_ids_distinct A s root cs = true := by
  refine after_intro fun w h => ?_
  simp only [Bool.and_eq_true, List.all_eq_true, decide_eq_true_eq]
  exact C41_ids_distinct A s cs w h hk

theorem s_C41_never_reused (ds : List (Call Nat)) (b : FileBuf Nat) (hk : ∀ c ∈ cs ++ ds, KeepsId c) :
    o_C41_ids_never_reused A s root cs ds b = true := by
  refine after_intro fun w h => ?_
  simp only [okImp_iff, someAnd_iff, List.all_eq_true, decide_eq_true_eq]
  intro w2 h2 w3 h3
  exact C41_ids_never_reused A s cs ds w w2 w3 h hk h2 b h3

theorem s_C42 (hc : ∀ c ∈ cs, OpensOnly c) : o_C42_no_duplicates A s root cs = true := by
  refine after_intro fun w h => ?_
  exact decide_eq_true (C42_no_duplicates A s cs w h hc)

theorem s_C42_selects (f0 f1 f2 : Fs) (p : Path) : o_C42_open_selects A s root cs f0 f1 f2 p = true := by
  refine after_intro fun w h => ?_
  simp only [okAnd_iff, someImp_iff, imp_iff, Bool.and_eq_true, List.any_eq_true, decide_eq_true_eq]
  intro c hc hb
  obtain ⟨w', h1, h2, h3, h4, h5⟩ := C42_open_selects A s cs w h 0 f0 f1 f2 p c hc hb
  exact ⟨_, h1, ⟨⟨⟨rfl, h2⟩, h3⟩, h4⟩, h5⟩

theorem s_C42_failed (f0 f1 f2 : Fs) (p : Path) : o_C42_failed_open A s root cs f0 f1 f2 p = true := by
  refine after_intro fun w h => ?_
  simp only [okImp_iff, imp_iff, Bool.and_eq_true, decide_eq_true_eq]
  rintro ⟨ok, w'⟩ h1 rfl
  obtain ⟨rfl, h2⟩ := C42_failed_open A s cs w w' h 0 f0 f1 f2 p h1
  exact ⟨sameW_refl _, h2⟩

theorem s_C43 : o_C43_buffer_paths A s root cs = true := by
  refine after_intro fun w h => ?_
  simp only [someImp_iff, Bool.and_eq_true, decide_eq_true_eq]
  exact C43_buffer_paths A s cs w h

theorem s_C43_new (fs : Fs) (path : Path) (syns : Option (Syntaxes Nat)) : o_C43_new fs path syns = true := by
  obtain ⟨h1, h2⟩ := C43_new fs path syns
  unfold o_C43_new
  cases hn : Workspace.new fs path syns with
  | none => rcases h1.mp hn with h | h <;> simp [h]
  | some w =>
    obtain ⟨k1, k2, k3, k4, k5, k6⟩ := h2 w hn
    have hs : syns.isSome = true := by
      cases syns with
      | none => rw [h1.mpr (Or.inl rfl)] at hn; cases hn
      | some s => rfl
    simp [hs, k1, k2, k3, k4, k5, k6]

theorem s_C43_relative (w : Workspace Nat) (b : FileBuf Nat) : o_C43_relative w b = true := by
  unfold o_C43_relative
  obtain ⟨h1, h2, h3⟩ := C43_relative w b
  split
  · rename_i hp; exact decide_eq_true (h1 hp)
  · rename_i p hp
    apply decide_eq_true
    split
    · rename_i hq
      obtain ⟨q, rfl⟩ := List.isPrefixOf_iff_prefix.mp hq
      rw [h2 q hp]; simp
    · rename_i hq
      exact h3 p hp fun q e => hq (List.isPrefixOf_iff_prefix.mpr ⟨q, e.symm⟩)

theorem s_C44_add (b : FileBuf Nat) : o_C44_add_syntax A s root cs b = true := by
  refine after_intro fun w h => ?_
  simp only [okAnd_iff, someAnd_iff, Bool.and_eq_true, decide_eq_true_eq]
  obtain ⟨w', c, h1, h2, h3, h4, y, h5, h6, h7, h8, h9⟩ := C44_add_syntax A s cs w h b
  refine ⟨w', h1, c, h2, ⟨h3, h4⟩, ?_⟩
  rw [h5]
  congr 1
  cases e1 : b.syn with
  | some x => exact h6 x e1
  | none =>
    cases e2 : b.fileExtension with
    | some e => exact h7 e1 e e2
    | none =>
      cases e3 : b.fileName with
      | some n => exact h8 e1 e2 n e3
      | none => exact h9 e1 e2 e3

theorem s_C44_tokens (hk : ∀ c ∈ cs, KeepsSyntax c) : o_C44_tokens A s root cs = true := by
  refine after_intro fun w h => ?_
  obtain ⟨h1, h2, h3⟩ := C44_tokens A s cs w h hk
  simp only [Bool.and_eq_true, List.all_eq_true]
  refine ⟨h1, ?_⟩
  split
  · rename_i he; rw [h2 he]
  · rename_i he
    obtain ⟨b, y, k1, k2, k3, k4⟩ := h3 he
    simp only [someAnd_iff, okImp_iff, Bool.and_eq_true, decide_eq_true_eq]
    refine ⟨b, k1, k2, y, k3, fun t ht => ?_⟩
    rw [k4 t ht]; simp

theorem s_C44_update : o_C44_update_syntax A s root cs = true := by
  refine after_intro fun w h => ?_
  obtain ⟨h1, h2⟩ := C44_update_syntax A s cs w h
  split
  · rename_i hn; rw [h1 hn]; simp
  · rename_i b hb
    obtain ⟨y, k1, k2, k3, k4⟩ := h2 b hb
    rw [k1]
    simp only [Bool.true_and]
    have : ∀ z, y = z → sameW { w with current := some { b with syn := some y } } { w with current := some { b with syn := some z } } = true := by
      rintro z rfl; simp
    apply this
    cases e2 : b.fileExtension with
    | some e => exact k2 e e2
    | none =>
      cases e3 : b.fileName with
      | some n => exact k3 e2 n e3
      | none => exact k4 e2 e3

end Scribe.Oracle
