import Verif.Proofs.PathStr
import Verif.Model.Workspace
import Verif.Demo
/-!
# Property C109: paths as strings
-/
namespace Scribe.Props
open Spec PathStr

/-- **C109.** What the string of a path means: its pieces between slashes, without those that are empty or a dot. -/
theorem C109_meaning (s : Bytes) : components s = meaning s := components_eq s

/-- C109: the name of the file is the last of these pieces, unless that is `..`; slashes and dots after it do not matter. -/
theorem C109_file_name (s : Bytes) : PathStr.fileName s = lastName s ∧ PathStr.fileName s = Path.fileName (components s) := by
  have h : PathStr.fileName s = Path.fileName (meaning s) := by
    unfold PathStr.fileName Path.fileName
    rw [fileName_last]
    cases (meaning s).getLast? with
    | none => rfl
    | some c => cases c <;> rfl
  rw [components_eq]
  refine ⟨?_, h⟩
  rw [h]
  unfold Path.fileName meaning lastName
  rw [List.getLast?_append, List.getLast?_map]
  cases hl : (steps s).getLast? with
  | none =>
    simp only [Option.map_none, Option.none_or]
    unfold origin
    split
    · rename_i hg
      split at hg
      · simp at hg
      · split at hg <;> simp at hg
    · rfl
  | some n =>
    simp only [Option.map_some, Option.some_or, stepComp]
    by_cases hn : n = [46, 46]
    · rw [if_pos hn, if_pos hn]
    · rw [if_neg hn, if_neg hn]

/-- C109: which strings are the same path. -/
theorem C109_same (a b : Bytes) :
    components (a ++ 47 :: 47 :: b) = components (a ++ 47 :: b) ∧ components (a ++ 47 :: 46 :: 47 :: b) = components (a ++ 47 :: b) ∧
    (a ≠ [] → components (a ++ [47]) = components a ∧ components (a ++ [47, 46]) = components a) := by
  simp only [components_eq]
  have dots : pieces (46 :: 47 :: b) = [46] :: pieces b := by simp [pieces]
  have hpos := List.length_pos_iff.mpr (pieces_ne_nil a)
  have hposb := List.length_pos_iff.mpr (pieces_ne_nil b)
  have hh : ∀ x : List Bytes, (pieces a ++ x).head? = (pieces a).head? := by
    intro x
    cases hp : pieces a with
    | nil => exact absurd hp (pieces_ne_nil a)
    | cons p ps => rfl
  refine ⟨?_, ?_, ?_⟩
  · have e : pieces (a ++ 47 :: 47 :: b) = pieces a ++ ([] :: pieces b) := by rw [pieces_append, pieces, if_pos rfl]
    unfold meaning origin steps
    simp only [e, pieces_append, hh, List.length_append, List.length_cons, List.filter_append]
    congr 1
    simp only [show (pieces a).length + ((pieces b).length + 1) > 1 by omega, show (pieces a).length + (pieces b).length > 1 by omega]
  · have e : pieces (a ++ 47 :: 46 :: 47 :: b) = pieces a ++ ([46] :: pieces b) := by rw [pieces_append, dots]
    unfold meaning origin steps
    simp only [e, pieces_append, hh, List.length_append, List.length_cons, List.filter_append]
    congr 1
    simp only [show (pieces a).length + ((pieces b).length + 1) > 1 by omega, show (pieces a).length + (pieces b).length > 1 by omega]
  · intro ha
    have key : ∀ c : Bytes, c = [] ∨ c = [46] → pieces c = [c] → meaning (a ++ 47 :: c) = meaning a := by
      intro c hc hp
      have e : pieces (a ++ 47 :: c) = pieces a ++ [c] := by rw [pieces_append, hp]
      have hf : (List.filter (fun p : Bytes => decide (p ≠ []) && decide (p ≠ [46])) [c]) = [] := by
        rcases hc with rfl | rfl <;> rfl
      unfold meaning origin steps
      simp only [e, hh, List.filter_append, hf, List.append_nil]
      congr 1
      by_cases h1 : (pieces a).head? = some []
      · have h2 : (pieces a).length > 1 := by
          cases a with
          | nil => exact absurd rfl ha
          | cons x a =>
            by_cases hx : x = 47
            · rw [pieces, if_pos hx]
              have := List.length_pos_iff.mpr (pieces_ne_nil a)
              simp; exact this
            · rw [pieces, if_neg hx] at h1
              cases hq : pieces a with
              | nil => exact absurd hq (pieces_ne_nil a)
              | cons q qs => rw [hq] at h1; simp at h1
        rw [if_pos ⟨by rw [List.length_append]; omega, h1⟩, if_pos ⟨h2, h1⟩]
      · simp only [h1, and_false, if_false]
    exact ⟨key [] (Or.inl rfl) rfl, key [46] (Or.inr rfl) (by simp [pieces])⟩

/-- C109: what is left of a path below another one is a string whose meaning is what is left of the meaning. -/
theorem C109_strip (s w : Bytes) : (PathStr.stripPrefix s w).map components = Path.stripPrefix (components s) (components w) ∧
    (∀ r, PathStr.stripPrefix s w = some r → components s = components w ++ components r) := by
  refine ⟨stripPrefix_eq s w, ?_⟩
  intro r h
  have e := stripPrefix_eq s w
  rw [h, Option.map_some] at e
  have : ∀ (p q x : Path), Path.stripPrefix p q = some x → p = q ++ x := by
    intro p q
    induction q generalizing p with
    | nil => intro x hx; rw [Path.stripPrefix] at hx; cases hx; rfl
    | cons d q ih =>
      intro x hx
      cases p with
      | nil => cases hx
      | cons c p =>
        rw [Path.stripPrefix] at hx
        split at hx
        · rename_i hc; rw [ih p x hx, hc]; rfl
        · cases hx
  exact this _ _ _ e.symm

/-- C109: and it is a part of the string of the path, without slashes and dots around it. -/
theorem C109_trimmed (s w r : Bytes) (hw : components w ≠ []) (h : PathStr.stripPrefix s w = some r) :
    (∃ x y, s = x ++ r ++ y) ∧
    (r = [] ∨ ∃ c d, (pieces r).head? = some c ∧ (pieces r).getLast? = some d ∧ c ≠ [] ∧ c ≠ [46] ∧ d ≠ [] ∧ d ≠ [46]) := by
  obtain ⟨⟨x, y, h1⟩, h2⟩ := stripPrefix_trimmed hw h
  exact ⟨⟨x, y, h1.symm⟩, h2⟩

/-- C109: canonical paths. Below the directory with the names `ws`, the path is the rest of the names with slashes in between; for any other path there is nothing to strip. -/
theorem C109_canonical (ws ns : List Bytes) (hw : ∀ n ∈ ws, IsName n) (hn : ∀ n ∈ ns, IsName n) :
    components (absolute ns) = .root :: ns.map .normal ∧ (∀ rs, ns = ws ++ rs → PathStr.stripPrefix (absolute ns) (absolute ws) = some (joined rs)) ∧
    ((∀ rs, ns ≠ ws ++ rs) → PathStr.stripPrefix (absolute ns) (absolute ws) = none) := by
  refine ⟨by rw [components_eq]; exact meaning_absolute hn, ?_, ?_⟩
  · rintro rs rfl
    exact stripPrefix_absolute ws rs hn
  · intro hne
    cases hs : PathStr.stripPrefix (absolute ns) (absolute ws) with
    | none => rfl
    | some r =>
      exfalso
      have h := (C109_strip _ _).2 r hs
      rw [components_eq, components_eq, meaning_absolute hn, meaning_absolute hw, List.cons_append] at h
      have h := (List.cons.inj h).2
      obtain ⟨a, b, h1, h2, h3⟩ := List.map_eq_append_iff.mp h
      refine hne b ?_
      have : a = ws := by
        have inj : ∀ x y : List Bytes, x.map Comp.normal = y.map Comp.normal → x = y := by
          intro x
          induction x with
          | nil => intro y hy; cases y with
            | nil => rfl
            | cons => simp at hy
          | cons u x ih =>
            intro y hy
            cases y with
            | nil => simp at hy
            | cons v y =>
              simp only [List.map_cons, List.cons.injEq, Comp.normal.injEq] at hy
              rw [hy.1, ih y hy.2]
        exact inj a ws h2
      rw [h1, this]

/-- C109: so the paths that a workspace reports are strings of this kind: if its path is the string `w` and that of a buffer the string `s`, what is reported
means what is left of `s` if there is something to strip, else `s`. -/
theorem C109_workspace {σ : Type} (ws : Workspace σ) (b : FileBuf σ) (w s : Bytes) (hw : ws.path = components w) (hb : b.path = some (components s)) :
    ws.relative b = some (components ((PathStr.stripPrefix s w).getD s)) := by
  unfold Workspace.relative
  rw [hb, hw, Option.bind_some, ← stripPrefix_eq]
  cases PathStr.stripPrefix s w <;> rfl

/-- `a/b.c/`, `./a//.`, `..`, `/`, nothing; and what is left of `/a/./b//c/` below `//a/`. -/
example : PathStr.fileName (enc (Demo.s "a/b.c/")) = some (enc (Demo.s "b.c")) ∧ PathStr.fileName (enc (Demo.s "./a//.")) = some (enc (Demo.s "a")) ∧
    PathStr.fileName (enc (Demo.s "a/..")) = none ∧ PathStr.fileName (enc (Demo.s "/")) = none ∧ PathStr.fileName [] = none ∧
    components (enc (Demo.s "./a//../.b")) = [.cur, .normal (enc (Demo.s "a")), .parent, .normal (enc (Demo.s ".b"))] ∧
    PathStr.stripPrefix (enc (Demo.s "/a/./b//c/")) (enc (Demo.s "//a/")) = some (enc (Demo.s "b//c")) ∧
    PathStr.stripPrefix (enc (Demo.s "/ab")) (enc (Demo.s "/a")) = none := by
  decide +kernel

end Scribe.Props
