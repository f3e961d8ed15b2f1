import Verif.Proofs.Aligned
/-! Lines of a text without carriage returns, and positions on them. -/
namespace Scribe
open Spec

theorem splitNl_ne_nil (t : Text) : splitNl t ≠ [] := by
  cases t with
  | nil => simp [splitNl]
  | cons c cs => unfold splitNl; split
                 · simp
                 · split <;> simp

theorem splitNl_no_nl {l : Text} (h : '\n' ∉ l) : splitNl l = [l] := by
  induction l with
  | nil => rfl
  | cons c l ih =>
    have h1 : c ≠ '\n' := by rintro rfl; simp at h
    rw [splitNl, if_neg h1, ih (fun hm => h (by simp [hm]))]

theorem splitNl_append {l r : Text} (h : '\n' ∉ l) : splitNl (l ++ '\n' :: r) = l :: splitNl r := by
  induction l with
  | nil => simp [splitNl]
  | cons c l ih =>
    have h1 : c ≠ '\n' := by rintro rfl; simp at h
    rw [List.cons_append, splitNl, if_neg h1, ih (fun hm => h (by simp [hm]))]

/-- Every text is one line, or a line, a newline and the rest. -/
theorem line_cases (t : Text) : ('\n' ∉ t) ∨ ∃ l r, '\n' ∉ l ∧ t = l ++ '\n' :: r := by
  by_cases h : '\n' ∈ t
  · right
    induction t with
    | nil => simp at h
    | cons c t ih =>
      by_cases hc : c = '\n'
      · exact ⟨[], t, by simp, by simp [hc]⟩
      · have : '\n' ∈ t := by rcases List.mem_cons.mp h with h | h; exact absurd h.symm hc; exact h
        obtain ⟨l, r, h1, rfl⟩ := ih this
        exact ⟨c :: l, r, by simp [h1]; exact fun h => hc h.symm, rfl⟩
  · exact Or.inl h

/-- Induction on the lines of a text. -/
theorem lines_induction {P : Text → Prop} (h1 : ∀ l, '\n' ∉ l → P l)
    (h2 : ∀ l r, '\n' ∉ l → P r → P (l ++ '\n' :: r)) (t : Text) : P t := by
  rcases line_cases t with h | ⟨l, r, h, rfl⟩
  · exact h1 t h
  · exact h2 l r h (lines_induction h1 h2 r)
termination_by t.length

theorem countNl_append (a b : Text) : countNl (a ++ b) = countNl a + countNl b := by
  simp [countNl]

theorem countNl_zero {l : Text} (h : '\n' ∉ l) : countNl l = 0 := by
  unfold countNl
  rw [List.length_eq_zero_iff, List.filter_eq_nil_iff]
  intro c hc; simp; rintro rfl; exact h hc

theorem countNl_nl (r : Text) : countNl ('\n' :: r) = countNl r + 1 := by
  simp [countNl]

theorem length_splitNl (t : Text) : (splitNl t).length = countNl t + 1 := by
  induction t using lines_induction with
  | h1 l h => simp [splitNl_no_nl h, countNl_zero h]
  | h2 l r h ih => rw [splitNl_append h, countNl_append, countNl_zero h, countNl_nl]; simp [ih]

variable (S : Segmenter)

/-- Cutting a list where a predicate first holds. -/
theorem first_split {α} (P : α → Prop) [DecidablePred P] {l : List α} (h : ∃ x ∈ l, P x) :
    ∃ a x b, l = a ++ x :: b ∧ P x ∧ ∀ y ∈ a, ¬ P y := by
  induction l with
  | nil => simp at h
  | cons c l ih =>
    by_cases hc : P c
    · exact ⟨[], c, l, rfl, hc, by simp⟩
    · obtain ⟨x, hx, hp⟩ := h
      have : ∃ x ∈ l, P x := by
        rcases List.mem_cons.mp hx with rfl | hx
        · exact absurd hp hc
        · exact ⟨x, hx, hp⟩
      obtain ⟨a, x, b, rfl, h2, h3⟩ := ih this
      refine ⟨c :: a, x, b, rfl, h2, ?_⟩
      intro y hy
      rcases List.mem_cons.mp hy with rfl | hy
      · exact hc
      · exact h3 y hy

theorem append_cons_inj {α} {x x' y y' : List α} {c : α} (h : c ∉ x) (h' : c ∉ x') (he : x ++ c :: y = x' ++ c :: y') :
    x = x' ∧ y = y' := by
  induction x generalizing x' with
  | nil =>
    cases x' with
    | nil => exact ⟨rfl, (List.cons.inj he).2⟩
    | cons d x' => exact absurd (by rw [← (List.cons.inj he).1]; simp) h'
  | cons d x ih =>
    cases x' with
    | nil => exact absurd (by rw [(List.cons.inj he).1]; simp) h
    | cons d' x' =>
      rw [List.cons_append, List.cons_append] at he
      obtain ⟨rfl, he2⟩ := List.cons.inj he
      obtain ⟨rfl, h2⟩ := ih (fun hm => h (by simp [hm])) (fun hm => h' (by simp [hm])) he2
      exact ⟨rfl, h2⟩

/-- In a text without CR a newline is always a cluster of its own. -/
theorem Segmenter.segs_line {l r : Text} (h : '\n' ∉ l) (hcr : '\r' ∉ l) :
    S.segs (l ++ '\n' :: r) = S.segs l ++ ['\n'] :: S.segs r := by
  have hj := S.join (l ++ '\n' :: r)
  have hex : ∃ c ∈ S.segs (l ++ '\n' :: r), '\n' ∈ c := by
    have : '\n' ∈ (S.segs (l ++ '\n' :: r)).flatten := by rw [hj]; simp
    obtain ⟨c, h1, h2⟩ := List.mem_flatten.mp this
    exact ⟨c, h1, h2⟩
  obtain ⟨a, c, b, hs, hc, ha⟩ := first_split (fun c : Text => '\n' ∈ c) hex
  have hafl : '\n' ∉ a.flatten := by
    intro hm
    obtain ⟨y, h1, h2⟩ := List.mem_flatten.mp hm
    exact ha y h1 h2
  rw [hs, List.flatten_append, List.flatten_cons] at hj
  have hcc : c = ['\n'] := by
    rcases S.newline _ c (by rw [hs]; simp) hc with h' | h'
    · exact h'
    · exfalso
      subst h'
      have e : a.flatten ++ (['\r', '\n'] ++ b.flatten) = (a.flatten ++ ['\r']) ++ '\n' :: b.flatten := by simp
      rw [e] at hj
      have := append_cons_inj (by simp [hafl]) h hj
      exact hcr (by rw [← this.1]; simp)
  subst hcc
  have := append_cons_inj hafl h hj
  obtain ⟨h1, h2⟩ := this
  have k1 := S.cut_left hs
  have k2 := S.cut_right hs
  have k2' : S.segs (['\n'] :: b).flatten = [['\n']] ++ b := k2
  have k3 := S.cut_right k2'
  rw [h1] at k1
  rw [show b.flatten = r from h2] at k3
  rw [hs, k1, k3]

theorem Segmenter.nl_notMem {l : Text} (h : '\n' ∉ l) : ['\n'] ∉ S.segs l := by
  intro hm
  apply h
  rw [← S.join l]
  exact List.mem_flatten.mpr ⟨_, hm, by simp⟩

theorem endPos_after_nl {x y : List Text} (h : ['\n'] ∉ x) :
    endPos (x ++ ['\n'] :: y) = ⟨(endPos y).line + 1, (endPos y).offset⟩ := by
  have e : x ++ ['\n'] :: y = (x ++ [['\n']]) ++ y := by simp
  have h1 : endPos (x ++ [['\n']]) = ⟨1, 0⟩ := by
    rw [endPos_concat, endPos_line_zero h]; simp [step]
  rw [e, endPos_append_eq, h1]
  split
  next h => simp [h]
  next h => simp; omega

theorem locate_line_zero {x : List Text} {y : List Text} (h : ['\n'] ∉ x) (o : Nat) :
    locate (x ++ ['\n'] :: y) ⟨0, o⟩ = if o ≤ x.length then some (x.take o, x.drop o ++ ['\n'] :: y) else none := by
  split
  next ho =>
    rw [locate_eq_some]
    refine ⟨by rw [← List.append_assoc, List.take_append_drop], ?_⟩
    rw [endPos_line_zero (fun hm => h (List.mem_of_mem_take hm))]
    simp [ho]
  next ho =>
    rw [locate_eq_none]
    intro a b hab hp
    rcases List.append_eq_append_iff.mp hab with ⟨c, h1, h2⟩ | ⟨c, h1, h2⟩
    · rcases c with _ | ⟨c0, c⟩
      · rw [List.append_nil] at h1; rw [h1, endPos_line_zero h] at hp
        have := (Position.mk.inj hp).2; omega
      · obtain ⟨rfl, _⟩ := List.cons.inj h2
        rw [h1, endPos_after_nl h] at hp
        have := (Position.mk.inj hp).1; omega
    · rw [h1] at h ho
      rw [endPos_line_zero (fun hm => h (by simp [hm]))] at hp
      have := (Position.mk.inj hp).2
      simp at ho; omega

theorem locate_line_succ {x : List Text} {y : List Text} (h : ['\n'] ∉ x) (i o : Nat) :
    locate (x ++ ['\n'] :: y) ⟨i + 1, o⟩ = (locate y ⟨i, o⟩).map fun ab => (x ++ ['\n'] :: ab.1, ab.2) := by
  cases hl : locate y ⟨i, o⟩ with
  | some ab =>
    obtain ⟨a, b⟩ := ab
    obtain ⟨h1, h2⟩ := locate_eq_some.mp hl
    rw [Option.map_some, locate_eq_some]
    exact ⟨by rw [h1]; simp, by rw [endPos_after_nl h, h2]⟩
  | none =>
    rw [locate_eq_none] at hl
    rw [Option.map_none, locate_eq_none]
    intro a b hab hp
    rcases List.append_eq_append_iff.mp hab with ⟨c, h1, h2⟩ | ⟨c, h1, h2⟩
    · rcases c with _ | ⟨c0, c⟩
      · rw [List.append_nil] at h1; rw [h1, endPos_line_zero h] at hp
        have := (Position.mk.inj hp).1; omega
      · obtain ⟨rfl, h3⟩ := List.cons.inj h2
        rw [h1, endPos_after_nl h] at hp
        obtain ⟨k1, k2⟩ := Position.mk.inj hp
        refine hl c b h3 ?_
        cases hc : endPos c with
        | mk cl co => rw [hc] at k1 k2; simp at k1 k2; simp [k1, k2]
    · rw [h1] at h
      rw [endPos_line_zero (fun hm => h (by simp [hm]))] at hp
      have := (Position.mk.inj hp).1; omega

theorem locate_single_line {x : List Text} (h : ['\n'] ∉ x) (i o : Nat) :
    locate x ⟨i, o⟩ = if i = 0 ∧ o ≤ x.length then some (x.take o, x.drop o) else none := by
  split
  next ho =>
    obtain ⟨rfl, ho⟩ := ho
    rw [locate_eq_some]
    refine ⟨(List.take_append_drop _ _).symm, ?_⟩
    rw [endPos_line_zero (fun hm => h (List.mem_of_mem_take hm))]
    simp [ho]
  next ho =>
    rw [locate_eq_none]
    rintro a b rfl hp
    rw [endPos_line_zero (fun hm => h (by simp [hm]))] at hp
    obtain ⟨k1, k2⟩ := Position.mk.inj hp
    apply ho
    simp; omega

/-- Positions of a text without CR, line by line. -/
theorem exists_iff_line {t : Text} (hcr : '\r' ∉ t) (i o : Nat) :
    exists? S.segs t ⟨i, o⟩ = true ↔ ∃ l, (splitNl t)[i]? = some l ∧ o ≤ (S.segs l).length := by
  induction t using lines_induction generalizing i with
  | h1 l h =>
    unfold exists?
    rw [splitNl_no_nl h, locate_single_line (S.nl_notMem h)]
    cases i with
    | zero => by_cases ho : o ≤ (S.segs l).length <;> simp [ho]
    | succ i => simp
  | h2 l r h ih =>
    have hl : '\r' ∉ l := fun hm => hcr (by simp [hm])
    have hr : '\r' ∉ r := fun hm => hcr (by simp [hm])
    unfold exists? at ih ⊢
    rw [splitNl_append h, S.segs_line h hl]
    cases i with
    | zero =>
      rw [locate_line_zero (S.nl_notMem h)]
      by_cases ho : o ≤ (S.segs l).length <;> simp [ho]
    | succ i =>
      rw [locate_line_succ (S.nl_notMem h), Option.isSome_map, ih hr]
      simp

end Scribe
