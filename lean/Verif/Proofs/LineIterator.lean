import Verif.Model.LineIterator
import Verif.Proofs.Str
import Verif.Proofs.Lines
import Verif.Proofs.GapBuffer
/-! # Lemmas about `LineIterator` -/
namespace Scribe.LineIter

/-- State of the iterator: `none` when done, else the next line number and the text not yet returned. -/
inductive At : LineIter → Option (Nat × Text) → Prop
  | done {it : LineIter} : it.done = true → At it none
  | at_ {it : LineIter} (x r : Text) : it.done = false → it.data = x ++ r → it.lineEnd = blen x → At it (some (it.lineNumber, r))

theorem at_new (t : Text) : At (new t) (some (0, t)) := At.at_ (it := new t) [] t rfl rfl rfl

theorem scan_no_nl {l : Text} (h : '\n' ∉ l) (e : Nat) : scan l e = (e + blen l, false) := by
  induction l generalizing e with
  | nil => simp [scan]
  | cons c l ih =>
    have : c ≠ '\n' := fun hc => h (by simp [hc])
    rw [scan, if_neg this, ih (fun hm => h (by simp [hm])), blen_cons]; simp; omega

theorem scan_nl {l r : Text} (h : '\n' ∉ l) (e : Nat) : scan (l ++ '\n' :: r) e = (e + blen (l ++ ['\n']), true) := by
  induction l generalizing e with
  | nil => simp [scan, blen_cons]
  | cons c l ih =>
    have : c ≠ '\n' := fun hc => h (by simp [hc])
    rw [List.cons_append, scan, if_neg this, ih (fun hm => h (by simp [hm])), List.cons_append, blen_cons]; simp; omega

theorem next_done {it} (h : At it none) : it.next = .ok (none, it) := by
  cases h with
  | done h => simp only [next, h, if_true]

/-- The last line. -/
theorem next_last {it k l} (h : At it (some (k, l))) (hl : '\n' ∉ l) :
    ∃ it', it.next = .ok (some (k, l), it') ∧ At it' none := by
  cases h with
  | at_ x r h1 h2 h3 =>
    have e1 : strFrom it.data it.lineEnd = .ok l := by rw [h2, h3]; exact strFrom_append _ _
    have e2 : strSlice it.data it.lineEnd (it.lineEnd + blen l) = .ok l := by
      have := strSlice_append x l []
      rw [List.append_nil] at this
      rw [h2, h3]; exact this
    have e3 : (it.lineEnd + blen l == blen it.data) = true := by rw [h2, h3, blen_append]; simp
    refine ⟨{ it with lineStart := it.lineEnd, lineEnd := it.lineEnd + blen l, done := true }, ?_, At.done rfl⟩
    unfold next
    rw [if_neg (by simp [h1])]
    simp only [e1, Except.ok_bind', scan_no_nl hl, e2, outOfData, e3]
    rfl

/-- A line with its newline. -/
theorem next_line {it k l r} (h : At it (some (k, l ++ '\n' :: r))) (hl : '\n' ∉ l) :
    ∃ it', it.next = .ok (some (k, l ++ ['\n']), it') ∧ At it' (some (k + 1, r)) := by
  generalize hr : l ++ '\n' :: r = t at h
  cases h with
  | at_ x _ h1 h2 h3 =>
    subst hr
    have e1 : strFrom it.data it.lineEnd = .ok (l ++ '\n' :: r) := by rw [h2, h3]; exact strFrom_append _ _
    have e2 : strSlice it.data it.lineEnd (it.lineEnd + blen (l ++ ['\n'])) = .ok (l ++ ['\n']) := by
      have := strSlice_append x (l ++ ['\n']) r
      rw [h2, h3]; simpa using this
    refine ⟨{ it with lineStart := it.lineEnd, lineEnd := it.lineEnd + blen (l ++ ['\n']), lineNumber := it.lineNumber + 1 }, ?_, ?_⟩
    · unfold next
      rw [if_neg (by simp [h1])]
      simp only [e1, Except.ok_bind', scan_nl hl, e2]
      simp
    · exact At.at_ (it := { it with lineStart := it.lineEnd, lineEnd := it.lineEnd + blen (l ++ ['\n']), lineNumber := it.lineNumber + 1 })
        (x ++ (l ++ ['\n'])) r h1 (by rw [h2]; simp) (by rw [h3]; simp only [blen_append])

theorem run_done {it} (h : At it none) (n : Nat) : run n it = .ok (List.replicate n none) := by
  induction n with
  | zero => rfl
  | succ n ih => simp only [run, next_done h, Except.ok_bind', ih]; rfl

theorem run_spec (t : Text) (it : LineIter) (k : Nat) (h : At it (some (k, t))) :
    ∃ ls : List Text, ls.length = t.count '\n' + 1 ∧ ls.flatten = t ∧
      (∀ i l, ls[i]? = some l → if i + 1 < ls.length then ∃ b, l = b ++ ['\n'] ∧ '\n' ∉ b else '\n' ∉ l) ∧
      ∀ n, run n it = .ok ((List.range n).map fun i => ls[i]?.map fun l => (k + i, l)) := by
  induction t using lines_induction generalizing it k with
  | h1 l hl =>
    obtain ⟨it', h1, h2⟩ := next_last h hl
    refine ⟨[l], by simp [List.count_eq_zero_of_not_mem hl], by simp, ?_, ?_⟩
    · intro i l' hi
      cases i with
      | zero => simp at hi; subst hi; simpa using hl
      | succ i => simp at hi
    · intro n
      cases n with
      | zero => rfl
      | succ n =>
        simp only [run, h1, Except.ok_bind', run_done h2]
        congr 1
        rw [List.range_succ_eq_map]
        simp only [List.map_cons, List.getElem?_cons_zero, Option.map_some, List.map_map, Nat.add_zero]
        congr 1
        symm
        rw [List.eq_replicate_iff]
        exact ⟨by simp, by simp⟩
  | h2 l r hl ih =>
    obtain ⟨it', h1, h2⟩ := next_line h hl
    obtain ⟨ls, k1, k2, k3, k4⟩ := ih it' (k + 1) h2
    refine ⟨(l ++ ['\n']) :: ls, ?_, by simp [k2], ?_, ?_⟩
    · rw [List.length_cons, k1, List.count_append, List.count_cons_self, List.count_eq_zero_of_not_mem hl]; omega
    · intro i l' hi
      cases i with
      | zero =>
        simp at hi; subst hi
        rw [if_pos (by simp [k1])]
        exact ⟨l, rfl, hl⟩
      | succ i =>
        have := k3 i l' (by simpa using hi)
        simpa using this
    · intro n
      cases n with
      | zero => rfl
      | succ n =>
        simp only [run, h1, Except.ok_bind', k4]
        congr 1
        rw [List.range_succ_eq_map]
        simp only [List.map_cons, List.getElem?_cons_zero, Option.map_some, List.map_map, Nat.add_zero]
        congr 1
        apply List.map_congr_left
        intro i _
        simp [Nat.add_assoc, Nat.add_comm 1]

end Scribe.LineIter
