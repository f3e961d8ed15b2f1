import Verif.Model.Search
import Verif.Proofs.Str
import Verif.Props.Buffer
import Verif.Props.Position
/-!
# Property C30: search is sound and complete
-/
namespace Scribe.Props
open Spec Buf

theorem slice_prefix {needle hay : Text} (h : blen hay ≥ blen needle) :
    ∃ x, slice (enc hay) 0 (blen needle) = .ok x ∧ (enc needle = x ↔ needle <+: hay) := by
  refine ⟨(enc hay).take (blen needle), ?_, ?_⟩
  · unfold slice; rw [if_pos ⟨Nat.zero_le _, h⟩]; rfl
  · rw [← prefix_of_enc, List.prefix_iff_eq_take]; rfl

theorem searchLine_spec (needle line : Text) (number : Nat) (is : List (Nat × Char))
    (h : ∀ p ∈ is, ∃ a b, line = a ++ p.2 :: b ∧ p.1 = blen a) :
    ∃ r, searchLine needle line number is = .ok r ∧
      (∀ p, p ∈ r ↔ p.line = number ∧ ∃ c, (p.offset, c) ∈ is ∧ ∃ a b, line = a ++ b ∧ p.offset = blen a ∧ needle <+: b) ∧
      (is.Pairwise (fun x y => x.1 < y.1) → r.Pairwise Before) := by
  induction is with
  | nil => exact ⟨[], rfl, by simp, fun _ => List.Pairwise.nil⟩
  | cons i is ih =>
    obtain ⟨o, c⟩ := i
    obtain ⟨r, hr, hm, hp⟩ := ih (fun p hp => h p (by simp [hp]))
    obtain ⟨a, b, hl, ho⟩ := h (o, c) (by simp)
    simp only at hl ho
    have e1 : strFrom line o = .ok (c :: b) := by rw [hl, ho]; exact strFrom_append _ _
    have e2 : startsWith needle (c :: b) = .ok (decide (needle <+: c :: b)) := by
      unfold startsWith
      by_cases hb : blen (c :: b) ≥ blen needle
      · obtain ⟨x, h1, h2⟩ := slice_prefix hb
        rw [if_pos hb, h1]
        simp only [Except.ok_bind']
        congr 1
        exact decide_eq_decide.mpr h2
      · rw [if_neg hb]
        congr 1
        symm
        rw [decide_eq_false_iff_not]
        rintro ⟨y, hy⟩
        apply hb
        rw [← hy, blen_append]; omega
    have uniq : ∀ a' b', line = a' ++ b' → o = blen a' → a' = a ∧ b' = c :: b := by
      intro a' b' h1 h2
      have k1 := strSplit_append a' b'
      have k2 := strSplit_append a (c :: b)
      rw [← h1, ← h2] at k1
      rw [← hl, ← ho, k1] at k2
      cases k2; exact ⟨rfl, rfl⟩
    refine ⟨if needle <+: c :: b then ⟨number, o⟩ :: r else r, ?_, ?_, ?_⟩
    · simp only [searchLine, e1, Except.ok_bind', e2, hr, decide_eq_true_eq]
    · intro p
      have key : (p.line = number ∧ p.offset = o ∧ needle <+: c :: b) ∨ p ∈ r ↔
          p.line = number ∧ ∃ d, (p.offset, d) ∈ (o, c) :: is ∧ ∃ a b, line = a ++ b ∧ p.offset = blen a ∧ needle <+: b := by
        rw [hm]
        constructor
        · rintro (⟨h1, h2, h3⟩ | ⟨h1, d, h2, h3⟩)
          · exact ⟨h1, c, by simp [h2], a, c :: b, hl, by rw [h2, ho], h3⟩
          · exact ⟨h1, d, by simp [h2], h3⟩
        · rintro ⟨h1, d, h2, a', b', h3, h4, h5⟩
          rcases List.mem_cons.mp h2 with h2 | h2
          · left
            have e : p.offset = o := congrArg Prod.fst h2
            obtain ⟨_, rfl⟩ := uniq a' b' h3 (by rw [← e, h4])
            exact ⟨h1, e, h5⟩
          · right; exact ⟨h1, d, h2, a', b', h3, h4, h5⟩
      rw [← key]
      split
      · rename_i hn
        rw [List.mem_cons]
        constructor
        · rintro (rfl | h)
          · exact Or.inl ⟨rfl, rfl, hn⟩
          · exact Or.inr h
        · rintro (⟨h1, h2, _⟩ | h)
          · left; cases p; simp only at h1 h2; rw [h1, h2]
          · exact Or.inr h
      · rename_i hn
        constructor
        · exact Or.inr
        · rintro (⟨_, _, h⟩ | h)
          · exact absurd h hn
          · exact h
    · intro hpw
      rw [List.pairwise_cons] at hpw
      split
      · refine List.Pairwise.cons ?_ (hp hpw.2)
        intro q hq
        obtain ⟨h1, d, h2, _⟩ := (hm q).mp hq
        have := hpw.1 _ h2
        exact Or.inr ⟨h1.symm, this⟩
      · exact hp hpw.2

theorem searchLines_spec (needle : Text) (ls : List Text) (number : Nat) :
    ∃ r, searchLines needle number ls = .ok r ∧
      (∀ p, p ∈ r ↔ ∃ i l x y, p.line = number + i ∧ ls[i]? = some l ∧ l = x ++ needle ++ y ∧ p.offset = blen x ∧ needle ++ y ≠ []) ∧
      r.Pairwise Before := by
  induction ls generalizing number with
  | nil => exact ⟨[], rfl, by simp, List.Pairwise.nil⟩
  | cons l ls ih =>
    obtain ⟨r, hr, hm, hp⟩ := ih (number + 1)
    obtain ⟨r0, hr0, hm0, hp0⟩ := searchLine_spec needle l number (charIndices 0 l) (by
      intro p hp
      obtain ⟨a, b, h1, h2⟩ := mem_charIndices.mp hp
      exact ⟨a, b, h1, by omega⟩)
    refine ⟨r0 ++ r, ?_, ?_, ?_⟩
    · simp only [searchLines, hr0, Except.ok_bind', hr]
    · intro p
      rw [List.mem_append, hm0, hm]
      constructor
      · rintro (⟨h1, c, h2, a, b, h3, h4, ⟨y, h5⟩⟩ | ⟨i, l', x, y, h1, h2, h3⟩)
        · refine ⟨0, l, a, y, by omega, rfl, by rw [h3, ← h5]; simp, h4, ?_⟩
          obtain ⟨a', b', k1, k2⟩ := mem_charIndices.mp h2
          simp only at k1 k2
          have e1 := strSplit_append a b
          have e2 := strSplit_append a' (c :: b')
          rw [← h3, ← h4] at e1
          rw [← k1, show blen a' = p.offset by omega, e1] at e2
          cases e2
          rw [h5]; simp
        · exact ⟨i + 1, l', x, y, by omega, by simpa using h2, h3⟩
      · rintro ⟨i, l', x, y, h1, h2, h3, h4, h5⟩
        cases i with
        | zero =>
          left
          simp at h2; subst h2
          obtain ⟨c, z, hz⟩ := List.exists_cons_of_ne_nil h5
          refine ⟨by omega, c, mem_charIndices.mpr ⟨x, z, ?_, by simp [h4]⟩, x, needle ++ y, ?_, h4, ⟨y, rfl⟩⟩
          · simp only; rw [h3, List.append_assoc, hz]
          · rw [h3, List.append_assoc]
        | succ i => right; exact ⟨i, l', x, y, by omega, by simpa using h2, h3, h4, h5⟩
    · rw [List.pairwise_append]
      refine ⟨hp0 (charIndices_pairwise l 0), hp, ?_⟩
      intro p h1 q h2
      have k1 := ((hm0 p).mp h1).1
      obtain ⟨i, _, _, _, k2, _⟩ := (hm q).mp h2
      left; omega

/-- **C30.** `search(needle)` never fails, and its results are exactly the pairs of a line (as `str::lines` counts them) and a byte offset in
it at which the needle occurs in the line (not counting an empty needle at the very end of a line), in strictly increasing order. -/
theorem C30_search (b : Buf) (t needle : Text) (h : b.data.toStr = .ok t) :
    ∃ r, b.search needle = .ok r ∧ r.Pairwise Before ∧
      ∀ p, p ∈ r ↔ ∃ l x y, (strLines t)[p.line]? = some l ∧ l = x ++ needle ++ y ∧ p.offset = blen x ∧ needle ++ y ≠ [] := by
  obtain ⟨r, h1, h2, h3⟩ := searchLines_spec needle (strLines t) 0
  refine ⟨r, ?_, h3, ?_⟩
  · simp only [search, h, Except.ok_bind', h1]
  · intro p
    rw [h2]
    constructor
    · rintro ⟨i, l, x, y, k1, k2⟩
      obtain rfl : p.line = i := by omega
      exact ⟨l, x, y, k2⟩
    · rintro ⟨l, x, y, k⟩; exact ⟨p.line, l, x, y, by omega, k⟩

theorem strLines_no_nl {l : Text} (h : '\n' ∉ l) : strLines l = if l = [] then [] else [l] := by
  unfold strLines
  rw [splitInclusive_no_nl h]
  split
  · rfl
  · simp only [List.map_cons, List.map_nil, stripEol]
    rw [if_neg (fun hg => h (List.mem_of_getLast? hg))]

theorem strLines_append {l r : Text} (h : '\n' ∉ l) :
    strLines (l ++ '\n' :: r) = (if l.getLast? = some '\r' then l.dropLast else l) :: strLines r := by
  unfold strLines
  rw [splitInclusive_append h]
  simp only [List.map_cons, stripEol, List.getLast?_append, List.getLast?_singleton, Option.some_or, if_true, List.dropLast_concat]

/-- Occurrences in the lines are occurrences in the text. -/
theorem occurs_iff {needle : Text} (hn : needle ≠ []) (hnl : '\n' ∉ needle) (hcr : '\r' ∉ needle) (t : Text) (i o : Nat) :
    (∃ l x y, (strLines t)[i]? = some l ∧ l = x ++ needle ++ y ∧ o = blen x) ↔
    ∃ u w v, t = u ++ w ++ needle ++ v ∧ (u = [] ∨ u.getLast? = some '\n') ∧ '\n' ∉ w ∧ i = u.count '\n' ∧ o = blen w := by
  induction t using lines_induction generalizing i with
  | h1 l h =>
    rw [strLines_no_nl h]
    constructor
    · rintro ⟨l', x, y, h1, h2, h3⟩
      by_cases hl : l = []
      · simp [hl] at h1
      · rw [if_neg hl] at h1
        cases i with
        | succ i => simp at h1
        | zero =>
          simp at h1; subst h1
          exact ⟨[], x, y, by simpa using h2, Or.inl rfl, fun hm => h (by rw [h2]; simp [hm]), rfl, h3⟩
    · rintro ⟨u, w, v, h1, h2, h3, h4, h5⟩
      rcases h2 with rfl | h2
      · have : l ≠ [] := by rw [h1]; simp [hn]
        rw [if_neg this]
        exact ⟨l, w, v, by simp [h4], by simpa using h1, h5⟩
      · exact absurd (List.mem_of_getLast? h2) (fun hm => h (by rw [h1]; simp [hm]))
  | h2 l r h ih =>
    rw [strLines_append h]
    cases i with
    | zero =>
      simp only [List.getElem?_cons_zero, Option.some.injEq]
      constructor
      · rintro ⟨l', x, y, h1, h2, h3⟩
        obtain ⟨z, hz⟩ : ∃ z, l = l' ++ z := by
          subst h1
          split
          · exact ⟨_, (List.dropLast_concat_getLast (l := l) (by rintro rfl; simp at *)).symm⟩
          · exact ⟨[], by simp⟩
        exact ⟨[], x, y ++ z ++ '\n' :: r, by rw [hz, h2]; simp, Or.inl rfl, fun hm => h (by rw [hz, h2]; simp [hm]), rfl, h3⟩
      · rintro ⟨u, w, v, h1, h2, h3, h4, h5⟩
        have hu : u = [] := by
          rcases h2 with h2 | h2
          · exact h2
          · have := List.count_pos_iff.mpr (List.mem_of_getLast? h2)
            omega
        subst hu
        -- the occurrence lies inside `l`
        have hwn : '\n' ∉ w ++ needle := by simp [h3, hnl]
        have hpre : (w ++ needle) <+: l := by
          have e : l ++ '\n' :: r = (w ++ needle) ++ v := by simpa using h1
          rcases List.append_eq_append_iff.mp e with ⟨a, h6, h7⟩ | ⟨a, h6, h7⟩
          · cases a with
            | nil => exact ⟨[], by simpa using h6⟩
            | cons c a =>
              have : c = '\n' := by simp at h7; exact h7.1.symm
              exfalso; apply hwn; rw [h6, this]; simp
          · exact ⟨a, h6.symm⟩
        obtain ⟨y, hy⟩ := hpre
        split
        · rename_i hc
          have hyn : y ≠ [] := by
            rintro rfl
            rw [List.append_nil] at hy
            rw [← hy, List.getLast?_append] at hc
            rw [List.getLast?_eq_getLast_of_ne_nil hn] at hc
            simp at hc
            exact hcr (hc ▸ List.getLast_mem hn)
          refine ⟨_, w, y.dropLast, rfl, ?_, h5⟩
          rw [← hy, List.dropLast_append_of_ne_nil hyn]
        · exact ⟨_, w, y, rfl, hy.symm, h5⟩
    | succ i =>
      simp only [List.getElem?_cons_succ]
      rw [ih i]
      constructor
      · rintro ⟨u, w, v, h1, h2, h3, h4, h5⟩
        refine ⟨l ++ '\n' :: u, w, v, by rw [h1]; simp, Or.inr ?_, h3, ?_, h5⟩
        · rcases h2 with rfl | h2
          · simp
          · rw [List.getLast?_append, List.getLast?_cons, h2]; simp
        · rw [List.count_append, List.count_eq_zero_of_not_mem h, List.count_cons_self, h4]; omega
      · rintro ⟨u, w, v, h1, h2, h3, h4, h5⟩
        have hu : '\n' ∈ u := List.count_pos_iff.mp (by omega)
        obtain ⟨l', u', hl', rfl⟩ : ∃ l' u', '\n' ∉ l' ∧ u = l' ++ '\n' :: u' := by
          rcases line_cases u with hh | ⟨a, b, hh, rfl⟩
          · exact absurd hu hh
          · exact ⟨a, b, hh, rfl⟩
        have e : l ++ '\n' :: r = l' ++ '\n' :: (u' ++ w ++ needle ++ v) := by rw [h1]; simp
        obtain ⟨rfl, h6⟩ := append_cons_inj h hl' e
        refine ⟨u', w, v, h6, ?_, h3, ?_, h5⟩
        · cases u' with
          | nil => exact Or.inl rfl
          | cons c u' =>
            right
            rcases h2 with h2 | h2
            · simp at h2
            · rw [List.getLast?_append, List.getLast?_cons, List.getLast?_cons] at h2
              rw [List.getLast?_cons]
              simpa using h2
        · rw [List.count_append, List.count_eq_zero_of_not_mem h, List.count_cons_self] at h4; omega

/-- C30, in terms of the whole text: a non-empty needle without line break characters is found exactly where it occurs in the text; the
position is the number of newlines before it and the bytes between the last of them and it. -/
theorem C30_search_text (b : Buf) (t needle : Text) (h : b.data.toStr = .ok t)
    (hn : needle ≠ []) (hnl : '\n' ∉ needle) (hcr : '\r' ∉ needle) :
    ∃ r, b.search needle = .ok r ∧ r.Pairwise Before ∧
      ∀ p, p ∈ r ↔ ∃ u w v, t = u ++ w ++ needle ++ v ∧ (u = [] ∨ u.getLast? = some '\n') ∧ '\n' ∉ w ∧
        p.line = u.count '\n' ∧ p.offset = blen w := by
  obtain ⟨r, h1, h2, h3⟩ := C30_search b t needle h
  refine ⟨r, h1, h2, fun p => ?_⟩
  rw [h3, ← occurs_iff hn hnl hcr]
  constructor
  · rintro ⟨l, x, y, k1, k2, k3, _⟩; exact ⟨l, x, y, k1, k2, k3⟩
  · rintro ⟨l, x, y, k1, k2, k3⟩; exact ⟨l, x, y, k1, k2, k3, by simp [hn]⟩

theorem endPos_singletons (u w : Text) (hu : u = [] ∨ u.getLast? = some '\n') (hw : '\n' ∉ w) :
    endPos ((u ++ w).map fun c => [c]) = ⟨u.count '\n', w.length⟩ := by
  induction u using lines_induction with
  | h1 l h =>
    have : l = [] := by
      rcases hu with hu | hu
      · exact hu
      · exact absurd (List.mem_of_getLast? hu) h
    subst this
    rw [endPos_line_zero (by simpa using hw)]; simp
  | h2 l r h ih =>
    have hr : r = [] ∨ r.getLast? = some '\n' := by
      cases r with
      | nil => exact Or.inl rfl
      | cons c r =>
        right
        rcases hu with h2 | h2
        · simp at h2
        · rw [List.getLast?_append, List.getLast?_cons, List.getLast?_cons] at h2
          rw [List.getLast?_cons]
          simpa using h2
    rw [List.append_assoc, List.map_append, List.cons_append, List.map_cons, endPos_after_nl (by simpa using h), ih hr, List.count_append,
      List.count_eq_zero_of_not_mem h, List.count_cons_self]
    simp

theorem flatten_singletons (t : Text) : (t.map fun c => [c]).flatten = t := by
  induction t with
  | nil => rfl
  | cons c t ih => rw [List.map_cons, List.flatten_cons, ih]; rfl

/-- C30: if every character of the text is one byte and one cluster, results are buffer positions: in bounds, and the text read there is the
needle. -/
theorem C30_search_positions (S : Segmenter) (A : Alloc) (b : Buf) (d : Doc) (t needle : Text) (r : List Position) (p : Position)
    (h : Reached S A b d) (ht : b.data.toStr = .ok t) (hn : needle ≠ []) (hnl : '\n' ∉ needle) (hcr : '\r' ∉ needle)
    (hs : S.segs t = t.map fun c => [c]) (ha : ∀ c ∈ t, c.utf8Size = 1) (hr : b.search needle = .ok r) (hp : p ∈ r) :
    b.data.inBounds S p = .ok true ∧
    b.data.read S ⟨p, ⟨p.line, p.offset + needle.length⟩⟩ = .ok (some needle) := by
  obtain ⟨s, hs'⟩ := h.tri
  have hd := hs'.sim.face.data
  obtain rfl := Except.ok.inj (hd.toStr.symm.trans ht)
  obtain ⟨r', h1, _, h3⟩ := C30_search_text b d.text needle ht hn hnl hcr
  obtain rfl := Except.ok.inj (h1.symm.trans hr)
  obtain ⟨u, w, v, e1, e2, e3, e4, e5⟩ := (h3 p).mp hp
  have hw : blen w = w.length := blen_ascii (fun c hc => ha c (by rw [e1]; simp [hc]))
  have hl1 : locate (S.segs d.text) p = some ((u ++ w).map (fun c => [c]), (needle ++ v).map fun c => [c]) := by
    rw [locate_eq_some]
    refine ⟨by rw [hs, ← List.map_append, e1]; simp, ?_⟩
    rw [endPos_singletons u w e2 e3]
    cases p; simp only at e4 e5; rw [e4, e5, hw]
  have hl2 : locate (S.segs d.text) ⟨p.line, p.offset + needle.length⟩ = some ((u ++ (w ++ needle)).map (fun c => [c]), v.map fun c => [c]) := by
    rw [locate_eq_some]
    refine ⟨by rw [hs, ← List.map_append, e1]; simp, ?_⟩
    rw [endPos_singletons u (w ++ needle) e2 (by simp [e3, hnl]), e4, e5, hw, List.length_append]
  constructor
  · rw [hd.inBounds]; unfold exists?; rw [hl1]; rfl
  · rw [hd.read _ (Or.inr ⟨rfl, by simp⟩)]
    simp only [readRange, hl1, hl2]
    congr 2
    rw [← List.append_assoc, List.map_append (l₁ := u ++ w), List.drop_left]
    exact flatten_singletons needle

example : ((Buf.fromContent Demo.tight 0 (Demo.s "bib\r\nlib ib")).search (Demo.s "ib")) = .ok [⟨0, 1⟩, ⟨1, 1⟩, ⟨1, 4⟩] := by decide +kernel
/-- Offsets are byte offsets: `é` has two bytes but is one cluster. -/
example : ((Buf.fromContent Demo.tight 0 (Demo.s "éx")).search (Demo.s "x")) = .ok [⟨0, 2⟩] := by decide +kernel
example : Demo.seg.segs (Demo.s "ab\ncab") = (Demo.s "ab\ncab").map (fun c => [c]) ∧
    ((Buf.fromContent Demo.tight 0 (Demo.s "ab\ncab")).search (Demo.s "ab")) = .ok [⟨0, 0⟩, ⟨1, 1⟩] := by decide +kernel

end Scribe.Props
