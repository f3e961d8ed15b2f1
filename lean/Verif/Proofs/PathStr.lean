import Verif.Spec.PathStr
/-! # Paths as strings -/
namespace Scribe.PathStr
open Spec

theorem pieces_ne_nil (s : Bytes) : pieces s ≠ [] := by
  cases s with
  | nil => simp [pieces]
  | cons b s =>
    unfold pieces
    split
    · simp
    · split <;> simp

theorem pieces_plain {s : Bytes} (h : 47 ∉ s) : pieces s = [s] := by
  induction s with
  | nil => rfl
  | cons b s ih =>
    simp only [List.mem_cons, not_or] at h
    rw [pieces, if_neg (fun e => h.1 e.symm), ih h.2]

theorem pieces_append (a b : Bytes) : pieces (a ++ 47 :: b) = pieces a ++ pieces b := by
  induction a with
  | nil => simp [pieces]
  | cons x a ih =>
    rw [List.cons_append, pieces, pieces]
    split
    · rw [ih]; rfl
    · rw [ih]
      cases hp : pieces a with
      | nil => exact absurd hp (pieces_ne_nil a)
      | cons p ps => rfl

theorem takeWhile_split (s : Bytes) : (47 ∉ s ∧ s.takeWhile (· != sep) = s) ∨
    ∃ c r, s = c ++ 47 :: r ∧ 47 ∉ c ∧ s.takeWhile (· != sep) = c := by
  induction s with
  | nil => exact Or.inl ⟨by simp, rfl⟩
  | cons b s ih =>
    by_cases hb : b = 47
    · exact Or.inr ⟨[], s, by rw [hb]; rfl, by simp, by rw [hb]; rfl⟩
    · have hb' : (b != sep) = true := by simpa [sep] using hb
      rcases ih with ⟨h1, h2⟩ | ⟨c, r, h1, h2, h3⟩
      · refine Or.inl ⟨by simp only [List.mem_cons, not_or]; exact ⟨fun e => hb e.symm, h1⟩, ?_⟩
        rw [List.takeWhile_cons, if_pos hb', h2]
      · refine Or.inr ⟨b :: c, r, by rw [h1]; rfl, by simp only [List.mem_cons, not_or]; exact ⟨fun e => hb e.symm, h2⟩, ?_⟩
        rw [List.takeWhile_cons, if_pos hb', h3]

/-- The first piece. -/
theorem parseNext_eq (s : Bytes) : (47 ∉ s ∧ parseNext s = (s.length, single s)) ∨
    ∃ c r, s = c ++ 47 :: r ∧ 47 ∉ c ∧ parseNext s = (c.length + 1, single c) := by
  rcases takeWhile_split s with ⟨h1, h2⟩ | ⟨c, r, h1, h2, h3⟩
  · refine Or.inl ⟨h1, ?_⟩
    unfold parseNext
    simp only [h2, Nat.lt_irrefl, if_false, Nat.add_zero]
  · refine Or.inr ⟨c, r, h1, h2, ?_⟩
    unfold parseNext
    simp only [h3]
    rw [if_pos (by rw [h1]; simp)]

/-- The last piece. -/
theorem parseBack_eq (s : Bytes) : (47 ∉ s ∧ parseBack s = (s.length, single s)) ∨
    ∃ a c, s = a ++ 47 :: c ∧ 47 ∉ c ∧ parseBack s = (c.length + 1, single c) := by
  rcases takeWhile_split s.reverse with ⟨h1, h2⟩ | ⟨c, r, h1, h2, h3⟩
  · refine Or.inl ⟨by simpa using h1, ?_⟩
    unfold parseBack
    simp only [h2, List.reverse_reverse, Nat.lt_irrefl, if_false, Nat.add_zero]
  · have e : s = r.reverse ++ 47 :: c.reverse := by
      have := congrArg List.reverse h1
      simpa using this
    refine Or.inr ⟨r.reverse, c.reverse, e, by simpa using h2, ?_⟩
    unfold parseBack
    simp only [h3]
    rw [if_pos (by rw [e]; simp; omega)]

/-- The components of pieces. -/
def comps (ps : List Bytes) : List Comp := ps.filterMap single

theorem comps_append (a b : List Bytes) : comps (a ++ b) = comps a ++ comps b := List.filterMap_append

theorem comps_one_none {c : Bytes} (h : single c = none) : comps [c] = [] := by simp [comps, h]

theorem comps_one_some {c : Bytes} {x} (h : single c = some x) : comps [c] = [x] := by simp [comps, h]

theorem comps_nil_piece : comps (pieces []) = [] := rfl

theorem nextBody_eq (s : Bytes) : comps (pieces s) = match nextBody s with
    | none => []
    | some x => x.1 :: comps (pieces x.2.path) := by
  fun_induction nextBody s with
  | case1 => rfl
  | case2 s hs size c hp =>
    rcases parseNext_eq s with ⟨h1, h2⟩ | ⟨d, r, h1, h2, h3⟩
    · rw [h2] at hp
      simp only [Prod.mk.injEq] at hp
      obtain ⟨rfl, hc⟩ := hp
      simp only
      rw [pieces_plain h1, List.drop_length, comps_nil_piece]
      exact comps_one_some hc
    · rw [h3] at hp
      simp only [Prod.mk.injEq] at hp
      obtain ⟨rfl, hc⟩ := hp
      simp only
      rw [h1, pieces_append, comps_append, pieces_plain h2, comps_one_some hc]
      simp
  | case3 s hs size hp ih =>
    rw [← ih]
    have := List.length_pos_iff.mpr hs
    rcases parseNext_eq s with ⟨h1, h2⟩ | ⟨d, r, h1, h2, h3⟩
    · rw [h2] at hp
      simp only [Prod.mk.injEq] at hp
      obtain ⟨rfl, hc⟩ := hp
      rw [pieces_plain h1, comps_one_none hc, List.drop_of_length_le (by omega), comps_nil_piece]
    · rw [h3] at hp
      simp only [Prod.mk.injEq] at hp
      obtain ⟨rfl, hc⟩ := hp
      rw [h1, pieces_append, comps_append, pieces_plain h2, comps_one_none hc, Nat.max_eq_left (by omega)]
      simp

theorem bodyList_eq (s : Bytes) : bodyList s = comps (pieces s) := by
  induction h : s.length using Nat.strongRecOn generalizing s with
  | _ n ih =>
    rw [nextBody_eq s, bodyList]
    split
    · rename_i hn; rw [hn]
    · rename_i x hx
      rw [hx]
      simp only
      rw [ih _ (by rw [← h]; exact (next_shorter hx).1) _ rfl]

theorem trimRight_eq (s : Bytes) : ∃ ps, pieces s = pieces (trimRight s) ++ ps ∧ comps ps = [] ∨ (trimRight s = [] ∧ comps (pieces s) = []) := by
  fun_induction trimRight s with
  | case1 => exact ⟨[], Or.inr ⟨rfl, rfl⟩⟩
  | case2 s hs size c hp => exact ⟨[], Or.inl ⟨by simp, rfl⟩⟩
  | case3 s hs size hp ih =>
    have := List.length_pos_iff.mpr hs
    rcases parseBack_eq s with ⟨h1, h2⟩ | ⟨a, d, h1, h2, h3⟩
    · rw [h2] at hp
      simp only [Prod.mk.injEq] at hp
      obtain ⟨rfl, hc⟩ := hp
      refine ⟨[], Or.inr ⟨?_, by rw [pieces_plain h1, comps_one_none hc]⟩⟩
      rw [Nat.max_eq_left (by omega), Nat.sub_self, List.take_zero, trimRight]; simp
    · rw [h3] at hp
      simp only [Prod.mk.injEq] at hp
      obtain ⟨rfl, hc⟩ := hp
      have e : s.take (s.length - max (d.length + 1) 1) = a := by
        rw [Nat.max_eq_left (by omega), h1]; simp
      rw [e] at ih ⊢
      obtain ⟨ps, ih⟩ := ih
      have hp : pieces s = pieces a ++ [d] := by rw [h1, pieces_append, pieces_plain h2]
      rcases ih with ⟨k1, k2⟩ | ⟨k1, k2⟩
      · exact ⟨ps ++ [d], Or.inl ⟨by rw [hp, k1, List.append_assoc], by rw [comps_append, k2, comps_one_none hc]; rfl⟩⟩
      · exact ⟨[], Or.inr ⟨k1, by rw [hp, comps_append, k2, comps_one_none hc]; rfl⟩⟩

theorem comps_trimRight (s : Bytes) : comps (pieces (trimRight s)) = comps (pieces s) := by
  obtain ⟨ps, ⟨h1, h2⟩ | ⟨h1, h2⟩⟩ := trimRight_eq s
  · rw [h1, comps_append, h2, List.append_nil]
  · rw [h1, h2]; rfl

theorem head_trimRight (s : Bytes) : trimRight s = [] ∨ (pieces (trimRight s)).head? = (pieces s).head? := by
  obtain ⟨ps, ⟨h1, h2⟩ | ⟨h1, h2⟩⟩ := trimRight_eq s
  · right
    rw [h1]
    cases hp : pieces (trimRight s) with
    | nil => exact absurd hp (pieces_ne_nil _)
    | cons p ps => rfl
  · exact Or.inl h1

theorem trimLeft_eq (s : Bytes) : comps (pieces (trimLeft s)) = comps (pieces s) ∧
    (trimLeft s = [] ∨ ∃ c, (pieces (trimLeft s)).head? = some c ∧ single c ≠ none) := by
  fun_induction trimLeft s with
  | case1 => exact ⟨rfl, Or.inl rfl⟩
  | case2 s hs size c hp =>
    refine ⟨rfl, Or.inr ?_⟩
    rcases parseNext_eq s with ⟨h1, h2⟩ | ⟨d, r, h1, h2, h3⟩
    · rw [h2] at hp
      simp only [Prod.mk.injEq] at hp
      exact ⟨s, by rw [pieces_plain h1]; rfl, by rw [hp.2]; simp⟩
    · rw [h3] at hp
      simp only [Prod.mk.injEq] at hp
      exact ⟨d, by rw [h1, pieces_append, pieces_plain h2]; rfl, by rw [hp.2]; simp⟩
  | case3 s hs size hp ih =>
    refine ⟨ih.1.trans ?_, ih.2⟩
    have := List.length_pos_iff.mpr hs
    rcases parseNext_eq s with ⟨h1, h2⟩ | ⟨d, r, h1, h2, h3⟩
    · rw [h2] at hp
      simp only [Prod.mk.injEq] at hp
      obtain ⟨rfl, hc⟩ := hp
      rw [pieces_plain h1, comps_one_none hc, List.drop_of_length_le (by omega), comps_nil_piece]
    · rw [h3] at hp
      simp only [Prod.mk.injEq] at hp
      obtain ⟨rfl, hc⟩ := hp
      rw [h1, pieces_append, comps_append, pieces_plain h2, comps_one_none hc, Nat.max_eq_left (by omega)]
      simp

theorem backBody_eq (s : Bytes) : backBody s = (comps (pieces s)).getLast? := by
  fun_induction backBody s with
  | case1 => rfl
  | case2 s hs size c hp =>
    rcases parseBack_eq s with ⟨h1, h2⟩ | ⟨a, d, h1, h2, h3⟩
    · rw [h2] at hp
      simp only [Prod.mk.injEq] at hp
      rw [pieces_plain h1, comps_one_some hp.2]; rfl
    · rw [h3] at hp
      simp only [Prod.mk.injEq] at hp
      rw [h1, pieces_append, comps_append, pieces_plain h2, comps_one_some hp.2]; simp
  | case3 s hs size hp ih =>
    rw [ih]
    have := List.length_pos_iff.mpr hs
    rcases parseBack_eq s with ⟨h1, h2⟩ | ⟨a, d, h1, h2, h3⟩
    · rw [h2] at hp
      simp only [Prod.mk.injEq] at hp
      obtain ⟨rfl, hc⟩ := hp
      rw [Nat.max_eq_left (by omega), Nat.sub_self, List.take_zero, pieces_plain h1, comps_one_none hc]; rfl
    · rw [h3] at hp
      simp only [Prod.mk.injEq] at hp
      obtain ⟨rfl, hc⟩ := hp
      have e : s.take (s.length - max (d.length + 1) 1) = a := by
        rw [Nat.max_eq_left (by omega), h1]; simp
      rw [e, h1, pieces_append, comps_append, pieces_plain h2, comps_one_none hc, List.append_nil]

/-! ## The beginning -/

theorem hasRoot_iff (s : Bytes) : hasRoot s = true ↔ ∃ t, s = 47 :: t := by
  cases s with
  | nil => simp [hasRoot]
  | cons b s => simp [hasRoot, sep]

theorem includeCurDir_iff (s : Bytes) : includeCurDir s = true ↔ s = [46] ∨ ∃ t, s = 46 :: 47 :: t := by
  unfold includeCurDir hasRoot sep dot
  match s with
  | [] => simp
  | [b] =>
    by_cases h : b = 47
    · subst h; simp
    · simp [h]
  | b :: b' :: t =>
    by_cases h : b = 47
    · subst h; simp
    · simp [h]

theorem head_dot_iff (s : Bytes) : (pieces s).head? = some [46] ↔ s = [46] ∨ ∃ t, s = 46 :: 47 :: t := by
  constructor
  · intro h
    match s with
    | [] => simp [pieces] at h
    | [b] =>
      by_cases hb : b = 47
      · subst hb; simp [pieces] at h
      · rw [pieces_plain (by simpa using fun e => hb e.symm)] at h
        left; simpa using h
    | b :: b' :: t =>
      by_cases hb : b = 47
      · subst hb; simp [pieces] at h
      · rw [pieces, if_neg hb] at h
        by_cases hb' : b' = 47
        · subst hb'
          simp [pieces] at h
          right; exact ⟨t, by rw [h]⟩
        · rw [pieces, if_neg hb'] at h
          cases hp : pieces t with
          | nil => exact absurd hp (pieces_ne_nil t)
          | cons p ps => rw [hp] at h; simp at h
  · rintro (rfl | ⟨t, rfl⟩)
    · rfl
    · simp [pieces]

theorem root_pieces_iff (s : Bytes) : ((pieces s).length > 1 ∧ (pieces s).head? = some []) ↔ ∃ t, s = 47 :: t := by
  constructor
  · rintro ⟨h1, h2⟩
    cases s with
    | nil => simp [pieces] at h1
    | cons b s =>
      by_cases hb : b = 47
      · exact ⟨s, by rw [hb]⟩
      · rw [pieces, if_neg hb] at h2
        cases hp : pieces s with
        | nil => exact absurd hp (pieces_ne_nil s)
        | cons p ps => rw [hp] at h2; simp at h2
  · rintro ⟨t, rfl⟩
    have := List.length_pos_iff.mpr (pieces_ne_nil t)
    simp [pieces]; exact this

theorem origin_eq (s : Bytes) : origin s = if hasRoot s then [.root] else if includeCurDir s then [.cur] else [] := by
  unfold origin
  simp only [root_pieces_iff, head_dot_iff, ← hasRoot_iff, ← includeCurDir_iff]

theorem comps_steps (ps : List Bytes) : comps ps = (ps.filter fun p => p ≠ [] && p ≠ [46]).map stepComp := by
  induction ps with
  | nil => rfl
  | cons p ps ih =>
    have hs : comps (p :: ps) = (single p).toList ++ comps ps := by
      unfold comps
      rw [List.filterMap_cons]
      cases single p <;> rfl
    rw [hs, ih, List.filter_cons]
    by_cases h1 : p = []
    · subst h1; rfl
    · by_cases h2 : p = [46]
      · subst h2; rfl
      · by_cases h3 : p = [46, 46]
        · subst h3; rfl
        · have e : single p = some (.normal p) := by
            unfold single dot
            rw [if_neg h1, if_neg h2, if_neg h3]
          rw [e, if_pos (by simp [h1, h2]), List.map_cons, stepComp, if_neg h3]
          rfl

/-- What is left, as components. -/
def Comps.all (c : Comps) : List Comp := if c.start then meaning c.path else comps (pieces c.path)

theorem meaning_eq (s : Bytes) : meaning s = (if hasRoot s then [.root] else if includeCurDir s then [.cur] else []) ++ comps (pieces s) := by
  unfold meaning steps
  rw [origin_eq, comps_steps]

theorem comps_root (t : Bytes) : comps (pieces (47 :: t)) = comps (pieces t) := by
  rw [pieces, if_pos rfl]; rfl

theorem comps_cur {s : Bytes} (h : includeCurDir s = true) : comps (pieces (s.drop 1)) = comps (pieces s) := by
  rcases (includeCurDir_iff s).mp h with rfl | ⟨t, rfl⟩
  · rfl
  · rw [List.drop_one, List.tail_cons, comps_root]
    simp [pieces, comps, single, dot]

theorem next_eq (c : Comps) : c.all = match next c with
    | none => []
    | some x => x.1 :: x.2.all := by
  unfold Comps.all next
  by_cases hs : c.start = true
  · simp only [hs, if_true, meaning_eq]
    by_cases hr : hasRoot c.path = true
    · obtain ⟨t, ht⟩ := (hasRoot_iff _).mp hr
      simp only [hr, if_true]
      rw [ht, comps_root]; simp
    · by_cases hc : includeCurDir c.path = true
      · simp only [hr, hc, if_true, Bool.false_eq_true, if_false, comps_cur hc]; rfl
      · simp only [hr, hc, Bool.false_eq_true, if_false, List.nil_append]
        rw [nextBody_eq]
        cases hn : nextBody c.path with
        | none => rfl
        | some x => simp only [(next_shorter hn).2, Bool.false_eq_true, if_false]
  · simp only [hs, Bool.false_eq_true, if_false]
    rw [nextBody_eq]
    cases hn : nextBody c.path with
    | none => rfl
    | some x => simp only [(next_shorter hn).2, Bool.false_eq_true, if_false]

theorem next_body {c : Comps} {x} (h : next c = some x) : x.2.start = false := by
  unfold next at h
  split at h
  · split at h
    · cases h; rfl
    · split at h
      · cases h; rfl
      · exact (next_shorter h).2
  · exact (next_shorter h).2

/-- The components of a string. -/
theorem components_eq (s : Bytes) : components s = meaning s := by
  have h := next_eq ⟨true, s⟩
  unfold components
  rw [show meaning s = Comps.all ⟨true, s⟩ from rfl, h]
  cases hn : next ⟨true, s⟩ with
  | none => rfl
  | some x =>
    simp only [Comps.all, next_body hn, Bool.false_eq_true, if_false, bodyList_eq]

theorem asPath_eq (c : Comps) : meaning (asPath c) = c.all := by
  obtain ⟨st, p⟩ := c
  cases st with
  | false =>
    unfold asPath Comps.all lenBeforeBody
    simp only [Bool.false_eq_true, if_false, Bool.false_and, List.take_zero, List.nil_append, List.drop_zero]
    obtain ⟨h1, h2⟩ := trimLeft_eq p
    rw [meaning_eq, comps_trimRight, h1]
    have : hasRoot (trimRight (trimLeft p)) = false ∧ includeCurDir (trimRight (trimLeft p)) = false := by
      rcases head_trimRight (trimLeft p) with h | h
      · rw [h]; exact ⟨rfl, rfl⟩
      · rcases h2 with h2 | ⟨c, h2, h3⟩
        · rw [h2]
          have : trimRight [] = [] := by rw [trimRight]; simp
          rw [this]; exact ⟨rfl, rfl⟩
        · rw [h2] at h
          constructor
          · rw [Bool.eq_false_iff]
            intro hr
            rw [hasRoot_iff, ← root_pieces_iff] at hr
            rw [hr.2] at h
            cases h
            exact h3 rfl
          · rw [Bool.eq_false_iff]
            intro hr
            rw [includeCurDir_iff, ← head_dot_iff] at hr
            rw [hr] at h
            cases h
            exact h3 rfl
    rw [this.1, this.2]; rfl
  | true =>
    unfold asPath Comps.all lenBeforeBody
    simp only [if_true, Bool.true_and]
    by_cases hr : hasRoot p = true
    · obtain ⟨t, rfl⟩ := (hasRoot_iff _).mp hr
      simp only [hr, Bool.true_or, if_true, List.take_succ_cons, List.take_zero, List.drop_succ_cons, List.drop_zero, List.singleton_append]
      rw [meaning_eq, meaning_eq, comps_root, comps_root, comps_trimRight]; rfl
    · by_cases hc : includeCurDir p = true
      · simp only [hc, Bool.or_true, if_true]
        have e := comps_cur hc
        have hp : ∃ t, p = 46 :: t ∧ (t = [] ∨ ∃ t', t = 47 :: t') := by
          rcases (includeCurDir_iff p).mp hc with rfl | ⟨t, rfl⟩
          · exact ⟨[], rfl, Or.inl rfl⟩
          · exact ⟨47 :: t, rfl, Or.inr ⟨t, rfl⟩⟩
        obtain ⟨t, rfl, ht⟩ := hp
        simp only [List.take_succ_cons, List.take_zero, List.drop_succ_cons, List.drop_zero, List.singleton_append] at e ⊢
        have hc' : includeCurDir (46 :: trimRight t) = true := by
          rw [includeCurDir_iff]
          rcases head_trimRight t with h | h
          · left; rw [h]
          · rcases ht with rfl | ⟨t', rfl⟩
            · left
              have : trimRight [] = [] := by rw [trimRight]; simp
              rw [this]
            · cases hx : trimRight (47 :: t') with
              | nil => exact Or.inl rfl
              | cons b r =>
                right
                rw [hx] at h
                by_cases hb : b = 47
                · exact ⟨r, by rw [hb]⟩
                · rw [pieces, pieces, if_neg hb, if_pos rfl] at h
                  cases hq : pieces r with
                  | nil => exact absurd hq (pieces_ne_nil r)
                  | cons q qs => rw [hq] at h; simp at h
        have e' := comps_cur hc'
        simp only [List.drop_succ_cons, List.drop_zero] at e'
        rw [meaning_eq, meaning_eq, hc, hc', ← e, ← e', comps_trimRight]
        rfl
      · simp only [hr, hc, Bool.or_self, Bool.false_eq_true, if_false, List.take_zero, List.nil_append, List.drop_zero]
        rw [meaning_eq, meaning_eq, comps_trimRight]
        congr 1
        simp only [hr, hc, Bool.false_eq_true, if_false]
        rcases head_trimRight p with h | h
        · rw [h]; rfl
        · have h1 : hasRoot (trimRight p) = false := by
            rw [Bool.eq_false_iff]
            intro hx
            rw [hasRoot_iff, ← root_pieces_iff] at hx
            rw [hx.2] at h
            apply hr
            rw [hasRoot_iff, ← root_pieces_iff]
            refine ⟨?_, h.symm⟩
            obtain ⟨ps, ⟨k1, k2⟩ | ⟨k1, k2⟩⟩ := trimRight_eq p
            · rw [k1, List.length_append]; omega
            · rw [k1] at hx; simp [pieces] at hx
          have h2 : includeCurDir (trimRight p) = false := by
            rw [Bool.eq_false_iff]
            intro hx
            rw [includeCurDir_iff, ← head_dot_iff] at hx
            rw [hx] at h
            apply hc
            rw [includeCurDir_iff, ← head_dot_iff]
            exact h.symm
          rw [h1, h2]; rfl

theorem iterAfter_eq (c : Comps) (q : List Comp) : (iterAfter c q).map Comps.all = Path.stripPrefix c.all q := by
  induction q generalizing c with
  | nil => rw [Path.stripPrefix]; rfl
  | cons d q ih =>
    rw [next_eq c, iterAfter]
    cases next c with
    | none => rfl
    | some x =>
      simp only [Path.stripPrefix]
      split
      · exact ih x.2
      · rfl

end Scribe.PathStr

namespace Scribe.PathStr
open Spec

theorem single_name {n : Bytes} (h : IsName n) : single n = some (.normal n) := by
  unfold single dot
  rw [if_neg h.1, if_neg h.2.1, if_neg h.2.2.1]

theorem joined_cons {n : Bytes} {ns : List Bytes} (h : ns ≠ []) : joined (n :: ns) = n ++ 47 :: joined ns := by
  cases ns with
  | nil => exact absurd rfl h
  | cons => rfl

theorem pieces_joined {ns : List Bytes} (h : ∀ n ∈ ns, IsName n) (hne : ns ≠ []) : pieces (joined ns) = ns := by
  induction ns with
  | nil => exact absurd rfl hne
  | cons n ns ih =>
    have hn := h n (by simp)
    by_cases hs : ns = []
    · subst hs
      exact pieces_plain hn.2.2.2
    · rw [joined_cons hs, pieces_append, pieces_plain hn.2.2.2, ih (fun m hm => h m (by simp [hm])) hs]; rfl

theorem comps_names {ns : List Bytes} (h : ∀ n ∈ ns, IsName n) : comps ns = ns.map .normal := by
  induction ns with
  | nil => rfl
  | cons n ns ih =>
    rw [← List.singleton_append, comps_append, comps_one_some (single_name (h n (by simp))), ih fun m hm => h m (by simp [hm])]; rfl

theorem comps_joined {ns : List Bytes} (h : ∀ n ∈ ns, IsName n) : comps (pieces (joined ns)) = ns.map .normal := by
  by_cases hs : ns = []
  · subst hs; rfl
  · rw [pieces_joined h hs, comps_names h]

theorem meaning_absolute {ns : List Bytes} (h : ∀ n ∈ ns, IsName n) : meaning (absolute ns) = .root :: ns.map .normal := by
  rw [meaning_eq, (hasRoot_iff (absolute ns)).mpr ⟨_, rfl⟩, absolute, comps_root, comps_joined h]; rfl

theorem joined_ne_nil {ns : List Bytes} (h : ∀ n ∈ ns, IsName n) (hne : ns ≠ []) : joined ns ≠ [] := by
  cases ns with
  | nil => exact absurd rfl hne
  | cons n ns =>
    by_cases hs : ns = []
    · subst hs; exact (h n (by simp)).1
    · rw [joined_cons hs]; simp

theorem nextBody_joined {n : Bytes} {ns : List Bytes} (h : ∀ m ∈ n :: ns, IsName m) :
    nextBody (joined (n :: ns)) = some (.normal n, ⟨false, joined ns⟩) := by
  have hn := h n (by simp)
  rw [nextBody, dif_neg (joined_ne_nil h (by simp))]
  rcases parseNext_eq (joined (n :: ns)) with ⟨h1, h2⟩ | ⟨c, r, h1, h2, h3⟩
  · have hs : ns = [] := by
      refine Classical.byContradiction fun hs => ?_
      rw [joined_cons hs] at h1
      simp at h1
    subst hs
    rw [h2]
    simp only [joined, single_name hn, List.drop_length]
  · have e : pieces (joined (n :: ns)) = c :: pieces r := by rw [h1, pieces_append, pieces_plain h2]; rfl
    rw [pieces_joined h (by simp)] at e
    have hc : n = c := (List.cons.inj e).1
    subst hc
    have hr : ns = pieces r := (List.cons.inj e).2
    have hs : ns ≠ [] := by rw [hr]; exact pieces_ne_nil r
    rw [h3, single_name hn, h1]
    rw [joined_cons hs] at h1
    have : joined ns = r := by
      have := List.append_cancel_left h1
      exact (List.cons.inj this).2
    simp only [this]
    simp

theorem trim_joined {ns : List Bytes} (h : ∀ n ∈ ns, IsName n) : trimRight (trimLeft (joined ns)) = joined ns := by
  cases ns with
  | nil => simp [joined, trimLeft, trimRight]
  | cons n ns =>
    have hne := joined_ne_nil h (by simp)
    have hl : trimLeft (joined (n :: ns)) = joined (n :: ns) := by
      rw [trimLeft, dif_neg hne]
      have hb := nextBody_joined h
      rcases parseNext_eq (joined (n :: ns)) with ⟨h1, h2⟩ | ⟨c, r, h1, h2, h3⟩
      · have e := pieces_plain h1
        rw [pieces_joined h (by simp)] at e
        have : joined (n :: ns) = n := ((List.cons.inj e).1).symm
        rw [h2, this, single_name (h n (by simp))]
      · have e : pieces (joined (n :: ns)) = c :: pieces r := by rw [h1, pieces_append, pieces_plain h2]; rfl
        rw [pieces_joined h (by simp)] at e
        have hc : n = c := (List.cons.inj e).1
        rw [h3, ← hc, single_name (h n (by simp))]
    rw [hl, trimRight, dif_neg hne]
    rcases parseBack_eq (joined (n :: ns)) with ⟨h1, h2⟩ | ⟨a, c, h1, h2, h3⟩
    · have e := pieces_plain h1
      rw [pieces_joined h (by simp)] at e
      have : joined (n :: ns) = n := ((List.cons.inj e).1).symm
      rw [h2, this, single_name (h n (by simp))]
    · have e : pieces (joined (n :: ns)) = pieces a ++ [c] := by rw [h1, pieces_append, pieces_plain h2]
      rw [pieces_joined h (by simp)] at e
      have hc : IsName c := h c (by rw [e]; simp)
      rw [h3, single_name hc]

theorem iterAfter_joined (ws rs : List Bytes) (h : ∀ n ∈ ws ++ rs, IsName n) :
    iterAfter ⟨false, joined (ws ++ rs)⟩ (ws.map .normal) = some ⟨false, joined rs⟩ := by
  induction ws with
  | nil => rfl
  | cons n ws ih =>
    rw [List.map_cons, iterAfter]
    unfold next
    simp only [Bool.false_eq_true, if_false]
    rw [List.cons_append, nextBody_joined (by simpa using h)]
    simp only [if_true]
    exact ih fun m hm => h m (by simp only [List.cons_append, List.mem_cons]; exact Or.inr hm)

/-- Canonical paths. -/
theorem stripPrefix_absolute (ws rs : List Bytes) (h : ∀ n ∈ ws ++ rs, IsName n) :
    stripPrefix (absolute (ws ++ rs)) (absolute ws) = some (joined rs) := by
  have hw : ∀ n ∈ ws, IsName n := fun n hn => h n (by simp [hn])
  have hr : ∀ n ∈ rs, IsName n := fun n hn => h n (by simp [hn])
  unfold stripPrefix
  rw [components_eq, meaning_absolute hw, iterAfter]
  unfold next
  simp only [if_true, (hasRoot_iff (absolute (ws ++ rs))).mpr ⟨_, rfl⟩]
  rw [show (absolute (ws ++ rs)).drop 1 = joined (ws ++ rs) from rfl, iterAfter_joined ws rs h, Option.map_some]
  unfold asPath lenBeforeBody
  simp only [Bool.false_eq_true, if_false, Bool.false_and, List.take_zero, List.nil_append, List.drop_zero]
  rw [trim_joined hr]

theorem stripPrefix_eq (s w : Bytes) : (stripPrefix s w).map components = Path.stripPrefix (components s) (components w) := by
  have h := iterAfter_eq ⟨true, s⟩ (components w)
  unfold stripPrefix
  rw [show components s = Comps.all ⟨true, s⟩ by rw [components_eq]; rfl, ← h, Option.map_map]
  congr 1
  funext c
  simp only [Function.comp, components_eq, asPath_eq]

theorem fileName_last (s : Bytes) : nextBack s = (meaning s).getLast? := by
  unfold nextBack
  rw [backBody_eq, meaning_eq]
  have e : comps (pieces (s.drop (lenBeforeBody ⟨true, s⟩))) = comps (pieces s) := by
    unfold lenBeforeBody
    by_cases hr : hasRoot s = true
    · obtain ⟨t, rfl⟩ := (hasRoot_iff _).mp hr
      simp only [hr, Bool.true_or, Bool.and_self, if_true, List.drop_succ_cons, List.drop_zero, comps_root]
    · by_cases hc : includeCurDir s = true
      · simp only [hc, Bool.or_true, Bool.and_self, if_true, comps_cur hc]
      · simp [hr, hc]
  rw [e]
  cases hl : (comps (pieces s)).getLast? with
  | some c =>
    simp only [List.getLast?_append, hl, Option.some_or]
  | none =>
    rw [List.getLast?_eq_none_iff] at hl
    rw [hl, List.append_nil]
    simp only
    split
    · rfl
    · split <;> rfl

end Scribe.PathStr

namespace Scribe.PathStr
open Spec

theorem nextBody_suffix {s : Bytes} {x : Comp × Comps} (h : nextBody s = some x) : x.2.path <:+ s := by
  fun_induction nextBody s with
  | case1 => cases h
  | case2 s hs size c hp => cases h; exact List.drop_suffix _ _
  | case3 s hs size hp ih => exact (ih h).trans (List.drop_suffix _ _)

theorem next_suffix {c : Comps} {x : Comp × Comps} (h : next c = some x) : x.2.path <:+ c.path := by
  unfold next at h
  split at h
  · split at h
    · cases h; exact List.drop_suffix _ _
    · split at h
      · cases h; exact List.drop_suffix _ _
      · exact nextBody_suffix h
  · exact nextBody_suffix h

theorem iterAfter_suffix {c c' : Comps} {q : List Comp} (h : iterAfter c q = some c') : c'.path <:+ c.path ∧ (q ≠ [] ∨ c.start = false → c'.start = false) := by
  induction q generalizing c with
  | nil => cases h; exact ⟨List.suffix_refl _, fun h => h.resolve_left (by simp)⟩
  | cons d q ih =>
    rw [iterAfter] at h
    cases hn : next c with
    | none => rw [hn] at h; cases h
    | some x =>
      rw [hn] at h
      simp only at h
      split at h
      · obtain ⟨h1, h2⟩ := ih h
        exact ⟨h1.trans (next_suffix hn), fun _ => h2 (Or.inr (next_body hn))⟩
      · cases h

theorem trimLeft_suffix (s : Bytes) : trimLeft s <:+ s := by
  fun_induction trimLeft s with
  | case1 => exact List.nil_suffix
  | case2 => exact List.suffix_refl _
  | case3 s hs size hp ih => exact ih.trans (List.drop_suffix _ _)

theorem trimRight_prefix (s : Bytes) : trimRight s <+: s := by
  fun_induction trimRight s with
  | case1 => exact List.nil_prefix
  | case2 => exact List.prefix_refl _
  | case3 s hs size hp ih => exact ih.trans (List.take_prefix _ _)

theorem trimRight_last (s : Bytes) : trimRight s = [] ∨ ∃ c, (pieces (trimRight s)).getLast? = some c ∧ single c ≠ none := by
  fun_induction trimRight s with
  | case1 => exact Or.inl rfl
  | case2 s hs size c hp =>
    right
    rcases parseBack_eq s with ⟨h1, h2⟩ | ⟨a, d, h1, h2, h3⟩
    · rw [h2] at hp
      simp only [Prod.mk.injEq] at hp
      exact ⟨s, by rw [pieces_plain h1]; rfl, by rw [hp.2]; simp⟩
    · rw [h3] at hp
      simp only [Prod.mk.injEq] at hp
      exact ⟨d, by rw [h1, pieces_append, pieces_plain h2]; simp, by rw [hp.2]; simp⟩
  | case3 s hs size hp ih => exact ih

theorem counts_iff (c : Bytes) : single c ≠ none ↔ c ≠ [] ∧ c ≠ [46] := by
  unfold single dot
  by_cases h1 : c = []
  · simp [h1]
  · by_cases h2 : c = [46]
    · simp [h2]
    · simp only [h1, h2, if_false]
      split <;> simp [h1, h2]

/-- What is stripped to is a part of the string, without slashes and dots around it. -/
theorem stripPrefix_trimmed {s w r : Bytes} (hw : components w ≠ []) (h : stripPrefix s w = some r) :
    r <:+: s ∧ (r = [] ∨ ∃ c d, (pieces r).head? = some c ∧ (pieces r).getLast? = some d ∧ c ≠ [] ∧ c ≠ [46] ∧ d ≠ [] ∧ d ≠ [46]) := by
  unfold stripPrefix at h
  cases hi : iterAfter ⟨true, s⟩ (components w) with
  | none => rw [hi] at h; cases h
  | some c =>
    rw [hi, Option.map_some] at h
    cases h
    obtain ⟨h1, h2⟩ := iterAfter_suffix hi
    have hst := h2 (Or.inl hw)
    have e : asPath c = trimRight (trimLeft c.path) := by
      unfold asPath lenBeforeBody
      simp [hst]
    rw [e]
    refine ⟨(trimRight_prefix _).isInfix.trans ((trimLeft_suffix _).isInfix.trans h1.isInfix), ?_⟩
    rcases trimRight_last (trimLeft c.path) with k | ⟨d, k1, k2⟩
    · exact Or.inl k
    · rcases head_trimRight (trimLeft c.path) with k | k
      · exact Or.inl k
      · rcases (trimLeft_eq c.path).2 with m | ⟨x, m1, m2⟩
        · left
          rw [m, trimRight]; simp
        · exact Or.inr ⟨x, d, by rw [k, m1], k1, ((counts_iff x).mp m2).1, ((counts_iff x).mp m2).2, (counts_iff d).mp k2⟩

end Scribe.PathStr
