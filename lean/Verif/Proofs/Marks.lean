import Verif.Spec.Marks
import Verif.Proofs.Sim
import Verif.Proofs.Typing
/-! # Positions after edits -/
namespace Scribe
open Spec Buf
variable {S : Segmenter}

theorem following_eq (m : Position) (c : Text) : following m c = step m c := rfl

theorem le_of_not_before {p q : Position} (h : ¬ Before p q) : AtOrBefore q p := by unfold Before at h; unfold AtOrBefore; omega

theorem afterInsert_before {p e m : Position} (h : Before m p) : afterInsert p e m = m := if_pos h

theorem afterInsert_ge {p e m : Position} (h : AtOrBefore p m) : afterInsert p e m =
    if m.line = p.line then ⟨m.line + e.line, if e.line = 0 then m.offset + e.offset else m.offset - p.offset + e.offset⟩ else ⟨m.line + e.line, m.offset⟩ :=
  if_neg (by unfold AtOrBefore at h; omega)

theorem afterDelete_ge {p q m : Position} (hpq : AtOrBefore p q) (h : AtOrBefore q m) : afterDelete p q m =
    if m.line = q.line then ⟨p.line, p.offset + (m.offset - q.offset)⟩ else ⟨m.line - (q.line - p.line), m.offset⟩ := by
  unfold AtOrBefore at *
  unfold afterDelete
  rw [if_neg (by omega), if_neg (by omega)]

/-- Text behind the place of an insertion. -/
theorem afterInsert_append (a s x : List Text) : afterInsert (endPos a) (endPos s) (endPos (a ++ x)) = endPos (a ++ s ++ x) := by
  have hn : ¬ ((endPos (a ++ x)).line < (endPos a).line ∨ ((endPos (a ++ x)).line = (endPos a).line ∧ (endPos (a ++ x)).offset < (endPos a).offset)) := by
    rw [endPos_append_eq a x]; split <;> simp only <;> omega
  unfold afterInsert
  rw [if_neg hn, endPos_append_eq (a ++ s) x, endPos_append_eq a s, endPos_append_eq a x]
  by_cases h1 : (endPos x).line = 0 <;> by_cases h2 : (endPos s).line = 0 <;> simp [h1, h2] <;> omega

theorem afterInsert_inj {p e m m' : Position} (h : AtOrBefore p m) (h' : AtOrBefore p m') (he : afterInsert p e m = afterInsert p e m') : m = m' := by
  rw [afterInsert_ge h, afterInsert_ge h'] at he
  obtain ⟨pl, po⟩ := p; obtain ⟨el, eo⟩ := e; obtain ⟨ml, mo⟩ := m; obtain ⟨nl, no⟩ := m'
  unfold AtOrBefore at h h'
  simp only at h h' he
  repeat' split at he
  all_goals rw [Position.mk.injEq] at he ⊢
  all_goals omega

theorem afterInsert_le {p e m : Position} (h : AtOrBefore p m) : AtOrBefore (afterInsert p e p) (afterInsert p e m) := by
  rw [afterInsert_ge h, afterInsert_ge (.refl p)]
  obtain ⟨pl, po⟩ := p; obtain ⟨el, eo⟩ := e; obtain ⟨ml, mo⟩ := m
  unfold AtOrBefore at *
  simp only at h ⊢
  repeat' split
  all_goals simp only [not_true] at *
  all_goals omega

theorem afterInsert_mono {p e m m' : Position} (h : AtOrBefore m m') : AtOrBefore (afterInsert p e m) (afterInsert p e m') := by
  obtain ⟨pl, po⟩ := p; obtain ⟨el, eo⟩ := e; obtain ⟨ml, mo⟩ := m; obtain ⟨nl, no⟩ := m'
  unfold AtOrBefore at *
  unfold afterInsert
  simp only at h ⊢
  repeat' split
  all_goals simp only
  all_goals omega

/-- Text behind a deleted range. -/
theorem afterDelete_append (a x y : List Text) : afterDelete (endPos a) (endPos (a ++ x)) (endPos (a ++ x ++ y)) = endPos (a ++ y) := by
  have h1 : AtOrBefore (endPos a) (endPos (a ++ x)) := endPos_le_append a x
  have h2 : AtOrBefore (endPos (a ++ x)) (endPos (a ++ x ++ y)) := endPos_le_append _ y
  have e1 := endPos_append_eq a x
  have e2 := endPos_append_eq (a ++ x) y
  have e3 := endPos_append_eq a y
  generalize endPos (a ++ x ++ y) = m at *
  generalize endPos (a ++ x) = q at *
  generalize endPos (a ++ y) = r at *
  generalize endPos a = p at *
  generalize endPos x = ex at *
  generalize endPos y = ey at *
  obtain ⟨pl, po⟩ := p; obtain ⟨ql, qo⟩ := q; obtain ⟨ml, mo⟩ := m; obtain ⟨rl, ro⟩ := r; obtain ⟨xl, xo⟩ := ex; obtain ⟨yl, yo⟩ := ey
  unfold AtOrBefore at h1 h2
  unfold afterDelete
  simp only at *
  rw [if_neg (by omega), if_neg (by omega)]
  split at e1 <;> split at e2 <;> injection e1 with a1 a2 <;> injection e2 with b1 b2
  all_goals first | rw [if_pos (by assumption)] at e3 | rw [if_neg (by assumption)] at e3
  all_goals injection e3 with c1 c2
  all_goals split
  all_goals rw [Position.mk.injEq]
  all_goals omega

theorem afterDelete_before {p q m : Position} (h : Before m p) : afterDelete p q m = m := if_pos h

theorem afterDelete_start {p q : Position} (h : AtOrBefore p q) : afterDelete p q p = p := by
  obtain ⟨pl, po⟩ := p; obtain ⟨ql, qo⟩ := q
  unfold AtOrBefore at h
  unfold afterDelete
  simp only at *
  rw [if_neg (by omega)]
  split
  · rfl
  · rw [if_pos (by omega), Position.mk.injEq]; omega

theorem afterDelete_inj {p q m m' : Position} (hpq : AtOrBefore p q) (h : AtOrBefore q m) (h' : AtOrBefore q m')
    (he : afterDelete p q m = afterDelete p q m') : m = m' := by
  rw [afterDelete_ge hpq h, afterDelete_ge hpq h'] at he
  obtain ⟨pl, po⟩ := p; obtain ⟨ql, qo⟩ := q; obtain ⟨ml, mo⟩ := m; obtain ⟨nl, no⟩ := m'
  unfold AtOrBefore at h h' hpq
  simp only at h h' he hpq
  repeat' split at he
  all_goals rw [Position.mk.injEq] at he ⊢
  all_goals omega

theorem afterDelete_mono {p q m m' : Position} (hpq : AtOrBefore p q) (h : AtOrBefore m m') : AtOrBefore (afterDelete p q m) (afterDelete p q m') := by
  obtain ⟨pl, po⟩ := p; obtain ⟨ql, qo⟩ := q; obtain ⟨ml, mo⟩ := m; obtain ⟨nl, no⟩ := m'
  unfold AtOrBefore at *
  unfold afterDelete
  simp only at h hpq ⊢
  repeat' split
  all_goals simp only [true_and]
  all_goals omega

/-- Deleting what was inserted brings every mark back. -/
theorem afterDelete_afterInsert (p e m : Position) : afterDelete p (afterInsert p e p) (afterInsert p e m) = m := by
  obtain ⟨pl, po⟩ := p; obtain ⟨el, eo⟩ := e; obtain ⟨ml, mo⟩ := m
  unfold afterInsert
  simp only
  rw [if_neg (by omega)]
  simp only [if_true]
  unfold afterDelete
  repeat' split
  all_goals simp only at *
  all_goals first | rfl | (rw [Position.mk.injEq]; omega)

section locate

/-- Positions up to the end of a common part. -/
theorem locate_common {a b b' : List Text} {q : Position} (h : AtOrBefore q (endPos a)) :
    (locate (a ++ b) q).map Prod.fst = (locate (a ++ b') q).map Prod.fst := by
  have key : ∀ {b b' : List Text} {x y}, locate (a ++ b) q = some (x, y) → (locate (a ++ b') q).map Prod.fst = some x := by
    intro b b' x y hl
    obtain ⟨h1, h2⟩ := locate_eq_some.mp hl
    obtain ⟨c, h3, _⟩ := split_mono h1.symm (by rw [h2]; exact h)
    rw [h3, List.append_assoc, ← h2, locate_append]; rfl
  cases h1 : locate (a ++ b) q with
  | some z => exact (key h1).symm
  | none =>
    cases h2 : locate (a ++ b') q with
    | none => rfl
    | some z =>
      have := key (b' := b) h2
      rw [h1] at this; cases this

theorem readRange_fst {t t' : Text} {p q p' q' : Position} (hp : (locate (S.segs t) p).map Prod.fst = (locate (S.segs t') p').map Prod.fst)
    (hq : (locate (S.segs t) q).map Prod.fst = (locate (S.segs t') q').map Prod.fst) : readRange S.segs t p q = readRange S.segs t' p' q' := by
  unfold readRange
  cases h1 : locate (S.segs t) p <;> cases h2 : locate (S.segs t') p' <;> rw [h1, h2] at hp <;> simp only [Option.map, reduceCtorEq, Option.some.injEq] at hp
  cases h3 : locate (S.segs t) q <;> cases h4 : locate (S.segs t') q' <;> rw [h3, h4] at hq <;> simp only [Option.map, reduceCtorEq, Option.some.injEq] at hq
  simp only [hp, hq]

/-- Positions behind a part, when that part is exchanged and `f` moves positions along. -/
theorem locate_moved {a a' b : List Text} {f : Position → Position} {q : Position} (h : AtOrBefore (endPos a) q)
    (hf : ∀ x, f (endPos (a ++ x)) = endPos (a' ++ x)) (hle : ∀ r, AtOrBefore (endPos a) r → AtOrBefore (endPos a') (f r))
    (hinj : ∀ r r', AtOrBefore (endPos a) r → AtOrBefore (endPos a) r' → f r = f r' → r = r') :
    (locate (a ++ b) q = none ∧ locate (a' ++ b) (f q) = none) ∨
      ∃ x y, b = x ++ y ∧ locate (a ++ b) q = some (a ++ x, y) ∧ locate (a' ++ b) (f q) = some (a' ++ x, y) := by
  cases h1 : locate (a ++ b) q with
  | some z =>
    obtain ⟨u, v⟩ := z
    obtain ⟨k1, k2⟩ := locate_eq_some.mp h1
    obtain ⟨x, k3, k4⟩ := split_mono k1 (by rw [k2]; exact h)
    subst k3 k4
    exact .inr ⟨x, v, rfl, rfl, locate_eq_some.mpr ⟨(List.append_assoc _ _ _).symm, by rw [← hf, k2]⟩⟩
  | none =>
    refine .inl ⟨rfl, locate_eq_none.mpr fun u v k1 k2 => ?_⟩
    obtain ⟨x, k3, k4⟩ := split_mono k1 (by rw [k2]; exact hle q h)
    subst k3 k4
    rw [← hf] at k2
    have := hinj _ _ (endPos_le_append a x) h k2
    exact locate_eq_none.mp h1 (a ++ x) v (List.append_assoc _ _ _).symm this

theorem readRange_moved {t t' : Text} {a a' b : List Text} {f : Position → Position} {q r : Position} (ht : S.segs t = a ++ b) (ht' : S.segs t' = a' ++ b)
    (hq : AtOrBefore (endPos a) q) (hr : AtOrBefore (endPos a) r)
    (hf : ∀ x, f (endPos (a ++ x)) = endPos (a' ++ x)) (hle : ∀ r, AtOrBefore (endPos a) r → AtOrBefore (endPos a') (f r))
    (hinj : ∀ r r', AtOrBefore (endPos a) r → AtOrBefore (endPos a) r' → f r = f r' → r = r') :
    readRange S.segs t' (f q) (f r) = readRange S.segs t q r := by
  unfold readRange
  rw [ht, ht']
  rcases locate_moved (b := b) hq hf hle hinj with ⟨e1, e2⟩ | ⟨x, y, -, e1, e2⟩ <;> rcases locate_moved (b := b) hr hf hle hinj with ⟨e3, e4⟩ | ⟨x', y', -, e3, e4⟩
  all_goals rw [e1, e2, e3, e4]
  simp only [List.length_append, List.drop_append, Nat.add_sub_cancel_left]
  rw [List.drop_eq_nil_of_le (Nat.le_add_right _ _), List.drop_eq_nil_of_le (Nat.le_add_right _ _)]

theorem readRange_join {t : Text} {p q r : Position} (hpq : AtOrBefore p q) (hqr : AtOrBefore q r) {u v : Text}
    (h1 : readRange S.segs t p q = some u) (h2 : readRange S.segs t q r = some v) : readRange S.segs t p r = some (u ++ v) := by
  unfold readRange at *
  cases ep : locate (S.segs t) p with
  | none => rw [ep] at h1; simp at h1
  | some x =>
    cases eq : locate (S.segs t) q with
    | none => rw [ep, eq] at h1; simp at h1
    | some y =>
      cases er : locate (S.segs t) r with
      | none => rw [eq, er] at h2; simp at h2
      | some z =>
        obtain ⟨a1, b1⟩ := x; obtain ⟨a2, b2⟩ := y; obtain ⟨a3, b3⟩ := z
        rw [ep, eq] at h1; rw [eq, er] at h2
        obtain ⟨c, rfl, rfl⟩ := locate_mono ep eq hpq
        obtain ⟨c', rfl, rfl⟩ := locate_mono eq er hqr
        simp at h1 h2 ⊢
        rw [← h1, ← h2]

/-- The cluster at a mark, by reading. -/
theorem readRange_following {t : Text} {m : Position} {c : Text} : readRange S.segs t m (following m c) = some c ∧ c ≠ [] ↔
    ∃ a b, S.segs t = a ++ c :: b ∧ endPos a = m := by
  constructor
  · rintro ⟨h, hne⟩
    unfold readRange at h
    cases ep : locate (S.segs t) m with
    | none => rw [ep] at h; simp at h
    | some x =>
      cases eq : locate (S.segs t) (following m c) with
      | none => rw [ep, eq] at h; simp at h
      | some y =>
        obtain ⟨a, b⟩ := x; obtain ⟨a2, b2⟩ := y
        rw [ep, eq] at h
        obtain ⟨d, rfl, rfl⟩ := locate_mono ep eq (by unfold following AtOrBefore; split <;> simp)
        obtain ⟨k1, k2⟩ := locate_eq_some.mp ep
        obtain ⟨k3, k4⟩ := locate_eq_some.mp eq
        simp only [List.drop_left, Option.some.injEq] at h
        refine ⟨a, b2, ?_, k2⟩
        rw [k1]
        have : d = [c] := by
          rw [following_eq, ← k2] at k4
          cases d with
          | nil => rw [List.flatten_nil] at h; exact absurd h.symm hne
          | cons x d =>
            cases d with
            | nil => simpa using h
            | cons y d =>
              exfalso
              have hx : x ∈ S.segs t := by rw [k1]; simp
              have hy : y ∈ S.segs t := by rw [k1]; simp
              have hlen : 2 ≤ c.length := by
                have := List.length_pos_iff.mpr (S.nonempty t x hx)
                have := List.length_pos_iff.mpr (S.nonempty t y hy)
                rw [← h]; simp; omega
              have hc : c ≠ ['\n'] := by rintro rfl; simp at hlen
              have e1 : endPos (a ++ x :: y :: d) = (d.foldl step (step (step (endPos a) x) y)) := by rw [endPos_append]; rfl
              have e2 := le_foldl_step d (step (step (endPos a) x) y)
              rw [← e1, k4] at e2
              unfold step at e2
              rw [if_neg hc] at e2
              unfold AtOrBefore at e2
              revert e2
              split <;> split <;> (simp; try omega)
        rw [this]; rfl
  · rintro ⟨a, b, h, rfl⟩
    refine ⟨?_, S.nonempty t c (by rw [h]; simp)⟩
    have e : following (endPos a) c = endPos (a ++ [c]) := by rw [endPos_concat]; rfl
    have e2 : a ++ c :: b = (a ++ [c]) ++ b := by simp
    unfold readRange
    rw [h, locate_append, e, e2, locate_append]
    simp

end locate

/-- Insertion, in clusters. -/
theorem insert_clusters {t s : Text} {p : Position} (hc : CleanInsert S.segs t s p) (hp : exists? S.segs t p = true) :
    ∃ a b, S.segs t = a ++ b ∧ endPos a = p ∧ S.segs (insertAt S.segs t s p) = a ++ S.segs s ++ b := by
  unfold exists? at hp
  obtain ⟨⟨a, b⟩, hl⟩ := Option.isSome_iff_exists.mp hp
  obtain ⟨k1, k2⟩ := locate_eq_some.mp hl
  refine ⟨a, b, k1, k2, ?_⟩
  have := hc a b hl
  unfold insertAt
  rw [hl]; exact this

theorem insert_nowhere {t s : Text} {p : Position} (hp : ¬ exists? S.segs t p = true) : insertAt S.segs t s p = t := by
  unfold exists? at hp
  unfold insertAt
  rw [Option.not_isSome_iff_eq_none.mp hp]

/-- Deletion, in clusters. -/
theorem delete_clusters {t : Text} {p q : Position} (hpq : AtOrBefore p q) (hc : CleanRange S.segs t p q) (hp : exists? S.segs t p = true) (hq : exists? S.segs t q = true) :
    ∃ a x b, S.segs t = a ++ x ++ b ∧ endPos a = p ∧ endPos (a ++ x) = q ∧ S.segs (Spec.deleteRange S.segs t p q) = a ++ b := by
  unfold exists? at hp hq
  obtain ⟨⟨a, b⟩, hl⟩ := Option.isSome_iff_exists.mp hp
  obtain ⟨⟨a', b'⟩, hl'⟩ := Option.isSome_iff_exists.mp hq
  obtain ⟨k1, k2⟩ := locate_eq_some.mp hl
  obtain ⟨k3, k4⟩ := locate_eq_some.mp hl'
  obtain ⟨x, rfl, rfl⟩ := locate_mono hl hl' hpq
  refine ⟨a, x, b', k3, k2, k4, ?_⟩
  have := hc.1 _ _ hl
  have e : afterEnd (S.segs t) q = b' := by unfold afterEnd; rw [hl']
  rw [e] at this
  unfold Spec.deleteRange
  rw [hl]
  show S.segs (a.flatten ++ (afterEnd (S.segs t) q).flatten) = _
  rw [e]; exact this

theorem delete_nothing {t : Text} {p q : Position} (hc : CleanRange S.segs t p q) (h : ¬ (exists? S.segs t p && exists? S.segs t q) = true) :
    Spec.deleteRange S.segs t p q = t := by
  rcases hc.2 with h2 | h2
  · have hp : ¬ exists? S.segs t p = true := by intro h'; exact h (by rw [h', h2]; rfl)
    unfold exists? at hp
    unfold Spec.deleteRange
    rw [Option.not_isSome_iff_eq_none.mp hp]
  · exact h2

theorem mark_delete {t : Text} {p q m m' : Position} {c : Text} (hpq : AtOrBefore p q) (hc : CleanRange S.segs t p q)
    (hm : ∃ a b, S.segs t = a ++ c :: b ∧ endPos a = m) (h : markDelete S.segs t p q m = some m') :
    ∃ a b, S.segs (Spec.deleteRange S.segs t p q) = a ++ c :: b ∧ endPos a = m' := by
  unfold markDelete at h
  split at h
  · rename_i hex
    rw [Bool.and_eq_true] at hex
    split at h
    · cases h
    · rename_i hn
      obtain rfl := Option.some.inj h
      obtain ⟨u, v, hu, rfl⟩ := hm
      obtain ⟨a, x, b, k1, rfl, rfl, k4⟩ := delete_clusters hpq hc hex.1 hex.2
      rw [k4]
      by_cases hb : Before (endPos u) (endPos a)
      · rw [afterDelete_before hb]
        obtain ⟨w, hw, rfl, k5⟩ := split_mono_lt (b := c :: v) (b' := x ++ b) (by rw [← hu, k1, List.append_assoc]) hb
        cases w with
        | nil => exact absurd rfl hw
        | cons y w =>
          obtain ⟨rfl, rfl⟩ := List.cons.inj k5
          exact ⟨u, w ++ b, by simp, rfl⟩
      · have hle : AtOrBefore (endPos (a ++ x)) (endPos u) := by
          have := le_of_not_before hb
          unfold AtOrBefore at this ⊢
          omega
        obtain ⟨w, rfl, k5⟩ := split_mono (b := b) (b' := c :: v) (by rw [← hu, k1]) hle
        rw [afterDelete_append]
        exact ⟨a ++ w, v, by rw [k5, List.append_assoc], rfl⟩
  · rename_i hn
    obtain rfl := Option.some.inj h
    rw [delete_nothing hc hn]; exact hm

theorem mark_step {d : Doc} {m m' : Position} {c : Text} {cmd : Cmd} (hc : CleanCmd S.segs d cmd)
    (hm : ∃ a b, S.segs d.text = a ++ c :: b ∧ endPos a = m) (h : markStep S.segs d.text d.cursor.position m cmd = some m') :
    ∃ a b, S.segs (d.step S.segs cmd).text = a ++ c :: b ∧ endPos a = m' := by
  cases cmd with
  | insert s =>
    rw [show (d.step S.segs (.insert s)).text = insertAt S.segs d.text s d.cursor.position from (step_edit S.segs d _ rfl).1]
    simp only [markStep] at h
    split at h
    · rename_i hp
      obtain rfl := Option.some.inj h
      obtain ⟨u, v, hu, rfl⟩ := hm
      obtain ⟨a, b, k1, k2, k3⟩ := insert_clusters hc.1 hp
      rw [k3, ← k2]
      by_cases hb : Before (endPos u) (endPos a)
      · rw [afterInsert_before hb]
        obtain ⟨w, hw, rfl, k5⟩ := split_mono_lt (b := c :: v) (b' := b) (by rw [← hu, k1]) hb
        cases w with
        | nil => exact absurd rfl hw
        | cons y w =>
          obtain ⟨rfl, rfl⟩ := List.cons.inj k5
          exact ⟨u, w ++ S.segs s ++ b, by simp, rfl⟩
      · obtain ⟨w, rfl, k5⟩ := split_mono (b := b) (b' := c :: v) (by rw [← hu, k1]) (le_of_not_before hb)
        rw [afterInsert_append]
        exact ⟨a ++ S.segs s ++ w, v, by rw [k5, List.append_assoc (a ++ S.segs s)], rfl⟩
    · rename_i hp
      obtain rfl := Option.some.inj h
      rw [insert_nowhere hp]; exact hm
  | delete =>
    rw [show (d.step S.segs .delete).text = Spec.deleteRange S.segs d.text d.cursor.position (Doc.deleteEnd S.segs d.text d.cursor.position) from (step_edit S.segs d _ rfl).1]
    exact mark_delete (le_deleteEnd _ _ _) (delete_cleanRange hc) hm h
  | deleteRange p q =>
    rw [show (d.step S.segs (.deleteRange p q)).text = Spec.deleteRange S.segs d.text (lo p q) (hi p q) from (step_edit S.segs d _ rfl).1]
    exact mark_delete (lo_le_hi p q) hc hm h
  | undo => cases h
  | redo => cases h
  | replace t => cases h
  | reload t => cases h
  | startGroup => obtain rfl := Option.some.inj h; exact hm
  | endGroup =>
    obtain rfl := Option.some.inj h
    have : (d.step S.segs .endGroup).text = d.text := by
      show (d.endGroup).text = d.text
      unfold Doc.endGroup
      split <;> rfl
    rw [this]; exact hm
  | move x => obtain rfl := Option.some.inj h; exact hm
  | setCursor x => obtain rfl := Option.some.inj h; exact hm
  | setCallback x => obtain rfl := Option.some.inj h; exact hm
  | saved => obtain rfl := Option.some.inj h; exact hm

theorem mark_steps (cs : List Cmd) {d : Doc} {m m' : Position} {c : Text} (hc : CleanCmds S.segs d cs)
    (hm : ∃ a b, S.segs d.text = a ++ c :: b ∧ endPos a = m) (h : markSteps S.segs d m cs = some m') :
    ∃ a b, S.segs (d.steps S.segs cs).text = a ++ c :: b ∧ endPos a = m' := by
  induction cs generalizing d m with
  | nil => obtain rfl := Option.some.inj h; exact hm
  | cons x cs ih =>
    obtain ⟨m1, h1, h2⟩ := Option.bind_eq_some_iff.mp h
    exact ih hc.2 (mark_step hc.1 hm h1) h2

end Scribe
