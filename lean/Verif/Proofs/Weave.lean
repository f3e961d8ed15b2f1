import Verif.Spec.Concurrent
import Verif.Proofs.Marks
/-! # The text with two changes made at the same time -/
namespace Scribe
open Spec Buf Delta
variable {S : Segmenter} {puts : Position → List Text} {gone : Position → Bool}

theorem before_or {p q : Position} : Before p q ∨ p = q ∨ Before q p := by
  obtain ⟨pl, po⟩ := p; obtain ⟨ql, qo⟩ := q
  unfold Before
  rw [Position.mk.injEq]
  simp only
  omega

theorem not_before {p q : Position} (h : AtOrBefore p q) : ¬ Before q p := fun hb => Before.irrefl _ (hb.trans_le h)

/-- `weave` without what is put in at the end. -/
def weft (puts : Position → List Text) (gone : Position → Bool) (q : Position) : List Text → List Text
  | [] => []
  | c :: cs => puts q ++ (if gone q then [] else [c]) ++ weft puts gone (following q c) cs

theorem weave_append (q : Position) (a b : List Text) : weave puts gone q (a ++ b) = weft puts gone q a ++ weave puts gone (a.foldl step q) b := by
  induction a generalizing q with
  | nil => rfl
  | cons c a ih =>
    show puts q ++ _ ++ weave puts gone (following q c) (a ++ b) = _
    rw [ih]
    simp [weft, following_eq]

theorem weave_end (u : List Text) : weave puts gone (endPos u) [] = puts (endPos u) := rfl

theorem weave_seg (u x b : List Text) : weave puts gone (endPos u) (x ++ b) = weft puts gone (endPos u) x ++ weave puts gone (endPos (u ++ x)) b := by
  rw [weave_append, endPos_append]

theorem weft_concat (u x : List Text) (c : Text) : weft puts gone (endPos u) (c :: x) =
    puts (endPos u) ++ (if gone (endPos u) then [] else [c]) ++ weft puts gone (endPos (u ++ [c])) x := by
  rw [weft, following_eq, endPos_concat]

/-- A part that is kept. -/
theorem weft_keep (u x : List Text) (h : ∀ q, AtOrBefore (endPos u) q → Before q (endPos (u ++ x)) → puts q = [] ∧ gone q = false) :
    weft puts gone (endPos u) x = x := by
  induction x generalizing u with
  | nil => rfl
  | cons c x ih =>
    have e : u ++ c :: x = u ++ [c] ++ x := by simp
    obtain ⟨h1, h2⟩ := h (endPos u) (.refl _) (endPos_lt_append u (by simp))
    rw [weft_concat, h1, h2, ih (u ++ [c])]
    · simp
    · intro q k1 k2
      exact h q ((endPos_le_append u [c]).trans k1) (by rw [e]; exact k2)

/-- A part that is cut out. -/
theorem weft_gone (u x : List Text) (h : ∀ q, AtOrBefore (endPos u) q → Before q (endPos (u ++ x)) → puts q = [] ∧ gone q = true) :
    weft puts gone (endPos u) x = [] := by
  induction x generalizing u with
  | nil => rfl
  | cons c x ih =>
    have e : u ++ c :: x = u ++ [c] ++ x := by simp
    obtain ⟨h1, h2⟩ := h (endPos u) (.refl _) (endPos_lt_append u (by simp))
    rw [weft_concat, h1, h2, ih (u ++ [c])]
    · simp
    · intro q k1 k2
      exact h q ((endPos_le_append u [c]).trans k1) (by rw [e]; exact k2)

/-- A part with something put in before it. -/
theorem weft_keep_first (u x : List Text) (hx : x ≠ []) (h : ∀ q, Before (endPos u) q → Before q (endPos (u ++ x)) → puts q = [])
    (h' : ∀ q, AtOrBefore (endPos u) q → Before q (endPos (u ++ x)) → gone q = false) : weft puts gone (endPos u) x = puts (endPos u) ++ x := by
  cases x with
  | nil => exact absurd rfl hx
  | cons c x =>
    have e : u ++ c :: x = u ++ [c] ++ x := by simp
    rw [weft_concat, h' _ (.refl _) (endPos_lt_append u (by simp)), weft_keep (u ++ [c])]
    · simp
    · intro q k1 k2
      have hb : Before (endPos u) q := (endPos_lt_append u (by simp)).trans_le k1
      exact ⟨h q hb (by rw [e]; exact k2), h' q hb.le (by rw [e]; exact k2)⟩

theorem weft_gone_first (u x : List Text) (hx : x ≠ []) (h : ∀ q, Before (endPos u) q → Before q (endPos (u ++ x)) → puts q = [])
    (h' : ∀ q, AtOrBefore (endPos u) q → Before q (endPos (u ++ x)) → gone q = true) : weft puts gone (endPos u) x = puts (endPos u) := by
  cases x with
  | nil => exact absurd rfl hx
  | cons c x =>
    have e : u ++ c :: x = u ++ [c] ++ x := by simp
    rw [weft_concat, h' _ (.refl _) (endPos_lt_append u (by simp)), weft_gone (u ++ [c])]
    · simp
    · intro q k1 k2
      have hb : Before (endPos u) q := (endPos_lt_append u (by simp)).trans_le k1
      exact ⟨h q hb (by rw [e]; exact k2), h' q hb.le (by rw [e]; exact k2)⟩

/-- The last part, with something put in before it. -/
theorem weave_last (u x : List Text) (h : ∀ q, Before (endPos u) q → puts q = []) (h' : ∀ q, AtOrBefore (endPos u) q → gone q = false) :
    weave puts gone (endPos u) x = puts (endPos u) ++ x := by
  cases x with
  | nil => rw [weave_end, List.append_nil]
  | cons c x =>
    have hx : (c :: x : List Text) ≠ [] := by simp
    have := weave_seg (puts := puts) (gone := gone) u (c :: x) []
    rw [List.append_nil, weave_end] at this
    rw [this, weft_keep_first u _ hx (fun q k _ => h q k) (fun q k _ => h' q k), h _ (endPos_lt_append u hx), List.append_nil]

/-- The first part. -/
theorem weave_start (a b : List Text) (h : ∀ q, Before q (endPos a) → puts q = [] ∧ gone q = false) :
    weave puts gone ⟨0, 0⟩ (a ++ b) = a ++ weave puts gone (endPos a) b := by
  have := weave_seg (puts := puts) (gone := gone) [] a b
  rw [List.nil_append] at this
  rw [show (⟨0, 0⟩ : Position) = endPos [] from rfl, this, weft_keep [] a fun q _ k => h q k]

theorem Spec.Before.ne {p q : Position} (h : Before p q) : p ≠ q := by rintro rfl; exact Before.irrefl _ h

/-- The clusters with two changes made. -/
def mix (segs : Text → List Text) (e f : Delta) (cs : List Text) : List Text :=
  weave (fun q => (if f.surrounds q then [] else e.putsAt segs q) ++ (if e.surrounds q then [] else f.putsAt segs q)) (fun q => e.removes q || f.removes q) ⟨0, 0⟩ cs

section
variable {segs : Text → List Text}

theorem mix_put_put (a w b : List Text) (s s' : Text) (hw : w ≠ []) :
    mix segs (.put (endPos a) s) (.put (endPos (a ++ w)) s') (a ++ (w ++ b)) = a ++ segs s ++ w ++ segs s' ++ b ∧
    mix segs (.put (endPos (a ++ w)) s') (.put (endPos a) s) (a ++ (w ++ b)) = a ++ segs s ++ w ++ segs s' ++ b := by
  have hlt := endPos_lt_append a hw
  have g : ∀ q : Position, Before q (endPos a) → endPos a ≠ q ∧ endPos (a ++ w) ≠ q := fun q h => ⟨h.ne.symm, (h.trans hlt).ne.symm⟩
  have g2 : ∀ q : Position, Before (endPos a) q → Before q (endPos (a ++ w)) → endPos a ≠ q ∧ endPos (a ++ w) ≠ q := fun q h h' => ⟨h.ne, h'.ne.symm⟩
  have g3 : ∀ q : Position, Before (endPos (a ++ w)) q → endPos a ≠ q ∧ endPos (a ++ w) ≠ q := fun q h => ⟨(hlt.trans h).ne, h.ne⟩
  constructor
  all_goals
    unfold mix
    rw [weave_start a _ (by intro q h; obtain ⟨k1, k2⟩ := g q h; simp [putsAt, surrounds, removes, k1, k2]), weave_seg a w b,
      weft_keep_first a w hw (by intro q h h'; obtain ⟨k1, k2⟩ := g2 q h h'; simp [putsAt, surrounds, k1, k2]) (by simp [removes]),
      weave_last (a ++ w) b (by intro q h; obtain ⟨k1, k2⟩ := g3 q h; simp [putsAt, surrounds, k1, k2]) (by simp [removes])]
    simp [putsAt, surrounds, hlt.ne, hlt.ne.symm]

theorem mix_put_same (a b : List Text) (s s' : Text) :
    mix segs (.put (endPos a) s) (.put (endPos a) s') (a ++ b) = a ++ segs s ++ segs s' ++ b := by
  unfold mix
  rw [weave_start a _ (by intro q h; simp [putsAt, surrounds, removes, h.ne.symm]),
    weave_last a b (by intro q h; simp [putsAt, surrounds, h.ne]) (by simp [removes])]
  simp [putsAt, surrounds]

theorem mix_cut_put (p q r : Position) (s : Text) (cs : List Text) : mix segs (.cut p q) (.put r s) cs = mix segs (.put r s) (.cut p q) cs := by
  unfold mix
  simp [putsAt, surrounds, removes]

theorem putsAt_ne {r q : Position} {s : Text} (h : r ≠ q) : (Delta.put r s).putsAt segs q = [] := if_neg h

theorem removes_false {p r q : Position} (h : Before q p ∨ AtOrBefore r q) : (Delta.cut p r).removes q = false := by
  simp only [removes, decide_eq_false_iff_not]
  rintro ⟨h1, h2⟩
  rcases h with h | h
  · exact not_before h1 h
  · exact not_before h h2

theorem removes_true {p r q : Position} (h : AtOrBefore p q) (h' : Before q r) : (Delta.cut p r).removes q = true := by
  simp only [removes, decide_eq_true_eq]; exact ⟨h, h'⟩

theorem surrounds_false {p r q : Position} (h : AtOrBefore q p ∨ AtOrBefore r q) : (Delta.cut p r).surrounds q = false := by
  simp only [surrounds, decide_eq_false_iff_not]
  rintro ⟨h1, h2⟩
  rcases h with h | h
  · exact not_before h h1
  · exact not_before h h2

theorem surrounds_true {p r q : Position} (h : Before p q) (h' : Before q r) : (Delta.cut p r).surrounds q = true := by
  simp only [surrounds, decide_eq_true_eq]; exact ⟨h, h'⟩

/-- What a text put in and a cut put in and leave out. -/
theorem mix_def (r p q : Position) (s : Text) (cs : List Text) : mix segs (.put r s) (.cut p q) cs =
    weave (fun z => if (Delta.cut p q).surrounds z then [] else (Delta.put r s).putsAt segs z) (fun z => (Delta.cut p q).removes z) ⟨0, 0⟩ cs := by
  unfold mix
  simp [putsAt, surrounds, removes]

theorem mix_before (u w x b : List Text) (s : Text) (hw : w ≠ []) :
    mix segs (.put (endPos u) s) (.cut (endPos (u ++ w)) (endPos (u ++ w ++ x))) (u ++ (w ++ (x ++ b))) = u ++ segs s ++ w ++ b := by
  have hlt := endPos_lt_append u hw
  have hle := endPos_le_append (u ++ w) x
  rw [mix_def, weave_start u, weave_seg u w, weft_keep_first u w hw, weave_seg (u ++ w) x, weft_gone (u ++ w) x, weave_last (u ++ w ++ x) b]
  · try beta_reduce
    rw [putsAt_ne (hlt.trans_le hle).ne, ite_self, surrounds_false (.inl hlt.le)]
    simp [putsAt]
  · intro q h
    try beta_reduce
    rw [putsAt_ne ((hlt.trans_le hle).trans h).ne, ite_self]
  · intro q h
    exact removes_false (.inr h)
  · intro q h h'
    try beta_reduce
    rw [putsAt_ne (hlt.trans_le h).ne, ite_self]
    exact ⟨rfl, removes_true h h'⟩
  · intro q h h'
    try beta_reduce
    rw [putsAt_ne h.ne, ite_self]
  · intro q h h'
    exact removes_false (.inl h')
  · intro q h
    try beta_reduce
    rw [putsAt_ne h.ne.symm, ite_self]
    exact ⟨rfl, removes_false (.inl (h.trans hlt))⟩

theorem mix_at_start (a x b : List Text) (s : Text) :
    mix segs (.put (endPos a) s) (.cut (endPos a) (endPos (a ++ x))) (a ++ (x ++ b)) = a ++ segs s ++ b := by
  have hle := endPos_le_append a x
  rw [mix_def, weave_start a]
  · by_cases hx : x = []
    · subst hx
      rw [List.append_nil, List.nil_append, weave_last a b]
      · try beta_reduce
        rw [surrounds_false (.inl (.refl _))]
        simp [putsAt]
      · intro q h
        try beta_reduce
        rw [putsAt_ne h.ne, ite_self]
      · intro q h
        exact removes_false (.inr h)
    · have hlt := endPos_lt_append a hx
      rw [weave_seg a x, weft_gone_first a x hx, weave_last (a ++ x) b]
      · try beta_reduce
        rw [surrounds_false (.inl (.refl _)), putsAt_ne hlt.ne, ite_self]
        simp [putsAt]
      · intro q h
        try beta_reduce
        rw [putsAt_ne (hlt.trans h).ne, ite_self]
      · intro q h
        exact removes_false (.inr h)
      · intro q h h'
        try beta_reduce
        rw [putsAt_ne h.ne, ite_self]
      · intro q h h'
        exact removes_true h h'
  · intro q h
    try beta_reduce
    rw [putsAt_ne h.ne.symm, ite_self]
    exact ⟨rfl, removes_false (.inl h)⟩

theorem mix_inside (a x b : List Text) (r : Position) (s : Text) (h1 : Before (endPos a) r) (h2 : Before r (endPos (a ++ x))) :
    mix segs (.put r s) (.cut (endPos a) (endPos (a ++ x))) (a ++ (x ++ b)) = a ++ b := by
  have e : ∀ z, (if (Delta.cut (endPos a) (endPos (a ++ x))).surrounds z then [] else (Delta.put r s).putsAt segs z) = [] := by
    intro z
    by_cases hz : r = z
    · subst hz; rw [surrounds_true h1 h2]; rfl
    · rw [putsAt_ne hz, ite_self]
  rw [mix_def]
  simp only [e]
  rw [weave_start a, weave_seg a x, weft_gone a x, weave_last (a ++ x) b]
  · rfl
  · intro q h; rfl
  · intro q h; exact removes_false (.inr h)
  · intro q h h'; exact ⟨rfl, removes_true h h'⟩
  · intro q h; exact ⟨rfl, removes_false (.inl h)⟩

theorem mix_after (a x w b : List Text) (s : Text) (hne : x ++ w ≠ []) :
    mix segs (.put (endPos (a ++ x ++ w)) s) (.cut (endPos a) (endPos (a ++ x))) (a ++ (x ++ (w ++ b))) = a ++ w ++ segs s ++ b := by
  have hle := endPos_le_append a x
  have hle' := endPos_le_append (a ++ x) w
  have hlt : Before (endPos a) (endPos (a ++ x ++ w)) := by rw [List.append_assoc]; exact endPos_lt_append a hne
  rw [mix_def, weave_start a, weave_seg a x, weft_gone a x, weave_seg (a ++ x) w, weft_keep (a ++ x) w, weave_last (a ++ x ++ w) b]
  · try beta_reduce
    rw [surrounds_false (.inr hle')]
    simp [putsAt]
  · intro q h
    try beta_reduce
    rw [putsAt_ne h.ne, ite_self]
  · intro q h
    exact removes_false (.inr (hle'.trans h))
  · intro q h h'
    try beta_reduce
    rw [putsAt_ne h'.ne.symm, ite_self]
    exact ⟨rfl, removes_false (.inr h)⟩
  · intro q h h'
    try beta_reduce
    rw [putsAt_ne (h'.trans_le hle').ne.symm, ite_self]
    exact ⟨rfl, removes_true h h'⟩
  · intro q h
    try beta_reduce
    rw [putsAt_ne (h.trans hlt).ne.symm, ite_self]
    exact ⟨rfl, removes_false (.inl h)⟩

theorem mix_cuts (p q p' q' : Position) (cs : List Text) : mix segs (.cut p q) (.cut p' q') cs =
    weave (fun _ => []) (fun z => (Delta.cut p q).removes z || (Delta.cut p' q').removes z) ⟨0, 0⟩ cs := by
  unfold mix
  simp [putsAt]

theorem mix_cut_comm (p q p' q' : Position) (cs : List Text) : mix segs (.cut p q) (.cut p' q') cs = mix segs (.cut p' q') (.cut p q) cs := by
  rw [mix_cuts, mix_cuts]
  simp [Bool.or_comm]

/-- One after the other. -/
theorem mix_apart (a x y z b : List Text) :
    mix segs (.cut (endPos a) (endPos (a ++ x))) (.cut (endPos (a ++ x ++ y)) (endPos (a ++ x ++ y ++ z))) (a ++ (x ++ (y ++ (z ++ b)))) = a ++ y ++ b := by
  have h1 := endPos_le_append a x
  have h2 := endPos_le_append (a ++ x) y
  have h3 := endPos_le_append (a ++ x ++ y) z
  rw [mix_cuts, weave_start a, weave_seg a x, weft_gone a x, weave_seg (a ++ x) y, weft_keep (a ++ x) y, weave_seg (a ++ x ++ y) z, weft_gone (a ++ x ++ y) z, weave_last]
  · simp
  · intro q h; rfl
  · intro q h
    try beta_reduce
    rw [removes_false (.inr (h2.trans (h3.trans h))), removes_false (.inr h)]; rfl
  · intro q h h'
    try beta_reduce
    rw [removes_true h h', Bool.or_true]
    exact ⟨rfl, rfl⟩
  · intro q h h'
    try beta_reduce
    rw [removes_false (.inr h), removes_false (.inl h')]
    exact ⟨rfl, rfl⟩
  · intro q h h'
    try beta_reduce
    rw [removes_true h h', Bool.true_or]
    exact ⟨rfl, rfl⟩
  · intro q h
    try beta_reduce
    rw [removes_false (.inl h), removes_false (.inl (h.trans_le (h1.trans h2)))]
    exact ⟨rfl, rfl⟩

/-- Cuts that overlap, or one within the other: `x` to `z` together. -/
theorem mix_overlap (a x b : List Text) (p q p' q' : Position) (h1 : AtOrBefore (endPos a) p) (h2 : AtOrBefore (endPos a) p')
    (h3 : AtOrBefore q (endPos (a ++ x))) (h4 : AtOrBefore q' (endPos (a ++ x)))
    (hall : ∀ z, AtOrBefore (endPos a) z → Before z (endPos (a ++ x)) → (Delta.cut p q).removes z = true ∨ (Delta.cut p' q').removes z = true) :
    mix segs (.cut p q) (.cut p' q') (a ++ (x ++ b)) = a ++ b := by
  rw [mix_cuts, weave_start a, weave_seg a x, weft_gone a x, weave_last]
  · simp
  · intro z h; rfl
  · intro z h
    try beta_reduce
    rw [removes_false (.inr (h3.trans h)), removes_false (.inr (h4.trans h))]; rfl
  · intro z h h'
    refine ⟨rfl, ?_⟩
    rcases hall z h h' with e | e
    · beta_reduce; rw [e]; rfl
    · beta_reduce; rw [e, Bool.or_true]
  · intro z h
    try beta_reduce
    rw [removes_false (.inl (h.trans_le h1)), removes_false (.inl (h.trans_le h2))]
    exact ⟨rfl, rfl⟩

end
end Scribe
