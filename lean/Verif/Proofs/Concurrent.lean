import Verif.Spec.Concurrent
import Verif.Proofs.Weave
import Verif.Proofs.Closed
import Verif.Proofs.Batch
/-! # Edits made at the same time -/
namespace Scribe
open Spec Buf
variable {S : Segmenter} {P : Text → Prop}

/-- What a change does to a list of clusters. -/
inductive Does (segs : Text → List Text) : List Text → Delta → List Text → Prop
  | put (a b : List Text) (s : Text) : Does segs (a ++ b) (.put (endPos a) s) (a ++ segs s ++ b)
  | cut (a x b : List Text) : Does segs (a ++ x ++ b) (.cut (endPos a) (endPos (a ++ x))) (a ++ b)

theorem Does.put' {segs : Text → List Text} {cs cs' : List Text} {p : Position} {s : Text} (a b : List Text) (h1 : cs = a ++ b) (h2 : p = endPos a)
    (h3 : cs' = a ++ segs s ++ b) : Does segs cs (.put p s) cs' := by subst h1 h2 h3; exact .put a b s

theorem Does.cut' {segs : Text → List Text} {cs cs' : List Text} {p q : Position} (a x b : List Text) (h1 : cs = a ++ x ++ b) (h2 : p = endPos a)
    (h3 : q = endPos (a ++ x)) (h4 : cs' = a ++ b) : Does segs cs (.cut p q) cs' := by subst h1 h2 h3 h4; exact .cut a x b

theorem afterInsert_self (a s : List Text) : afterInsert (endPos a) (endPos s) (endPos a) = endPos (a ++ s) := by
  have := afterInsert_append a s []
  rwa [List.append_nil, List.append_nil] at this

theorem afterDelete_le {p q m : Position} (hpq : AtOrBefore p q) (h : AtOrBefore m p) : afterDelete p q m = m := by
  rcases before_or (p := m) (q := p) with hb | rfl | hb
  · exact afterDelete_before hb
  · exact afterDelete_start hpq
  · exact absurd (hb.trans_le h) (Before.irrefl _)

theorem afterDelete_inside {p q m : Position} (h : AtOrBefore p m) (h' : Before m q) : afterDelete p q m = p := by
  unfold afterDelete
  have hn : ¬ (m.line < p.line ∨ (m.line = p.line ∧ m.offset < p.offset)) := by unfold AtOrBefore at h; omega
  rw [if_neg hn]; exact if_pos h'

/-- Two texts put in. -/
theorem meet_put {segs : Text → List Text} (a w b : List Text) (s s' : Text) (f : Bool) (hw : w ≠ [] ∨ f = true) :
    ∃ c, Does segs (a ++ segs s ++ (w ++ b)) ((Delta.put (endPos (a ++ w)) s').against segs (!f) (.put (endPos a) s)) c ∧
      Does segs (a ++ w ++ segs s' ++ b) ((Delta.put (endPos a) s).against segs f (.put (endPos (a ++ w)) s')) c ∧
      c = mix segs (.put (endPos a) s) (.put (endPos (a ++ w)) s') (a ++ (w ++ b)) ∧
      (w ≠ [] → c = mix segs (.put (endPos (a ++ w)) s') (.put (endPos a) s) (a ++ (w ++ b))) := by
  refine ⟨a ++ segs s ++ w ++ segs s' ++ b, ?_, ?_, ?_, fun hw => (mix_put_put a w b s s' hw).2.symm⟩
  · simp only [Delta.against]
    rw [if_neg]
    · exact .put' (a ++ segs s ++ w) b (by simp) (afterInsert_append _ _ _) (by simp)
    · rintro (h | ⟨h1, h2⟩)
      · exact not_before (endPos_le_append a w) h
      · have hw' : w = [] := by
          by_contra hw'
          have := endPos_lt_append a hw'
          rw [h1] at this; exact Before.irrefl _ this
        rcases hw with hw | hw
        · exact hw hw'
        · rw [hw] at h2; cases h2
  · simp only [Delta.against]
    rw [if_pos]
    · exact .put' a (w ++ segs s' ++ b) (by simp) rfl (by simp)
    · by_cases hw' : w = []
      · right
        refine ⟨by rw [hw', List.append_nil], ?_⟩
        rcases hw with hw | hw
        · exact absurd hw' hw
        · exact hw
      · left; exact endPos_lt_append a hw'
  · by_cases hw' : w = []
    · subst hw'
      have := mix_put_same (segs := segs) a b s s'
      simpa using this.symm
    · exact (mix_put_put a w b s s' hw').1.symm

/-- A text put in, and a part cut out. -/
theorem meet_put_cut (u v a x b : List Text) (s : Text) (f g : Bool) (h : u ++ v = a ++ x ++ b) :
    ∃ c, Does S.segs (u ++ S.segs s ++ v) ((Delta.cut (endPos a) (endPos (a ++ x))).against S.segs f (.put (endPos u) s)) c ∧
      Does S.segs (a ++ b) ((Delta.put (endPos u) s).against S.segs g (.cut (endPos a) (endPos (a ++ x)))) c ∧
      c = mix S.segs (.put (endPos u) s) (.cut (endPos a) (endPos (a ++ x))) (u ++ v) := by
  simp only [Delta.against]
  by_cases h1 : AtOrBefore (endPos u) (endPos a)
  · obtain ⟨w, rfl, rfl⟩ := split_mono (b' := x ++ b) (by rw [h, List.append_assoc]) h1
    refine ⟨u ++ S.segs s ++ w ++ b, ?_, ?_, ?_⟩
    · rw [if_pos h1]
      exact .cut' (u ++ S.segs s ++ w) x b (by simp) (afterInsert_append _ _ _) (by rw [List.append_assoc u w x, afterInsert_append]; simp) rfl
    · rw [if_neg (fun hh => not_before h1 hh.1), afterDelete_le (endPos_le_append _ _) h1]
      exact .put' u (w ++ b) (by simp) rfl (by simp)
    · by_cases hw : w = []
      · subst hw
        have := mix_at_start (segs := S.segs) u x b s
        simpa using this.symm
      · exact (mix_before u w x b s hw).symm
  · have h1' : Before (endPos a) (endPos u) := by
      rcases before_or (p := endPos a) (q := endPos u) with hb | hb | hb
      · exact hb
      · exact absurd (by rw [hb]; exact .refl _) h1
      · exact absurd hb.le h1
    rw [if_neg h1]
    by_cases h2 : Before (endPos u) (endPos (a ++ x))
    · rw [if_pos h2, if_pos ⟨h1', h2⟩]
      obtain ⟨x1, _, rfl, k1⟩ := split_mono_lt (b := x ++ b) (b' := v) (by rw [h, List.append_assoc]) h1'
      obtain ⟨x2, _, k2, rfl⟩ := split_mono_lt (a := a ++ x1) (b := v) (a' := a ++ x) (b' := b) h h2
      rw [List.append_assoc] at k2
      obtain rfl := List.append_cancel_left k2
      refine ⟨a ++ b, ?_, ?_, ?_⟩
      · refine .cut' a (x1 ++ S.segs s ++ x2) b (by simp) rfl ?_ rfl
        rw [← List.append_assoc a x1 x2, afterInsert_append]; simp
      · exact .put' a b rfl rfl (by rw [S.segs_nil, List.append_nil])
      · rw [h, List.append_assoc, mix_inside a (x1 ++ x2) b _ s h1' h2]
    · rw [if_neg h2, if_neg (fun hh => h2 hh.2)]
      obtain ⟨w, rfl, rfl⟩ := split_mono (a := a ++ x) (b := b) (a' := u) (b' := v) h.symm (le_of_not_before h2)
      refine ⟨a ++ w ++ S.segs s ++ v, ?_, ?_, ?_⟩
      · exact .cut' a x (w ++ S.segs s ++ v) (by simp) rfl rfl (by simp)
      · exact .put' (a ++ w) v (by simp) (afterDelete_append _ _ _) rfl
      · have hne : x ++ w ≠ [] := by
          intro h0
          rw [List.append_assoc, h0, List.append_nil] at h1'
          exact Before.irrefl _ h1'
        have := mix_after (segs := S.segs) a x w v s hne
        rw [← this]; simp

/-- Two parts cut out, the first starting not after the second. -/
theorem meet_cut {segs : Text → List Text} (a x b a' x' b' : List Text) (f g : Bool) (h : a ++ x ++ b = a' ++ x' ++ b') (hle : AtOrBefore (endPos a) (endPos a')) :
    ∃ c, Does segs (a ++ b) ((Delta.cut (endPos a') (endPos (a' ++ x'))).against segs f (.cut (endPos a) (endPos (a ++ x)))) c ∧
      Does segs (a' ++ b') ((Delta.cut (endPos a) (endPos (a ++ x))).against segs g (.cut (endPos a') (endPos (a' ++ x')))) c ∧
      c = mix segs (.cut (endPos a) (endPos (a ++ x))) (.cut (endPos a') (endPos (a' ++ x'))) (a ++ x ++ b) := by
  simp only [Delta.against]
  obtain ⟨w, rfl, k1⟩ := split_mono (b := x ++ b) (b' := x' ++ b') (by rw [← List.append_assoc, h, List.append_assoc]) hle
  have hpq := endPos_le_append a x
  have hpq' := endPos_le_append (a ++ w) x'
  by_cases h1 : AtOrBefore (endPos (a ++ x)) (endPos (a ++ w))
  · obtain ⟨y, k2, k3⟩ := split_mono (a := a ++ x) (b := b) (a' := a ++ w) (b' := x' ++ b') (by rw [h, List.append_assoc (a ++ w)]) h1
    rw [List.append_assoc] at k2
    obtain rfl := List.append_cancel_left k2
    subst k3
    refine ⟨a ++ y ++ b', ?_, ?_, ?_⟩
    · refine .cut' (a ++ y) x' b' (by simp) ?_ ?_ rfl
      · rw [← List.append_assoc a x y, afterDelete_append]
      · have : a ++ (x ++ y) ++ x' = a ++ x ++ (y ++ x') := by simp
        rw [this, afterDelete_append]; simp
    · rw [afterDelete_le hpq' hle, afterDelete_le hpq' h1]
      exact .cut' a x (y ++ b') (by simp) rfl rfl (by simp)
    · have := mix_apart (segs := segs) a x y x' b'
      rw [← List.append_assoc a x y, List.append_assoc (a ++ x), ← this]
      simp
  · have h1' : Before (endPos (a ++ w)) (endPos (a ++ x)) := by
      rcases before_or (p := endPos (a ++ w)) (q := endPos (a ++ x)) with hb | hb | hb
      · exact hb
      · exact absurd (by rw [hb]; exact .refl _) h1
      · exact absurd hb.le h1
    obtain ⟨z, _, k2, k3⟩ := split_mono_lt (a := a ++ w) (b := x' ++ b') (a' := a ++ x) (b' := b) (by rw [h, List.append_assoc (a ++ w)]) h1'
    rw [List.append_assoc] at k2
    obtain rfl := List.append_cancel_left k2
    rw [afterDelete_inside hle h1', afterDelete_le hpq' hle]
    by_cases h2 : AtOrBefore (endPos (a ++ (w ++ z))) (endPos (a ++ w ++ x'))
    · obtain ⟨y, k4, k5⟩ := split_mono (a := a ++ (w ++ z)) (b := b) (a' := a ++ w ++ x') (b' := b') h h2
      rw [List.append_assoc, List.append_assoc, List.append_assoc] at k4
      obtain rfl := List.append_cancel_left (List.append_cancel_left k4)
      subst k5
      refine ⟨a ++ b', ?_, ?_, ?_⟩
      · refine .cut' a y b' (by simp) rfl ?_ rfl
        have : a ++ w ++ (z ++ y) = a ++ (w ++ z) ++ y := by simp
        rw [this, afterDelete_append]
      · refine .cut' a w b' rfl rfl ?_ rfl
        rcases before_or (p := endPos (a ++ (w ++ z))) (q := endPos (a ++ w ++ (z ++ y))) with hb | hb | hb
        · exact afterDelete_inside (by rw [← List.append_assoc]; exact endPos_le_append _ _) hb
        · rw [hb]
          have := afterDelete_append (a ++ w) (z ++ y) []
          rwa [List.append_nil, List.append_nil] at this
        · exact absurd hb (not_before h2)
      · have e : a ++ w ++ (z ++ y) = a ++ (w ++ z ++ y) := by simp
        have e2 : a ++ (w ++ z) ++ (y ++ b') = a ++ ((w ++ z ++ y) ++ b') := by simp
        rw [e2]
        refine (mix_overlap a (w ++ z ++ y) b' _ _ _ _ (.refl _) hle (e ▸ h2) (by rw [e]; exact .refl _) fun r hr hr' => ?_).symm
        by_cases hz : Before r (endPos (a ++ (w ++ z)))
        · exact .inl (removes_true hr hz)
        · exact .inr (removes_true (h1'.le.trans (le_of_not_before hz)) (by rw [e]; exact hr'))
    · have h2' : Before (endPos (a ++ w ++ x')) (endPos (a ++ (w ++ z))) := by
        rcases before_or (p := endPos (a ++ w ++ x')) (q := endPos (a ++ (w ++ z))) with hb | hb | hb
        · exact hb
        · exact absurd (by rw [hb]; exact .refl _) h2
        · exact absurd hb.le h2
      obtain ⟨y, _, k4, k5⟩ := split_mono_lt (a := a ++ w ++ x') (b := b') (a' := a ++ (w ++ z)) (b' := b) h.symm h2'
      rw [List.append_assoc, List.append_assoc] at k4
      obtain rfl := List.append_cancel_left (List.append_cancel_left k4)
      subst k5
      refine ⟨a ++ b, ?_, ?_, ?_⟩
      · refine .cut' a [] b (by simp) rfl ?_ rfl
        rw [afterDelete_inside (hle.trans hpq') h2', List.append_nil]
      · refine .cut' a (w ++ y) b (by simp) rfl ?_ rfl
        have : a ++ (w ++ (x' ++ y)) = a ++ w ++ x' ++ y := by simp
        rw [this, afterDelete_append]; simp
      · rw [List.append_assoc a (w ++ (x' ++ y)) b]
        exact (mix_overlap a (w ++ (x' ++ y)) b _ _ _ _ (.refl _) hle (.refl _) h2'.le fun r hr hr' => .inl (removes_true hr hr')).symm

/-- Two changes made for the same text. -/
theorem meet {cs c1 c2 : List Text} {e f : Delta} (h1 : Does S.segs cs e c1) (h2 : Does S.segs cs f c2) :
    ∃ c, Does S.segs c1 (f.against S.segs false e) c ∧ Does S.segs c2 (e.against S.segs true f) c ∧ c = mix S.segs e f cs := by
  generalize hcs : cs = cs' at h2
  cases h1 with
  | put a b s =>
    cases h2 with
    | put a' b' s' =>
      rcases before_or (p := endPos a) (q := endPos a') with hb | hb | hb
      · obtain ⟨w, hw, rfl, rfl⟩ := split_mono_lt hcs hb
        obtain ⟨c, k1, k2, k3, _⟩ := meet_put (segs := S.segs) a w b' s s' true (.inl hw)
        exact ⟨c, k1, k2, by rw [k3, ← hcs]⟩
      · obtain ⟨rfl, rfl⟩ := split_unique hcs hb
        obtain ⟨c, k1, k2, k3, _⟩ := meet_put (segs := S.segs) a [] b s s' true (.inr rfl)
        exact ⟨c, by simpa using k1, by simpa using k2, by simpa using k3⟩
      · obtain ⟨w, hw, rfl, rfl⟩ := split_mono_lt hcs.symm hb
        obtain ⟨c, k1, k2, _, k4⟩ := meet_put a' w b s' s false (.inl hw)
        exact ⟨c, k2, k1, k4 hw⟩
    | cut a' x b' =>
      obtain ⟨c, k1, k2, k3⟩ := meet_put_cut a b a' x b' s false true hcs
      exact ⟨c, k1, k2, by rw [k3, hcs]⟩
  | cut a x b =>
    cases h2 with
    | put a' b' s' =>
      obtain ⟨c, k1, k2, k3⟩ := meet_put_cut a' b' a x b s' true false hcs.symm
      exact ⟨c, k2, k1, by rw [k3, mix_cut_put]⟩
    | cut a' x' b' =>
      by_cases hle : AtOrBefore (endPos a) (endPos a')
      · obtain ⟨c, k1, k2, k3⟩ := meet_cut (segs := S.segs) a x b a' x' b' false true hcs hle
        exact ⟨c, k1, k2, by rw [k3, hcs]⟩
      · have hle' : AtOrBefore (endPos a') (endPos a) := by unfold AtOrBefore at *; omega
        obtain ⟨c, k1, k2, k3⟩ := meet_cut (segs := S.segs) a' x' b' a x b true false hcs.symm hle'
        exact ⟨c, k2, k1, by rw [k3, mix_cut_comm]⟩

/-- Several changes. -/
inductive DoesAll (segs : Text → List Text) : List Text → List Delta → List Text → Prop
  | nil (cs : List Text) : DoesAll segs cs [] cs
  | cons {cs c1 c2 : List Text} {e : Delta} {es : List Delta} (h : Does segs cs e c1) (hs : DoesAll segs c1 es c2) : DoesAll segs cs (e :: es) c2

theorem DoesAll.append {segs : Text → List Text} {cs c1 c2 : List Text} {es fs : List Delta} (h1 : DoesAll segs cs es c1) (h2 : DoesAll segs c1 fs c2) :
    DoesAll segs cs (es ++ fs) c2 := by
  induction h1 with
  | nil => exact h2
  | cons h _ ih => exact .cons h (ih h2)

theorem meet_past (fs : List Delta) {cs c1 c2 : List Text} {e : Delta} (h1 : Does S.segs cs e c1) (h2 : DoesAll S.segs cs fs c2) :
    ∃ c, DoesAll S.segs c1 (e.past S.segs fs).2 c ∧ Does S.segs c2 (e.past S.segs fs).1 c := by
  induction fs generalizing cs c1 e with
  | nil => cases h2; exact ⟨c1, .nil _, h1⟩
  | cons f fs ih =>
    cases h2 with
    | cons h hs =>
      obtain ⟨c, k1, k2, _⟩ := meet h1 h
      obtain ⟨c', k3, k4⟩ := ih k2 hs
      exact ⟨c', .cons k1 k3, k4⟩

theorem meet_pastAll (es fs : List Delta) {cs c1 c2 : List Text} (h1 : DoesAll S.segs cs es c1) (h2 : DoesAll S.segs cs fs c2) :
    ∃ c, DoesAll S.segs c1 (Delta.pastAll S.segs es fs).2 c ∧ DoesAll S.segs c2 (Delta.pastAll S.segs es fs).1 c := by
  induction es generalizing cs c2 fs with
  | nil => cases h1; exact ⟨c2, h2, .nil _⟩
  | cons e es ih =>
    cases h1 with
    | cons h hs =>
      obtain ⟨c, k1, k2⟩ := meet_past fs h h2
      obtain ⟨c', k3, k4⟩ := ih _ hs k1
      exact ⟨c', k3, .cons k2 k4⟩

/-- The strings put in are over `P`. -/
def PutsOver (S : Segmenter) (P : Text → Prop) : Delta → Prop
  | .put _ s => Over S.segs P s
  | .cut _ _ => True

theorem putsOver_against {e f : Delta} {x : Bool} (he : PutsOver S P e) : PutsOver S P (e.against S.segs x f) := by
  have hnil : Over S.segs P [] := by intro c hc; rw [S.segs_nil] at hc; cases hc
  cases e <;> cases f <;> simp only [Delta.against] <;> (try split) <;> (try split) <;> first | exact he | exact hnil | trivial

theorem putsOver_past (fs : List Delta) {e : Delta} (he : PutsOver S P e) (hf : ∀ f ∈ fs, PutsOver S P f) :
    PutsOver S P (e.past S.segs fs).1 ∧ ∀ f ∈ (e.past S.segs fs).2, PutsOver S P f := by
  induction fs generalizing e with
  | nil => exact ⟨he, fun f hf => (nomatch hf)⟩
  | cons f fs ih =>
    obtain ⟨k1, k2⟩ := ih (putsOver_against (x := true) (f := f) he) fun g hg => hf g (List.mem_cons_of_mem _ hg)
    refine ⟨k1, fun g hg => ?_⟩
    rcases List.mem_cons.mp hg with rfl | hg
    · exact putsOver_against (hf f List.mem_cons_self)
    · exact k2 g hg

theorem putsOver_pastAll (es fs : List Delta) (he : ∀ e ∈ es, PutsOver S P e) (hf : ∀ f ∈ fs, PutsOver S P f) :
    (∀ e ∈ (Delta.pastAll S.segs es fs).1, PutsOver S P e) ∧ ∀ f ∈ (Delta.pastAll S.segs es fs).2, PutsOver S P f := by
  induction es generalizing fs with
  | nil => exact ⟨fun e he => (nomatch he), hf⟩
  | cons e es ih =>
    obtain ⟨k1, k2⟩ := putsOver_past fs (he e List.mem_cons_self) hf
    obtain ⟨k3, k4⟩ := ih _ (fun g hg => he g (List.mem_cons_of_mem _ hg)) k2
    refine ⟨fun g hg => ?_, k4⟩
    rcases List.mem_cons.mp hg with rfl | hg
    · exact k1
    · exact k3 g hg

theorem fits_does (hP : Closed S.segs P) {t : Text} {e : Delta} (ht : Over S.segs P t) (he : e.Fits S.segs P t) :
    Does S.segs (S.segs t) e (S.segs (e.on S.segs t)) ∧ PutsOver S P e ∧ Over S.segs P (e.on S.segs t) := by
  cases e with
  | put p s =>
    obtain ⟨a, b, k1, rfl, k3⟩ := insert_clusters (over_cleanInsert hP p ht he.2) he.1
    refine ⟨?_, he.2, ?_⟩
    · show Does S.segs (S.segs t) _ (S.segs (insertAt S.segs t s (endPos a)))
      rw [k3, k1]; exact .put a b s
    · intro c hc
      change c ∈ S.segs (insertAt S.segs t s (endPos a)) at hc
      rw [k3] at hc
      obtain ⟨ha, hb⟩ := over_parts ht k1
      rcases List.mem_append.mp hc with hc | hc
      · exact (List.mem_append.mp hc).elim (ha c) (he.2 c)
      · exact hb c hc
  | cut p q =>
    obtain ⟨a, x, b, k1, rfl, rfl, k4⟩ := delete_clusters he.1 ⟨over_cleanDelete hP p q ht, .inl he.2.2⟩ he.2.1 he.2.2
    refine ⟨?_, trivial, ?_⟩
    · show Does S.segs (S.segs t) _ (S.segs (Spec.deleteRange S.segs t _ _))
      rw [k4, k1]; exact .cut a x b
    · intro c hc
      change c ∈ S.segs (Spec.deleteRange S.segs t _ _) at hc
      rw [k4] at hc
      apply ht c
      rw [k1]
      simp only [List.mem_append] at hc ⊢
      tauto

theorem fitsAll_does (hP : Closed S.segs P) (es : List Delta) {t : Text} (ht : Over S.segs P t) (he : Delta.FitsAll S.segs P t es) :
    ∃ c, DoesAll S.segs (S.segs t) es c ∧ ∀ e ∈ es, PutsOver S P e := by
  induction es generalizing t with
  | nil => exact ⟨_, .nil _, fun e he => (nomatch he)⟩
  | cons e es ih =>
    obtain ⟨k1, k2, k3⟩ := fits_does hP ht he.1
    obtain ⟨c, k4, k5⟩ := ih k3 he.2
    refine ⟨c, .cons k1 k4, fun g hg => ?_⟩
    rcases List.mem_cons.mp hg with rfl | hg
    · exact k2
    · exact k5 g hg

/-- A change made by calls. -/
theorem does_calls (hP : Closed S.segs P) {d : Doc} {e : Delta} {cs : List Text} (ht : Over S.segs P d.text) (hp : PutsOver S P e)
    (h : Does S.segs (S.segs d.text) e cs) :
    CleanCmds S.segs d e.calls ∧ S.segs (d.steps S.segs e.calls).text = cs ∧ Over S.segs P (d.steps S.segs e.calls).text := by
  generalize hcs : S.segs d.text = cs0 at h
  cases h with
  | put a b s =>
    change Over S.segs P s at hp
    have hex : exists? S.segs d.text (endPos a) = true := exists_cut hcs
    have cur : (d.step S.segs (.move (.to (endPos a)))).cursor.position = endPos a := by
      show (tryMove S.segs d.text d.cursor _).position = _
      rw [tryMove, if_pos hex]
    have t2 : (d.step S.segs (.move (.to (endPos a)))).text = d.text := rfl
    show CleanCmds S.segs d [.move (.to (endPos a)), .insert s] ∧ S.segs ((d.step S.segs (.move (.to (endPos a)))).step S.segs (.insert s)).text = _ ∧
      Over S.segs P ((d.step S.segs (.move (.to (endPos a)))).step S.segs (.insert s)).text
    generalize hd2 : d.step S.segs (.move (.to (endPos a))) = d2 at cur t2
    have e3 : (d2.step S.segs (.insert s)).text = (Delta.put (endPos a) s).on S.segs d.text := by
      rw [show (d2.step S.segs (.insert s)).text = insertAt S.segs d2.text s d2.cursor.position from (step_edit S.segs d2 _ rfl).1, t2, cur]; rfl
    obtain ⟨k1, _, k3⟩ := fits_does hP (e := .put (endPos a) s) ht ⟨hex, hp⟩
    refine ⟨⟨trivial, ?_, trivial⟩, ?_, ?_⟩
    · rw [hd2]
      exact ⟨over_cleanInsert hP _ (by rw [t2]; exact ht) hp, fun h => hP.noCrlf (hp _ h)⟩
    · obtain ⟨a', b', m1, m2, m3⟩ := insert_clusters (over_cleanInsert hP (endPos a) ht hp) hex
      rw [e3]
      show S.segs (insertAt S.segs d.text s (endPos a)) = _
      obtain ⟨rfl, rfl⟩ := split_unique (m1.symm.trans hcs) m2
      exact m3
    · rw [e3]; exact k3
  | cut a x b =>
    have hle := endPos_le_append a x
    have hex : exists? S.segs d.text (endPos a) = true := exists_cut (by rw [hcs, List.append_assoc])
    have hex' : exists? S.segs d.text (endPos (a ++ x)) = true := exists_cut hcs
    show CleanCmds S.segs d [.deleteRange (endPos a) (endPos (a ++ x))] ∧ S.segs (d.step S.segs (.deleteRange (endPos a) (endPos (a ++ x)))).text = _ ∧
      Over S.segs P (d.step S.segs (.deleteRange (endPos a) (endPos (a ++ x)))).text
    have hcr : CleanRange S.segs d.text (endPos a) (endPos (a ++ x)) := ⟨over_cleanDelete hP _ _ ht, .inl hex'⟩
    rw [show (d.step S.segs (.deleteRange (endPos a) (endPos (a ++ x)))).text = Spec.deleteRange S.segs d.text (lo (endPos a) (endPos (a ++ x))) (hi (endPos a) (endPos (a ++ x)))
      from (step_edit S.segs d _ rfl).1, lo_of_le hle, hi_of_le hle]
    obtain ⟨_, _, k3⟩ := fits_does hP (e := .cut (endPos a) (endPos (a ++ x))) ht ⟨hle, hex, hex'⟩
    refine ⟨⟨?_, trivial⟩, ?_, k3⟩
    · show CleanRange S.segs d.text (lo _ _) (hi _ _)
      rw [lo_of_le hle, hi_of_le hle]; exact hcr
    · obtain ⟨a', x', b', m1, m2, m3, m4⟩ := delete_clusters hle hcr hex hex'
      rw [m4]
      obtain ⟨e1, rfl⟩ := split_unique (m1.symm.trans hcs) m3
      have : a' = a := (split_unique (by rw [← List.append_assoc]; exact m1.symm.trans (hcs.trans (List.append_assoc _ _ _))) m2).1
      rw [this]

theorem doesAll_calls (hP : Closed S.segs P) (es : List Delta) {d : Doc} {cs : List Text} (ht : Over S.segs P d.text) (hp : ∀ e ∈ es, PutsOver S P e)
    (h : DoesAll S.segs (S.segs d.text) es cs) :
    CleanCmds S.segs d (es.flatMap Delta.calls) ∧ S.segs (d.steps S.segs (es.flatMap Delta.calls)).text = cs ∧
      Over S.segs P (d.steps S.segs (es.flatMap Delta.calls)).text := by
  induction es generalizing d with
  | nil => cases h; exact ⟨trivial, rfl, ht⟩
  | cons e es ih =>
    generalize hcs : S.segs d.text = cs0 at h
    cases h with
    | cons h1 h2 =>
      subst hcs
      obtain ⟨k1, k2, k3⟩ := does_calls hP ht (hp e List.mem_cons_self) h1
      obtain ⟨k4, k5, k6⟩ := ih k3 (fun g hg => hp g (List.mem_cons_of_mem _ hg)) (by rw [k2]; exact h2)
      rw [List.flatMap_cons, steps_app]
      exact ⟨cleanCmds_app.mpr ⟨k1, k4⟩, k5, k6⟩

end Scribe
