import Verif.Spec.States
import Verif.Model.GapBuffer
import Verif.Proofs.Utf8
import Verif.Proofs.Text
/-! Byte-level lemmas about the gap buffer (level 1: no assumption on where the gap is). -/
namespace Scribe
open Spec

theorem Except.ok_bind' {ε α β} (x : α) (f : α → Except ε β) : ((Except.ok x : Except ε α) >>= f) = f x := rfl

namespace GapBuffer
variable {S : Segmenter} {A : Alloc}

theorem slice_mid {α} (x y z : List α) : slice (x ++ y ++ z) x.length (x.length + y.length) = .ok y := by
  unfold slice
  rw [if_pos (by simp)]
  congr 1
  rw [List.append_assoc, ← List.append_assoc, ← List.length_append, List.take_left' rfl, List.drop_left' rfl]

theorem slice_mid' {α} {d x y z : List α} {i j} (hd : d = x ++ y ++ z) (hi : i = x.length) (hj : j = x.length + y.length) :
    slice d i j = .ok y := by subst hd hi hj; exact slice_mid x y z

theorem getAt_mid {α} (x z : List α) (a : α) : getAt (x ++ a :: z) x.length = .ok a := by
  unfold getAt; simp

theorem setAt_mid {α} (x z : List α) (a b : α) : setAt (x ++ a :: z) x.length b = .ok (x ++ b :: z) := by
  unfold setAt; rw [if_pos (by simp)]; simp

theorem scan_found (p q : Position) (a b : List Text) (hb : b ≠ []) (off : Nat) (h : a.foldl step q = p) :
    scan p (a ++ b) off q = .inl (off + blen a.flatten) := by
  induction a generalizing q off with
  | nil =>
    cases b with
    | nil => exact absurd rfl hb
    | cons c b => simp at h; subst h; simp [scan]
  | cons c a ih =>
    have hne : ¬ (q.line = p.line ∧ q.offset = p.offset) := by
      intro hq
      have := before_foldl_step (b := c :: a) (by simp) q
      rw [h] at this; unfold Before at this; omega
    rw [List.cons_append, scan, if_neg hne]
    rw [List.foldl_cons] at h
    unfold step at h
    split
    next hc => rw [if_pos hc] at h; rw [ih _ _ h]; simp [Nat.add_assoc]
    next hc => rw [if_neg hc] at h; rw [ih _ _ h]; simp [Nat.add_assoc]

theorem scan_missing (p q : Position) (cs : List Text) (off : Nat)
    (h : ∀ a b, cs = a ++ b → b ≠ [] → a.foldl step q ≠ p) : scan p cs off q = .inr (cs.foldl step q) := by
  induction cs generalizing q off with
  | nil => rfl
  | cons c cs ih =>
    have hne : ¬ (q.line = p.line ∧ q.offset = p.offset) := by
      rintro ⟨h1, h2⟩
      refine h [] (c :: cs) rfl (by simp) ?_
      cases q; cases p; simp_all
    rw [scan, if_neg hne, List.foldl_cons]
    have := fun off => ih (step q c) off (fun a b hab hb => by
      have := h (c :: a) b (by rw [hab]; rfl) hb
      simpa using this)
    unfold step at this ⊢
    split
    next hc => simp only [if_pos hc] at this; exact this _
    next hc => simp only [if_neg hc] at this; exact this _

theorem pos_eq_iff {p q : Position} : (q.line = p.line ∧ q.offset = p.offset) ↔ q = p := by
  cases p; cases q; simp

theorem _root_.Scribe.Rep.first {g pre post} (h : Rep g pre post) : slice g.data 0 g.gapStart = .ok (enc pre) := by
  obtain ⟨gap, h1, h2, h3⟩ := h
  exact slice_mid' (x := []) (z := gap ++ enc post) (by simp [h1]) rfl (by simp [h2])

theorem _root_.Scribe.Rep.second {g pre post} (h : Rep g pre post) :
    slice g.data (g.gapStart + g.gapLength) g.data.length = .ok (enc post) := by
  obtain ⟨gap, h1, h2, h3⟩ := h
  exact slice_mid' (x := enc pre ++ gap) (z := []) (by simp [h1]) (by simp [h2, h3]) (by simp [h1]; omega)

theorem _root_.Scribe.Rep.length {g pre post} (h : Rep g pre post) :
    g.data.length = g.gapStart + g.gapLength + blen post := by
  obtain ⟨gap, h1, h2, h3⟩ := h
  rw [h1, h2, h3]; simp [blen]; omega

theorem _root_.Scribe.Rep.start {g pre post} (h : Rep g pre post) : g.gapStart = blen pre := by
  obtain ⟨gap, h1, h2, h3⟩ := h; exact h2

theorem _root_.Scribe.Rep.toStr {g pre post} (h : Rep g pre post) : GapBuffer.toStr g = .ok (pre ++ post) := by
  unfold GapBuffer.toStr
  rw [h.first, h.second]
  simp only [Except.ok_bind', lossy_enc]; rfl

theorem new_rep (k : Nat) (t : Text) : Rep (GapBuffer.new A k t) t [] :=
  ⟨A.get k (enc t).length 0, by simp [GapBuffer.new], rfl, rfl⟩

/-- The offset `find_offset` returns for the boundary after the clusters `a`. -/
def rawOff (S : Segmenter) (g : GapBuffer) (pre : Text) (a : List Text) : Nat :=
  if a.length < (S.segs pre).length then blen a.flatten else g.gapLength + blen a.flatten

theorem findOffset_some {g pre post p a b} (h : Rep g pre post) (hab : S.segs pre ++ S.segs post = a ++ b)
    (hp : endPos a = p) : findOffset S g p = .ok (some (rawOff S g pre a)) := by
  unfold findOffset
  rw [h.first, h.second]
  simp only [Except.ok_bind', lossy_enc]
  by_cases hlt : a.length < (S.segs pre).length
  · have : ∃ c, c ≠ [] ∧ S.segs pre = a ++ c := by
      rcases List.append_eq_append_iff.mp hab with ⟨c, h1, h2⟩ | ⟨c, h1, h2⟩
      · rw [h1] at hlt; simp at hlt; omega
      · refine ⟨c, ?_, h1⟩; rintro rfl; rw [h1] at hlt; simp at hlt
    obtain ⟨c, hc, hpre⟩ := this
    rw [hpre, scan_found p ⟨0, 0⟩ a c hc 0 (by rw [← endPos_eq_foldl]; exact hp)]
    simp only [Nat.zero_add]
    rw [rawOff, if_pos hlt]; rfl
  · obtain ⟨c, ha, hpost⟩ : ∃ c, a = S.segs pre ++ c ∧ S.segs post = c ++ b := by
      rcases List.append_eq_append_iff.mp hab with ⟨c, h1, h2⟩ | ⟨c, h1, h2⟩
      · exact ⟨c, h1, h2⟩
      · have : c = [] := by
          rw [h1, List.length_append] at hlt; exact List.length_eq_zero_iff.mp (by omega)
        subst this; exact ⟨[], by simpa using h1.symm, by simpa using h2.symm⟩
    have hroff : rawOff S g pre a = g.gapStart + g.gapLength + blen c.flatten := by
      rw [rawOff, if_neg hlt, ha, List.flatten_append, S.join, blen_append, h.start]; omega
    have hmiss : scan p (S.segs pre) 0 ⟨0, 0⟩ = .inr (endPos (S.segs pre)) := by
      rw [endPos_eq_foldl]
      apply scan_missing
      intro x y hxy hy hx
      rw [← endPos_eq_foldl] at hx
      have h1 := endPos_lt_append x hy
      rw [← hxy, hx, ← hp, ha] at h1
      have h2 := h1.trans_le (endPos_le_append (S.segs pre) c)
      exact Before.irrefl _ (ha ▸ h2)
    rw [hmiss]
    simp only [pos_eq_iff]
    by_cases hc : c = []
    · subst hc
      rw [List.append_nil] at ha
      rw [if_pos (by rw [← ha, hp]), hroff]; simp; rfl
    · have hne : endPos (S.segs pre) ≠ p := by
        intro he
        have := endPos_lt_append (S.segs pre) hc
        rw [← ha, he, hp] at this; exact Before.irrefl _ this
      rw [if_neg hne]
      have hfold : c.foldl step (endPos (S.segs pre)) = p := by rw [← endPos_append, ← ha, hp]
      by_cases hb : b = []
      · subst hb
        rw [List.append_nil] at hpost
        have : scan p (S.segs post) 0 (endPos (S.segs pre)) = .inr p := by
          rw [← hfold, ← hpost]
          apply scan_missing
          intro x y hxy hy hx
          rw [hpost] at hxy hx
          have h1 := before_foldl_step hy (x.foldl step (endPos (S.segs pre)))
          rw [← List.foldl_append, ← hxy, hx] at h1
          exact Before.irrefl _ h1
        rw [this]
        simp only [if_true]
        rw [hroff, h.length, ← hpost, S.join]; rfl
      · rw [hpost, scan_found p _ c b hb 0 hfold]
        simp only [Nat.zero_add]; rw [hroff]; rfl

theorem findOffset_none {g pre post p} (h : Rep g pre post)
    (hn : locate (S.segs pre ++ S.segs post) p = none) : findOffset S g p = .ok none := by
  rw [locate_eq_none] at hn
  unfold findOffset
  rw [h.first, h.second]
  simp only [Except.ok_bind', lossy_enc]
  have hmiss : scan p (S.segs pre) 0 ⟨0, 0⟩ = .inr (endPos (S.segs pre)) := by
    rw [endPos_eq_foldl]
    apply scan_missing
    intro x y hxy hy hx
    rw [← endPos_eq_foldl] at hx
    exact hn x (y ++ S.segs post) (by rw [hxy]; simp) hx
  have hmiss2 : scan p (S.segs post) 0 (endPos (S.segs pre)) = .inr (endPos (S.segs pre ++ S.segs post)) := by
    rw [endPos_append]
    apply scan_missing
    intro x y hxy hy hx
    rw [← endPos_append] at hx
    exact hn (S.segs pre ++ x) y (by rw [hxy]; simp) hx
  rw [hmiss]
  simp only [pos_eq_iff]
  rw [if_neg (hn _ _ rfl), hmiss2]
  simp only
  rw [if_neg (hn _ [] (by simp))]; rfl

theorem findOffset_eq {g pre post} (h : Rep g pre post) (p : Position) : findOffset S g p =
    .ok ((locate (S.segs pre ++ S.segs post) p).map fun x => rawOff S g pre x.1) := by
  cases hl : locate (S.segs pre ++ S.segs post) p with
  | none => rw [findOffset_none h hl]; rfl
  | some x =>
    obtain ⟨h1, h2⟩ := locate_eq_some.mp (show locate _ p = some (x.1, x.2) from hl)
    rw [findOffset_some h h1 h2]; rfl

theorem shiftLeft_eq (X M gap Y : Bytes) (hg : gap ≠ []) : ∃ gap' : Bytes, gap'.length = gap.length ∧
    shiftLeft X.length gap.length M.length (X ++ M ++ gap ++ Y) = .ok (X ++ gap' ++ M ++ Y) := by
  induction M using List.reverseRecOn generalizing gap Y with
  | nil => exact ⟨gap, rfl, by simp [shiftLeft]⟩
  | append_singleton M x ih =>
    obtain ⟨gi, gl, rfl⟩ : ∃ gi gl, gap = gi ++ [gl] := ⟨_, _, (List.dropLast_concat_getLast hg).symm⟩
    rw [List.length_append (as := M), List.length_singleton, shiftLeft]
    have e1 : X ++ (M ++ [x]) ++ (gi ++ [gl]) ++ Y = (X ++ M) ++ x :: (gi ++ gl :: Y) := by simp
    have e2 : (X ++ M) ++ x :: (gi ++ gl :: Y) = ((X ++ M) ++ x :: gi) ++ gl :: Y := by simp
    rw [e1, ← List.length_append, getAt_mid, Except.ok_bind', e2]
    have l1 : (X ++ M).length + (gi ++ [gl]).length = ((X ++ M) ++ x :: gi).length := by simp; omega
    rw [l1, setAt_mid, Except.ok_bind']
    have e3 : ((X ++ M) ++ x :: gi) ++ x :: Y = (X ++ M) ++ x :: (gi ++ x :: Y) := by simp
    rw [e3, setAt_mid, Except.ok_bind']
    obtain ⟨gap', h1, h2⟩ := ih (0 :: gi) (x :: Y) (by simp)
    refine ⟨gap', by rw [h1]; simp, ?_⟩
    have l2 : (0 :: gi).length = (gi ++ [gl]).length := by simp
    rw [l2] at h2
    have e4 : X ++ M ++ (0 : UInt8) :: (gi ++ x :: Y) = X ++ M ++ (0 :: gi) ++ x :: Y := by simp
    rw [e4, h2]; simp

theorem shiftRight_eq (X M gap Y : Bytes) (hg : gap ≠ []) : ∃ gap' : Bytes, gap'.length = gap.length ∧
    shiftRight gap.length M.length (X.length + gap.length) (X ++ gap ++ M ++ Y) = .ok (X ++ M ++ gap' ++ Y) := by
  induction M generalizing X gap with
  | nil => exact ⟨gap, rfl, by simp [shiftRight]⟩
  | cons x M ih =>
    obtain ⟨g0, gr, rfl⟩ : ∃ g0 gr, gap = g0 :: gr := List.exists_cons_of_ne_nil hg
    rw [List.length_cons (a := x), shiftRight]
    have e1 : X ++ g0 :: gr ++ x :: M ++ Y = (X ++ g0 :: gr) ++ x :: (M ++ Y) := by simp
    rw [e1, ← List.length_append, getAt_mid, Except.ok_bind']
    have hs : subU (X ++ g0 :: gr).length (g0 :: gr).length = .ok X.length := by
      unfold subU; rw [if_pos (by simp)]; congr 1; simp
    rw [hs, Except.ok_bind']
    have e2 : (X ++ g0 :: gr) ++ x :: (M ++ Y) = X ++ g0 :: (gr ++ x :: (M ++ Y)) := by simp
    rw [e2, setAt_mid, Except.ok_bind']
    have e3 : X ++ x :: (gr ++ x :: (M ++ Y)) = (X ++ x :: gr) ++ x :: (M ++ Y) := by simp
    have l1 : (X ++ g0 :: gr).length = (X ++ x :: gr).length := by simp
    rw [e3, l1, setAt_mid, Except.ok_bind']
    obtain ⟨gap', h1, h2⟩ := ih (X ++ [x]) (gr ++ [0]) (by simp)
    refine ⟨gap', by rw [h1]; simp, ?_⟩
    have l2 : (gr ++ [(0 : UInt8)]).length = (g0 :: gr).length := by simp
    have l3 : (X ++ [x]).length + (g0 :: gr).length = (X ++ x :: gr).length + 1 := by simp; omega
    rw [l2, l3] at h2
    have e4 : (X ++ x :: gr) ++ (0 : UInt8) :: (M ++ Y) = X ++ [x] ++ (gr ++ [0]) ++ M ++ Y := by simp
    rw [e4, h2]; simp

/-- Result of a `move_gap` that changes neither the gap's size nor the data's. -/
structure Moved (g g' : GapBuffer) (pre post : Text) : Prop where
  rep : Rep g' pre post
  gap : g'.gapLength = g.gapLength
  clock : g'.clock = g.clock
  len : g'.data.length = g.data.length

theorem moveGap_left {g x y post} (h : Rep g (x ++ y) post) :
    ∃ g', moveGap g (blen x) = .ok g' ∧ Moved g g' x (y ++ post) := by
  obtain ⟨gap, h1, h2, h3⟩ := h
  unfold moveGap
  by_cases hz : g.gapLength = 0
  · rw [if_pos hz]
    have : gap = [] := List.length_eq_zero_iff.mp (by omega)
    subst this
    exact ⟨_, rfl, ⟨[], by simp [h1], rfl, hz⟩, rfl, rfl, rfl⟩
  rw [if_neg hz]
  have hgap : gap ≠ [] := by rintro rfl; exact hz (by simpa using h3)
  have hgs : g.gapStart = blen x + blen y := by rw [h2]; simp [blen]
  by_cases hlt : blen x < g.gapStart
  · rw [if_pos hlt]
    obtain ⟨gap', hl, hsh⟩ := shiftLeft_eq (enc x) (enc y) gap (enc post) hgap
    have e : g.gapStart - blen x = (enc y).length := by rw [hgs]; simp [blen]
    rw [e, h3, h1, enc_append]
    have : blen x = (enc x).length := rfl
    rw [this, hsh]
    refine ⟨_, rfl, ⟨gap', by simp, rfl, by rw [hl]⟩, h3.symm, rfl, ?_⟩
    simp [h1, hl]; omega
  · rw [if_neg hlt]
    have hy : blen y = 0 := by omega
    have : y = [] := blen_eq_zero.mp hy
    subst this
    rw [if_neg (by omega)]
    exact ⟨g, rfl, ⟨gap, by simpa using h1, by simpa using h2, h3⟩, rfl, rfl, rfl⟩

theorem moveGap_right {g pre x y} (h : Rep g pre (x ++ y)) :
    ∃ g', moveGap g (g.gapStart + g.gapLength + blen x) = .ok g' ∧ Moved g g' (pre ++ x) y := by
  obtain ⟨gap, h1, h2, h3⟩ := h
  unfold moveGap
  by_cases hz : g.gapLength = 0
  · rw [if_pos hz]
    have : gap = [] := List.length_eq_zero_iff.mp (by omega)
    subst this
    exact ⟨_, rfl, ⟨[], by simp [h1], by simp [blen, h2, hz], hz⟩, rfl, rfl, rfl⟩
  rw [if_neg hz, if_neg (by omega), if_pos (by omega)]
  have hgap : gap ≠ [] := by rintro rfl; exact hz (by simpa using h3)
  obtain ⟨gap', hl, hsh⟩ := shiftRight_eq (enc pre) (enc x) gap (enc y) hgap
  have e : g.gapStart + g.gapLength + blen x - (g.gapStart + g.gapLength) = (enc x).length := by simp [blen]
  have hs : subU (g.gapStart + g.gapLength + blen x) g.gapLength = .ok (enc (pre ++ x)).length := by
    unfold subU; rw [if_pos (by omega)]; congr 1; simp [blen, h2]; omega
  rw [e, hs, h2, h3, h1, enc_append, ← List.append_assoc, hsh]
  refine ⟨_, rfl, ⟨gap', by simp, rfl, by rw [hl]⟩, h3.symm, rfl, ?_⟩
  simp [h1, hl]; omega

/-- Moving the gap to where `find_offset` says the clusters `a` end. -/
theorem moveGap_to {g pre post a b} (h : Rep g pre post) (hab : S.segs pre ++ S.segs post = a ++ b) :
    ∃ g', moveGap g (rawOff S g pre a) = .ok g' ∧ Moved g g' a.flatten b.flatten := by
  rcases List.append_eq_append_iff.mp hab with ⟨c, h1, h2⟩ | ⟨c, h1, h2⟩
  · have e : rawOff S g pre a = g.gapStart + g.gapLength + blen c.flatten := by
      rw [rawOff, if_neg (by rw [h1]; simp), h1, List.flatten_append, S.join, blen_append, h.start]; omega
    have hpost : post = c.flatten ++ b.flatten := by rw [← List.flatten_append, ← h2, S.join]
    subst hpost
    obtain ⟨g', hg, hm⟩ := moveGap_right h
    refine ⟨g', by rw [e]; exact hg, ?_⟩
    rwa [h1, List.flatten_append, S.join]
  · have hpre : pre = a.flatten ++ c.flatten := by rw [← List.flatten_append, ← h1, S.join]
    have hb : b.flatten = c.flatten ++ post := by rw [h2, List.flatten_append, S.join]
    by_cases hc : c = []
    · subst hc
      have e : rawOff S g pre a = g.gapStart + g.gapLength + blen [] := by
        rw [rawOff, if_neg (by rw [h1]; simp), h.start, hpre]; simp; omega
      have ha : a.flatten = pre := by simp [hpre]
      obtain ⟨g', hg, hm⟩ := moveGap_right (x := []) (y := post) (by simpa using h)
      refine ⟨g', by rw [e]; exact hg, ?_⟩
      rw [ha, hb]; simpa using hm
    · have e : rawOff S g pre a = blen a.flatten := by
        rw [rawOff, if_pos (by rw [h1]; simp; exact List.length_pos_iff.mpr hc)]
      rw [e, hb]
      exact moveGap_left (by rw [← hpre]; exact h)

theorem writeToGap_eq (bs : Bytes) {g : GapBuffer} {X gap Y : Bytes} (h1 : g.data = X ++ gap ++ Y)
    (h2 : g.gapStart = X.length) (h3 : g.gapLength = gap.length) (hle : bs.length ≤ gap.length) :
    ∃ g', writeToGap bs g = .ok g' ∧ g'.data = X ++ bs ++ gap.drop bs.length ++ Y ∧
      g'.gapStart = (X ++ bs).length ∧ g'.gapLength = gap.length - bs.length ∧ g'.clock = g.clock := by
  induction bs generalizing g X gap with
  | nil => exact ⟨g, rfl, by simp [h1], by simp [h2], by simp [h3], rfl⟩
  | cons b bs ih =>
    rcases gap with _ | ⟨g0, gap⟩
    · simp at hle
    rw [writeToGap, h1, h2]
    have e : X ++ g0 :: gap ++ Y = X ++ g0 :: (gap ++ Y) := by simp
    rw [e, setAt_mid, Except.ok_bind']
    have hs : subU g.gapLength 1 = .ok gap.length := by
      unfold subU; rw [h3, if_pos (by simp)]; congr 1
    rw [hs, Except.ok_bind']
    obtain ⟨g', k1, k2, k3, k4, k5⟩ := ih (g := { g with data := X ++ b :: (gap ++ Y), gapStart := X.length + 1, gapLength := gap.length })
      (X := X ++ [b]) (gap := gap) (by simp) (by simp) rfl (by simpa using hle)
    exact ⟨g', k1, by rw [k2]; simp, by rw [k3]; simp, by rw [k4]; simp, k5⟩

theorem writeToGap_rep {g pre post} (h : Rep g pre post) (s : Text) (hle : blen s ≤ g.gapLength) :
    ∃ g', writeToGap (enc s) g = .ok g' ∧ Rep g' (pre ++ s) post ∧ g'.clock = g.clock := by
  obtain ⟨gap, h1, h2, h3⟩ := h
  obtain ⟨g', k1, k2, k3, k4, k5⟩ := writeToGap_eq (enc s) h1 h2 h3 (by rw [← h3]; exact hle)
  exact ⟨g', k1, ⟨gap.drop (enc s).length, by rw [k2, enc_append], by rw [k3, enc_append], by rw [k4, List.length_drop]⟩, k5⟩

/-- `grow` leaves the buffer alone or moves the gap to the end. -/
theorem grow_rep {g pre post} (h : Rep g pre post) (n : Nat) :
    ∃ g', grow A g n = .ok g' ∧ n ≤ g'.gapLength ∧
      ((n ≤ g.gapLength ∧ g' = g) ∨ (g.gapLength < n ∧ Rep g' (pre ++ post) [])) := by
  unfold grow
  by_cases hn : n > g.gapLength
  · rw [if_pos hn]
    have h' : Rep g pre (post ++ []) := by simpa using h
    obtain ⟨g1, hm, hr⟩ := moveGap_right h'
    have e : g.data.length = g.gapStart + g.gapLength + blen post := h.length
    rw [e, hm]
    simp only [Except.ok_bind']
    obtain ⟨gap, k1, k2, k3⟩ := hr.rep
    have hs : subU (g1.data ++ A.get g1.clock g1.data.length n).length g1.gapStart = .ok (gap ++ A.get g1.clock g1.data.length n).length := by
      unfold subU
      rw [if_pos (by rw [k1, k2]; simp)]
      congr 1
      rw [k1, k2]; simp; omega
    rw [hs]
    refine ⟨_, rfl, ?_, Or.inr ⟨hn, gap ++ A.get g1.clock g1.data.length n, ?_, k2, rfl⟩⟩
    · have := A.enough g1.clock g1.data.length n
      simp; omega
    · simp [k1]
  · rw [if_neg hn]
    exact ⟨g, rfl, by omega, Or.inl ⟨by omega, rfl⟩⟩

theorem insert_rep {g pre post} (h : Rep g pre post) (s : Text) (p : Position) :
    ∃ g' pre' post', insert S A g s p = .ok g' ∧
      ((blen s ≤ g.gapLength ∧ pre' = pre ∧ post' = post) ∨ (g.gapLength < blen s ∧ pre' = pre ++ post ∧ post' = [])) ∧
      match locate (S.segs pre' ++ S.segs post') p with
      | none => Rep g' pre' post'
      | some (a, b) => Rep g' (a.flatten ++ s) b.flatten := by
  obtain ⟨g1, hg1, hle, hcase⟩ := grow_rep (A := A) h (blen s)
  have key : ∃ pre' post', Rep g1 pre' post' ∧ ((blen s ≤ g.gapLength ∧ pre' = pre ∧ post' = post) ∨ (g.gapLength < blen s ∧ pre' = pre ++ post ∧ post' = [])) := by
    rcases hcase with ⟨hc, rfl⟩ | ⟨hc, hr⟩
    · exact ⟨pre, post, h, Or.inl ⟨hc, rfl, rfl⟩⟩
    · exact ⟨_, _, hr, Or.inr ⟨hc, rfl, rfl⟩⟩
  obtain ⟨pre', post', hr, hc⟩ := key
  unfold insert
  rw [hg1]
  simp only [Except.ok_bind']
  rw [findOffset_eq hr p]
  simp only [Except.ok_bind']
  cases hl : locate (S.segs pre' ++ S.segs post') p with
  | none => exact ⟨g1, pre', post', rfl, hc, by rw [hl]; exact hr⟩
  | some x =>
    obtain ⟨a, b⟩ := x
    obtain ⟨hab, hp⟩ := locate_eq_some.mp hl
    obtain ⟨g2, hm, hr2⟩ := moveGap_to hr hab
    obtain ⟨g3, hw, hr3, _⟩ := writeToGap_rep hr2.rep s (by rw [hr2.gap]; exact hle)
    refine ⟨g3, pre', post', ?_, hc, by rw [hl]; exact hr3⟩
    simp only [Option.map_some, hm, Except.ok_bind', hw]

/-- After moving the gap to a located start, the first half does not end after it. -/
theorem endPos_le_of_moved {pre post a b} (hab : S.segs pre ++ S.segs post = a ++ b) :
    AtOrBefore (endPos (S.segs a.flatten)) (endPos a) := by
  rcases List.append_eq_append_iff.mp hab with ⟨c, h1, h2⟩ | ⟨c, h1, h2⟩
  · have := S.fuse pre c.flatten
    rw [(S.cut _ _ _ h2).1, ← h1] at this
    have e : a.flatten = pre ++ c.flatten := by rw [h1, List.flatten_append, S.join]
    rwa [e]
  · rw [(S.cut _ _ _ h1).1]; exact .refl _

/-- Widening the gap to a place after it. -/
theorem widen {g x y d z} (h : Rep g x y) (hy : y = d ++ z) :
    subU (g.gapStart + g.gapLength + blen d) g.gapStart = .ok (g.gapLength + blen d) ∧
    Rep { g with gapLength := g.gapLength + blen d } x z := by
  obtain ⟨gap, h1, h2, h3⟩ := h
  constructor
  · unfold subU; rw [if_pos (by omega)]; congr 1; omega
  · exact ⟨gap ++ enc d, by simp [h1, hy], h2, by simp [h3, blen]⟩

theorem rawOff_right {g x y c} (h : Rep g x y) : rawOff S g x (S.segs x ++ c) = g.gapStart + g.gapLength + blen c.flatten := by
  rw [rawOff, if_neg (by simp), List.flatten_append, S.join, blen_append, h.start]; omega

/-- What the second part of `delete` does, at byte level: removes a prefix of the text after the gap. -/
theorem delete_rep {g pre post} (h : Rep g pre post) (r : Range) (hr : AtOrBefore r.start r.stop) :
    ∃ g', delete S g r = .ok g' ∧
      match locate (S.segs pre ++ S.segs post) r.start with
      | none => g' = g
      | some (a, b) =>
        let cs := S.segs a.flatten ++ S.segs b.flatten
        match locate cs r.stop with
        | some (a', b') => Rep g' a.flatten b'.flatten ∧ ∃ d, a' = S.segs a.flatten ++ d ∧ S.segs b.flatten = d ++ b'
        | none =>
          match locate cs ⟨r.stop.line + 1, 0⟩ with
          | some (a', b') => Rep g' a.flatten b'.flatten ∧ ∃ d, a' = S.segs a.flatten ++ d ∧ S.segs b.flatten = d ++ b'
          | none => Rep g' a.flatten [] := by
  unfold delete
  rw [findOffset_eq h]
  simp only [Except.ok_bind']
  cases hl : locate (S.segs pre ++ S.segs post) r.start with
  | none => exact ⟨g, rfl, rfl⟩
  | some x =>
    obtain ⟨a, b⟩ := x
    obtain ⟨hab, hp⟩ := locate_eq_some.mp hl
    obtain ⟨g1, hm, hr1⟩ := moveGap_to h hab
    have hle : AtOrBefore (endPos (S.segs a.flatten)) r.stop := by
      have := endPos_le_of_moved hab
      rw [hp] at this; exact this.trans hr
    have widenTo : ∀ q a' b', AtOrBefore r.stop q → locate (S.segs a.flatten ++ S.segs b.flatten) q = some (a', b') →
        ∃ d, a' = S.segs a.flatten ++ d ∧ S.segs b.flatten = d ++ b' ∧
          subU (rawOff S g1 a.flatten a') g1.gapStart = .ok (g1.gapLength + blen d.flatten) ∧
          Rep { g1 with gapLength := g1.gapLength + blen d.flatten } a.flatten b'.flatten := by
      intro q a' b' hq hl'
      obtain ⟨h1, h2⟩ := locate_eq_some.mp hl'
      obtain ⟨d, hd1, hd2⟩ := split_mono h1 (by rw [h2]; exact hle.trans hq)
      have hw := widen hr1.rep (d := d.flatten) (z := b'.flatten) (by rw [← List.flatten_append, ← hd2, S.join])
      refine ⟨d, hd1, hd2, ?_, hw.2⟩
      rw [hd1, rawOff_right hr1.rep]; exact hw.1
    simp only [Option.map_some, hm, Except.ok_bind']
    rw [findOffset_eq hr1.rep]
    simp only [Except.ok_bind']
    cases hl2 : locate (S.segs a.flatten ++ S.segs b.flatten) r.stop with
    | some x' =>
      obtain ⟨a', b'⟩ := x'
      obtain ⟨d, hd1, hd2, hs, hrep⟩ := widenTo r.stop a' b' (.refl _) hl2
      refine ⟨_, ?_, hrep, d, hd1, hd2⟩
      simp only [Option.map_some, hs, Except.ok_bind']; rfl
    | none =>
      simp only [Option.map_none]
      rw [findOffset_eq hr1.rep]
      simp only [Except.ok_bind']
      cases hl3 : locate (S.segs a.flatten ++ S.segs b.flatten) ⟨r.stop.line + 1, 0⟩ with
      | some x' =>
        obtain ⟨a', b'⟩ := x'
        obtain ⟨d, hd1, hd2, hs, hrep⟩ := widenTo ⟨r.stop.line + 1, 0⟩ a' b' (Or.inl (by simp)) hl3
        refine ⟨_, ?_, hrep, d, hd1, hd2⟩
        simp only [Option.map_some, hs, Except.ok_bind']; rfl
      | none =>
        have hw := widen hr1.rep (d := b.flatten) (z := []) (by simp)
        refine ⟨_, ?_, hw.2⟩
        simp only [Option.map_none]
        rw [hr1.rep.length, hw.1]; rfl

theorem read_rep {g pre post} (h : Rep g pre post) (r : Range) (hr : AtOrBefore r.start r.stop) :
    read S g r = .ok (match locate (S.segs pre ++ S.segs post) r.start, locate (S.segs pre ++ S.segs post) r.stop with
      | some (a, _), some (a', _) => some (a'.drop a.length).flatten
      | _, _ => none) := by
  unfold read
  rw [findOffset_eq h, findOffset_eq h]
  simp only [Except.ok_bind']
  cases hl : locate (S.segs pre ++ S.segs post) r.start with
  | none => rfl
  | some x =>
    obtain ⟨a, b⟩ := x
    obtain ⟨hab, hp⟩ := locate_eq_some.mp hl
    simp only [Option.map_some]
    cases hl2 : locate (S.segs pre ++ S.segs post) r.stop with
    | none => rfl
    | some x' =>
      obtain ⟨a', b'⟩ := x'
      obtain ⟨hab', hp'⟩ := locate_eq_some.mp hl2
      obtain ⟨m, hm1, hm2⟩ := split_mono (hab.symm.trans hab') (by rw [hp, hp']; exact hr)
      subst hm1
      simp only [Option.map_some, List.drop_left]
      obtain ⟨gap, h1, h2, h3⟩ := id h
      rcases List.append_eq_append_iff.mp hab with ⟨c, k1, k2⟩ | ⟨c, k1, k2⟩
      · -- starts at or after the gap
        subst k1
        rw [rawOff_right h, List.append_assoc, rawOff_right h]
        rw [if_neg (by omega)]
        have : slice g.data (g.gapStart + g.gapLength + blen c.flatten) (g.gapStart + g.gapLength + blen (c ++ m).flatten) = .ok (enc m.flatten) := by
          refine slice_mid' (x := enc pre ++ gap ++ enc c.flatten) (z := enc b'.flatten) ?_ ?_ ?_
          · rw [h1]
            have : post = c.flatten ++ m.flatten ++ b'.flatten := by
              rw [← S.join post, k2, hm2]; simp
            rw [this]; simp
          · simp [h2, h3, blen]; omega
          · simp [h2, h3, blen]; omega
        rw [this]
        simp only [Except.ok_bind', lossy_enc]; rfl
      · by_cases hc : c = []
        · subst hc
          have ha : S.segs pre = a := by simpa using k1
          subst ha
          have k3 : b = S.segs post := by simpa using k2
          have e1 : rawOff S g pre (S.segs pre) = g.gapStart + g.gapLength := by
            have := rawOff_right (S := S) (c := []) h; simpa using this
          rw [e1, rawOff_right h, if_neg (by omega)]
          have : slice g.data (g.gapStart + g.gapLength) (g.gapStart + g.gapLength + blen m.flatten) = .ok (enc m.flatten) := by
            refine slice_mid' (x := enc pre ++ gap) (z := enc b'.flatten) ?_ ?_ ?_
            · rw [h1]
              have : post = m.flatten ++ b'.flatten := by
                rw [← S.join post, ← k3, hm2]; simp
              rw [this]; simp
            · simp [h2, h3]
            · simp [h2, h3, blen]
          rw [this]
          simp only [Except.ok_bind', lossy_enc]; rfl
        · have e1 : rawOff S g pre a = blen a.flatten := by
            rw [rawOff, if_pos (by rw [k1]; simp; exact List.length_pos_iff.mpr hc)]
          have hpre : pre = a.flatten ++ c.flatten := by rw [← List.flatten_append, ← k1, S.join]
          have hcpos : 0 < blen c.flatten := by
            apply blen_pos
            intro h0
            obtain ⟨c0, c1, rfl⟩ := List.exists_cons_of_ne_nil hc
            have : c0 = [] := by simp at h0; exact h0.1
            exact S.nonempty pre c0 (by rw [k1]; simp) this
          have hlt : blen a.flatten < g.gapStart := by rw [h.start, hpre, blen_append]; omega
          have k2' : c ++ S.segs post = m ++ b' := by rw [← k2, hm2]
          rcases List.append_eq_append_iff.mp k2' with ⟨e, l1, l2⟩ | ⟨e, l1, l2⟩
          · -- ends at or after the gap
            subst l1
            have e2 : rawOff S g pre (a ++ (c ++ e)) = g.gapStart + g.gapLength + blen e.flatten := by
              rw [← List.append_assoc, ← k1]; exact rawOff_right h
            rw [e1, e2]
            have hs1 : slice g.data (blen a.flatten) g.gapStart = .ok (enc c.flatten) := by
              refine slice_mid' (x := enc a.flatten) (z := gap ++ enc post) ?_ rfl ?_
              · rw [h1, hpre]; simp
              · rw [h.start, hpre]; simp [blen]
            have hs2 : slice g.data (g.gapStart + g.gapLength) (g.gapStart + g.gapLength + blen e.flatten) = .ok (enc e.flatten) := by
              refine slice_mid' (x := enc pre ++ gap) (z := enc b'.flatten) ?_ ?_ ?_
              · rw [h1]
                have : post = e.flatten ++ b'.flatten := by rw [← List.flatten_append, ← l2, S.join]
                rw [this]; simp
              · simp [h2, h3]
              · simp [h2, h3, blen]
            by_cases hg : g.gapStart < g.gapStart + g.gapLength + blen e.flatten
            · rw [if_pos ⟨hlt, hg⟩, hs1, hs2]
              simp only [Except.ok_bind', lossy_enc, List.flatten_append]; rfl
            · have hz : g.gapLength = 0 ∧ blen e.flatten = 0 := by omega
              rw [if_neg (by omega), hz.1, hz.2]
              have : e.flatten = [] := blen_eq_zero.mp hz.2
              rw [show g.gapStart + 0 + 0 = g.gapStart from rfl, hs1]
              simp only [Except.ok_bind', lossy_enc, List.flatten_append, this, List.append_nil]; rfl
          · by_cases he : e = []
            · subst he
              have lc : c = m := by simpa using l1
              subst lc
              have e2 : rawOff S g pre (a ++ c) = g.gapStart + g.gapLength := by
                rw [← k1]; have := rawOff_right (S := S) (c := []) h; simpa using this
              have hs1 : slice g.data (blen a.flatten) g.gapStart = .ok (enc c.flatten) := by
                refine slice_mid' (x := enc a.flatten) (z := gap ++ enc post) ?_ rfl ?_
                · rw [h1, hpre]; simp
                · rw [h.start, hpre]; simp [blen]
              have hs2 : slice g.data (g.gapStart + g.gapLength) (g.gapStart + g.gapLength) = .ok (enc []) := by
                refine slice_mid' (x := enc pre ++ gap) (z := enc post) ?_ ?_ ?_
                · rw [h1]; simp
                · simp [h2, h3]
                · simp [h2, h3]
              rw [e1, e2]
              by_cases hg : g.gapStart < g.gapStart + g.gapLength
              · rw [if_pos ⟨hlt, hg⟩, hs1, hs2]
                simp only [Except.ok_bind', lossy_enc, List.append_nil]; rfl
              · have hz : g.gapLength = 0 := by omega
                rw [if_neg (by omega), hz, Nat.add_zero, hs1]
                simp only [Except.ok_bind', lossy_enc]; rfl
            · -- ends inside the first half
              subst l1
              have e2 : rawOff S g pre (a ++ m) = blen (a ++ m).flatten := by
                rw [rawOff, if_pos (by rw [k1]; simp; exact List.length_pos_iff.mpr he)]
              have hle : ¬ g.gapStart < blen (a ++ m).flatten := by
                rw [h.start, hpre]; simp
              rw [e1, e2, if_neg (by omega)]
              have : slice g.data (blen a.flatten) (blen (a ++ m).flatten) = .ok (enc m.flatten) := by
                refine slice_mid' (x := enc a.flatten) (z := enc e.flatten ++ gap ++ enc post) ?_ rfl ?_
                · rw [h1, hpre]; simp
                · simp [blen]
              rw [this]
              simp only [Except.ok_bind', lossy_enc]; rfl

theorem inBounds_rep {g pre post} (h : Rep g pre post) (p : Position) :
    inBounds S g p = .ok (locate (S.segs pre ++ S.segs post) p).isSome := by
  unfold inBounds
  rw [findOffset_eq h]
  simp only [Except.ok_bind']
  cases locate (S.segs pre ++ S.segs post) p <;> rfl

end GapBuffer
end Scribe
