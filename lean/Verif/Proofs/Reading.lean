import Verif.Spec.Reading
import Verif.Proofs.Cost
/-! # The counter of what is read -/
namespace Scribe

theorem Effort.add_def (a b : Effort) : a + b = ⟨a.decoded + b.decoded, a.visited + b.visited⟩ := rfl

theorem Effort.add_assoc (a b c : Effort) : a + b + c = a + (b + c) := by
  simp only [Effort.add_def, Nat.add_assoc]

namespace GapBuffer
open Spec
variable {S : Segmenter} {A : Alloc}

/-- Iterations. -/
def scanned (p : Position) : List Text → Position → Nat
  | [], _ => 0
  | g :: gs, q => if q = p then 1 else scanned p gs (step q g) + 1

theorem scanR_eq (p : Position) (cs : List Text) (off : Nat) (q : Position) (n : Nat) :
    scanR p cs off q n = (scan p cs off q, n + scanned p cs q) := by
  induction cs generalizing off q n with
  | nil => rfl
  | cons c cs ih =>
    simp only [scanR, scan, scanned, pos_eq_iff]
    by_cases hq : q = p
    · simp [hq]
    · simp only [if_neg hq, ih]
      unfold step
      by_cases hc : c = ['\n']
      · simp only [if_pos hc, Prod.mk.injEq, true_and]; omega
      · simp only [if_neg hc, Prod.mk.injEq, true_and]; omega

theorem scanned_found (p q : Position) (a b : List Text) (hb : b ≠ []) (h : a.foldl step q = p) : scanned p (a ++ b) q = a.length + 1 := by
  induction a generalizing q with
  | nil =>
    cases b with
    | nil => exact absurd rfl hb
    | cons c b => simp only [List.foldl_nil] at h; simp [scanned, h]
  | cons c a ih =>
    have hne : q ≠ p := by
      intro hq
      have := before_foldl_step (b := c :: a) (by simp) q
      rw [h, hq] at this; exact Before.irrefl _ this
    rw [List.cons_append, scanned, if_neg hne, ih _ h]; rfl

theorem scanned_missing (p q : Position) (cs : List Text) (h : ∀ a b, cs = a ++ b → b ≠ [] → a.foldl step q ≠ p) : scanned p cs q = cs.length := by
  induction cs generalizing q with
  | nil => rfl
  | cons c cs ih =>
    rw [scanned, if_neg (show q ≠ p from h [] (c :: cs) rfl (by simp)), ih]
    · rfl
    · intro a b hab hb
      exact h (c :: a) b (by rw [hab]; rfl) hb

/-- Looking up is the same, and reads this much. -/
theorem findOffsetR_eq {g pre post} (h : Rep g pre post) (p : Position) (w : Effort) (size clock : Nat) :
    findOffsetR S g p w = .ok ((locate (S.segs pre ++ S.segs post) p).map (fun x => rawOff S g pre x.1),
      w + Zip.lookup S.segs ⟨pre, post, size, clock⟩ p) := by
  have key : findOffsetR S g p w = (findOffset S g p).map (·, w + match scan p (S.segs pre) 0 ⟨0, 0⟩ with
      | .inl _ => ⟨blen pre, scanned p (S.segs pre) ⟨0, 0⟩⟩
      | .inr q => if q = p then ⟨blen pre, scanned p (S.segs pre) ⟨0, 0⟩⟩
        else ⟨blen pre + blen post, scanned p (S.segs pre) ⟨0, 0⟩ + scanned p (S.segs post) q⟩) := by
    unfold findOffsetR findOffset
    rw [h.first, h.second]
    simp only [Except.ok_bind', lossy_enc, scanR_eq, Nat.zero_add, pos_eq_iff]
    cases scan p (S.segs pre) 0 ⟨0, 0⟩ with
    | inl o => rfl
    | inr q =>
      simp only
      split
      · rfl
      · cases scan p (S.segs post) 0 q with
        | inl o => rfl
        | inr q' => simp only; split <;> rfl
  rw [key, findOffset_eq h]
  simp only [Except.map, Zip.lookup, Zip.clusters]
  congr 2
  congr 1
  cases hl : locate (S.segs pre ++ S.segs post) p with
  | none =>
    rw [locate_eq_none] at hl
    have m1 : ∀ a b, S.segs pre = a ++ b → b ≠ [] → a.foldl step ⟨0, 0⟩ ≠ p := by
      intro x y hxy hy hx
      rw [← endPos_eq_foldl] at hx
      exact hl x (y ++ S.segs post) (by rw [hxy]; simp) hx
    have m2 : ∀ a b, S.segs post = a ++ b → b ≠ [] → a.foldl step (endPos (S.segs pre)) ≠ p := by
      intro x y hxy hy hx
      rw [← endPos_append] at hx
      exact hl (S.segs pre ++ x) y (by rw [hxy]; simp) hx
    rw [scan_missing p _ _ 0 m1, scanned_missing p _ _ m1, ← endPos_eq_foldl]
    simp only
    rw [if_neg (hl _ _ rfl), scanned_missing p _ _ m2, List.length_append]
  | some x =>
    obtain ⟨a, b⟩ := x
    obtain ⟨hab, hp⟩ := locate_eq_some.mp hl
    simp only
    by_cases hlt : a.length < (S.segs pre).length
    · have : ∃ c, c ≠ [] ∧ S.segs pre = a ++ c := by
        rcases List.append_eq_append_iff.mp hab with ⟨c, h1, h2⟩ | ⟨c, h1, h2⟩
        · rw [h1] at hlt; simp at hlt; omega
        · refine ⟨c, ?_, h1⟩; rintro rfl; rw [h1] at hlt; simp at hlt
      obtain ⟨c, hc, hpre⟩ := this
      have hf : a.foldl step ⟨0, 0⟩ = p := by rw [← endPos_eq_foldl]; exact hp
      rw [if_pos (Nat.le_of_lt hlt), hpre, scan_found p ⟨0, 0⟩ a c hc 0 hf, scanned_found p ⟨0, 0⟩ a c hc hf]
      simp only [Effort.mk.injEq, true_and]
      rw [hpre] at hlt
      omega
    · obtain ⟨c, ha, hpost⟩ : ∃ c, a = S.segs pre ++ c ∧ S.segs post = c ++ b := by
        rcases List.append_eq_append_iff.mp hab with ⟨c, h1, h2⟩ | ⟨c, h1, h2⟩
        · exact ⟨c, h1, h2⟩
        · have : c = [] := by
            rw [h1, List.length_append] at hlt; exact List.length_eq_zero_iff.mp (by omega)
          subst this; exact ⟨[], by simpa using h1.symm, by simpa using h2.symm⟩
      have m1 : ∀ a b, S.segs pre = a ++ b → b ≠ [] → a.foldl step ⟨0, 0⟩ ≠ p := by
        intro x y hxy hy hx
        rw [← endPos_eq_foldl] at hx
        have h1 := endPos_lt_append x hy
        rw [← hxy, hx, ← hp, ha] at h1
        have h2 := h1.trans_le (endPos_le_append (S.segs pre) c)
        exact Before.irrefl _ (ha ▸ h2)
      rw [scan_missing p _ _ 0 m1, scanned_missing p _ _ m1, ← endPos_eq_foldl]
      simp only
      by_cases hc : c = []
      · subst hc
        rw [List.append_nil] at ha
        rw [if_pos (by rw [← ha, hp]), if_pos (Nat.le_of_eq (congrArg List.length ha))]
        simp only [Effort.mk.injEq, true_and]
        rw [ha]; omega
      · have hne : endPos (S.segs pre) ≠ p := by
          intro he
          have := endPos_lt_append (S.segs pre) hc
          rw [← ha, he, hp] at this; exact Before.irrefl _ this
        have hpos : 0 < c.length := List.length_pos_iff.mpr hc
        rw [if_neg hne, if_neg (by rw [ha, List.length_append]; omega)]
        have hfold : c.foldl step (endPos (S.segs pre)) = p := by rw [← endPos_append, ← ha, hp]
        simp only [Effort.mk.injEq, true_and]
        by_cases hb : b = []
        · subst hb
          rw [List.append_nil] at hpost
          rw [scanned_missing, hpost, ha, List.length_append]
          · omega
          · intro x y hxy hy hx
            have h1 := before_foldl_step hy (x.foldl step (endPos (S.segs pre)))
            rw [← List.foldl_append, ← hxy, hx, hpost, hfold] at h1
            exact Before.irrefl _ h1
        · have : 0 < b.length := List.length_pos_iff.mpr hb
          rw [hpost, scanned_found p _ c b hb hfold, ha]
          simp only [List.length_append]
          omega

theorem slice_length {α} {d x : List α} {i j} (h : slice d i j = .ok x) : x.length = j - i ∧ i ≤ j ∧ j ≤ d.length := by
  unfold slice at h
  split at h
  · cases h; simp; omega
  · cases h

theorem Zips.findOffsetR {g z} (h : Zips g z) (p : Position) (w : Effort) :
    findOffsetR S g p w = .ok ((locate (z.clusters S.segs) p).map (fun x => rawOff S g z.left x.1), w + z.lookup S.segs p) :=
  findOffsetR_eq h.rep p w z.size z.clock

/-- A call with the counter. -/
theorem Zips.callR {g z} (h : Zips g z) (w : Effort) (c : Call) : ∃ o g', GapBuffer.call S A g c = .ok (o, g') ∧
    GapBuffer.callR S A g w c = .ok (o, g', w + z.effort S.segs A.grant c) := by
  obtain ⟨g', hc, -⟩ := h.call (S := S) (A := A) c
  refine ⟨_, g', hc, ?_⟩
  generalize (z.call S.segs A.grant c).1 = o at hc
  cases c with
  | insert s p =>
    simp only [GapBuffer.call, GapBuffer.callR, GapBuffer.insert, GapBuffer.insertR] at hc ⊢
    obtain ⟨g1, h1, -, hz⟩ := grow_zips (A := A) h (blen s)
    rw [h1] at hc ⊢
    simp only [Except.ok_bind'] at hc ⊢
    rw [findOffset_eq hz.rep] at hc
    rw [hz.findOffsetR]
    simp only [Except.ok_bind', Zip.effort] at hc ⊢
    rw [show S.segs (z.reserve A.grant (blen s)).left ++ S.segs (z.reserve A.grant (blen s)).right = (z.reserve A.grant (blen s)).clusters S.segs from rfl] at hc
    cases hl : locate ((z.reserve A.grant (blen s)).clusters S.segs) p with
    | none => rw [hl] at hc; cases hc; rfl
    | some x =>
      rw [hl] at hc
      simp only [Option.map_some] at hc ⊢
      obtain ⟨x', hx, hc⟩ := bind_ok hc
      obtain ⟨g2, h2, hx⟩ := bind_ok hx
      cases hc
      simp only [h2, hx, Except.ok_bind']; rfl
  | delete p q =>
    simp only [GapBuffer.call, GapBuffer.callR, GapBuffer.delete, GapBuffer.deleteR, (lo_hi p q).1, (lo_hi p q).2] at hc ⊢
    rw [findOffset_eq h.rep] at hc
    rw [h.findOffsetR]
    simp only [Except.ok_bind', Zip.effort] at hc ⊢
    rw [show S.segs z.left ++ S.segs z.right = z.clusters S.segs from rfl] at hc
    cases hl : locate (z.clusters S.segs) (lo p q) with
    | none => rw [hl] at hc; cases hc; rfl
    | some x =>
      obtain ⟨a, b⟩ := x
      rw [hl] at hc
      simp only [Option.map_some] at hc ⊢
      obtain ⟨hab, hp⟩ := locate_eq_some.mp hl
      obtain ⟨g1, h1, hm⟩ := moveGap_to h.rep hab
      have hz : Zips g1 { z with left := a.flatten, right := b.flatten } := ⟨hm.rep, by rw [hm.len, h.size], by rw [hm.clock, h.clock]⟩
      rw [h1] at hc ⊢
      simp only [Except.ok_bind'] at hc ⊢
      rw [findOffset_eq hz.rep] at hc
      rw [hz.findOffsetR]
      simp only [Except.ok_bind'] at hc ⊢
      rw [show S.segs a.flatten ++ S.segs b.flatten = Zip.clusters S.segs { z with left := a.flatten, right := b.flatten } from rfl] at hc
      cases hl2 : locate (Zip.clusters S.segs { z with left := a.flatten, right := b.flatten }) (hi p q) with
      | some y =>
        rw [hl2] at hc
        simp only [Option.map_some] at hc ⊢
        obtain ⟨x', hx, hc⟩ := bind_ok hc
        obtain ⟨gl, h2, hx⟩ := bind_ok hx
        cases hx; cases hc
        simp only [h2, Except.ok_bind', Effort.add_assoc]; rfl
      | none =>
        rw [hl2] at hc
        simp only [Option.map_none] at hc ⊢
        rw [findOffset_eq hz.rep] at hc
        rw [hz.findOffsetR]
        simp only [Except.ok_bind'] at hc ⊢
        rw [show S.segs a.flatten ++ S.segs b.flatten = Zip.clusters S.segs { z with left := a.flatten, right := b.flatten } from rfl] at hc
        cases hl3 : locate (Zip.clusters S.segs { z with left := a.flatten, right := b.flatten }) ⟨(hi p q).line + 1, 0⟩ with
        | some y =>
          rw [hl3] at hc
          simp only [Option.map_some] at hc ⊢
          obtain ⟨x', hx, hc⟩ := bind_ok hc
          obtain ⟨gl, h2, hx⟩ := bind_ok hx
          cases hx; cases hc
          simp only [h2, Except.ok_bind', Effort.add_assoc]; rfl
        | none =>
          rw [hl3] at hc
          simp only [Option.map_none] at hc ⊢
          obtain ⟨x', hx, hc⟩ := bind_ok hc
          obtain ⟨gl, h2, hx⟩ := bind_ok hx
          cases hx; cases hc
          simp only [h2, Except.ok_bind', Effort.add_assoc]; rfl
  | read p q =>
    simp only [GapBuffer.call, GapBuffer.callR, GapBuffer.read, GapBuffer.readR, (lo_hi p q).1, (lo_hi p q).2] at hc ⊢
    rw [findOffset_eq h.rep, findOffset_eq h.rep] at hc
    rw [h.findOffsetR]
    simp only [Except.ok_bind', Zip.effort] at hc ⊢
    rw [show S.segs z.left ++ S.segs z.right = z.clusters S.segs from rfl] at hc
    cases hl : locate (z.clusters S.segs) (lo p q) with
    | none => rw [hl] at hc; cases hc; rfl
    | some x =>
      obtain ⟨a, b⟩ := x
      rw [hl] at hc
      simp only [Option.map_some, Except.ok_bind'] at hc ⊢
      rw [h.findOffsetR]
      simp only [Except.ok_bind']
      cases hl2 : locate (z.clusters S.segs) (hi p q) with
      | none => rw [hl2] at hc; cases hc; simp only [Option.map_none, Effort.add_assoc]; rfl
      | some y =>
        obtain ⟨a', b'⟩ := y
        rw [hl2] at hc
        simp only [Option.map_some] at hc ⊢
        obtain ⟨hab, hp⟩ := locate_eq_some.mp hl
        obtain ⟨hab', hp'⟩ := locate_eq_some.mp hl2
        have hle : AtOrBefore (lo p q) (hi p q) := by
          have := range_new_ok p q
          rwa [(lo_hi p q).1, (lo_hi p q).2] at this
        obtain ⟨m, hm1, hm2⟩ := split_mono (hab.symm.trans hab') (by rw [hp, hp']; exact hle)
        subst hm1
        simp only [List.drop_left]
        have hst := h.rep.start
        have hlt : ∀ {x y : List Text}, z.clusters S.segs = x ++ y → x.length < (S.segs z.left).length → blen x.flatten < blen z.left := by
          intro x y hxy hlt
          rcases List.append_eq_append_iff.mp (show S.segs z.left ++ S.segs z.right = x ++ y from hxy) with ⟨c, k1, k2⟩ | ⟨c, k1, k2⟩
          · rw [k1] at hlt; simp at hlt; omega
          · have hc : c ≠ [] := by rintro rfl; rw [k1] at hlt; simp at hlt
            have hcpos : 0 < blen c.flatten := by
              apply blen_pos
              intro h0
              obtain ⟨c0, c1, rfl⟩ := List.exists_cons_of_ne_nil hc
              have : c0 = [] := by simp at h0; exact h0.1
              exact S.nonempty z.left c0 (by rw [k1]; simp) this
            have e := congrArg (fun x => blen x.flatten) k1
            simp only [S.join, List.flatten_append, blen_append] at e
            omega
        have hge : ∀ {x y : List Text}, z.clusters S.segs = x ++ y → ¬ x.length < (S.segs z.left).length → blen z.left ≤ blen x.flatten := by
          intro x y hxy hlt
          rcases List.append_eq_append_iff.mp (show S.segs z.left ++ S.segs z.right = x ++ y from hxy) with ⟨c, k1, k2⟩ | ⟨c, k1, k2⟩
          · rw [k1, List.flatten_append, S.join, blen_append]; omega
          · have : c = [] := by
              rw [k1, List.length_append] at hlt; exact List.length_eq_zero_iff.mp (by omega)
            subst this
            rw [← S.join z.left, k1]; simp
        have side : ∀ {x y : List Text}, z.clusters S.segs = x ++ y →
            (x.length < (S.segs z.left).length ∧ rawOff S g z.left x = blen x.flatten ∧ blen x.flatten < blen z.left) ∨
            ((S.segs z.left).length ≤ x.length ∧ rawOff S g z.left x = g.gapLength + blen x.flatten ∧ blen z.left ≤ blen x.flatten) := by
          intro x y hxy
          unfold rawOff
          by_cases hx : x.length < (S.segs z.left).length
          · exact Or.inl ⟨hx, if_pos hx, hlt hxy hx⟩
          · exact Or.inr ⟨by omega, if_neg hx, hge hxy hx⟩
        have s1 := side hab
        have s2 := side hab'
        rw [show blen (a ++ m).flatten = blen a.flatten + blen m.flatten by rw [List.flatten_append, blen_append], List.length_append] at s2
        generalize rawOff S g z.left a = x1 at *
        generalize rawOff S g z.left (a ++ m) = x2 at *
        by_cases hg : x1 < g.gapStart ∧ g.gapStart < x2
        · rw [if_pos hg] at hc ⊢
          obtain ⟨x', hx, hc⟩ := bind_ok hc
          obtain ⟨d1, h1, hx⟩ := bind_ok hx
          obtain ⟨d2, h2, hx⟩ := bind_ok hx
          cases hx; cases hc
          have l1 := slice_length h1
          have l2 := slice_length h2
          have : d1.length + d2.length = blen m.flatten := by
            omega
          simp only [h1, h2, Except.ok_bind', this, Effort.add_assoc]; rfl
        · rw [if_neg hg] at hc ⊢
          obtain ⟨x', hx, hc⟩ := bind_ok hc
          obtain ⟨d, h1, hx⟩ := bind_ok hx
          cases hx; cases hc
          have l1 := slice_length h1
          have : d.length = blen m.flatten := by
            omega
          simp only [h1, Except.ok_bind', this, Effort.add_assoc]; rfl
  | inBounds p =>
    simp only [GapBuffer.call, GapBuffer.callR, GapBuffer.inBounds, GapBuffer.inBoundsR] at hc ⊢
    rw [findOffset_eq h.rep] at hc
    rw [h.findOffsetR]
    cases hc; rfl
  | toStr =>
    simp only [GapBuffer.call, GapBuffer.callR, GapBuffer.toStr, GapBuffer.toStrR] at hc ⊢
    rw [h.rep.first, h.rep.second] at hc ⊢
    cases hc; rfl

end GapBuffer
end Scribe

namespace Scribe.GapBuffer
open Spec
variable {S : Segmenter} {A : Alloc}

theorem runR_eq {g z} (h : Zips g z) (w : Effort) (cs : List Call) : ∃ os g' e, GapBuffer.run S A g cs = .ok (os, g') ∧
    GapBuffer.runR S A g w cs = .ok (os, g', w + e) := by
  induction cs generalizing g z w with
  | nil => exact ⟨[], g, ⟨0, 0⟩, rfl, rfl⟩
  | cons c cs ih =>
    obtain ⟨o, g1, h1, h2⟩ := h.callR (S := S) (A := A) w c
    obtain ⟨g1', h3, hz⟩ := h.call (S := S) (A := A) c
    rw [h1] at h3
    cases h3
    obtain ⟨os, g2, e, h4, h5⟩ := ih hz (w + z.effort S.segs A.grant c)
    refine ⟨(z.call S.segs A.grant c).1 :: os, g2, z.effort S.segs A.grant c + e, ?_, ?_⟩
    · simp only [GapBuffer.run, h1, Except.ok_bind', h4]; rfl
    · simp only [GapBuffer.runR, h2, Except.ok_bind', h5, Effort.add_assoc]; rfl

theorem length_le_blen {cs : List Text} (h : ∀ c ∈ cs, c ≠ []) : cs.length ≤ blen cs.flatten := by
  induction cs with
  | nil => simp
  | cons c cs ih =>
    have h1 := ih fun x hx => h x (List.mem_cons_of_mem _ hx)
    have h2 := blen_pos (h c (by simp))
    rw [List.flatten_cons, blen_append, List.length_cons]; omega

theorem clusters_le (z : Zip) : (z.clusters S.segs).length ≤ blen z.left + blen z.right := by
  have h1 := length_le_blen (S.nonempty z.left)
  have h2 := length_le_blen (S.nonempty z.right)
  rw [S.join] at h1 h2
  unfold Zip.clusters
  rw [List.length_append]; omega

theorem lookup_le (z : Zip) (p : Position) :
    (z.lookup S.segs p).decoded ≤ blen z.left + blen z.right ∧ (z.lookup S.segs p).visited ≤ blen z.left + blen z.right := by
  have h := clusters_le (S := S) z
  have h' : (S.segs z.left).length ≤ (z.clusters S.segs).length := by unfold Zip.clusters; simp
  unfold Zip.lookup
  split
  · split <;> dsimp only <;> omega
  · dsimp only; omega

theorem reserve_bytes (z : Zip) (grant : Nat → Nat → Nat → Nat) (n : Nat) :
    blen (z.reserve grant n).left + blen (z.reserve grant n).right = blen z.left + blen z.right := by
  unfold Zip.reserve
  split
  · rfl
  · simp [blen_append]

/-- No call reads more than three times the text. -/
theorem effort_le (z : Zip) (c : Call) :
    (z.effort S.segs A.grant c).decoded ≤ 3 * (blen z.left + blen z.right) ∧
    (z.effort S.segs A.grant c).visited ≤ 3 * (blen z.left + blen z.right) := by
  cases c with
  | insert s p =>
    have h1 := lookup_le (S := S) (z.reserve A.grant (blen s)) p
    rw [reserve_bytes] at h1
    simp only [Zip.effort]; omega
  | delete p q =>
    have h1 := lookup_le (S := S) z (lo p q)
    simp only [Zip.effort]
    cases hl : locate (z.clusters S.segs) (lo p q) with
    | none => simp only; omega
    | some x =>
      obtain ⟨a, b⟩ := x
      obtain ⟨hab, -⟩ := locate_eq_some.mp hl
      have hb := parts_blen (S := S) hab
      have h2 := lookup_le (S := S) { z with left := a.flatten, right := b.flatten } (hi p q)
      have h3 := lookup_le (S := S) { z with left := a.flatten, right := b.flatten } ⟨(hi p q).line + 1, 0⟩
      dsimp only at h2 h3 ⊢
      split <;> simp only [Effort.add_def] <;> omega
  | read p q =>
    have h1 := lookup_le (S := S) z (lo p q)
    have h2 := lookup_le (S := S) z (hi p q)
    simp only [Zip.effort]
    split
    · omega
    · simp only [Effort.add_def]; omega
    · rename_i a b a' b' hl hl2
      obtain ⟨hab, -⟩ := locate_eq_some.mp hl2
      have hb := parts_blen (S := S) hab
      have : blen (a'.drop a.length).flatten ≤ blen a'.flatten := by
        conv_rhs => rw [← List.take_append_drop a.length a', List.flatten_append, blen_append]
        omega
      simp only [Effort.add_def]; omega
  | inBounds p =>
    have h1 := lookup_le (S := S) z p
    simp only [Zip.effort]; omega
  | toStr => simp only [Zip.effort]; omega

theorem segs_nil : S.segs [] = [] := by
  cases h : S.segs [] with
  | nil => rfl
  | cons c cs =>
    have h1 := S.join []
    rw [h] at h1
    have : c = [] := by simp at h1; exact h1.1
    exact absurd this (S.nonempty [] c (by rw [h]; simp))

theorem reserve_end (t : Text) (size clock n : Nat) (grant : Nat → Nat → Nat → Nat) :
    ((⟨t, [], size, clock⟩ : Zip).reserve grant n).left = t ∧ ((⟨t, [], size, clock⟩ : Zip).reserve grant n).right = [] := by
  unfold Zip.reserve
  split
  · exact ⟨rfl, rfl⟩
  · exact ⟨by simp, rfl⟩

/-- Appending: everything is read each time. -/
theorem appending_eq {g} {t : Text} {size clock : Nat} (h : Zips g ⟨t, [], size, clock⟩) (w : Effort) (ss : List Text) :
    ∃ os g', GapBuffer.runR S A g w (appending S.segs t ss) = .ok (os, g', w + readAgain S.segs t ss) ∧ toStr g' = .ok (t ++ ss.flatten) := by
  induction ss generalizing g t size clock w with
  | nil =>
    refine ⟨[], g, rfl, ?_⟩
    rw [h.rep.toStr]; simp
  | cons s ss ih =>
    obtain ⟨o, g1, h1, h2⟩ := h.callR (S := S) (A := A) w (.insert s (endPos (S.segs t)))
    obtain ⟨g1', h3, hz⟩ := h.call (S := S) (A := A) (.insert s (endPos (S.segs t)))
    rw [h1] at h3
    cases h3
    obtain ⟨r1, r2⟩ := reserve_end t size clock (blen s) A.grant
    have hl : locate (((⟨t, [], size, clock⟩ : Zip).reserve A.grant (blen s)).clusters S.segs) (endPos (S.segs t)) = some (S.segs t, []) := by
      unfold Zip.clusters
      rw [r1, r2, segs_nil]
      exact locate_eq_some.mpr ⟨rfl, rfl⟩
    have he : (⟨t, [], size, clock⟩ : Zip).effort S.segs A.grant (.insert s (endPos (S.segs t))) = ⟨blen t, (S.segs t).length⟩ := by
      simp only [Zip.effort, Zip.lookup, hl, r1]
      rw [if_pos (Nat.le_refl _)]
      simp
    have hz' : Zips g1 ⟨t ++ s, [], ((⟨t, [], size, clock⟩ : Zip).reserve A.grant (blen s)).size, ((⟨t, [], size, clock⟩ : Zip).reserve A.grant (blen s)).clock⟩ := by
      simp only [Zip.call, hl, S.join] at hz
      exact hz
    obtain ⟨os, g2, h4, h5⟩ := ih hz' (w + ⟨blen t, (S.segs t).length⟩)
    refine ⟨(Zip.call S.segs A.grant ⟨t, [], size, clock⟩ (.insert s (endPos (S.segs t)))).1 :: os, g2, ?_, by rw [h5]; simp⟩
    · simp only [appending, GapBuffer.runR, h2, he, Except.ok_bind', h4, readAgain, Effort.add_assoc]; rfl

theorem readAgain_ge (t : Text) (ss : List Text) (hs : ∀ s ∈ ss, s ≠ []) :
    2 * ss.length * blen t + ss.length * (ss.length - 1) ≤ 2 * (readAgain S.segs t ss).decoded := by
  induction ss generalizing t with
  | nil => simp
  | cons s ss ih =>
    have h1 := ih (t ++ s) fun x hx => hs x (List.mem_cons_of_mem _ hx)
    have h2 := blen_pos (hs s (by simp))
    rw [blen_append] at h1
    simp only [readAgain, Effort.add_def, List.length_cons, Nat.add_sub_cancel]
    have h3 : ss.length * 1 ≤ ss.length * blen s := Nat.mul_le_mul_left _ h2
    have h4 : 2 * ss.length * (blen t + blen s) = 2 * (ss.length * blen t) + 2 * (ss.length * blen s) := by rw [Nat.mul_assoc, Nat.mul_add, Nat.mul_add]
    have h5 : 2 * (ss.length + 1) * blen t = 2 * (ss.length * blen t) + 2 * blen t := by rw [Nat.mul_add, Nat.add_mul, Nat.mul_assoc]
    have h6 : (ss.length + 1) * ss.length = ss.length * (ss.length - 1) + 2 * ss.length := by
      cases ss.length with
      | zero => rfl
      | succ n => simp only [Nat.add_sub_cancel]; rw [Nat.add_mul, Nat.mul_succ, Nat.succ_mul]; omega
    omega

end Scribe.GapBuffer
