import Verif.Model.Uninit
import Verif.Proofs.GapRun
/-! The gap buffer over uninitialised memory follows the gap buffer over bytes. -/
namespace Scribe.Uninit
open Spec
variable {S : Segmenter} {A : Alloc}

/-- Outside `[a, b)` every byte has been written and is the byte of `d`. -/
structure Agree (m : Mem) (d : Bytes) (a b : Nat) : Prop where
  len : m.length = d.length
  eq : ∀ i, i < a ∨ b ≤ i → m[i]? = d[i]?.map some

/-- The two buffers agree outside the gap. -/
structure Follows (u : Gap) (g : GapBuffer) : Prop where
  start : u.gapStart = g.gapStart
  length : u.gapLength = g.gapLength
  clock : u.clock = g.clock
  mem : Agree u.data g.data g.gapStart (g.gapStart + g.gapLength)

@[simp] theorem lift_ok {α} (x : α) : lift (.ok x : R α) = .ok x := rfl

theorem u_bind {α β} (x : α) (f : α → U β) : ((Except.ok x : U α) >>= f) = f x := rfl

theorem useAll_map (bs : Bytes) : useAll (bs.map some) = .ok bs := by
  induction bs with
  | nil => rfl
  | cons b bs ih => simp only [List.map_cons, useAll, use, ih, u_bind]; rfl

/-- Looking at a slice that does not meet the gap. -/
theorem textOf_agree {m d a b x y} (h : Agree m d a b) (hxy : y ≤ a ∨ b ≤ x) {s : Bytes}
    (hs : slice d x y = .ok s) : textOf m x y = .ok (lossy s) := by
  unfold slice at hs
  split at hs
  · rename_i hle
    simp only [Except.ok.injEq] at hs
    subst hs
    have : slice m x y = .ok (((d.take y).drop x).map some) := by
      unfold slice
      rw [if_pos (by rw [h.len]; exact hle)]
      congr 1
      apply List.ext_getElem?
      intro i
      rw [List.getElem?_drop, List.getElem?_map, List.getElem?_drop, List.getElem?_take, List.getElem?_take]
      split
      · exact h.eq _ (by omega)
      · rfl
    rw [textOf, this]
    simp only [lift_ok, u_bind, useAll_map]
    rfl
  · simp at hs

/-- `find_offset` sees the same text. -/
theorem findOffset_follows {u g} (h : Follows u g) {p o} (hf : GapBuffer.findOffset S g p = .ok o) :
    findOffset S u p = .ok o := by
  unfold GapBuffer.findOffset at hf
  unfold findOffset
  rw [h.start, h.length, h.mem.len]
  cases h1 : slice g.data 0 g.gapStart with
  | error e => rw [h1] at hf; cases hf
  | ok first =>
    rw [h1, Except.ok_bind'] at hf
    rw [textOf_agree h.mem (Or.inl (Nat.le_refl _)) h1, u_bind]
    cases h2 : GapBuffer.scan p (S.segs (lossy first)) 0 ⟨0, 0⟩ with
    | inl off =>
      rw [h2] at hf
      simp only at hf ⊢
      cases hf; rfl
    | inr q =>
      rw [h2] at hf
      simp only at hf ⊢
      split
      · rename_i hq
        rw [if_pos hq] at hf
        cases hf; rfl
      · rename_i hq
        rw [if_neg hq] at hf
        cases h3 : slice g.data (g.gapStart + g.gapLength) g.data.length with
        | error e => rw [h3] at hf; cases hf
        | ok second =>
          rw [h3, Except.ok_bind'] at hf
          rw [textOf_agree h.mem (Or.inr (Nat.le_refl _)) h3, u_bind]
          cases h4 : GapBuffer.scan p (S.segs (lossy second)) 0 q with
          | inl off =>
            rw [h4] at hf
            simp only at hf ⊢
            cases hf; rfl
          | inr q' =>
            rw [h4] at hf
            simp only at hf ⊢
            split
            · rename_i hq'
              rw [if_pos hq'] at hf
              cases hf; rfl
            · rename_i hq'
              rw [if_neg hq'] at hf
              cases hf; rfl

/-- `find_offset` never answers with a place inside the gap. -/
theorem findOffset_outside {g pre post p o} (h : Rep g pre post) (hf : GapBuffer.findOffset S g p = .ok (some o)) :
    o < g.gapStart ∨ g.gapStart + g.gapLength ≤ o := by
  rw [GapBuffer.findOffset_eq h] at hf
  cases hl : locate (S.segs pre ++ S.segs post) p with
  | none => rw [hl] at hf; simp at hf
  | some x =>
    obtain ⟨a, b⟩ := x
    obtain ⟨hab, _⟩ := locate_eq_some.mp hl
    rw [hl] at hf
    simp only [Option.map_some, Except.ok.injEq, Option.some.injEq] at hf
    subst hf
    rcases List.append_eq_append_iff.mp hab with ⟨c, h1, h2⟩ | ⟨c, h1, h2⟩
    · rw [h1, GapBuffer.rawOff_right h]; exact Or.inr (by omega)
    · rcases c with _ | ⟨c, cs⟩
      · have : a = S.segs pre ++ [] := by simpa using h1.symm
        rw [this, GapBuffer.rawOff_right h]; exact Or.inr (by omega)
      · refine Or.inl ?_
        rw [GapBuffer.rawOff, if_pos (by rw [h1]; simp), h.start]
        have e : blen pre = blen a.flatten + blen (c :: cs).flatten := by
          rw [← blen_append, ← List.flatten_append, ← h1, S.join]
        have : 0 < blen (c :: cs).flatten := by
          apply blen_pos
          have := S.nonempty pre c (by rw [h1]; simp)
          simp [this]
        omega

theorem getAt_agree {m d a b i x} (h : Agree m d a b) (hi : i < a ∨ b ≤ i) (hx : getAt d i = .ok x) :
    getAt m i = .ok (some x) := by
  unfold getAt at hx ⊢
  rw [h.eq i hi]
  cases hd : d[i]? with
  | none => rw [hd] at hx; simp at hx
  | some y => rw [hd] at hx; simp at hx; simp [hx]

theorem setAt_agree {m : Mem} {d d' : Bytes} {i x} (hl : m.length = d.length) (hd : setAt d i x = .ok d') :
    setAt m i (some x) = .ok (m.set i (some x)) ∧ d' = d.set i x := by
  unfold setAt at hd ⊢
  split at hd
  · rename_i hi
    simp only [Except.ok.injEq] at hd
    exact ⟨by rw [if_pos (by rw [hl]; exact hi)], hd.symm⟩
  · simp at hd

theorem Agree.set {m d a b i x a' b'} (h : Agree m d a b) (hcov : ∀ j, j < a' ∨ b' ≤ j → j = i ∨ j < a ∨ b ≤ j) :
    Agree (m.set i (some x)) (d.set i x) a' b' := by
  refine ⟨by simp [h.len], fun j hj => ?_⟩
  rw [List.getElem?_set, List.getElem?_set, h.len]
  by_cases e : i = j
  · rw [if_pos e, if_pos e]; split <;> rfl
  · rw [if_neg e, if_neg e]
    rcases hcov j hj with rfl | hj
    · exact absurd rfl e
    · exact h.eq j hj

theorem shiftLeft_agree {off gl n m d d'} (h : Agree m d (off + n) (off + n + gl))
    (hd : GapBuffer.shiftLeft off gl n d = .ok d') :
    ∃ m', shiftLeft off gl n m = .ok m' ∧ Agree m' d' off (off + gl) := by
  induction n generalizing m d with
  | zero => rw [GapBuffer.shiftLeft] at hd; cases hd; exact ⟨m, rfl, h⟩
  | succ n ih =>
    rw [GapBuffer.shiftLeft] at hd
    cases h1 : getAt d (off + n) with
    | error e => rw [h1] at hd; cases hd
    | ok x =>
      rw [h1, Except.ok_bind'] at hd
      cases h2 : setAt d (off + n + gl) x with
      | error e => rw [h2] at hd; cases hd
      | ok d1 =>
        rw [h2, Except.ok_bind'] at hd
        obtain ⟨k2, rfl⟩ := setAt_agree h.len h2
        cases h3 : setAt (d.set (off + n + gl) x) (off + n) 0 with
        | error e => rw [h3] at hd; cases hd
        | ok d2 =>
          rw [h3, Except.ok_bind'] at hd
          have a1 : Agree (m.set (off + n + gl) (some x)) (d.set (off + n + gl) x) (off + n) (off + n + gl) :=
            h.set (fun j hj => by omega)
          obtain ⟨k3, rfl⟩ := setAt_agree a1.len h3
          obtain ⟨m', hm, ha⟩ := ih (a1.set (a' := off + n) (b' := off + n + gl) (x := 0) (i := off + n) (fun j hj => by omega)) hd
          refine ⟨m', ?_, ha⟩
          rw [shiftLeft, getAt_agree h (Or.inl (by omega)) h1]
          simp only [lift_ok, u_bind, use, k2, k3]
          exact hm

theorem shiftRight_agree {gl n i m d d'} (hi : gl ≤ i) (h : Agree m d (i - gl) i)
    (hd : GapBuffer.shiftRight gl n i d = .ok d') :
    ∃ m', shiftRight gl n i m = .ok m' ∧ Agree m' d' (i + n - gl) (i + n) := by
  induction n generalizing m d i with
  | zero => rw [GapBuffer.shiftRight] at hd; cases hd; exact ⟨m, rfl, h⟩
  | succ n ih =>
    rw [GapBuffer.shiftRight] at hd
    cases h1 : getAt d i with
    | error e => rw [h1] at hd; cases hd
    | ok x =>
      have hs : subU i gl = .ok (i - gl) := by unfold subU; rw [if_pos hi]
      rw [h1, Except.ok_bind', hs, Except.ok_bind'] at hd
      cases h2 : setAt d (i - gl) x with
      | error e => rw [h2] at hd; cases hd
      | ok d1 =>
        rw [h2, Except.ok_bind'] at hd
        obtain ⟨k2, rfl⟩ := setAt_agree h.len h2
        cases h3 : setAt (d.set (i - gl) x) i 0 with
        | error e => rw [h3] at hd; cases hd
        | ok d2 =>
          rw [h3, Except.ok_bind'] at hd
          have a1 : Agree (m.set (i - gl) (some x)) (d.set (i - gl) x) (i + 1 - gl) (i + 1) :=
            h.set (fun j hj => by omega)
          obtain ⟨k3, rfl⟩ := setAt_agree a1.len h3
          obtain ⟨m', hm, ha⟩ := ih (i := i + 1) (by omega)
            (a1.set (a' := i + 1 - gl) (b' := i + 1) (x := 0) (i := i) (fun j hj => Or.inr hj)) hd
          refine ⟨m', ?_, ?_⟩
          · rw [shiftRight, getAt_agree h (Or.inr (Nat.le_refl _)) h1]
            simp only [lift_ok, u_bind, use, hs, k2, k3]
            exact hm
          · have e : i + (n + 1) = i + 1 + n := by omega
            rw [e]; exact ha

/-- Moving the gap to a place outside it. -/
theorem moveGap_follows {u g o g'} (h : Follows u g) (ho : o < g.gapStart ∨ g.gapStart + g.gapLength ≤ o)
    (hg : GapBuffer.moveGap g o = .ok g') : ∃ u', moveGap u o = .ok u' ∧ Follows u' g' := by
  unfold GapBuffer.moveGap at hg
  unfold moveGap
  rw [h.length, h.start]
  split
  · rename_i hz
    rw [if_pos hz] at hg
    cases hg
    refine ⟨_, rfl, rfl, rfl, h.clock, h.mem.len, fun i _ => h.mem.eq i ?_⟩
    omega
  · rename_i hz
    rw [if_neg hz] at hg
    split
    · rename_i hlt
      rw [if_pos hlt] at hg
      cases h1 : GapBuffer.shiftLeft o g.gapLength (g.gapStart - o) g.data with
      | error e => rw [h1] at hg; cases hg
      | ok d =>
        rw [h1] at hg
        cases hg
        have e : o + (g.gapStart - o) = g.gapStart := by omega
        obtain ⟨m', hm, ha⟩ := shiftLeft_agree (n := g.gapStart - o) (m := u.data) (by rw [e]; exact h.mem) h1
        rw [hm]
        exact ⟨_, rfl, rfl, rfl, h.clock, ha⟩
    · rename_i hlt
      rw [if_neg hlt] at hg
      split
      · rename_i hgt
        rw [if_pos hgt] at hg
        cases h1 : GapBuffer.shiftRight g.gapLength (o - (g.gapStart + g.gapLength)) (g.gapStart + g.gapLength) g.data with
        | error e => rw [h1] at hg; cases hg
        | ok d =>
          have hs : subU o g.gapLength = .ok (o - g.gapLength) := by unfold subU; rw [if_pos (by omega)]
          rw [h1, Except.ok_bind', hs] at hg
          cases hg
          obtain ⟨m', hm, ha⟩ := shiftRight_agree (m := u.data) (by omega)
            (by rw [Nat.add_sub_cancel]; exact h.mem) h1
          rw [hm]
          simp only [u_bind, hs, lift_ok]
          refine ⟨_, rfl, rfl, rfl, h.clock, ?_⟩
          have e1 : g.gapStart + g.gapLength + (o - (g.gapStart + g.gapLength)) - g.gapLength = o - g.gapLength := by omega
          have e2 : g.gapStart + g.gapLength + (o - (g.gapStart + g.gapLength)) = o - g.gapLength + g.gapLength := by omega
          rw [e1, e2] at ha
          exact ha
      · rename_i hgt
        rw [if_neg hgt] at hg
        cases hg
        exact ⟨u, rfl, h⟩

theorem writeToGap_follows {bs : Bytes} {u g g'} (h : Follows u g) (hg : GapBuffer.writeToGap bs g = .ok g') :
    ∃ u', writeToGap bs u = .ok u' ∧ Follows u' g' := by
  induction bs generalizing u g with
  | nil => cases hg; exact ⟨u, rfl, h⟩
  | cons b bs ih =>
    rw [GapBuffer.writeToGap] at hg
    cases h1 : setAt g.data g.gapStart b with
    | error e => rw [h1] at hg; cases hg
    | ok d =>
      rw [h1, Except.ok_bind'] at hg
      obtain ⟨k1, rfl⟩ := setAt_agree h.mem.len h1
      cases h2 : subU g.gapLength 1 with
      | error e => rw [h2] at hg; cases hg
      | ok gl =>
        rw [h2, Except.ok_bind'] at hg
        have hgl : g.gapLength = gl + 1 := by
          unfold subU at h2
          split at h2
          · cases h2; omega
          · cases h2
        obtain ⟨u', hu, hf⟩ := ih (u := ⟨u.data.set g.gapStart (some b), g.gapStart + 1, gl, u.clock⟩)
          (g := ⟨g.data.set g.gapStart b, g.gapStart + 1, gl, g.clock⟩)
          ⟨rfl, rfl, h.clock, h.mem.set (fun j hj => by simp only at hj; omega)⟩ hg
        refine ⟨u', ?_, hf⟩
        rw [writeToGap, h.start, k1, h.length, h2]
        simp only [lift_ok, u_bind]
        exact hu

theorem grow_follows {u g pre post n g'} (h : Follows u g) (hr : Rep g pre post) (hg : GapBuffer.grow A g n = .ok g') :
    ∃ u', grow A u n = .ok u' ∧ Follows u' g' := by
  unfold GapBuffer.grow at hg
  unfold grow
  rw [h.length]
  split
  · rename_i hn
    rw [if_pos hn] at hg
    cases h1 : GapBuffer.moveGap g g.data.length with
    | error e => rw [h1] at hg; cases hg
    | ok g1 =>
      obtain ⟨g2, hm2, hr2⟩ := GapBuffer.moveGap_right (g := g) (pre := pre) (x := post) (y := []) (by simpa using hr)
      rw [← hr.length, h1] at hm2
      cases hm2
      rw [h1, Except.ok_bind'] at hg
      obtain ⟨u1, hu1, hf⟩ := moveGap_follows h (Or.inr (by rw [hr.length]; omega)) h1
      rw [h.mem.len, hu1]
      cases h2 : subU (g1.data ++ A.get g1.clock g1.data.length n).length g1.gapStart with
      | error e => simp only [h2] at hg; cases hg
      | ok gl =>
        simp only [h2] at hg
        cases hg
        have hlen : (u1.data ++ List.replicate (A.get u1.clock u1.data.length n).length none).length = (g1.data ++ A.get g1.clock g1.data.length n).length := by
          simp [hf.mem.len, hf.clock]
        simp only [u_bind]
        rw [hlen, hf.start, h2]
        refine ⟨_, rfl, rfl, rfl, by simp [hf.clock], hlen, fun i hi => ?_⟩
        have e : g1.gapStart + gl = (g1.data ++ A.get g1.clock g1.data.length n).length := by
          unfold subU at h2
          split at h2
          · cases h2; omega
          · cases h2
        have hgl := hr2.rep.length
        simp only [blen, enc, List.flatMap_nil, List.length_nil, Nat.add_zero] at hgl
        simp only at hi ⊢
        rcases hi with hi | hi
        · rw [List.getElem?_append_left (by rw [hf.mem.len]; omega), List.getElem?_append_left (by omega)]
          exact hf.mem.eq i (Or.inl hi)
        · rw [List.getElem?_eq_none (by omega), List.getElem?_eq_none (by omega)]; rfl
  · rename_i hn
    rw [if_neg hn] at hg
    cases hg
    exact ⟨u, rfl, h⟩

theorem new_follows (k : Nat) (t : Text) : Follows (new A k t) (GapBuffer.new A k t) := by
  refine ⟨rfl, rfl, rfl, by simp [new, GapBuffer.new], fun i hi => ?_⟩
  simp only [new, GapBuffer.new] at hi ⊢
  rcases hi with hi | hi
  · rw [List.getElem?_append_left (by simpa using hi), List.getElem?_append_left hi, List.getElem?_map]
  · rw [List.getElem?_eq_none (by simpa using hi), List.getElem?_eq_none (by simpa using hi)]; rfl

theorem insert_follows {u g pre post s p g'} (h : Follows u g) (hr : Rep g pre post)
    (hg : GapBuffer.insert S A g s p = .ok g') : ∃ u', insert S A u s p = .ok u' ∧ Follows u' g' := by
  unfold GapBuffer.insert at hg
  unfold insert
  obtain ⟨g1, hg1, hle, hcase⟩ := GapBuffer.grow_rep (A := A) hr (blen s)
  rw [hg1, Except.ok_bind'] at hg
  obtain ⟨u1, hu1, hf1⟩ := grow_follows h hr hg1
  obtain ⟨pre', post', hr1⟩ : ∃ pre' post', Rep g1 pre' post' := by
    rcases hcase with ⟨_, rfl⟩ | ⟨_, hr'⟩
    · exact ⟨_, _, hr⟩
    · exact ⟨_, _, hr'⟩
  rw [hu1, u_bind]
  cases h2 : GapBuffer.findOffset S g1 p with
  | error e => rw [h2] at hg; cases hg
  | ok o =>
    rw [h2, Except.ok_bind'] at hg
    rw [findOffset_follows hf1 h2, u_bind]
    cases o with
    | none => cases hg; exact ⟨u1, rfl, hf1⟩
    | some o =>
      simp only at hg ⊢
      cases h3 : GapBuffer.moveGap g1 o with
      | error e => rw [h3] at hg; cases hg
      | ok g2 =>
        rw [h3, Except.ok_bind'] at hg
        obtain ⟨u2, hu2, hf2⟩ := moveGap_follows hf1 (findOffset_outside hr1 h2) h3
        rw [hu2, u_bind]
        exact writeToGap_follows hf2 hg

theorem read_follows {u g pre post r o} (h : Follows u g) (hr : Rep g pre post)
    (hg : GapBuffer.read S g r = .ok o) : read S u r = .ok o := by
  unfold GapBuffer.read at hg
  unfold read
  cases h1 : GapBuffer.findOffset S g r.start with
  | error e => rw [h1] at hg; cases hg
  | ok so =>
    rw [h1, Except.ok_bind'] at hg
    rw [findOffset_follows h h1, u_bind]
    cases so with
    | none => cases hg; rfl
    | some so =>
      simp only at hg ⊢
      cases h2 : GapBuffer.findOffset S g r.stop with
      | error e => rw [h2] at hg; cases hg
      | ok eo =>
        rw [h2, Except.ok_bind'] at hg
        rw [findOffset_follows h h2, u_bind]
        cases eo with
        | none => cases hg; rfl
        | some eo =>
          simp only at hg ⊢
          rw [h.start, h.length]
          have ho := findOffset_outside hr h1
          split
          · rename_i hc
            rw [if_pos hc] at hg
            cases h3 : slice g.data so g.gapStart with
            | error e => rw [h3] at hg; cases hg
            | ok first =>
              rw [h3, Except.ok_bind'] at hg
              rw [textOf_agree h.mem (Or.inl (Nat.le_refl _)) h3, u_bind]
              cases h4 : slice g.data (g.gapStart + g.gapLength) eo with
              | error e => rw [h4] at hg; cases hg
              | ok second =>
                rw [h4, Except.ok_bind'] at hg
                cases hg
                rw [textOf_agree h.mem (Or.inr (Nat.le_refl _)) h4, u_bind]; rfl
          · rename_i hc
            rw [if_neg hc] at hg
            cases h3 : slice g.data so eo with
            | error e => rw [h3] at hg; cases hg
            | ok d =>
              rw [h3, Except.ok_bind'] at hg
              cases hg
              rw [textOf_agree h.mem (by omega) h3, u_bind]; rfl

/-- Widening the gap up to a place outside it. -/
theorem widen_follows {u g eo gl} (h : Follows u g) (ho : eo < g.gapStart ∨ g.gapStart + g.gapLength ≤ eo)
    (hs : subU eo g.gapStart = .ok gl) : Follows ⟨u.data, g.gapStart, gl, u.clock⟩ { g with gapLength := gl } := by
  refine ⟨rfl, rfl, h.clock, h.mem.len, fun i hi => h.mem.eq i ?_⟩
  unfold subU at hs
  split at hs
  · cases hs; simp only at hi; omega
  · cases hs

theorem delete_follows {u g pre post r g'} (h : Follows u g) (hr : Rep g pre post)
    (hg : GapBuffer.delete S g r = .ok g') : ∃ u', delete S u r = .ok u' ∧ Follows u' g' := by
  unfold GapBuffer.delete at hg
  unfold delete
  cases h1 : GapBuffer.findOffset S g r.start with
  | error e => rw [h1] at hg; cases hg
  | ok so =>
    rw [h1, Except.ok_bind'] at hg
    rw [findOffset_follows h h1, u_bind]
    cases so with
    | none => cases hg; exact ⟨u, rfl, h⟩
    | some so =>
      simp only at hg ⊢
      cases h2 : GapBuffer.moveGap g so with
      | error e => rw [h2] at hg; cases hg
      | ok g1 =>
        rw [h2, Except.ok_bind'] at hg
        obtain ⟨u1, hu1, hf⟩ := moveGap_follows h (findOffset_outside hr h1) h2
        obtain ⟨pre', post', hr1⟩ : ∃ pre' post', Rep g1 pre' post' := by
          rw [GapBuffer.findOffset_eq hr] at h1
          cases hl : locate (S.segs pre ++ S.segs post) r.start with
          | none => rw [hl] at h1; simp at h1
          | some x =>
            rw [hl] at h1
            simp only [Option.map_some, Except.ok.injEq, Option.some.injEq] at h1
            obtain ⟨hab, _⟩ := locate_eq_some.mp (show locate _ r.start = some (x.1, x.2) from hl)
            obtain ⟨g2, hm, hr2⟩ := GapBuffer.moveGap_to hr hab
            rw [h1, h2] at hm
            cases hm
            exact ⟨_, _, hr2.rep⟩
        rw [hu1, u_bind]
        cases h3 : GapBuffer.findOffset S g1 r.stop with
        | error e => rw [h3] at hg; cases hg
        | ok eo =>
          rw [h3, Except.ok_bind'] at hg
          rw [findOffset_follows hf h3, u_bind]
          cases eo with
          | some eo =>
            simp only at hg ⊢
            cases h4 : subU eo g1.gapStart with
            | error e => rw [h4] at hg; cases hg
            | ok gl =>
              rw [h4] at hg
              cases hg
              rw [hf.start, h4]
              exact ⟨_, rfl, widen_follows hf (findOffset_outside hr1 h3) h4⟩
          | none =>
            simp only at hg ⊢
            cases h5 : GapBuffer.findOffset S g1 ⟨r.stop.line + 1, 0⟩ with
            | error e => rw [h5] at hg; cases hg
            | ok eo =>
              rw [h5, Except.ok_bind'] at hg
              rw [findOffset_follows hf h5, u_bind]
              cases eo with
              | some eo =>
                simp only at hg ⊢
                cases h4 : subU eo g1.gapStart with
                | error e => rw [h4] at hg; cases hg
                | ok gl =>
                  rw [h4] at hg
                  cases hg
                  rw [hf.start, h4]
                  exact ⟨_, rfl, widen_follows hf (findOffset_outside hr1 h5) h4⟩
              | none =>
                simp only at hg ⊢
                cases h4 : subU g1.data.length g1.gapStart with
                | error e => rw [h4] at hg; cases hg
                | ok gl =>
                  rw [h4] at hg
                  cases hg
                  rw [hf.mem.len, hf.start, h4]
                  exact ⟨_, rfl, widen_follows hf (Or.inr (by rw [hr1.length]; omega)) h4⟩

/-- One call. -/
theorem call_follows {u g pre post c o g'} (h : Follows u g) (hr : Rep g pre post)
    (hg : GapBuffer.call S A g c = .ok (o, g')) : ∃ u', call S A u c = .ok (o, u') ∧ Follows u' g' := by
  cases c with
  | insert s p =>
    cases h1 : GapBuffer.insert S A g s p with
    | error e => simp only [GapBuffer.call, h1] at hg; cases hg
    | ok g1 =>
      simp only [GapBuffer.call, h1, Except.ok_bind'] at hg
      cases hg
      obtain ⟨u', hu, hf⟩ := insert_follows h hr h1
      exact ⟨u', by simp only [call, hu, u_bind]; rfl, hf⟩
  | delete p q =>
    cases h1 : GapBuffer.delete S g (Range.new p q) with
    | error e => simp only [GapBuffer.call, h1] at hg; cases hg
    | ok g1 =>
      simp only [GapBuffer.call, h1, Except.ok_bind'] at hg
      cases hg
      obtain ⟨u', hu, hf⟩ := delete_follows h hr h1
      exact ⟨u', by simp only [call, hu, u_bind]; rfl, hf⟩
  | read p q =>
    cases h1 : GapBuffer.read S g (Range.new p q) with
    | error e => simp only [GapBuffer.call, h1] at hg; cases hg
    | ok t =>
      simp only [GapBuffer.call, h1, Except.ok_bind'] at hg
      cases hg
      exact ⟨u, by simp only [call, read_follows h hr h1, u_bind]; rfl, h⟩
  | inBounds p =>
    cases h1 : GapBuffer.findOffset S g p with
    | error e => simp only [GapBuffer.call, GapBuffer.inBounds, h1] at hg; cases hg
    | ok t =>
      simp only [GapBuffer.call, GapBuffer.inBounds, h1, Except.ok_bind'] at hg
      cases hg
      exact ⟨u, by simp only [call, inBounds, findOffset_follows h h1, u_bind]; rfl, h⟩
  | toStr =>
    simp only [GapBuffer.call, GapBuffer.toStr, hr.first, hr.second, Except.ok_bind'] at hg
    cases hg
    refine ⟨u, ?_, h⟩
    simp only [call, toStr]
    rw [h.start, h.length, h.mem.len, textOf_agree h.mem (Or.inl (Nat.le_refl _)) hr.first,
      textOf_agree h.mem (Or.inr (Nat.le_refl _)) hr.second]
    rfl

/-- Any sequence of calls. -/
theorem run_follows {u g pre post} (h : Follows u g) (hr : Rep g pre post) (cs : List GapBuffer.Call) :
    ∃ os u' g', GapBuffer.run S A g cs = .ok (os, g') ∧ run S A u cs = .ok (os, u') ∧ Follows u' g' := by
  induction cs generalizing u g pre post with
  | nil => exact ⟨[], u, g, rfl, rfl, h⟩
  | cons c cs ih =>
    obtain ⟨o, g1, pre', post', hc, hr1, _⟩ := GapBuffer.call_rep (S := S) (A := A) hr c
    obtain ⟨u1, hu1, hf1⟩ := call_follows h hr hc
    obtain ⟨os, u2, g2, k1, k2, k3⟩ := ih hf1 hr1
    refine ⟨o :: os, u2, g2, GapBuffer.run_cons_ok hc k1, ?_, k3⟩
    simp only [run, hu1, u_bind, k2]; rfl

end Scribe.Uninit
