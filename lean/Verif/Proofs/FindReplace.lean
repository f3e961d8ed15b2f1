import Verif.Spec.FindReplace
import Verif.Proofs.Typing
import Verif.Props.Search
namespace Scribe.Spec
open Buf (Cmd)
open Props
variable {S : Segmenter} {P : Text → Prop}

/-- The place after `x`. -/
def pos (x : Text) : Position := endPos (x.map fun c => [c])

theorem pos_snoc (x : Text) (c : Char) : pos (x ++ [c]) = if c = '\n' then ⟨(pos x).line + 1, 0⟩ else ⟨(pos x).line, (pos x).offset + 1⟩ := by
  unfold pos
  rw [List.map_append, List.map_singleton, endPos_concat, step]
  simp

theorem pos_append_no_nl (x w : Text) (h : '\n' ∉ w) : pos (x ++ w) = ⟨(pos x).line, (pos x).offset + w.length⟩ := by
  induction w using List.reverseRecOn with
  | nil => simp
  | append_singleton w c ih =>
    have hc : c ≠ '\n' := fun e => h (by simp [e])
    rw [← List.append_assoc, pos_snoc, if_neg hc, ih (fun hm => h (by simp [hm]))]
    simp; omega

theorem pos_line_le (x w : Text) : (pos x).line ≤ (pos (x ++ w)).line := by
  induction w using List.reverseRecOn with
  | nil => simp
  | append_singleton w c ih =>
    rw [← List.append_assoc, pos_snoc]
    split <;> simp <;> omega

theorem pos_append_nl (x w : Text) (h : '\n' ∈ w) : (pos x).line < (pos (x ++ w)).line := by
  obtain ⟨a, b, rfl⟩ := List.append_of_mem h
  have e : x ++ (a ++ '\n' :: b) = ((x ++ a) ++ ['\n']) ++ b := by simp
  have h1 := pos_line_le x a
  have h2 := pos_line_le ((x ++ a) ++ ['\n']) b
  rw [pos_snoc, if_pos rfl] at h2
  rw [e]
  exact Nat.lt_of_lt_of_le (Nat.lt_succ_of_le h1) h2

theorem pos_before (x w : Text) (h : w ≠ []) : Before (pos x) (pos (x ++ w)) := by
  unfold pos
  rw [List.map_append]
  exact endPos_lt_append _ (by simpa using h)

/-- The places of `needle` in `t`, which comes after `x`. -/
def occ (needle : Text) : Text → Text → List Position
  | _, [] => []
  | x, c :: t => (if needle <+: c :: t then [pos x] else []) ++ occ needle (x ++ [c]) t

theorem mem_occ {needle : Text} (hn : needle ≠ []) {x t : Text} {p : Position} :
    p ∈ occ needle x t ↔ ∃ a b, t = a ++ needle ++ b ∧ p = pos (x ++ a) := by
  induction t generalizing x with
  | nil =>
    simp only [occ, List.not_mem_nil, false_iff]
    rintro ⟨a, b, h, _⟩
    have := congrArg List.length h
    simp at this
    exact hn (List.length_eq_zero_iff.mp (by omega))
  | cons c t ih =>
    rw [occ, List.mem_append, ih]
    constructor
    · rintro (h | ⟨a, b, rfl, rfl⟩)
      · split at h
        · rename_i hp
          obtain ⟨y, hy⟩ := hp
          exact ⟨[], y, by simpa using hy.symm, by simpa using h⟩
        · cases h
      · exact ⟨c :: a, b, by simp, by simp⟩
    · rintro ⟨a, b, h1, rfl⟩
      cases a with
      | nil =>
        left
        rw [if_pos ⟨b, by simpa using h1.symm⟩]; simp
      | cons c' a =>
        right
        simp only [List.cons_append, List.cons.injEq] at h1
        obtain ⟨rfl, h1⟩ := h1
        exact ⟨a, b, h1, by simp⟩

theorem occ_sorted {needle : Text} (hn : needle ≠ []) (x t : Text) : (occ needle x t).Pairwise Before := by
  induction t generalizing x with
  | nil => exact List.Pairwise.nil
  | cons c t ih =>
    rw [occ]
    split
    · rw [List.singleton_append, List.pairwise_cons]
      refine ⟨fun q hq => ?_, ih _⟩
      obtain ⟨a, b, _, rfl⟩ := (mem_occ hn).mp hq
      rw [List.append_assoc]
      exact pos_before _ _ (by simp)
    · exact ih _

theorem sorted_ext {a b : List Position} (ha : a.Pairwise Before) (hb : b.Pairwise Before) (h : ∀ p, p ∈ a ↔ p ∈ b) : a = b := by
  induction a generalizing b with
  | nil =>
    cases b with
    | nil => rfl
    | cons q b => have := (h q).mpr (by simp); cases this
  | cons p a ih =>
    cases b with
    | nil => have := (h p).mp (by simp); cases this
    | cons q b =>
      rw [List.pairwise_cons] at ha hb
      have e : p = q := by
        rcases List.mem_cons.mp ((h p).mp (by simp)) with e | e
        · exact e
        · rcases List.mem_cons.mp ((h q).mpr (by simp)) with e' | e'
          · exact e'.symm
          · exact absurd ((ha.1 _ e').trans (hb.1 _ e)) (Before.irrefl _)
      subst e
      congr 1
      refine ih ha.2 hb.2 fun r => ?_
      constructor
      · intro hr
        rcases List.mem_cons.mp ((h r).mp (by simp [hr])) with e | e
        · subst e; exact absurd (ha.1 _ hr) (Before.irrefl _)
        · exact e
      · intro hr
        rcases List.mem_cons.mp ((h r).mpr (by simp [hr])) with e | e
        · subst e; exact absurd (hb.1 _ hr) (Before.irrefl _)
        · exact e

theorem line_start (x : Text) : ∃ u w : Text, x = u ++ w ∧ (u = [] ∨ u.getLast? = some '\n') ∧ '\n' ∉ w := by
  induction x using List.reverseRecOn with
  | nil => exact ⟨[], [], rfl, Or.inl rfl, by simp⟩
  | append_singleton x c ih =>
    obtain ⟨u, w, rfl, h1, h2⟩ := ih
    by_cases hc : c = '\n'
    · subst hc; exact ⟨u ++ w ++ ['\n'], [], by simp, Or.inr (by simp), by simp⟩
    · exact ⟨u, w ++ [c], by simp, h1, by simp [h2, Ne.symm hc]⟩

/-- In one-byte text, what `search` returns are the places of the needle. -/
theorem search_eq {b : Buf} {t needle : Text} {ps : List Position} (h : b.data.toStr = .ok t) (hn : needle ≠ []) (hnl : '\n' ∉ needle)
    (hcr : '\r' ∉ needle) (ha : ∀ c ∈ t, c.utf8Size = 1) (hs : b.search needle = .ok ps) : ps = occ needle [] t := by
  obtain ⟨r', h1, h2, h3⟩ := C30_search_text b t needle h hn hnl hcr
  obtain rfl := Except.ok.inj (h1.symm.trans hs)
  refine sorted_ext h2 (occ_sorted hn _ _) fun p => ?_
  rw [h3, mem_occ hn]
  constructor
  · rintro ⟨u, w, v, e1, e2, e3, e4, e5⟩
    refine ⟨u ++ w, v, e1, ?_⟩
    rw [List.nil_append, pos, endPos_singletons u w e2 e3]
    have hw : blen w = w.length := blen_ascii (fun c hc => ha c (by rw [e1]; simp [hc]))
    cases p; simp only at e4 e5; rw [e4, e5, hw]
  · rintro ⟨a, v, e1, rfl⟩
    obtain ⟨u, w, rfl, e2, e3⟩ := line_start a
    have hw : blen w = w.length := blen_ascii (fun c hc => ha c (by rw [e1]; simp [hc]))
    rw [List.nil_append, pos, endPos_singletons u w e2 e3]
    exact ⟨u, w, v, by rw [e1], e2, e3, rfl, hw.symm⟩

/-- The places of the needle that are replaced. -/
def chosen (needle : Text) : Text → Nat → Text → List Position
  | _, _, [] => []
  | x, k + 1, c :: t => chosen needle (x ++ [c]) k t
  | x, 0, c :: t => if needle <+: c :: t then pos x :: chosen needle (x ++ [c]) (needle.length - 1) t else chosen needle (x ++ [c]) 0 t

/-- The last place chosen was before `x`: the needle has `k` more characters, or has ended. -/
def Last (needle : Text) (q : Position) (x : Text) (k : Nat) (t : Text) : Prop :=
  ∃ x0 w, x = x0 ++ w ∧ q = pos x0 ∧ (k = 0 ∧ needle.length ≤ w.length ∨ w.length + k = needle.length ∧ needle <+: w ++ t)

theorem disjoint_occ {needle : Text} (hn : needle ≠ []) (hnl : '\n' ∉ needle) (x t : Text) (k : Nat) :
    (∀ q, Last needle q x k t → disjoint needle.length (some q) (occ needle x t) = chosen needle x k t) ∧
      (k = 0 → disjoint needle.length none (occ needle x t) = chosen needle x 0 t) := by
  have hlen : needle.length ≠ 0 := fun h => hn (List.length_eq_zero_iff.mp h)
  induction t generalizing x k with
  | nil => constructor <;> intros <;> cases k <;> rfl
  | cons c t ih =>
    have first : ∀ (hp : needle <+: c :: t), Last needle (pos x) (x ++ [c]) (needle.length - 1) t := fun hp =>
      ⟨x, [c], rfl, rfl, Or.inr ⟨by simp; omega, hp⟩⟩
    constructor
    · rintro q ⟨x0, w, rfl, rfl, hk⟩
      rcases hk with ⟨rfl, hk⟩ | ⟨hk, hpre⟩
      · -- the last needle has ended
        have far : ¬ ((pos (x0 ++ w)).line = (pos x0).line ∧ (pos (x0 ++ w)).offset < (pos x0).offset + needle.length) := by
          by_cases hw : '\n' ∈ w
          · have := pos_append_nl x0 w hw; omega
          · rw [pos_append_no_nl x0 w hw]; simp; omega
        rw [occ, chosen]
        split
        · rename_i hp
          rw [List.singleton_append, disjoint, if_neg far, ((ih _ (needle.length - 1)).1 _ (first hp))]
        · rw [List.nil_append]
          exact (ih _ 0).1 _ ⟨x0, w ++ [c], by simp, rfl, Or.inl ⟨rfl, by simp; omega⟩⟩
      · cases k with
        | zero =>
          -- the last needle has just ended: as above
          have hk : needle.length ≤ w.length := by omega
          have far : ¬ ((pos (x0 ++ w)).line = (pos x0).line ∧ (pos (x0 ++ w)).offset < (pos x0).offset + needle.length) := by
            by_cases hw : '\n' ∈ w
            · have := pos_append_nl x0 w hw; omega
            · rw [pos_append_no_nl x0 w hw]; simp; omega
          rw [occ, chosen]
          split
          · rename_i hp
            rw [List.singleton_append, disjoint, if_neg far, ((ih _ (needle.length - 1)).1 _ (first hp))]
          · rw [List.nil_append]
            exact (ih _ 0).1 _ ⟨x0, w ++ [c], by simp, rfl, Or.inl ⟨rfl, by simp; omega⟩⟩
        | succ k =>
          have hw : '\n' ∉ w := by
            intro hm
            obtain ⟨y, hy⟩ := hpre
            have : w = needle.take w.length := by
              have h1 := congrArg (List.take w.length) hy
              rw [List.take_append_of_le_length (by omega), List.take_left] at h1
              exact h1.symm
            rw [this] at hm
            exact hnl (List.mem_of_mem_take hm)
          have near : (pos (x0 ++ w)).line = (pos x0).line ∧ (pos (x0 ++ w)).offset < (pos x0).offset + needle.length := by
            rw [pos_append_no_nl x0 w hw]; exact ⟨rfl, by simp; omega⟩
          have next : Last needle (pos x0) (x0 ++ w ++ [c]) k t :=
            ⟨x0, w ++ [c], by simp, rfl, Or.inr ⟨by simp; omega, by simpa using hpre⟩⟩
          rw [occ, chosen]
          split
          · rw [List.singleton_append, disjoint, if_pos near]; exact (ih _ k).1 _ next
          · rw [List.nil_append]; exact (ih _ k).1 _ next
    · intro _
      rw [occ, chosen]
      split
      · rename_i hp
        rw [List.singleton_append, disjoint, ((ih _ (needle.length - 1)).1 _ (first hp))]
      · rw [List.nil_append]; exact (ih _ 0).2 rfl

theorem substitute_skip (needle r : Text) (k : Nat) (t : Text) : substitute needle r k t = substitute needle r 0 (t.drop k) := by
  induction t generalizing k with
  | nil => cases k <;> rfl
  | cons c t ih =>
    cases k with
    | zero => rfl
    | succ k => rw [substitute, ih, List.drop_succ_cons]

theorem singles (hP : Closed S.segs P) {t : Text} (ht : ∀ c ∈ t, P [c]) : S.segs t = t.map fun c => [c] := by
  have := hP.apart (t.map fun c => [c]) (by simpa using ht)
  rwa [flatten_singletons] at this

theorem over_single (h1 : OneByte P) {t : Text} (ht : Over S.segs P t) : ∀ c ∈ t, P [c] := by
  intro c hc
  rw [← S.join t] at hc
  obtain ⟨s, hs, hcs⟩ := List.mem_flatten.mp hc
  obtain ⟨x, rfl, _⟩ := h1 s (ht s hs)
  rw [List.mem_singleton] at hcs
  rw [hcs]; exact ht _ hs

theorem single_over (hP : Closed S.segs P) {t : Text} (ht : ∀ c ∈ t, P [c]) : Over S.segs P t := by
  unfold Over
  rw [singles hP ht]; simpa using ht

/-- Replacing one occurrence. -/
theorem change_step (hP : Closed S.segs P) {d : Doc} {x needle y r : Text} (hnl : '\n' ∉ needle)
    (ht : d.text = x ++ needle ++ y) (ho : ∀ c ∈ x ++ needle ++ y, P [c]) (hr : Over S.segs P r) :
    CleanCmds S.segs d (change needle.length r (pos x)) ∧ (d.steps S.segs (change needle.length r (pos x))).text = x ++ r ++ y := by
  have hx : ∀ c ∈ x, P [c] := fun c h => ho c (by simp [h])
  have hy : ∀ c ∈ y, P [c] := fun c h => ho c (by simp [h])
  have hend : (⟨(pos x).line, (pos x).offset + needle.length⟩ : Position) = pos (x ++ needle) := (pos_append_no_nl x needle hnl).symm
  have hs : S.segs d.text = x.map (fun c => [c]) ++ (needle ++ y).map fun c => [c] := by
    rw [ht, singles hP ho]; simp
  have hs2 : S.segs d.text = (x ++ needle).map (fun c => [c]) ++ y.map fun c => [c] := by rw [hs]; simp
  have hov : Over S.segs P d.text := by rw [ht]; exact single_over hP ho
  have hle : (pos x).line < (pos (x ++ needle)).line ∨ (pos x).line = (pos (x ++ needle)).line ∧ (pos x).offset ≤ (pos (x ++ needle)).offset := by
    rw [← hend]; right; simp
  have hlo : lo (pos x) (pos (x ++ needle)) = pos x := by unfold lo; rw [if_pos hle]
  have hhi : hi (pos x) (pos (x ++ needle)) = pos (x ++ needle) := by unfold hi; rw [if_pos hle]
  unfold change
  rw [hend]
  obtain ⟨e1, e2⟩ := step_edit S.segs d (Doc.deleteEdit S.segs d.text (lo (pos x) (pos (x ++ needle))) (hi (pos x) (pos (x ++ needle)))) rfl
  have t1 : (d.step S.segs (.deleteRange (pos x) (pos (x ++ needle)))).text = x ++ y := by
    show (d.edit _ _).text = _
    rw [e1]
    show deleteRange _ _ _ _ = _
    rw [hlo, hhi]
    unfold deleteRange pos
    rw [after_cut hs2, hs, locate_append]
    simp only [flatten_singletons]
  have c1 : CleanCmd S.segs d (.deleteRange (pos x) (pos (x ++ needle))) := by
    refine ⟨over_cleanDelete hP _ _ hov, Or.inl ?_⟩
    rw [hhi]; exact exists_cut hs2
  generalize hd1 : d.step S.segs (.deleteRange (pos x) (pos (x ++ needle))) = d1 at t1
  have hxy : ∀ c ∈ x ++ y, P [c] := fun c h => (List.mem_append.mp h).elim (hx c) (hy c)
  have hs3 : S.segs d1.text = x.map (fun c => [c]) ++ y.map fun c => [c] := by rw [t1, singles hP hxy]; simp
  have hov1 : Over S.segs P d1.text := by rw [t1]; exact single_over hP hxy
  have cur : (d1.step S.segs (.move (.to (pos x)))).cursor.position = pos x := by
    show (tryMove S.segs d1.text d1.cursor (pos x)).position = pos x
    rw [tryMove, if_pos (show exists? S.segs d1.text (pos x) = true from exists_cut hs3)]
  have t2 : (d1.step S.segs (.move (.to (pos x)))).text = d1.text := rfl
  generalize hd2 : d1.step S.segs (.move (.to (pos x))) = d2 at cur t2
  have c3 : CleanCmd S.segs d2 (.insert r) := ⟨over_cleanInsert hP _ (by rw [t2]; exact hov1) hr, fun h => hP.noCrlf (hr _ h)⟩
  obtain ⟨e3, _⟩ := step_edit S.segs d2 (Doc.insertEdit S.segs d2.text r d2.cursor.position) rfl
  have t3 : (d2.step S.segs (.insert r)).text = x ++ r ++ y := by
    show (d2.edit _ _).text = _
    rw [e3]
    show insertAt _ _ _ _ = _
    rw [t2, cur, pos, insert_at hs3, flatten_singletons, flatten_singletons]
  refine ⟨⟨c1, ?_⟩, ?_⟩
  · rw [hd1]
    refine ⟨trivial, ?_⟩
    rw [hd2]
    exact ⟨c3, trivial⟩
  · rw [steps_cons, hd1, steps_cons, hd2, steps_cons, steps_nil, t3]

theorem changes_step (hP : Closed S.segs P) (h1 : OneByte P) {needle r : Text} (hn : needle ≠ []) (hnl : '\n' ∉ needle) (hr : Over S.segs P r)
    (t x : Text) (k : Nat) (hk : k = 0 ∨ k < needle.length) (d : Doc) (ht : d.text = x ++ t) (ho : ∀ c ∈ x ++ t, P [c]) :
    CleanCmds S.segs d ((chosen needle x k t).reverse.flatMap (change needle.length r)) ∧
      (d.steps S.segs ((chosen needle x k t).reverse.flatMap (change needle.length r))).text = x ++ t.take k ++ substitute needle r k t := by
  have hlen : needle.length ≠ 0 := fun h => hn (List.length_eq_zero_iff.mp h)
  have hrc : ∀ c ∈ r, P [c] := over_single h1 hr
  induction t generalizing x k with
  | nil => cases k <;> exact ⟨trivial, by simpa [chosen, substitute, Doc.steps] using ht⟩
  | cons c t ih =>
    cases k with
    | succ k =>
      have := ih (x ++ [c]) k (by omega) (by rw [ht]; simp) (by simpa using ho)
      rw [chosen, substitute]
      simpa using this
    | zero =>
      by_cases hp : needle <+: c :: t
      · rw [chosen, if_pos hp, substitute, if_pos hp, List.reverse_cons, List.flatMap_append]
        obtain ⟨k1, k2⟩ := ih (x ++ [c]) (needle.length - 1) (by omega) (by rw [ht]; simp) (by simpa using ho)
        obtain ⟨y, hy⟩ := hp
        have htake : [c] ++ t.take (needle.length - 1) = needle := by
          have := congrArg (List.take needle.length) hy
          rw [List.take_left] at this
          obtain ⟨n, hn'⟩ : ∃ n, needle.length = n + 1 := ⟨needle.length - 1, by omega⟩
          rw [hn', List.take_succ_cons] at this
          rw [hn', Nat.add_sub_cancel]; exact this.symm
        rw [List.append_assoc, List.append_assoc, ← List.append_assoc [c], htake, ← List.append_assoc] at k2
        have hsub : ∀ z ∈ substitute needle r (needle.length - 1) t, P [z] := by
          have : ∀ (t : Text) (k : Nat), (∀ z ∈ t, P [z]) → ∀ z ∈ substitute needle r k t, P [z] := by
            intro t
            induction t with
            | nil => intro k _ z hz; cases k <;> cases hz
            | cons a t ih =>
              intro k ht z hz
              cases k with
              | succ k => exact ih k (fun z hz => ht z (by simp [hz])) z hz
              | zero =>
                rw [substitute] at hz
                split at hz
                · rcases List.mem_append.mp hz with hz | hz
                  · exact hrc z hz
                  · exact ih _ (fun z hz => ht z (by simp [hz])) z hz
                · rcases List.mem_cons.mp hz with rfl | hz
                  · exact ht _ (by simp)
                  · exact ih _ (fun z hz => ht z (by simp [hz])) z hz
          exact this t _ (fun z hz => ho z (by simp [hz]))
        obtain ⟨m1, m2⟩ := change_step (d := d.steps S.segs ((chosen needle (x ++ [c]) (needle.length - 1) t).reverse.flatMap (change needle.length r)))
          (x := x) (needle := needle) (y := substitute needle r (needle.length - 1) t) (r := r) hP hnl k2 (by
            intro z hz
            rcases List.mem_append.mp hz with hz | hz
            · rcases List.mem_append.mp hz with hz | hz
              · exact ho z (by simp [hz])
              · refine ho z ?_
                rw [← hy]; simp [hz]
            · exact hsub z hz) hr
        have es : ∀ a b : List Cmd, d.steps S.segs (a ++ b) = (d.steps S.segs a).steps S.segs b := fun a b => List.foldl_append ..
        refine ⟨cleanCmds_app.mpr ⟨k1, ?_⟩, ?_⟩
        · simpa using m1
        · rw [es]
          simpa using m2
      · rw [chosen, if_neg hp, substitute, if_neg hp]
        have := ih (x ++ [c]) 0 (Or.inl rfl) (by rw [ht]; simp) (by simpa using ho)
        simpa using this

/-- Replacing all occurrences. -/
theorem changeAll_step (hP : Closed S.segs P) (h1 : OneByte P) {b : Buf} {t needle r : Text} {ps : List Position} (hn : needle ≠ []) (hnl : '\n' ∉ needle)
    (hcr : '\r' ∉ needle) (hr : Over S.segs P r) (ht : b.data.toStr = .ok t) (ho : Over S.segs P t) (hs : b.search needle = .ok ps) {d : Doc} (hd : d.text = t) :
    CleanCmds S.segs d (changeAll needle.length r ps) ∧ (d.steps S.segs (changeAll needle.length r ps)).text = substitute needle r 0 t := by
  have hc := over_single h1 ho
  have ha : ∀ c ∈ t, c.utf8Size = 1 := fun c hm => by
    obtain ⟨x, e, hx⟩ := h1 _ (hc c hm)
    obtain rfl := List.singleton_inj.mp e; exact hx
  rw [changeAll, search_eq ht hn hnl hcr ha hs, (disjoint_occ hn hnl [] t 0).2 rfl]
  simpa using changes_step hP h1 hn hnl hr t [] 0 (Or.inl rfl) d hd hc

end Scribe.Spec
