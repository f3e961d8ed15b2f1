import Verif.Proofs.HeapSteps
import Verif.Demo
/-!
# C106: gap buffers are freed when nobody holds them
-/
namespace Scribe.Props
open Scribe.Heap
variable (S : Segmenter) (A : Alloc)

/-- No program uses or drops a gap buffer that is freed, or panics. At every moment the count of each gap buffer is the number of pointers to it that the program holds, and those
are there to which there is a pointer. -/
theorem C106_counts (cs : List Step) : ∃ o, Owners.none.steps S A cs = .ok o ∧
    ∀ p, countAt o.store p = (holders o).count p ∧ ((gapAt o.store p).isSome ↔ p ∈ holders o) := by
  obtain ⟨o, e, k⟩ := steps_ok (S := S) (A := A) cs ok_none
  refine ⟨o, e, fun p => ?_⟩
  have := k.inv p
  unfold countAt gapAt
  split
  · rename_i h1
    rw [h1] at this
    exact ⟨this.1, by simp [List.count_pos_iff.mp this.2.1]⟩
  · rename_i h1
    have h0 : (holders o).count p = 0 := by
      cases hs : o.store[p]? with
      | none => rw [hs] at this; exact this
      | some s =>
        cases s with
        | freed => rw [hs] at this; exact this
        | live n g => exact absurd hs (h1 n g)
    exact ⟨h0.symm, by simp [List.count_eq_zero.mp h0]⟩

theorem freed_of_inv {h : Store} (i : Inv h []) : ∀ s ∈ h, s = .freed := by
  intro s hs
  obtain ⟨p, hp⟩ := List.mem_iff_getElem?.mp hs
  have := i p
  rw [hp] at this
  cases s with
  | freed => rfl
  | live n g => exact absurd this.2.1 (by simp)

theorem drop_buffers (n : Nat) {o : Owners} (k : Ok o) (hn : o.buffers.length = n) :
    ∃ o', o.steps S A (List.replicate n (.dropBuffer 0)) = .ok o' ∧ Ok o' ∧ o'.buffers = [] ∧ o'.cursors = o.cursors ∧ o'.refs = o.refs := by
  induction n generalizing o with
  | zero => exact ⟨o, rfl, k, List.eq_nil_of_length_eq_zero hn, rfl, rfl⟩
  | succ n ih =>
    obtain ⟨o1, e1, k1⟩ := step_ok (S := S) (A := A) k (.dropBuffer 0)
    have hb : ∃ b bs, o.buffers = b :: bs := by
      cases hbs : o.buffers with
      | nil => rw [hbs] at hn; cases hn
      | cons b bs => exact ⟨b, bs, rfl⟩
    obtain ⟨b, bs, hbs⟩ := hb
    have h1 : o1.buffers = bs ∧ o1.cursors = o.cursors ∧ o1.refs = o.refs := by
      simp only [Owners.step, hbs, List.getElem?_cons_zero] at e1
      cases hd : b.drop o.store with
      | error x => rw [hd] at e1; cases e1
      | ok h' => rw [hd] at e1; cases e1; exact ⟨rfl, rfl, rfl⟩
    obtain ⟨o2, e2, k2, h2, h3, h4⟩ := ih k1 (by rw [h1.1]; rw [hbs] at hn; simpa using hn)
    exact ⟨o2, by simp only [List.replicate_succ, Owners.steps, e1, Except.ok_bind', e2], k2, h2, h3.trans h1.2.1, h4.trans h1.2.2⟩

theorem drop_cursors (n : Nat) {o : Owners} (k : Ok o) (hn : o.cursors.length = n) :
    ∃ o', o.steps S A (List.replicate n (.dropCursor 0)) = .ok o' ∧ Ok o' ∧ o'.cursors = [] ∧ o'.buffers = o.buffers ∧ o'.refs = o.refs := by
  induction n generalizing o with
  | zero => exact ⟨o, rfl, k, List.eq_nil_of_length_eq_zero hn, rfl, rfl⟩
  | succ n ih =>
    obtain ⟨o1, e1, k1⟩ := step_ok (S := S) (A := A) k (.dropCursor 0)
    have hb : ∃ b bs, o.cursors = b :: bs := by
      cases hbs : o.cursors with
      | nil => rw [hbs] at hn; cases hn
      | cons b bs => exact ⟨b, bs, rfl⟩
    obtain ⟨b, bs, hbs⟩ := hb
    have h1 : o1.cursors = bs ∧ o1.buffers = o.buffers ∧ o1.refs = o.refs := by
      simp only [Owners.step, hbs, List.getElem?_cons_zero] at e1
      cases hd : b.drop o.store with
      | error x => rw [hd] at e1; cases e1
      | ok h' => rw [hd] at e1; cases e1; exact ⟨rfl, rfl, rfl⟩
    obtain ⟨o2, e2, k2, h2, h3, h4⟩ := ih k1 (by rw [h1.1]; rw [hbs] at hn; simpa using hn)
    exact ⟨o2, by simp only [List.replicate_succ, Owners.steps, e1, Except.ok_bind', e2], k2, h2, h3.trans h1.2.1, h4.trans h1.2.2⟩

theorem drop_refs (n : Nat) {o : Owners} (k : Ok o) (hn : o.refs.length = n) :
    ∃ o', o.steps S A (List.replicate n (.dropRef 0)) = .ok o' ∧ Ok o' ∧ o'.refs = [] ∧ o'.buffers = o.buffers ∧ o'.cursors = o.cursors := by
  induction n generalizing o with
  | zero => exact ⟨o, rfl, k, List.eq_nil_of_length_eq_zero hn, rfl, rfl⟩
  | succ n ih =>
    obtain ⟨o1, e1, k1⟩ := step_ok (S := S) (A := A) k (.dropRef 0)
    have hb : ∃ b bs, o.refs = b :: bs := by
      cases hbs : o.refs with
      | nil => rw [hbs] at hn; cases hn
      | cons b bs => exact ⟨b, bs, rfl⟩
    obtain ⟨b, bs, hbs⟩ := hb
    have h1 : o1.refs = bs ∧ o1.buffers = o.buffers ∧ o1.cursors = o.cursors := by
      simp only [Owners.step, hbs, List.getElem?_cons_zero] at e1
      cases hd : rcDrop o.store b with
      | error x => rw [hd] at e1; cases e1
      | ok h' => rw [hd] at e1; cases e1; exact ⟨rfl, rfl, rfl⟩
    obtain ⟨o2, e2, k2, h2, h3, h4⟩ := ih k1 (by rw [h1.1]; rw [hbs] at hn; simpa using hn)
    exact ⟨o2, by simp only [List.replicate_succ, Owners.steps, e1, Except.ok_bind', e2], k2, h2, h3.trans h1.2.1, h4.trans h1.2.2⟩

/-- Whatever a program has done, when it drops all that it holds every gap buffer is freed. -/
theorem C106_no_leak (cs : List Step) (o : Owners) (h : Owners.none.steps S A cs = .ok o) :
    ∃ o', o.steps S A (dropEverything o) = .ok o' ∧ o'.buffers = [] ∧ o'.cursors = [] ∧ o'.refs = [] ∧ ∀ s ∈ o'.store, s = .freed := by
  obtain ⟨o0, e0, k⟩ := steps_ok (S := S) (A := A) cs ok_none
  rw [h] at e0
  cases e0
  obtain ⟨o1, e1, k1, b1, c1, r1⟩ := drop_buffers S A _ k rfl
  obtain ⟨o2, e2, k2, c2, b2, r2⟩ := drop_cursors S A _ k1 rfl
  obtain ⟨o3, e3, k3, r3, b3, c3⟩ := drop_refs S A _ k2 rfl
  have hb : o3.buffers = [] := by rw [b3, b2, b1]
  have hc : o3.cursors = [] := by rw [c3, c2]
  refine ⟨o3, ?_, hb, hc, r3, freed_of_inv ?_⟩
  · rw [c1] at e2
    rw [r2, r1] at e3
    rw [dropEverything, steps_append, e1]
    show o1.steps S A _ = _
    rw [steps_append, e2]
    exact e3
  · have := k3.inv
    simpa only [holders, hb, hc, r3, List.flatMap_nil, List.map_nil, List.append_nil] using this

/-- Nothing is shared. -/
structure Lone (o : Owners) : Prop where
  cursors : o.cursors = []
  refs : o.refs = []
  own : ∀ b ∈ o.buffers, b.cursor.data = b.data ∧ b.callback.getD [] = []
  nodup : (o.buffers.map (·.data)).Nodup

theorem lone_add {o : Owners} (l : Lone o) (i : Inv o.store (holders o)) {h : Store} {H : History} :
    Lone { o with store := h, buffers := o.buffers ++ [⟨o.store.length, ⟨o.store.length, Cursor.new ⟨0, 0⟩⟩, H, none, none, []⟩] } := by
  refine ⟨l.cursors, l.refs, ?_, ?_⟩
  · intro b hb
    rcases List.mem_append.mp hb with hb | hb
    · exact l.own b hb
    · simp at hb; subst hb; exact ⟨rfl, rfl⟩
  · rw [List.map_append, List.nodup_append]
    refine ⟨l.nodup, by simp, ?_⟩
    intro x hx y hy e
    simp only [List.map_cons, List.map_nil, List.mem_singleton] at hy
    subst hy; subst e
    obtain ⟨b, hb, hd⟩ := List.mem_map.mp hx
    exact i.fresh (by
      simp only [holders, List.mem_append, List.mem_flatMap]
      exact Or.inl ⟨b, hb, by simp [Heap.own, hd]⟩)

theorem lone_step {o o' : Owners} (k : Ok o) (l : Lone o) (c : Step) (hc : c.Simple) (e : o.step S A c = .ok o') : Lone o' := by
  have i := k.inv
  cases c with
  | new n =>
    obtain ⟨h1, h2, h3, e1, e2, e3, i3, _⟩ := new_ok i (GapBuffer.new A n []) ⟨_, _, GapBuffer.new_rep n []⟩
    simp only [Owners.step, HBuf.new, e1, e2, e3, show (rcNew o.store (GapBuffer.new A n [])).1 = o.store.length from rfl, Except.ok_bind', pure_bind] at e
    cases e
    exact lone_add l i
  | fromFile n t ok =>
    obtain ⟨h1, h2, h3, e1, e2, e3, i3, _⟩ := new_ok i (GapBuffer.new A n t) ⟨_, _, GapBuffer.new_rep n t⟩
    cases ok with
    | true =>
      simp only [Owners.step, HBuf.fromFile, e1, e2, e3, show (rcNew o.store (GapBuffer.new A n t)).1 = o.store.length from rfl, Except.ok_bind', pure_bind, if_true] at e
      cases e
      exact lone_add l i
    | false =>
      obtain ⟨h4, e4, i4, _⟩ := i3.drop
      obtain ⟨h5, e5, i5, _⟩ := i4.drop
      simp only [Owners.step, HBuf.fromFile, e1, e2, e3, HCursor.drop, e4, e5, show (rcNew o.store (GapBuffer.new A n t)).1 = o.store.length from rfl, Except.ok_bind', pure_bind, Bool.false_eq_true, if_false] at e
      cases e
      exact ⟨l.cursors, l.refs, by simpa using l.own, by simpa using l.nodup⟩
  | call j c =>
    simp only [Owners.step] at e
    cases hb : o.buffers[j]? with
    | none => rw [hb] at e; cases e; exact l
    | some b =>
      have hm := List.mem_of_getElem? hb
      obtain ⟨b', h', e1, i', s', kc, kk, km⟩ := exec_ok (S := S) (A := A) (i.of_count (holders_pick hb)) (k.sane b hm) c
      simp only [hb, e1, Except.ok_bind'] at e
      cases e
      refine ⟨l.cursors, l.refs, ?_, ?_⟩
      · intro x hx
        rcases List.mem_or_eq_of_mem_set hx with hx | rfl
        · exact l.own x hx
        · exact ⟨kc (l.own b hm).1, kk (l.own b hm).2⟩
      · have h1 := ((pick_perm hb).map (·.data)).nodup_iff.mp l.nodup
        rw [((set_perm hb b').map (·.data)).nodup_iff]
        rw [List.map_cons, List.nodup_cons] at h1 ⊢
        refine ⟨?_, h1.2⟩
        rcases km with km | km
        · rw [km]; exact h1.1
        · intro hc
          obtain ⟨x, hx, hd⟩ := List.mem_map.mp hc
          exact km (by
            simp only [others, List.mem_append, List.mem_flatMap]
            exact Or.inl ⟨x, hx, by simp [Heap.own, hd]⟩)
  | dropBuffer j =>
    simp only [Owners.step] at e
    cases hb : o.buffers[j]? with
    | none => rw [hb] at e; cases e; exact l
    | some b =>
      cases hd : b.drop o.store with
      | error x => simp only [hb, hd] at e; cases e
      | ok h' =>
        simp only [hb, hd] at e
        cases e
        exact ⟨l.cursors, l.refs, fun x hx => l.own x (mem_eraseIdx_of hx),
          l.nodup.sublist ((List.eraseIdx_sublist o.buffers j).map _)⟩
  | _ => exact hc.elim

theorem lone_steps (cs : List Step) {o o' : Owners} (k : Ok o) (l : Lone o) (hc : ∀ c ∈ cs, c.Simple) (e : o.steps S A cs = .ok o') : Lone o' := by
  induction cs generalizing o with
  | nil => cases e; exact l
  | cons c cs ih =>
    obtain ⟨o1, e1, k1⟩ := step_ok (S := S) (A := A) k c
    simp only [Owners.steps, e1, Except.ok_bind'] at e
    exact ih k1 (lone_step S A k l c (hc c (by simp)) e1) (fun x hx => hc x (by simp [hx])) e

/-- A program that clones no cursor has exactly one gap buffer for each of its buffers: that of its text. What a `replace`, a `reload` or an undo of these leaves behind is freed at once. -/
theorem C106_one_each (cs : List Step) (hc : ∀ c ∈ cs, c.Simple) (o : Owners) (h : Owners.none.steps S A cs = .ok o) :
    (liveCells o.store).Perm (o.buffers.map (·.data)) := by
  obtain ⟨o0, e0, k⟩ := steps_ok (S := S) (A := A) cs ok_none
  have e1 := e0
  rw [h] at e1
  cases e1
  have l := lone_steps S A cs ok_none ⟨rfl, rfl, by simp [Owners.none], by simp [Owners.none]⟩ hc h
  refine (List.perm_ext_iff_of_nodup (List.nodup_range.sublist List.filter_sublist) l.nodup).mpr fun p => ?_
  obtain ⟨o1, e2, hcount⟩ := C106_counts S A cs
  rw [h] at e2
  cases e2
  simp only [liveCells, List.mem_filter, List.mem_range, (hcount p).2]
  have hold : p ∈ holders o ↔ p ∈ o.buffers.map (·.data) := by
    simp only [holders, l.cursors, l.refs, List.map_nil, List.append_nil, List.mem_flatMap, List.mem_map]
    constructor
    · rintro ⟨b, hb, hp⟩
      obtain ⟨h1, h2⟩ := l.own b hb
      simp only [own, h1, h2, List.mem_cons, List.not_mem_nil, or_false, or_self] at hp
      exact ⟨b, hb, hp.symm⟩
    · rintro ⟨b, hb, hp⟩
      exact ⟨b, hb, by simp [own, hp]⟩
  rw [hold]
  refine ⟨And.right, fun hp => ⟨?_, hp⟩⟩
  obtain ⟨n, g, hs, _⟩ := k.inv.live (hold.mpr hp)
  exact (List.getElem?_eq_some_iff.mp hs).1

theorem picked {cs : List Step} {o : Owners} (h : Owners.none.steps S A cs = .ok o) {i : Nat} {b : HBuf} (hb : o.buffers[i]? = some b) :
    Inv o.store (own b ++ others o i) ∧ HSane b := by
  obtain ⟨o0, e0, k⟩ := steps_ok (S := S) (A := A) cs ok_none
  rw [h] at e0
  cases e0
  exact ⟨k.inv.of_count (holders_pick hb), k.sane b (List.mem_of_getElem? hb)⟩

/-- A call does to the buffer what the model without pointers says (for moves of the cursor, if it is a cursor of the buffer's own text), and the text of nobody else changes. -/
theorem C106_same (cs : List Step) (o : Owners) (h : Owners.none.steps S A cs = .ok o) (i : Nat) (b : HBuf) (hb : o.buffers[i]? = some b) (c : Buf.Cmd)
    (hm : ∀ m, c = .move m → b.cursor.data = b.data) :
    ∃ o' b' v v', o.step S A (.call i c) = .ok o' ∧ o'.buffers = o.buffers.set i b' ∧ o'.cursors = o.cursors ∧ o'.refs = o.refs ∧
      plain o.store b = some v ∧ Buf.exec S A v c = .ok v' ∧ plain o'.store b' = some v' ∧
      (b.cursor.data = b.data → b'.cursor.data = b'.data) ∧ ∀ q ∈ others o i, q ≠ b.data → gapAt o'.store q = gapAt o.store q := by
  obtain ⟨inv, s⟩ := picked S A h hb
  obtain ⟨v, w⟩ := View.exists inv
  have hv := w.sane inv s
  obtain ⟨v', e, hv'⟩ := exec_safe (S := S) (A := A) hv c
  have go : ∀ b' h', HBuf.exec S A o.store b c = .ok (b', h') → View h' b' v' → (b.cursor.data = b.data → b'.cursor.data = b'.data) →
      (∀ q ∈ others o i, q ≠ b.data → gapAt h' q = gapAt o.store q) →
      ∃ o' b' v v', o.step S A (.call i c) = .ok o' ∧ o'.buffers = o.buffers.set i b' ∧ o'.cursors = o.cursors ∧ o'.refs = o.refs ∧
        plain o.store b = some v ∧ Buf.exec S A v c = .ok v' ∧ plain o'.store b' = some v' ∧
        (b.cursor.data = b.data → b'.cursor.data = b'.data) ∧ ∀ q ∈ others o i, q ≠ b.data → gapAt o'.store q = gapAt o.store q :=
    fun b' h' e1 w1 k1 f1 => ⟨{ o with store := h', buffers := o.buffers.set i b' }, b', v, v',
      by simp only [Owners.step, hb, e1, Except.ok_bind']; rfl, rfl, rfl, rfl, w.plain, e, w1.plain, k1, f1⟩
  by_cases hk : ∃ x, c = .setCallback x
  · obtain ⟨x, rfl⟩ := hk
    obtain ⟨h', e1, i', g'⟩ := setCallback_ok (ps := []) inv (if x then some [] else none) (by cases x <;> rfl)
    refine go { b with callback := if x then some [] else none } h' (by simp only [HBuf.exec, e1, Except.ok_bind']; rfl) ?_ id
      (fun q hq _ => g' q (List.mem_append_right _ hq))
    cases e
    exact ⟨(g' b.data (by simp [own])).trans w.data, w.cursor, w.history, w.group, by cases x <;> rfl, w.log⟩
  · obtain ⟨b', h', e', k⟩ := exec_good inv w hv hm (fun x hc => hk ⟨x, hc⟩) e
    exact go b' h' e' k.view k.keeps k.frame

/-- After `replace` the buffer has a new gap buffer. The old one is freed, unless somebody else holds it, who then sees the old text, unchanged. -/
theorem C106_replace (cs : List Step) (o : Owners) (h : Owners.none.steps S A cs = .ok o) (i : Nat) (b : HBuf) (hb : o.buffers[i]? = some b)
    (v : Buf) (hv : plain o.store b = some v) (t : Text) (ht : v.data.toStr ≠ .ok t) :
    ∃ o' b', o.step S A (.call i (.replace t)) = .ok o' ∧ o'.buffers = o.buffers.set i b' ∧ b'.data ∉ holders o ∧ b'.cursor.data = b'.data ∧
      gapAt o'.store b.data = if b.data ∈ holders o' then some v.data else none := by
  obtain ⟨inv, s⟩ := picked S A h hb
  have w := view_of hv
  have hsane := w.sane inv s
  obtain ⟨pre, post, hr⟩ := w.rep inv
  have hs := hr.toStr
  obtain ⟨v1, e1, _⟩ := replaceContent_safe (S := S) (A := A) v t
  obtain ⟨b1, h1, e2, k, fresh, kept⟩ := replaceContent_good inv w e1
  have k2 := store_good k.inv k.view (.replace (pre ++ post) t)
  have hd : (b1.store (.replace (pre ++ post) t)).data = b1.data := by unfold HBuf.store; split <;> rfl
  have hcd : (b1.store (.replace (pre ++ post) t)).cursor = b1.cursor := by unfold HBuf.store; split <;> rfl
  have hcb : (b1.store (.replace (pre ++ post) t)).callback = b1.callback := by unfold HBuf.store; split <;> rfl
  refine ⟨{ o with store := h1, buffers := o.buffers.set i (b1.store (.replace (pre ++ post) t)) }, _, ?_, rfl, ?_, ?_, ?_⟩
  · have hne : t ≠ pre ++ post := fun hc => ht (by rw [hs, hc])
    simp only [Owners.step, hb, HBuf.exec, HBuf.replace, get_of_gapAt w.data, lift_ok hs, Except.ok_bind', if_neg hne, HBuf.edit, HBuf.runOp, e2, pure_bind]
    rfl
  · rw [hd]
    intro hc
    have : 0 < (own b ++ others o i).count b1.data := by rw [← holders_pick hb]; exact List.count_pos_iff.mpr hc
    exact fresh (List.count_pos_iff.mp this)
  · rw [hd, hcd]
    exact replaceContent_own e2
  · have e3 : o.step S A (.call i (.replace t)) = .ok { o with store := h1, buffers := o.buffers.set i (b1.store (.replace (pre ++ post) t)) } := by
      have hne : t ≠ pre ++ post := fun hc => ht (by rw [hs, hc])
      simp only [Owners.step, hb, HBuf.exec, HBuf.replace, get_of_gapAt w.data, lift_ok hs, Except.ok_bind', if_neg hne, HBuf.edit, HBuf.runOp, e2, pure_bind]
      rfl
    have hall : ∀ q, (holders { o with store := h1, buffers := o.buffers.set i (b1.store (.replace (pre ++ post) t)) }).count q = (own b1 ++ others o i).count q := by
      intro q
      simp only [holders, others, List.count_append, count_set hb, own, hd, hcd, hcb]
      omega
    have inv' := k.inv.of_count fun q => (hall q).symm
    split
    · rename_i hm
      have hm' : b.data ∈ own b1 ++ others o i := by
        have := List.count_pos_iff.mpr hm
        rw [hall] at this
        exact List.count_pos_iff.mp this
      have hne : b1.data ≠ b.data := fun hc => fresh (by simp [own, hc])
      have hcu : b1.cursor.data = b1.data := replaceContent_own e2
      have : b.data ∈ b.callback.getD [] ++ others o i := by
        simp only [own, hcu, k.callback, List.cons_append, List.mem_cons, Ne.symm hne, false_or] at hm'
        exact hm'
      exact (kept _ this).trans w.data
    · rename_i hm
      have := inv' b.data
      rw [List.count_eq_zero.mpr hm] at this
      unfold gapAt
      split
      · rename_i h2
        rw [h2] at this
        exact absurd this.2.1 (by simp)
      · rfl

/-- A new buffer is that of the model without pointers, with a cursor in its own text, which nobody had before; if the path of the file cannot be canonicalised there is none. All that
was held is as before. -/
theorem C106_made (cs : List Step) (o : Owners) (h : Owners.none.steps S A cs = .ok o) (c : Step) (m : Option Buf) (hm : c.makes A = some m) :
    ∃ o' bs, o.step S A c = .ok o' ∧ o'.buffers = o.buffers ++ bs ∧ o'.cursors = o.cursors ∧ o'.refs = o.refs ∧ bs.map (plain o'.store) = m.toList.map some ∧
      (∀ b ∈ bs, b.cursor.data = b.data ∧ b.data ∉ holders o) ∧ ∀ q ∈ holders o, gapAt o'.store q = gapAt o.store q := by
  obtain ⟨o0, e0, k⟩ := steps_ok (S := S) (A := A) cs ok_none
  rw [h] at e0
  cases e0
  have i := k.inv
  cases c with
  | new n =>
    cases hm
    obtain ⟨h1, h2, h3, e1, e2, e3, i3, g3, n3⟩ := new_ok i (GapBuffer.new A n []) ⟨_, _, GapBuffer.new_rep n []⟩
    refine ⟨{ o with store := h3, buffers := o.buffers ++ [⟨o.store.length, ⟨o.store.length, Cursor.new ⟨0, 0⟩⟩, History.new, none, none, []⟩] }, _, ?_, rfl, rfl, rfl, ?_, ?_, g3⟩
    · simp only [Owners.step, HBuf.new, e1, e2, e3, show (rcNew o.store (GapBuffer.new A n [])).1 = o.store.length from rfl, Except.ok_bind', pure_bind]
      rfl
    · simp [plain, n3, Buf.new]
    · simpa using i.fresh
  | fromFile n t ok =>
    obtain ⟨h1, h2, h3, e1, e2, e3, i3, g3, n3⟩ := new_ok i (GapBuffer.new A n t) ⟨_, _, GapBuffer.new_rep n t⟩
    cases ok with
    | true =>
      cases hm
      refine ⟨{ o with store := h3, buffers := o.buffers ++ [⟨o.store.length, ⟨o.store.length, Cursor.new ⟨0, 0⟩⟩, History.new.setMark, none, none, []⟩] }, _, ?_, rfl, rfl, rfl, ?_, ?_, g3⟩
      · simp only [Owners.step, HBuf.fromFile, e1, e2, e3, show (rcNew o.store (GapBuffer.new A n t)).1 = o.store.length from rfl, Except.ok_bind', pure_bind, if_true]
        rfl
      · simp [plain, n3, Buf.fromContent]
      · simpa using i.fresh
    | false =>
      cases hm
      obtain ⟨h4, e4, i4, g4⟩ := i3.drop
      obtain ⟨h5, e5, i5, g5⟩ := i4.drop
      refine ⟨{ o with store := h5, buffers := o.buffers ++ [] }, [], ?_, rfl, rfl, rfl, rfl, by simp, fun q hq => ((g5 q hq).trans (g4 q (by simp [hq]))).trans (g3 q hq)⟩
      simp only [Owners.step, HBuf.fromFile, e1, e2, e3, HCursor.drop, e4, e5, show (rcNew o.store (GapBuffer.new A n t)).1 = o.store.length from rfl, Except.ok_bind', pure_bind, Bool.false_eq_true, if_false]
      rfl
  | _ => cases hm

/-- A call on a gap buffer through a pointer that the program has kept does to it what the call does, and everybody who holds it sees that; nothing else changes. -/
theorem C106_edit (cs : List Step) (o : Owners) (h : Owners.none.steps S A cs = .ok o) (k : Nat) (q : Ref) (hq : o.refs[k]? = some q) (c : GapBuffer.Call) :
    ∃ o' g r g', o.step S A (.edit k c) = .ok o' ∧ gapAt o.store q = some g ∧ GapBuffer.call S A g c = .ok (r, g') ∧ o'.buffers = o.buffers ∧ o'.cursors = o.cursors ∧
      o'.refs = o.refs ∧ ∀ p, gapAt o'.store p = if p = q then some g' else gapAt o.store p := by
  obtain ⟨o0, e0, k0⟩ := steps_ok (S := S) (A := A) cs ok_none
  rw [h] at e0
  cases e0
  have hm : q ∈ holders o := by
    have := List.mem_of_getElem? hq
    simp [holders, this]
  obtain ⟨g, hg, e, pre, post, hr⟩ := k0.inv.gap hm
  obtain ⟨r, g', pre', post', h1, h2, _⟩ := GapBuffer.call_rep (S := S) (A := A) hr c
  obtain ⟨h', e2, _, g1, g2⟩ := k0.inv.put hm ⟨pre', post', h2⟩
  refine ⟨{ o with store := h' }, g, r, g', by simp only [Owners.step, hq, e, lift_ok h1, e2, Except.ok_bind']; rfl, hg, h1, rfl, rfl, rfl, fun p => ?_⟩
  split
  · rename_i hp; rw [hp]; exact g1
  · rename_i hp; exact g2 p hp

/-- A cursor that the program has kept moves in the text of the gap buffer it holds, whoever else uses that; nothing else changes. -/
theorem C106_moved (cs : List Step) (o : Owners) (h : Owners.none.steps S A cs = .ok o) (j : Nat) (c : HCursor) (hc : o.cursors[j]? = some c) (m : Cursor.Move) :
    ∃ o' g at', o.step S A (.moveCursor j m) = .ok o' ∧ gapAt o.store c.data = some g ∧ Cursor.move S g c.at_ m = .ok at' ∧ o'.cursors = o.cursors.set j ⟨c.data, at'⟩ ∧
      o'.buffers = o.buffers ∧ o'.refs = o.refs ∧ o'.store = o.store := by
  obtain ⟨o0, e0, k0⟩ := steps_ok (S := S) (A := A) cs ok_none
  rw [h] at e0
  cases e0
  obtain ⟨g, hg, e, pre, post, hr⟩ := k0.inv.gap (p := c.data) (by
    have : c.data ∈ o.cursors.map (·.data) := List.mem_map.mpr ⟨c, List.mem_of_getElem? hc, rfl⟩
    simp only [holders, List.mem_append, this, true_or, or_true])
  obtain ⟨c', h1, _⟩ := Cursor.move_rep (S := S) hr c.at_ m
  exact ⟨{ o with cursors := o.cursors.set j { c with at_ := c' } }, g, c', by simp only [Owners.step, hc, e, lift_ok h1, Except.ok_bind']; rfl, hg, h1, rfl, rfl, rfl, rfl⟩

/-! ## Cases -/

/-- A file opened after other steps. -/
example : ((Step.fromFile 0 (Demo.s "ab") true).makes Demo.tight).isSome = true ∧ (Owners.none.steps Demo.seg Demo.tight [.new 0, .cloneCursor 0, .fromFile 0 (Demo.s "ab") true]).map
    (fun o => (o.buffers.map fun b => (b.data, b.cursor.data, b.history.mark), (List.range 2).map (countAt o.store))) =
    .ok ([(0, 0, none), (1, 1, some 0)], [3, 2]) := by decide +kernel

/-- Two buffers, of which the first has its cursor cloned and its text replaced. -/
def demoHeap : List Step :=
  [.new 0, .fromFile 0 (Demo.s "abc") true, .fromFile 0 (Demo.s "lost") false, .call 1 (.move .right), .cloneCursor 1, .call 1 (.replace (Demo.s "xy")), .call 1 (.insert (Demo.s "z"))]

/-- The counts, and the texts. The old text is still there, for the clone; the text of the file without a canonical path is freed. -/
example : (Owners.none.steps Demo.seg Demo.tight demoHeap).map (fun o => ((List.range 5).map (countAt o.store), (List.range 5).map fun p => (gapAt o.store p).map fun g => g.toStr.toOption)) =
    .ok ([2, 1, 0, 2, 0], [some (some []), some (some (Demo.s "abc")), none, some (some (Demo.s "xzy")), none]) := by decide +kernel

/-- When the clone is dropped the old text is freed; a callback keeps what it has captured until it is replaced. -/
example : (Owners.none.steps Demo.seg Demo.tight (demoHeap ++ [.cloneRef 0, .callback 1 1, .dropCursor 0])).map (fun o => (List.range 5).map (countAt o.store)) = .ok [2, 1, 0, 2, 0] ∧
    (Owners.none.steps Demo.seg Demo.tight (demoHeap ++ [.cloneRef 0, .callback 1 1, .dropCursor 0, .call 1 .undo, .call 1 (.setCallback true)])).map
      (fun o => (List.range 5).map (countAt o.store)) = .ok [2, 0, 0, 2, 0] := by
  constructor <;> decide +kernel

/-- Undo of a replacement makes a third gap buffer, and frees the second. -/
example : (∀ c ∈ [Step.fromFile 0 (Demo.s "abc") true, .call 0 (.replace (Demo.s "xy")), .call 0 .undo], c.Simple) ∧
    (Owners.none.steps Demo.seg Demo.tight [.fromFile 0 (Demo.s "abc") true, .call 0 (.replace (Demo.s "xy")), .call 0 .undo]).map (fun o => (o.store.length, liveCells o.store)) = .ok (3, [2]) := by
  constructor
  · intro c hc; simp only [List.mem_cons, List.not_mem_nil, or_false] at hc; rcases hc with rfl | rfl | rfl <;> trivial
  · decide +kernel

/-- After all is dropped. -/
example : (Owners.none.steps Demo.seg Demo.tight demoHeap >>= fun o => (o.steps Demo.seg Demo.tight (dropEverything o)).map (·.store)) = .ok (List.replicate 4 .freed) := by decide +kernel

/-- A buffer with the clone of the cursor of another one, assigned to it: its moves look at the other's text, which stays while it is so. -/
example : (Owners.none.steps Demo.seg Demo.tight [.fromFile 0 (Demo.s "abc") true, .fromFile 0 (Demo.s "x") true, .cloneCursor 0, .assign 1 0, .dropBuffer 0, .call 0 (.move .endOfLine)]).map
    (fun o => (o.buffers.map fun b => (b.data, b.cursor.data, b.cursor.at_.position), (List.range 2).map (countAt o.store))) = .ok ([(1, 0, ⟨0, 3⟩)], [1, 1]) := by decide +kernel

/-- An insertion through a pointer is seen by the buffer, and a kept cursor can go there. -/
example : (Owners.none.steps Demo.seg Demo.tight [.fromFile 0 (Demo.s "abc") true, .cloneCursor 0, .cloneRef 0, .edit 0 (.insert (Demo.s "xy") ⟨0, 1⟩), .moveCursor 0 .endOfLine]).map
    (fun o => (o.buffers.map fun b => (gapAt o.store b.data).map fun g => g.toStr.toOption, o.cursors.map fun c => c.at_.position)) = .ok ([some (some (Demo.s "axybc"))], [⟨0, 5⟩]) := by decide +kernel

end Scribe.Props
