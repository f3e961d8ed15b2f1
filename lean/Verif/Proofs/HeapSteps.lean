import Verif.Proofs.Heap
/-! Programs that clone and drop. -/
namespace Scribe.Heap
variable {S : Segmenter} {A : Alloc}

theorem count_set {l : List HBuf} {i : Nat} {b : HBuf} (e : l[i]? = some b) (x : HBuf) (q : Ref) :
    ((l.set i x).flatMap own).count q = (own x).count q + ((l.eraseIdx i).flatMap own).count q := by
  rw [((set_perm e x).flatMap_right own).count_eq]
  simp

theorem count_cur {l : List HCursor} {i : Nat} {c : HCursor} (e : l[i]? = some c) (q : Ref) :
    (l.map (·.data)).count q = [c.data].count q + ((l.eraseIdx i).map (·.data)).count q := by
  rw [((pick_perm e).map _).count_eq]
  simp only [List.map_cons, List.count_cons, List.count_nil]
  omega

theorem count_ref {l : List Ref} {i : Nat} {p : Ref} (e : l[i]? = some p) (q : Ref) :
    l.count q = [p].count q + (l.eraseIdx i).count q := by
  rw [(pick_perm e).count_eq]
  simp only [List.count_cons, List.count_nil]
  omega

theorem holders_pick {o : Owners} {i : Nat} {b : HBuf} (e : o.buffers[i]? = some b) (q : Ref) :
    (holders o).count q = (own b ++ others o i).count q := by
  simp only [holders, others, List.count_append, count_pick e]
  omega

theorem mem_eraseIdx_of {α : Type} {l : List α} {i : Nat} {x : α} (h : x ∈ l.eraseIdx i) : x ∈ l := (List.eraseIdx_sublist l i).subset h

theorem step_ok {o : Owners} (k : Ok o) (c : Step) : ∃ o', o.step S A c = .ok o' ∧ Ok o' := by
  have i := k.inv
  cases c with
  | new n =>
    obtain ⟨h1, h2, h3, e1, e2, e3, i3, _⟩ := new_ok i (GapBuffer.new A n []) ⟨_, _, GapBuffer.new_rep n []⟩
    refine ⟨{ o with store := h3, buffers := o.buffers ++ [⟨o.store.length, ⟨o.store.length, Cursor.new ⟨0, 0⟩⟩, History.new, none, none, []⟩] }, ?_, ?_, ?_⟩
    · simp only [Owners.step, HBuf.new, e1, e2, e3, show (rcNew o.store (GapBuffer.new A n [])).1 = o.store.length from rfl, Except.ok_bind', pure_bind]
      rfl
    · exact i3.of_count fun q => by simp only [holders, own, List.count_cons, List.count_append, List.flatMap_append, List.flatMap_cons, List.flatMap_nil, List.count_nil, Option.getD_none]; omega
    · intro b hb
      rcases List.mem_append.mp hb with hb | hb
      · exact k.sane b hb
      · simp at hb; subst hb; exact ⟨by simp [History.new], by simp [History.new], by simp⟩
  | fromFile n t ok =>
    obtain ⟨h1, h2, h3, e1, e2, e3, i3, _⟩ := new_ok i (GapBuffer.new A n t) ⟨_, _, GapBuffer.new_rep n t⟩
    cases ok with
    | true =>
      refine ⟨{ o with store := h3, buffers := o.buffers ++ [⟨o.store.length, ⟨o.store.length, Cursor.new ⟨0, 0⟩⟩, History.new.setMark, none, none, []⟩] }, ?_, ?_, ?_⟩
      · simp only [Owners.step, HBuf.fromFile, e1, e2, e3, show (rcNew o.store (GapBuffer.new A n t)).1 = o.store.length from rfl, Except.ok_bind', pure_bind, if_true]
        rfl
      · exact i3.of_count fun q => by simp only [holders, own, List.count_cons, List.count_append, List.flatMap_append, List.flatMap_cons, List.flatMap_nil, List.count_nil, Option.getD_none]; omega
      · intro b hb
        rcases List.mem_append.mp hb with hb | hb
        · exact k.sane b hb
        · simp at hb; subst hb; exact ⟨by simp [History.new, History.setMark], by simp [History.new, History.setMark], by simp⟩
    | false =>
      obtain ⟨h4, e4, i4, _⟩ := i3.drop
      obtain ⟨h5, e5, i5, _⟩ := i4.drop
      refine ⟨{ o with store := h5, buffers := o.buffers ++ [] }, ?_, ?_, ?_⟩
      · simp only [Owners.step, HBuf.fromFile, e1, e2, e3, HCursor.drop, e4, e5, show (rcNew o.store (GapBuffer.new A n t)).1 = o.store.length from rfl, Except.ok_bind', pure_bind, Bool.false_eq_true, if_false]
        rfl
      · exact i5.of_count fun q => by simp only [holders, List.append_nil]
      · rw [List.append_nil]; exact k.sane
  | call j c =>
    simp only [Owners.step]
    cases hb : o.buffers[j]? with
    | none => exact ⟨o, rfl, k⟩
    | some b =>
      have hm := List.mem_of_getElem? hb
      obtain ⟨b', h', e, i', s', _⟩ := exec_ok (S := S) (A := A) (i.of_count (holders_pick hb)) (k.sane b hm) c
      refine ⟨{ o with store := h', buffers := o.buffers.set j b' }, by simp only [e, Except.ok_bind']; rfl, ?_, ?_⟩
      · exact i'.of_count fun q => by simp only [holders, others, List.count_append, count_set hb]; omega
      · intro x hx
        rcases List.mem_or_eq_of_mem_set hx with hx | rfl
        · exact k.sane x hx
        · exact s'
  | cloneCursor j =>
    simp only [Owners.step]
    cases hb : o.buffers[j]? with
    | none => exact ⟨o, rfl, k⟩
    | some b =>
      have i' := i.of_count (holders_pick hb)
      obtain ⟨h', e, i2, _⟩ := i'.clone (p := b.cursor.data) (by simp [own])
      refine ⟨{ o with store := h', cursors := o.cursors ++ [b.cursor] }, by simp only [e, Except.ok_bind']; rfl, ?_, k.sane⟩
      exact i2.of_count fun q => by
        have := count_pick hb q
        simp only [holders, others, List.count_append, List.count_cons, List.map_append, List.map_cons, List.map_nil, List.count_nil] at this ⊢; omega
  | copyCursor j =>
    simp only [Owners.step]
    cases hc : o.cursors[j]? with
    | none => exact ⟨o, rfl, k⟩
    | some c =>
      obtain ⟨h', e, i2, _⟩ := i.clone (p := c.data) (by
        have : c.data ∈ o.cursors.map (·.data) := List.mem_map.mpr ⟨c, List.mem_of_getElem? hc, rfl⟩
        simp only [holders, List.mem_append, this, true_or, or_true])
      refine ⟨{ o with store := h', cursors := o.cursors ++ [c] }, by simp only [e, Except.ok_bind']; rfl, ?_, k.sane⟩
      exact i2.of_count fun q => by
        simp only [holders, List.count_append, List.count_cons, List.map_append, List.map_cons, List.map_nil, List.count_nil]; omega
  | assign j l =>
    simp only [Owners.step]
    cases hb : o.buffers[j]? with
    | none => exact ⟨o, rfl, k⟩
    | some b =>
      cases hc : o.cursors[l]? with
      | none => exact ⟨o, rfl, k⟩
      | some c =>
        have i' : Inv o.store (b.cursor.data :: (own { b with cursor := c } ++ ((o.buffers.eraseIdx j).flatMap own ++ ((o.cursors.eraseIdx l).map (·.data) ++ o.refs)))) :=
          i.of_count fun q => by
            simp only [holders, List.count_append, count_pick hb, count_cur hc, own, List.count_cons, List.count_nil]; omega
        obtain ⟨h', e, i2, _⟩ := i'.drop
        refine ⟨{ o with store := h', buffers := o.buffers.set j { b with cursor := c }, cursors := o.cursors.eraseIdx l }, by simp only [HCursor.drop, e, Except.ok_bind']; rfl, ?_, ?_⟩
        · exact i2.of_count fun q => by simp only [holders, List.count_append, count_set hb]; omega
        · intro x hx
          rcases List.mem_or_eq_of_mem_set hx with hx | rfl
          · exact k.sane x hx
          · have := k.sane b (List.mem_of_getElem? hb)
            exact ⟨this.previous, this.next, this.group⟩
  | moveCursor j m =>
    simp only [Owners.step]
    cases hc : o.cursors[j]? with
    | none => exact ⟨o, rfl, k⟩
    | some c =>
      obtain ⟨g, _, e, pre, post, hr⟩ := i.gap (p := c.data) (by
        have : c.data ∈ o.cursors.map (·.data) := List.mem_map.mpr ⟨c, List.mem_of_getElem? hc, rfl⟩
        simp only [holders, List.mem_append, this, true_or, or_true])
      obtain ⟨c', h1, _⟩ := Cursor.move_rep (S := S) hr c.at_ m
      refine ⟨{ o with cursors := o.cursors.set j { c with at_ := c' } }, by simp only [e, lift_ok h1, Except.ok_bind']; rfl, ?_, k.sane⟩
      have : (o.cursors.set j { c with at_ := c' }).map (·.data) = o.cursors.map (·.data) := by
        rw [List.map_set]
        obtain ⟨hl, rfl⟩ := List.getElem?_eq_some_iff.mp hc
        apply List.ext_getElem (by simp)
        intro n h1 h2
        rw [List.getElem_set]
        split
        · rename_i h; subst h; simp
        · rfl
      simp only [holders, this]
      exact i
  | dropCursor j =>
    simp only [Owners.step]
    cases hc : o.cursors[j]? with
    | none => exact ⟨o, rfl, k⟩
    | some c =>
      have i' : Inv o.store (c.data :: (o.buffers.flatMap own ++ ((o.cursors.eraseIdx j).map (·.data) ++ o.refs))) := i.of_count fun q => by
        simp only [holders, List.count_append, count_cur hc, List.count_cons, List.count_nil]; omega
      obtain ⟨h', e, i2, _⟩ := i'.drop
      exact ⟨{ o with store := h', cursors := o.cursors.eraseIdx j }, by simp only [HCursor.drop, e, Except.ok_bind']; rfl, i2, k.sane⟩
  | cloneRef j =>
    simp only [Owners.step]
    cases hc : o.cursors[j]? with
    | none => exact ⟨o, rfl, k⟩
    | some c =>
      obtain ⟨h', e, i2, _⟩ := i.clone (p := c.data) (by
        have : c.data ∈ o.cursors.map (·.data) := List.mem_map.mpr ⟨c, List.mem_of_getElem? hc, rfl⟩
        simp only [holders, List.mem_append, this, true_or, or_true])
      refine ⟨{ o with store := h', refs := o.refs ++ [c.data] }, by simp only [e, Except.ok_bind']; rfl, ?_, k.sane⟩
      exact i2.of_count fun q => by
        simp only [holders, List.count_append, List.count_cons, List.count_nil]; omega
  | newRef n t =>
    obtain ⟨i2, _⟩ := i.new (g := GapBuffer.new A n t) ⟨_, _, GapBuffer.new_rep n t⟩
    refine ⟨_, rfl, ?_, k.sane⟩
    exact i2.of_count fun q => by
      have : (rcNew o.store (GapBuffer.new A n t)).1 = o.store.length := rfl
      simp only [holders, this, List.count_append, List.count_cons, List.count_nil]; omega
  | cursorOf j p =>
    simp only [Owners.step]
    cases hc : o.refs[j]? with
    | none => exact ⟨o, rfl, k⟩
    | some r =>
      refine ⟨_, rfl, ?_, k.sane⟩
      exact i.of_count fun q => by
        have := count_ref hc q
        simp only [holders, List.count_append, List.count_cons, List.map_append, List.map_cons, List.map_nil, List.count_nil] at this ⊢; omega
  | edit j c =>
    simp only [Owners.step]
    cases hc : o.refs[j]? with
    | none => exact ⟨o, rfl, k⟩
    | some r =>
      have hm : r ∈ holders o := by
        have := List.mem_of_getElem? hc
        simp [holders, this]
      obtain ⟨g, _, e, pre, post, hr⟩ := i.gap hm
      obtain ⟨ob, g', pre', post', h1, h2, _⟩ := GapBuffer.call_rep (S := S) (A := A) hr c
      obtain ⟨h', e2, i2, _⟩ := i.put hm ⟨pre', post', h2⟩
      exact ⟨{ o with store := h' }, by simp only [e, lift_ok h1, e2, Except.ok_bind']; rfl, i2, k.sane⟩
  | dropRef j =>
    simp only [Owners.step]
    cases hc : o.refs[j]? with
    | none => exact ⟨o, rfl, k⟩
    | some r =>
      have i' : Inv o.store (r :: (o.buffers.flatMap own ++ (o.cursors.map (·.data) ++ o.refs.eraseIdx j))) := i.of_count fun q => by
        have := count_ref hc q
        simp only [holders, List.count_append, List.count_cons, List.count_nil] at this ⊢; omega
      obtain ⟨h', e, i2, _⟩ := i'.drop
      exact ⟨{ o with store := h', refs := o.refs.eraseIdx j }, by simp only [e, Except.ok_bind']; rfl, i2, k.sane⟩
  | callback j n =>
    simp only [Owners.step]
    cases hb : o.buffers[j]? with
    | none => exact ⟨o, rfl, k⟩
    | some b =>
      have i' : Inv o.store (own b ++ (o.refs.take n ++ ((o.buffers.eraseIdx j).flatMap own ++ (o.cursors.map (·.data) ++ o.refs.drop n)))) := i.of_count fun q => by
        have h1 : o.refs.count q = (o.refs.take n).count q + (o.refs.drop n).count q := by rw [← List.count_append, List.take_append_drop]
        simp only [holders, List.count_append, count_pick hb]; omega
      obtain ⟨h', e, i2, _⟩ := setCallback_ok i' (some (o.refs.take n)) rfl
      refine ⟨{ o with store := h', buffers := o.buffers.set j { b with callback := some (o.refs.take n) }, refs := o.refs.drop n }, by simp only [e, Except.ok_bind']; rfl, ?_, ?_⟩
      · exact i2.of_count fun q => by simp only [holders, List.count_append, count_set hb]; omega
      · intro x hx
        rcases List.mem_or_eq_of_mem_set hx with hx | rfl
        · exact k.sane x hx
        · have := k.sane b (List.mem_of_getElem? hb)
          exact ⟨this.previous, this.next, this.group⟩
  | dropBuffer j =>
    simp only [Owners.step]
    cases hb : o.buffers[j]? with
    | none => exact ⟨o, rfl, k⟩
    | some b =>
      have i' : Inv o.store (b.data :: b.cursor.data :: (b.callback.getD [] ++ others o j)) := i.of_count fun q => by
        rw [holders_pick hb, own]; rfl
      obtain ⟨h1, e1, i1, _⟩ := i'.drop
      obtain ⟨h2, e2, i2, _⟩ := i1.drop
      obtain ⟨h3, e3, i3, _⟩ := i2.drops
      exact ⟨{ o with store := h3, buffers := o.buffers.eraseIdx j }, by simp only [HBuf.drop, HCursor.drop, e1, e2, e3, Except.ok_bind']; rfl, i3,
        fun x hx => k.sane x (mem_eraseIdx_of hx)⟩

theorem ok_none : Ok Owners.none := ⟨fun p => by simp [Owners.none, holders, SlotOk], by simp [Owners.none]⟩

theorem steps_ok (cs : List Step) {o : Owners} (k : Ok o) : ∃ o', o.steps S A cs = .ok o' ∧ Ok o' := by
  induction cs generalizing o with
  | nil => exact ⟨o, rfl, k⟩
  | cons c cs ih =>
    obtain ⟨o1, e1, k1⟩ := step_ok (S := S) (A := A) k c
    obtain ⟨o2, e2, k2⟩ := ih k1
    exact ⟨o2, by simp only [Owners.steps, e1, Except.ok_bind', e2], k2⟩

theorem steps_append (cs ds : List Step) (o : Owners) : o.steps S A (cs ++ ds) = (o.steps S A cs).bind fun o' => o'.steps S A ds := by
  induction cs generalizing o with
  | nil => rfl
  | cons c cs ih =>
    simp only [List.cons_append, Owners.steps]
    cases o.step S A c with
    | error e => rfl
    | ok o1 => exact ih o1

end Scribe.Heap
