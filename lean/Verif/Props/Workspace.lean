import Verif.Proofs.Workspace
import Verif.Demo
import Mathlib.Data.List.Nodup
import Mathlib.Data.List.Sublists
/-!
# Properties C38–C44: workspaces
-/
namespace Scribe.Props
open Spec Workspace
variable {σ : Type} {A : Alloc}

theorem rel_new {fs : Fs} {path : Path} {s : Syntaxes σ} {w : Workspace σ} (h : Workspace.new fs path (some s) = some w) :
    Rel A w nothing ∧ w.syntaxes = s := by
  unfold Workspace.new at h
  cases hc : fs.canon path with
  | none => rw [hc] at h; cases h
  | some c => rw [hc] at h; cases h; exact ⟨.empty rfl rfl rfl rfl rfl, rfl⟩

theorem Runs.rel {s : Syntaxes σ} {cs : List (Call σ)} {w : Workspace σ} (h : Runs A s cs w) : Rel A w (nothing.calls A s cs) ∧ w.syntaxes = s := by
  obtain ⟨fs, path, w0, h1, h2⟩ := h
  obtain ⟨k1, k2⟩ := rel_new (A := A) h1
  obtain ⟨w', e1, e2, _, e4⟩ := k1.calls cs
  rw [h2] at e1
  cases e1
  rw [k2] at e2 e4
  exact ⟨e2, e4⟩

theorem contents_eq {w : Workspace σ} {d : Desk σ} (h : Rel A w d) : contents w = d.tabs.items := by
  unfold contents
  cases h with
  | empty h hb hi hc => rw [hi, hb, h]
  | sel a c z h hs hb hi hc hn => rw [hi, hc, hb, h]; exact set_mid _ _ _ _

theorem calls_append (w : Workspace σ) (cs ds : List (Call σ)) : w.calls A (cs ++ ds) = w.calls A cs >>= fun w => w.calls A ds := by
  induction cs generalizing w with
  | nil => rfl
  | cons c cs ih =>
    simp only [List.cons_append, Workspace.calls]
    cases h : w.call A c with
    | error e => rfl
    | ok r => simp only [Except.ok_bind']; exact ih r.2

theorem desk_append (s : Syntaxes σ) (d : Desk σ) (cs ds : List (Call σ)) : d.calls A s (cs ++ ds) = (d.calls A s cs).calls A s ds := by
  induction cs generalizing d with
  | nil => rfl
  | cons c cs ih => exact ih _

theorem nexts (s : Syntaxes σ) (d : Desk σ) (k : Nat) (hs : d.tabs.sel < d.tabs.items.length) :
    d.calls A s (List.replicate k .next) = ⟨⟨d.tabs.items, (d.tabs.sel + k) % d.tabs.items.length⟩, d.nextId⟩ := by
  induction k generalizing d with
  | zero => simp only [List.replicate_zero, Desk.calls, Nat.add_zero, Nat.mod_eq_of_lt hs]
  | succ k ih =>
    rw [List.replicate_succ, Desk.calls, ih _ (Nat.mod_lt _ (by omega))]
    simp only [Desk.call, Tabs.next, Nat.mod_add_mod]
    rw [show d.tabs.sel + 1 + k = d.tabs.sel + (k + 1) by omega]

/-- **C38.** A workspace after any sequence of calls behaves like the list with a selection after the same calls: nothing panics, the current buffer is the
selected item, the index is its index, and going to the next buffer `k` times shows the item `k` places further, cyclically. -/
theorem C38_workspace_is_a_list (A : Alloc) (s : Syntaxes σ) (fs : Fs) (path : Path) (w0 : Workspace σ) (h0 : Workspace.new fs path (some s) = some w0)
    (cs : List (Call σ)) :
    let t := (nothing.calls A s cs).tabs
    ∃ w, w0.calls A cs = .ok w ∧ w.current = t.selected ∧ w.currentBufferIndex = (if t.items.isEmpty then none else some t.sel) ∧
      (t.items ≠ [] → t.sel < t.items.length) ∧ contents w = t.items ∧
      ∀ k, ∃ w', w.calls A (List.replicate k .next) = .ok w' ∧ (t.items ≠ [] → w'.current = t.items[(t.sel + k) % t.items.length]?) := by
  intro t
  obtain ⟨k1, k2⟩ := rel_new (A := A) h0
  obtain ⟨w, e1, e2, _, e4⟩ := k1.calls cs
  rw [k2] at e2 e4
  have hlt : t.items ≠ [] → t.sel < t.items.length := by
    intro hne
    cases e2 with
    | empty h => exact absurd h hne
    | sel a c z h hs =>
      show (nothing.calls A s cs).tabs.sel < (nothing.calls A s cs).tabs.items.length
      rw [hs, h]; simp
  refine ⟨w, e1, e2.selected.symm, e2.index, hlt, contents_eq e2, fun k => ?_⟩
  obtain ⟨w', f1, f2, _⟩ := e2.calls (List.replicate k .next)
  refine ⟨w', f1, fun hne => ?_⟩
  rw [nexts _ _ _ (hlt hne)] at f2
  exact f2.selected.symm

/-- C38: the result (`Ok` or `Err`) of every call is as specified as well. -/
theorem C38_results (A : Alloc) (s : Syntaxes σ) (cs : List (Call σ)) (w : Workspace σ) (h : Runs A s cs w) (c : Call σ) :
    ∃ w', w.call A c = .ok (((nothing.calls A s cs).call A s c).1, w') ∧ Runs A s (cs ++ [c]) w' := by
  obtain ⟨h1, h2⟩ := h.rel
  obtain ⟨w', e1, _⟩ := h1.call c
  rw [h2] at e1
  refine ⟨w', e1, ?_⟩
  obtain ⟨fs, path, w0, k1, k2⟩ := h
  refine ⟨fs, path, w0, k1, ?_⟩
  rw [calls_append, k2]
  simp only [Except.ok_bind', Workspace.calls, e1]

/-! ### C39 -/

theorem items_call (s : Syntaxes σ) (d : Desk σ) (c : Call σ) :
    (d.tabs.items.eraseIdx d.tabs.sel).Sublist (d.call A s c).2.tabs.items := by
  have ha : ∀ x, d.tabs.items.Sublist (d.tabs.add x).items := by
    intro x
    unfold Tabs.add
    split
    · rename_i h; rw [h]; exact List.nil_sublist _
    · dsimp only
      conv_lhs => rw [← List.take_append_drop (d.tabs.sel + 1) d.tabs.items]
      exact List.Sublist.append (List.Sublist.refl _) (List.sublist_cons_self _ _)
  have he : ∀ f, (d.tabs.items.eraseIdx d.tabs.sel).Sublist (d.tabs.edit f).items := by
    intro f
    have : d.tabs.items.eraseIdx d.tabs.sel = (d.tabs.items.modify d.tabs.sel f).eraseIdx d.tabs.sel := by
      by_cases hlt : d.tabs.sel < d.tabs.items.length
      · obtain ⟨a, x, z, h1, h2⟩ := split_at _ _ hlt
        rw [h1, h2, modify_mid, eraseIdx_mid, eraseIdx_mid]
      · rw [List.modify_eq_self (by omega)]
    rw [this]
    exact List.eraseIdx_sublist _ _
  have hs : (d.tabs.items.eraseIdx d.tabs.sel).Sublist d.tabs.items := List.eraseIdx_sublist _ _
  cases c with
  | add b => exact hs.trans (ha _)
  | openPath k f0 f1 f2 p =>
    simp only [Desk.call]
    split
    · exact hs
    · split
      · exact hs.trans (ha _)
      · exact hs
  | close =>
    show (d.tabs.items.eraseIdx d.tabs.sel).Sublist (d.tabs.items.take d.tabs.sel ++ d.tabs.items.drop (d.tabs.sel + 1))
    rw [List.eraseIdx_eq_take_drop_succ]
  | next => exact hs
  | previous => exact hs
  | edit f => exact he f
  | updateSyntax => exact he _

/-- **C39.** No call changes a buffer that is not selected, removes it, or reorders them: they are all still there afterwards. -/
theorem C39_others_untouched (A : Alloc) (s : Syntaxes σ) (cs : List (Call σ)) (w w' : Workspace σ) (h : Runs A s cs w) (c : Call σ) (r : Bool)
    (hc : w.call A c = .ok (r, w')) (i : Nat) (hi : w.currentBufferIndex = some i) :
    ((contents w).eraseIdx i).Sublist (contents w') := by
  obtain ⟨h1, h2⟩ := h.rel
  obtain ⟨w'', e1, e2, _⟩ := h1.call c
  rw [hc] at e1
  cases e1
  rw [contents_eq h1, contents_eq e2]
  have : i = (nothing.calls A s cs).tabs.sel := by
    have := h1.index
    unfold currentBufferIndex at hi
    rw [hi] at this
    split at this
    · cases this
    · exact (Option.some.inj this)
  rw [this]
  exact items_call _ _ _

/-- C39: after any selecting of other buffers, when no buffer has been opened and the same index is selected again, the workspace with all its buffers is
exactly as before. -/
theorem C39_coming_back (A : Alloc) (s : Syntaxes σ) (cs ms : List (Call σ)) (w w' : Workspace σ) (h : Runs A s cs w) (hm : ∀ m ∈ ms, Selects m)
    (hr : w.calls A ms = .ok w') (hn : w'.bufferPaths.length = w.bufferPaths.length) (hi : w'.currentBufferIndex = w.currentBufferIndex) : w' = w := by
  obtain ⟨h1, h2⟩ := h.rel
  have key : ∀ (ms : List (Call σ)) (d : Desk σ), (∀ m ∈ ms, Selects m) →
      ((d.calls A s ms).tabs.items = d.tabs.items ∧ (d.calls A s ms).nextId = d.nextId) ∨ d.tabs.items.length < (d.calls A s ms).tabs.items.length := by
    intro ms
    induction ms with
    | nil => intro d _; exact Or.inl ⟨rfl, rfl⟩
    | cons m ms ih =>
      intro d hm
      have h0 : ((d.call A s m).2.tabs.items = d.tabs.items ∧ (d.call A s m).2.nextId = d.nextId) ∨ d.tabs.items.length < (d.call A s m).2.tabs.items.length := by
        have := hm m (by simp)
        cases m with
        | add b => exact this.elim
        | close => exact this.elim
        | edit f => exact this.elim
        | updateSyntax => exact this.elim
        | next => exact Or.inl ⟨rfl, rfl⟩
        | previous => exact Or.inl ⟨rfl, rfl⟩
        | openPath k f0 f1 f2 p =>
          simp only [Desk.call]
          split
          · exact Or.inl ⟨rfl, rfl⟩
          · split
            · refine Or.inr ?_
              unfold Tabs.add
              split
              · rename_i h; rw [h]; simp
              · simp only [List.length_append, List.length_cons, List.length_take, List.length_drop]; omega
            · exact Or.inl ⟨rfl, rfl⟩
      rw [Desk.calls]
      rcases h0 with ⟨h3, h4⟩ | h3 <;> rcases ih (d.call A s m).2 (fun m hm' => hm m (by simp [hm'])) with ⟨h5, h6⟩ | h5
      · exact Or.inl ⟨h5.trans h3, h6.trans h4⟩
      · exact Or.inr (by rw [h3] at h5; exact h5)
      · exact Or.inr (by rw [h5]; exact h3)
      · exact Or.inr (by omega)
  obtain ⟨w'', e1, e2, e3, e4⟩ := h1.calls ms
  rw [hr] at e1
  cases e1
  rw [h2] at e2
  have lens : ∀ {w : Workspace σ} {d : Desk σ}, Rel A w d → w.bufferPaths.length = d.tabs.items.length := by
    intro w d h
    unfold bufferPaths
    rw [List.length_mapIdx]
    cases h with
    | empty h hb => rw [h, hb]
    | sel a c z h hs hb => rw [h, hb]; simp
  rcases key ms _ hm with ⟨k1, k2⟩ | k1
  · have hsel : Rel A w' (nothing.calls A s cs) := by
      unfold currentBufferIndex at hi
      rw [h1.index, e2.index, k1] at hi
      cases e2 with
      | empty h hb hi hc hn => exact .empty (k1.symm.trans h) hb hi hc (hn.trans k2)
      | sel a c z h hs hb hi' hc hn =>
        refine .sel a c z (k1.symm.trans h) ?_ hb hi' hc (hn.trans k2)
        rw [k1] at h
        rw [if_neg (by rw [h]; simp), if_neg (by rw [h]; simp)] at hi
        rw [← Option.some.inj hi]; exact hs
    exact h1.unique hsel e3 e4
  · rw [lens h1, lens e2] at hn; omega

/-! ### C40 -/

theorem sel_lt {w : Workspace σ} {d : Desk σ} (h : Rel A w d) (hne : d.tabs.items ≠ []) : d.tabs.sel < d.tabs.items.length := by
  cases h with
  | empty h => exact absurd h hne
  | sel a c z h hs => rw [hs, h]; simp

theorem rel_call_eq {w : Workspace σ} {d : Desk σ} (h : Rel A w d) (cs : List (Call σ)) (hd : d.calls A w.syntaxes cs = d) : w.calls A cs = .ok w := by
  obtain ⟨w', e1, e2, e3, e4⟩ := h.calls cs
  rw [hd] at e2
  rw [e1, h.unique e2 e3 e4]

/-- **C40.** `next_buffer` then `previous_buffer`, and the other way round, restores the workspace; `n` times `next_buffer` with `n` buffers restores it, and
visits every buffer. -/
theorem C40_cycle (A : Alloc) (s : Syntaxes σ) (cs : List (Call σ)) (w : Workspace σ) (h : Runs A s cs w) :
    w.calls A [.next, .previous] = .ok w ∧ w.calls A [.previous, .next] = .ok w ∧
    w.calls A (List.replicate (contents w).length .next) = .ok w ∧
    ∀ j, j < (contents w).length → ∃ k w', k < (contents w).length ∧ w.calls A (List.replicate k .next) = .ok w' ∧ w'.currentBufferIndex = some j ∧
      w'.current = (contents w)[j]? := by
  obtain ⟨h1, h2⟩ := h.rel
  rw [contents_eq h1]
  generalize nothing.calls A s cs = d at h1
  by_cases hne : d.tabs.items = []
  · -- nothing open
    have hstay : ∀ c, (c = Call.next ∨ c = Call.previous) → w.call A c = .ok (true, w) := by
      intro c hc
      cases h1 with
      | empty h hb hi hc' hn =>
        rcases hc with rfl | rfl <;> simp only [Workspace.call, nextBuffer, previousBuffer, hi] <;> rfl
      | sel a c z h => rw [h] at hne; simp at hne
    refine ⟨?_, ?_, ?_, ?_⟩
    · simp only [Workspace.calls, hstay .next (Or.inl rfl), hstay .previous (Or.inr rfl), Except.ok_bind']
    · simp only [Workspace.calls, hstay .next (Or.inl rfl), hstay .previous (Or.inr rfl), Except.ok_bind']
    · rw [hne]; rfl
    · intro j hj; rw [hne] at hj; simp at hj
  · have hlt := sel_lt h1 hne
    have e : ∀ t : Desk σ, t.tabs.items = d.tabs.items → t.tabs.sel = d.tabs.sel → t.nextId = d.nextId → t = d := by
      rintro ⟨⟨a, b⟩, c⟩ h1 h2 h3
      rcases d with ⟨⟨_, _⟩, _⟩
      simp only at h1 h2 h3
      rw [h1, h2, h3]
    have hp1 : ((d.tabs.sel + 1) % d.tabs.items.length + d.tabs.items.length - 1) % d.tabs.items.length = d.tabs.sel := by
      by_cases hl : d.tabs.sel + 1 = d.tabs.items.length
      · rw [hl, Nat.mod_self, Nat.zero_add, Nat.mod_eq_of_lt (by omega)]; omega
      · rw [Nat.mod_eq_of_lt (show d.tabs.sel + 1 < _ by omega),
          show d.tabs.sel + 1 + d.tabs.items.length - 1 = d.tabs.sel + d.tabs.items.length by omega, Nat.add_mod_right, Nat.mod_eq_of_lt hlt]
    have hp2 : ((d.tabs.sel + d.tabs.items.length - 1) % d.tabs.items.length + 1) % d.tabs.items.length = d.tabs.sel := by
      by_cases hl : d.tabs.sel = 0
      · rw [hl, Nat.zero_add, Nat.mod_eq_of_lt (show d.tabs.items.length - 1 < _ by omega),
          show d.tabs.items.length - 1 + 1 = d.tabs.items.length by omega, Nat.mod_self]
      · rw [show d.tabs.sel + d.tabs.items.length - 1 = d.tabs.sel - 1 + d.tabs.items.length by omega, Nat.add_mod_right,
          Nat.mod_eq_of_lt (show d.tabs.sel - 1 < _ by omega), show d.tabs.sel - 1 + 1 = d.tabs.sel by omega, Nat.mod_eq_of_lt hlt]
    refine ⟨rel_call_eq h1 _ (e _ rfl hp1 rfl), rel_call_eq h1 _ (e _ rfl hp2 rfl), rel_call_eq h1 _ ?_, ?_⟩
    · rw [nexts _ _ _ hlt]
      exact e _ rfl (by simp only [Nat.add_mod_right, Nat.mod_eq_of_lt hlt]) rfl
    · intro j hj
      refine ⟨(j + d.tabs.items.length - d.tabs.sel) % d.tabs.items.length, ?_⟩
      obtain ⟨w', e1, e2, _⟩ := h1.calls (List.replicate ((j + d.tabs.items.length - d.tabs.sel) % d.tabs.items.length) .next)
      refine ⟨w', Nat.mod_lt _ (by omega), e1, ?_⟩
      rw [nexts _ _ _ hlt] at e2
      have hj' : (d.tabs.sel + (j + d.tabs.items.length - d.tabs.sel) % d.tabs.items.length) % d.tabs.items.length = j := by
        rw [Nat.add_mod_mod, show d.tabs.sel + (j + d.tabs.items.length - d.tabs.sel) = j + d.tabs.items.length by omega, Nat.add_mod_right, Nat.mod_eq_of_lt hj]
      rw [hj'] at e2
      refine ⟨?_, e2.selected.symm⟩
      have := e2.index
      rw [if_neg (by simpa using hne)] at this
      exact this

/-! ### C41 -/

/-- Ids below the next one, pairwise different. -/
structure IdsOk (d : Desk σ) : Prop where
  below : ∀ b ∈ d.tabs.items, ∃ k, b.id = some k ∧ k < d.nextId
  distinct : (d.tabs.items.map (·.id)).Nodup

theorem ids_edit {t : Tabs (FileBuf σ)} {f : FileBuf σ → FileBuf σ} {β : Type} (g : FileBuf σ → β) (hf : ∀ b, g (f b) = g b) : (t.edit f).items.map g = t.items.map g := by
  unfold Tabs.edit
  by_cases hlt : t.sel < t.items.length
  · obtain ⟨a, x, z, h1, h2⟩ := split_at _ _ hlt
    rw [h1, h2, modify_mid]
    simp [hf]
  · rw [List.modify_eq_self (by omega)]

theorem IdsOk.of_map {t t' : Tabs (FileBuf σ)} {n : Nat} (h : IdsOk ⟨t, n⟩) (he : t'.items.map (·.id) = t.items.map (·.id)) : IdsOk ⟨t', n⟩ := by
  refine ⟨fun b hb => ?_, by rw [he]; exact h.distinct⟩
  have : b.id ∈ t.items.map (·.id) := by rw [← he]; exact List.mem_map.mpr ⟨b, hb, rfl⟩
  obtain ⟨b', h1, h2⟩ := List.mem_map.mp this
  obtain ⟨k, h3, h4⟩ := h.below b' h1
  exact ⟨k, by rw [← h2]; exact h3, h4⟩

theorem add_perm (t : Tabs (FileBuf σ)) (x : FileBuf σ) : (t.add x).items.Perm (x :: t.items) := by
  unfold Tabs.add
  split
  · rename_i h; rw [h]
  · dsimp only
    refine List.perm_middle.trans ?_
    rw [List.take_append_drop]

theorem add_selected {α} {t : Tabs α} (h : t.items ≠ [] → t.sel < t.items.length) (x : α) : (t.add x).selected = some x := by
  unfold Tabs.selected Tabs.add
  split
  · rfl
  · rename_i hne
    obtain ⟨a, y, z, h1, h2⟩ := split_at _ _ (h hne)
    dsimp only
    rw [h1, h2, take_mid', drop_mid, show a.length + 1 = (a ++ [y]).length by simp]
    exact get_mid _ _ _

theorem IdsOk.add {d : Desk σ} (h : IdsOk d) (x : FileBuf σ) (hx : x.id = some d.nextId) : IdsOk ⟨d.tabs.add x, d.nextId + 1⟩ := by
  have hp := add_perm d.tabs x
  refine ⟨fun b hb => ?_, ?_⟩
  · rcases List.mem_cons.mp (hp.mem_iff.mp hb) with rfl | hb
    · exact ⟨_, hx, Nat.lt_succ_self _⟩
    · obtain ⟨k, h1, h2⟩ := h.below b hb
      exact ⟨k, h1, Nat.lt_succ_of_lt h2⟩
  · rw [(hp.map _).nodup_iff, List.map_cons, List.nodup_cons]
    refine ⟨fun hm => ?_, h.distinct⟩
    obtain ⟨b, h1, h2⟩ := List.mem_map.mp hm
    obtain ⟨k, h3, h4⟩ := h.below b h1
    rw [h3, hx] at h2
    cases h2
    omega

theorem IdsOk.call {d : Desk σ} (h : IdsOk d) (s : Syntaxes σ) (c : Call σ) (hc : KeepsId c) : IdsOk (d.call A s c).2 ∧ d.nextId ≤ (d.call A s c).2.nextId := by
  cases c with
  | add b => exact ⟨h.add _ rfl, Nat.le_succ _⟩
  | openPath k f0 f1 f2 p =>
    simp only [Desk.call]
    split
    · exact ⟨h.of_map rfl, Nat.le_refl _⟩
    · split
      · exact ⟨h.add _ rfl, Nat.le_succ _⟩
      · exact ⟨h, Nat.le_refl _⟩
  | close =>
    have hsub : d.tabs.close.items.Sublist d.tabs.items := by
      show (d.tabs.items.take d.tabs.sel ++ d.tabs.items.drop (d.tabs.sel + 1)).Sublist _
      rw [← List.eraseIdx_eq_take_drop_succ]
      exact List.eraseIdx_sublist _ _
    exact ⟨⟨fun b hb => h.below b (hsub.subset hb), List.Nodup.sublist (hsub.map _) h.distinct⟩, Nat.le_refl _⟩
  | next => exact ⟨h.of_map rfl, Nat.le_refl _⟩
  | previous => exact ⟨h.of_map rfl, Nat.le_refl _⟩
  | edit f => exact ⟨h.of_map (ids_edit _ hc), Nat.le_refl _⟩
  | updateSyntax => exact ⟨h.of_map (ids_edit _ fun _ => rfl), Nat.le_refl _⟩

theorem IdsOk.calls {d : Desk σ} (h : IdsOk d) (s : Syntaxes σ) (cs : List (Call σ)) (hc : ∀ c ∈ cs, KeepsId c) :
    IdsOk (d.calls A s cs) ∧ d.nextId ≤ (d.calls A s cs).nextId := by
  induction cs generalizing d with
  | nil => exact ⟨h, Nat.le_refl _⟩
  | cons c cs ih =>
    obtain ⟨h1, h2⟩ := h.call (A := A) s c (hc c (by simp))
    obtain ⟨h3, h4⟩ := ih h1 (fun c hc' => hc c (by simp [hc']))
    exact ⟨h3, h2.trans h4⟩

theorem idsOk_nothing : IdsOk (nothing : Desk σ) := ⟨fun _ hb => (List.not_mem_nil hb).elim, List.nodup_nil⟩

/-- **C41.** In every reachable workspace (if the current buffer's id is never overwritten) all buffers have ids, pairwise different. -/
theorem C41_ids_distinct (A : Alloc) (s : Syntaxes σ) (cs : List (Call σ)) (w : Workspace σ) (h : Runs A s cs w) (hk : ∀ c ∈ cs, KeepsId c) :
    (∀ b ∈ contents w, b.id.isSome) ∧ ((contents w).map (·.id)).Nodup := by
  obtain ⟨h1, _⟩ := h.rel
  rw [contents_eq h1]
  obtain ⟨k1, _⟩ := idsOk_nothing.calls (A := A) s cs hk
  exact ⟨fun b hb => by obtain ⟨k, e, _⟩ := k1.below b hb; rw [e]; rfl, k1.distinct⟩

/-- C41: the id that a new buffer gets was never the id of any buffer in any earlier state, closed since or not. -/
theorem C41_ids_never_reused (A : Alloc) (s : Syntaxes σ) (cs ds : List (Call σ)) (w1 w2 w3 : Workspace σ) (h : Runs A s cs w1)
    (hk : ∀ c ∈ cs ++ ds, KeepsId c) (h2 : w1.calls A ds = .ok w2) (b : FileBuf σ) (h3 : w2.addBuffer A b = .ok w3) :
    ∃ n, w3.current.bind (·.id) = some n ∧ ∀ x ∈ contents w1, x.id ≠ some n := by
  obtain ⟨r1, hs⟩ := h.rel
  obtain ⟨w2', e1, r2, _, hs2⟩ := r1.calls ds
  rw [h2] at e1
  cases e1
  obtain ⟨w3', f1, r3, _⟩ := r2.add b
  rw [h3] at f1
  cases f1
  rw [hs] at r2 r3
  obtain ⟨k1, _⟩ := idsOk_nothing.calls (A := A) s cs (fun c hc => hk c (List.mem_append_left _ hc))
  obtain ⟨_, k2⟩ := k1.calls (A := A) s ds (fun c hc => hk c (List.mem_append_right _ hc))
  refine ⟨((nothing.calls A s cs).calls A s ds).nextId, ?_, ?_⟩
  · rw [← r3.selected]
    rw [add_selected (sel_lt r2)]
    rfl
  · intro x hx hid
    rw [contents_eq r1] at hx
    obtain ⟨k, e, hlt⟩ := k1.below x hx
    rw [e] at hid
    cases hid
    omega

/-! ### C42 -/

theorem findPath_none {t : Tabs (FileBuf σ)} {c : Path} (h : findPath t c = none) : ∀ b ∈ t.items, b.path ≠ some c := by
  unfold findPath at h
  split at h
  · cases h
  · intro b hb hc
    rw [List.findIdx?_eq_none_iff] at h
    have := h b hb
    rw [hc] at this
    simp at this

theorem findPath_some {t : Tabs (FileBuf σ)} {c : Path} {i : Nat} (h : findPath t c = some i) : ∃ b, t.items[i]? = some b ∧ b.path = some c := by
  unfold findPath at h
  split at h
  · rename_i hs
    cases h
    cases hx : t.selected with
    | none => rw [hx] at hs; cases hs
    | some b => rw [hx] at hs; exact ⟨b, hx, hs⟩
  · obtain ⟨h1, h2, _⟩ := List.findIdx?_eq_some_iff_getElem.mp h
    exact ⟨t.items[i], List.getElem?_eq_getElem h1, by simpa using h2⟩

theorem paths_call {d : Desk σ} (s : Syntaxes σ) (c : Call σ) (hc : OpensOnly c) (h : (d.tabs.items.map (·.path)).Nodup) :
    ((d.call A s c).2.tabs.items.map (·.path)).Nodup := by
  cases c with
  | add b => exact hc.elim
  | openPath k f0 f1 f2 p =>
    simp only [Desk.call]
    split
    · exact h
    · rename_i hno
      split
      · rename_i text c h1 h2
        rw [((add_perm _ _).map _).nodup_iff, List.map_cons, List.nodup_cons]
        refine ⟨fun hm => ?_, h⟩
        obtain ⟨b, h3, h4⟩ := List.mem_map.mp hm
        rw [show f0.canon p = some c from hc.trans h2] at hno
        exact findPath_none hno b h3 h4
      · exact h
  | close =>
    have hsub : d.tabs.close.items.Sublist d.tabs.items := by
      show (d.tabs.items.take d.tabs.sel ++ d.tabs.items.drop (d.tabs.sel + 1)).Sublist _
      rw [← List.eraseIdx_eq_take_drop_succ]
      exact List.eraseIdx_sublist _ _
    exact List.Nodup.sublist (hsub.map _) h
  | next => exact h
  | previous => exact h
  | edit f =>
    show ((d.tabs.edit f).items.map (·.path)).Nodup
    rw [ids_edit (fun b => b.path) hc]; exact h
  | updateSyntax =>
    show ((d.tabs.edit fun b => { b with syn := some (chooseSyntax s b) }).items.map (·.path)).Nodup
    rw [ids_edit (f := fun b => { b with syn := some (chooseSyntax s b) }) (fun b => b.path) (fun _ => rfl)]; exact h

/-- **C42.** If buffers are added by `open_buffer` only, no two open buffers have the same path. -/
theorem C42_no_duplicates (A : Alloc) (s : Syntaxes σ) (cs : List (Call σ)) (w : Workspace σ) (h : Runs A s cs w) (hc : ∀ c ∈ cs, OpensOnly c) :
    ((contents w).map (·.path)).Nodup := by
  obtain ⟨h1, _⟩ := h.rel
  rw [contents_eq h1]
  have key : ∀ (cs : List (Call σ)) (d : Desk σ), (∀ c ∈ cs, OpensOnly c) → (d.tabs.items.map (·.path)).Nodup →
      ((d.calls A s cs).tabs.items.map (·.path)).Nodup := by
    intro cs
    induction cs with
    | nil => intro d _ h; exact h
    | cons c cs ih => intro d hc h; exact ih _ (fun c hc' => hc c (by simp [hc'])) (paths_call s c (hc c (by simp)) h)
  exact key cs nothing hc List.nodup_nil

/-- C42: opening a path that is already open (whatever the file system does later in the call) selects a buffer with that path, and changes nothing else; no
buffer is read from the disk. -/
theorem C42_open_selects (A : Alloc) (s : Syntaxes σ) (cs : List (Call σ)) (w : Workspace σ) (h : Runs A s cs w) (clock : Nat) (f0 f1 f2 : Fs) (p c : Path)
    (hc : f0.canon p = some c) (hb : ∃ b ∈ contents w, b.path = some c) :
    ∃ w', w.openBuffer A clock f0 f1 f2 p = .ok (true, w') ∧ contents w' = contents w ∧ w'.current.bind (·.path) = some c ∧
      w'.nextId = w.nextId ∧ w'.path = w.path := by
  obtain ⟨h1, h2⟩ := h.rel
  obtain ⟨w', e1, e2, e3, _⟩ := h1.openPath clock f0 f1 f2 p
  rw [contents_eq h1] at hb
  rw [contents_eq h1]
  cases hf : findPath (nothing.calls A s cs).tabs c with
  | none =>
    obtain ⟨b, k1, k2⟩ := hb
    exact absurd k2 (findPath_none hf b k1)
  | some i =>
    simp only [Desk.call, hc, Option.bind_some, hf] at e1 e2
    refine ⟨w', e1, (contents_eq e2).trans rfl, ?_, e2.nextId_eq.trans h1.nextId_eq.symm, e3⟩
    obtain ⟨b, k1, k2⟩ := findPath_some hf
    rw [← e2.selected]
    show ((nothing.calls A s cs).tabs.items[i]?).bind (·.path) = some c
    rw [k1]; exact k2

/-- C42: a failed `open_buffer` leaves the workspace unchanged, whatever the file system does. -/
theorem C42_failed_open (A : Alloc) (s : Syntaxes σ) (cs : List (Call σ)) (w w' : Workspace σ) (h : Runs A s cs w) (clock : Nat) (f0 f1 f2 : Fs) (p : Path)
    (he : w.openBuffer A clock f0 f1 f2 p = .ok (false, w')) : w' = w ∧ (f1.readToString p = none ∨ f2.canon p = none) := by
  obtain ⟨h1, h2⟩ := h.rel
  obtain ⟨w'', e1, e2, e3, e4⟩ := h1.openPath clock f0 f1 f2 p
  rw [he] at e1
  obtain ⟨hr, rfl⟩ := Prod.mk.inj (Except.ok.inj e1)
  simp only [Desk.call] at hr e2
  cases hno : (f0.canon p).bind (findPath (nothing.calls A s cs).tabs) with
  | some i => rw [hno] at hr; cases hr
  | none =>
    rw [hno] at hr e2
    cases hx : f1.readToString p with
    | none => rw [hx] at e2; exact ⟨h1.unique e2 e3 e4, Or.inl rfl⟩
    | some x =>
      cases hy : f2.canon p with
      | none => rw [hx, hy] at e2; exact ⟨h1.unique e2 e3 e4, Or.inr rfl⟩
      | some y => rw [hx, hy] at hr; cases hr

/-! ### C43 -/

theorem bufferPaths_rel {w : Workspace σ} {d : Desk σ} (h1 : Rel A w d) : w.bufferPaths = d.tabs.items.map w.relative := by
  unfold bufferPaths currentBufferPath
  cases h1 with
  | empty h hb => rw [h, hb]; rfl
  | sel a c z h hs hb hi hc hn =>
    rw [h, hb, hi, hc]
    apply List.ext_getElem?
    intro i
    rw [List.getElem?_mapIdx, List.getElem?_map]
    rcases Nat.lt_trichotomy i a.length with hlt | rfl | hlt
    · rw [List.getElem?_append_left hlt, List.getElem?_append_left hlt]
      cases a[i]? with
      | none => rfl
      | some x => simp only [Option.map_some]; rw [if_neg (by simp; omega)]
    · rw [get_mid, get_mid]; simp
    · rw [List.getElem?_append_right (by omega), List.getElem?_append_right (by omega)]
      obtain ⟨k, hk⟩ : ∃ k, i - a.length = k + 1 := ⟨i - a.length - 1, by omega⟩
      rw [hk, List.getElem?_cons_succ, List.getElem?_cons_succ]
      cases z[k]? with
      | none => rfl
      | some x => simp only [Option.map_some]; rw [if_neg (by simp; omega)]

/-- C43: a new workspace has the canonical form of its path and nothing in it; there is none if the syntaxes cannot be loaded or the path does not exist. -/
theorem C43_new (fs : Fs) (path : Path) (syns : Option (Syntaxes σ)) :
    (Workspace.new fs path syns = none ↔ syns = none ∨ fs.canon path = none) ∧
    ∀ w, Workspace.new fs path syns = some w → fs.canon path = some w.path ∧ w.bufferPaths = [] ∧ w.currentBufferPath = none ∧ w.currentBufferIndex = none ∧
      w.current = none ∧ w.currentBufferTokens = .ok (.error .emptyWorkspace) := by
  unfold Workspace.new
  cases syns with
  | none => exact ⟨by simp, fun w h => by cases h⟩
  | some s =>
    cases hc : fs.canon path with
    | none => exact ⟨by simp, fun w h => by cases h⟩
    | some c => exact ⟨by simp, fun w h => by cases h; exact ⟨rfl, rfl, rfl, rfl, rfl, rfl⟩⟩

/-- **C43.** `buffer_paths` has an entry for every buffer in order; its entry at the current index is `current_buffer_path`. -/
theorem C43_buffer_paths (A : Alloc) (s : Syntaxes σ) (cs : List (Call σ)) (w : Workspace σ) (h : Runs A s cs w) :
    w.bufferPaths = (contents w).map w.relative ∧ ∀ i, w.currentBufferIndex = some i → w.bufferPaths[i]? = some w.currentBufferPath := by
  obtain ⟨h1, _⟩ := h.rel
  have key : w.bufferPaths = (contents w).map w.relative := by
    rw [contents_eq h1]; exact bufferPaths_rel h1
  refine ⟨key, ?_⟩
  intro i hi
  rw [key, contents_eq h1]
  cases h1 with
  | empty h hb hi' => unfold currentBufferIndex at hi; rw [hi'] at hi; cases hi
  | sel a c z h hs hb hi' hc hn =>
    unfold currentBufferIndex at hi
    rw [hi'] at hi
    cases hi
    rw [h, List.getElem?_map, get_mid]
    unfold currentBufferPath
    rw [hc]; rfl

theorem stripPrefix_append (p q : Path) : Path.stripPrefix (p ++ q) p = some q := by
  induction p with
  | nil => unfold Path.stripPrefix; cases q <;> rfl
  | cons c p ih => simp only [List.cons_append, Path.stripPrefix, if_true, ih]

theorem stripPrefix_some {p q r : Path} (h : Path.stripPrefix p q = some r) : p = q ++ r := by
  induction q generalizing p with
  | nil => cases p <;> (unfold Path.stripPrefix at h; cases h; rfl)
  | cons c q ih =>
    cases p with
    | nil => cases h
    | cons d p =>
      simp only [Path.stripPrefix] at h
      split at h
      · rename_i he; rw [he, ih h]; rfl
      · cases h

/-- C43: an entry is the path below the workspace path if the buffer's path is below it, else the buffer's path. -/
theorem C43_relative (w : Workspace σ) (b : FileBuf σ) :
    (b.path = none → w.relative b = none) ∧
    (∀ q, b.path = some (w.path ++ q) → w.relative b = some q) ∧
    (∀ p, b.path = some p → (∀ q, p ≠ w.path ++ q) → w.relative b = some p) := by
  refine ⟨fun h => by unfold relative; rw [h]; rfl, fun q h => ?_, fun p h hn => ?_⟩
  · unfold relative; rw [h, Option.bind_some, stripPrefix_append]; rfl
  · unfold relative
    rw [h, Option.bind_some]
    cases hs : Path.stripPrefix p w.path with
    | none => rfl
    | some r => exact absurd (stripPrefix_some hs) (hn r)

/-! ### C44 -/

/-- **C44.** What `add_buffer` does about the syntax: kept if there is one, else found by the extension, else (without extension) by the file name; plain
text if that finds nothing. -/
theorem C44_add_syntax (A : Alloc) (s : Syntaxes σ) (cs : List (Call σ)) (w : Workspace σ) (h : Runs A s cs w) (b : FileBuf σ) :
    ∃ w' c, w.addBuffer A b = .ok w' ∧ w'.current = some c ∧ c.buf = b.buf ∧ c.path = b.path ∧ ∃ y, c.syn = some y ∧
      (∀ x, b.syn = some x → y = x) ∧
      (b.syn = none → ∀ e, b.fileExtension = some e → y = (s.find e).getD s.plain) ∧
      (b.syn = none → b.fileExtension = none → ∀ n, b.fileName = some n → y = (s.find n).getD s.plain) ∧
      (b.syn = none → b.fileExtension = none → b.fileName = none → y = s.plain) := by
  obtain ⟨h1, h2⟩ := h.rel
  obtain ⟨w', e1, e2, _⟩ := h1.add b
  rw [h2] at e2
  refine ⟨w', adopted s (nothing.calls A s cs).nextId b, e1, ?_, rfl, rfl, _, rfl, ?_⟩
  · rw [← e2.selected]
    exact add_selected (sel_lt h1) _
  · refine ⟨fun x hx => by rw [hx]; rfl, fun hx e he => ?_, fun hx he n hn => ?_, fun hx he hn => ?_⟩
    · rw [hx]; simp only [Option.getD_none, chooseSyntax, he]
    · rw [hx]; simp only [Option.getD_none, chooseSyntax, he, hn]
    · rw [hx]; simp only [Option.getD_none, chooseSyntax, he, hn]

theorem syntax_call {d : Desk σ} (s : Syntaxes σ) (c : Call σ) (hc : KeepsSyntax c) (h : ∀ b ∈ d.tabs.items, b.syn.isSome) :
    ∀ b ∈ (d.call A s c).2.tabs.items, b.syn.isSome := by
  have ha : ∀ x : FileBuf σ, x.syn.isSome → ∀ b ∈ (d.tabs.add x).items, b.syn.isSome := by
    intro x hx b hb
    rcases List.mem_cons.mp ((add_perm _ _).mem_iff.mp hb) with rfl | hb
    · exact hx
    · exact h b hb
  have he : ∀ f : FileBuf σ → FileBuf σ, (∀ b, b.syn.isSome → (f b).syn.isSome) → ∀ b ∈ (d.tabs.edit f).items, b.syn.isSome := by
    intro f hf
    unfold Tabs.edit
    by_cases hlt : d.tabs.sel < d.tabs.items.length
    · obtain ⟨a, x, z, h1, h2⟩ := split_at _ _ hlt
      rw [h1, h2, modify_mid]
      rw [h1] at h
      intro b hb
      simp only [List.mem_append, List.mem_cons] at hb
      rcases hb with hb | rfl | hb
      · exact h b (by simp [hb])
      · exact hf x (h x (by simp))
      · exact h b (by simp [hb])
    · rw [List.modify_eq_self (by omega)]; exact h
  cases c with
  | add b => exact ha _ rfl
  | openPath k f0 f1 f2 p =>
    simp only [Desk.call]
    split
    · exact h
    · split
      · exact ha _ rfl
      · exact h
  | close => 
    intro b hb
    have hsub : d.tabs.close.items.Sublist d.tabs.items := by
      show (d.tabs.items.take d.tabs.sel ++ d.tabs.items.drop (d.tabs.sel + 1)).Sublist _
      rw [← List.eraseIdx_eq_take_drop_succ]
      exact List.eraseIdx_sublist _ _
    exact h b (hsub.subset hb)
  | next => exact h
  | previous => exact h
  | edit f => exact he f hc
  | updateSyntax => exact he _ (fun _ _ => rfl)

/-- C44: in every reachable workspace (if the syntax is never set to `None` by hand) `current_buffer_tokens` fails only when no buffer is open, and otherwise
gets the contents of the current buffer and its syntax. -/
theorem C44_tokens (A : Alloc) (s : Syntaxes σ) (cs : List (Call σ)) (w : Workspace σ) (h : Runs A s cs w) (hk : ∀ c ∈ cs, KeepsSyntax c) :
    (∀ b ∈ contents w, b.syn.isSome) ∧
    (contents w = [] → w.currentBufferTokens = .ok (.error .emptyWorkspace)) ∧
    (contents w ≠ [] → ∃ b y, w.current = some b ∧ b ∈ contents w ∧ b.syn = some y ∧
      ∀ t, b.buf.data.toStr = .ok t → w.currentBufferTokens = .ok (.ok (t, y))) := by
  obtain ⟨h1, _⟩ := h.rel
  have key : ∀ (cs : List (Call σ)) (d : Desk σ), (∀ c ∈ cs, KeepsSyntax c) → (∀ b ∈ d.tabs.items, b.syn.isSome) → ∀ b ∈ (d.calls A s cs).tabs.items, b.syn.isSome := by
    intro cs
    induction cs with
    | nil => intro d _ h; exact h
    | cons c cs ih => intro d hc h; exact ih _ (fun c hc' => hc c (by simp [hc'])) (syntax_call s c (hc c (by simp)) h)
  have hall := key cs nothing hk (fun _ hb => (List.not_mem_nil hb).elim)
  rw [contents_eq h1]
  refine ⟨hall, ?_, ?_⟩
  · intro hnil
    unfold currentBufferTokens
    cases h1 with
    | empty h hb hi hc => rw [hc]
    | sel a c z h => rw [h] at hnil; simp at hnil
  · intro hne
    cases h1 with
    | empty h => exact absurd h hne
    | sel a c z h hs hb hi hc hn =>
      have hm : c ∈ (nothing.calls A s cs).tabs.items := by rw [h]; simp
      cases hy : c.syn with
      | none => have := hall c hm; rw [hy] at this; cases this
      | some y =>
        refine ⟨c, y, hc, hm, hy, fun t ht => ?_⟩
        unfold currentBufferTokens
        simp only [hc, ht, hy, Except.ok_bind']
        rfl

/-- C44: `update_current_syntax` chooses in the same way, whether the buffer had a syntax or not, and changes nothing else; it fails only without a current buffer. -/
theorem C44_update_syntax (A : Alloc) (s : Syntaxes σ) (cs : List (Call σ)) (w : Workspace σ) (h : Runs A s cs w) :
    (w.current = none → w.updateCurrentSyntax = (false, w)) ∧
    ∀ b, w.current = some b → ∃ y, w.updateCurrentSyntax = (true, { w with current := some { b with syn := some y } }) ∧
      (∀ e, b.fileExtension = some e → y = (s.find e).getD s.plain) ∧
      (b.fileExtension = none → ∀ n, b.fileName = some n → y = (s.find n).getD s.plain) ∧
      (b.fileExtension = none → b.fileName = none → y = s.plain) := by
  obtain ⟨_, h2⟩ := h.rel
  refine ⟨fun hn => by unfold updateCurrentSyntax; rw [hn], fun b hb => ⟨chooseSyntax s b, ?_, ?_, ?_, ?_⟩⟩
  · unfold updateCurrentSyntax; rw [hb]; dsimp only; rw [chooseSyntax_eq, h2]
  · intro e he; simp only [chooseSyntax, he]
  · intro he n hn; simp only [chooseSyntax, he, hn]
  · intro he hn; simp only [chooseSyntax, he, hn]

/-! ### Examples -/

/-- Paths `/w/a.rs`, `/w/b`, `/c`; a link `/w/l` to `/w/b`. -/
def demoFs : Fs where
  read p := if p = [.root, .normal [0x77], .normal [0x61, 46, 0x72]] then some [0x61] else if p = [.root, .normal [0x77], .normal [0x62]] then some [0x62]
    else if p = [.root, .normal [0x77], .normal [0x6c]] then some [0x62] else if p = [.root, .normal [0x63]] then some [0x63] else none
  canon p := if p = [.root, .normal [0x77], .normal [0x6c]] then some [.root, .normal [0x77], .normal [0x62]] else some p

def demoPath (n : Bytes) : Path := [.root, .normal [0x77], .normal n]
def demoOpen (p : Path) : Call Nat := .openPath 0 demoFs demoFs demoFs p
def demoSyn : Syntaxes Nat := ⟨fun t => if t = Demo.s "r" then some 1 else if t = Demo.s "b" then some 2 else none, 0⟩

/-- What can be seen of a workspace. -/
structure Seen where
  index : Option Nat
  ids : List (Option Nat)
  paths : List (Option Path)
  syns : List (Option Nat)
  deriving DecidableEq

def look (w : Workspace Nat) : Seen := ⟨w.currentBufferIndex, (contents w).map (·.id), w.bufferPaths, (contents w).map (·.syn)⟩

/-- A workspace opened through a link. -/
example : (Workspace.new demoFs (demoPath [0x6c]) (some demoSyn)).map (·.path) = some (demoPath [0x62]) := by decide +kernel
/-- Three files opened, the second one again under another name; one cannot be read. Ids 0, 2, 1 in order since the third was opened after going back to the first. -/
example : (Workspace.new demoFs [.root, .normal [0x77]] (some demoSyn)).bind (fun w => (w.calls Demo.tight
    [demoOpen (demoPath [0x61, 46, 0x72]), demoOpen (demoPath [0x62]), demoOpen (demoPath [0x7a]), .previous, demoOpen [.root, .normal [0x63]], demoOpen (demoPath [0x6c])]).toOption.map look) =
    some ⟨some 2, [some 0, some 2, some 1], [some [.normal [0x61, 46, 0x72]], some [.root, .normal [0x63]], some [.normal [0x62]]], [some 1, some 0, some 2]⟩ := by
  decide +kernel
/-- Closing the selected (last) one selects its predecessor; the next buffer opened gets a new id. -/
example : (Workspace.new demoFs [.root, .normal [0x77]] (some demoSyn)).bind (fun w => (w.calls Demo.tight
    [demoOpen (demoPath [0x61, 46, 0x72]), demoOpen (demoPath [0x62]), .close, .next, demoOpen (demoPath [0x62])]).toOption.map look) =
    some ⟨some 1, [some 0, some 2], [some [.normal [0x61, 46, 0x72]], some [.normal [0x62]]], [some 1, some 2]⟩ := by
  decide +kernel

end Scribe.Props
