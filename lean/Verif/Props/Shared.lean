import Verif.Proofs.Shared
import Verif.Spec.Meddle
import Verif.Demo
/-!
# Shared gap buffers and change callbacks (C62–C66)
-/
namespace Scribe.Shared
variable {ξ : Type}

/-! ## C62: re-entrant callbacks -/

/-- No sequence of buffer calls panics, whatever the change callback does with the gap buffers it has pointers to (including editing the buffer it
is called from): no `RefCell` is borrowed twice, because no guard is alive when the callback runs. -/
theorem C62_no_panic (S : Segmenter) (A : Alloc) (f : Callback ξ) (hf : Behaves f) (w : World ξ) (hw : Sound w) (k : Nat) (t : Text)
    (cs : List Scribe.Buf.Cmd) :
    (∃ b w' u, Buf.execAll S A f (Buf.new A w k).2 (Buf.new A w k).1 cs = .ok (b, w') ∧ Sound w' ∧ Buf.text w' b = .ok (u, w')) ∧
    (∃ b w' u, Buf.execAll S A f (Buf.fromContent A w k t).2 (Buf.fromContent A w k t).1 cs = .ok (b, w') ∧ Sound w' ∧
      Buf.text w' b = .ok (u, w')) := by
  constructor
  · obtain ⟨b, w', h1, h2, _⟩ := execAll_ok (S := S) (A := A) hf cs (fine_new (A := A) f hw k)
    obtain ⟨u, h3⟩ := text_ok h2
    exact ⟨b, w', u, h1, h2.sound, h3⟩
  · obtain ⟨b, w', h1, h2, _⟩ := execAll_ok (S := S) (A := A) hf cs (fine_fromContent (A := A) f hw k t)
    obtain ⟨u, h3⟩ := text_ok h2
    exact ⟨b, w', u, h1, h2.sound, h3⟩

/-- It meets the hypothesis of `C62_no_panic`. -/
theorem meddle_behaves (S : Segmenter) (A : Alloc) (s : Text) : Behaves (meddle S A s) := by
  intro p w hw
  unfold meddle
  split
  · rename_i h
    obtain ⟨g, h1, pre, post, h2⟩ := hw.cell h
    obtain ⟨g', h3, h4⟩ := insert_safe (S := S) (A := A) h2 s p
    exact ⟨w.set 0 (.free g'), by rw [withWrite_pure h1, h3]; rfl, hw.set 0 h4, by simp [World.set]⟩
  · exact ⟨w, rfl, hw, Nat.le_refl _⟩

example : ((Buf.execAll Demo.seg Demo.tight (meddle Demo.seg Demo.tight (Demo.s "!")) (Buf.new Demo.tight ⟨[], ()⟩ 0).2 (Buf.new Demo.tight ⟨[], ()⟩ 0).1
    [.setCallback true, .insert (Demo.s "ab"), .delete] >>= fun r => Buf.text r.2 r.1).map (·.1)) = .ok (Demo.s "!ab") := by
  decide +kernel

/-- Holding a guard (obtained through `Cursor::data`) across a call does panic: any guard makes the edits panic, a `RefMut` also the reading
calls and the cursor movements. The conditions are exact: see `C62_readers_allowed`. -/
theorem C62_guards (S : Segmenter) (A : Alloc) (f : Callback ξ) (w : World ξ) (b : Buf ξ) (c : Cell) (h : w.cells[b.data]? = some c) :
    (c.readers ≠ 0 ∨ c.writing = true → ∀ s, Buf.exec S A f w b (.insert s) = .error .borrow) ∧
    (c.writing = true → Buf.text w b = .error .borrow ∧ (∀ r, Buf.read S w b r = .error .borrow) ∧
      Buf.exec S A f w b .delete = .error .borrow ∧ (∀ p q, Buf.exec S A f w b (.deleteRange p q) = .error .borrow) ∧
      (∀ t, Buf.exec S A f w b (.replace t) = .error .borrow) ∧
      ∀ p, b.cursor.data = b.data → Buf.exec S A f w b (.move (.to p)) = .error .borrow) := by
  constructor
  · intro hg s
    have : (c.writing || c.readers != 0) = true := by rcases hg with hg | hg <;> simp [hg]
    simp only [Buf.exec, Buf.insert, Buf.runOp, withWrite, World.get_of h, Except.ok_bind', this, if_true]
    rfl
  · intro hg
    refine ⟨?_, fun r => ?_, ?_, fun p q => ?_, fun t => ?_, fun p hp => ?_⟩
    · simp only [Buf.text, withRead, World.get_of h, Except.ok_bind', hg, if_true]
    · simp only [Buf.read, withRead, World.get_of h, Except.ok_bind', hg, if_true]
    · simp only [Buf.exec, Buf.delete, withRead, World.get_of h, Except.ok_bind', hg, if_true]
      rfl
    · simp only [Buf.exec, Buf.deleteRange, Buf.runOp, withRead, World.get_of h, Except.ok_bind', hg, if_true]
      rfl
    · simp only [Buf.exec, Buf.replace, Buf.text, withRead, World.get_of h, Except.ok_bind', hg, if_true]
      rfl
    · simp only [Buf.exec, Cur.move, Cur.moveTo, withRead, hp, World.get_of h, Except.ok_bind', hg, if_true]
      rfl

/-- With `Ref` guards alive, reading and moving the cursor still work, as if there were none. -/
theorem C62_readers_allowed (S : Segmenter) (w : World ξ) (b : Buf ξ) (c : Cell) (h : w.cells[b.data]? = some c) (hw : c.writing = false)
    (hb : b.cursor.data = b.data) :
    Buf.text w b = (c.value.toStr >>= fun t => .ok (t, w)) ∧ (∀ r, Buf.read S w b r = (c.value.read S r >>= fun t => .ok (t, w))) ∧
    ∀ m, Cur.move S w b.cursor m = (Cursor.move S c.value b.cursor.at_ m >>= fun a => .ok (⟨b.data, a⟩, w)) := by
  refine ⟨withRead_pure h hw (fun g => g.toStr) id, fun r => withRead_pure h hw (fun g => g.read S r) id, fun m => ?_⟩
  rw [move_eq (c := b.cursor) (by rw [hb]; exact h) hw m, hb]

/-! ## C63: buffers by value are a faithful model -/

/-- With a callback that only looks, every session behaves exactly like the session of the by-value model: the same outcome, the buffer and its
cursor share one cell that holds the model's gap buffer, and the callback has been called with exactly the model's positions, in order. -/
theorem C63_by_value (S : Segmenter) (A : Alloc) (f : Callback ξ) (eff : Position → List Cell → ξ → ξ) (hf : Looks f eff) (w : World ξ)
    (hw : Idle w) (k : Nat) (t : Text) (cs : List Scribe.Buf.Cmd) :
    ∃ (a : Scribe.Buf) (b : Buf ξ) (w' : World ξ) (obs : List (Position × List Cell)), Scribe.Buf.execAll S A (Scribe.Buf.fromContent A k t) cs = .ok a ∧
      Buf.execAll S A f (Buf.fromContent A w k t).2 (Buf.fromContent A w k t).1 cs = .ok (b, w') ∧ Own w' f b a ∧
      w'.ext = obs.foldl (fun e o => eff o.1 o.2 e) w.ext ∧ obs.map (·.1) = a.log := by
  obtain ⟨a, ha, _⟩ := execAll_safe (S := S) (A := A) cs (sane_fromContent k t)
  obtain ⟨b, w', obs, h1, h2⟩ := execAll_steps hf cs (own_fromContent f hw k t) ha
  exact ⟨a, b, w', obs, ha, h1, h2.own, h2.ext, by rw [h2.log]; rfl⟩

theorem C63_by_value_new (S : Segmenter) (A : Alloc) (f : Callback ξ) (eff : Position → List Cell → ξ → ξ) (hf : Looks f eff) (w : World ξ)
    (hw : Idle w) (k : Nat) (cs : List Scribe.Buf.Cmd) :
    ∃ (a : Scribe.Buf) (b : Buf ξ) (w' : World ξ) (obs : List (Position × List Cell)), Scribe.Buf.execAll S A (Scribe.Buf.new A k) cs = .ok a ∧
      Buf.execAll S A f (Buf.new A w k).2 (Buf.new A w k).1 cs = .ok (b, w') ∧ Own w' f b a ∧
      w'.ext = obs.foldl (fun e o => eff o.1 o.2 e) w.ext ∧ obs.map (·.1) = a.log := by
  obtain ⟨a, ha, _⟩ := execAll_safe (S := S) (A := A) cs (sane_new k)
  obtain ⟨b, w', obs, h1, h2⟩ := execAll_steps hf cs (own_new f hw k) ha
  exact ⟨a, b, w', obs, ha, h1, h2.own, h2.ext, by rw [h2.log]; rfl⟩

/-- The callback runs after the edit: what its last call during an API call sees is the state after the call, and if it is not called then no
gap buffer has changed. -/
theorem C63_callback_sees (S : Segmenter) (A : Alloc) (f : Callback ξ) (eff : Position → List Cell → ξ → ξ) (hf : Looks f eff) (w : World ξ)
    (b : Buf ξ) (a a' : Scribe.Buf) (c : Scribe.Buf.Cmd) (h : Own w f b a) (hcb : a.callback = true) (hc : ∀ v, c ≠ .setCallback v)
    (ha : Scribe.Buf.exec S A a c = .ok a') :
    ∃ (b' : Buf ξ) (w' : World ξ) (obs : List (Position × List Cell)), Buf.exec S A f w b c = .ok (b', w') ∧ Own w' f b' a' ∧ w'.ext = obs.foldl (fun e o => eff o.1 o.2 e) w.ext ∧
      a'.log = a.log ++ obs.map (·.1) ∧ (obs = [] → w'.cells = w.cells) ∧
      ∀ p seen, obs.getLast? = some (p, seen) → seen = w'.cells ∧ seen[b'.data]? = some (.free a'.data) := by
  obtain ⟨b', w', obs, h1, h2⟩ := exec_step hf hc h ha
  obtain ⟨h3, h4⟩ := h2.seen hcb
  refine ⟨b', w', obs, h1, h2.own, h2.ext, h2.log, h3, fun p seen ho => ?_⟩
  have := h4 _ ho
  dsimp only at this
  exact ⟨this, by rw [this]; exact h2.own.cell⟩

/-- A callback that reads cell 0 (through a `Ref` guard) and keeps what it read. -/
def watch : Callback (List (Position × Text)) := fun p w =>
  if 0 < w.cells.length then do
    let (t, w) ← withRead w 0 fun g w => .ok (lossy (g.data.take g.gapStart ++ g.data.drop (g.gapStart + g.gapLength)), w)
    .ok { w with ext := w.ext ++ [(p, t)] }
  else .ok w

/-- It only looks. -/
theorem watch_looks : Looks watch fun p cs e =>
    match cs[0]? with
    | some c => e ++ [(p, lossy (c.value.data.take c.value.gapStart ++ c.value.data.drop (c.value.gapStart + c.value.gapLength)))]
    | none => e := by
  intro p w hw
  unfold watch
  cases hc : w.cells[0]? with
  | none =>
    have : ¬ 0 < w.cells.length := by
      have := List.getElem?_eq_none_iff.mp hc
      omega
    rw [if_neg this]
    simp only [hc]
  | some c =>
    obtain ⟨h0, h1⟩ := List.getElem?_eq_some_iff.mp hc
    rw [if_pos h0]
    have h2 := hw c (by rw [← h1]; exact List.getElem_mem h0)
    have h3 := withRead_pure hc h2.2
      (fun g => (.ok (lossy (g.data.take g.gapStart ++ g.data.drop (g.gapStart + g.gapLength))) : R Text)) id
    simp only [Except.ok_bind', id] at h3
    have h4 : (withRead w 0 fun g w => (.ok (lossy (g.data.take g.gapStart ++ g.data.drop (g.gapStart + g.gapLength)), w) : R (Text × World _))) = _ := h3
    rw [h4]
    simp only [hc, Except.ok_bind']

example : ((Buf.execAll Demo.seg Demo.tight watch (Buf.new Demo.tight ⟨[], []⟩ 0).2 (Buf.new Demo.tight ⟨[], []⟩ 0).1
    [.setCallback true, .insert (Demo.s "ab"), .delete, .undo]).map fun r => r.2.ext) =
    .ok [(⟨0, 0⟩, Demo.s "ab"), (⟨0, 0⟩, Demo.s "b"), (⟨0, 0⟩, Demo.s "ab")] := by
  decide +kernel

/-! ## C64: separate buffers do not interfere -/

/-- All buffers own different cells. -/
structure Apart (w : World ξ) (f : Callback ξ) (bs : List (Buf ξ)) (as : List Scribe.Buf) : Prop where
  len : bs.length = as.length
  own : ∀ (i : Nat) b a, bs[i]? = some b → as[i]? = some a → Own w f b a
  distinct : ∀ (i j : Nat) b b', bs[i]? = some b → bs[j]? = some b' → b.data = b'.data → i = j

theorem Apart.load {w : World ξ} {f : Callback ξ} {bs : List (Buf ξ)} {as : List Scribe.Buf} {A : Alloc} (h : Apart w f bs as) (hw : Idle w)
    (k : Nat) (t : Text) :
    Apart (Buf.fromContent A w k t).2 f (bs ++ [(Buf.fromContent A w k t).1]) (as ++ [Scribe.Buf.fromContent A k t]) := by
  have hlt : ∀ (i : Nat) b, bs[i]? = some b → b.data < w.cells.length := by
    intro i b hb
    have hi := (List.getElem?_eq_some_iff.mp hb).1
    exact (List.getElem?_eq_some_iff.mp (h.own i b (as[i]'(by rw [← h.len]; exact hi)) hb (List.getElem?_eq_getElem (by rw [← h.len]; exact hi))).cell).1
  have hd : (Buf.fromContent A w k t).1.data = w.cells.length := rfl
  constructor
  · simp [h.len]
  · intro i b a hb ha
    by_cases hi : i < bs.length
    · rw [List.getElem?_append_left hi] at hb
      rw [List.getElem?_append_left (by rw [← h.len]; exact hi)] at ha
      have ho := h.own i b a hb ha
      refine ⟨idle_alloc ho.idle _, ?_, ho.shared, ho.cursor, ho.history, ho.group, ho.callback⟩
      show (w.cells ++ _)[b.data]? = _
      rw [List.getElem?_append_left (hlt i b hb)]; exact ho.cell
    · rw [List.getElem?_append_right (by omega)] at hb
      rw [List.getElem?_append_right (by rw [← h.len]; omega)] at ha
      rw [← h.len] at ha
      have hn : i - bs.length = 0 := by
        rcases Nat.eq_zero_or_pos (i - bs.length) with e | e
        · exact e
        · rw [List.getElem?_eq_none (by simp only [List.length_singleton]; exact e)] at hb; cases hb
      rw [hn] at hb ha
      cases hb; cases ha
      exact own_fromContent f hw k t
  · intro i j b b' hb hb' he
    by_cases hi : i < bs.length <;> by_cases hj : j < bs.length
    · rw [List.getElem?_append_left hi] at hb
      rw [List.getElem?_append_left hj] at hb'
      exact h.distinct i j b b' hb hb' he
    · rw [List.getElem?_append_left hi] at hb
      have hj1 := (List.getElem?_eq_some_iff.mp hb').1
      rw [List.getElem?_append_right (by omega), show j - bs.length = 0 by rw [List.length_append, List.length_singleton] at hj1; omega] at hb'
      cases hb'
      have := hlt i b hb
      rw [he, hd] at this; exact absurd this (Nat.lt_irrefl _)
    · rw [List.getElem?_append_left hj] at hb'
      have hi1 := (List.getElem?_eq_some_iff.mp hb).1
      rw [List.getElem?_append_right (by omega), show i - bs.length = 0 by rw [List.length_append, List.length_singleton] at hi1; omega] at hb
      cases hb
      have := hlt j b' hb'
      rw [← he, hd] at this; exact absurd this (Nat.lt_irrefl _)
    · have hj1 := (List.getElem?_eq_some_iff.mp hb').1
      have hi1 := (List.getElem?_eq_some_iff.mp hb).1
      simp at hi1 hj1
      omega

theorem Apart.exec {w w' : World ξ} {f : Callback ξ} {eff : Position → List Cell → ξ → ξ} {bs : List (Buf ξ)} {as : List Scribe.Buf} {i : Nat}
    {b b' : Buf ξ} {a a' : Scribe.Buf} {obs : List (Position × List Cell)} (h : Apart w f bs as) (hb : bs[i]? = some b)
    (hs : Steps f eff w b a w' b' a' obs) : Apart w' f (bs.set i b') (as.set i a') := by
  have hlt : ∀ (i : Nat) b, bs[i]? = some b → b.data < w.cells.length := by
    intro i b hb
    have hi := (List.getElem?_eq_some_iff.mp hb).1
    exact (List.getElem?_eq_some_iff.mp (h.own i b (as[i]'(by rw [← h.len]; exact hi)) hb (List.getElem?_eq_getElem (by rw [← h.len]; exact hi))).cell).1
  have hib := (List.getElem?_eq_some_iff.mp hb).1
  have hfar : ∀ (j : Nat) c, j ≠ i → bs[j]? = some c → c.data ≠ b'.data := by
    intro j c hj hc he
    rcases hs.ptr with e | e
    · exact hj (h.distinct j i c b hc hb (he.trans e))
    · have := hlt j c hc
      rw [he] at this; exact absurd this (Nat.not_lt.mpr e)
  constructor
  · simp [h.len]
  · intro j c d hc hd
    by_cases hj : j = i
    · subst hj
      rw [List.getElem?_set_self hib] at hc
      rw [List.getElem?_set_self (by rw [← h.len]; exact hib)] at hd
      cases hc; cases hd; exact hs.own
    · rw [List.getElem?_set_ne (Ne.symm hj)] at hc hd
      have ho := h.own j c d hc hd
      refine ⟨hs.own.idle, ?_, ho.shared, ho.cursor, ho.history, ho.group, ho.callback⟩
      rw [hs.frame c.data (hlt j c hc) (fun he => hj (h.distinct j i c b hc hb he))]
      exact ho.cell
  · intro j k c d hc hd he
    by_cases hj : j = i <;> by_cases hk : k = i
    · omega
    · subst hj
      rw [List.getElem?_set_self hib] at hc
      rw [List.getElem?_set_ne (Ne.symm hk)] at hd
      cases hc
      exact absurd he.symm (hfar k d hk hd)
    · subst hk
      rw [List.getElem?_set_self hib] at hd
      rw [List.getElem?_set_ne (Ne.symm hj)] at hc
      cases hd
      exact absurd he (hfar j c hj hc)
    · rw [List.getElem?_set_ne (Ne.symm hj)] at hc
      rw [List.getElem?_set_ne (Ne.symm hk)] at hd
      exact h.distinct j k c d hc hd he

theorem many_apart {S : Segmenter} {A : Alloc} {f : Callback ξ} {eff : Position → List Cell → ξ → ξ} (hf : Looks f eff) (ms : List Many)
    {w : World ξ} {bs : List (Buf ξ)} {as : List Scribe.Buf} (hw : Idle w) (h : Apart w f bs as) (hs : ∀ a ∈ as, Sane a) :
    ∃ bs' w' as', many S A f w bs ms = .ok (bs', w') ∧ manyByValue S A as ms = .ok as' ∧ Apart w' f bs' as' := by
  induction ms generalizing w bs as with
  | nil => exact ⟨bs, w, as, rfl, rfl, h⟩
  | cons m ms ih =>
    cases m with
    | load k t =>
      refine ih (idle_alloc hw _) (h.load hw k t) ?_
      intro a ha
      rcases List.mem_append.mp ha with ha | ha
      · exact hs a ha
      · simp at ha; subst ha; exact sane_fromContent k t
    | «at» i c =>
      simp only [many, manyByValue]
      cases hb : bs[i]? with
      | none =>
        have : as[i]? = none := by
          rw [List.getElem?_eq_none_iff] at hb ⊢
          rw [← h.len]; exact hb
        rw [this]
        exact ih hw h hs
      | some b =>
        have hib := (List.getElem?_eq_some_iff.mp hb).1
        have hia : i < as.length := by rw [← h.len]; exact hib
        have ha : as[i]? = some as[i] := List.getElem?_eq_getElem hia
        rw [ha]
        obtain ⟨a', h1, h2⟩ := exec_safe (S := S) (A := A) (hs as[i] (List.getElem_mem hia)) c
        obtain ⟨b', w', obs, h3, h4⟩ := exec_steps hf (h.own i b as[i] hb ha) h1
        obtain ⟨bs2, w2, as2, h5, h6, h7⟩ := ih h4.own.idle (h.exec hb h4) (by
          intro x hx
          rcases List.mem_or_eq_of_mem_set hx with hx | rfl
          · exact hs x hx
          · exact h2)
        exact ⟨bs2, w2, as2, by simp only [h3, Except.ok_bind', h5], by simp only [h1, Except.ok_bind', h6], h7⟩

/-- Any number of buffers loaded in one world, called in any order, behave like independent values; no two ever share a cell, although
`replace`, `reload` and their undo allocate new cells. -/
theorem C64_independent (S : Segmenter) (A : Alloc) (f : Callback ξ) (eff : Position → List Cell → ξ → ξ) (hf : Looks f eff) (e : ξ)
    (ms : List Many) :
    ∃ bs w as, many S A f ⟨[], e⟩ [] ms = .ok (bs, w) ∧ manyByValue S A [] ms = .ok as ∧ bs.length = as.length ∧
      (∀ (i : Nat) b a, bs[i]? = some b → as[i]? = some a → Own w f b a) ∧
      ∀ (i j : Nat) b b', bs[i]? = some b → bs[j]? = some b' → b.data = b'.data → i = j := by
  have h0 : Idle (⟨[], e⟩ : World ξ) := by intro c hc; cases hc
  obtain ⟨bs, w, as, h1, h2, h3⟩ := many_apart (S := S) (A := A) hf ms h0
    (⟨rfl, fun i b a hb => by simp at hb, fun i j b b' hb => by simp at hb⟩ : Apart _ f [] []) (fun a ha => by cases ha)
  exact ⟨bs, w, as, h1, h2, h3.len, h3.own, h3.distinct⟩

example : ((many Demo.seg Demo.tight watch ⟨[], []⟩ [] [.load 0 (Demo.s "ab"), .load 1 (Demo.s "cd"), .at 0 (.replace (Demo.s "x")), .at 1 .delete,
    .at 0 .undo, .at 1 (.replace (Demo.s "y"))]).map fun r => r.1.map (·.data)) = .ok [3, 4] := by
  decide +kernel

/-! ## C65: clones of the cursor -/

theorem Made.sane {S : Segmenter} {A : Alloc} {a : Scribe.Buf} (h : Made S A a) : Sane a := by
  obtain ⟨k, cs, h | ⟨t, h⟩⟩ := h
  · obtain ⟨a', h', hs⟩ := execAll_safe (S := S) (A := A) cs (sane_new (A := A) k)
    rw [h] at h'; cases h'; exact hs
  · obtain ⟨a', h', hs⟩ := execAll_safe (S := S) (A := A) cs (sane_fromContent (A := A) k t)
    rw [h] at h'; cases h'; exact hs

/-- A clone of the cursor taken before calls that edit in place still points to the contents of the buffer. -/
theorem C65_clone_follows (S : Segmenter) (A : Alloc) (f : Callback ξ) (eff : Position → List Cell → ξ → ξ) (hf : Looks f eff) (w : World ξ)
    (b b' : Buf ξ) (w' : World ξ) (a : Scribe.Buf) (cs : List Scribe.Buf.Cmd) (h : Own w f b a) (hm : Made S A a) (hc : ∀ c ∈ cs, InPlace c)
    (he : Buf.execAll S A f w b cs = .ok (b', w')) :
    b'.data = b.cursor.data ∧ ∃ a', Scribe.Buf.execAll S A a cs = .ok a' ∧
      ∀ m, Cur.move S w' b.cursor m = (Cursor.move S a'.data b.cursor.at_ m >>= fun x => .ok (⟨b'.data, x⟩, w')) := by
  have hs := hm.sane
  have hptr : ∀ {w w' : World ξ} {b b' : Buf ξ} {c}, InPlace c → Buf.exec S A f w b c = .ok (b', w') → b'.data = b.data := by
    intro w w' b b' c hc he
    have hst : ∀ (x : Buf ξ) op, (x.store op).data = x.data := by intro x op; unfold Buf.store; split <;> rfl
    have hrun : ∀ (x x' : Buf ξ) (v v' : World ξ) op op', (∀ o n, op ≠ .replace o n) → Buf.runOp S A v x op = .ok (x', op', v') → x' = x := by
      intro x x' v v' op op' hn hr
      cases op with
      | insert s p =>
        simp only [Buf.runOp] at hr
        cases h1 : withWrite v x.data (fun g w => do return (← g.insert S A s p, w)) with
        | error e => rw [h1] at hr; cases hr
        | ok v1 =>
          rw [h1, Except.ok_bind'] at hr
          cases h2 : Buf.report v1 x p with
          | error e => rw [h2] at hr; cases hr
          | ok v2 => rw [h2] at hr; cases hr; rfl
      | delete c r =>
        simp only [Buf.runOp] at hr
        cases h0 : withRead v x.data (fun g w => do return (← g.read S r, w)) with
        | error e => rw [h0] at hr; cases hr
        | ok y =>
          obtain ⟨y, v0⟩ := y
          rw [h0, Except.ok_bind'] at hr
          dsimp only at hr
          cases h1 : withWrite v0 x.data (fun g w => do return (← g.delete S r, w)) with
          | error e => rw [h1] at hr; cases hr
          | ok v1 =>
            rw [h1, Except.ok_bind'] at hr
            cases h2 : Buf.report v1 x r.start with
            | error e => rw [h2] at hr; cases hr
            | ok v2 => rw [h2] at hr; cases hr; rfl
      | replace o n => exact absurd rfl (hn o n)
    have hrs : ∀ (x x' : Buf ξ) (v v' : World ξ) op, (∀ o n, op ≠ .replace o n) →
        (Buf.runOp S A v x op >>= fun r => (.ok (r.1.store r.2.1, r.2.2) : R (Buf ξ × World ξ))) = .ok (x', v') → x'.data = x.data := by
      intro x x' v v' op hn hr
      cases h1 : Buf.runOp S A v x op with
      | error e => rw [h1] at hr; cases hr
      | ok r =>
        obtain ⟨y, o, u⟩ := r
        rw [h1] at hr
        cases hr
        rw [hst, hrun _ _ _ _ _ _ hn h1]
    cases c with
    | insert s => exact hrs _ _ _ _ (.insert s b.cursor.at_.position) (by simp) he
    | delete =>
      simp only [Buf.exec, Buf.delete] at he
      cases h1 : withRead w b.data (fun g w => do return (← g.inBounds S ⟨b.cursor.at_.position.line, b.cursor.at_.position.offset + 1⟩, w)) with
      | error e => rw [h1] at he; cases he
      | ok r =>
        obtain ⟨x, v⟩ := r
        rw [h1, Except.ok_bind'] at he
        exact hrs _ _ _ _ (.delete none _) (by simp) he
    | deleteRange p q => exact hrs _ _ _ _ (.delete none (Range.new p q)) (by simp) he
    | startGroup => cases he; unfold Buf.startGroup; split <;> rfl
    | endGroup =>
      cases he
      unfold Buf.endGroup
      split
      · dsimp only; split <;> rfl
      · rfl
    | move m =>
      simp only [Buf.exec] at he
      cases h1 : Cur.move S w b.cursor m with
      | error e => rw [h1] at he; cases he
      | ok r => rw [h1] at he; cases he; rfl
    | setCursor p => cases he; rfl
    | setCallback v => cases he; rfl
    | saved => cases he; rfl
    | replace t => exact hc.elim
    | undo => exact hc.elim
    | redo => exact hc.elim
    | reload t => exact hc.elim
  have hptrs : b'.data = b.data := by
    clear h hs
    induction cs generalizing w b with
    | nil => cases he; rfl
    | cons c cs ih =>
      simp only [Buf.execAll] at he
      cases h1 : Buf.exec S A f w b c with
      | error e => rw [h1] at he; cases he
      | ok r =>
        obtain ⟨b1, w1⟩ := r
        rw [h1] at he
        rw [ih w1 b1 (fun x hx => hc x (by simp [hx])) he, hptr (hc c (by simp)) h1]
  obtain ⟨a', ha, _⟩ := execAll_safe (S := S) (A := A) cs hs
  obtain ⟨b2, w2, obs, h1, h2⟩ := execAll_steps hf cs h ha
  rw [h1] at he
  cases he
  refine ⟨by rw [hptrs, h.shared], a', ha, fun m => ?_⟩
  rw [move_eq (c := b.cursor) (k := .free a'.data) (by rw [h.shared, ← hptrs]; exact h2.own.cell) rfl m, h.shared, hptrs]
  rfl

/-- A clone of the cursor taken before a `replace` that changes the contents is stale from then on: whatever is done with the buffer
afterwards, the clone moves in, and is bounds-checked against, the discarded contents; it never shares a cell with the buffer again. -/
theorem C65_clone_goes_stale (S : Segmenter) (A : Alloc) (f : Callback ξ) (eff : Position → List Cell → ξ → ξ) (hf : Looks f eff) (w : World ξ)
    (b : Buf ξ) (a : Scribe.Buf) (old t : Text) (cs : List Scribe.Buf.Cmd) (h : Own w f b a) (hm : Made S A a) (ht : a.data.toStr = .ok old)
    (hne : t ≠ old) :
    ∃ b' w', Buf.execAll S A f w b (.replace t :: cs) = .ok (b', w') ∧ b'.data ≠ b.cursor.data ∧ b'.cursor.data = b'.data ∧
      ∀ m, Cur.move S w' b.cursor m = (Cursor.move S a.data b.cursor.at_ m >>= fun x => .ok (⟨b.cursor.data, x⟩, w')) := by
  have hs := hm.sane
  have hlt : b.data < w.cells.length := (List.getElem?_eq_some_iff.mp h.cell).1
  obtain ⟨a1, ha1, k1, _⟩ := replaceContent_safe (S := S) (A := A) a t
  obtain ⟨b1, w1, o1, h1, h2, h3, h4⟩ := replaceContent_step hf h t ha1
  have e1 : Buf.exec S A f w b (.replace t) = .ok (b1.store (.replace old t), w1) := by
    simp only [Buf.exec, Buf.replace, own_text h ht, Except.ok_bind', if_neg hne, Buf.runOp, h1]
  have hd1 : (b1.store (.replace old t)).data = b1.data := by unfold Buf.store; split <;> rfl
  have ho := own_store h2.own (.replace old t)
  have hs1 : Sane (a1.store (.replace old t)) := store_sane hs ⟨k1, by
      obtain ⟨_, hh, hk⟩ := replaceContent_safe (S := S) (A := A) a t
      rw [ha1] at hh; cases hh; exact hk.history, by
      obtain ⟨_, hh, hk⟩ := replaceContent_safe (S := S) (A := A) a t
      rw [ha1] at hh; cases hh; exact hk.group⟩ trivial
  obtain ⟨a2, ha2, _⟩ := execAll_safe (S := S) (A := A) cs hs1
  obtain ⟨b2, w2, o2, h5, h6⟩ := execAll_steps hf cs ho ha2
  have hlen := h2.len
  have hcell : w2.cells[b.data]? = some (.free a.data) := by
    rw [h6.frame b.data (Nat.lt_of_lt_of_le hlt hlen) (by rw [hd1]; intro e; rw [← e] at h3; exact Nat.not_lt.mpr h3 hlt), h4]
    exact h.cell
  refine ⟨b2, w2, by simp only [Buf.execAll, e1, Except.ok_bind', h5], ?_, h6.own.shared, fun m => ?_⟩
  · rw [h.shared]
    intro e
    rcases h6.ptr with e' | e'
    · rw [hd1] at e'; rw [e'] at e; rw [e] at h3; exact Nat.not_lt.mpr h3 hlt
    · rw [e] at e'; exact Nat.not_lt.mpr (Nat.le_trans hlen e') hlt
  · exact move_eq (c := b.cursor) (by rw [h.shared]; exact hcell) rfl m

/-- Restoring such a clone (`buffer.cursor = clone`, the field is public) gives a cursor that moves out of bounds: here to line 1 of the one-line
text "x". -/
example : ((Buf.exec Demo.seg Demo.tight watch (Buf.fromContent Demo.tight ⟨[], []⟩ 0 (Demo.s "ab\ncd")).2
      (Buf.fromContent Demo.tight ⟨[], []⟩ 0 (Demo.s "ab\ncd")).1 (.replace (Demo.s "x")) >>= fun r =>
    Buf.exec Demo.seg Demo.tight watch r.2 { r.1 with cursor := (Buf.fromContent Demo.tight (⟨[], ()⟩ : World Unit) 0 (Demo.s "ab\ncd")).1.cursor } (.move .down)).map
      fun r => r.1.cursor.at_.position) = .ok ⟨1, 0⟩ := by
  decide +kernel

/-! ## C66: edits by callbacks are not recorded -/

/-- A callback that edits the buffer through the shared pointer makes undo fail to restore the contents: its edits are not in the history. -/
theorem C66_reentrant_edit_not_undone : ∃ (S : Segmenter) (A : Alloc) (f : Callback Unit) (t s : Text), Behaves f ∧
    ((Buf.execAll S A f (Buf.fromContent A ⟨[], ()⟩ 0 t).2 (Buf.fromContent A ⟨[], ()⟩ 0 t).1 [.setCallback true, .insert s, .setCallback false, .undo] >>=
      fun r => Buf.text r.2 r.1).map (·.1)) ≠ .ok t :=
  ⟨Demo.seg, Demo.tight, meddle Demo.seg Demo.tight (Demo.s "!"), Demo.s "ab", Demo.s "c", meddle_behaves _ _ _, by decide +kernel⟩

/-- What is left: the undo removed the callback's text instead of the inserted one. -/
example : ((Buf.execAll Demo.seg Demo.tight (meddle Demo.seg Demo.tight (Demo.s "!")) (Buf.fromContent Demo.tight ⟨[], ()⟩ 0 (Demo.s "ab")).2
    (Buf.fromContent Demo.tight ⟨[], ()⟩ 0 (Demo.s "ab")).1 [.setCallback true, .insert (Demo.s "c"), .setCallback false, .undo] >>=
      fun r => Buf.text r.2 r.1).map (·.1)) = .ok (Demo.s "cab") := by
  decide +kernel

end Scribe.Shared
