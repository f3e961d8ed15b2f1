import Verif.Props.Workspace
import Verif.Props.File
import Verif.Props.History
import Verif.Spec.Editor
import Verif.Oracle.Editor
/-! # Property C79: what is unmodified is on the disk -/
namespace Scribe.Props
open Spec Workspace
variable {σ : Type} {S : Segmenter} {A : Alloc} {W : FileTree}

/-- `last` is the text that the mark of the buffer stands for. -/
def Known (S : Segmenter) (b : Buf) (last : Option Text) : Prop := ∃ d s, Tri S b d s ∧ MarkOk d.mark s last

theorem Known.text {b : Buf} {last : Option Text} (h : Known S b last) : ∃ t, b.data.toStr = .ok t := by
  obtain ⟨d, s, h1, _⟩ := h
  exact ⟨_, h1.data⟩

theorem Known.unmodified {b : Buf} {last : Option Text} (h : Known S b last) (hm : b.modified = false) (hg : Quiet b) :
    ∃ t, last = some t ∧ b.data.toStr = .ok t := by
  obtain ⟨d, s, t1, hmk⟩ := h
  unfold Buf.modified History.atMark at hm
  rw [t1.sim.mark] at hm
  cases hmm : d.mark with
  | none => rw [hmm] at hm; cases hm
  | some m =>
    rw [hmm] at hm
    have hpm : b.history.previous.length = m := by simpa using hm
    obtain ⟨t, h1, h2⟩ := hmk m hmm
    refine ⟨t, h1, ?_⟩
    rw [t1.previous] at hpm
    rw [t1.data]
    rw [List.getElem?_append_right (by rw [List.length_reverse]; omega), List.length_reverse, hpm, Nat.sub_self, t1.group_base hg] at h2
    simpa using h2

theorem Known.new (k : Nat) : Known S (Buf.new A k) none :=
  ⟨_, _, (Start.new (A := A) k).tri, fun i hi => by cases hi⟩

theorem Known.load (k : Nat) (t : Text) : Known S (Buf.fromContent A k t) (some t) :=
  ⟨_, _, (Start.load (A := A) k t).tri, fun i hi => by cases hi; exact ⟨_, rfl, rfl⟩⟩

theorem Known.step {b : Buf} {last : Option Text} (h : Known S b last) {c : Buf.Cmd} (hns : c ≠ .saved) (hnr : ∀ x, c ≠ .reload x)
    (hc : ∀ t, b.data.toStr = .ok t → CleanFor S.segs b t c) : ∃ b', Buf.exec S A b c = .ok b' ∧ Known S b' last := by
  obtain ⟨d, s, h1, h2⟩ := h
  have ht : b.data.toStr = .ok d.text := h1.sim.face.data.toStr
  have hcl : CleanCmd S.segs d c := by
    have := hc _ ht
    cases c <;> try trivial
    all_goals simp only [CleanFor, h1.sim.face.cursor] at this
    · exact this
    · exact this
    · rcases this with h | h | h
      · left
        have := h1.sim.redo
        rw [h] at this
        exact List.forall₂_nil_left_iff.mp this
      · exact .inr (.inl (h1.group_none h).1)
      · exact .inr (.inr (h1.group_empty h).1)
  obtain ⟨b', e1, e2⟩ := h1.exec (A := A) c hcl
  refine ⟨b', e1, _, _, e2, ?_⟩
  have hs : SyncOk d c := by
    cases c <;> first | trivial | exact absurd rfl hns | exact absurd rfl (hnr _)
  have := markOk_step h1.snap h2 c hs hcl
  cases c <;> first | exact this | exact absurd rfl hns | exact absurd rfl (hnr _)

theorem Known.saved {b : Buf} {last : Option Text} (h : Known S b last) (hg : Quiet b) {t : Text} (ht : b.data.toStr = .ok t) :
    Known S b.setMark (some t) := by
  obtain ⟨d, s, h1, h2⟩ := h
  have hd : b.data.toStr = .ok d.text := h1.sim.face.data.toStr
  rw [ht] at hd
  cases hd
  obtain ⟨b', e1, e2⟩ := h1.exec (A := Demo.tight) .saved trivial
  cases e1
  refine ⟨_, _, e2, ?_⟩
  refine markOk_step h1.snap h2 .saved ?_ trivial
  rcases hg with hg | hg
  · exact .inl (h1.group_none hg).1
  · exact .inr (h1.group_empty hg).1

theorem Known.reload {b : Buf} {last : Option Text} (h : Known S b last) (hg : b.group = none) (x : Text) :
    ∃ b', Buf.reloadWith S A b x = .ok b' ∧ Known S b' (some x) := by
  obtain ⟨d, s, h1, h2⟩ := h
  obtain ⟨b', e1, e2⟩ := h1.exec (A := A) (.reload x) trivial
  exact ⟨b', e1, _, _, e2, markOk_step h1.snap h2 (.reload x) (h1.group_none hg).1 trivial⟩

/-- A buffer that fits the disk. -/
def Fine (S : Segmenter) (W : FileTree) (disk : Disk) (x : FileBuf σ) : Prop :=
  ∃ last, Known S x.buf last ∧ (∀ p, x.path = some p → Canonical W p) ∧
    ∀ t, last = some t → ∃ p n, x.path = some p ∧ W.slot p = some n ∧ disk n = some (enc t)

theorem Fine.syn {disk : Disk} {x : FileBuf σ} (h : Fine S W disk x) (y : Option σ) (i : Option Nat) : Fine S W disk { x with syn := y, id := i } := h

/-- The invariant. -/
structure Tidy (S : Segmenter) (A : Alloc) (W : FileTree) (e : Editor σ) (d : Desk σ) : Prop where
  links : NoHardLinks W
  rel : Rel A e.ws d
  fine : ∀ x ∈ d.tabs.items, Fine S W e.disk x
  paths : (d.tabs.items.filterMap (·.path)).Nodup

theorem close_sublist {α} (t : Tabs α) : t.close.items.Sublist t.items := by
  show (t.items.take t.sel ++ t.items.drop (t.sel + 1)).Sublist _
  rw [← List.eraseIdx_eq_take_drop_succ]
  exact List.eraseIdx_sublist _ _

theorem filterMap_edit {t : Tabs (FileBuf σ)} {f : FileBuf σ → FileBuf σ} (hf : ∀ b, (f b).path = b.path) :
    (t.edit f).items.filterMap (·.path) = t.items.filterMap (·.path) := by
  show (t.items.modify t.sel f).filterMap _ = _
  by_cases h : t.sel < t.items.length
  · obtain ⟨a, x, z, h1, h2⟩ := split_at t.items t.sel h
    rw [h1, h2, modify_mid]; simp [List.filterMap_cons, hf]
  · rw [List.modify_eq_self (by omega)]

theorem mem_edit {α} {t : Tabs α} {f : α → α} {x : α} (h : x ∈ (t.edit f).items) : x ∈ t.items ∨ ∃ y ∈ t.items, x = f y := by
  change x ∈ t.items.modify t.sel f at h
  by_cases hl : t.sel < t.items.length
  · obtain ⟨a, y, z, h1, h2⟩ := split_at t.items t.sel hl
    rw [h1, h2, modify_mid] at h
    rw [h1]
    simp only [List.mem_append, List.mem_cons] at h ⊢
    rcases h with h | rfl | h
    · exact .inl (.inl h)
    · exact .inr ⟨y, .inr (.inl rfl), rfl⟩
    · exact .inl (.inr (.inr h))
  · rw [List.modify_eq_self (by omega)] at h; exact .inl h

theorem Tidy.add {e : Editor σ} {d : Desk σ} (h : Tidy S A W e d) {w' : Workspace σ} {x : FileBuf σ} {n : Nat} (hr : Rel A w' ⟨d.tabs.add x, n⟩)
    (hx : Fine S W e.disk x) (hp : ∀ p, x.path = some p → ∀ b ∈ d.tabs.items, b.path ≠ some p) : Tidy S A W { e with ws := w' } ⟨d.tabs.add x, n⟩ := by
  refine ⟨h.links, hr, ?_, ?_⟩
  · intro y hy
    rcases List.mem_cons.mp ((add_perm _ _).mem_iff.mp hy) with rfl | hy
    · exact hx
    · exact h.fine y hy
  · show ((d.tabs.add x).items.filterMap (·.path)).Nodup
    rw [((add_perm _ _).filterMap _).nodup_iff]
    cases hxp : x.path with
    | none => rw [List.filterMap_cons_none hxp]; exact h.paths
    | some p =>
      rw [List.filterMap_cons_some hxp, List.nodup_cons]
      refine ⟨fun hm => ?_, h.paths⟩
      obtain ⟨b, h3, h4⟩ := List.mem_filterMap.mp hm
      exact hp p hxp b h3 h4

/-- The current buffer changes, and with it perhaps the file that its path leads to. -/
theorem Tidy.put {e : Editor σ} {d : Desk σ} (h : Tidy S A W e d) {b b' : FileBuf σ} {disk' : Disk} (hc : e.ws.current = some b)
    (hf : Fine S W disk' b') (hd : ∀ p n, b'.path = some p → W.slot p = some n → ∀ m, m ≠ n → disk' m = e.disk m) (hd' : b'.path = none → disk' = e.disk)
    (hp : ∀ p, b'.path = some p → ∀ i x, d.tabs.items[i]? = some x → x.path = some p → d.tabs.sel = i) :
    ∃ d', Tidy S A W ⟨{ e.ws with current := some b' }, disk'⟩ d' := by
  have hrel := h.rel.edit (fun _ => b')
  rw [hc] at hrel
  suffices hh : (∀ x ∈ (d.tabs.edit fun _ => b').items, Fine S W disk' x) ∧ ((d.tabs.edit fun _ => b').items.filterMap (·.path)).Nodup from
    ⟨_, h.links, hrel, hh.1, hh.2⟩
  cases h.rel with
  | empty _ _ _ hc' => rw [hc] at hc'; cases hc'
  | sel a c z h1 hs _ _ hc' _ =>
    have hit : (d.tabs.edit fun _ => b').items = a ++ b' :: z := by
      show d.tabs.items.modify d.tabs.sel _ = _
      rw [h1, hs, modify_mid]
    have hother : ∀ x, x ∈ a ∨ x ∈ z → ∀ p, b'.path = some p → x.path ≠ some p := by
      intro x hx p hb hxp
      have : ∃ i, i ≠ a.length ∧ (a ++ c :: z)[i]? = some x := by
        rcases hx with hx | hx
        · obtain ⟨i, hi, rfl⟩ := List.getElem_of_mem hx
          exact ⟨i, by omega, by rw [List.getElem?_append_left hi]; exact List.getElem?_eq_getElem hi⟩
        · obtain ⟨i, hi, rfl⟩ := List.getElem_of_mem hx
          refine ⟨a.length + (i + 1), by omega, ?_⟩
          rw [List.getElem?_append_right (by omega)]
          simp [hi]
      obtain ⟨i, hne, hi⟩ := this
      rw [← h1] at hi
      exact hne ((hp p hb i x hi hxp).symm.trans hs)
    have hpaths := h.paths
    rw [h1] at hpaths
    refine ⟨?_, ?_⟩
    · rw [hit]
      intro x hx
      have hold : x ∈ a ∨ x ∈ z → Fine S W disk' x := by
        intro hx
        obtain ⟨last, k1, k2, k3⟩ := h.fine x (by rw [h1]; rcases hx with hx | hx <;> simp [hx])
        refine ⟨last, k1, k2, ?_⟩
        intro t ht
        obtain ⟨p, n, q1, q2, q3⟩ := k3 t ht
        refine ⟨p, n, q1, q2, ?_⟩
        cases hb : b'.path with
        | none => rw [hd' hb]; exact q3
        | some p' =>
          obtain ⟨_, _, kf, _⟩ := hf
          obtain ⟨n', r1, r2⟩ := kf p' hb
          rw [hd p' n' hb r1 n ?_]; exact q3
          rintro rfl
          obtain ⟨n2, r3, r4⟩ := k2 p q1
          rw [q2] at r3
          cases r3
          exact hother x hx p' hb (by rw [q1, ← r4, h.links p p' n q2 r1, r2])
      rcases List.mem_append.mp hx with hx | hx
      · exact hold (.inl hx)
      · rcases List.mem_cons.mp hx with rfl | hx
        · exact hf
        · exact hold (.inr hx)
    · rw [hit]
      have hsub : ((a ++ z).filterMap (·.path)).Nodup := by
        refine hpaths.sublist ?_
        refine List.Sublist.filterMap _ ?_
        exact List.Sublist.append (List.Sublist.refl _) (List.sublist_cons_self _ _)
      rw [(List.perm_middle.filterMap _).nodup_iff]
      cases hb : b'.path with
      | none => rw [List.filterMap_cons_none hb]; exact hsub
      | some p =>
        rw [List.filterMap_cons_some hb, List.nodup_cons]
        refine ⟨fun hm => ?_, hsub⟩
        obtain ⟨x, h3, h4⟩ := List.mem_filterMap.mp hm
        exact hother x (List.mem_append.mp h3) p hb h4

/-- Only the current buffer has its path. -/
theorem Tidy.alone {e : Editor σ} {d : Desk σ} (h : Tidy S A W e d) {b : FileBuf σ} (hc : e.ws.current = some b) {p : Path} (hb : b.path = some p) :
    ∀ i x, d.tabs.items[i]? = some x → x.path = some p → d.tabs.sel = i := by
  intro i x hi hx
  have hsel := h.rel.selected
  rw [hc] at hsel
  unfold Tabs.selected at hsel
  by_contra hne
  have hpw := List.pairwise_filterMap.mp h.paths
  rw [List.pairwise_iff_getElem] at hpw
  obtain ⟨l1, e1⟩ := List.getElem?_eq_some_iff.mp hi
  obtain ⟨l2, e2⟩ := List.getElem?_eq_some_iff.mp hsel
  rcases Nat.lt_or_gt_of_ne hne with hlt | hlt
  · exact hpw _ _ l2 l1 hlt p (by rw [e2]; exact hb) p (by rw [e1]; exact hx) rfl
  · exact hpw _ _ l1 l2 hlt p (by rw [e1]; exact hx) p (by rw [e2]; exact hb) rfl

theorem Tidy.current {e : Editor σ} {d : Desk σ} (h : Tidy S A W e d) {b : FileBuf σ} (hc : e.ws.current = some b) : Fine S W e.disk b := by
  have hsel := h.rel.selected
  rw [hc] at hsel
  exact h.fine b (List.mem_of_getElem? hsel)

/-- Saving. -/
theorem Tidy.save {e : Editor σ} {d : Desk σ} (h : Tidy S A W e d) {b b1 : FileBuf σ} (hc : e.ws.current = some b) {last : Option Text}
    (hk : Known S b1.buf last) (hcan : ∀ p, b1.path = some p → Canonical W p)
    (hal : ∀ p, b1.path = some p → ∀ i x, d.tabs.items[i]? = some x → x.path = some p → d.tabs.sel = i)
    (hq : Quiet b1.buf) (env : SaveEnv) (hfine : Fine S W e.disk b1 ∨ ∀ r, b1.save (W.env b1.path env) e.disk = .ok r → r.2.1 = .ok)
    (hok : ∀ r, b1.save (W.env b1.path env) e.disk = .ok r → r.2.1 = .ok ∨ r.1 = []) :
    ∃ e' d', Editor.saveBuf W e b1 env = .ok e' ∧ Tidy S A W e' d' := by
  obtain ⟨t, ht⟩ := hk.text
  obtain ⟨steps, en, b', h1, h2, h3, h4⟩ := C20_save b1 t ht (W.env b1.path env) e.disk
  have hrun : Editor.saveBuf W e b1 env = .ok ⟨{ e.ws with current := some b' }, final e.disk steps⟩ := by
    unfold Editor.saveBuf
    rw [h1]; rfl
  rw [hrun]
  by_cases hen : en = .ok
  · obtain ⟨file, k1, k2, k3, k4, k5, k6⟩ := h2 hen
    have hcr : ∃ p, b1.path = some p ∧ W.slot p = some file := by
      cases hp : b1.path with
      | none => exact absurd hen (h4 hp).1
      | some p =>
        refine ⟨p, rfl, ?_⟩
        simp only [FileTree.env, hp, Option.getD_some] at k1
        cases hcr : env.create with
        | none => rw [hcr] at k1; cases k1
        | some r =>
          rw [hcr] at k1
          cases r with
          | none => cases k1
          | some _ => simpa using k1
    obtain ⟨p, hp, hs⟩ := hcr
    have hp' : b'.path = some p := by rw [k4]; exact hp
    obtain ⟨d', hd'⟩ := h.put (b' := b') (disk' := final e.disk steps) hc
      ⟨some t, by rw [k4]; exact hk.saved hq ht, by rw [k4]; exact hcan, fun t' e' => by cases e'; exact ⟨p, file, hp', hs, k2⟩⟩
      (by
        intro p' n hp'' hs' m hm
        rw [hp'] at hp''
        cases hp''
        rw [hs] at hs'
        cases hs'
        exact k3 m hm)
      (by intro hn; rw [hp'] at hn; cases hn)
      (by rw [k4]; exact hal)
    exact ⟨_, d', rfl, hd'⟩
  · have hst : steps = [] := by
      rcases hok _ h1 with h | h
      · exact absurd h hen
      · exact h
    have hb := h3 hen
    subst hb hst
    have hf : Fine S W e.disk b' := by
      rcases hfine with h | h
      · exact h
      · exact absurd (h _ h1) hen
    obtain ⟨d', hd'⟩ := h.put (b' := b') (disk' := e.disk) hc hf (fun _ _ _ _ _ _ => rfl) (fun _ => rfl) hal
    exact ⟨_, d', rfl, hd'⟩

theorem Tidy.step {e : Editor σ} {d : Desk σ} (h : Tidy S A W e d) (a : Deed σ) (ha : Careful S W e a) :
    ∃ e' d', e.step S A W a = .ok e' ∧ Tidy S A W e' d' := by
  cases a with
  | fresh k =>
    obtain ⟨w', e1, e2, _⟩ := h.rel.add (FileBuf.new A k)
    refine ⟨_, _, by simp only [Editor.step, e1]; rfl, h.add e2 ?_ (fun p hp => by cases hp)⟩
    exact ⟨none, Known.new k, fun p hp => (by cases hp), fun t ht => (by cases ht)⟩
  | openPath k readable p =>
    obtain ⟨w', e1, e2, _⟩ := h.rel.openPath k (W.fs e.disk readable) (W.fs e.disk readable) (W.fs e.disk readable) p
    suffices hh : ∃ d', Tidy S A W { e with ws := w' } d' by
      obtain ⟨d', hd'⟩ := hh
      exact ⟨_, d', by simp only [Editor.step, e1]; rfl, hd'⟩
    revert e2
    simp only [Desk.call]
    split
    · intro e2; exact ⟨_, h.links, e2, h.fine, h.paths⟩
    · rename_i hno
      split
      · rename_i text c h1 h2
        intro e2
        rw [h2, Option.bind_some] at hno
        simp only [FileTree.fs] at h1 h2
        cases hsl : W.slot p with
        | none => rw [hsl] at h2; cases h2
        | some n =>
          rw [hsl] at h2
          simp only [Option.bind_some, Option.map_eq_some_iff] at h2
          obtain ⟨bs, hbs, rfl⟩ := h2
          have hl := W.leads p n hsl
          refine ⟨_, h.add e2 ?_ (fun q hq b hb => by cases hq; exact findPath_none hno b hb)⟩
          refine ⟨some text, Known.load k text, by intro q hq; cases hq; exact ⟨n, hl, W.idem p n hsl⟩, ?_⟩
          intro t ht
          cases ht
          refine ⟨_, n, rfl, hl, ?_⟩
          simp only [Fs.readToString] at h1
          cases readable with
          | false => cases h1
          | true =>
            simp only [if_true, hsl, Option.bind_some, hbs] at h1
            rw [hbs, strict_eq_some.mp h1]
      · intro e2; exact ⟨_, h.links, e2, h.fine, h.paths⟩
  | close =>
    obtain ⟨w', e1, e2, _⟩ := h.rel.close
    refine ⟨{ e with ws := w' }, _, by simp only [Editor.step, e1]; rfl, h.links, e2, ?_, ?_⟩
    · intro x hx; exact h.fine x ((close_sublist _).subset hx)
    · exact h.paths.sublist ((close_sublist _).filterMap _)
  | next =>
    obtain ⟨w', e1, e2, _⟩ := h.rel.next
    exact ⟨{ e with ws := w' }, _, by simp only [Editor.step, e1]; rfl, h.links, e2, h.fine, h.paths⟩
  | previous =>
    obtain ⟨w', e1, e2, _⟩ := h.rel.previous
    exact ⟨{ e with ws := w' }, _, by simp only [Editor.step, e1]; rfl, h.links, e2, h.fine, h.paths⟩
  | updateSyntax =>
    obtain ⟨e1, e2, _⟩ := h.rel.updateSyntax
    refine ⟨_, _, rfl, h.links, e2, ?_, ?_⟩
    · intro x hx
      rcases mem_edit hx with hx | ⟨y, hy, rfl⟩
      · exact h.fine x hx
      · exact h.fine y hy
    · have := filterMap_edit (t := d.tabs) (f := fun b => { b with syn := some (chooseSyntax e.ws.syntaxes b) }) (fun _ => rfl)
      show List.Nodup (List.filterMap _ (d.tabs.edit _).items)
      rw [this]; exact h.paths
  | setSyntax y =>
    refine ⟨_, _, rfl, h.links, h.rel.edit _, ?_, ?_⟩
    · intro x hx
      rcases mem_edit hx with hx | ⟨y, hy, rfl⟩
      · exact h.fine x hx
      · exact h.fine y hy
    · have := filterMap_edit (t := d.tabs) (f := fun b => { b with syn := y }) (fun _ => rfl)
      show List.Nodup (List.filterMap _ (d.tabs.edit _).items)
      rw [this]; exact h.paths
  | cmd c =>
    simp only [Editor.step]
    cases hc : e.ws.current with
    | none => exact ⟨e, d, rfl, h⟩
    | some b =>
      obtain ⟨last, k1, k2, k3⟩ := h.current hc
      obtain ⟨b', e1, e2⟩ := k1.step (A := A) ha.1 ha.2.1 (fun t ht => ha.2.2 b t hc ht)
      obtain ⟨d', hd'⟩ := h.put (b' := { b with buf := b' }) (disk' := e.disk) hc ⟨last, e2, k2, k3⟩ (fun _ _ _ _ _ _ => rfl) (fun _ => rfl)
        (fun p hp => h.alone hc hp)
      exact ⟨_, d', by simp only [e1]; rfl, hd'⟩
  | save env =>
    simp only [Editor.step]
    cases hc : e.ws.current with
    | none => exact ⟨e, d, rfl, h⟩
    | some b =>
      have hf := h.current hc
      obtain ⟨last, k1, k2, k3⟩ := h.current hc
      obtain ⟨hq, hs⟩ := ha b hc
      exact h.save hc k1 k2 (fun p hp => h.alone hc hp) hq env (.inl hf) hs
  | saveAs p env =>
    simp only [Editor.step]
    cases hc : e.ws.current with
    | none => exact ⟨e, d, rfl, h⟩
    | some b =>
      obtain ⟨last, k1, _, _⟩ := h.current hc
      obtain ⟨hcan, hal, hb⟩ := ha
      obtain ⟨hq, hs⟩ := hb b hc
      refine h.save (b1 := { b with path := some p }) hc k1 (by intro q hq; cases hq; exact hcan) ?_ hq env (.inr hs) (fun r hr => .inl (hs r hr))
      intro q hq i x hi hx
      cases hq
      have := hal i x (by rw [contents_eq h.rel]; exact hi) hx
      rw [h.rel.index] at this
      split at this
      · cases this
      · exact Option.some.inj this
  | reload readable =>
    simp only [Editor.step]
    cases hc : e.ws.current with
    | none => exact ⟨e, d, rfl, h⟩
    | some b =>
      obtain ⟨last, k1, k2, k3⟩ := h.current hc
      have hsame : ∃ d', Tidy S A W ⟨{ e.ws with current := some b }, e.disk⟩ d' :=
        h.put (b' := b) (disk' := e.disk) hc ⟨last, k1, k2, k3⟩ (fun _ _ _ _ _ _ => rfl) (fun _ => rfl) (fun p hp => h.alone hc hp)
      have hdo : ∀ r b', b.reload S A (W.fs e.disk readable) = .ok (r, b') → (∃ d', Tidy S A W ⟨{ e.ws with current := some b' }, e.disk⟩ d') →
          ∃ e' d', (do let (_, b) ← b.reload S A (W.fs e.disk readable); return { e with ws := { e.ws with current := some b } } : R (Editor σ)) = .ok e' ∧
            Tidy S A W e' d' := by
        intro r b' h1 ⟨d', h2⟩
        rw [h1]
        exact ⟨_, d', rfl, h2⟩
      cases hp : b.path with
      | none => exact hdo false b (by unfold FileBuf.reload; rw [hp]) hsame
      | some p =>
        cases hr : (W.fs e.disk readable).readToString p with
        | none => exact hdo false b (by simp only [FileBuf.reload, hp, hr]) hsame
        | some x =>
          obtain ⟨b', e1, e2⟩ := k1.reload (A := A) (ha b hc) x
          obtain ⟨n, s1, s2⟩ := k2 p hp
          have hx : e.disk n = some (enc x) := by
            simp only [FileTree.fs, Fs.readToString, s1] at hr
            cases readable with
            | false => cases hr
            | true =>
              simp only [if_true, Option.bind_some] at hr
              cases hd : e.disk n with
              | none => rw [hd] at hr; cases hr
              | some bs => rw [hd] at hr; rw [strict_eq_some.mp hr]
          refine hdo true { b with buf := b' } (by simp only [FileBuf.reload, hp, hr, e1]; rfl) (h.put (b' := { b with buf := b' }) (disk' := e.disk) hc
            ⟨some x, e2, k2, fun t ht => by cases ht; exact ⟨p, n, hp, s1, hx⟩⟩ (fun _ _ _ _ _ _ => rfl) (fun _ => rfl) (fun p hp => h.alone hc hp))

theorem Tidy.steps (as : List (Deed σ)) : ∀ {e : Editor σ} {d : Desk σ}, Tidy S A W e d → CarefulAll S A W e as →
    ∃ e' d', e.steps S A W as = .ok e' ∧ Tidy S A W e' d' := by
  induction as with
  | nil => intro e d h _; exact ⟨e, d, rfl, h⟩
  | cons a as ih =>
    intro e d h ha
    obtain ⟨e1, d1, k1, k2⟩ := h.step a ha.1
    obtain ⟨e2, d2, k3, k4⟩ := ih k2 (ha.2 _ k1)
    exact ⟨e2, d2, by simp only [Editor.steps, k1]; exact k3, k4⟩

theorem tidy_new {fs : Fs} {path : Path} {s : Syntaxes σ} {w0 : Workspace σ} (h : Workspace.new fs path (some s) = some w0) (disk : Disk)
    (hW : NoHardLinks W) : Tidy S A W ⟨w0, disk⟩ nothing :=
  ⟨hW, (rel_new h).1, fun _ hx => (List.not_mem_nil hx).elim, List.nodup_nil⟩

/-- **C79.** A program opens files (by any path), edits, moves between buffers, saves, saves under another name, reloads and closes, and nobody else changes
the files. Then nothing panics, and at every moment every open buffer, current or not, that is not reported as modified has a path, and the file there holds
exactly the buffer's contents. -/
theorem C79_unmodified_is_on_disk (S : Segmenter) (A : Alloc) (W : FileTree) (fs : Fs) (path : Path) (s : Syntaxes σ) (w0 : Workspace σ) (disk0 : Disk)
    (h0 : Workspace.new fs path (some s) = some w0) (as : List (Deed σ)) (ha : CarefulAll S A W ⟨w0, disk0⟩ as) (hW : NoHardLinks W) :
    ∃ e, Editor.steps S A W ⟨w0, disk0⟩ as = .ok e ∧
      ∀ b ∈ contents e.ws, b.buf.modified = false → Quiet b.buf →
        ∃ p n t, b.path = some p ∧ W.slot p = some n ∧ b.buf.data.toStr = .ok t ∧ e.disk n = some (enc t) := by
  obtain ⟨e, d, h1, h2⟩ := Tidy.steps (S := S) (A := A) (W := W) as (tidy_new h0 disk0 hW) ha
  refine ⟨e, h1, ?_⟩
  intro b hb hm hq
  rw [contents_eq h2.rel] at hb
  obtain ⟨last, k1, k2, k3⟩ := h2.fine b hb
  obtain ⟨t, e1, e2⟩ := k1.unmodified hm hq
  obtain ⟨p, n, q1, q2, q3⟩ := k3 t e1
  exact ⟨p, n, t, q1, q2, e2, q3⟩

/-- C79: no two open buffers have the same file, whatever paths they were opened by. -/
theorem C79_one_buffer_per_file (S : Segmenter) (A : Alloc) (W : FileTree) (fs : Fs) (path : Path) (s : Syntaxes σ) (w0 : Workspace σ) (disk0 : Disk)
    (h0 : Workspace.new fs path (some s) = some w0) (as : List (Deed σ)) (ha : CarefulAll S A W ⟨w0, disk0⟩ as) (hW : NoHardLinks W) (e : Editor σ)
    (he : Editor.steps S A W ⟨w0, disk0⟩ as = .ok e) (i j : Nat) (x y : FileBuf σ) (p q : Path) (n : Nat) (hx : (contents e.ws)[i]? = some x)
    (hy : (contents e.ws)[j]? = some y) (hp : x.path = some p) (hq : y.path = some q) (hn : W.slot p = some n) (hn' : W.slot q = some n) : i = j := by
  obtain ⟨e', d, h1, h2⟩ := Tidy.steps (S := S) (A := A) (W := W) as (tidy_new h0 disk0 hW) ha
  rw [he] at h1
  cases h1
  rw [contents_eq h2.rel] at hx hy
  obtain ⟨l1, e1⟩ := List.getElem?_eq_some_iff.mp hx
  obtain ⟨l2, e2⟩ := List.getElem?_eq_some_iff.mp hy
  have hpq : p = q := by
    obtain ⟨_, _, kx, _⟩ := h2.fine x (List.mem_of_getElem? hx)
    obtain ⟨_, _, ky, _⟩ := h2.fine y (List.mem_of_getElem? hy)
    obtain ⟨n1, a1, a2⟩ := kx p hp
    obtain ⟨n2, b1, b2⟩ := ky q hq
    rw [hn] at a1
    rw [hn'] at b1
    cases a1
    cases b1
    rw [← a2, ← b2]
    exact hW p q n hn hn'
  subst hpq
  by_contra hne
  have hpw := List.pairwise_filterMap.mp h2.paths
  rw [List.pairwise_iff_getElem] at hpw
  rcases Nat.lt_or_gt_of_ne hne with hlt | hlt
  · exact hpw _ _ l1 l2 hlt p (by rw [e1]; exact hp) p (by rw [e2]; exact hq) rfl
  · exact hpw _ _ l2 l1 hlt p (by rw [e2]; exact hq) p (by rw [e1]; exact hp) rfl

/-- C79: closing a buffer that is not modified loses nothing: opening its path again gives the same contents. -/
theorem C79_reopen (S : Segmenter) (A : Alloc) (W : FileTree) (fs : Fs) (path : Path) (s : Syntaxes σ) (w0 : Workspace σ) (disk0 : Disk)
    (h0 : Workspace.new fs path (some s) = some w0) (as : List (Deed σ)) (ha : CarefulAll S A W ⟨w0, disk0⟩ as) (hW : NoHardLinks W) (e : Editor σ)
    (he : Editor.steps S A W ⟨w0, disk0⟩ as = .ok e) (b : FileBuf σ) (hb : e.ws.current = some b) (hm : b.buf.modified = false) (hq : Quiet b.buf) (k : Nat) :
    ∃ p e' b', b.path = some p ∧ e.steps S A W [.close, .openPath k true p] = .ok e' ∧ e'.ws.current = some b' ∧ b'.path = some p ∧
      b'.buf.data.toStr = b.buf.data.toStr ∧ b'.buf.modified = false := by
  obtain ⟨e', d, h1, h2⟩ := Tidy.steps (S := S) (A := A) (W := W) as (tidy_new h0 disk0 hW) ha
  rw [he] at h1
  cases h1
  obtain ⟨last, k1, k2, k3⟩ := h2.current hb
  obtain ⟨t, e1, e2⟩ := k1.unmodified hm hq
  obtain ⟨p, n, q1, q2, q3⟩ := k3 t e1
  obtain ⟨n', r1, r2⟩ := k2 p q1
  rw [q2] at r1
  cases r1
  obtain ⟨w1, c1, c2, _⟩ := h2.rel.close
  obtain ⟨w2, o1, o2, _⟩ := c2.openPath k (W.fs e.disk true) (W.fs e.disk true) (W.fs e.disk true) p
  have hcan : (W.fs e.disk true).canon p = some p := by simp [FileTree.fs, q2, q3, r2]
  have hread : (W.fs e.disk true).readToString p = some t := by simp [Fs.readToString, FileTree.fs, q2, q3]
  have hnone : findPath d.tabs.close p = none := by
    cases hf : findPath d.tabs.close p with
    | none => rfl
    | some i =>
      exfalso
      obtain ⟨x, x1, x2⟩ := findPath_some hf
      have hx : ∃ j, j ≠ d.tabs.sel ∧ d.tabs.items[j]? = some x := by
        change (d.tabs.items.take d.tabs.sel ++ d.tabs.items.drop (d.tabs.sel + 1))[i]? = some x at x1
        rw [← List.eraseIdx_eq_take_drop_succ, List.getElem?_eraseIdx] at x1
        split at x1
        · exact ⟨i, by omega, x1⟩
        · exact ⟨i + 1, by omega, x1⟩
      obtain ⟨j, hj, hx⟩ := hx
      exact hj (h2.alone hb q1 j x hx x2).symm
  simp only [Desk.call, hcan, Option.bind_some, hnone, hread] at o1 o2
  have hcur := o2.selected
  have hsel : ∀ (t : Tabs (FileBuf σ)) (x : FileBuf σ), (t.items ≠ [] → t.sel < t.items.length) → (t.add x).selected = some x := fun t x h => add_selected h x
  rw [hsel] at hcur
  · refine ⟨p, ⟨w2, e.disk⟩, _, q1, ?_, hcur.symm, rfl, ?_, rfl⟩
    · have s1 : e.step S A W .close = .ok ⟨w1, e.disk⟩ := by simp only [Editor.step, c1]; rfl
      have s2 : (⟨w1, e.disk⟩ : Editor σ).step S A W (.openPath k true p) = .ok ⟨w2, e.disk⟩ := by simp only [Editor.step, o1]; rfl
      simp only [Editor.steps, s1, s2, Except.ok_bind']
    · rw [e2]
      obtain ⟨_, _, hh, _⟩ := Known.load (S := S) (A := A) k t
      exact (GapBuffer.holds_new (S := S) (A := A) k t).toStr
  · intro hne
    exact sel_lt c2 hne

/-- C79: why saves that emptied the file have to succeed. Saving an unmodified buffer again when there is no space left empties the file, and the buffer
is still reported as unmodified: closing it now loses the contents. -/
theorem C79_failed_save (S : Segmenter) (A : Alloc) (W : FileTree) (fs : Fs) (path : Path) (s : Syntaxes σ) (w0 : Workspace σ) (disk0 : Disk)
    (h0 : Workspace.new fs path (some s) = some w0) (as : List (Deed σ)) (ha : CarefulAll S A W ⟨w0, disk0⟩ as) (hW : NoHardLinks W) (e : Editor σ)
    (he : Editor.steps S A W ⟨w0, disk0⟩ as = .ok e) (b : FileBuf σ) (hb : e.ws.current = some b) (hm : b.buf.modified = false) (hq : Quiet b.buf)
    (t : Text) (ht : b.buf.data.toStr = .ok t) (hne : t ≠ []) (hp : b.path.getD [] ≠ []) :
    ∃ e' p n, e.step S A W (.save ⟨some (some 0), [.failed]⟩) = .ok e' ∧ b.path = some p ∧ W.slot p = some n ∧ e.disk n = some (enc t) ∧
      e'.ws.current = some b ∧ b.buf.modified = false ∧ e'.disk n = some [] := by
  obtain ⟨e', d, h1, h2⟩ := Tidy.steps (S := S) (A := A) (W := W) as (tidy_new h0 disk0 hW) ha
  rw [he] at h1
  cases h1
  obtain ⟨last, k1, k2, k3⟩ := h2.current hb
  obtain ⟨t', e1, e2⟩ := k1.unmodified hm hq
  obtain ⟨p, n, q1, q2, q3⟩ := k3 t' e1
  rw [ht] at e2
  cases e2
  have hen : (enc t).isEmpty = false := by
    have := blen_pos hne
    rw [← length_enc] at this
    cases he : enc t with
    | nil => rw [he] at this; simp at this
    | cons _ _ => rfl
  have hs : b.save (W.env b.path ⟨some (some 0), [.failed]⟩) e.disk = .ok ([fun f => if f = n then some [] else e.disk f], .err, b) := by
    unfold FileBuf.save
    rw [q1] at hp ⊢
    cases hp' : p with
    | nil => exact absurd hp' hp
    | cons x xs =>
      rw [hp'] at q2
      simp only [FileTree.env, Option.getD_some, Option.map_some, Option.bind_some, q2, ht, Except.ok_bind', writeAll, hen]
      rfl
  refine ⟨⟨{ e.ws with current := some b }, fun f => if f = n then some [] else e.disk f⟩, p, n, ?_, q1, q2, q3, rfl, hm, ?_⟩
  · simp only [Editor.step, hb, Editor.saveBuf, hs, Except.ok_bind']
    rfl
  · simp

/-- Three files; `/w/l` is a link to the file `/w/b`. -/
def demoTree : FileTree where
  slot p := if p = demoPath [0x61, 46, 0x72] then some 0 else if p = demoPath [0x62] ∨ p = demoPath [0x6c] then some 1 else if p = demoPath [0x63] then some 2 else none
  real p := if p = demoPath [0x6c] then demoPath [0x62] else p
  leads p n h := by
    split
    · rename_i hp; subst hp; revert h; decide +revert
    · exact h
  idem p n _ := by
    by_cases hp : p = demoPath [0x6c]
    · rw [if_pos hp]; rfl
    · rw [if_neg hp, if_neg hp]

example : NoHardLinks demoTree := by
  intro p q n hp hq
  simp only [demoTree, demoPath] at *
  grind

/-- `/w/a.r` and `/w/b` exist. -/
def demoDisk : Disk := fun n => if n = 0 then some (enc (Demo.s "ab")) else if n = 1 then some (enc (Demo.s "x\ny")) else none

/-- Opens both files, the second one twice; edits; a save after four writes, undone afterwards; a new buffer saved as `/w/c`; a save that fails to create the file. -/
def demoDeeds : List (Deed Nat) :=
  [.openPath 0 true (demoPath [0x61, 46, 0x72]), .openPath 1 true (demoPath [0x6c]), .cmd (.insert (Demo.s "hi")), .save ⟨some (some 0), [.wrote 1, .interrupted, .wrote 2, .wrote 9]⟩,
    .previous, .cmd (.insert (Demo.s "!")), .openPath 2 true (demoPath [0x62]), .cmd .undo, .cmd .redo, .fresh 3, .cmd (.insert (Demo.s "new")),
    .saveAs (demoPath [0x63]) ⟨some (some 0), [.wrote 3]⟩, .next, .save ⟨some none, []⟩]

def demoStart : Editor Nat := ⟨{ path := demoPath [], buffers := [], nextId := 0, current := none, index := none, syntaxes := demoSyn }, demoDisk⟩

example : Workspace.new demoFs (demoPath []) (some demoSyn) = some demoStart.ws := rfl

example : CarefulAll Demo.seg Demo.tight demoTree demoStart demoDeeds := by decide +kernel

/-- What can be seen of an open buffer. -/
structure SeenBuf where
  path : Option Path
  text : Option Text
  modified : Bool
  deriving DecidableEq

/-- What can be seen of the buffers and of the files. -/
structure SeenEditor where
  bufs : List SeenBuf
  files : List (Option Bytes)
  deriving DecidableEq

def seenEditor (e : Editor Nat) : SeenEditor :=
  ⟨(contents e.ws).map fun b => ⟨b.path, b.buf.data.toStr.toOption, b.buf.modified⟩, [e.disk 0, e.disk 1, e.disk 2]⟩

example : (Editor.steps Demo.seg Demo.tight demoTree demoStart demoDeeds).toOption.map seenEditor =
    some ⟨[⟨some (demoPath [0x61, 46, 0x72]), some (Demo.s "!ab"), true⟩, ⟨some (demoPath [0x62]), some (Demo.s "hix\ny"), false⟩, ⟨some (demoPath [0x63]), some (Demo.s "new"), false⟩],
      [some (enc (Demo.s "ab")), some (enc (Demo.s "hix\ny")), some (enc (Demo.s "new"))]⟩ := by
  decide +kernel

end Scribe.Props
