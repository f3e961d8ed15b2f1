import Verif.Spec.Desktop
import Verif.Props.Session
import Verif.Props.File
/-! # A program on a disk refines documents and files -/
namespace Scribe
open Spec Props
variable {σ : Type} {S : Segmenter} {A : Alloc} {W : FileTree}

theorem Except.bind_inv {ε α β : Type} {x : Except ε α} {f : α → Except ε β} {b : β} (h : (x >>= f) = .ok b) : ∃ a, x = .ok a ∧ f a = .ok b := by
  cases x with
  | error e => cases h
  | ok a => exact ⟨a, rfl, h⟩

/-- The workspace shows the documents, the disk is the same. -/
structure Desks (S : Segmenter) (A : Alloc) (e : Editor σ) (s : Syntaxes σ) (d : Desktop σ) : Prop where
  docs : Studies S A e.ws s d.docs
  disk : e.disk = d.disk

theorem writeAll_written (file : Nat) (rs : List WriteRes) (disk : Disk) (bs done : Bytes) (hd : disk file = some done) :
    final disk (writeAll file rs disk bs).1 = (fun f => if f = file then some (done ++ bs.take (written rs bs.length).1) else disk f) ∧
    ((writeAll file rs disk bs).2 = .ok ↔ (written rs bs.length).2 = true) := by
  have stay : disk = fun f => if f = file then some (done ++ bs.take 0) else disk f := by
    funext f; by_cases hf : f = file
    · subst hf; simp [hd]
    · simp [hf]
  induction rs generalizing disk bs done with
  | nil =>
    cases bs with
    | nil => exact ⟨stay, by simp [writeAll, written]⟩
    | cons b bs => exact ⟨stay, by simp [writeAll, written]⟩
  | cons r rs ih =>
    cases bs with
    | nil => exact ⟨by simpa [writeAll, written, final] using stay, by simp [writeAll, written]⟩
    | cons b bs =>
      cases r with
      | failed => exact ⟨by simpa [writeAll, written, final] using stay, by simp [writeAll, written]⟩
      | interrupted =>
        have := ih disk (b :: bs) done hd stay
        simpa [writeAll, written] using this
      | wrote n =>
        cases n with
        | zero => exact ⟨by simpa [writeAll, written, final] using stay, by simp [writeAll, written]⟩
        | succ n =>
          obtain ⟨h1, h2⟩ := ih (fun f => if f = file then some ((disk file).getD [] ++ (b :: bs).take (n + 1)) else disk f) ((b :: bs).drop (n + 1))
            (done ++ (b :: bs).take (n + 1)) (by simp [hd]) (by
              funext f; by_cases hf : f = file
              · subst hf; simp [hd]
              · simp [hf])
          have hl : ((b :: bs).drop (n + 1)).length = bs.length - n := by simp
          rw [hl] at h1 h2
          simp only [writeAll, List.isEmpty_cons, Bool.false_eq_true, if_false, List.length_cons, written]
          refine ⟨?_, h2⟩
          rw [final_cons, h1]
          funext f
          by_cases hf : f = file
          · subst hf
            simp only [if_true]
            rw [List.append_assoc]
            congr 2
            rcases Nat.le_total (n + 1) (bs.length + 1) with h | h
            · rw [Nat.min_eq_left h]; exact List.take_add.symm
            · rw [Nat.min_eq_right h, List.take_of_length_le (by simpa using h), List.drop_of_length_le (by simpa using h),
                List.take_nil, List.append_nil, List.take_of_length_le (by simp)]
          · simp [hf]

theorem Desks.act {e : Editor σ} {s : Syntaxes σ} {d : Desktop σ} (h : Desks S A e s d) (a : Act σ) :
    ∃ r w', e.ws.act S A a = .ok (r, w') ∧ Desks S A ⟨w', e.disk⟩ s (d.act S.segs A.grant s a) ∧ w'.path = e.ws.path := by
  obtain ⟨w', h1, h2, h3⟩ := h.docs.act (S := S) a
  exact ⟨_, w', h1, ⟨h2, h.disk⟩, h3⟩

theorem Studies.selected {w : Workspace σ} {s : Syntaxes σ} {e : Studio σ} (h : Studies S A w s e) :
    (w.current = none ∧ e.tabs.selected = none) ∨ ∃ b x, w.current = some b ∧ e.tabs.selected = some x ∧ Sheeted S A b x := by
  obtain ⟨⟨d, h1, h2, _⟩, _⟩ := h
  rw [← h1.selected]
  unfold Tabs.selected
  rw [h2.sel]
  exact forall₂_get h2.items e.tabs.sel

theorem files_eq {e : Editor σ} {d : Desktop σ} (h : e.disk = d.disk) (readable : Bool) : W.fs e.disk readable = d.files W readable := by
  rw [h]; rfl

theorem Desks.save {e : Editor σ} {s : Syntaxes σ} {d : Desktop σ} (h : Desks S A e s d) (b : FileBuf σ) (hb : e.ws.current = some b) (env : SaveEnv) :
    ∃ e', Editor.saveBuf W e b env = .ok e' ∧ Desks S A e' s (d.save S.segs A.grant s W env) ∧ e'.ws.path = e.ws.path := by
  obtain ⟨b', x, k1, k2, k3⟩ := h.docs.selected.resolve_left (by rw [hb]; simp)
  rw [hb] at k1; cases k1
  have same : ({ e with ws := { e.ws with current := some b } } : Editor σ) = e := by
    obtain ⟨⟨_, _, _, _, _, _⟩, _⟩ := e; simp only at hb; subst hb; rfl
  have ht : b.buf.data.toStr = .ok x.doc.zip.text := (k3.shows (S := S)).text
  unfold Editor.saveBuf FileBuf.save Desktop.save FileTree.env
  rw [k2]
  cases hc : env.create with
  | none => exact ⟨e, by simp only [Option.map, Except.ok_bind']; cases b.path.getD [] <;> exact congrArg Except.ok same, h, rfl⟩
  | some c =>
    cases c with
    | none => exact ⟨e, by simp only [Option.map, Option.bind, Except.ok_bind']; cases b.path.getD [] <;> exact congrArg Except.ok same, h, rfl⟩
    | some f =>
      simp only [Option.map, Option.bind]
      cases hp : b.path.getD [] with
      | nil =>
        have ht : Desktop.target W x = none := by unfold Desktop.target; rw [← k3.path, hp, if_pos rfl]
        rw [ht]
        exact ⟨e, congrArg Except.ok same, h, rfl⟩
      | cons y ys =>
        have htar : Desktop.target W x = W.slot (y :: ys) := by unfold Desktop.target; rw [← k3.path, hp, if_neg (by simp)]
        rw [htar]
        cases hs : W.slot (y :: ys) with
        | none => exact ⟨e, congrArg Except.ok same, h, rfl⟩
        | some n =>
          simp only [ht, Except.ok_bind']
          obtain ⟨m1, m2⟩ := writeAll_written n env.writes (fun f => if f = n then some [] else e.disk f) (enc x.doc.zip.text) [] (by simp)
          generalize hw : writeAll n env.writes (fun f => if f = n then some [] else e.disk f) (enc x.doc.zip.text) = r at m1 m2
          have hdisk : ((fun f => if f = n then some [] else e.disk f) :: r.1).getLast?.getD e.disk =
              fun f => if f = n then some ((enc x.doc.zip.text).take (written env.writes (enc x.doc.zip.text).length).1) else d.disk f := by
            show final e.disk (_ :: r.1) = _
            rw [final_cons, m1, h.disk]
            funext f
            by_cases hf : f = n <;> simp [hf]
          obtain ⟨r', w', a1, a2, a3⟩ := h.act (S := S) (.cmd .saved)
          have hmark : w' = { e.ws with current := some { b with buf := b.buf.setMark } } := by
            simp only [Workspace.act, hb, Buf.exec, Except.ok_bind'] at a1
            exact (Prod.mk.inj (Except.ok.inj a1)).2.symm
          obtain ⟨r1, r2⟩ := r
          cases r2 with
          | ok =>
            refine ⟨⟨w', _⟩, by simp only [Except.ok_bind', hmark]; rfl, ?_, a3⟩
            rw [if_pos (m2.mp rfl)]
            exact ⟨a2.docs, hdisk⟩
          | err | crash =>
            refine ⟨⟨{ e.ws with current := some b }, ((fun f => if f = n then some [] else e.disk f) :: r1).getLast?.getD e.disk⟩, rfl, ?_, rfl⟩
            rw [if_neg (fun h => by cases m2.mpr h)]
            exact ⟨(congrArg (fun e : Editor σ => Studies S A e.ws s d.docs) same).mpr h.docs, hdisk⟩

theorem Desks.step {e : Editor σ} {s : Syntaxes σ} {d : Desktop σ} (h : Desks S A e s d) (a : Deed σ) :
    ∃ e', e.step S A W a = .ok e' ∧ Desks S A e' s (d.step S.segs A.grant s W a) ∧ e'.ws.path = e.ws.path := by
  have use : ∀ (c : Act σ) (f : R (Editor σ)), (∀ r w', e.ws.act S A c = .ok (r, w') → f = .ok ⟨w', e.disk⟩) →
      ∃ e', f = .ok e' ∧ Desks S A e' s (d.act S.segs A.grant s c) ∧ e'.ws.path = e.ws.path := by
    intro c f hf
    obtain ⟨r, w', h1, h2, h3⟩ := h.act (S := S) c
    exact ⟨_, hf r w' h1, h2, h3⟩
  cases a with
  | fresh clock =>
    refine use (.add clock none [] none none none) _ fun r w' h1 => ?_
    simp only [Workspace.act, Buf.execAll, Except.ok_bind'] at h1
    obtain ⟨w'', k1, k2⟩ := Except.bind_inv h1
    cases k2
    simp only [Editor.step, FileBuf.new, Workspace.startBuf] at k1 ⊢
    rw [k1]; rfl
  | openPath clock readable p =>
    rw [Desktop.step, ← files_eq h.disk]
    refine use (.openPath clock (W.fs e.disk readable) (W.fs e.disk readable) (W.fs e.disk readable) p) _ fun r w' h1 => ?_
    simp only [Workspace.act] at h1
    simp only [Editor.step, h1, Except.ok_bind']; rfl
  | close =>
    refine use .close _ fun r w' h1 => ?_
    simp only [Workspace.act] at h1
    obtain ⟨w'', k1, k2⟩ := Except.bind_inv h1
    cases k2
    simp only [Editor.step, k1]; rfl
  | next =>
    refine use .next _ fun r w' h1 => ?_
    simp only [Workspace.act] at h1
    obtain ⟨w'', k1, k2⟩ := Except.bind_inv h1
    cases k2
    simp only [Editor.step, k1]; rfl
  | previous =>
    refine use .previous _ fun r w' h1 => ?_
    simp only [Workspace.act] at h1
    obtain ⟨w'', k1, k2⟩ := Except.bind_inv h1
    cases k2
    simp only [Editor.step, k1]; rfl
  | updateSyntax =>
    refine use .updateSyntax _ fun r w' h1 => ?_
    simp only [Workspace.act] at h1
    simp only [Editor.step, Except.ok.inj h1]
  | setSyntax y =>
    refine use (.setSyntax y) _ fun r w' h1 => ?_
    simp only [Workspace.act] at h1
    cases h1; rfl
  | cmd c =>
    refine use (.cmd c) _ fun r w' h1 => ?_
    simp only [Workspace.act] at h1
    simp only [Editor.step]
    cases hc : e.ws.current with
    | none => rw [hc] at h1; cases h1; rfl
    | some b =>
      rw [hc] at h1
      obtain ⟨buf, k1, k2⟩ := Except.bind_inv h1
      cases k2
      simp only [k1]; rfl
  | save env =>
    simp only [Editor.step, Desktop.step]
    cases hc : e.ws.current with
    | none =>
      have : d.docs.tabs.selected = none := by
        rcases h.docs.selected with ⟨_, k⟩ | ⟨_, _, k, _⟩
        · exact k
        · rw [hc] at k; cases k
      refine ⟨e, rfl, ?_, rfl⟩
      unfold Desktop.save; rw [this]; exact h
    | some b => exact h.save b hc env
  | saveAs p env =>
    simp only [Editor.step, Desktop.step]
    obtain ⟨r, w', h1, h2, h3⟩ := h.act (S := S) (.setPath (some p))
    simp only [Workspace.act] at h1
    have hw := (Prod.mk.inj (Except.ok.inj h1)).2
    cases hc : e.ws.current with
    | none =>
      rw [hc] at hw
      have hw' : w' = e.ws := by rw [← hw]; cases he : e.ws; rw [he] at hc; cases hc; rfl
      subst hw'
      have : (d.act S.segs A.grant s (.setPath (some p))).docs.tabs.selected = none := by
        rcases h2.docs.selected with ⟨_, k⟩ | ⟨_, _, k, _⟩
        · exact k
        · rw [hc] at k; cases k
      refine ⟨e, rfl, ?_, rfl⟩
      unfold Desktop.save; rw [this]; exact h2
    | some b =>
      rw [hc] at hw
      obtain ⟨e', f1, f2, f3⟩ := h2.save (W := W) { b with path := some p } (by rw [← hw]; rfl) env
      refine ⟨e', ?_, f2, f3.trans h3⟩
      rw [← f1, ← hw]; rfl
  | reload readable =>
    simp only [Editor.step, Desktop.step]
    rw [← files_eq h.disk]
    rcases h.docs.selected with ⟨k1, k2⟩ | ⟨b, x, k1, k2, k3⟩
    · rw [k1, k2]; exact ⟨e, rfl, h, rfl⟩
    · rw [k1, k2]
      have same : ({ e with ws := { e.ws with current := some b } } : Editor σ) = e := by
        obtain ⟨⟨_, _, _, _, _, _⟩, _⟩ := e; simp only at k1; subst k1; rfl
      simp only [Option.bind, ← k3.path, FileBuf.reload]
      cases hp : b.path with
      | none => exact ⟨e, congrArg Except.ok same, h, rfl⟩
      | some p =>
        simp only
        cases hr : (W.fs e.disk readable).readToString p with
        | none => exact ⟨e, congrArg Except.ok same, h, rfl⟩
        | some text =>
          simp only
          refine use (.cmd (.reload text)) _ fun r w' h1 => ?_
          simp only [Workspace.act, k1] at h1
          obtain ⟨buf, m1, m2⟩ := Except.bind_inv h1
          cases m2
          simp only [Buf.exec] at m1
          simp only [m1, hp]; rfl

theorem Desks.steps {s : Syntaxes σ} (as : List (Deed σ)) : ∀ {e : Editor σ} {d : Desktop σ}, Desks S A e s d →
    ∃ e', e.steps S A W as = .ok e' ∧ Desks S A e' s (d.steps S.segs A.grant s W as) ∧ e'.ws.path = e.ws.path := by
  induction as with
  | nil => intro e d h; exact ⟨e, rfl, h, rfl⟩
  | cons a as ih =>
    intro e d h
    obtain ⟨e1, f1, f2, f3⟩ := h.step (W := W) a
    obtain ⟨e2, g1, g2, g3⟩ := ih f2
    exact ⟨e2, by simp only [Editor.steps, f1, Except.ok_bind', g1], g2, g3.trans f3⟩

end Scribe
