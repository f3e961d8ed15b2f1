import Verif.Proofs.Overlap
import Verif.Proofs.Undo
import Verif.Demo
/-! # Property C99: saves at the same time -/
namespace Scribe.Props
open Spec
variable {σ : Type}

/-- A buffer with a path. -/
def Named (b : FileBuf σ) : Prop := b.path.getD [] ≠ []

instance (b : FileBuf σ) : Decidable (Named b) := by unfold Named; infer_instance

/-- **C99.** Any number of programs save at the same time, in any order of the system calls. No call panics; every file that no save has opened is as before, and every other one is made
of the bytes that were written last at each place since it was last truncated. Exactly the buffers whose save has ended without error are marked as saved. -/
theorem C99_exact (bufs : Nat → FileBuf σ) (texts : Nat → Text) (ht : ∀ i, (bufs i).buf.data.toStr = .ok (texts i)) (disk0 : Disk) (ts : List Tick) :
    let p := Scribes.start.steps (fun i => enc (texts i)) (fun i => Named (bufs i)) ts
    ∃ s, Savers.steps ⟨disk0, bufs, fun _ => .before⟩ ts = .ok s ∧
      (∀ n, s.disk n = match p.sheaf n with | none => disk0 n | some x => some (Scribes.bytes (fun i => enc (texts i)) x)) ∧
      (∀ i e, s.stage i = .ended e ↔ p.progress i = .ended e) ∧
      ∀ i, s.bufs i = if p.progress i = .ended .ok then { bufs i with buf := (bufs i).buf.setMark } else bufs i := by
  intro p
  obtain ⟨s, h1, h2⟩ := (overlaps_start bufs (fun i => enc (texts i)) disk0).steps (named := fun i => Named (bufs i)) (fun i => ⟨_, ht i, rfl⟩) (fun i => Iff.rfl) ts
  refine ⟨s, h1, h2.disk, fun i e => ?_, h2.bufs⟩
  have := h2.stage i
  show s.stage i = _ ↔ (Scribes.start.steps _ _ ts).progress i = _
  cases hs : s.stage i <;> cases hp : (Scribes.start.steps (fun i => enc (texts i)) (fun i => Named (bufs i)) ts).progress i <;>
    simp only [hs, hp, StageIs] at this <;> simp [this]

/-! ## One save -/

theorem writeAt_end (old new : Bytes) : writeAt old old.length new = old ++ new := by
  unfold writeAt
  rw [List.take_of_length_le (Nat.le_refl _), Nat.sub_self, List.drop_eq_nil_of_le (by omega)]
  simp

/-- The save has not ended yet, or so. -/
def EndsAs (x : Stage) (e : Ending) : Prop := ∀ e', x = .ended e' ↔ e = e' ∧ e ≠ .crash

theorem steps_cons (s : Savers σ) (t : Tick) (ts : List Tick) : s.steps (t :: ts) = (s.step t).bind fun s' => s'.steps ts := rfl

theorem step_write {s : Savers σ} {who file offset : Nat} {left : Bytes} (h : s.stage who = .writing file offset left) (r : WriteRes) :
    s.step (.write who r) = match r with
      | .failed => .ok (s.setStage who (.ended .err))
      | .interrupted => .ok s
      | .wrote 0 => .ok (s.setStage who (.ended .err))
      | .wrote (n + 1) => .ok (Savers.proceed
          { s with disk := fun f => if f = file then some (writeAt ((s.disk file).getD []) offset (left.take (n + 1))) else s.disk f } who file
          (offset + (left.take (n + 1)).length) (left.drop (n + 1))) := by
  simp only [Savers.step, h]
  cases r <;> rfl

theorem step_create {s : Savers σ} {who : Nat} (h : s.stage who = .before) {t : Text} (ht : (s.bufs who).buf.data.toStr = .ok t) (file : Option Nat) :
    s.step (.create who file) = match (s.bufs who).path.getD [], file with
      | [], _ => .ok (s.setStage who (.ended .err))
      | _ :: _, none => .ok (s.setStage who (.ended .err))
      | _ :: _, some file => .ok (Savers.proceed { s with disk := fun f => if f = file then some [] else s.disk f } who file 0 (enc t)) := by
  simp only [Savers.step, h, ht]
  rfl

theorem steps_ended {s : Savers σ} {who : Nat} {e : Ending} (h : s.stage who = .ended e) (ws : List WriteRes) : s.steps (ws.map (.write who)) = .ok s := by
  induction ws with
  | nil => rfl
  | cons w ws ih => rw [List.map_cons, steps_cons]; simp only [Savers.step, h]; exact ih

theorem steps_alone (who file : Nat) (ws : List WriteRes) (s : Savers σ) (old left : Bytes) (hl : left ≠ []) (hs : s.stage who = .writing file old.length left)
    (hd : s.disk file = some old) :
    let r := writeAll file ws s.disk left
    ∃ s', s.steps (ws.map (.write who)) = .ok s' ∧ s'.disk = final s.disk r.1 ∧ EndsAs (s'.stage who) r.2 ∧
      s'.bufs who = (if r.2 = .ok then { s.bufs who with buf := (s.bufs who).buf.setMark } else s.bufs who) := by
  induction ws generalizing s old left with
  | nil =>
    have : left.isEmpty = false := by simpa using hl
    refine ⟨s, rfl, ?_⟩
    simp only [writeAll, this, final]
    exact ⟨rfl, fun e' => by rw [hs]; simp, by simp⟩
  | cons w ws ih =>
    have hemp : left.isEmpty = false := by simpa using hl
    intro r
    have hr : r = writeAll file (w :: ws) s.disk left := rfl
    rw [writeAll.eq_def] at hr
    simp only [hemp, Bool.false_eq_true, if_false] at hr
    rw [List.map_cons, steps_cons, step_write hs]
    have failed : ∀ {r : List Disk × Ending}, r = ([], .err) → ∃ s', (s.setStage who (.ended .err)).steps (ws.map (.write who)) = .ok s' ∧ s'.disk = final s.disk r.1 ∧
        EndsAs (s'.stage who) r.2 ∧ s'.bufs who = (if r.2 = .ok then { s.bufs who with buf := (s.bufs who).buf.setMark } else s.bufs who) := by
      rintro r rfl
      have : (s.setStage who (.ended .err)).stage who = .ended .err := by simp [Savers.setStage]
      refine ⟨_, steps_ended this ws, rfl, fun e' => ?_, by simp [Savers.setStage]⟩
      rw [this]; simp
    cases w with
    | failed => exact failed hr
    | interrupted => rw [hr]; exact ih s old left hl hs hd
    | wrote k =>
      cases k with
      | zero => exact failed hr
      | succ k =>
        simp only at hr ⊢
        rw [hd, Option.getD_some, writeAt_end]
        rw [hd, Option.getD_some] at hr
        generalize hd' : (fun f => if f = file then some (old ++ left.take (k + 1)) else s.disk f : Disk) = disk' at hr
        have hdf : disk' file = some (old ++ left.take (k + 1)) := by rw [← hd']; simp
        have fin : ∀ l : List Disk, final s.disk (disk' :: l) = final disk' l := by
          intro l; unfold final; rw [List.getLast?_cons]; simp
        by_cases hdrop : left.drop (k + 1) = []
        · have hw : writeAll file ws disk' (left.drop (k + 1)) = ([], .ok) := by rw [hdrop]; cases ws <;> rfl
          rw [hw] at hr
          have hpro : ∃ s1 : Savers σ, s1 = Savers.proceed { s with disk := disk' } who file (old.length + (left.take (k + 1)).length) (left.drop (k + 1)) ∧
              s1.disk = disk' ∧ s1.stage who = .ended .ok ∧ s1.bufs who = { s.bufs who with buf := (s.bufs who).buf.setMark } := by
            refine ⟨_, rfl, ?_⟩
            unfold Savers.proceed
            rw [hdrop]
            simp [Savers.setStage]
          obtain ⟨s1, e1, e2, e3, e4⟩ := hpro
          refine ⟨s1, ?_, ?_, ?_, ?_⟩
          · rw [← e1]; exact steps_ended e3 ws
          · rw [hr, fin, e2]; rfl
          · rw [hr, e3]; intro e'; simp
          · rw [hr, e4]; simp
        · have hpro : ∃ s1 : Savers σ, s1 = Savers.proceed { s with disk := disk' } who file (old.length + (left.take (k + 1)).length) (left.drop (k + 1)) ∧
              s1.disk = disk' ∧ s1.stage who = .writing file (old ++ left.take (k + 1)).length (left.drop (k + 1)) ∧ s1.bufs who = s.bufs who := by
            refine ⟨_, rfl, ?_⟩
            unfold Savers.proceed
            rw [if_neg (by simpa using hdrop)]
            simp [Savers.setStage]
          obtain ⟨s1, e1, e2, e3, e4⟩ := hpro
          have := ih s1 _ _ hdrop e3 (by rw [e2]; exact hdf)
          rw [e2] at this
          obtain ⟨s', k1, k2, k3, k4⟩ := this
          refine ⟨s', by rw [← e1]; exact k1, ?_, ?_, ?_⟩
          · rw [hr, fin]; exact k2
          · rw [hr]; exact k3
          · rw [hr]; rw [k4, e4]

/-- C99: the calls of one save that is not interrupted are those of `FileBuf.save` (C20, C21). -/
theorem C99_alone (s : Savers σ) (who : Nat) (hs : s.stage who = .before) (t : Text) (ht : (s.bufs who).buf.data.toStr = .ok t) (file : Option Nat) (ws : List WriteRes)
    (ds : List Disk) (e : Ending) (b' : FileBuf σ) (h : (s.bufs who).save ⟨some file, ws⟩ s.disk = .ok (ds, e, b')) :
    ∃ s', s.steps (.create who file :: ws.map (.write who)) = .ok s' ∧ s'.disk = final s.disk ds ∧ s'.bufs who = b' ∧
      ∀ e', s'.stage who = .ended e' ↔ e = e' ∧ e ≠ .crash := by
  rw [steps_cons, step_create hs ht]
  unfold FileBuf.save at h
  have failed : (ds, e, b') = ([], .err, s.bufs who) → ∃ s', (s.setStage who (.ended .err)).steps (ws.map (.write who)) = .ok s' ∧ s'.disk = final s.disk ds ∧ s'.bufs who = b' ∧
      ∀ e', s'.stage who = .ended e' ↔ e = e' ∧ e ≠ .crash := by
    intro h
    cases h
    have : (s.setStage who (.ended .err)).stage who = .ended .err := by simp [Savers.setStage]
    exact ⟨_, steps_ended this ws, rfl, rfl, fun e' => by rw [this]; simp⟩
  cases hp : (s.bufs who).path.getD [] with
  | nil => rw [hp] at h; exact failed (Except.ok.inj h).symm
  | cons a l =>
    rw [hp] at h
    cases file with
    | none => exact failed (Except.ok.inj h).symm
    | some file =>
      simp only [ht] at h ⊢
      generalize hd : (fun f => if f = file then some [] else s.disk f : Disk) = disk' at h ⊢
      have hdf : disk' file = some [] := by rw [← hd]; simp
      have fin : ∀ l : List Disk, final s.disk (disk' :: l) = final disk' l := by
        intro l; unfold final; rw [List.getLast?_cons]; simp
      by_cases he : enc t = []
      · have hw : writeAll file ws disk' (enc t) = ([], .ok) := by rw [he]; cases ws <;> rfl
        change (match (writeAll file ws disk' (enc t)).2 with
          | .ok => _
          | e => _ : R (List Disk × Ending × FileBuf σ)) = _ at h
        rw [hw] at h
        cases h
        have hpro : ∃ s1 : Savers σ, s1 = Savers.proceed { s with disk := disk' } who file 0 (enc t) ∧
            s1.disk = disk' ∧ s1.stage who = .ended .ok ∧ s1.bufs who = { s.bufs who with buf := (s.bufs who).buf.setMark } := by
          refine ⟨_, rfl, ?_⟩
          unfold Savers.proceed
          rw [he]
          simp [Savers.setStage]
        obtain ⟨s1, e1, e2, e3, e4⟩ := hpro
        refine ⟨s1, ?_, by rw [fin, e2]; rfl, e4, fun e' => by rw [e3]; simp⟩
        rw [← e1]
        exact steps_ended e3 ws
      · have hpro : ∃ s1 : Savers σ, s1 = Savers.proceed { s with disk := disk' } who file 0 (enc t) ∧
            s1.disk = disk' ∧ s1.stage who = .writing file ([] : Bytes).length (enc t) ∧ s1.bufs who = s.bufs who := by
          refine ⟨_, rfl, ?_⟩
          unfold Savers.proceed
          rw [if_neg (by simpa using he)]
          simp [Savers.setStage]
        obtain ⟨s1, e1, e2, e3, e4⟩ := hpro
        have := steps_alone who file ws s1 [] (enc t) he e3 (by rw [e2]; exact hdf)
        rw [e2] at this
        obtain ⟨s', k1, k2, k3, k4⟩ := this
        refine ⟨s', by rw [← e1]; exact k1, ?_⟩
        change (match (writeAll file ws disk' (enc t)).2 with
          | .ok => _
          | e => _ : R (List Disk × Ending × FileBuf σ)) = _ at h
        cases hr : (writeAll file ws disk' (enc t)).2 with
        | ok => rw [hr] at h k3 k4; cases h; exact ⟨by rw [fin]; exact k2, by rw [k4, if_pos rfl, e4], k3⟩
        | err => rw [hr] at h k3 k4; cases h; exact ⟨by rw [fin]; exact k2, by rw [k4, if_neg (by simp), e4], k3⟩
        | crash => rw [hr] at h k3 k4; cases h; exact ⟨by rw [fin]; exact k2, by rw [k4, if_neg (by simp), e4], k3⟩

/-! ## Any number of saves -/

section
variable (bufs : Nat → FileBuf σ) (texts : Nat → Text) (ht : ∀ i, (bufs i).buf.data.toStr = .ok (texts i)) (disk0 : Disk) (ts : List Tick)
include ht

/-- C99: a file holds what it held before, or is made of bytes of the texts saved to it, each at its place; in between there may be zeros. -/
theorem C99_fragments (s : Savers σ) (h : Savers.steps ⟨disk0, bufs, fun _ => .before⟩ ts = .ok s) (n : Nat) :
    s.disk n = disk0 n ∨ ∃ bs, s.disk n = some bs ∧ ∀ j x, bs[j]? = some x → ∃ i, .create i (some n) ∈ ts ∧ j < (enc (texts i)).length ∧
      (x = 0 ∨ ∃ i, .create i (some n) ∈ ts ∧ (enc (texts i))[j]? = some x) := by
  obtain ⟨s', h1, h2, _⟩ := C99_exact bufs texts ht disk0 ts
  rw [h] at h1; cases h1
  have hT := (tended_start (fun i => enc (texts i)) fun n i => Tick.create i (some n) ∈ ts).steps (named := fun i => Named (bufs i)) ts fun _ _ h => h
  have hd := h2 n
  cases hx : (Scribes.start.steps (fun i => enc (texts i)) (fun i => Named (bufs i)) ts).sheaf n with
  | none => rw [hx] at hd; exact Or.inl hd
  | some x =>
    rw [hx] at hd
    refine Or.inr ⟨_, hd, fun j y hy => ?_⟩
    rw [bytes_getElem?] at hy
    split at hy
    · rename_i hj
      obtain ⟨i, h3, h4⟩ := hT.size n x j hx hj
      refine ⟨i, h3, h4, ?_⟩
      cases ha : x.author j with
      | none => rw [ha] at hy; exact Or.inl (Option.some.inj hy).symm
      | some k =>
        obtain ⟨h5, h6⟩ := hT.wrote n x j k hx ha
        refine Or.inr ⟨k, h5, ?_⟩
        rw [ha] at hy
        simp only [Option.bind_some, List.getElem?_eq_getElem h6, Option.getD_some] at hy ⊢
        exact hy
    · cases hy

/-- C99: if all saves of a file have ended without error and saved the same text, the file holds that text. -/
theorem C99_same (s : Savers σ) (h : Savers.steps ⟨disk0, bufs, fun _ => .before⟩ ts = .ok s) (n : Nat) (t : Text)
    (hall : ∀ i, .create i (some n) ∈ ts → texts i = t ∧ s.stage i = .ended .ok) : s.disk n = disk0 n ∨ s.disk n = some (enc t) := by
  obtain ⟨s', h1, h2, h3, _⟩ := C99_exact bufs texts ht disk0 ts
  rw [h] at h1; cases h1
  have hT := (tended_start (fun i => enc (texts i)) fun n i => Tick.create i (some n) ∈ ts).steps (named := fun i => Named (bufs i)) ts fun _ _ h => h
  obtain ⟨s', k1, k2⟩ := (overlaps_start bufs (fun i => enc (texts i)) disk0).steps (named := fun i => Named (bufs i)) (fun i => ⟨_, ht i, rfl⟩) (fun i => Iff.rfl) ts
  have hd := h2 n
  cases hx : (Scribes.start.steps (fun i => enc (texts i)) (fun i => Named (bufs i)) ts).sheaf n with
  | none => rw [hx] at hd; exact Or.inl hd
  | some x =>
    rw [hx] at hd
    refine Or.inr (hd.trans (congrArg some ?_))
    obtain ⟨i, m1, m2⟩ := hT.last n x hx
    obtain ⟨m3, m4⟩ := hall i m1
    rw [h3] at m4
    rw [m4] at m2
    have m5 : ∀ j < (enc t).length, x.author j ≠ none := by
      rcases m2 with ⟨c, m2, _⟩ | ⟨_, m2⟩ | m2
      · cases m2
      · intro j hj; exact m2 j (by rw [m3]; exact hj)
      · cases m2
    apply List.ext_getElem?
    intro j
    rw [bytes_getElem?]
    by_cases hj : j < (enc t).length
    · have hne := m5 j hj
      have hsz : j < x.size := by
        by_contra hc
        exact hne (k2.fits n x hx j (by omega))
      rw [if_pos hsz]
      obtain ⟨k, hk⟩ := Option.ne_none_iff_exists'.mp hne
      rw [hk]
      simp [(hall k (hT.wrote n x j k hx hk).1).1, hj]
    · have : ¬ j < x.size := by
        intro hc
        obtain ⟨k, q1, q2⟩ := hT.size n x j hx hc
        simp only [(hall k q1).1] at q2
        exact hj q2
      rw [if_neg this, List.getElem?_eq_none (by omega)]

/-- C99: a save during which no other save works on the file leaves a leading part of its text, and all of it if it has ended without error. -/
theorem C99_sole (pre post : List Tick) (i n : Nat) (hi : Named (bufs i)) (hts : ts = pre ++ .create i (some n) :: post) (hpre : ∀ f, .create i f ∉ pre)
    (s0 s : Savers σ) (h0 : Savers.steps ⟨disk0, bufs, fun _ => .before⟩ pre = .ok s0) (hw : ∀ k c l, s0.stage k ≠ .writing n c l)
    (hpost : ∀ k, k ≠ i → .create k (some n) ∉ post) (h : Savers.steps ⟨disk0, bufs, fun _ => .before⟩ ts = .ok s) :
    ∃ k, s.disk n = some ((enc (texts i)).take k) ∧ (s.stage i = .ended .ok → s.disk n = some (enc (texts i))) := by
  obtain ⟨s', h1, h2, h3, _⟩ := C99_exact bufs texts ht disk0 ts
  rw [h] at h1; cases h1
  obtain ⟨s1, k1, k2⟩ := (overlaps_start bufs (fun i => enc (texts i)) disk0).steps (named := fun i => Named (bufs i)) (fun i => ⟨_, ht i, rfl⟩) (fun i => Iff.rfl) pre
  rw [h0] at k1; cases k1
  have hb := before_steps (texts := fun i => enc (texts i)) (named := fun i => Named (bufs i)) (p := Scribes.start) (i := i) pre rfl hpre
  have hA : Alone (fun i => enc (texts i)) i n (Scribes.step (fun i => enc (texts i)) (fun i => Named (bufs i))
      (Scribes.start.steps (fun i => enc (texts i)) (fun i => Named (bufs i)) pre) (.create i (some n))) := by
    rw [scribes_create hb hi]
    unfold Scribes.reach
    refine ⟨fun k c hk hc => ?_, 0, ⟨0, fun _ => none⟩, by omega, if_pos rfl, rfl, fun j hj => by omega, ?_⟩
    · rw [set_other hk] at hc
      have := k2.stage k
      change (Scribes.start.steps (fun i => enc (texts i)) (fun i => Named (bufs i)) pre).progress k = _ at hc
      rw [hc] at this
      cases hs : s0.stage k with
      | before => rw [hs] at this; exact this
      | ended e => rw [hs] at this; exact this
      | writing m c' l =>
        rw [hs] at this
        obtain ⟨rfl, _⟩ := this
        exact hw k _ _ hs
    · rw [set_self]
      split
      · rename_i h0; exact Or.inr (Or.inl ⟨rfl, h0⟩)
      · exact Or.inl rfl
  have hA' := hA.steps (named := fun i => Named (bufs i)) post hpost
  have e := scribes_append (texts := fun i => enc (texts i)) (named := fun i => Named (bufs i)) Scribes.start pre (.create i (some n) :: post)
  rw [← hts] at e
  obtain ⟨c, x, q1, q2, q3, q4⟩ := hA'.bytes
  have hd := h2 n
  have q2' : (Scribes.start.steps (fun i => enc (texts i)) (fun i => Named (bufs i)) ts).sheaf n = some x := by rw [e]; exact q2
  rw [q2'] at hd
  dsimp only at hd
  rw [q3] at hd
  refine ⟨c, hd, fun he => ?_⟩
  rw [h3, e] at he
  rw [hd, q4 he, List.take_length]

end
/-! ## What can go wrong -/

/-- The state after a save has written all the rest. -/
def finished (s : Savers σ) (who file offset : Nat) (left : Bytes) : Savers σ :=
  { disk := fun f => if f = file then some (writeAt ((s.disk file).getD []) offset left) else s.disk f
    bufs := fun i => if i = who then { s.bufs i with buf := (s.bufs i).buf.setMark } else s.bufs i
    stage := fun i => if i = who then .ended .ok else s.stage i }

theorem write_rest {s : Savers σ} {who file offset : Nat} {left : Bytes} (h : s.stage who = .writing file offset left) (hl : left ≠ []) :
    s.step (.write who (.wrote left.length)) = .ok (finished s who file offset left) := by
  obtain ⟨k, hk⟩ : ∃ k, left.length = k + 1 := ⟨left.length - 1, by have := List.length_pos_iff.mpr hl; omega⟩
  rw [hk, step_write h]
  dsimp only
  rw [← hk, List.take_length, List.drop_length]
  rfl

/-- The state after a save has written some bytes, but not all. -/
theorem write_some {s : Savers σ} {who file offset : Nat} {left : Bytes} (h : s.stage who = .writing file offset left) {k : Nat} (h0 : 0 < k) (hk : k < left.length) :
    s.step (.write who (.wrote k)) = .ok (Savers.setStage
      { s with disk := fun f => if f = file then some (writeAt ((s.disk file).getD []) offset (left.take k)) else s.disk f } who (.writing file (offset + k) (left.drop k))) := by
  obtain ⟨m, rfl⟩ : ∃ m, k = m + 1 := ⟨k - 1, by omega⟩
  rw [step_write h]
  dsimp only
  unfold Savers.proceed
  rw [if_neg (by simp; omega), List.length_take, Nat.min_eq_left (by omega)]

/-- The state after a save of a text that is not empty has begun. -/
theorem create_some {s : Savers σ} {who : Nat} (h : s.stage who = .before) {t : Text} (ht : (s.bufs who).buf.data.toStr = .ok t) (hn : Named (s.bufs who)) (hl : enc t ≠ []) (n : Nat) :
    s.step (.create who (some n)) = .ok (Savers.setStage { s with disk := fun f => if f = n then some [] else s.disk f } who (.writing n 0 (enc t))) := by
  rw [step_create h ht]
  unfold Named at hn
  cases hp : (s.bufs who).path.getD [] with
  | nil => exact absurd hp hn
  | cons c cs =>
    dsimp only
    unfold Savers.proceed
    rw [if_neg (by simpa using hl)]

section
variable (bufs : Nat → FileBuf σ) (a b : Text) (ha : (bufs 0).buf.data.toStr = .ok a) (hb : (bufs 1).buf.data.toStr = .ok b) (na : Named (bufs 0)) (nb : Named (bufs 1))
  (ea : enc a ≠ []) (eb : enc b ≠ []) (disk0 : Disk) (n : Nat)
include ha hb na nb ea eb

/-- C99 (finding): of two saves of one file at the same time, both can end without error and leave the buffers unmodified, with a file that is the one text followed by the rest of the other. -/
theorem C99_mixed :
    ∃ s, Savers.steps ⟨disk0, bufs, fun _ => .before⟩
        [.create 0 (some n), .create 1 (some n), .write 1 (.wrote (enc b).length), .write 0 (.wrote (enc a).length)] = .ok s ∧
      s.stage 0 = .ended .ok ∧ s.stage 1 = .ended .ok ∧ (s.bufs 0).buf.modified = false ∧ (s.bufs 1).buf.modified = false ∧
      s.disk n = some (enc a ++ (enc b).drop (enc a).length) := by
  simp only [Savers.steps]
  rw [create_some rfl ha na ea]
  simp only [Except.ok_bind']
  rw [create_some (by simp [Savers.setStage]) hb nb eb]
  simp only [Except.ok_bind']
  rw [write_rest (by simp only [Savers.setStage, if_pos]; rfl) eb]
  simp only [Except.ok_bind']
  rw [write_rest (file := n) (offset := 0) (left := enc a) (by simp [finished, Savers.setStage]) ea]
  refine ⟨_, rfl, ?_⟩
  simp [finished, Savers.setStage, Buf.setMark, Buf.modified, History.atMark, History.setMark, writeAt]

/-- C99 (finding): if the second save begins while the first one has written more than the second text has, zeros remain in between. -/
theorem C99_hole (k : Nat) (h1 : (enc b).length ≤ k) (h2 : k < (enc a).length) :
    ∃ s, Savers.steps ⟨disk0, bufs, fun _ => .before⟩
        [.create 0 (some n), .write 0 (.wrote k), .create 1 (some n), .write 1 (.wrote (enc b).length), .write 0 (.wrote ((enc a).drop k).length)] = .ok s ∧
      s.stage 0 = .ended .ok ∧ s.stage 1 = .ended .ok ∧ (s.bufs 0).buf.modified = false ∧ (s.bufs 1).buf.modified = false ∧
      s.disk n = some (enc b ++ List.replicate (k - (enc b).length) 0 ++ (enc a).drop k) := by
  have hb0 := List.length_pos_iff.mpr eb
  simp only [Savers.steps]
  rw [create_some rfl ha na ea]
  simp only [Except.ok_bind']
  rw [write_some (file := n) (offset := 0) (left := enc a) (by simp [Savers.setStage]) (by omega) h2]
  simp only [Except.ok_bind']
  rw [create_some (by simp [Savers.setStage]) hb nb eb]
  simp only [Except.ok_bind']
  rw [write_rest (file := n) (offset := 0) (left := enc b) (by simp [Savers.setStage]) eb]
  simp only [Except.ok_bind']
  rw [write_rest (file := n) (offset := 0 + k) (left := (enc a).drop k) (by simp [finished, Savers.setStage]) (by simp; omega)]
  refine ⟨_, rfl, ?_⟩
  have e : ((enc b).take k) = enc b := List.take_of_length_le h1
  simp [finished, Savers.setStage, Buf.setMark, Buf.modified, History.atMark, History.setMark, writeAt, e]
  omega

end

/-! ## Examples -/

/-- A buffer with a path. -/
def loaded (t : Text) : FileBuf Nat := ⟨Buf.fromContent Demo.tight 0 t, none, some [.root, .normal [0x61]], none⟩

/-- Two programs have typed different texts. -/
def twoTexts (i : Nat) : Text := if i = 0 then Demo.s "a" else Demo.s "é"

theorem loaded_text (t : Text) : (loaded t).buf.data.toStr = .ok t := by
  show (GapBuffer.new Demo.tight 0 t).toStr = _
  simpa using (GapBuffer.new_rep (A := Demo.tight) 0 t).toStr

example : Named (loaded (Demo.s "a")) := by decide

/-- Both saves succeed, and the file cannot be loaded any more. -/
example : ∃ s, Savers.steps ⟨fun _ => none, fun i => loaded (twoTexts i), fun _ => .before⟩
      [.create 0 (some 0), .create 1 (some 0), .write 1 (.wrote 2), .write 0 (.wrote 1)] = .ok s ∧ s.stage 0 = .ended .ok ∧ s.stage 1 = .ended .ok ∧
    (s.disk 0).map strict = some none := by
  obtain ⟨s, h1, h2, h3, _, _, h4⟩ := C99_mixed (fun i => loaded (twoTexts i)) (Demo.s "a") (Demo.s "é") (loaded_text _) (loaded_text _) (by decide) (by decide)
    (by decide +kernel) (by decide +kernel) (fun _ => none) 0
  exact ⟨s, h1, h2, h3, by rw [h4]; decide +kernel⟩

/-- A save in three pieces, one call interrupted, while another program saves another file: `C99_sole` applies. -/
example : ∃ s, Savers.steps ⟨fun _ => none, fun i => loaded (twoTexts i), fun _ => .before⟩
      ([.create 0 (some 1)] ++ .create 1 (some 0) :: [.write 1 (.wrote 1), .write 0 (.wrote 1), .write 1 .interrupted, .write 1 (.wrote 5)]) = .ok s ∧
    s.disk 0 = some (enc (Demo.s "é")) := by
  obtain ⟨s, h1, h2, h3, h4⟩ := C99_exact (fun i => loaded (twoTexts i)) twoTexts (fun i => loaded_text _) (fun _ => none)
    ([.create 0 (some 1)] ++ .create 1 (some 0) :: [.write 1 (.wrote 1), .write 0 (.wrote 1), .write 1 .interrupted, .write 1 (.wrote 5)])
  refine ⟨s, h1, ?_⟩
  rw [h2 0]
  decide +kernel

end Scribe.Props
