import Verif.Spec.File
import Verif.Model.File
import Verif.Props.Buffer
import Verif.Proofs.Names
/-!
# Properties C20–C22, C24: saving, crash points, round trip, reload
-/
namespace Scribe.Props
open Spec Buf
variable {σ : Type}

theorem final_cons (disk d : Disk) (ds : List Disk) : final disk (d :: ds) = final d ds := by
  unfold final; rw [List.getLast?_cons]; rfl

theorem writeAll_spec (file : Nat) (rs : List WriteRes) (disk : Disk) (bs done : Bytes) (hd : disk file = some done) :
    (∀ d ∈ (writeAll file rs disk bs).1, (∃ n, d file = some (done ++ bs.take n)) ∧ ∀ f, f ≠ file → d f = disk f) ∧
    ((writeAll file rs disk bs).2 = .ok → final disk (writeAll file rs disk bs).1 file = some (done ++ bs)) ∧
    (∀ f, f ≠ file → final disk (writeAll file rs disk bs).1 f = disk f) := by
  induction rs generalizing disk bs done with
  | nil =>
    simp only [writeAll]
    refine ⟨by simp, ?_, fun f _ => rfl⟩
    intro h
    split at h
    · rename_i hb
      rw [List.isEmpty_iff] at hb
      subst hb
      rw [List.append_nil]; exact hd
    · cases h
  | cons r rs ih =>
    simp only [writeAll]
    by_cases hb : bs.isEmpty
    · rw [if_pos hb]
      refine ⟨by simp, fun _ => ?_, fun f _ => rfl⟩
      rw [List.isEmpty_iff] at hb
      subst hb
      rw [List.append_nil]; exact hd
    · rw [if_neg hb]
      cases r with
      | failed => exact ⟨by simp, by simp, fun f _ => rfl⟩
      | interrupted => exact ih disk bs done hd
      | wrote n =>
        cases n with
        | zero => exact ⟨by simp, by simp, fun f _ => rfl⟩
        | succ n =>
          simp only
          obtain ⟨h1, h2, h3⟩ := ih (fun f => if f = file then some ((disk file).getD [] ++ bs.take (n + 1)) else disk f) (bs.drop (n + 1))
            (done ++ bs.take (n + 1)) (by simp [hd])
          refine ⟨?_, ?_, ?_⟩
          · intro d hm
            rcases List.mem_cons.mp hm with rfl | hm
            · exact ⟨⟨n + 1, by simp [hd]⟩, fun f hf => by simp [hf]⟩
            · obtain ⟨⟨m, k1⟩, k2⟩ := h1 d hm
              refine ⟨⟨n + 1 + m, ?_⟩, fun f hf => by rw [k2 f hf]; simp [hf]⟩
              rw [k1, List.append_assoc, ← List.take_add]
          · intro he
            rw [final_cons, h2 he, List.append_assoc, List.take_append_drop]
          · intro f hf
            rw [final_cons, h3 f hf]; simp [hf]

/-- **C20.** `save` on a buffer with contents `t`. If it returns `Ok`, the file holds exactly the UTF-8 bytes of `t`, other files are unchanged, and the
buffer differs only by being marked, so `modified()` is false. If it returns an error (or crashes) the buffer is unchanged altogether. Without a path it never
succeeds, and touches no file. -/
theorem C20_save (b : FileBuf σ) (t : Text) (ht : b.buf.data.toStr = .ok t) (env : SaveEnv) (disk : Disk) :
    ∃ steps e b', b.save env disk = .ok (steps, e, b') ∧
      (e = .ok → ∃ file, env.create = some (some file) ∧ final disk steps file = some (enc t) ∧ (∀ f, f ≠ file → final disk steps f = disk f) ∧
        b' = { b with buf := b.buf.setMark } ∧ b'.buf.modified = false ∧ b'.buf.data.toStr = .ok t) ∧
      (e ≠ .ok → b' = b) ∧
      (b.path = none → e ≠ .ok ∧ steps = []) := by
  unfold FileBuf.save
  cases hc : env.create with
  | none => exact ⟨[], .crash, b, by cases b.path.getD [] <;> rfl, by simp, fun _ => rfl, fun _ => ⟨by simp, rfl⟩⟩
  | some c =>
    cases hp : b.path.getD [] with
    | nil => exact ⟨[], .err, b, rfl, by simp, fun _ => rfl, fun _ => ⟨by simp, rfl⟩⟩
    | cons x xs =>
      have hnone : b.path = none → False := by intro h; rw [h] at hp; cases hp
      cases c with
      | none => exact ⟨[], .err, b, rfl, by simp, fun _ => rfl, fun h => (hnone h).elim⟩
      | some file =>
        simp only [ht, Except.ok_bind']
        obtain ⟨h1, h2, h3⟩ := writeAll_spec file env.writes (fun f => if f = file then some [] else disk f) (enc t) [] (by simp)
        generalize writeAll file env.writes (fun f => if f = file then some [] else disk f) (enc t) = r at h1 h2 h3
        obtain ⟨ds, e⟩ := r
        cases e with
        | ok =>
          refine ⟨_, _, _, rfl, ?_, by simp, fun h => (hnone h).elim⟩
          intro _
          refine ⟨file, rfl, by rw [final_cons]; simpa using h2 rfl, ?_, rfl, ?_, ht⟩
          · intro f hf; rw [final_cons, h3 f hf]; simp [hf]
          · simp [modified, setMark, History.setMark, History.atMark]
        | err => exact ⟨_, _, _, rfl, by simp, fun _ => rfl, fun h => (hnone h).elim⟩
        | crash => exact ⟨_, _, _, rfl, by simp, fun _ => rfl, fun h => (hnone h).elim⟩

/-- C20: `save` does succeed if the file can be created and no write fails. -/
theorem C20_save_succeeds (b : FileBuf σ) (t : Text) (ht : b.buf.data.toStr = .ok t) (env : SaveEnv) (disk : Disk) (file : Nat)
    (hp : b.path.getD [] ≠ []) (hc : env.create = some (some file)) (hw : ∀ r ∈ env.writes, r = .interrupted ∨ ∃ n, r = .wrote (n + 1))
    (hn : blen t ≤ env.writes.countP (fun r => match r with | .wrote _ => true | _ => false)) :
    ∃ steps b', b.save env disk = .ok (steps, .ok, b') := by
  have key : ∀ (rs : List WriteRes) (disk : Disk) (bs : Bytes), (∀ r ∈ rs, r = .interrupted ∨ ∃ n, r = .wrote (n + 1)) →
      bs.length ≤ rs.countP (fun r => match r with | .wrote _ => true | _ => false) → (writeAll file rs disk bs).2 = .ok := by
    intro rs
    induction rs with
    | nil =>
      intro disk bs _ h
      have : bs = [] := List.length_eq_zero_iff.mp (by simpa using h)
      subst this; rfl
    | cons r rs ih =>
      intro disk bs h1 h2
      simp only [writeAll]
      split
      · rfl
      · rcases h1 r (by simp) with rfl | ⟨n, rfl⟩
        · exact ih disk bs (fun r hr => h1 r (by simp [hr])) (by simpa using h2)
        · apply ih _ _ (fun r hr => h1 r (by simp [hr]))
          rw [List.countP_cons_of_pos (by rfl)] at h2
          rw [List.length_drop]; omega
  unfold FileBuf.save
  rw [hc]
  cases hp' : b.path.getD [] with
  | nil => exact absurd hp' hp
  | cons x xs =>
    have hk := key env.writes (fun f => if f = file then some [] else disk f) (enc t) hw hn
    simp only [ht, Except.ok_bind', hk]
    exact ⟨_, _, rfl⟩

theorem writeAll_ending (file : Nat) (rs : List WriteRes) (disk : Disk) (bs : Bytes) :
    ((writeAll file rs disk bs).2 = .ok ↔ ∃ ws rest, rs = ws ++ rest ∧ (∀ r ∈ ws, r.Good) ∧ bs.length ≤ (ws.map WriteRes.bytes).sum) ∧
    ((writeAll file rs disk bs).2 = .err ↔
      ∃ ws r rest, rs = ws ++ r :: rest ∧ (∀ r ∈ ws, r.Good) ∧ (ws.map WriteRes.bytes).sum < bs.length ∧ ¬ r.Good) := by
  induction rs generalizing disk bs with
  | nil =>
    simp only [writeAll, List.nil_eq, List.append_eq_nil_iff, reduceCtorEq, false_and, exists_false, iff_false, and_false]
    constructor
    · constructor
      · intro h
        split at h
        · rename_i hb
          exact ⟨[], [], ⟨rfl, rfl⟩, by simp, by simp [List.isEmpty_iff.mp hb]⟩
        · cases h
      · rintro ⟨ws, rest, ⟨rfl, rfl⟩, _, h⟩
        rw [if_pos (by simpa using h)]
    · split <;> simp
  | cons r rs ih =>
    simp only [writeAll]
    by_cases hb : bs.isEmpty
    · rw [if_pos hb]
      rw [List.isEmpty_iff] at hb
      subst hb
      simp only [true_iff, reduceCtorEq, false_iff]
      exact ⟨⟨[], r :: rs, rfl, by simp, by simp⟩, by rintro ⟨ws, r, rest, _, _, h, _⟩; simp at h⟩
    · rw [if_neg hb]
      have hpos : 0 < bs.length := by
        rw [List.isEmpty_iff] at hb; exact List.length_pos_iff.mpr hb
      have bad : ¬ r.Good → (¬ ∃ ws rest, r :: rs = ws ++ rest ∧ (∀ r ∈ ws, r.Good) ∧ bs.length ≤ (ws.map WriteRes.bytes).sum) ∧
          ∃ ws r' rest, r :: rs = ws ++ r' :: rest ∧ (∀ r ∈ ws, r.Good) ∧ (ws.map WriteRes.bytes).sum < bs.length ∧ ¬ r'.Good := by
        intro hr
        refine ⟨?_, [], r, rs, rfl, by simp, by simpa using hpos, hr⟩
        rintro ⟨ws, rest, h1, h2, h3⟩
        cases ws with
        | nil => rw [List.map_nil, List.sum_nil] at h3; omega
        | cons w ws =>
          simp only [List.cons_append, List.cons.injEq] at h1
          exact hr (h1.1 ▸ h2 w (by simp))
      have good : ∀ n, r.bytes = n → r.Good → ∀ bs' : Bytes, bs'.length = bs.length - n → ∀ disk',
          ((writeAll file rs disk' bs').2 = .ok ↔ ∃ ws rest, r :: rs = ws ++ rest ∧ (∀ r ∈ ws, r.Good) ∧ bs.length ≤ (ws.map WriteRes.bytes).sum) ∧
          ((writeAll file rs disk' bs').2 = .err ↔
            ∃ ws r' rest, r :: rs = ws ++ r' :: rest ∧ (∀ r ∈ ws, r.Good) ∧ (ws.map WriteRes.bytes).sum < bs.length ∧ ¬ r'.Good) := by
        intro n hn hr bs' hl disk'
        rw [(ih disk' bs').1, (ih disk' bs').2, hl]
        constructor
        · constructor
          · rintro ⟨ws, rest, rfl, h2, h3⟩
            exact ⟨r :: ws, rest, rfl, by simpa using ⟨hr, h2⟩, by simp only [List.map_cons, List.sum_cons]; omega⟩
          · rintro ⟨ws, rest, h1, h2, h3⟩
            cases ws with
            | nil => rw [List.map_nil, List.sum_nil] at h3; omega
            | cons w ws =>
              simp only [List.cons_append, List.cons.injEq] at h1
              obtain ⟨rfl, rfl⟩ := h1
              simp only [List.map_cons, List.sum_cons] at h3
              exact ⟨ws, rest, rfl, fun x hx => h2 x (by simp [hx]), by omega⟩
        · constructor
          · rintro ⟨ws, r', rest, rfl, h2, h3, h4⟩
            exact ⟨r :: ws, r', rest, rfl, by simpa using ⟨hr, h2⟩, by simp only [List.map_cons, List.sum_cons]; omega, h4⟩
          · rintro ⟨ws, r', rest, h1, h2, h3, h4⟩
            cases ws with
            | nil =>
              simp only [List.nil_append, List.cons.injEq] at h1
              exact absurd hr (h1.1 ▸ h4)
            | cons w ws =>
              simp only [List.cons_append, List.cons.injEq] at h1
              obtain ⟨rfl, rfl⟩ := h1
              simp only [List.map_cons, List.sum_cons] at h3
              exact ⟨ws, r', rest, rfl, fun x hx => h2 x (by simp [hx]), by omega, h4⟩
      cases r with
      | failed =>
        obtain ⟨h1, h2⟩ := bad id
        exact ⟨⟨fun h => (by cases h), fun h => absurd h h1⟩, ⟨fun _ => h2, fun _ => rfl⟩⟩
      | interrupted => exact good 0 rfl trivial bs rfl disk
      | wrote n =>
        cases n with
        | zero =>
          obtain ⟨h1, h2⟩ := bad (Nat.lt_irrefl 0)
          exact ⟨⟨fun h => (by cases h), fun h => absurd h h1⟩, ⟨fun _ => h2, fun _ => rfl⟩⟩
        | succ n => exact good (n + 1) rfl (Nat.succ_pos n) (bs.drop (n + 1)) (List.length_drop ..) _

/-- C20: when `save` succeeds and when it fails, if the path is not empty and the file can be created: it succeeds exactly if some of the first `write` calls, none of
them failing, wrote as many bytes as there are (later calls are not made), and it fails exactly if one of them failed or wrote nothing before that. -/
theorem C20_save_outcome (b : FileBuf σ) (t : Text) (ht : b.buf.data.toStr = .ok t) (env : SaveEnv) (disk : Disk) (file : Nat)
    (hp : b.path.getD [] ≠ []) (hc : env.create = some (some file)) :
    ∃ steps e b', b.save env disk = .ok (steps, e, b') ∧
      (e = .ok ↔ ∃ ws rest, env.writes = ws ++ rest ∧ (∀ r ∈ ws, r.Good) ∧ blen t ≤ (ws.map WriteRes.bytes).sum) ∧
      (e = .err ↔ ∃ ws r rest, env.writes = ws ++ r :: rest ∧ (∀ r ∈ ws, r.Good) ∧ (ws.map WriteRes.bytes).sum < blen t ∧ ¬ r.Good) := by
  unfold FileBuf.save
  rw [hc]
  cases hp' : b.path.getD [] with
  | nil => exact absurd hp' hp
  | cons x xs =>
    obtain ⟨k1, k2⟩ := writeAll_ending file env.writes (fun f => if f = file then some [] else disk f) (enc t)
    rw [length_enc] at k1 k2
    simp only [ht, Except.ok_bind']
    generalize writeAll file env.writes (fun f => if f = file then some [] else disk f) (enc t) = w at *
    obtain ⟨w1, w2⟩ := w
    cases w2 <;> exact ⟨_, _, _, rfl, k1, k2⟩

/-- **C21.** At every moment of a save every file holds what it held before, except that the file being saved may hold a prefix of the new
contents instead. -/
theorem C21_crash_points (b b' : FileBuf σ) (t : Text) (ht : b.buf.data.toStr = .ok t) (env : SaveEnv) (disk : Disk) (steps : List Disk) (e : Ending)
    (h : b.save env disk = .ok (steps, e, b')) (d : Disk) (hd : d ∈ steps) :
    ∃ file, env.create = some (some file) ∧ (∃ p, d file = some p ∧ p <+: enc t) ∧ ∀ f, f ≠ file → d f = disk f := by
  unfold FileBuf.save at h
  cases hc : env.create with
  | none => rw [hc] at h; cases hp : b.path.getD [] <;> (rw [hp] at h; cases h; simp at hd)
  | some c =>
    cases hp : b.path.getD [] with
    | nil => rw [hc, hp] at h; cases h; simp at hd
    | cons x xs =>
      cases c with
      | none => rw [hc, hp] at h; cases h; simp at hd
      | some file =>
        rw [hc, hp] at h
        simp only [ht, Except.ok_bind'] at h
        refine ⟨file, rfl, ?_⟩
        obtain ⟨h1, _, _⟩ := writeAll_spec file env.writes (fun f => if f = file then some [] else disk f) (enc t) [] (by simp)
        generalize writeAll file env.writes (fun f => if f = file then some [] else disk f) (enc t) = r at h h1
        obtain ⟨ds, e'⟩ := r
        have hs : steps = (fun f => if f = file then some [] else disk f) :: ds := by
          cases e' <;> (cases h; rfl)
        rw [hs] at hd
        rcases List.mem_cons.mp hd with rfl | hd
        · exact ⟨⟨[], by simp, List.nil_prefix⟩, fun f hf => by simp [hf]⟩
        · obtain ⟨⟨n, k1⟩, k2⟩ := h1 d hd
          refine ⟨⟨(enc t).take n, by simpa using k1, List.take_prefix _ _⟩, fun f hf => by rw [k2 f hf]; simp [hf]⟩

/-- C21: opening the file that was being saved when the machine stopped. It is refused, the writing having stopped inside a character, or its contents are a
beginning of what was to be saved; nothing else can be read. -/
theorem C21_after_crash (A : Alloc) (k : Nat) (b b' : FileBuf σ) (t : Text) (ht : b.buf.data.toStr = .ok t) (env : SaveEnv) (disk : Disk) (steps : List Disk)
    (e : Ending) (h : b.save env disk = .ok (steps, e, b')) (d : Disk) (hd : d ∈ steps) (file : Nat) (hc : env.create = some (some file)) (fs fs' : Fs) (p c : Path)
    (hr : fs.read p = d file) (hcan : fs'.canon p = some c) :
    ((FileBuf.fromFile A k fs fs' p : Option (FileBuf σ)) = none ∧ ∀ x, d file ≠ some (enc x)) ∨
    ∃ (l : FileBuf σ) (x : Text), FileBuf.fromFile A k fs fs' p = some l ∧ l.buf.data.toStr = .ok x ∧ x <+: t := by
  obtain ⟨file', k1, ⟨bs, k2, k3⟩, _⟩ := C21_crash_points b b' t ht env disk steps e h d hd
  rw [hc] at k1; cases k1
  cases hs : strict bs with
  | none =>
    left
    refine ⟨by simp [FileBuf.fromFile, Fs.readToString, hr, k2, hs], fun x hx => ?_⟩
    rw [k2] at hx; cases hx
    rw [strict_enc] at hs; cases hs
  | some x =>
    right
    rw [strict_eq_some] at hs; subst hs
    refine ⟨⟨Buf.fromContent A k x, none, some c, none⟩, x, ?_, ?_, prefix_of_enc.mp k3⟩
    · simp [FileBuf.fromFile, Fs.readToString, hr, k2, hcan]
    · exact (GapBuffer.new_rep k x).toStr.trans (by rw [List.append_nil])

/-- C21: if the file cannot be created, no file changes. -/
theorem C21_create_fails (b b' : FileBuf σ) (env : SaveEnv) (disk : Disk) (steps : List Disk) (e : Ending)
    (hc : ∀ file, env.create ≠ some (some file)) (h : b.save env disk = .ok (steps, e, b')) : steps = [] := by
  unfold FileBuf.save at h
  cases hc' : env.create with
  | none => rw [hc'] at h; cases hp : b.path.getD [] <;> (rw [hp] at h; cases h; rfl)
  | some c =>
    cases c with
    | none => rw [hc'] at h; cases hp : b.path.getD [] <;> (rw [hp] at h; cases h; rfl)
    | some file => exact absurd hc' (hc file)

/-- C21: save is not atomic. Whatever the old and the new contents (if not empty), the machine can stop when the file is empty. -/
theorem C21_not_atomic (b : FileBuf σ) (t : Text) (ht : b.buf.data.toStr = .ok t) (hne : t ≠ []) (disk : Disk) (file : Nat) (hp : b.path.getD [] ≠ []) :
    ∃ steps, b.save ⟨some (some file), []⟩ disk = .ok (steps, .crash, b) ∧ final disk steps file = some [] := by
  unfold FileBuf.save
  cases hp' : b.path.getD [] with
  | nil => exact absurd hp' hp
  | cons x xs =>
    have hb : (enc t).isEmpty = false := by
      have := blen_pos hne
      rw [← length_enc] at this
      cases he : enc t with
      | nil => rw [he] at this; simp at this
      | cons _ _ => rfl
    simp only [ht, Except.ok_bind', writeAll, hb]
    exact ⟨_, rfl, by simp [final]⟩

/-- **C22.** Loading what a successful save wrote gives a buffer with the saved contents, unmodified, cursor at the beginning. -/
theorem C22_load_saved (A : Alloc) (k : Nat) (b b' : FileBuf σ) (t : Text) (ht : b.buf.data.toStr = .ok t) (env : SaveEnv) (disk : Disk)
    (steps : List Disk) (file : Nat) (hc : env.create = some (some file)) (hs : b.save env disk = .ok (steps, .ok, b'))
    (fs fs' : Fs) (p c : Path) (hr : fs.read p = final disk steps file) (hcan : fs'.canon p = some c) :
    ∃ l : FileBuf σ, FileBuf.fromFile A k fs fs' p = some l ∧ l.path = some c ∧ l.buf.data.toStr = .ok t ∧ l.buf.modified = false ∧
      l.buf.cursor.position = ⟨0, 0⟩ ∧ l.id = none ∧ l.syn = none := by
  obtain ⟨steps', e, b'', h1, h2, _⟩ := C20_save b t ht env disk
  rw [hs] at h1
  cases h1
  obtain ⟨file', k1, k2, _⟩ := h2 rfl
  rw [hc] at k1
  cases k1
  refine ⟨⟨Buf.fromContent A k t, none, some c, none⟩, ?_, rfl, ?_, ?_, rfl, rfl, rfl⟩
  · simp [FileBuf.fromFile, Fs.readToString, hr, k2, hcan]
  · exact (GapBuffer.new_rep k t).toStr.trans (by rw [List.append_nil])
  · simp [modified, Buf.fromContent, History.setMark, History.atMark, History.new]

/-- C22: loading a file and saving it unchanged writes back the same bytes. -/
theorem C22_save_loaded (A : Alloc) (k : Nat) (fs fs' : Fs) (p : Path) (l l' : FileBuf σ) (hl : FileBuf.fromFile A k fs fs' p = some l)
    (env : SaveEnv) (disk : Disk) (steps : List Disk) (file : Nat) (hc : env.create = some (some file))
    (hs : l.save env disk = .ok (steps, .ok, l')) : final disk steps file = fs.read p := by
  unfold FileBuf.fromFile Fs.readToString at hl
  cases hr : fs.read p with
  | none => rw [hr] at hl; simp at hl
  | some bs =>
    rw [hr] at hl
    cases hst : strict bs with
    | none => simp [hst] at hl
    | some t =>
      cases hcan : fs'.canon p with
      | none => simp [hst, hcan] at hl
      | some c =>
        simp [hst, hcan] at hl
        subst hl
        obtain ⟨steps', e, b'', h1, h2, _⟩ := C20_save (σ := σ) ⟨Buf.fromContent A k t, none, some c, none⟩ t ((GapBuffer.new_rep k t).toStr.trans (by rw [List.append_nil])) env disk
        rw [hs] at h1
        cases h1
        obtain ⟨file', k1, k2, _⟩ := h2 rfl
        rw [hc] at k1
        cases k1
        rw [k2, strict_eq_some.mp hst]

/-- C22: a file that is not valid UTF-8 is refused, by loading and by reloading. -/
theorem C22_invalid_refused (S : Segmenter) (A : Alloc) (k : Nat) (fs fs' : Fs) (p : Path) (bs : Bytes) (hr : fs.read p = some bs) (hbad : ∀ t, bs ≠ enc t) :
    (FileBuf.fromFile A k fs fs' p : Option (FileBuf σ)) = none ∧
    ∀ b : FileBuf σ, b.path = some p → b.reload S A fs = .ok (false, b) := by
  have hst : strict bs = none := by
    cases h : strict bs with
    | none => rfl
    | some t => exact absurd (strict_eq_some.mp h) (hbad t)
  constructor
  · simp [FileBuf.fromFile, Fs.readToString, hr, hst]
  · intro b hb
    simp [FileBuf.reload, Fs.readToString, hb, hr, hst]

/-- A change by `replace`: the operation is stored, everything else stays. -/
theorem replace_eq {S A} {b b' : Buf} {old c : Text} (ht : b.data.toStr = .ok old) (hc : c ≠ old) (h : replace S A b c = .ok b') :
    ∃ b1, b' = store b1 (.replace old c) ∧ b1.group = b.group ∧ b1.history = b.history ∧ b1.callback = b.callback := by
  simp only [replace, ht, Except.ok_bind', if_neg hc, runOp] at h
  cases h1 : replaceContent S A c b with
  | error e => rw [h1] at h; cases h
  | ok b1 =>
    rw [h1] at h
    simp only [Except.ok_bind'] at h
    refine ⟨b1, (Except.ok.inj h).symm, (replaceContent_keeps h1).1, (replaceContent_keeps h1).2, ?_⟩
    have hr : ∀ (x : Buf) p, (x.report p).callback = x.callback := by intro x p; unfold report; split <;> rfl
    unfold replaceContent at h1
    dsimp only at h1
    cases h2 : Cursor.moveTo S (GapBuffer.new A b.data.clock c) (Cursor.new ⟨0, 0⟩) b.cursor.position with
    | error e => rw [h2] at h1; cases h1
    | ok r =>
      obtain ⟨ok, cu⟩ := r
      rw [h2] at h1
      simp only [Except.ok_bind'] at h1
      cases ok with
      | true =>
        obtain rfl := Except.ok.inj h1
        exact hr _ _
      | false =>
        cases h3 : Cursor.moveTo S (GapBuffer.new A b.data.clock c) cu ⟨b.cursor.position.line, 0⟩ with
        | error e => simp only [h3] at h1; cases h1
        | ok r2 =>
          simp only [h3] at h1
          obtain rfl := Except.ok.inj h1
          exact hr _ _

/-- `replace_content` never fails, and sets the contents. -/
theorem replaceContent_ok (S : Segmenter) (A : Alloc) (b : Buf) (c : Text) : ∃ b', replaceContent S A c b = .ok b' ∧ b'.data.toStr = .ok c := by
  have hn : Holds S (GapBuffer.new A b.data.clock c) c := GapBuffer.holds_new _ _
  have rep : ∀ (x : Buf) p, x.data.toStr = .ok c → (x.report p).data.toStr = .ok c := by
    intro x p h; unfold report; split <;> exact h
  unfold replaceContent
  simp only [Cursor.moveTo_holds hn, Except.ok_bind']
  by_cases h1 : exists? S.segs c b.cursor.position = true
  · simp only [h1, if_true]; exact ⟨_, rfl, rep _ _ hn.toStr⟩
  · by_cases h2 : exists? S.segs c ⟨b.cursor.position.line, 0⟩ = true
    · simp only [h1, h2, if_true]; exact ⟨_, rfl, rep _ _ hn.toStr⟩
    · simp only [h1, h2]; exact ⟨_, rfl, rep _ _ hn.toStr⟩

/-- **C24.** `reload` in any state of a buffer with readable contents: it fails, changing nothing, without a path or when the file cannot be read as UTF-8; else the
contents are those of the file and `modified()` is false. -/
theorem C24_reload (S : Segmenter) (A : Alloc) (b : FileBuf σ) (old : Text) (ht : b.buf.data.toStr = .ok old) (fs : Fs) :
    (b.path = none → b.reload S A fs = .ok (false, b)) ∧
    (∀ p, b.path = some p → fs.readToString p = none → b.reload S A fs = .ok (false, b)) ∧
    (∀ p c, b.path = some p → fs.readToString p = some c → ∃ b', b.reload S A fs = .ok (true, b') ∧ b'.buf.data.toStr = .ok c ∧
      b'.buf.modified = false ∧ b'.id = b.id ∧ b'.path = b.path ∧ b'.syn = b.syn ∧ b'.buf.callback = b.buf.callback) := by
  refine ⟨fun h => by simp [FileBuf.reload, h], fun p h1 h2 => by simp [FileBuf.reload, h1, h2], ?_⟩
  intro p c h1 h2
  obtain ⟨k1, k2⟩ := C23_replace S A b.buf old c ht
  have hm : ∀ x : Buf, x.setMark.modified = false := by intro x; simp [modified, setMark, History.setMark, History.atMark]
  by_cases hc : c = old
  · refine ⟨{ b with buf := b.buf.setMark }, ?_, by rw [hc]; exact ht, hm _, rfl, rfl, rfl, rfl⟩
    have := k1 hc
    simp only [exec] at this
    simp only [FileBuf.reload, h1, h2, reloadWith, this, Except.ok_bind']; rfl
  · obtain ⟨b', e1, e2, _⟩ := k2 hc
    simp only [exec] at e1
    refine ⟨{ b with buf := b'.setMark }, ?_, e2, hm _, rfl, rfl, rfl, ?_⟩
    · simp only [FileBuf.reload, h1, h2, reloadWith, e1, Except.ok_bind']; rfl
    · obtain ⟨b1, rfl, _, _, h4⟩ := replace_eq ht hc e1
      rw [← h4]
      show (store b1 _).callback = _
      unfold store; split <;> rfl

/-- C24: outside a group, one undo after a reload that changed the contents brings the discarded contents back. In every state, clean or not. -/
theorem C24_reload_can_be_undone (S : Segmenter) (A : Alloc) (b b' : FileBuf σ) (old c : Text) (ht : b.buf.data.toStr = .ok old) (hg : b.buf.group = none)
    (fs : Fs) (p : Path) (hp : b.path = some p) (hf : fs.readToString p = some c) (hne : c ≠ old) (h : b.reload S A fs = .ok (true, b')) :
    ∃ b'', exec S A b'.buf .undo = .ok b'' ∧ b''.data.toStr = .ok old := by
  simp only [FileBuf.reload, hp, hf, reloadWith] at h
  cases h1 : replace S A b.buf c with
  | error e => rw [h1] at h; cases h
  | ok x =>
    rw [h1] at h
    obtain ⟨b1, rfl, k1, k2, _⟩ := replace_eq ht hne h1
    simp only [Except.ok_bind'] at h
    obtain rfl := (Prod.mk.inj (Except.ok.inj h)).2
    have hs : store b1 (.replace old c) = { b1 with history := b1.history.add (.simple (.replace old c)) } := by
      unfold store; rw [k1, hg]
    rw [hs]
    simp only [exec, undo, setMark, k1, hg, History.setMark, History.add, History.back]
    exact replaceContent_ok S A _ old

/-! ### Examples -/

/-- A buffer with a path, an edit and an open file. -/
def demoFile : FileBuf Nat := ⟨Buf.fromContent Demo.tight 0 (Demo.s "héllo"), some 3, some [.root, .normal [0x66]], none⟩

/-- Two interrupted calls and short writes: saved. -/
example : (demoFile.save ⟨some (some 7), [.wrote 2, .interrupted, .wrote 3, .interrupted, .wrote 100]⟩ (fun f => if f = 7 then some [1, 2, 3] else none)).map
    (fun r => (r.1.map (fun d => d 7), r.2.1)) =
    .ok ([some [], some [0x68, 0xc3], some [0x68, 0xc3, 0xa9, 0x6c, 0x6c], some [0x68, 0xc3, 0xa9, 0x6c, 0x6c, 0x6f]], .ok) := by decide +kernel
/-- The disk is full after two bytes: an error, and the file holds half a character. -/
example : (demoFile.save ⟨some (some 7), [.wrote 2, .failed]⟩ (fun f => if f = 7 then some [1, 2, 3] else none)).map
    (fun r => (r.1.map (fun d => d 7), r.2.1)) = .ok ([some [], some [0x68, 0xc3]], .err) := by decide +kernel
/-- What was written then is refused; after one byte it would be `h`. -/
example : (FileBuf.fromFile Demo.tight 0 ⟨fun _ => some [0x68, 0xc3], fun _ => none⟩ ⟨fun _ => none, some⟩ [.normal [0x66]] : Option (FileBuf Nat)).isNone ∧
    ((FileBuf.fromFile Demo.tight 0 ⟨fun _ => some [0x68], fun _ => none⟩ ⟨fun _ => none, some⟩ [.normal [0x66]] : Option (FileBuf Nat)).map fun l => l.buf.data.toStr) =
      some (.ok (Demo.s "h")) := by decide +kernel
/-- The fourth call would fail, but there is nothing left to write. -/
example : (demoFile.save ⟨some (some 7), [.wrote 2, .interrupted, .wrote 4, .failed]⟩ (fun _ => none)).map (fun r => r.2.1) = .ok .ok := by decide +kernel
/-- A reload in the middle of editing, then undo. -/
example : ((demoFile.reload Demo.seg Demo.tight ⟨fun _ => some [0x61], fun _ => none⟩) >>= fun r => r.2.buf.data.toStr >>= fun t =>
    exec Demo.seg Demo.tight r.2.buf .undo >>= fun b => b.data.toStr >>= fun t' => .ok (r.1, t, r.2.buf.modified, t', b.modified)) =
    .ok (true, Demo.s "a", false, Demo.s "héllo", true) := by decide +kernel
/-- Bytes that are no UTF-8 text (half of `é`). -/
example : (demoFile.reload Demo.seg Demo.tight ⟨fun _ => some [0xc3], fun _ => none⟩).map (fun r => r.1) = .ok false := by decide +kernel

end Scribe.Props
