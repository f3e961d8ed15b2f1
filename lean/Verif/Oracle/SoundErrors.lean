import Verif.Oracle.Errors
import Verif.Oracle.SoundFile
import Verif.Oracle.SoundWorkspace
import Verif.Props.Highlight
/-! # The executable forms in `Verif/Oracle/Errors.lean` follow from the theorems -/
namespace Scribe.Oracle
open Spec Props Workspace TokenIter

variable {S : Segmenter} {A : Alloc}

theorem s_C82_same (b : FileBuf Nat) (env : SaveEnvE) (disk : Disk) (fs fs' fs'' : FsE) (p : Path) (w : Workspace Nat) (syns : Option (Syntaxes Nat)) (f : Nat) :
    o_C82_same S A b env disk fs fs' fs'' p w syns f = true := by
  obtain ⟨h1, h2, h3, h4, h5, h6⟩ := C82_same S A Empty 0 fs fs' fs'' p b env disk w syns
  simp only [o_C82_same, h2, h3, h4, h5, h6, Bool.and_eq_true, decide_eq_true_eq]
  refine ⟨⟨⟨⟨⟨h1, ?_⟩, ?_⟩, ?_⟩, ?_⟩, ?_⟩
  · cases b.saveE env disk <;> simp [Except.map]
  · cases b.reloadE (ε := Empty) S A fs <;> simp [Except.map]
  · cases w.openBufferE (ε := Empty) A 0 fs fs' fs'' p <;> simp [Except.map]
  · simp
  · cases Workspace.newE (ε := Empty) fs p syns <;> simp [Except.toOption]

theorem s_C82_reload (b : FileBuf Nat) (fs : FsE) : o_C82_reload S A b fs = true := by
  simp only [o_C82_reload, okImp_iff]
  rintro ⟨r, b'⟩ h
  obtain ⟨h1, h2, h3⟩ := C82_reload S A Empty b b' fs r h
  cases r with
  | ok u =>
    cases hp : b.path with
    | none => exact absurd (h1.mpr hp) (by simp)
    | some p =>
      dsimp only
      cases hr : fs.read p with
      | error e => exact absurd ((h2 e).mpr ⟨p, hp, Or.inl hr⟩) (by simp)
      | ok bs =>
        dsimp only
        cases hs : strict bs with
        | none => exact absurd ((h2 _).mpr ⟨p, hp, Or.inr ⟨bs, hr, hs, rfl⟩⟩) (by simp)
        | some t => rfl
  | error e =>
    obtain ⟨rfl, hk⟩ := h3 e rfl
    rcases hk with rfl | ⟨x, rfl⟩
    · rw [h1.mp rfl]; simp
    · obtain ⟨p, hp, hr⟩ := (h2 x).mp rfl
      rw [hp]
      rcases hr with hr | ⟨bs, hr, hs, rfl⟩
      · simp [hr]
      · simp [hr, hs]

theorem s_C82_open (s : Syntaxes Nat) (root : Path) (cs : List (Call Nat)) (f0 f1 f2 : FsE) (p : Path) : o_C82_open A s root cs f0 f1 f2 p = true := by
  refine after_intro fun w h => ?_
  simp only [okImp_iff]
  rintro ⟨r, w'⟩ h1
  cases r with
  | ok u => rfl
  | error e =>
    obtain ⟨rfl, h2, x, rfl, h3⟩ := C82_open A Empty s cs w w' h 0 f0 f1 f2 p e h1
    simp only [Bool.and_eq_true]
    refine ⟨⟨sameW_refl _, ?_⟩, ?_⟩
    · cases hc : f0.canon p with
      | error e => rfl
      | ok c => simpa using h2 c hc
    · rcases h3 with h3 | ⟨bs, h3, h4, rfl⟩ | ⟨bs, t, h3, h4, h5⟩
      · simp [h3]
      · simp [h3, h4]
      · simp [h3, h4, h5]

theorem s_C82_save (b : FileBuf Nat) (env : SaveEnvE) (disk : Disk) : o_C82_save b env disk = true := by
  simp only [o_C82_save, okImp_iff]
  rintro ⟨steps, e, b'⟩ h
  cases e with
  | ok => rfl
  | crash => rfl
  | err e =>
    obtain ⟨rfl, h1⟩ := C82_save b b' env disk steps e h
    rcases h1 with ⟨hp, rfl, rfl⟩ | ⟨hp, hc, rfl⟩ | ⟨hp, ⟨file, hc⟩, hs, hw⟩
    · simp [hp]
    · simp [hp, hc]
    · simp [hp, hc, hs, hw]

theorem s_C82_save_error (b : FileBuf Nat) (env : SaveEnvE) (disk : Disk) (f : Nat) : o_C82_save_error b env disk f = true := by
  simp only [o_C82_save_error, okImp_iff]
  intro t ht
  cases hc : env.create with
  | none => rfl
  | some c =>
    cases c with
    | error e => rfl
    | ok file =>
      simp only [imp_iff, okImp_iff]
      rintro hp ⟨steps, e, b'⟩ h
      cases e with
      | ok => rfl
      | err e =>
        obtain ⟨ws, r, rest, last, h1, h2, h3, h4, h5, h6, h7⟩ := C82_save_error b b' t ht env disk file hp hc steps e h
        simp only [List.any_eq_true, List.mem_range, Bool.and_eq_true, Bool.or_eq_true, decide_eq_true_eq, List.all_eq_true, someAnd_iff, imp_iff]
        have e1 : env.writes.take ws.length = ws := by rw [h1]; simp
        have e2 : env.writes[ws.length]? = some r := by rw [h1]; simp
        refine ⟨ws.length, by rw [h1]; simp, ⟨⟨⟨?_, ?_⟩, ?_⟩, last, h5, ?_, h7 f⟩⟩
        · rw [e1]; exact h2
        · rw [e1]; exact h3
        · rw [e2]
          rcases h4 with rfl | ⟨rfl, h⟩
          · exact Or.inl rfl
          · exact Or.inr ⟨rfl, h⟩
        · rw [e1]; exact h6
      | crash =>
        obtain ⟨last, h2, h3, h5, h6, h7⟩ := C82_save_crash b b' t ht env disk file hp hc steps h
        simp only [Bool.and_eq_true, decide_eq_true_eq, List.all_eq_true, someAnd_iff, imp_iff]
        exact ⟨⟨h2, h3⟩, last, h5, h6, h7 f⟩

theorem s_C82_new (fs : FsE) (p : Path) (syns : Option (Syntaxes Nat)) : o_C82_new fs p syns = true := by
  unfold o_C82_new
  cases hn : Workspace.newE (ε := Empty) fs p syns with
  | ok w =>
    dsimp only
    cases syns with
    | none => rw [(C82_new Empty fs p none _).mpr (Or.inl ⟨rfl, rfl⟩)] at hn; cases hn
    | some s =>
      cases hc : fs.canon p with
      | ok c => rfl
      | error x => rw [(C82_new Empty fs p (some s) _).mpr (Or.inr ⟨by simp, x, hc, rfl⟩)] at hn; cases hn
  | error e =>
    dsimp only
    rcases (C82_new Empty fs p syns e).mp hn with ⟨rfl, rfl⟩ | ⟨hs, x, hx, rfl⟩
    · rfl
    · cases syns with
      | none => exact absurd rfl hs
      | some s => simp [hx]

theorem s_C83_current (H : Nat → Highlighter) (hO : ∀ y, OffsetsOk (H y)) (fails : (y : Nat) → (H y).Err → Bool) (hF : ∀ y e, FailsWith (H y) e → fails y e = true)
    (s : Syntaxes Nat) (root : Path) (as : List (Act Nat)) : o_C83_current S A H fails s root as = true := by
  simp only [o_C83_current, someImp_iff, okAnd_iff]
  intro w0 h0
  obtain ⟨w, h1, h2, h3⟩ := C83_current S A H hO s _ root w0 h0 as
  refine ⟨_, h1, ?_⟩
  by_cases hn : (noSheets.acts S.segs A.grant s as).2.tabs.items = []
  · refine ⟨_, h2 hn, ?_⟩
    have : (noSheets.acts S.segs A.grant s as).2.tabs.selected = none := by rw [Tabs.selected, hn]; rfl
    rw [this]
    simp [hn]
  · obtain ⟨x, hx, h4, h5⟩ := h3 hn
    rw [hx]
    cases hy : x.syn with
    | none =>
      refine ⟨_, h4 hy, ?_⟩
      simp only [hy, Option.isNone_none, Bool.true_and, Bool.not_eq_true']
      by_contra hk
      rw [Bool.not_eq_false, List.all_eq_true] at hk
      refine C83_has_syntax S A H hO s _ root w0 w h0 as ?_ _ h1 (h4 hy)
      intro a ha he
      have := hk a ha
      rw [he] at this
      cases this
    | some y =>
      rcases h5 y hy with ⟨err, k1, k2⟩ | ⟨it, ts, it', k1, k2, k3⟩
      · exact ⟨_, k1, by simp [hy, hF y err k2]⟩
      · refine ⟨_, k1, ?_⟩
        simp only [Bool.and_eq_true, okAnd_iff, someAnd_iff]
        have hnew : TokenIter.new (H y) x.doc.zip.text = .ok (.ok it) := by
          obtain ⟨w', e1, _, _, _, _, e2⟩ := C74_program S A s _ root w0 h0 as
          rw [h1] at e1
          cases e1
          rw [currentBufferIter_eq, e2, hx] at k1
          simp only [hy, Except.ok_bind'] at k1
          obtain ⟨i, hi, k1⟩ := GapBuffer.bind_ok k1
          cases i with
          | error e => cases k1
          | ok it2 => cases k1; exact hi
        have hl := C70_token_count S (H y) _ (hO y) it it' ts hnew k2
        refine ⟨by simp [hy], _, collects_drained k2 _ (Nat.lt_succ_of_le hl), _, rfl, ?_⟩
        rcases k3 with ⟨k3, k4⟩ | ⟨err, k3, k4, k5⟩
        · rw [k3]; exact decide_eq_true k4
        · rw [k3, Bool.and_eq_true]; exact ⟨hF y err k4, List.isPrefixOf_iff_prefix.mpr k5⟩

theorem s_C83_jump {H : Highlighter} (hO : OffsetsOk H) (data : Text) (n i : Nat) (c : Cursor) : o_C83_jump S A H data n i c = true := by
  refine tokenized_intro fun it ts it' hn hc => ?_
  simp only [imp_iff]
  intro hcr hb
  split
  · rename_i v k p h
    simp only [imp_iff, Bool.and_eq_true, decide_eq_true_eq]
    intro hend
    refine C83_jump S H _ data (GapBuffer.holds_new _ _) hO it it' ts hn hc hcr (fun x y v k p e => by
      have := List.all_eq_true.mp hb x.length (by rw [e]; simp)
      rw [e] at this
      simp only [List.getElem?_append_right (Nat.le_refl _), Nat.sub_self, List.getElem?_cons_zero, List.take_left', boundary, List.any_eq_true,
        decide_eq_true_eq] at this
      obtain ⟨m, _, hm⟩ := this
      exact ⟨_, _, (List.take_append_drop m _).symm, hm⟩) _ _ v k p (split_at h) ?_ c
    simp only [boundary, List.any_eq_true, decide_eq_true_eq] at hend
    obtain ⟨m, _, hm⟩ := hend
    exact ⟨_, _, (List.take_append_drop m _).symm, hm⟩
  · rfl

end Scribe.Oracle
