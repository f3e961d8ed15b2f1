import Verif.Oracle.Rest
import Verif.Props.Names
import Verif.Oracle.SoundBuffer
import Verif.Props.File
import Verif.Props.Token
import Verif.Props.TokenStream
import Verif.Props.Ordinary
/-! # The executable forms of C20–C22, C24, C36, C37, C48 and C49 follow from the theorems -/
namespace Scribe.Oracle
open Spec Props

variable {S : Segmenter} {A : Alloc}

/-! ## Ordinary text -/

theorem overB_iff {T : Uax29.Table} {t : Text} : overB S T t = true ↔ Over S.segs (Uax29.Ordinary T.cls) t := by
  simp [overB, Over]

theorem typingB_sound {T : Uax29.Table} {c : Buf.Cmd} (h : typingB S T c = true) : TypingCmd S.segs (Uax29.Ordinary T.cls) c := by
  cases c <;> simp_all [typingB, TypingCmd, overB_iff]

theorem s_C49_gap (T : Uax29.Table) (k : Nat) (t : Text) (cs : List GapBuffer.Call) : o_C49_gap_buffer (Uax29.segmenter T) A T k t cs = true := by
  simp only [o_C49_gap_buffer, imp_iff, okAnd_iff, Bool.and_eq_true, decide_eq_true_eq, overB_iff, List.all_eq_true]
  intro h1 h2
  obtain ⟨g, e1, e2, e3⟩ := C49_gap_buffer (Uax29.segmenter T) _ (Uax29.ordinary_closed T) A k t cs h1 h2
  exact ⟨_, e1, ⟨rfl, e2⟩, e3⟩

theorem s_C49_session (T : Uax29.Table) (content : Option Text) (cs : List Buf.Cmd) (k : Nat) :
    o_C49_editing_session (Uax29.segmenter T) A T content cs k = true := by
  simp only [o_C49_editing_session, imp_iff, okAnd_iff, someAnd_iff, Bool.and_eq_true, decide_eq_true_eq, overB_iff, List.all_eq_true]
  intro h1 h2
  obtain ⟨⟨b, e1, e2, e3⟩, e4⟩ := C49_editing_session (Uax29.segmenter T) _ (Uax29.ordinary_closed T) A _ _ _ cs (startOf_start content) h1
    (fun c hc => typingB_sound (h2 c hc))
  exact ⟨⟨b, e1, e2, e3⟩, e4 _ (by omega)⟩

/-! ## Saving and loading -/

theorem join_some {o : Option (Option Nat)} {x : Nat} : o.join = some x ↔ o = some (some x) := by
  cases o with
  | none => simp
  | some o => cases o <;> simp

theorem s_C20 (b : FileBuf Nat) (env : SaveEnv) (disk : Disk) (f : Nat) : o_C20_save b env disk f = true := by
  simp only [o_C20_save, imp_iff, okAnd_iff, okImp_iff, someAnd_iff, Bool.and_eq_true, decide_eq_true_eq, Bool.not_eq_true', List.isEmpty_iff, join_some]
  intro t ht
  obtain ⟨steps, e, b', h1, h2, h3, h4⟩ := C20_save b t ht env disk
  refine ⟨_, h1, ⟨fun he => ?_, h3⟩, h4⟩
  obtain ⟨file, k1, k2, k3, k4, k5, k6⟩ := h2 he
  exact ⟨file, k1, ⟨⟨⟨k2, k3 f⟩, k4⟩, k5⟩, k6⟩

theorem s_C20_succeeds (b : FileBuf Nat) (env : SaveEnv) (disk : Disk) : o_C20_save_succeeds b env disk = true := by
  simp only [o_C20_save_succeeds, imp_iff, okAnd_iff, okImp_iff, someImp_iff, List.all_eq_true, decide_eq_true_eq, join_some]
  intro t ht file hf hp hw hn
  obtain ⟨steps, b', h⟩ := C20_save_succeeds b t ht env disk file hp hf (fun r hr => by
    have := hw r hr
    cases r with
    | interrupted => exact .inl rfl
    | wrote n => cases n with
      | zero => cases this
      | succ n => exact .inr ⟨n, rfl⟩
    | _ => cases this) hn
  exact ⟨_, h, rfl⟩

theorem s_C20_outcome (b : FileBuf Nat) (env : SaveEnv) (disk : Disk) : o_C20_save_outcome b env disk = true := by
  simp only [o_C20_save_outcome, imp_iff, okAnd_iff, okImp_iff, someImp_iff, List.all_eq_true, decide_eq_true_eq, join_some, Bool.and_eq_true, List.mem_range]
  intro t ht file hf hp
  obtain ⟨steps, e, b', h, h1, h2⟩ := C20_save_outcome b t ht env disk file hp hf
  refine ⟨_, h, ?_, ?_⟩
  · rintro i _ ⟨k1, k2⟩
    exact h1.mpr ⟨_, _, (List.take_append_drop i env.writes).symm, k1, k2⟩
  · rintro i hi ⟨k1, k2, k3⟩
    refine h2.mpr ⟨env.writes.take i, env.writes[i], env.writes.drop (i + 1), ?_, k1, k2, ?_⟩
    · rw [List.getElem_cons_drop, List.take_append_drop]
    · rw [List.getElem?_eq_getElem hi] at k3
      simpa using k3

theorem s_C21_after (b : FileBuf Nat) (env : SaveEnv) (disk : Disk) (p c : Path) : o_C21_after_crash A b env disk p c = true := by
  simp only [o_C21_after_crash, okImp_iff, someImp_iff, List.all_eq_true, join_some]
  rintro t ht file hf ⟨steps, e, b'⟩ hs d hd
  rcases C21_after_crash A 0 b b' t ht env disk steps e hs d hd file hf (fsOf (d file) none) (fsOf none (some c)) p c rfl rfl with ⟨h1, h2⟩ | ⟨l, x, h1, h2, h3⟩
  · rw [h1]; simpa using h2 _
  · rw [h1]; simp only [okAnd_iff]; exact ⟨x, h2, List.isPrefixOf_iff_prefix.mpr h3⟩

theorem s_C94_new (k : Nat) : o_C94_new A k = true := decide_eq_true (C94_new A k)

theorem s_C94 (b : FileBuf Nat) : o_C94_byte_names b = true := by
  simp only [o_C94_byte_names, someImp_iff]
  intro p hp c hc
  obtain ⟨dir, rfl⟩ := List.getLast?_eq_some_iff.mp hc
  have other : (∀ name, c ≠ .normal name) → (b.fileName.isNone && b.fileExtension.isNone) = true := by
    intro h
    obtain ⟨h1, h2⟩ := C94_no_name b (fun dir' name e => by
      rw [hp] at e
      have := (List.append_inj' (Option.some.inj e) rfl).2
      exact h name (List.cons.inj this).1)
    rw [h1, h2]; rfl
  split
  · rename_i name
    obtain ⟨h1, h2, h3⟩ := C94_byte_names b dir name hp
    simp only [Bool.and_eq_true, decide_eq_true_eq, imp_iff, List.all_eq_true, Option.isNone_iff_eq_none]
    refine ⟨⟨h1 _, h2⟩, ?_⟩
    rintro i _ ⟨k1, k2⟩
    obtain ⟨hi, k1⟩ := List.getElem?_eq_some_iff.mp k1
    exact h3 (name.take i) (name.drop (i + 1)) (by rw [← k1, List.getElem_cons_drop, List.take_append_drop]) k2
  · rename_i hne
    exact other hne

theorem s_C21 (b : FileBuf Nat) (env : SaveEnv) (disk : Disk) (f : Nat) : o_C21_crash_points b env disk f = true := by
  simp only [o_C21_crash_points, imp_iff, okImp_iff, someAnd_iff, Bool.and_eq_true, List.all_eq_true, decide_eq_true_eq, join_some,
    List.isPrefixOf_iff_prefix]
  rintro t ht ⟨steps, e, b'⟩ hs d hd
  obtain ⟨file, k1, k2, k3⟩ := C21_crash_points b b' t ht env disk steps e hs d hd
  exact ⟨file, k1, k2, k3 f⟩

theorem s_C21_create (b : FileBuf Nat) (env : SaveEnv) (disk : Disk) : o_C21_create_fails b env disk = true := by
  simp only [o_C21_create_fails, imp_iff, okImp_iff, List.isEmpty_iff]
  rintro hc ⟨steps, e, b'⟩ hs
  exact C21_create_fails b b' env disk steps e (fun file hf => by rw [join_some.mpr hf] at hc; cases hc) hs

theorem s_C21_not_atomic (b : FileBuf Nat) (disk : Disk) (file : Nat) : o_C21_not_atomic b disk file = true := by
  simp only [o_C21_not_atomic, imp_iff, okImp_iff, okAnd_iff, Bool.and_eq_true, decide_eq_true_eq]
  intro t ht hne hp
  obtain ⟨steps, h1, h2⟩ := C21_not_atomic b t ht hne disk file hp
  exact ⟨_, h1, ⟨rfl, rfl⟩, h2⟩

theorem s_C22_load (b : FileBuf Nat) (env : SaveEnv) (disk : Disk) (p c : Path) : o_C22_load_saved A b env disk p c = true := by
  simp only [o_C22_load_saved, imp_iff, okImp_iff, someImp_iff, someAnd_iff, Bool.and_eq_true, decide_eq_true_eq, Bool.not_eq_true', join_some]
  rintro t ht file hf ⟨steps, e, b'⟩ hs rfl
  obtain ⟨l, h1, h2, h3, h4, h5, h6, h7⟩ := C22_load_saved A 0 b b' t ht env disk steps file hf hs (fsOf (final disk steps file) none) (fsOf none (some c)) p c rfl rfl
  exact ⟨l, h1, ⟨⟨⟨⟨h2, h3⟩, h4⟩, h5⟩, by rw [h6]; rfl⟩, by rw [h7]; rfl⟩

theorem s_C22_save (bytes : Bytes) (p c : Path) (env : SaveEnv) (disk : Disk) : o_C22_save_loaded A bytes p c env disk = true := by
  simp only [o_C22_save_loaded, imp_iff, okImp_iff, someImp_iff, decide_eq_true_eq, join_some]
  rintro l hl file hf ⟨steps, e, l'⟩ hs rfl
  exact C22_save_loaded A 0 _ _ p l l' hl env disk steps file hf hs

theorem s_C22_invalid (b : FileBuf Nat) (bs : Bytes) (c : Path) : o_C22_invalid_refused S A b bs c = true := by
  simp only [o_C22_invalid_refused, imp_iff, Bool.and_eq_true, decide_eq_true_eq, Option.isNone_iff_eq_none]
  intro hb
  have hbad : ∀ t, bs ≠ enc t := by rintro t rfl; simp at hb
  refine ⟨(C22_invalid_refused S A 0 _ _ [] bs rfl hbad).1, fun hp => ?_⟩
  obtain ⟨p, hp⟩ := Option.isSome_iff_exists.mp hp
  exact (C22_invalid_refused (σ := Nat) S A 0 (fsOf (some bs) none) (fsOf none none) p bs rfl hbad).2 b hp

theorem s_C24 (b : FileBuf Nat) (fs : Fs) : o_C24_reload S A b fs = true := by
  simp only [o_C24_reload, okImp_iff]
  intro old ht
  obtain ⟨h1, h2, h3⟩ := C24_reload S A b old ht fs
  cases hp : b.path with
  | none => exact decide_eq_true (h1 hp)
  | some p =>
    cases hr : fs.readToString p with
    | none => simp only [Option.bind_some, hr]; exact decide_eq_true (h2 p hp hr)
    | some c =>
      simp only [Option.bind_some, hr, okAnd_iff, Bool.and_eq_true, decide_eq_true_eq, Bool.not_eq_true']
      obtain ⟨b', k1, k2, k3, k4, k5, k6, k7⟩ := h3 p c hp hr
      exact ⟨_, k1, ⟨⟨⟨⟨⟨rfl, k2⟩, k3⟩, k4⟩, by rw [k5, hp]⟩, k6⟩, k7⟩

theorem s_C24_undo (b : FileBuf Nat) (fs : Fs) : o_C24_reload_can_be_undone S A b fs = true := by
  simp only [o_C24_reload_can_be_undone, imp_iff, okImp_iff, okAnd_iff, someImp_iff, decide_eq_true_eq, Option.bind_eq_some_iff]
  rintro old ht hg c ⟨p, hp, hr⟩ hne ⟨ok, b'⟩ h rfl
  exact C24_reload_can_be_undone S A b b' old c ht hg fs p hp hr hne h

/-! ## Tokens -/
section
variable {H : Highlighter}
open TokenIter

theorem drain_collects : ∀ (n : Nat) (it : TokenIter H) (ts : List (Token H.Scopes)) (it' : TokenIter H), drain S n it = .ok (some (ts, it')) →
    Collects S it ts it'
  | 0, _, _, _, h => by cases h
  | n + 1, it, ts, it', h => by
    rw [drain] at h
    cases k : TokenIter.next S it with
    | error e => rw [k] at h; cases h
    | ok r =>
      rw [k] at h
      obtain ⟨o, it1⟩ := r
      cases o with
      | none => cases h; exact .stop k
      | some t =>
        change (drain S n it1 >>= fun r => Except.ok (r.map fun r => (t :: r.1, r.2))) = _ at h
        cases k2 : drain S n it1 with
        | error e => rw [k2] at h; cases h
        | ok r =>
          rw [k2] at h
          cases r with
          | none => cases h
          | some r =>
            obtain ⟨ts1, it2⟩ := r
            cases h
            exact .next k (drain_collects n it1 ts1 _ k2)

theorem collects_unique {it it' it'' : TokenIter H} {ts ts' : List (Token H.Scopes)} (h : Collects S it ts it') (h' : Collects S it ts' it'') :
    ts = ts' ∧ it' = it'' := by
  induction h generalizing ts' with
  | stop e =>
    cases h' with
    | stop e' => rw [e] at e'; cases e'; exact ⟨rfl, rfl⟩
    | next e' _ => rw [e] at e'; cases e'
  | next e _ ih =>
    cases h' with
    | stop e' => rw [e] at e'; cases e'
    | next e' k => rw [e] at e'; cases e'; obtain ⟨rfl, rfl⟩ := ih k; exact ⟨rfl, rfl⟩

theorem collects_drain {it it' : TokenIter H} {ts : List (Token H.Scopes)} (h : Collects S it ts it') :
    ∀ n, ∃ r, drain S n it = .ok r ∧ ∀ x, r = some x → x = (ts, it') := by
  induction h with
  | stop e =>
    intro n
    cases n with
    | zero => exact ⟨none, rfl, by simp⟩
    | succ n => exact ⟨some _, by rw [drain, e]; rfl, by rintro x hx; cases hx; rfl⟩
  | @next it it1 it' t ts e _ ih =>
    intro n
    cases n with
    | zero => exact ⟨none, rfl, by simp⟩
    | succ n =>
      obtain ⟨r, h1, h2⟩ := ih n
      refine ⟨r.map fun r => (t :: r.1, r.2), ?_, ?_⟩
      · rw [drain, e]
        change (drain S n it1 >>= fun r => Except.ok (r.map fun r => (t :: r.1, r.2))) = _
        rw [h1]; rfl
      · intro x hx
        cases r with
        | none => cases hx
        | some r => cases hx; rw [h2 r rfl]

theorem collects_drained {it it' : TokenIter H} {ts : List (Token H.Scopes)} (h : Collects S it ts it') :
    ∀ n, ts.length < n → drain S n it = .ok (some (ts, it')) := by
  induction h with
  | stop e =>
    intro n hn
    cases n with
    | zero => cases hn
    | succ n => rw [drain, e]; rfl
  | @next it it1 it' t ts e _ ih =>
    intro n hn
    cases n with
    | zero => cases hn
    | succ n =>
      rw [drain, e]
      change (drain S n it1 >>= fun r => Except.ok (r.map fun r => (t :: r.1, r.2))) = _
      rw [ih n (Nat.lt_of_succ_lt_succ hn)]; rfl

theorem s_C36 (hO : OffsetsOk H) (canFail : Bool) (hF : CanFail H → canFail = true) (data : Text) :
    o_C36_tokens_are_lossless S H canFail data = true := by
  simp only [o_C36_tokens_are_lossless, okAnd_iff]
  rcases C36_tokens_are_lossless S H data hO with ⟨e, h1, h2⟩ | ⟨it, ts, it', h1, h2, h3, h4⟩
  · exact ⟨_, h1, hF h2⟩
  · refine ⟨_, h1, ?_⟩
    have hl := C70_token_count S H data hO it it' ts h1 h2
    simp only [okAnd_iff, someAnd_iff, Bool.and_eq_true]
    refine ⟨_, collects_drained h2 _ (Nat.lt_succ_of_le hl), _, rfl, List.all_eq_true.mpr fun t ht => ?_, ?_⟩
    · cases t with
      | newline => rfl
      | lexeme v k p => exact decide_eq_true (h3 v k p ht)
    · rcases h4 with ⟨a, b⟩ | ⟨a, b, c⟩
      · simp [a, b]
      · rw [if_neg (by intro k; rw [Option.isNone_iff_eq_none.mp k] at a; cases a), Bool.and_eq_true]
        exact ⟨hF b, List.isPrefixOf_iff_prefix.mpr c⟩

theorem tokenized_intro {data : Text} {n : Nat} {P : List (Token H.Scopes) → TokenIter H → Bool}
    (h : ∀ it ts it', TokenIter.new H data = .ok (.ok it) → Collects S it ts it' → P ts it' = true) : tokenized S H data n P = true := by
  simp only [tokenized, okImp_iff]
  intro r hr
  cases r with
  | error e => rfl
  | ok it =>
    simp only [okImp_iff, someImp_iff]
    rintro r h1 ⟨ts, it'⟩ rfl
    exact h it ts it' hr (drain_collects n it ts it' h1)

theorem split_at {α : Type} {ts : List α} {i : Nat} {x : α} (h : ts[i]? = some x) : ts = ts.take i ++ x :: ts.drop (i + 1) := by
  obtain ⟨hi, rfl⟩ := List.getElem?_eq_some_iff.mp h
  simp

theorem s_C37 (hO : OffsetsOk H) (data : Text) (n i : Nat) : o_C37_token_positions S H data n i = true := by
  refine tokenized_intro fun it ts it' hn hc => ?_
  split
  · rename_i v k p h
    exact decide_eq_true (C37_token_positions S H data hO it it' ts hn hc _ _ v k p (split_at h))
  · rfl

theorem s_C70_empty (hO : OffsetsOk H) (data : Text) (n i : Nat) : o_C70_empty_lexemes S H data n i = true := by
  refine tokenized_intro fun it ts it' hn hc => ?_
  split
  · rename_i k p h
    rcases C70_empty_lexemes S H data hO it it' ts hn hc _ _ k p (split_at h) with ⟨y, hy⟩ | ⟨hy, he⟩
    · rw [hy]
    · rw [hy]; exact he
  · rfl

theorem s_C70_fused (hO : OffsetsOk H) (data : Text) (n : Nat) : o_C70_fused S H data n = true := by
  refine tokenized_intro fun it ts it' hn hc => ?_
  rw [Bool.or_eq_true]
  cases he : it'.error with
  | some e => exact Or.inl rfl
  | none =>
    right
    have := C70_fused S H data hO it it' ts hn hc he
    simp [this, he]

theorem s_C70_panics (hO : OffsetsOk H) (data : Text) (n : Nat) : o_C70_never_panics S H data n = true := by
  simp only [o_C70_never_panics, okImp_iff]
  intro r hr
  cases r with
  | error e => rfl
  | ok it =>
    obtain ⟨r, h⟩ := C70_never_panics S H data hO it hr n
    simp only [okAnd_iff]
    exact ⟨r, h, trivial⟩

theorem s_C71 [DecidableEq H.Scopes] (hO : OffsetsOk H) (data : Text) (n i : Nat) : o_C71_scope_of_every_byte S H data n i = true := by
  refine tokenized_intro fun it ts it' hn hc => ?_
  split
  · rename_i v k p h
    refine List.all_eq_true.mpr fun j hj => decide_eq_true ?_
    exact C71_scope_of_every_byte S H data hO it it' ts hn hc _ _ v k p (split_at h) j (List.mem_range.mp hj)
  · rfl

theorem s_C37_in_buffer (hO : OffsetsOk H) (data : Text) (n i : Nat) : o_C37_positions_in_buffer S H data n i = true := by
  refine tokenized_intro fun it ts it' hn hc => ?_
  simp only [imp_iff]
  intro hcr hb
  split
  · rename_i v k p h
    simp only [someAnd_iff, Bool.and_eq_true, decide_eq_true_eq, List.isPrefixOf_iff_prefix]
    obtain ⟨post, hp⟩ := C37_positions_in_buffer S H data hO it it' ts hn hc hcr (fun x y v k p e => by
      have := List.all_eq_true.mp hb x.length (by rw [e]; simp)
      rw [e] at this
      simp only [List.getElem?_append_right (Nat.le_refl _), Nat.sub_self, List.getElem?_cons_zero, List.take_left', boundary, List.any_eq_true,
        decide_eq_true_eq] at this
      obtain ⟨m, _, hm⟩ := this
      exact ⟨_, _, (List.take_append_drop m _).symm, hm⟩) _ _ v k p (split_at h)
    exact ⟨_, place?_some.mpr hp, rfl, List.prefix_append _ _⟩
  · rfl

theorem s_C48 [DecidableEq H.Scopes] (hO : OffsetsOk H) (data : Text) (n i : Nat) : o_C48_token_scopes S H data n i = true := by
  refine tokenized_intro fun it ts it' hn hc => ?_
  split
  · rename_i v k p h
    exact decide_eq_true (C48_token_scopes S H data hO it it' ts hn hc _ _ v k p (split_at h))
  · rfl
end

end Scribe.Oracle
