import Verif.Model.Uax29
import Verif.Proofs.EndPos
/-! The UAX #29 automaton satisfies the `Segmenter` laws, for every character table. -/
namespace Scribe.Uax29
open Spec

variable (T : Table)

theorem go_flatten (st cur cs) : (go T.cls st cur cs).flatten = cur ++ cs := by
  induction cs generalizing st cur with
  | nil => simp [go]
  | cons c cs ih =>
    unfold go
    split
    · rw [ih]; simp
    · rw [List.flatten_cons, ih]; simp

theorem segs_join (s : Text) : (segs T.cls s).flatten = s := by
  cases s with
  | nil => rfl
  | cons c cs => rw [segs, go_flatten]; rfl

theorem go_ne_nil (st cur cs) : go T.cls st cur cs ≠ [] := by
  induction cs generalizing st cur with
  | nil => simp [go]
  | cons c cs ih =>
    unfold go
    split
    · exact ih _ _
    · simp

/-- cutting a run after at least one cluster -/
theorem go_cut (st cur cs a b) (h : go T.cls st cur cs = a ++ b) (ha : a ≠ []) :
    ∃ x y, cs = x ++ y ∧ go T.cls st cur x = a ∧ segs T.cls y = b := by
  induction cs generalizing st cur a with
  | nil =>
    simp only [go] at h
    rcases a with _ | ⟨a0, a⟩
    · exact absurd rfl ha
    · have : a = [] ∧ b = [] := by simpa using (List.cons.inj h).2.symm
      obtain ⟨rfl, rfl⟩ := this
      exact ⟨[], [], rfl, by simpa [go] using h, rfl⟩
  | cons c cs ih =>
    unfold go at h
    split at h
    next st' hst =>
      obtain ⟨x, y, rfl, hx, hy⟩ := ih _ _ _ h ha
      exact ⟨c :: x, y, rfl, by rw [go, hst]; exact hx, hy⟩
    next hst =>
      rcases a with _ | ⟨a0, a⟩
      · exact absurd rfl ha
      · obtain ⟨rfl, h2⟩ := List.cons.inj h
        by_cases ha' : a = []
        · subst ha'
          exact ⟨[], c :: cs, rfl, rfl, h2⟩
        · obtain ⟨x, y, rfl, hx, hy⟩ := ih _ _ _ h2 ha'
          exact ⟨c :: x, y, rfl, by rw [go, hst, hx], hy⟩

theorem segs_cut (s a b) (h : segs T.cls s = a ++ b) :
    segs T.cls a.flatten = a ∧ segs T.cls b.flatten = b := by
  by_cases ha : a = []
  · subst ha
    refine ⟨rfl, ?_⟩
    have : b.flatten = s := by rw [List.nil_append] at h; rw [← h, segs_join]
    rw [this]; exact h
  · cases s with
    | nil => simp [segs] at h; exact absurd h.1 ha
    | cons c cs =>
      obtain ⟨x, y, rfl, hx, hy⟩ := go_cut T _ _ _ _ _ h ha
      have h1 : a.flatten = c :: x := by rw [← hx, go_flatten]; rfl
      have h2 : b.flatten = y := by rw [← hy, segs_join]
      rw [h1, h2]; exact ⟨hx, hy⟩

/-- Consistency of a state with the current cluster. -/
structure Good (st : St) (cur : Text) : Prop where
  ne : cur ≠ []
  nl : '\n' ∈ cur → (cur = ['\n'] ∨ cur = ['\r', '\n']) ∧ st = .ctl
  crs : st = .cr → cur = ['\r']
  last : cur.getLast? = some '\r' → st = .cr

theorem good_start (c : Char) : Good (start (T.cls c)) [c] where
  ne := by simp
  nl := by
    intro h
    have : c = '\n' := (List.mem_singleton.mp h).symm
    subst this
    rw [(T.lf '\n').mpr rfl]; simp [start]
  crs := by
    intro h
    have : T.cls c = .cr := by
      revert h; cases T.cls c <;> simp [start]
    rw [(T.cr c).mp this]
  last := by
    intro h
    have : c = '\r' := by simpa using h
    subst this
    rw [(T.cr '\r').mpr rfl]; rfl

theorem cont_ctl (c) : cont .ctl c = none := by cases c <;> rfl
theorem cont_lf {s s'} (h : cont s .lf = some s') : s = .cr ∧ s' = .ctl := by
  cases s <;> simp [cont] at h
  simp [h]
theorem cont_cr (s) : cont s .cr = none := by cases s <;> rfl
theorem cont_to_cr {s c} (h : cont s c = some .cr) : False := by
  cases s <;> cases c <;> simp [cont, start] at h

theorem good_cont {st cur c st'} (hg : Good st cur) (h : cont st (T.cls c) = some st') : Good st' (cur ++ [c]) where
  ne := by simp
  nl := by
    intro hm
    rw [List.mem_append] at hm
    rcases hm with hm | hm
    · rw [(hg.nl hm).2, cont_ctl] at h; exact absurd h (by simp)
    · have : c = '\n' := (List.mem_singleton.mp hm).symm
      subst this
      rw [(T.lf '\n').mpr rfl] at h
      obtain ⟨h1, h2⟩ := cont_lf h
      rw [hg.crs h1]; exact ⟨Or.inr rfl, h2⟩
  crs := by intro h'; subst h'; exact (cont_to_cr h).elim
  last := by
    intro h'
    have : c = '\r' := by simpa using h'
    subst this
    rw [(T.cr '\r').mpr rfl, cont_cr] at h
    exact absurd h (by simp)

theorem go_good (st cur cs) (hg : Good st cur) : ∀ x ∈ go T.cls st cur cs, ∃ st', Good st' x := by
  induction cs generalizing st cur with
  | nil => intro x hx; simp [go] at hx; subst hx; exact ⟨st, hg⟩
  | cons c cs ih =>
    intro x hx
    unfold go at hx
    split at hx
    next st' hst => exact ih _ _ (good_cont T hg hst) x hx
    next hst =>
      rcases List.mem_cons.mp hx with rfl | hx
      · exact ⟨st, hg⟩
      · exact ih _ _ (good_start T c) x hx

theorem segs_good (s : Text) : ∀ x ∈ segs T.cls s, ∃ st', Good st' x := by
  cases s with
  | nil => intro x hx; cases hx
  | cons c cs => exact go_good T _ _ _ (good_start T c)

theorem go_crlf (st cur cs a b x) (hg : Good st cur) (h : go T.cls st cur cs = a ++ ['\n'] :: b)
    (hx : a.getLast? = some x) : x.getLast? ≠ some '\r' := by
  induction cs generalizing st cur a with
  | nil =>
    rcases a with _ | ⟨a0, a⟩
    · simp at hx
    · simp [go] at h
  | cons c cs ih =>
    unfold go at h
    split at h
    next st' hst => exact ih _ _ _ (good_cont T hg hst) h hx
    next hst =>
      rcases a with _ | ⟨a0, a⟩
      · simp at hx
      · obtain ⟨rfl, h2⟩ := List.cons.inj h
        by_cases ha : a = []
        · subst ha
          have hxc : x = cur := by simpa using hx.symm
          subst hxc
          intro hl
          have hs := hg.last hl
          subst hs
          have hf := congrArg List.flatten h2
          rw [go_flatten] at hf
          have hc : c = '\n' := by simpa using (List.cons.inj hf).1
          rw [(T.lf c).mpr hc] at hst
          simp [cont] at hst
        · refine ih _ _ _ (good_start T c) h2 ?_
          rwa [List.getLast?_cons_of_ne_nil ha] at hx

/-- End position while running the automaton: it only moves at boundaries. -/
def track (cls : Char → Cls) : St → Position → Text → Position
  | _, E, [] => E
  | st, E, c :: cs =>
    match cont st (cls c) with
    | some st' => track cls st' E cs
    | none => track cls (start (cls c)) (step E [c]) cs

theorem track_go (X : List Text) (st cur cs) (hg : Good st cur) :
    endPos (X ++ go T.cls st cur cs) = track T.cls st (endPos (X ++ [cur])) cs := by
  induction cs generalizing X st cur with
  | nil => rfl
  | cons c cs ih =>
    unfold go track
    cases hst : cont st (T.cls c) with
    | some st' =>
      simp only
      rw [ih _ _ _ (good_cont T hg hst), endPos_concat, endPos_concat]
      have h1 : cur ≠ ['\n'] := by
        intro hc
        rw [(hg.nl (by rw [hc]; simp)).2, cont_ctl] at hst; cases hst
      have h2 : cur ++ [c] ≠ ['\n'] := by
        intro hc
        have h3 := congrArg List.length hc
        have h4 := List.length_pos_iff.mpr hg.ne
        rw [List.length_append, List.length_singleton, List.length_singleton] at h3; omega
      simp [step, h1, h2]
    | none =>
      simp only
      have := ih (X ++ [cur]) _ _ (good_start T c)
      rw [List.append_assoc, List.singleton_append] at this
      rw [this, endPos_concat (X ++ [cur])]

/-- Pairs of states where the first has seen more context. -/
def D (s1 s2 : St) : Prop :=
  s1 = s2 ∨ (s2 = .any ∧ (s1 = .pict ∨ s1 = .pictZ ∨ s1 = .cons ∨ s1 = .consL)) ∨ (s1 = .ri2 ∧ s2 = .ri1)

instance (s1 s2) : Decidable (D s1 s2) := by unfold D; infer_instance

/-- The simulation relation between the run over the joined text and the run starting afresh. -/
def Sim (s1 : St) (E1 : Position) (s2 : St) (E2 : Position) : Prop :=
  (s1 = s2 ∧ AtOrBefore E1 E2) ∨ (D s1 s2 ∧ Before E1 E2) ∨ (s1 = .ri1 ∧ s2 = .ri2 ∧ AtOrBefore E1 E2)

/-- A control character always starts a cluster except LF after CR. -/
theorem D_cont_none {s1 s2 c} (h : D s1 s2) (h2 : cont s2 c = none) (hs : s1 ≠ s2) :
    (cont s1 c = none) ∨ (∃ s1', cont s1 c = some s1' ∧ D s1' (start c) ∧ c ≠ .lf) := by
  unfold D at h
  cases s1 <;> cases s2 <;> simp at h hs <;> cases c <;> simp [cont, start, D] at h2 ⊢

theorem D_cont_some {s1 s2 c s2'} (h : D s1 s2) (h2 : cont s2 c = some s2') (hs : s1 ≠ s2) :
    (∃ s1', cont s1 c = some s1' ∧ D s1' s2') ∨ (cont s1 c = none ∧ c ≠ .lf ∧ start c = .ri1 ∧ s2' = .ri2) := by
  unfold D at h
  cases s1 <;> cases s2 <;> simp at h hs <;> cases c <;> simp [cont, start] at h2 ⊢ <;> subst h2 <;> simp [D]

theorem step_le_of_before {E1 E2 : Position} (h : Before E1 E2) {c : Text} (hc : c ≠ ['\n']) :
    AtOrBefore (step E1 c) E2 := by
  unfold step Before AtOrBefore at *; rw [if_neg hc]; simp only; omega

theorem before_step_of_le {E1 E2 : Position} (h : AtOrBefore E1 E2) (c : Text) : Before E1 (step E2 c) :=
  h.trans_lt (before_step E2 c)

theorem step_lt_or (E1 E2 : Position) (h : Before E1 E2) (c : Text) : AtOrBefore (step E1 c) (step E2 c) :=
  step_mono h.le c

theorem ne_nl_of_cls {c : Char} (h : T.cls c ≠ .lf) : [c] ≠ ['\n'] := by
  intro h'; apply h; rw [T.lf]; simpa using h'

theorem track_sim (cs : Text) (s1 E1 s2 E2) (h : Sim s1 E1 s2 E2) :
    AtOrBefore (track T.cls s1 E1 cs) (track T.cls s2 E2 cs) := by
  induction cs generalizing s1 E1 s2 E2 with
  | nil =>
    rcases h with ⟨_, h⟩ | ⟨_, h⟩ | ⟨_, _, h⟩
    · exact h
    · exact h.le
    · exact h
  | cons c cs ih =>
    by_cases hs : s1 = s2
    · subst hs
      have hE : AtOrBefore E1 E2 := by
        rcases h with ⟨_, h⟩ | ⟨_, h⟩ | ⟨_, _, h⟩
        · exact h
        · exact h.le
        · exact h
      unfold track
      cases cont s1 (T.cls c) with
      | some s' => exact ih _ _ _ _ (Or.inl ⟨rfl, hE⟩)
      | none => exact ih _ _ _ _ (Or.inl ⟨rfl, step_mono hE _⟩)
    · rcases h with ⟨h, _⟩ | ⟨hD, hE⟩ | ⟨rfl, rfl, hE⟩
      · exact absurd h hs
      · unfold track
        cases h2 : cont s2 (T.cls c) with
        | some s2' =>
          rcases D_cont_some hD h2 hs with ⟨s1', h1, hD'⟩ | ⟨h1, hc, hst, rfl⟩
          · rw [h1]; exact ih _ _ _ _ (Or.inr (Or.inl ⟨hD', hE⟩))
          · rw [h1]
            exact ih _ _ _ _ (Or.inr (Or.inr ⟨hst, rfl, step_le_of_before hE (ne_nl_of_cls T hc)⟩))
        | none =>
          rcases D_cont_none hD h2 hs with h1 | ⟨s1', h1, hD', hc⟩
          · rw [h1]; exact ih _ _ _ _ (Or.inl ⟨rfl, step_mono hE.le _⟩)
          · rw [h1]; exact ih _ _ _ _ (Or.inr (Or.inl ⟨hD', before_step_of_le hE.le _⟩))
      · unfold track
        by_cases hr : T.cls c = .ri
        · rw [hr]
          exact ih _ _ _ _ (Or.inr (Or.inl ⟨Or.inr (Or.inr ⟨rfl, rfl⟩), before_step_of_le hE _⟩))
        · have : cont .ri1 (T.cls c) = cont .ri2 (T.cls c) := by
            revert hr; cases T.cls c <;> simp [cont]
          rw [this]
          cases cont .ri2 (T.cls c) with
          | some s' => exact ih _ _ _ _ (Or.inl ⟨rfl, hE⟩)
          | none => exact ih _ _ _ _ (Or.inl ⟨rfl, step_mono hE _⟩)

theorem go_append (st cur x y) (hg : Good st cur) : ∃ X st' cur', go T.cls st cur x = X ++ [cur'] ∧
    Good st' cur' ∧ go T.cls st cur (x ++ y) = X ++ go T.cls st' cur' y := by
  induction x generalizing st cur with
  | nil => exact ⟨[], st, cur, rfl, hg, rfl⟩
  | cons c x ih =>
    rw [List.cons_append, go, go]
    cases hst : cont st (T.cls c) with
    | some st' => simp only; exact ih _ _ (good_cont T hg hst)
    | none =>
      simp only
      obtain ⟨X, st', cur', h1, h2, h3⟩ := ih _ _ (good_start T c)
      exact ⟨cur :: X, st', cur', by rw [h1]; rfl, h2, by rw [h3]; rfl⟩

theorem D_first {s c s'} (h : cont s c = some s') : D s' (start c) := by
  cases s <;> cases c <;> simp [cont, start] at h <;> subst h <;> simp [D, start]

theorem segs_fuse (x y : Text) :
    AtOrBefore (endPos (segs T.cls (x ++ y))) (endPos (segs T.cls x ++ segs T.cls y)) := by
  cases x with
  | nil => exact .refl _
  | cons c x =>
    cases y with
    | nil => simp only [List.append_nil, segs]; exact .refl _
    | cons d y =>
      rw [List.cons_append, segs, segs, segs]
      obtain ⟨X, st, cur, h1, h2, h3⟩ := go_append T (start (T.cls c)) [c] x (d :: y) (good_start T c)
      rw [h3, h1, track_go T _ _ _ _ h2, track_go T _ _ _ _ (good_start T d), track]
      rw [endPos_concat (X ++ [cur])]
      cases hst : cont st (T.cls d) with
      | some s' =>
        exact track_sim T _ _ _ _ _ (Or.inr (Or.inl ⟨D_first hst, before_step _ _⟩))
      | none => exact track_sim T _ _ _ _ _ (Or.inl ⟨rfl, .refl _⟩)

/-- UAX #29 segmentation with any table is a `Segmenter`. -/
def segmenter : Segmenter where
  segs := segs T.cls
  join := segs_join T
  nonempty := fun s c h => (segs_good T s c h).elim fun _ hg => hg.ne
  cut := segs_cut T
  newline := fun s c h hn => (segs_good T s c h).elim fun _ hg => (hg.nl hn).1
  crlf := by
    intro s a b x h hx
    cases s with
    | nil => simp [segs] at h
    | cons c cs => exact go_crlf T _ _ _ _ _ _ (good_start T c) h hx
  fuse := segs_fuse T

end Scribe.Uax29
