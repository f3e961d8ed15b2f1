import Verif.Spec.Overlap
import Verif.Proofs.Utf8
/-! # Saves at the same time -/
namespace Scribe.Props
open Spec
variable {σ : Type}

theorem writeAt_getElem? (old new : Bytes) (off j : Nat) :
    (writeAt old off new)[j]? = if j < off then (if j < old.length then old[j]? else some 0) else if j < off + new.length then new[j - off]? else old[j]? := by
  unfold writeAt
  have e : min off old.length + (off - old.length) = off := by omega
  simp only [List.getElem?_append, List.length_append, List.length_take, List.length_replicate, List.getElem?_take, List.getElem?_replicate, List.getElem?_drop, e]
  by_cases h1 : j < off
  · simp only [if_pos h1, if_pos (show j < off + new.length by omega)]
    by_cases h2 : j < old.length
    · rw [if_pos (show j < min off old.length by omega), if_pos h2]
    · rw [if_neg (show ¬ j < min off old.length by omega), if_neg h2, if_pos (by omega)]
  · simp only [if_neg h1]
    by_cases h2 : j < off + new.length
    · rw [if_pos h2, if_pos h2]
    · rw [if_neg h2, if_neg h2]
      congr 1; omega

/-- The sheaf after save `who` has written the bytes from `count` to `upTo`. -/
def putSheaf (who count upTo : Nat) (x : Sheaf) : Sheaf := ⟨max x.size upTo, fun j => if count ≤ j ∧ j < upTo then some who else x.author j⟩

theorem bytes_getElem? (texts : Nat → Bytes) (x : Sheaf) (j : Nat) :
    (Scribes.bytes texts x)[j]? = if j < x.size then some (((x.author j).bind fun i => (texts i)[j]?).getD 0) else none := by
  unfold Scribes.bytes
  rw [List.getElem?_map]
  split
  · rename_i h; simp [h]
  · rename_i h; simp [h]

theorem put_getElem? (texts : Nat → Bytes) (x : Sheaf) (who c u j : Nat) :
    (Scribes.bytes texts (putSheaf who c u x))[j]? =
      if j < max x.size u then some (((if c ≤ j ∧ j < u then some who else x.author j).bind fun i => (texts i)[j]?).getD 0) else none :=
  bytes_getElem? texts _ j

/-- Beyond the end nobody has written. -/
def Sheaf.Fits (x : Sheaf) : Prop := ∀ j, x.size ≤ j → x.author j = none

theorem writeAt_bytes (texts : Nat → Bytes) (x : Sheaf) (hx : Sheaf.Fits x) (who c k : Nat) (hc : c < (texts who).length) :
    writeAt (Scribes.bytes texts x) c (((texts who).drop c).take (k + 1)) = Scribes.bytes texts (putSheaf who c (min (c + (k + 1)) (texts who).length) x) := by
  have hl : (Scribes.bytes texts x).length = x.size := by simp [Scribes.bytes]
  apply List.ext_getElem?
  intro j
  rw [writeAt_getElem?, put_getElem?, bytes_getElem?, hl]
  simp only [List.length_take, List.length_drop, List.getElem?_take, List.getElem?_drop]
  by_cases h1 : j < c
  · rw [if_pos h1, if_pos (show j < max x.size (min (c + (k + 1)) (texts who).length) by omega), if_neg (show ¬ (c ≤ j ∧ j < _) by omega)]
    split
    · rfl
    · rename_i h2
      rw [hx j (by omega)]; rfl
  · rw [if_neg h1]
    by_cases h2 : j < c + min (k + 1) ((texts who).length - c)
    · rw [if_pos h2, if_pos (show j - c < k + 1 by omega), if_pos (show j < max x.size (min (c + (k + 1)) (texts who).length) by omega),
        if_pos (show c ≤ j ∧ j < min (c + (k + 1)) (texts who).length by omega)]
      have : c + (j - c) = j := by omega
      rw [this]
      have hj : j < (texts who).length := by omega
      simp [hj]
    · rw [if_neg h2, if_neg (show ¬ (c ≤ j ∧ j < min (c + (k + 1)) (texts who).length) by omega)]
      by_cases h3 : j < x.size
      · rw [if_pos h3, if_pos (show j < max x.size _ by omega)]
      · rw [if_neg h3, if_neg (show ¬ j < max x.size (min (c + (k + 1)) (texts who).length) by omega)]

theorem fits_put {who c u : Nat} {x : Sheaf} (hx : Sheaf.Fits x) : Sheaf.Fits (putSheaf who c u x) := by
  intro j hj
  simp only [putSheaf] at hj ⊢
  rw [if_neg (by omega)]
  exact hx j (by omega)

/-- A save and its description. -/
def StageIs (texts : Nat → Bytes) (who : Nat) (sheaf : Nat → Option Sheaf) : Stage → Progress → Prop
  | .before, .before => True
  | .writing n c left, .writing n' c' => n = n' ∧ c = c' ∧ left = (texts who).drop c ∧ c < (texts who).length ∧ (sheaf n).isSome = true
  | .ended e, .ended e' => e = e'
  | _, _ => False

/-- The saves and their description. -/
structure Overlaps (bufs : Nat → FileBuf σ) (texts : Nat → Bytes) (disk0 : Disk) (s : Savers σ) (p : Scribes) : Prop where
  disk : ∀ n, s.disk n = match p.sheaf n with | none => disk0 n | some x => some (Scribes.bytes texts x)
  fits : ∀ n x, p.sheaf n = some x → Sheaf.Fits x
  stage : ∀ i, StageIs texts i p.sheaf (s.stage i) (p.progress i)
  bufs : ∀ i, s.bufs i = if p.progress i = .ended .ok then { bufs i with buf := (bufs i).buf.setMark } else bufs i

section
variable {bufs : Nat → FileBuf σ} {texts : Nat → Bytes} {disk0 : Disk} {s : Savers σ} {p : Scribes}

theorem StageIs.mono {who : Nat} {f f' : Nat → Option Sheaf} (h : ∀ n, (f n).isSome = true → (f' n).isSome = true) {x : Stage} {y : Progress}
    (hx : StageIs texts who f x y) : StageIs texts who f' x y := by
  cases x <;> cases y <;> simp only [StageIs] at hx ⊢
  · exact ⟨hx.1, hx.2.1, hx.2.2.1, hx.2.2.2.1, h _ hx.2.2.2.2⟩
  · exact hx

theorem set_self {who : Nat} {y : Progress} : (p.set who y).progress who = y := if_pos rfl

theorem set_other {who i : Nat} (hi : ¬ i = who) {y : Progress} : (p.set who y).progress i = p.progress i := if_neg hi

theorem Overlaps.setStage (h : Overlaps bufs texts disk0 s p) {who : Nat} {x : Stage} {y : Progress} (hx : StageIs texts who p.sheaf x y) (hy : y ≠ .ended .ok)
    (hw : p.progress who ≠ .ended .ok) : Overlaps bufs texts disk0 (s.setStage who x) (p.set who y) := by
  refine ⟨h.disk, h.fits, fun i => ?_, fun i => ?_⟩
  · simp only [Savers.setStage, Scribes.set]
    by_cases hi : i = who
    · subst hi; rw [if_pos rfl, if_pos rfl]; exact hx
    · rw [if_neg hi, if_neg hi]; exact h.stage i
  · by_cases hi : i = who
    · subst hi
      rw [set_self, if_neg hy]
      exact (h.bufs i).trans (if_neg hw)
    · rw [set_other hi]; exact h.bufs i

theorem Overlaps.proceed (h : Overlaps bufs texts disk0 s p) {who n c : Nat} (hc : c ≤ (texts who).length) (hn : (p.sheaf n).isSome = true)
    (hw : p.progress who ≠ .ended .ok) : Overlaps bufs texts disk0 (s.proceed who n c ((texts who).drop c)) (p.reach texts who n c) := by
  unfold Savers.proceed Scribes.reach
  by_cases he : c = (texts who).length
  · rw [if_pos (by simp [he]), if_pos he]
    refine ⟨h.disk, h.fits, fun i => ?_, fun i => ?_⟩
    · simp only [Savers.setStage, Scribes.set]
      by_cases hi : i = who
      · subst hi; rw [if_pos rfl, if_pos rfl]; rfl
      · rw [if_neg hi, if_neg hi]; exact h.stage i
    · by_cases hi : i = who
      · subst hi
        rw [set_self, if_pos rfl]
        dsimp only
        rw [if_pos rfl, h.bufs i, if_neg hw]
      · rw [set_other hi]
        exact (if_neg hi).trans (h.bufs i)
  · rw [if_neg (by simp; omega), if_neg he]
    exact h.setStage ⟨rfl, rfl, rfl, by omega, hn⟩ (by simp) hw

theorem Overlaps.step {named : Nat → Prop} [DecidablePred named] (h : Overlaps bufs texts disk0 s p)
    (ht : ∀ i, ∃ t, (bufs i).buf.data.toStr = .ok t ∧ texts i = enc t) (hn : ∀ i, named i ↔ (bufs i).path.getD [] ≠ []) (t : Tick) :
    ∃ s', s.step t = .ok s' ∧ Overlaps bufs texts disk0 s' (p.step texts named t) := by
  cases t with
  | create who file =>
    have hs := h.stage who
    unfold Savers.step Scribes.step
    dsimp only
    cases hst : s.stage who with
    | writing a b c =>
      cases hp : p.progress who <;> simp only [hst, hp, StageIs] at hs
      exact ⟨s, rfl, h⟩
    | ended e =>
      cases hp : p.progress who <;> simp only [hst, hp, StageIs] at hs
      exact ⟨s, rfl, h⟩
    | before =>
      cases hp : p.progress who <;> simp only [hst, hp, StageIs] at hs
      have hb : s.bufs who = bufs who := by rw [h.bufs who, hp, if_neg (by simp)]
      simp only [hb]
      cases hpath : (bufs who).path.getD [] with
      | nil =>
        have : ¬ named who := by rw [hn, hpath]; simp
        simp only [if_neg this]
        exact ⟨_, rfl, h.setStage (by exact rfl) (by simp) (by simp [hp])⟩
      | cons a l =>
        have : named who := by rw [hn, hpath]; simp
        simp only [if_pos this]
        cases file with
        | none => exact ⟨_, rfl, h.setStage (by exact rfl) (by simp) (by simp [hp])⟩
        | some n =>
          obtain ⟨t, ht1, ht2⟩ := ht who
          simp only [ht1]
          refine ⟨_, rfl, ?_⟩
          have h' : Overlaps bufs texts disk0 { s with disk := fun f => if f = n then some [] else s.disk f }
              { p with sheaf := fun f => if f = n then some ⟨0, fun _ => none⟩ else p.sheaf f } := by
            refine ⟨fun m => ?_, fun m x hm => ?_, fun i => (h.stage i).mono ?_, h.bufs⟩
            · dsimp only
              by_cases hm : m = n
              · rw [if_pos hm, if_pos hm]; rfl
              · rw [if_neg hm, if_neg hm]; exact h.disk m
            · dsimp only at hm
              split at hm
              · cases hm; intro j _; rfl
              · exact h.fits m x hm
            · intro m hm
              dsimp only
              split
              · rfl
              · exact hm
          have := h'.proceed (who := who) (n := n) (c := 0) (by omega) (by simp) (by simp [hp])
          rw [List.drop_zero, ht2] at this
          exact this
  | write who r =>
    have hs := h.stage who
    unfold Savers.step Scribes.step
    dsimp only
    cases hst : s.stage who with
    | before =>
      cases hp : p.progress who <;> simp only [hst, hp, StageIs] at hs
      exact ⟨s, rfl, h⟩
    | ended e =>
      cases hp : p.progress who <;> simp only [hst, hp, StageIs] at hs
      exact ⟨s, rfl, h⟩
    | writing n c left =>
      cases hp : p.progress who <;> simp only [hst, hp, StageIs] at hs
      obtain ⟨rfl, rfl, rfl, hc, hsome⟩ := hs
      cases r with
      | failed => exact ⟨_, rfl, h.setStage (by exact rfl) (by simp) (by simp [hp])⟩
      | interrupted => exact ⟨s, rfl, h⟩
      | wrote k =>
        cases k with
        | zero => exact ⟨_, rfl, h.setStage (by exact rfl) (by simp) (by simp [hp])⟩
        | succ k =>
          refine ⟨_, rfl, ?_⟩
          obtain ⟨x, hx⟩ := Option.isSome_iff_exists.mp hsome
          have h' : Overlaps bufs texts disk0
              { s with disk := fun f => if f = n then some (writeAt ((s.disk n).getD []) c (((texts who).drop c).take (k + 1))) else s.disk f }
              { p with sheaf := fun f => if f = n then (p.sheaf n).map (putSheaf who c (min (c + (k + 1)) (texts who).length)) else p.sheaf f } := by
            refine ⟨fun m => ?_, fun m y hm => ?_, fun i => (h.stage i).mono ?_, h.bufs⟩
            · dsimp only
              by_cases hm : m = n
              · rw [if_pos hm, if_pos hm, hx, h.disk n, hx]
                simp only [Option.map_some, Option.getD_some]
                rw [writeAt_bytes texts x (h.fits n x hx) who c k hc]
              · rw [if_neg hm, if_neg hm]; exact h.disk m
            · dsimp only at hm
              split at hm
              · rw [hx] at hm; cases hm; exact fits_put (h.fits n x hx)
              · exact h.fits m y hm
            · intro m hm
              dsimp only
              split
              · rw [hx]; rfl
              · exact hm
          have := h'.proceed (who := who) (n := n) (c := min (c + (k + 1)) (texts who).length) (by omega) (by simp [hx]) (by simp [hp])
          have e1 : c + (((texts who).drop c).take (k + 1)).length = min (c + (k + 1)) (texts who).length := by
            rw [List.length_take, List.length_drop]; omega
          have e2 : ((texts who).drop c).drop (k + 1) = (texts who).drop (min (c + (k + 1)) (texts who).length) := by
            rw [List.drop_drop]
            by_cases hle : c + (k + 1) ≤ (texts who).length
            · rw [Nat.min_eq_left hle]
            · rw [List.drop_eq_nil_of_le (by omega), List.drop_eq_nil_of_le (by omega)]
          rw [e1, e2]
          exact this

theorem Overlaps.steps {named : Nat → Prop} [DecidablePred named] (h : Overlaps bufs texts disk0 s p)
    (ht : ∀ i, ∃ t, (bufs i).buf.data.toStr = .ok t ∧ texts i = enc t) (hn : ∀ i, named i ↔ (bufs i).path.getD [] ≠ []) (ts : List Tick) :
    ∃ s', s.steps ts = .ok s' ∧ Overlaps bufs texts disk0 s' (p.steps texts named ts) := by
  induction ts generalizing s p with
  | nil => exact ⟨s, rfl, h⟩
  | cons t ts ih =>
    obtain ⟨s1, h1, h2⟩ := h.step ht hn t
    obtain ⟨s2, h3, h4⟩ := ih h2
    exact ⟨s2, by unfold Savers.steps; rw [h1]; exact h3, h4⟩

theorem overlaps_start (bufs : Nat → FileBuf σ) (texts : Nat → Bytes) (disk0 : Disk) :
    Overlaps bufs texts disk0 ⟨disk0, bufs, fun _ => .before⟩ Scribes.start :=
  ⟨fun _ => rfl, fun _ _ h => (by cases h), fun _ => trivial, fun _ => rfl⟩


/-- What is known of the files when only the saves `C n` open file `n`. -/
structure Tended (texts : Nat → Bytes) (C : Nat → Nat → Prop) (p : Scribes) : Prop where
  mine : ∀ i n c, p.progress i = .writing n c → C n i
  wrote : ∀ n x j i, p.sheaf n = some x → x.author j = some i → C n i ∧ j < (texts i).length
  size : ∀ n x j, p.sheaf n = some x → j < x.size → ∃ i, C n i ∧ j < (texts i).length
  last : ∀ n x, p.sheaf n = some x → ∃ i, C n i ∧ ((∃ c, p.progress i = .writing n c ∧ ∀ j < c, x.author j ≠ none) ∨
    (p.progress i = .ended .ok ∧ ∀ j < (texts i).length, x.author j ≠ none) ∨ p.progress i = .ended .err)

/-- Setting the progress of a save that is not past `before`, or that fails. -/
theorem Tended.fail {C : Nat → Nat → Prop} (h : Tended texts C p) {who : Nat} (hw : p.progress who ≠ .ended .ok) : Tended texts C (p.set who (.ended .err)) := by
  refine ⟨fun i n c hi => ?_, h.wrote, h.size, fun n x hx => ?_⟩
  · by_cases hiw : i = who
    · subst hiw; rw [set_self] at hi; cases hi
    · rw [set_other hiw] at hi; exact h.mine i n c hi
  · obtain ⟨i, h1, h2⟩ := h.last n x hx
    refine ⟨i, h1, ?_⟩
    by_cases hiw : i = who
    · subst hiw; rw [set_self]; exact Or.inr (Or.inr rfl)
    · rw [set_other hiw]; exact h2

theorem Tended.step {named : Nat → Prop} [DecidablePred named] {C : Nat → Nat → Prop} (h : Tended texts C p) (t : Tick)
    (hC : ∀ i n, t = .create i (some n) → C n i) : Tended texts C (p.step texts named t) := by
  cases t with
  | create who file =>
    unfold Scribes.step
    dsimp only
    cases hp : p.progress who with
    | writing a b => exact h
    | ended e => exact h
    | before =>
      dsimp only
      cases hf : (if named who then file else none) with
      | none => exact h.fail (by simp [hp])
      | some n =>
        have hfile : file = some n := by
          split at hf
          · exact hf
          · cases hf
        have hCn : C n who := hC who n (by rw [hfile])
        dsimp only
        unfold Scribes.reach
        refine ⟨fun i m c hi => ?_, fun m x j i hx hj => ?_, fun m x j hx hj => ?_, fun m x hx => ?_⟩
        · by_cases hiw : i = who
          · subst hiw; rw [set_self] at hi
            split at hi
            · cases hi
            · cases hi; exact hCn
          · rw [set_other hiw] at hi; exact h.mine i m c hi
        · change (if m = n then some ⟨0, fun _ => none⟩ else p.sheaf m) = some x at hx
          split at hx
          · cases hx; cases hj
          · exact h.wrote m x j i hx hj
        · change (if m = n then some ⟨0, fun _ => none⟩ else p.sheaf m) = some x at hx
          split at hx
          · cases hx; exact absurd hj (by simp)
          · exact h.size m x j hx hj
        · change (if m = n then some ⟨0, fun _ => none⟩ else p.sheaf m) = some x at hx
          split at hx
          · rename_i hm
            subst hm
            refine ⟨who, hCn, ?_⟩
            rw [set_self]
            split
            · rename_i h0
              exact Or.inr (Or.inl ⟨rfl, fun j hj => by omega⟩)
            · exact Or.inl ⟨0, rfl, fun j hj => by omega⟩
          · obtain ⟨i, h1, h2⟩ := h.last m x hx
            refine ⟨i, h1, ?_⟩
            by_cases hiw : i = who
            · subst hiw
              rw [hp] at h2
              rcases h2 with ⟨c, h2, _⟩ | ⟨h2, _⟩ | h2 <;> cases h2
            · rw [set_other hiw]; exact h2
  | write who r =>
    unfold Scribes.step
    dsimp only
    cases hp : p.progress who with
    | before => exact h
    | ended e => exact h
    | writing n c =>
      dsimp only
      cases r with
      | failed => exact h.fail (by simp [hp])
      | interrupted => exact h
      | wrote k =>
        cases k with
        | zero => exact h.fail (by simp [hp])
        | succ k =>
          have hCn : C n who := h.mine who n c hp
          dsimp only
          generalize hu : min (c + (k + 1)) (texts who).length = u
          unfold Scribes.reach
          have sheaf : ∀ {m x}, (if m = n then (p.sheaf n).map (putSheaf who c u) else p.sheaf m) = some x →
              ∃ y, p.sheaf m = some y ∧ ((m = n ∧ x = putSheaf who c u y) ∨ (m ≠ n ∧ x = y)) := by
            intro m x hx
            split at hx
            · rename_i hm
              obtain ⟨y, h1, h2⟩ := Option.map_eq_some_iff.mp hx
              exact ⟨y, by rw [hm]; exact h1, Or.inl ⟨hm, h2.symm⟩⟩
            · rename_i hm
              exact ⟨x, hx, Or.inr ⟨hm, rfl⟩⟩
          refine ⟨fun i m c' hi => ?_, fun m x j i hx hj => ?_, fun m x j hx hj => ?_, fun m x hx => ?_⟩
          · by_cases hiw : i = who
            · subst hiw; rw [set_self] at hi
              split at hi
              · cases hi
              · cases hi; exact hCn
            · rw [set_other hiw] at hi; exact h.mine i m c' hi
          · obtain ⟨y, h1, ⟨rfl, rfl⟩ | ⟨_, rfl⟩⟩ := sheaf hx
            · simp only [putSheaf] at hj
              split at hj
              · cases hj; exact ⟨hCn, by omega⟩
              · exact h.wrote m y j i h1 hj
            · exact h.wrote m x j i h1 hj
          · obtain ⟨y, h1, ⟨rfl, rfl⟩ | ⟨_, rfl⟩⟩ := sheaf hx
            · simp only [putSheaf] at hj
              by_cases hju : j < u
              · exact ⟨who, hCn, by omega⟩
              · exact h.size m y j h1 (by omega)
            · exact h.size m x j h1 hj
          · obtain ⟨y, h1, hy⟩ := sheaf hx
            obtain ⟨i, h2, h3⟩ := h.last m y h1
            refine ⟨i, h2, ?_⟩
            have keep : ∀ j, y.author j ≠ none → x.author j ≠ none := by
              intro j hj
              rcases hy with ⟨rfl, rfl⟩ | ⟨_, rfl⟩
              · simp only [putSheaf]
                split
                · simp
                · exact hj
              · exact hj
            by_cases hiw : i = who
            · subst hiw
              rw [hp] at h3
              rcases h3 with ⟨c', h3, h4⟩ | ⟨h3, _⟩ | h3
              · cases h3
                rcases hy with ⟨_, rfl⟩ | ⟨hm, _⟩
                · have all : ∀ j < u, (putSheaf i c u y).author j ≠ none := by
                    intro j hj
                    by_cases hjc : j < c
                    · exact keep j (h4 j hjc)
                    · simp only [putSheaf, if_pos (show c ≤ j ∧ j < u by omega)]; simp
                  rw [set_self]
                  split
                  · rename_i hul
                    exact Or.inr (Or.inl ⟨rfl, fun j hj => all j (by omega)⟩)
                  · exact Or.inl ⟨u, rfl, all⟩
                · exact absurd rfl hm
              · cases h3
              · cases h3
            · rw [set_other hiw]
              rcases h3 with ⟨c', h3, h4⟩ | ⟨h3, h4⟩ | h3
              · exact Or.inl ⟨c', h3, fun j hj => keep j (h4 j hj)⟩
              · exact Or.inr (Or.inl ⟨h3, fun j hj => keep j (h4 j hj)⟩)
              · exact Or.inr (Or.inr h3)

theorem Tended.steps {named : Nat → Prop} [DecidablePred named] {C : Nat → Nat → Prop} (h : Tended texts C p) (ts : List Tick)
    (hC : ∀ i n, Tick.create i (some n) ∈ ts → C n i) : Tended texts C (p.steps texts named ts) := by
  induction ts generalizing p with
  | nil => exact h
  | cons t ts ih => exact ih (h.step t fun i n e => hC i n (by simp [← e])) fun i n hm => hC i n (by simp [hm])

theorem tended_start (texts : Nat → Bytes) (C : Nat → Nat → Prop) : Tended texts C Scribes.start :=
  ⟨fun _ _ _ h => (by cases h), fun _ _ _ _ h => (by cases h), fun _ _ _ h => (by cases h), fun _ _ h => (by cases h)⟩

/-- Only save `i` works on file `n`. -/
structure Alone (texts : Nat → Bytes) (i n : Nat) (p : Scribes) : Prop where
  others : ∀ k c, k ≠ i → p.progress k ≠ .writing n c
  own : ∃ c x, c ≤ (texts i).length ∧ p.sheaf n = some x ∧ x.size = c ∧ (∀ j < c, x.author j = some i) ∧
    (p.progress i = .writing n c ∨ (p.progress i = .ended .ok ∧ c = (texts i).length) ∨ p.progress i = .ended .err)

theorem Alone.bytes {i n : Nat} (h : Alone texts i n p) : ∃ c x, c ≤ (texts i).length ∧ p.sheaf n = some x ∧ Scribes.bytes texts x = (texts i).take c ∧
    (p.progress i = .ended .ok → c = (texts i).length) := by
  obtain ⟨c, x, h1, h2, h3, h4, h5⟩ := h.own
  refine ⟨c, x, h1, h2, ?_, fun he => ?_⟩
  · apply List.ext_getElem?
    intro j
    rw [bytes_getElem?, List.getElem?_take, h3]
    split
    · rename_i hj
      rw [h4 j hj]
      have : j < (texts i).length := by omega
      simp [this]
    · rfl
  · rw [he] at h5
    rcases h5 with h5 | ⟨_, h5⟩ | h5
    · cases h5
    · exact h5
    · cases h5

/-- Nothing changes for the file if another save does something elsewhere. -/
theorem Alone.other {i n who : Nat} {y : Progress} {f : Nat → Option Sheaf} (h : Alone texts i n p) (hw : who ≠ i) (hy : ∀ c, y ≠ .writing n c)
    (hf : f n = p.sheaf n) : Alone texts i n (Scribes.set { p with sheaf := f } who y) := by
  refine ⟨fun k c hk => ?_, ?_⟩
  · by_cases hkw : k = who
    · subst hkw; rw [set_self]; exact hy c
    · rw [set_other hkw]; exact h.others k c hk
  · obtain ⟨c, x, h1, h2, h3⟩ := h.own
    exact ⟨c, x, h1, hf.trans h2, h3.1, h3.2.1, by rw [set_other (Ne.symm hw)]; exact h3.2.2⟩

theorem Alone.step {named : Nat → Prop} [DecidablePred named] {i n : Nat} (h : Alone texts i n p) (t : Tick)
    (hC : ∀ k, k ≠ i → t ≠ .create k (some n)) : Alone texts i n (p.step texts named t) := by
  cases t with
  | create who file =>
    unfold Scribes.step
    dsimp only
    cases hp : p.progress who with
    | writing a b => exact h
    | ended e => exact h
    | before =>
      have hwi : who ≠ i := by
        rintro rfl
        obtain ⟨c, x, _, _, _, _, h5⟩ := h.own
        rw [hp] at h5
        rcases h5 with h5 | ⟨h5, _⟩ | h5 <;> cases h5
      dsimp only
      cases hf : (if named who then file else none) with
      | none => exact h.other hwi (by simp) rfl
      | some m =>
        have hfile : file = some m := by
          split at hf
          · exact hf
          · cases hf
        have hmn : m ≠ n := by
          rintro rfl
          exact hC who hwi (by rw [hfile])
        dsimp only
        unfold Scribes.reach
        refine h.other hwi ?_ (if_neg (Ne.symm hmn))
        intro c
        split
        · simp
        · simp [hmn]
  | write who r =>
    unfold Scribes.step
    dsimp only
    cases hp : p.progress who with
    | before => exact h
    | ended e => exact h
    | writing m c =>
      dsimp only
      by_cases hwi : who = i
      · subst hwi
        obtain ⟨c', x, h1, h2, h3, h4, h5⟩ := h.own
        rw [hp] at h5
        have hmc : m = n ∧ c = c' := by
          rcases h5 with h5 | ⟨h5, _⟩ | h5
          · cases h5; exact ⟨rfl, rfl⟩
          · cases h5
          · cases h5
        obtain ⟨rfl, rfl⟩ := hmc
        have fail : Alone texts who m (p.set who (.ended .err)) :=
          ⟨fun k c hk => by rw [set_other hk]; exact h.others k c hk, c, x, h1, h2, h3, h4, Or.inr (Or.inr set_self)⟩
        cases r with
        | failed => exact fail
        | interrupted => exact h
        | wrote k =>
          cases k with
          | zero => exact fail
          | succ k =>
            dsimp only
            generalize hu : min (c + (k + 1)) (texts who).length = u
            unfold Scribes.reach
            refine ⟨fun k c hk => by rw [set_other hk]; exact h.others k c hk, u, putSheaf who c u x, by omega, ?_, ?_, fun j hj => ?_, ?_⟩
            · exact (if_pos rfl).trans (by rw [h2]; rfl)
            · simp only [putSheaf]; omega
            · simp only [putSheaf]
              split
              · rfl
              · exact h4 j (by omega)
            · rw [set_self]
              split
              · rename_i hul; exact Or.inr (Or.inl ⟨rfl, hul⟩)
              · exact Or.inl rfl
      · have hmn : m ≠ n := by
          rintro rfl
          exact h.others who c hwi hp
        cases r with
        | failed => exact h.other hwi (by simp) rfl
        | interrupted => exact h
        | wrote k =>
          cases k with
          | zero => exact h.other hwi (by simp) rfl
          | succ k =>
            dsimp only
            unfold Scribes.reach
            refine h.other hwi ?_ (if_neg (Ne.symm hmn))
            intro c
            split
            · simp
            · simp [hmn]

theorem Alone.steps {named : Nat → Prop} [DecidablePred named] {i n : Nat} (h : Alone texts i n p) (ts : List Tick)
    (hC : ∀ k, k ≠ i → Tick.create k (some n) ∉ ts) : Alone texts i n (p.steps texts named ts) := by
  induction ts generalizing p with
  | nil => exact h
  | cons t ts ih => exact ih (h.step t fun k hk e => hC k hk (by simp [e])) fun k hk hm => hC k hk (by simp [hm])

theorem scribes_append {named : Nat → Prop} [DecidablePred named] (p : Scribes) (ts us : List Tick) :
    p.steps texts named (ts ++ us) = (p.steps texts named ts).steps texts named us := by
  induction ts generalizing p with
  | nil => rfl
  | cons t ts ih => exact ih _

theorem scribes_create {named : Nat → Prop} [DecidablePred named] {i n : Nat} (hp : p.progress i = .before) (hi : named i) :
    p.step texts named (.create i (some n)) = Scribes.reach texts { p with sheaf := fun f => if f = n then some ⟨0, fun _ => none⟩ else p.sheaf f } i n 0 := by
  simp only [Scribes.step, hp, if_pos hi]

/-- A save that is not called does nothing. -/
theorem before_steps {named : Nat → Prop} [DecidablePred named] {i : Nat} (ts : List Tick) (hp : p.progress i = .before) (hC : ∀ f, Tick.create i f ∉ ts) :
    (p.steps texts named ts).progress i = .before := by
  induction ts generalizing p with
  | nil => exact hp
  | cons t ts ih =>
    refine ih ?_ fun f hm => hC f (by simp [hm])
    have keep : ∀ {q : Scribes} {who y}, who ≠ i → q.progress = p.progress → (q.set who y).progress i = .before := by
      intro q who y hw hq
      rw [set_other (Ne.symm hw), hq]; exact hp
    cases t with
    | create who file =>
      have hw : who ≠ i := by rintro rfl; exact hC file (by simp)
      unfold Scribes.step
      dsimp only
      split
      · split
        · exact keep hw rfl
        · exact keep hw rfl
      · exact hp
    | write who r =>
      unfold Scribes.step
      dsimp only
      by_cases hw : who = i
      · subst hw; rw [hp]; exact hp
      · split
        · split
          · exact hp
          · exact keep hw rfl
          · exact keep hw rfl
        · exact hp

end
end Scribe.Props
