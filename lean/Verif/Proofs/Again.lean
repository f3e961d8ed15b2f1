import Verif.Proofs.Stream
import Verif.Proofs.Parser
import Verif.Spec.Again
/-! # Highlighting only what changed -/
namespace Scribe
open Spec
variable {H : Highlighter}

theorem lineStream_lower (segs : Text → List Text) (n d : Nat) (es : List (Nat × H.Op)) : ∀ (o col : Nat) (k : H.Scopes) (rest : Text),
    lineStream segs (n + d) o col k rest es = ((lineStream segs n o col k rest es).1.map (lower d), (lineStream segs n o col k rest es).2) := by
  induction es with
  | nil =>
    intro o col k rest
    simp only [lineStream]
    split <;> rfl
  | cons e es ih =>
    intro o col k rest
    obtain ⟨off, op⟩ := e
    simp only [lineStream]
    cases H.apply k op with
    | mk k' er =>
      cases er with
      | some er => rfl
      | none =>
        dsimp only
        split
        · exact ih _ _ _ _
        · rw [ih]; rfl

theorem streamFrom_lower (segs : Text → List Text) (d : Nat) (ls : List Text) : ∀ (n : Nat) (k : H.Scopes) (p : H.Parser),
    streamFrom segs (n + d) k p ls = ((streamFrom segs n k p ls).1.map (lower d), (streamFrom segs n k p ls).2) := by
  induction ls with
  | nil => intro n k p; rfl
  | cons l ls ih =>
    intro n k p
    simp only [streamFrom]
    cases H.parse p l with
    | mk p' res =>
      cases res with
      | error e => rfl
      | ok es =>
        dsimp only
        rw [lineStream_lower]
        generalize lineStream segs n 0 0 k (l.filter (· != '\n')) es = r
        obtain ⟨ts, r⟩ := r
        cases r with
        | error e => rfl
        | ok k' =>
          dsimp only
          rw [show n + d + 1 = n + 1 + d by omega, ih]
          simp [lower]

theorem streamFrom_append (segs : Text → List Text) (ms ls : List Text) : ∀ (n : Nat) (k : H.Scopes) (p : H.Parser) (k' : H.Scopes) (p' : H.Parser),
    stateAfter H k p ls = some (k', p') →
    streamFrom segs n k p (ls ++ ms) =
      ((streamFrom segs n k p ls).1 ++ (streamFrom segs (n + ls.length) k' p' ms).1, (streamFrom segs (n + ls.length) k' p' ms).2) := by
  induction ls with
  | nil => intro n k p k' p' h; cases h; rfl
  | cons l ls ih =>
    intro n k p k' p' h
    rw [List.cons_append]
    simp only [streamFrom, stateAfter] at h ⊢
    cases hp : H.parse p l with
    | mk p1 res =>
      rw [hp] at h
      cases res with
      | error e => cases h
      | ok es =>
        dsimp only at h ⊢
        have := TokenIter.lineStream_error segs n es 0 0 k (l.filter (· != '\n'))
        generalize lineStream segs n 0 0 k (l.filter (· != '\n')) es = r at this ⊢
        obtain ⟨ts, r⟩ := r
        dsimp only at this
        rw [← this] at h
        cases r with
        | error e => cases h
        | ok k1 =>
          dsimp only at h ⊢
          rw [ih (n + 1) k1 p1 k' p' h, List.length_cons, show n + 1 + ls.length = n + (ls.length + 1) by omega]
          simp

theorem stateAfter_append (ms ls : List Text) : ∀ (k : H.Scopes) (p : H.Parser),
    stateAfter H k p (ls ++ ms) = (stateAfter H k p ls).bind fun s => stateAfter H s.1 s.2 ms := by
  induction ls with
  | nil => intro k p; rfl
  | cons l ls ih =>
    intro k p
    rw [List.cons_append]
    simp only [stateAfter]
    cases H.parse p l with
    | mk p1 res =>
      cases res with
      | error e => rfl
      | ok es =>
        dsimp only
        cases firstError.applyAll H k es with
        | error e => rfl
        | ok k1 => exact ih _ _

theorem splitBytes_join (n : Nat) (t : Text) : (splitBytes n t).1 ++ (splitBytes n t).2 = t := by
  induction t generalizing n with
  | nil => rfl
  | cons c t ih =>
    simp only [splitBytes]
    split
    · simp [ih]
    · rfl

theorem render_append {K : Type} (a b : List (Token K)) : render (a ++ b) = render a ++ render b := by
  induction a with
  | nil => rfl
  | cons t a ih => cases t <;> simp [render, ih]

theorem lineStream_render (segs : Text → List Text) (n : Nat) (es : List (Nat × H.Op)) : ∀ (o col : Nat) (k : H.Scopes) (rest : Text) (k' : H.Scopes),
    (lineStream segs n o col k rest es).2 = .ok k' → render (lineStream segs n o col k rest es).1 = rest := by
  induction es with
  | nil =>
    intro o col k rest k' _
    simp only [lineStream]
    split
    · next h => rw [h]; rfl
    · simp [render]
  | cons e es ih =>
    intro o col k rest k'
    obtain ⟨off, op⟩ := e
    simp only [lineStream]
    cases H.apply k op with
    | mk k1 er =>
      cases er with
      | some er => intro h; cases h
      | none =>
        dsimp only
        split
        · exact ih _ _ _ _ _
        · intro h
          simp only [render]
          rw [ih _ _ _ _ _ h, splitBytes_join]

theorem lineStream_above (segs : Text → List Text) (n : Nat) (es : List (Nat × H.Op)) : ∀ (o col : Nat) (k : H.Scopes) (rest : Text),
    ∀ t ∈ (lineStream segs n o col k rest es).1, Above (n + 1) t := by
  induction es with
  | nil =>
    intro o col k rest t ht
    simp only [lineStream] at ht
    split at ht
    · cases ht
    · rw [List.mem_singleton] at ht; subst ht; exact Nat.lt_succ_self n
  | cons e es ih =>
    intro o col k rest t
    obtain ⟨off, op⟩ := e
    simp only [lineStream]
    cases H.apply k op with
    | mk k1 er =>
      cases er with
      | some er => intro h; cases h
      | none =>
        dsimp only
        split
        · exact ih _ _ _ _ _
        · intro h
          rcases List.mem_cons.mp h with rfl | h
          · exact Nat.lt_succ_self n
          · exact ih _ _ _ _ _ h

theorem streamFrom_facts (segs : Text → List Text) (ls : List Text) : ∀ (n : Nat) (k : H.Scopes) (p : H.Parser) (s : H.Scopes × H.Parser),
    stateAfter H k p ls = some s →
    render (streamFrom segs n k p ls).1 = TokenIter.rejoin ls ∧ ∀ t ∈ (streamFrom segs n k p ls).1, Above (n + ls.length) t := by
  induction ls with
  | nil => intro n k p s h; exact ⟨rfl, fun t h => by cases h⟩
  | cons l ls ih =>
    intro n k p s h
    simp only [streamFrom, stateAfter] at h ⊢
    cases hp : H.parse p l with
    | mk p1 res =>
      rw [hp] at h
      cases res with
      | error e => cases h
      | ok es =>
        dsimp only at h ⊢
        have h1 := TokenIter.lineStream_error segs n es 0 0 k (l.filter (· != '\n'))
        have h2 := lineStream_render segs n es 0 0 k (l.filter (· != '\n'))
        have h3 := lineStream_above segs n es 0 0 k (l.filter (· != '\n'))
        generalize lineStream segs n 0 0 k (l.filter (· != '\n')) es = r at h1 h2 h3 ⊢
        obtain ⟨ts, r⟩ := r
        dsimp only at h1 h2 h3
        rw [← h1] at h
        cases r with
        | error e => cases h
        | ok k1 =>
          dsimp only at h ⊢
          obtain ⟨i1, i2⟩ := ih (n + 1) k1 p1 s h
          refine ⟨?_, fun t ht => ?_⟩
          · rw [List.cons_append]
            simp only [render, TokenIter.rejoin]
            rw [render_append, i1, h2 _ rfl]; rfl
          · rw [List.cons_append, List.mem_cons, List.mem_append] at ht
            have mono : ∀ {t : Token H.Scopes} {a b}, a ≤ b → Above a t → Above b t := by
              intro t a b hab ha
              cases t with
              | newline => trivial
              | lexeme v k p => exact Nat.lt_of_lt_of_le ha hab
            rcases ht with rfl | ht | ht
            · trivial
            · exact mono (by rw [List.length_cons]; omega) (h3 t ht)
            · exact mono (by rw [List.length_cons]; omega) (i2 t ht)

theorem fileLines_ne_nil (t : Text) : fileLines t ≠ [] := by
  intro h
  have := TokenIter.fileLines_length t
  rw [h] at this
  simp at this

theorem fileLines_newline (y c : Text) : fileLines (y ++ '\n' :: c) = (fileLines (y ++ ['\n'])).dropLast ++ fileLines c := by
  induction y with
  | nil => simp [fileLines]
  | cons a y ih =>
    simp only [List.cons_append, fileLines]
    have hne : fileLines (y ++ ['\n']) ≠ [] := fileLines_ne_nil _
    have h2 : 2 ≤ (fileLines (y ++ ['\n'])).length := by
      rw [TokenIter.fileLines_length]; simp
    split
    · rw [ih, List.dropLast_cons_of_ne_nil hne]; rfl
    · rw [ih]
      match hf : fileLines (y ++ ['\n']), h2 with
      | l :: m :: ls, _ => simp [List.dropLast]

end Scribe
