import Verif.Spec.Grapheme
import Verif.Proofs.Uax29
/-! The automaton computes the rules of UAX #29. -/
namespace Scribe.Uax29
open Spec.Grapheme

/-- The state of the automaton after a text. -/
def stOf : List Cls → St
  | [] => .any
  | x :: r =>
    match consE (x :: r) with
    | some true => .consL
    | some false => .cons
    | none =>
      if pictE (x :: r) then .pict
      else if pictZ (x :: r) then .pictZ
      else match x with
        | .cr => .cr
        | .lf | .control => .ctl
        | .prepend => .prepend
        | .l => .hL
        | .v | .lv => .hV
        | .t | .lvt => .hT
        | .ri => if riOdd (x :: r) then .ri1 else .ri2
        | _ => .any

theorem cons_pict (r : List Cls) : (consE r).isSome = true → pictE r = false := by
  induction r with
  | nil => simp [consE]
  | cons x r ih =>
    cases x <;> simp [consE, pictE] <;> simpa using ih

theorem cont_stOf (x : Cls) (r : List Cls) (c : Cls) :
    cont (stOf (x :: r)) c = if joined (x :: r) c then some (stOf (c :: x :: r)) else none := by
  have hcp := cons_pict r
  generalize h1 : consE r = a
  generalize h2 : pictE r = b
  generalize h3 : riOdd r = d
  rw [h1, h2] at hcp
  rcases a with _ | _ | _ <;> cases b <;> cases d <;> simp at hcp <;>
  cases x <;> cases c <;> simp [stOf, joined, consE, pictE, pictZ, riOdd, h1, h2, h3, cont, start]

theorem start_stOf (r : List Cls) (c : Cls) : joined r c = false → start c = stOf (c :: r) := by
  cases r with
  | nil => cases c <;> intro _ <;> rfl
  | cons x r =>
    have hcp := cons_pict r
    generalize h1 : consE r = a
    generalize h2 : pictE r = b
    generalize h3 : riOdd r = d
    rw [h1, h2] at hcp
    rcases a with _ | _ | _ <;> cases b <;> cases d <;> simp at hcp <;>
    cases x <;> cases c <;> simp [stOf, joined, consE, pictE, pictZ, riOdd, h1, h2, h3, start]

/-! `joined` is `Joined`. -/

theorem consE_some {l : List Cls} : (consE l).isSome = true ↔ ∃ m q, l = m ++ .consonant :: q ∧ ∀ x ∈ m, Conjoining x := by
  induction l with
  | nil => simp [consE]
  | cons x l ih =>
    constructor
    · intro h
      by_cases hx : x = .consonant
      · subst hx; exact ⟨[], l, rfl, by simp⟩
      · have hl : (consE l).isSome = true ∧ Conjoining x := by cases x <;> simp_all [consE, Conjoining]
        obtain ⟨m, q, rfl, hm⟩ := ih.mp hl.1
        exact ⟨x :: m, q, rfl, fun y hy => by rcases List.mem_cons.mp hy with rfl | hy; exacts [hl.2, hm y hy]⟩
    · rintro ⟨m, q, h, hm⟩
      cases m with
      | nil => cases h; rfl
      | cons y m =>
        simp only [List.cons_append, List.cons.injEq] at h
        obtain ⟨rfl, rfl⟩ := h
        have := ih.mpr ⟨m, q, rfl, fun z hz => hm z (List.mem_cons_of_mem _ hz)⟩
        rcases hm x (List.mem_cons_self ..) with rfl | rfl | rfl <;> simpa [consE] using this

theorem consE_true {l : List Cls} : consE l = some true ↔
    ∃ n m q, l = n ++ .linker :: (m ++ .consonant :: q) ∧ (∀ x ∈ n, Conjoining x) ∧ ∀ x ∈ m, Conjoining x := by
  induction l with
  | nil => simp [consE]
  | cons x l ih =>
    constructor
    · intro h
      by_cases hx : x = .linker
      · subst hx
        simp only [consE, Option.map_eq_some_iff] at h
        obtain ⟨y, h, _⟩ := h
        obtain ⟨m, q, rfl, hm⟩ := consE_some.mp (by rw [h]; rfl)
        exact ⟨[], m, q, rfl, by simp, hm⟩
      · have hl : consE l = some true ∧ Conjoining x := by cases x <;> simp_all [consE, Conjoining]
        obtain ⟨n, m, q, rfl, hn, hm⟩ := ih.mp hl.1
        exact ⟨x :: n, m, q, rfl, fun y hy => by rcases List.mem_cons.mp hy with rfl | hy; exacts [hl.2, hn y hy], hm⟩
    · rintro ⟨n, m, q, h, hn, hm⟩
      cases n with
      | nil =>
        cases h
        obtain ⟨y, hy⟩ := Option.isSome_iff_exists.mp (consE_some.mpr ⟨m, q, rfl, hm⟩)
        simp [consE, hy]
      | cons y n =>
        simp only [List.cons_append, List.cons.injEq] at h
        obtain ⟨rfl, rfl⟩ := h
        have := ih.mpr ⟨n, m, q, rfl, fun z hz => hn z (List.mem_cons_of_mem _ hz), hm⟩
        rcases hn x (List.mem_cons_self ..) with rfl | rfl | rfl <;> simp [consE, this]

theorem pictE_true {l : List Cls} : pictE l = true ↔ ∃ m q, l = m ++ .pict :: q ∧ ∀ x ∈ m, Extending x := by
  induction l with
  | nil => simp [pictE]
  | cons x l ih =>
    constructor
    · intro h
      by_cases hx : x = .pict
      · subst hx; exact ⟨[], l, rfl, by simp⟩
      · have hl : pictE l = true ∧ Extending x := by cases x <;> simp_all [pictE, Extending]
        obtain ⟨m, q, rfl, hm⟩ := ih.mp hl.1
        exact ⟨x :: m, q, rfl, fun y hy => by rcases List.mem_cons.mp hy with rfl | hy; exacts [hl.2, hm y hy]⟩
    · rintro ⟨m, q, h, hm⟩
      cases m with
      | nil => cases h; rfl
      | cons y m =>
        simp only [List.cons_append, List.cons.injEq] at h
        obtain ⟨rfl, rfl⟩ := h
        have := ih.mpr ⟨m, q, rfl, fun z hz => hm z (List.mem_cons_of_mem _ hz)⟩
        rcases hm x (List.mem_cons_self ..) with rfl | rfl | rfl <;> simpa [pictE] using this

/-- A text is regional indicators after something else. -/
theorem riOdd_eq (l : List Cls) : ∃ n q, l = List.replicate n .ri ++ q ∧ q.head? ≠ some .ri ∧ riOdd l = decide (n % 2 = 1) := by
  induction l with
  | nil => exact ⟨0, [], rfl, by simp, rfl⟩
  | cons x l ih =>
    by_cases hx : x = .ri
    · subst hx
      obtain ⟨n, q, rfl, hq, h⟩ := ih
      refine ⟨n + 1, q, by simp [List.replicate_succ], hq, ?_⟩
      rw [riOdd, h]
      by_cases hn : n % 2 = 1
      · simp [hn]; omega
      · simp [hn]; omega
    · exact ⟨0, x :: l, rfl, by simpa using hx, by cases x <;> first | rfl | exact absurd rfl hx⟩

theorem riOdd_replicate (n : Nat) (q : List Cls) (hq : q.head? ≠ some .ri) : riOdd (List.replicate n .ri ++ q) = decide (n % 2 = 1) := by
  induction n with
  | zero => cases q with
    | nil => rfl
    | cons x q => cases x <;> first | rfl | exact absurd rfl hq
  | succ n ih =>
    rw [List.replicate_succ, List.cons_append, riOdd, ih]
    by_cases hn : n % 2 = 1
    · simp [hn]; omega
    · simp [hn]; omega

theorem joined_of_cons {l : List Cls} (h : consE l = some true) : joined l .consonant = true := by
  cases l with
  | nil => cases h
  | cons x r => cases x <;> first | cases h | (simp only [joined]; rw [h]; rfl)

theorem joined_of_pict {l : List Cls} (h : pictZ l = true) : joined l .pict = true := by
  cases l with
  | nil => cases h
  | cons x r => cases x <;> first | cases h | (simp only [joined]; exact h)

theorem joined_of_ri {l : List Cls} (h : riOdd l = true) : joined l .ri = true := by
  cases l with
  | nil => cases h
  | cons x r => cases x <;> first | cases h | (simp only [joined]; exact h)

theorem joined_of_Joined {p : List Cls} {c : Cls} (h : Joined p c) : joined p.reverse c = true := by
  cases h with
  | gb3 p => simp [joined]
  | gb6 p c h => rcases h with rfl | rfl | rfl | rfl <;> simp [joined]
  | gb7 p x c h1 h2 => rcases h1 with rfl | rfl <;> rcases h2 with rfl | rfl <;> simp [joined]
  | gb8 p x h => rcases h with rfl | rfl <;> simp [joined]
  | gb9 p x c h1 h2 => rcases h2 with (rfl | rfl | rfl) | rfl <;> cases x <;> simp_all [joined, Breaking]
  | gb9a p x h => cases x <;> simp_all [joined, Breaking]
  | gb9b p c h => cases c <;> simp_all [joined, Breaking]
  | gb9c p m n hm hn =>
    refine joined_of_cons (consE_true.mpr ⟨n.reverse, m.reverse, p.reverse, by simp, fun x hx => hn x (by simpa using hx), fun x hx => hm x (by simpa using hx)⟩)
  | gb11 p m hm =>
    refine joined_of_pict ?_
    simp only [List.reverse_append, List.reverse_cons, List.reverse_nil, List.nil_append, List.cons_append, pictZ]
    exact pictE_true.mpr ⟨m.reverse, p.reverse, rfl, fun x hx => hm x (by simpa using hx)⟩
  | gb12 k =>
    refine joined_of_ri ?_
    have := riOdd_replicate (2 * k + 1) [] (by simp)
    rw [List.append_nil] at this
    rw [List.reverse_replicate, this]
    simp
  | gb13 p x k hx =>
    refine joined_of_ri ?_
    have := riOdd_replicate (2 * k + 1) (x :: p.reverse) (by simpa using hx)
    simp only [List.reverse_append, List.reverse_replicate, List.reverse_cons, List.reverse_nil, List.nil_append, List.cons_append, this]
    simp

theorem Joined_of_joined {l : List Cls} {c : Cls} (h : joined l c = true) : Joined l.reverse c := by
  cases l with
  | nil => cases h
  | cons x r =>
    by_cases h1 : c = .consonant ∧ consE (x :: r) = some true
    · obtain ⟨rfl, h1⟩ := h1
      obtain ⟨n, m, q, e, hn, hm⟩ := consE_true.mp h1
      rw [e]
      have := Joined.gb9c q.reverse m.reverse n.reverse (fun x hx => hm x (by simpa using hx)) (fun x hx => hn x (by simpa using hx))
      simpa using this
    by_cases h2 : c = .pict ∧ pictZ (x :: r) = true
    · obtain ⟨rfl, h2⟩ := h2
      cases x <;> try cases h2
      obtain ⟨m, q, rfl, hm⟩ := pictE_true.mp (by simpa [pictZ] using h2)
      have := Joined.gb11 q.reverse m.reverse (fun x hx => hm x (by simpa using hx))
      simpa using this
    by_cases h3 : c = .ri ∧ riOdd (x :: r) = true
    · obtain ⟨rfl, h3⟩ := h3
      obtain ⟨n, q, e, hq, hn⟩ := riOdd_eq (x :: r)
      rw [hn] at h3
      have h3 : n % 2 = 1 := by simpa using h3
      obtain ⟨k, rfl⟩ : ∃ k, n = 2 * k + 1 := ⟨n / 2, by omega⟩
      rw [e]
      cases q with
      | nil => simpa using Joined.gb12 k
      | cons y q =>
        have := Joined.gb13 q.reverse y k (by simpa using hq)
        simpa using this
    rw [List.reverse_cons]
    cases x <;> cases c <;> simp_all [joined] <;>
    first
    | exact .gb3 _
    | (refine .gb6 _ _ ?_; simp; done)
    | (refine .gb7 _ _ _ ?_ ?_ <;> (simp; done))
    | (refine .gb8 _ _ ?_; simp; done)
    | (refine .gb9 _ _ _ ?_ ?_ <;> (simp [Breaking, Extending]; done))
    | (refine .gb9a _ _ ?_; simp [Breaking])
    | (refine .gb9b _ _ ?_; simp [Breaking])

theorem joined_iff {p : List Cls} {c : Cls} : Joined p c ↔ joined p.reverse c = true :=
  ⟨joined_of_Joined, fun h => by simpa using Joined_of_joined h⟩

/-! Boundaries of the automaton. -/

theorem go_boundary (cls : Char → Cls) (p cur : Text) (hcur : cur ≠ []) (hp : p ≠ []) (cs : Text) (k : Nat) (c : Char) (hk : cs[k]? = some c) :
    (∃ a b, go cls (stOf (p.map cls).reverse) cur cs = a ++ b ∧ a.flatten = cur ++ cs.take k) ↔ joined ((p ++ cs.take k).map cls).reverse (cls c) = false := by
  induction cs generalizing p cur k with
  | nil => simp at hk
  | cons x cs ih =>
    obtain ⟨y, r, hy⟩ : ∃ y r, (p.map cls).reverse = y :: r := by
      cases h : (p.map cls).reverse with
      | nil => simp at h; exact absurd h hp
      | cons y r => exact ⟨y, r, rfl⟩
    have hnext : ((p ++ [x]).map cls).reverse = cls x :: (p.map cls).reverse := by simp
    have hcont := cont_stOf y r (cls x)
    rw [← hy] at hcont
    cases hj : joined (p.map cls).reverse (cls x) with
    | true =>
      rw [hj, if_pos rfl, ← hnext] at hcont
      rw [go, hcont]
      simp only
      cases k with
      | zero =>
        simp only [List.getElem?_cons_zero, Option.some.injEq] at hk
        subst hk
        simp only [List.take_zero, List.append_nil, hj, Bool.true_eq_false, iff_false]
        rintro ⟨a, b, h, ha⟩
        -- the first cluster is longer than `cur`
        have hlong : ∀ (st : St) (cu : Text) (cs : Text), ∃ z rest, go cls st cu cs = (cu ++ z) :: rest := by
          intro st cu cs
          induction cs generalizing st cu with
          | nil => exact ⟨[], [], by simp [go]⟩
          | cons w cs ih =>
            unfold go
            split
            · obtain ⟨z, rest, h⟩ := ih _ (cu ++ [w])
              exact ⟨w :: z, rest, by rw [h]; simp⟩
            · exact ⟨[], _, by rw [List.append_nil]⟩
        obtain ⟨z, rest, hz⟩ := hlong (stOf ((p ++ [x]).map cls).reverse) (cur ++ [x]) cs
        rw [hz] at h
        cases a with
        | nil => simp at ha; exact hcur ha
        | cons a0 a =>
          have := (List.cons.inj h).1
          rw [← this] at ha
          have := congrArg List.length ha
          simp at this
      | succ k =>
        simp only [List.getElem?_cons_succ] at hk
        have := ih (p ++ [x]) (cur ++ [x]) (by simp) (by simp) k hk
        simpa using this
    | false =>
      rw [hj, if_neg (by simp)] at hcont
      rw [go, hcont]
      simp only
      cases k with
      | zero =>
        simp only [List.getElem?_cons_zero, Option.some.injEq] at hk
        subst hk
        simp only [List.take_zero, List.append_nil, hj, iff_true]
        exact ⟨[cur], _, rfl, by simp⟩
      | succ k =>
        simp only [List.getElem?_cons_succ] at hk
        have := ih (p ++ [x]) [x] (by simp) (by simp) k hk
        rw [hnext, ← start_stOf _ _ hj] at this
        simp only [List.append_assoc, List.cons_append, List.nil_append] at this
        rw [List.take_succ_cons, ← this]
        constructor
        · rintro ⟨a, b, h, ha⟩
          cases a with
          | nil => simp at ha
          | cons a0 a =>
            simp only [List.cons_append, List.cons.injEq] at h
            obtain ⟨rfl, h⟩ := h
            exact ⟨a, b, h, by simpa using ha⟩
        · rintro ⟨a, b, h, ha⟩
          exact ⟨cur :: a, b, by rw [h]; rfl, by simp [ha]⟩

/-- Two ways of cutting a text at the same places are the same. -/
theorem pieces_unique (ps qs : List Text) (hp : ∀ p ∈ ps, p ≠ []) (hq : ∀ q ∈ qs, q ≠ []) (hf : ps.flatten = qs.flatten)
    (h : ∀ u, (∃ a b, ps = a ++ b ∧ a.flatten = u) → ∃ a b, qs = a ++ b ∧ a.flatten = u)
    (h' : ∀ u, (∃ a b, qs = a ++ b ∧ a.flatten = u) → ∃ a b, ps = a ++ b ∧ a.flatten = u) : ps = qs := by
  induction ps generalizing qs with
  | nil =>
    cases qs with
    | nil => rfl
    | cons q qs => simp at hf; exact absurd hf.1 (hq q (List.mem_cons_self ..))
  | cons p ps ih =>
    cases qs with
    | nil => simp at hf; exact absurd hf.1 (hp p (List.mem_cons_self ..))
    | cons q qs =>
      have hle : ∀ (p q : Text) (ps qs : List Text), (∀ x ∈ p :: ps, x ≠ []) → (∃ a b, q :: qs = a ++ b ∧ a.flatten = p) → p ≠ [] → q.length ≤ p.length := by
        rintro p q ps qs _ ⟨a, b, e, ha⟩ hne
        cases a with
        | nil => exact absurd ha.symm hne
        | cons x a =>
          obtain rfl := (List.cons.inj e).1
          rw [← ha]; simp
      have l1 := hle p q ps qs hp (h p ⟨[p], ps, rfl, by simp⟩) (hp p (List.mem_cons_self ..))
      have l2 := hle q p qs ps hq (h' q ⟨[q], qs, rfl, by simp⟩) (hq q (List.mem_cons_self ..))
      simp only [List.flatten_cons] at hf
      obtain ⟨rfl, hf⟩ := List.append_inj hf (by omega)
      congr 1
      have key : ∀ (ps qs : List Text), (∀ u, (∃ a b, p :: ps = a ++ b ∧ a.flatten = u) → ∃ a b, p :: qs = a ++ b ∧ a.flatten = u) →
          ∀ u, (∃ a b, ps = a ++ b ∧ a.flatten = u) → ∃ a b, qs = a ++ b ∧ a.flatten = u := by
        rintro ps qs h u ⟨a, b, rfl, rfl⟩
        obtain ⟨a', b', e, e'⟩ := h (p ++ a.flatten) ⟨p :: a, b, rfl, by simp⟩
        cases a' with
        | nil => simp at e'; exact absurd e'.1 (hp p (List.mem_cons_self ..))
        | cons x a' =>
          simp only [List.cons_append, List.cons.injEq] at e
          obtain ⟨rfl, rfl⟩ := e
          exact ⟨a', b', rfl, by simpa using e'⟩
      exact ih qs (fun x hx => hp x (List.mem_cons_of_mem _ hx)) (fun x hx => hq x (List.mem_cons_of_mem _ hx)) (List.append_cancel_left hf) (key _ _ h) (key _ _ h')

end Scribe.Uax29
