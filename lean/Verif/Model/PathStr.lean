import Verif.Model.File
/-!
# Paths as strings

`std::path` on Unix: a path is a string of bytes, read by `Components`. The crate calls `Path::file_name`, `Path::extension`, `Path::strip_prefix` and `==`
(src/buffer/mod.rs:211-216, 446-452, src/workspace.rs:148-154, 373-388, 468-489), which all go through `Components`; the main model starts with the components.
Names refer to library/std/src/path.rs. Prefixes like `C:` do not exist on Unix.
-/
namespace Scribe.PathStr

/-- `/` -/
def sep : UInt8 := 47

/-- `.` -/
def dot : UInt8 := 46

/-- `Components::parse_single_component`. -/
def single (c : Bytes) : Option Comp :=
  if c = [] then none else if c = [dot] then none else if c = [dot, dot] then some .parent else some (.normal c)

/-- `Components::parse_next_component`: how many bytes to skip, and the component. -/
def parseNext (s : Bytes) : Nat × Option Comp :=
  let c := s.takeWhile (· != sep)
  (c.length + (if c.length < s.length then 1 else 0), single c)

/-- `Components::parse_next_component_back`, on what follows `len_before_body`. -/
def parseBack (s : Bytes) : Nat × Option Comp :=
  let c := (s.reverse.takeWhile (· != sep)).reverse
  (c.length + (if c.length < s.length then 1 else 0), single c)

/-- `Components::has_root`. -/
def hasRoot (s : Bytes) : Bool :=
  match s with
  | b :: _ => b == sep
  | [] => false

/-- `Components::include_cur_dir`. -/
def includeCurDir (s : Bytes) : Bool :=
  if hasRoot s then false
  else
    match s with
    | [b] => b == dot
    | b :: b' :: _ => b == dot && b' == sep
    | [] => false

/-- `Components`, as far as its front is concerned: `start` is `State::StartDir`, otherwise `State::Body`. -/
structure Comps where
  start : Bool
  path : Bytes
  deriving DecidableEq, Repr

/-- `Components::next` in the state `Body`. -/
def nextBody (s : Bytes) : Option (Comp × Comps) :=
  if h : s = [] then none
  else
    match parseNext s with
    | (size, some c) => some (c, ⟨false, s.drop size⟩)
    | (size, none) => nextBody (s.drop (max size 1))
termination_by s.length
decreasing_by have := List.length_pos_iff.mpr h; simp; omega

/-- `Components::next`. -/
def next (c : Comps) : Option (Comp × Comps) :=
  if c.start then
    if hasRoot c.path then some (.root, ⟨false, c.path.drop 1⟩)
    else if includeCurDir c.path then some (.cur, ⟨false, c.path.drop 1⟩)
    else nextBody c.path
  else nextBody c.path

/-- `Components::trim_left`. -/
def trimLeft (s : Bytes) : Bytes :=
  if h : s = [] then []
  else
    match parseNext s with
    | (_, some _) => s
    | (size, none) => trimLeft (s.drop (max size 1))
termination_by s.length
decreasing_by have := List.length_pos_iff.mpr h; simp; omega

/-- `Components::trim_right`, on what follows `len_before_body`. -/
def trimRight (s : Bytes) : Bytes :=
  if h : s = [] then []
  else
    match parseBack s with
    | (_, some _) => s
    | (size, none) => trimRight (s.take (s.length - max size 1))
termination_by s.length
decreasing_by have := List.length_pos_iff.mpr h; simp; omega

/-- `Components::len_before_body`. -/
def lenBeforeBody (c : Comps) : Nat := if c.start && (hasRoot c.path || includeCurDir c.path) then 1 else 0

/-- `Components::as_path`. -/
def asPath (c : Comps) : Bytes :=
  let s := if c.start then c.path else trimLeft c.path
  let n := lenBeforeBody c
  s.take n ++ trimRight (s.drop n)

/-- `iter_after`: the components that follow those of the prefix. -/
def iterAfter (c : Comps) : List Comp → Option Comps
  | [] => some c
  | d :: q =>
    match next c with
    | none => none
    | some (x, c') => if x = d then iterAfter c' q else none

theorem next_shorter {s : Bytes} {x : Comp × Comps} (h : nextBody s = some x) : x.2.path.length < s.length ∧ x.2.start = false := by
  fun_induction nextBody s with
  | case1 => cases h
  | case2 s hs size c hp =>
    have := List.length_pos_iff.mpr hs
    cases h
    have : 1 ≤ size := by
      unfold parseNext at hp
      simp only [Prod.mk.injEq] at hp
      obtain ⟨rfl, hc⟩ := hp
      cases ht : s.takeWhile (· != sep) with
      | nil => rw [ht] at hc; cases hc
      | cons => exact Nat.le_trans (Nat.le_add_left 1 _) (Nat.le_add_right _ _)
    simp; omega
  | case3 s hs size hp ih =>
    have := List.length_pos_iff.mpr hs
    obtain ⟨h1, h2⟩ := ih h
    simp at h1
    exact ⟨by omega, h2⟩

/-- All components that `Components` returns, in the state `Body`. -/
def bodyList (s : Bytes) : List Comp :=
  match h : nextBody s with
  | none => []
  | some x => x.1 :: bodyList x.2.path
termination_by s.length
decreasing_by exact (next_shorter h).1

/-- `Path::components`, as a list. -/
def components (s : Bytes) : Path :=
  match next ⟨true, s⟩ with
  | none => []
  | some (c, cs) => c :: bodyList cs.path

/-- `Path::strip_prefix`. -/
def stripPrefix (s w : Bytes) : Option Bytes := (iterAfter ⟨true, s⟩ (components w)).map asPath

/-- `Components::next_back` of a fresh iterator, in the state `Body`. -/
def backBody (s : Bytes) : Option Comp :=
  if h : s = [] then none
  else
    match parseBack s with
    | (_, some c) => some c
    | (size, none) => backBody (s.take (s.length - max size 1))
termination_by s.length
decreasing_by have := List.length_pos_iff.mpr h; simp; omega

/-- `Components::next_back` of a fresh iterator. -/
def nextBack (s : Bytes) : Option Comp :=
  match backBody (s.drop (lenBeforeBody ⟨true, s⟩)) with
  | some c => some c
  | none => if hasRoot s then some .root else if includeCurDir s then some .cur else none

/-- `Path::file_name`. -/
def fileName (s : Bytes) : Option Bytes :=
  match nextBack s with
  | some (.normal n) => some n
  | _ => none

end Scribe.PathStr
