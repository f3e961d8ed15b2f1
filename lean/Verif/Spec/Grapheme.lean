import Verif.Model.Uax29
/-!
# The rules of UAX #29 as written in the standard

Rules GB1–GB999 of Unicode Standard Annex #29 (extended grapheme clusters), as statements about the whole text before a place, without states. `Cls` is only
used as the name of a class of characters.
-/
namespace Scribe.Spec.Grapheme
open Uax29

/-- CR, LF or Control. -/
def Breaking (c : Cls) : Prop := c = .cr ∨ c = .lf ∨ c = .control
/-- `Grapheme_Cluster_Break=Extend`. -/
def Extending (c : Cls) : Prop := c = .extend ∨ c = .extendNone ∨ c = .linker
/-- `Indic_Conjunct_Break` is `Extend` or `Linker`. -/
def Conjoining (c : Cls) : Prop := c = .extend ∨ c = .zwj ∨ c = .linker

/-- The rules that forbid a break between the text before (as classes) and the next character. -/
inductive Joined : List Cls → Cls → Prop
  | gb3 (p) : Joined (p ++ [.cr]) .lf
  | gb6 (p) (c) : c = .l ∨ c = .v ∨ c = .lv ∨ c = .lvt → Joined (p ++ [.l]) c
  | gb7 (p) (x c) : x = .lv ∨ x = .v → c = .v ∨ c = .t → Joined (p ++ [x]) c
  | gb8 (p) (x) : x = .lvt ∨ x = .t → Joined (p ++ [x]) .t
  | gb9 (p) (x c) : ¬ Breaking x → Extending c ∨ c = .zwj → Joined (p ++ [x]) c
  | gb9a (p) (x) : ¬ Breaking x → Joined (p ++ [x]) .spacing
  | gb9b (p) (c) : ¬ Breaking c → Joined (p ++ [.prepend]) c
  | gb9c (p m n) : (∀ x ∈ m, Conjoining x) → (∀ x ∈ n, Conjoining x) → Joined (p ++ [.consonant] ++ m ++ [.linker] ++ n) .consonant
  | gb11 (p m) : (∀ x ∈ m, Extending x) → Joined (p ++ [.pict] ++ m ++ [.zwj]) .pict
  | gb12 (k) : Joined (List.replicate (2 * k + 1) .ri) .ri
  | gb13 (p) (x) (k) : x ≠ .ri → Joined (p ++ [x] ++ List.replicate (2 * k + 1) .ri) .ri

/-- Where the standard puts boundaries in a text: at both ends (GB1, GB2) and wherever no rule forbids it (GB4, GB5, GB999). -/
def Boundary (cls : Char → Cls) (t : Text) (i : Nat) : Prop :=
  i = 0 ∨ i = t.length ∨ ∃ c, t[i]? = some c ∧ ¬ Joined ((t.take i).map cls) (cls c)

/-! What the rules look for, as functions of the text before, nearest character first. -/

/-- `ExtPict Extend*` -/
def pictE : List Cls → Bool
  | .pict :: _ => true
  | .extend :: r | .extendNone :: r | .linker :: r => pictE r
  | _ => false

/-- `ExtPict Extend* ZWJ` -/
def pictZ : List Cls → Bool
  | .zwj :: r => pictE r
  | _ => false

/-- `Consonant [Extend Linker]*`, and whether there is a linker. -/
def consE : List Cls → Option Bool
  | .consonant :: _ => some false
  | .linker :: r => (consE r).map fun _ => true
  | .extend :: r | .zwj :: r => consE r
  | _ => none

/-- An odd number of regional indicators. -/
def riOdd : List Cls → Bool
  | .ri :: r => !riOdd r
  | _ => false

/-- `Joined` as a function (`joined_iff` in `Proofs/Grapheme`). -/
def joined : List Cls → Cls → Bool
  | [], _ => false
  | .cr :: _, c => c == .lf
  | .lf :: _, _ | .control :: _, _ => false
  | x :: r, c =>
    match c with
    | .cr | .lf | .control => false
    | .extend | .extendNone | .linker | .zwj | .spacing => true
    | c => match x with
      | .prepend => true
      | .l => c == .l || c == .v || c == .lv || c == .lvt
      | .lv | .v => c == .v || c == .t
      | .lvt | .t => c == .t
      | x => match c with
        | .consonant => consE (x :: r) == some true
        | .pict => pictZ (x :: r)
        | .ri => riOdd (x :: r)
        | _ => false

/-- `Boundary` as a function. -/
def boundary (cls : Char → Cls) (t : Text) (i : Nat) : Bool :=
  i == 0 || i == t.length || match t[i]? with
    | some c => !joined ((t.take i).map cls).reverse (cls c)
    | none => false

end Scribe.Spec.Grapheme
