import Verif.Model.Segmenter
/-!
# UAX #29 extended grapheme clusters

The boundary rules GB1–GB999 (including GB9c) as a left-to-right automaton over
`Grapheme_Cluster_Break` classes, for an arbitrary table `cls` from characters to classes. This is
what `unicode-segmentation`'s `graphemes(true)` computes with the tables of its Unicode version.
Only the classes of CR and LF are fixed.
-/
namespace Scribe.Uax29

/-- `Grapheme_Cluster_Break`, with `Extended_Pictographic` and `Indic_Conjunct_Break` folded in:
`linker` is Extend with InCB=Linker, `extend` is Extend with InCB=Extend, `extendNone` is Extend
without InCB, `consonant` is InCB=Consonant. -/
inductive Cls where
  | cr | lf | control | extend | extendNone | linker | zwj | ri | prepend | spacing
  | l | v | t | lv | lvt | pict | consonant | other
  deriving DecidableEq, Repr

/-- What the boundary rules need to know about the current cluster. -/
inductive St where
  | cr          -- CR
  | ctl         -- LF or Control
  | prepend     -- ends in Prepend
  | hL | hV | hT  -- ends in Hangul L / V,LV / T,LVT
  | ri1 | ri2   -- an odd / even number of regional indicators at the end
  | pict        -- ExtPict Extend*
  | pictZ       -- ExtPict Extend* ZWJ
  | cons        -- Consonant followed by Extend* without a Linker
  | consL       -- Consonant followed by Extend* with a Linker
  | any         -- anything else
  deriving DecidableEq, Repr

/-- State after a cluster's first character. -/
def start : Cls → St
  | .cr => .cr
  | .lf | .control => .ctl
  | .prepend => .prepend
  | .l => .hL
  | .v | .lv => .hV
  | .t | .lvt => .hT
  | .ri => .ri1
  | .pict => .pict
  | .consonant => .cons
  | .extend | .extendNone | .linker | .zwj | .spacing | .other => .any

/-- `some s'`: no boundary before a character of this class (rule in the comment); `none`: boundary. -/
def cont : St → Cls → Option St
  | .cr, .lf => some .ctl                                   -- GB3
  | .cr, _ => none                                          -- GB4
  | .ctl, _ => none                                         -- GB4
  | _, .cr | _, .lf | _, .control => none                   -- GB5
  | .pict, .extend | .pict, .extendNone | .pict, .linker => some .pict   -- GB9
  | .pict, .zwj => some .pictZ                              -- GB9
  | .cons, .extend | .cons, .zwj => some .cons              -- GB9
  | .cons, .linker => some .consL                           -- GB9
  | .consL, .extend | .consL, .zwj | .consL, .linker => some .consL  -- GB9
  | _, .extend | _, .extendNone | _, .linker | _, .zwj => some .any  -- GB9
  | _, .spacing => some .any                                -- GB9a
  | .prepend, c => some (start c)                           -- GB9b
  | .hL, .l => some .hL                                     -- GB6
  | .hL, .v | .hL, .lv => some .hV                          -- GB6
  | .hL, .lvt => some .hT                                   -- GB6
  | .hV, .v => some .hV                                     -- GB7
  | .hV, .t => some .hT                                     -- GB7
  | .hT, .t => some .hT                                     -- GB8
  | .consL, .consonant => some .cons                        -- GB9c
  | .pictZ, .pict => some .pict                             -- GB11
  | .ri1, .ri => some .ri2                                  -- GB12, GB13
  | _, _ => none                                            -- GB999

/-- The rest of the clusters, given the state and text of the current one. -/
def go (cls : Char → Cls) : St → Text → Text → List Text
  | _, cur, [] => [cur]
  | st, cur, c :: cs =>
    match cont st (cls c) with
    | some st' => go cls st' (cur ++ [c]) cs
    | none => cur :: go cls (start (cls c)) [c] cs

/-- The extended grapheme clusters of a text. -/
def segs (cls : Char → Cls) : Text → List Text
  | [] => []
  | c :: cs => go cls (start (cls c)) [c] cs

/-- The table gives CR and LF their classes, and only them. -/
structure Table where
  cls : Char → Cls
  lf : ∀ c, cls c = .lf ↔ c = '\n'
  cr : ∀ c, cls c = .cr ↔ c = '\r'

end Scribe.Uax29
