import Mathlib.Data.Rat.Floor

/-!
# Offsets from UTC

Source: `py_gnome/gnome/utilities/time_utils.py` `TZOffsetSchema` (20-40), `TZOffset` (43-96).

Simplifications: an offset is an exact number of hours (in floats `60 * (8.1 - 8)` is cut to 5 minutes and `8.1 * 60` is 486: the title may then be a minute
off); characters of a title made here are signs, a colon and digits; any other title is a text of its own.
-/
namespace Verif.TimeUtil.Zone

/-- Characters of a title that is made from an offset. -/
inductive Sym where
  | plus
  | minus
  | colon
  | digit (d : Nat)
  deriving DecidableEq

/-- A title: one that was given, "No Timezone Specified", or one that is made of the offset. -/
inductive Title where
  | given (t : String)
  | unspecified
  | made (t : List Sym)
  deriving DecidableEq

/-- A `TZOffset` (43-46). -/
structure TZ where
  offset : Option ℚ
  title : Title
  deriving DecidableEq

/-- The decimal digits of a number. -/
def digits (n : Nat) : List Sym :=
  if n < 10 then [.digit n] else digits (n / 10) ++ [.digit (n % 10)]
termination_by n
decreasing_by omega

/-- `f"{n:0>2}"`: zeros on the left up to two characters. -/
def pad (n : Nat) : List Sym :=
  let d := digits n
  List.replicate (2 - d.length) (.digit 0) ++ d

/-- `as_iso_string` of an offset that is not `None` (80-96). -/
def isoString (o : ℚ) : List Sym :=
  let a := |o|
  let hours := ⌊a⌋.toNat
  let minutes := ⌊(a - hours) * 60⌋.toNat
  (if o < 0 then Sym.minus else Sym.plus) :: (pad hours ++ .colon :: pad minutes)

/-- `int(x)`: cut towards zero. -/
def pyInt (x : ℚ) : Int := if 0 ≤ x then ⌊x⌋ else -⌊-x⌋

/-- `as_timedelta` (71-78), in minutes. -/
def shift (z : TZ) : Int := match z.offset with
  | none => 0
  | some o => pyInt (o * 60)

/-- What an offset may be given as: hours, or a `timedelta` in seconds. -/
inductive Given where
  | hours (h : ℚ)
  | delta (s : ℚ)

/-- `TZOffset(offset, title)` (48-69). -/
def make (g : Option Given) (title : String) : TZ :=
  let o := g.map fun
    | .hours h => h
    | .delta s => s / 3600
  ⟨o, if title = "" then (match o with | none => .unspecified | some x => .made (isoString x)) else .given title⟩

/-- The text of a title (how the characters that are made look is left to `text`). -/
def titleText (text : List Sym → String) : Title → String
  | .given t => t
  | .unspecified => "No Timezone Specified"
  | .made t => text t

/-- `TZOffsetSchema.serialize` (24-33). -/
def save (text : List Sym → String) (z : TZ) : Option ℚ × String := (z.offset, titleText text z.title)

/-- `TZOffsetSchema.deserialize` (35-40): a title has to be there; `none` = refused. -/
def load (d : Option ℚ × String) : Option TZ := if d.2 = "" then none else some (make (d.1.map .hours) d.2)

end Verif.TimeUtil.Zone
