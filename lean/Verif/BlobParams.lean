import Verif.BlobMeasure
/-
  Model of the limits of a search for blobs as objects, src/blob_detection.h 28-116, and of `isSolid`.

  `Param` (Blob.lean) and `FParam` (BlobMeasure.lean) have a limit when it is checked; here are the four members and the functions
  which change them.
-/
namespace PV.Blob

/-- `Parameter< Data >`, src/blob_detection.h 28-72 -/
structure Setting (D : Type) where
  minimum : D
  checkMinimum : Bool
  maximum : D
  checkMaximum : Bool

variable {D : Type}

/-- The default values of the members, src/blob_detection.h 31-41 -/
def Setting.initial (zero : D) : Setting D := ⟨zero, false, zero, false⟩

/-- `setMinimum`, src/blob_detection.h 56-60 -/
def Setting.setMinimum (p : Setting D) (min : D) : Setting D := { p with checkMinimum := true, minimum := min }

/-- `setMaximum`, src/blob_detection.h 62-66 -/
def Setting.setMaximum (p : Setting D) (max : D) : Setting D := { p with checkMaximum := true, maximum := max }

/-- `set`, src/blob_detection.h 50-54 -/
def Setting.set (p : Setting D) (min max : D) : Setting D := (p.setMinimum min).setMaximum max

/-- `reset`, src/blob_detection.h 68-71 -/
def Setting.reset (zero : D) (_ : Setting D) : Setting D := Setting.initial zero

/-- `verify`, src/blob_detection.h 43-48 (`gt` is `>`) -/
def Setting.verify (gt : D → D → Bool) (p : Setting D) : M BMem Unit :=
  throwIf (p.checkMaximum && p.checkMinimum && gt p.minimum p.maximum)

/-- Calls on one parameter. src/blob_detection.h 50-71. -/
inductive Change (D : Type) where
  | set (min max : D)
  | setMinimum (min : D)
  | setMaximum (max : D)
  | reset

/-- One call. src/blob_detection.h 50-71. -/
def Change.exec (zero : D) (p : Setting D) : Change D → Setting D
  | .set min max => p.set min max
  | .setMinimum min => p.setMinimum min
  | .setMaximum max => p.setMaximum max
  | .reset => p.reset zero

/-- A history of calls on a new parameter. src/blob_detection.h 28-72. -/
def changed (zero : D) (calls : List (Change D)) : Setting D := calls.foldl (Change.exec zero) (Setting.initial zero)

/-- What the search takes from a parameter: `if ( checkMinimum && ... minimum )`, for example src/blob_detection.cpp 463-465 -/
def Setting.param (p : Setting Nat) : Param :=
  ⟨if p.checkMinimum then some p.minimum else none, if p.checkMaximum then some p.maximum else none⟩

/-- The same for `double`, src/blob_detection.cpp 428-433 -/
def Setting.fparam {F : Type} (p : Setting F) : FParam F :=
  ⟨if p.checkMinimum then some p.minimum else none, if p.checkMaximum then some p.maximum else none⟩

/-- `BlobParameters`, src/blob_detection.h 74-116 -/
structure Settings (F : Type) where
  circularity : Setting F
  elongation : Setting F
  width : Setting Nat
  height : Setting Nat
  length : Setting F
  size : Setting Nat

/-- `_reset`, src/blob_detection.h 107-115 -/
def Settings.reset {F : Type} (zero : F) (s : Settings F) : Settings F :=
  { circularity := s.circularity.reset zero
    elongation := s.elongation.reset zero
    height := s.height.reset 0
    length := s.length.reset zero
    size := s.size.reset 0
    width := s.width.reset 0 }

/-- The limits of a search with these parameters. src/blob_detection.cpp 427-477. -/
def Settings.limits {F : Type} (s : Settings F) : Limits F :=
  ⟨s.circularity.fparam, s.elongation.fparam, s.height.param, s.length.fparam, s.size.param, s.width.param⟩

/-- `isSolid`, src/blob_detection.h 299-302 -/
def BlobInfo.isSolid (b : BlobInfo) : Bool := b.contour.length == b.edge.length

end PV.Blob
