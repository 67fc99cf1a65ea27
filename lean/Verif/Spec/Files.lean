import Verif.Model.Effects

/-! # Files that matter for a call -/

namespace Soepy.Spec
variable {S K : Type} [Field K] [LinearOrder K]

/-- The parameter frame is the same on both disks. -/
def SameFrame (d d' : Disk K) : FrameArg K → Prop
  | .path name => d.frames name = d'.frames name
  | _ => True

/-- The specification is the same on both disks. -/
def SameSpec (d d' : Disk K) : SpecArg → Prop
  | .path name => d.specs name = d'.specs name
  | .obj _ => True

/-- The eight tables named by a specification are the same on both disks, or missing on both. -/
def SameTables (d d' : Disk K) (names : FileNames) : Prop :=
  ∀ name ∈ [names.educ_shares, names.child_age_shares, names.partner_shares, names.pt_exp_shares,
    names.ft_exp_shares, names.child_info, names.partner_separation, names.partner_arrival],
    d.shares name = d'.shares name

/-- `text` is the file name of a package file in the current directory: `x.soepy.y` where `x` is not empty and does not
begin with a dot, without a slash. -/
def PackageFile (text : String) : Prop :=
  '/' ∉ text.toList ∧ ∃ c x y, c ≠ '.' ∧ text.toList = c :: x ++ ".soepy.".toList ++ y

end Soepy.Spec
