import Verif.Model.Context
import Verif.Spec.Import
import Verif.Spec.Tools

/-! Specification vocabulary for contexts (C83, C85). -/

namespace Apx

/-- The application components of a partition. -/
def applications (parts : List APartComponent) : List AComponent :=
  parts.filterMap fun p => if p.application then p.swc else none

/-- What a file contains after these writes: the last text written to it. -/
def fileAfter (written : List (Dest × Str)) (name : Str) : Option Str :=
  ((written.filter (fun w => w.1 = .file name)).getLast?).map Prod.snd

end Apx
