import Verif.Model.Client

/-!
# Both directions of a connection
-/

namespace Spec

/-- The frames written, in order. -/
def written : List CAct → List Str
  | [] => []
  | .sent text :: h => text :: written h
  | _ :: h => written h

/-- The messages received, in order. -/
def gotten : List CAct → List Msg
  | [] => []
  | .got m :: h => m :: gotten h
  | _ :: h => gotten h

end Spec
