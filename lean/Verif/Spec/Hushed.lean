import Verif.Model.Basic
/-
File systems whose unreadable directories look empty: vocabulary for C32.
-/
namespace Traverse

mutual
/-- Every directory that cannot be read replaced by an empty one that can; everything else as it is. -/
def FS.hushed : FS → FS
  | .file n ie re => .file n ie re
  | .dir n ie re kids => if re.isSome then .dir n ie none [] else .dir n ie none (FS.hushedL kids)
def FS.hushedL : List FS → List FS
  | [] => []
  | f :: fs => f.hushed :: FS.hushedL fs
end

end Traverse
