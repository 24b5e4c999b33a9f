import Verif.Std.Content

/- Documents in which one setting has been edited. -/

namespace Spec
open Rust

/-- The setting at a path has been edited: it has another value, or it has been added or taken out.  A path is the list of
the keys that lead to the setting.  None of them is repeated in its mapping. -/
inductive Edited : List Str → Content → Content → Prop
  | here {v w : Content} : Edited [] v w
  | value {a b : List (Content × Content)} {k : Str} {p : List Str} {v w : Content} : .str k ∉ (a ++ b).map (·.1) → Edited p v w →
      Edited (k :: p) (.map (a ++ (.str k, v) :: b)) (.map (a ++ (.str k, w) :: b))
  | add {a b : List (Content × Content)} {k : Str} {w : Content} : .str k ∉ (a ++ b).map (·.1) →
      Edited [k] (.map (a ++ b)) (.map (a ++ (.str k, w) :: b))
  | remove {a b : List (Content × Content)} {k : Str} {v : Content} : .str k ∉ (a ++ b).map (·.1) →
      Edited [k] (.map (a ++ (.str k, v) :: b)) (.map (a ++ b))

/-- Two documents differ at most in the setting at a path.  All other entries of the mappings on the way to it are the same,
but for their order.  Where a mapping on the way is missing in one of the documents, the other is compared with an empty
mapping. -/
inductive DifferAt : List Str → Content → Content → Prop
  | here {v w : Content} : DifferAt [] v w
  | same {p : List Str} {v : Content} : DifferAt p v v
  | order {k : Str} {p : List Str} {es fs : List (Content × Content)} : es.Perm fs → DifferAt (k :: p) (.map es) (.map fs)
  | value {k : Str} {p : List Str} {es fs others : List (Content × Content)} {v w : Content} :
      es.Perm ((.str k, v) :: others) → fs.Perm ((.str k, w) :: others) → DifferAt p v w → DifferAt (k :: p) (.map es) (.map fs)
  | missingLeft {k : Str} {p : List Str} {es fs : List (Content × Content)} {w : Content} :
      fs.Perm ((.str k, w) :: es) → DifferAt p (.map []) w → DifferAt (k :: p) (.map es) (.map fs)
  | missingRight {k : Str} {p : List Str} {es fs : List (Content × Content)} {v : Content} :
      es.Perm ((.str k, v) :: fs) → DifferAt p v (.map []) → DifferAt (k :: p) (.map es) (.map fs)

end Spec
