import Verif.Spec.Null

/- Which settings of mounts are optional. -/

namespace Spec

/-- The types of mounts, with the keys that may be left out because there may be no such setting, and the other keys. -/
def mountKeys : List (String × List String × List String) :=
  [("volume", ["source", "volume", "consistency"], ["target", "read_only"]),
    ("bind", ["bind", "consistency"], ["source", "target", "read_only"]),
    ("tmpfs", ["tmpfs", "consistency"], ["target", "read_only"]),
    ("npipe", ["consistency"], ["source", "target", "read_only"]),
    ("cluster", ["consistency"], ["source", "target", "read_only"])]

end Spec
