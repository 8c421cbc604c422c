import Verif.Model.General

/-!
# Specification: what a directory tree contains
-/

namespace Optics

/-- What a path leads to. -/
inductive Kind where
  | file
  | link (toDir : Bool)
  | dir

/-- see `Kind` -/
def Node.kind : Node → Kind
  | .file => .file
  | .link b => .link b
  | .dir _ => .dir

/-- `Contains es path k`: in a directory with the entries `es`, the relative path `path` leads to something of kind
`k` (links are not followed). -/
inductive Contains : List (List Char × Node) → List (List Char) → Kind → Prop where
  | here {es name node} : (name, node) ∈ es → Contains es [name] node.kind
  | inside {es name sub path k} : (name, Node.dir sub) ∈ es → Contains sub path k → Contains es (name :: path) k

/-- What `os.walk` lists as a file: not a directory and not a link to one. -/
def Kind.isFile : Kind → Prop
  | .file => True
  | .link b => b = false
  | .dir => False

/-- The last name of a path ends with `ext`. -/
def LastEndsWith (ext : List Char) (path : List (List Char)) : Prop := ∃ n, path.getLast? = some n ∧ ext <:+ n

end Optics
