import Verif.Basic

/-! # Specification: where a path leads

Independent of the code: resolve a path component by component, as the operating system does (no
symbolic links). -/

namespace Verif.Spec

/-- The components of a path, split at slashes. -/
def components (p : Str) : List Str :=
  match p with
  | [] => [[]]
  | c :: s =>
    if c = 47 then [] :: components s
    else
      match components s with
      | [] => [[c]]
      | x :: xs => (c :: x) :: xs

/-- A file or directory name that designates an entry of the directory itself: no slash, not empty, not
`.` or `..`. -/
def PlainName (s : Str) : Prop := s ≠ [] ∧ 47 ∉ s ∧ s ≠ b!"." ∧ s ≠ b!".."

instance (s : Str) : Decidable (PlainName s) := by unfold PlainName; infer_instance

/-- One step of path resolution from directory `dir` (a list of names from the root). -/
def enter (dir : List Str) (name : Str) : List Str :=
  if name = [] ∨ name = b!"." then dir
  else if name = b!".." then dir.dropLast
  else dir ++ [name]

/-- Where a path leads, as names from the root directory, for a process whose working directory is
`cwd`. -/
def resolve (cwd : List Str) (p : Str) : List Str :=
  (components p).foldl enter (if p.head? = some 47 then [] else cwd)

/-- The name `a` with the characters that the store replaces shown as a dash. -/
def dashed (a : Str) : Str := a.map (fun c => if c = 47 ∨ c = 92 then 45 else c)

end Verif.Spec
