import Verif.Model.Basic

/-!
# Model of `queso/python/PyQuESo.py`

With the parts of `queso/python/bindings/` it uses (`GetIntegrationPoints`: see `Model/BSplineVolume.lean`).
-/
namespace QuESo.Py

/-! ## Directories -/

/-- A name in a directory. -/
abbrev Name := List Char

/-- A place in the file system, as the names from the root on. -/
abbrev Path := List Name

/-- The file system.  Simplifications: no links, no permissions; the root is always a directory. -/
structure FS where
  dirs : List Path
  files : List Path
  deriving DecidableEq, Repr

/-- Is there a directory at this place? -/
def FS.isDir (fs : FS) (p : Path) : Bool := p.isEmpty || fs.dirs.contains p

/-- The parts of a file name between the slashes. -/
def split : List Char → List Name
  | [] => [[]]
  | c :: cs =>
    if c = '/' then [] :: split cs
    else match split cs with
      | [] => [[c]]
      | w :: ws => (c :: w) :: ws

/-- The name of the directory itself. -/
def dot : Name := ['.']
/-- The name of the directory above. -/
def dotdot : Name := ['.', '.']

/-- Following the parts of a file name from the directory `p` on, as the operating system does (`none`: a part is no directory). -/
def FS.walk (fs : FS) (p : Path) : List Name → Option Path
  | [] => some p
  | c :: cs =>
    if c = [] ∨ c = dot then fs.walk p cs
    else if c = dotdot then fs.walk p.dropLast cs
    else if fs.isDir (p ++ [c]) then fs.walk (p ++ [c]) cs else none

/-- Is `q` a place below `p`? -/
def below (p q : Path) : Bool := p.isPrefixOf q && decide (p.length < q.length)

/-- The result of a call: the file system afterwards, and whether it succeeded (`false`: exception). -/
abbrev Out := FS × Bool

/-- `shutil.rmtree(folder_path)` of the Python library for an existing directory at the place `p`: deletes all that is below `p`, and then the
directory itself, which the operating system refuses if the last part of the name is `.` or `..` (or there is none). -/
def rmtree (fs : FS) (p : Path) (parts : List Name) : Out :=
  let fs1 : FS := ⟨fs.dirs.filter (fun q => !below p q), fs.files.filter (fun q => !below p q)⟩
  match (parts.filter (· ≠ [])).getLast? with
  | none => (fs1, false)
  | some c => if c = dot ∨ c = dotdot then (fs1, false) else (⟨fs1.dirs.filter (· ≠ p), fs1.files⟩, true)

/-- `os.mkdir(folder_path)`: makes one directory; the one that is to hold it must exist, and there must be nothing with its name. -/
def mkdir (fs : FS) (cwd : Path) (parts : List Name) : Out :=
  let ps := parts.filter (· ≠ [])
  match ps.getLast?, fs.walk cwd ps.dropLast with
  | some c, some q =>
    if c = dot ∨ c = dotdot ∨ fs.isDir (q ++ [c]) ∨ fs.files.contains (q ++ [c]) then (fs, false)
    else (⟨fs.dirs ++ [q ++ [c]], fs.files⟩, true)
  | _, _ => (fs, false)

/-- The name of the directory, PyQuESo.py L25. -/
def folderPath (name : List Char) : List Char := ['.', '/'] ++ name ++ ['/']

/-- The part of `PyQuESo.__init__` that prepares the output directory, PyQuESo.py L22-28. -/
def prepare (fs : FS) (cwd : Path) (write : Bool) (name : List Char) : Out :=
  if write then
    let parts := split (folderPath name)
    match fs.walk cwd parts with
    | some p =>
      match rmtree fs p parts with
      | (fs1, true) => mkdir fs1 cwd parts
      | (fs1, false) => (fs1, false)
    | none => mkdir fs cwd parts
  else (fs, true)

/-- The directory in which the files of the model are written, embedded_model.cpp L299-316 (`output_directory_name + "/..."`): a name that begins with a
slash is taken from the root on. -/
def outputDir (fs : FS) (cwd : Path) (name : List Char) : Option Path :=
  match name with
  | '/' :: _ => fs.walk [] (split (name ++ ['/']))
  | _ => fs.walk cwd (split (name ++ ['/']))

/-! ## Runs -/

/-- Exceptions of Python. -/
inductive Err | attributeError | typeError | released | fromCheck | fromModel
  deriving DecidableEq, Repr

/-- The members of `PyQuESo`, PyQuESo.py L20, L33-34: the holder of the settings (`none`: `None`, `some none`: the settings were released), and the embedded
model with its settings and, if it was created, its contents. -/
structure State (S R : Type _) where
  holder : Option (Option S)
  model : Option (S × Option R)
  deriving DecidableEq, Repr

section
variable {S R : Type _}

/-- `PyQuESo.__init__`, PyQuESo.py L20. -/
def init (s : S) : State S R := ⟨some (some s), none⟩

/-- `PyQuESo.Run`, PyQuESo.py L30-35, with the constructor of the model add_containers_to_python.cpp L274-276, `UniqueHolder::Release` define_python.hpp
L47-50 and `EmbeddedModel::Create` embedded_model.h L62-65.  `check` is `CheckSettings`, `create` is `CreateAllFromSettings` (`none`: exception). -/
def run (check : S → Bool) (create : S → Option R) (st : State S R) : State S R × Option Err :=
  match st.holder with
  | none => (st, some .typeError)
  | some none => (st, some .released)
  | some (some s) =>
    if check s then
      match create s with
      | some r => (⟨none, some (s, some r)⟩, none)
      | none => (⟨none, some (s, none)⟩, some .fromModel)
    else (⟨some none, st.model⟩, some .fromCheck)

/-- `PyQuESo.GetSettings`, PyQuESo.py L53-62, with `UniqueHolder::GetObject` define_python.hpp L40-43. -/
def getSettings (st : State S R) : Except Err S :=
  match st.holder with
  | some (some s) => .ok s
  | some none => .error .released
  | none => match st.model with
    | some m => .ok m.1
    | none => .error .attributeError

/-- `PyQuESo.GetElements`, `GetConditions` and `GetModelInfo`, PyQuESo.py L37-51 and L64-70: what the model holds; before a run there is no model (the inner
`none`: the run was not completed). -/
def getModel (st : State S R) : Except Err (Option R) :=
  match st.model with
  | some m => .ok m.2
  | none => .error .attributeError

/-- Some runs, one after the other. -/
def runs (check : S → Bool) (create : S → Option R) : Nat → State S R → State S R
  | 0, st => st
  | n + 1, st => runs check create n (run check create st).1
end

end QuESo.Py
