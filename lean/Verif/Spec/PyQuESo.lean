import Verif.Model.PyQuESo

/-! # File systems and directory names -/
namespace QuESo.Py

/-- Everything in the file system is in a directory. -/
def Sound (fs : FS) : Prop := ∀ q c, (q ++ [c] ∈ fs.dirs ∨ q ++ [c] ∈ fs.files) → fs.isDir q = true

/-- A plain name: not empty, without slashes, neither `.` nor `..`. -/
def Plain (name : Name) : Prop := name ≠ [] ∧ '/' ∉ name ∧ name ≠ ['.'] ∧ name ≠ ['.', '.']

/-- There is nothing below the place `p`. -/
def EmptyDir (fs : FS) (p : Path) : Prop := fs.isDir p = true ∧ ∀ c r, p ++ c :: r ∉ fs.dirs ∧ p ++ c :: r ∉ fs.files

end QuESo.Py
