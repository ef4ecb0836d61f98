import Verif.Model.MeshView

/-! # What calls on a mesh mean, without memory -/
namespace QuESo.MView
variable {K : Type _}

/-- The contents of a mesh after one call (`none`: there is no such triangle). -/
def after (m : Mesh K) : Call K → Option (Mesh K)
  | .reserve _ => some m
  | .addVertex v => some ⟨m.vertices ++ [v], m.triangles, m.normals⟩
  | .addTriangle t nrm => some ⟨m.vertices, m.triangles ++ [t], m.normals ++ [nrm]⟩
  | .removeTriangle tid => m.removeTriangle tid
  | .clear => some ⟨[], [], []⟩

/-- The contents of a mesh after a sequence of calls. -/
def afterAll (m : Mesh K) (cs : List (Call K)) : Option (Mesh K) := cs.foldlM after m

/-- The calls keep the mesh, at every moment, within memory for `nv` vertices and `nt` triangles. -/
def Within (nv nt : Nat) (m : Mesh K) : List (Call K) → Prop
  | [] => True
  | c :: cs => (∀ n, c = .reserve n → n ≤ nt ∧ (n + 1) / 2 ≤ nv) ∧
      ∀ m', after m c = some m' → m'.vertices.length ≤ nv ∧ m'.triangles.length ≤ nt ∧ Within nv nt m' cs

end QuESo.MView
