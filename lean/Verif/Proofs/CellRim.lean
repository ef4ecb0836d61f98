import Verif.Proofs.FaceRim
import Verif.Proofs.TrimmedDomain

/-!
# The rims of the six caps of a cell
-/
namespace QuESo.Domain
open QuESo.AABBTree (Fault)
open QuESo.Spec QuESo.Clip
variable {K : Type} [Field K] [LinearOrder K] [IsStrictOrderedRing K]

/-- The set-up of a face. -/
def Env.plane (E : Env K) (m : Mesh K) (lo up : V3 K) (switch : Bool) (f : Nat × Bool) : Plane.Params K :=
  ⟨((Plane.dirs f.1 switch).getD (0, 1, 2)).1, ((Plane.dirs f.1 switch).getD (0, 1, 2)).2.1, ((Plane.dirs f.1 switch).getD (0, 1, 2)).2.2, f.2, switch, lo, up,
    GQ.relativeSnapTolerance lo up E.snaptol, E.zt, E.maxd, E.inside m lo up, E.bal, E.sortE, E.sortP⟩

omit [IsStrictOrderedRing K] in
theorem face_plane (E : Env K) (m : Mesh K) (lo up : V3 K) (switch : Bool) {f : Nat × Bool} (hf : f ∈ sixFaces) :
    E.face m lo up switch f.1 f.2 = .ok (E.plane m lo up switch f) := by
  simp only [sixFaces, List.mem_cons, List.not_mem_nil, or_false] at hf
  rcases hf with rfl | rfl | rfl | rfl | rfl | rfl <;> cases switch <;> rfl

/-- The way to a point along the edges of the cell, from the lower end of its edge; for other points of the faces, the way in its face. -/
def reach (lo up : V3 K) (g : V3 K → V3 K → K) (W : Nat × Bool → V3 K → K) (p : V3 K) : K :=
  if (p.x = lo.x ∨ p.x = up.x) ∧ (p.y = lo.y ∨ p.y = up.y) then g ⟨p.x, p.y, lo.z⟩ p
  else if (p.x = lo.x ∨ p.x = up.x) ∧ (p.z = lo.z ∨ p.z = up.z) then g ⟨p.x, lo.y, p.z⟩ p
  else if (p.y = lo.y ∨ p.y = up.y) ∧ (p.z = lo.z ∨ p.z = up.z) then g ⟨lo.x, p.y, p.z⟩ p
  else if p.x = lo.x then W (0, false) p else if p.x = up.x then W (0, true) p
  else if p.y = lo.y then W (1, false) p else if p.y = up.y then W (1, true) p
  else if p.z = lo.z then W (2, false) p else W (2, true) p

set_option maxHeartbeats 1600000 in
omit [IsStrictOrderedRing K] in
/-- On each face the way is the one of the face. -/
theorem reach_short (E : Env K) (m : Mesh K) {lo up : V3 K} (hx : lo.x < up.x) (hy : lo.y < up.y) (hz : lo.z < up.z) (switch : Bool)
    (g : V3 K → V3 K → K) {f : Nat × Bool} (hf : f ∈ sixFaces) {P : Plane.Params K} (hP : P = E.plane m lo up switch f) {p : V3 K}
    (hp : p.get P.d3 = P.face) (hc : P.proj p ≠ P.lowLeft ∧ P.proj p ≠ P.lowRight ∧ P.proj p ≠ P.topLeft ∧ P.proj p ≠ P.topRight) :
    reach lo up g (fun f p => (E.plane m lo up switch f).way ((E.plane m lo up switch f).along g) ((E.plane m lo up switch f).proj p)) p =
      P.short (P.along g) (P.proj p) := by
  subst hP
  obtain ⟨px, py, pz⟩ := p
  obtain ⟨lx, ly, lz⟩ := lo
  obtain ⟨ux, uy, uz⟩ := up
  simp only at hx hy hz
  simp only [sixFaces, List.mem_cons, List.not_mem_nil, or_false] at hf
  rcases hf with rfl | rfl | rfl | rfl | rfl | rfl <;> cases switch <;>
    simp [Env.plane, Plane.dirs, Plane.Params.face, V3.get, Plane.Params.proj, Plane.Params.lowLeft, Plane.Params.lowRight,
      Plane.Params.topLeft, Plane.Params.topRight] at hp hc <;> subst hp <;>
    simp only [reach, Plane.Params.short, Plane.Params.way, Plane.Params.along, Plane.Params.lift, Plane.Params.position, Plane.Params.lowLeft, Plane.Params.lowRight,
      Plane.Params.topLeft, Plane.Params.topRight, Env.plane, Plane.dirs, Plane.Params.proj] <;>
    simp [V3.get, V3.set, hx.ne, hx.ne', hy.ne, hy.ne', hz.ne, hz.ne'] <;>
    first
      | (by_cases a1 : py = ly <;> by_cases a2 : py = uy <;> by_cases a3 : pz = lz <;> by_cases a4 : pz = uz <;>
          first | (simp [a1, a2, a3, a4]; done) | (subst_vars; simp_all; done))
      | (by_cases a1 : px = lx <;> by_cases a2 : px = ux <;> by_cases a3 : pz = lz <;> by_cases a4 : pz = uz <;>
          first | (simp [a1, a2, a3, a4]; done) | (subst_vars; simp_all; done))
      | (by_cases a1 : px = lx <;> by_cases a2 : px = ux <;> by_cases a3 : py = ly <;> by_cases a4 : py = uy <;>
          first | (simp [a1, a2, a3, a4]; done) | (subst_vars; simp_all; done))

/-- What the corners of one face contribute. -/
def cornerRim (P : Plane.Params K) (Q : Plane.P2 K → Plane.P2 K → K) (c : V3 K → K) : K :=
  P.turn * (c (P.lift P.lowRight) * Q P.lowLeft P.lowRight + c (P.lift P.topRight) * Q P.lowRight P.topRight -
    c (P.lift P.topLeft) * Q P.lowLeft P.topLeft - c (P.lift P.topRight) * Q P.topLeft P.topRight)

omit [IsStrictOrderedRing K] in
/-- Each edge of the cell is run through in both directions. -/
theorem corner_sum (E : Env K) (m : Mesh K) (lo up : V3 K) (switch : Bool) (g : V3 K → V3 K → K) (c : V3 K → K) :
    (sixFaces.map fun f => cornerRim (E.plane m lo up switch f) ((E.plane m lo up switch f).along g) c).sum = 0 := by
  obtain ⟨lx, ly, lz⟩ := lo
  obtain ⟨ux, uy, uz⟩ := up
  cases switch <;>
    simp [sixFaces, cornerRim, Plane.Params.along, Plane.Params.lift, Plane.Params.position, Plane.Params.lowLeft, Plane.Params.lowRight,
      Plane.Params.topLeft, Plane.Params.topRight, Plane.Params.turn, Plane.Params.face, Env.plane, Plane.dirs, V3.get, V3.set] <;> ring

end QuESo.Domain
