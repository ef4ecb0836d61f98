import Verif.Proofs.BinaryIO
import Verif.Proofs.MeshInsert
import Mathlib.Tactic.Linarith
import Mathlib.Data.List.Basic

/-! # Proofs about STL files -/
namespace QuESo.IO
open QuESo.Spec
variable {K : Type _}

/-! ## Reading -/

theorem readBytes_append {n : Nat} {a rest : List UInt8} (h : a.length = n) : readBytes n (a ++ rest) = some (a, rest) := by
  unfold readBytes
  subst h
  rw [if_pos (by simp), List.take_left, List.drop_left]

theorem readNum_append {w v : Nat} (rest : List UInt8) :
    readNum .little w (leBytes w v ++ rest) = some (v % 256 ^ w, rest) := by
  unfold readNum
  rw [readBytes_append (leBytes_length w v)]
  simp [ofMemory, ofLeBytes_leBytes]

/-- Bytes of a point. -/
def pointBytes (toF : K → UInt32) (p : V3 K) : List UInt8 :=
  leBytes 4 (toF p.x).toNat ++ (leBytes 4 (toF p.y).toNat ++ leBytes 4 (toF p.z).toNat)

theorem readPoint_append (toF : K → UInt32) (ofF : UInt32 → K) (p : V3 K) (rest : List UInt8) :
    readPoint .little ofF (pointBytes toF p ++ rest) = some (⟨ofF (toF p.x), ofF (toF p.y), ofF (toF p.z)⟩, rest) := by
  unfold readPoint pointBytes
  rw [List.append_assoc, List.append_assoc, readNum_append]
  simp only [Option.bind_some]
  rw [readNum_append]
  simp only [Option.bind_some]
  rw [readNum_append]
  have h : ∀ u : UInt32, UInt32.ofNat (u.toNat % 256 ^ 4) = u := by
    intro u
    have := u.toNat_lt
    rw [Nat.mod_eq_of_lt (by norm_num; exact this)]
    simp
  simp only [h, Option.map_some]

/-- Bytes of a triangle. -/
def triBytes (toF : K → UInt32) (t : Tri K) : List UInt8 :=
  pointBytes toF t.normal ++ (pointBytes toF t.p1 ++ (pointBytes toF t.p2 ++ (pointBytes toF t.p3 ++ leBytes 2 0)))

theorem stlTriangle_bytes (toF : K → UInt32) (t : Tri K) : (stlTriangle toF t).flatMap (opBytes .little) = triBytes toF t := by
  unfold stlTriangle stlCoords triBytes pointBytes
  simp only [List.flatMap_cons, List.flatMap_nil, opBytes, List.append_nil, List.map_cons, List.map_nil, List.append_assoc]
  simp only [encode_little]

theorem triangles_bytes (toF : K → UInt32) (ts : List (Tri K)) :
    (ts.flatMap (stlTriangle toF)).flatMap (opBytes .little) = ts.flatMap (triBytes toF) := by
  induction ts with
  | nil => rfl
  | cons t ts ih => rw [List.flatMap_cons, List.flatMap_append, stlTriangle_bytes, ih, List.flatMap_cons]

/-- Rounded corners. -/
def rcorners (toF : K → UInt32) (ofF : UInt32 → K) (t : Tri K) : V3 (V3 K) :=
  ⟨⟨ofF (toF t.p1.x), ofF (toF t.p1.y), ofF (toF t.p1.z)⟩, ⟨ofF (toF t.p2.x), ofF (toF t.p2.y), ofF (toF t.p2.z)⟩,
   ⟨ofF (toF t.p3.x), ofF (toF t.p3.y), ofF (toF t.p3.z)⟩⟩

theorem pointBytes_length (toF : K → UInt32) (p : V3 K) : (pointBytes toF p).length = 12 := by
  simp [pointBytes, leBytes_length]

theorem readTriangle_append (toF : K → UInt32) (ofF : UInt32 → K) (lookup : List (V3 K) → V3 K → Option Nat)
    (normalOf : V3 K → V3 K → V3 K → V3 K) (m : Mesh K) (t : Tri K) (rest : List UInt8) :
    readTriangle .little ofF lookup normalOf m (triBytes toF t ++ rest) =
      some (addCorners lookup normalOf m (rcorners toF ofF t), rest) := by
  unfold readTriangle triBytes
  simp only [List.append_assoc]
  rw [readBytes_append (pointBytes_length toF t.normal)]
  simp only [Option.bind_some]
  rw [readPoint_append]
  simp only [Option.bind_some]
  rw [readPoint_append]
  simp only [Option.bind_some]
  rw [readPoint_append]
  simp only [Option.bind_some]
  rw [readBytes_append (leBytes_length 2 0)]
  rfl

theorem readTriangles_append (toF : K → UInt32) (ofF : UInt32 → K) (lookup : List (V3 K) → V3 K → Option Nat)
    (normalOf : V3 K → V3 K → V3 K → V3 K) (ts : List (Tri K)) (m : Mesh K) (rest : List UInt8) :
    readTriangles .little ofF lookup normalOf ts.length m (ts.flatMap (triBytes toF) ++ rest) =
      some ((ts.map (rcorners toF ofF)).foldl (addCorners lookup normalOf) m) := by
  induction ts generalizing m with
  | nil => rfl
  | cons t ts ih =>
    rw [List.flatMap_cons, List.append_assoc, List.length_cons, readTriangles, readTriangle_append]
    simp only [Option.bind_some]
    rw [ih]
    rfl

theorem stlHeader_length : stlHeader.length = 80 := by decide +kernel

/-- The whole file. -/
theorem writeSTL_eq (host : Endian) (toF : K → UInt32) {m : Mesh K} {ts : List (Tri K)} (h : m.visit = some ts)
    (hn : m.triangles.length < 2 ^ 32) :
    writeSTL host toF m = some (stlHeader ++ (leBytes 4 m.triangles.length ++ ts.flatMap (triBytes toF))) := by
  simp only [writeSTL, h, Option.bind_some, session_eq]
  rw [List.flatMap_append, triangles_bytes]
  simp only [List.flatMap_cons, List.flatMap_nil, opBytes, List.append_nil, List.nil_append, encode_little,
    List.append_assoc]
  rw [UInt32.toNat_ofNat', Nat.mod_eq_of_lt hn]

theorem readSTL_eq (toF : K → UInt32) (ofF : UInt32 → K) (lookup : List (V3 K) → V3 K → Option Nat)
    (normalOf : V3 K → V3 K → V3 K → V3 K) (ts : List (Tri K)) (n : Nat) (hn : n < 2 ^ 32) (hts : ts.length = n) :
    readSTL .little ofF lookup normalOf (stlHeader ++ (leBytes 4 n ++ ts.flatMap (triBytes toF))) =
      if ((ts.map (rcorners toF ofF)).foldl (addCorners lookup normalOf) Mesh.empty).check then
        .ok ((ts.map (rcorners toF ofF)).foldl (addCorners lookup normalOf) Mesh.empty) else .error := by
  unfold readSTL
  rw [readBytes_append stlHeader_length]
  simp only [Option.bind_some]
  rw [readNum_append]
  simp only [Option.bind_some]
  rw [Nat.mod_eq_of_lt (by norm_num; exact hn), ← hts, ← List.append_nil (ts.flatMap (triBytes toF)), readTriangles_append]

theorem fileLines_head (b : UInt8) (hb : b ≠ 10) (rest : List UInt8) :
    ∃ l fl ls, fileLines (b :: rest) = (b :: l, fl) :: ls := by
  unfold fileLines
  rw [linesFrom, if_neg hb]
  have key : ∀ (rest cur : List UInt8), cur.getLast? = some b → ∃ l fl ls, linesFrom cur rest = (b :: l, fl) :: ls := by
    intro rest
    induction rest with
    | nil =>
      intro cur hc
      obtain ⟨ys, hys⟩ := List.getLast?_eq_some_iff.1 hc
      subst hys
      exact ⟨ys.reverse, false, [], by simp [linesFrom]⟩
    | cons c rest ih =>
      intro cur hc
      rw [linesFrom]
      split
      · obtain ⟨ys, hys⟩ := List.getLast?_eq_some_iff.1 hc
        subst hys
        exact ⟨ys.reverse, true, _, by simp; rfl⟩
      · apply ih
        obtain ⟨ys, hys⟩ := List.getLast?_eq_some_iff.1 hc
        rw [hys, ← List.cons_append]
        exact List.getLast?_concat ..
  exact key rest [b] rfl

theorem encoding_binary (b : UInt8) (h1 : b ≠ 10) (h2 : b ≠ 115) (rest : List UInt8) : encodingType (b :: rest) = .binary := by
  obtain ⟨l, fl, ls, h⟩ := fileLines_head b h1 rest
  unfold encodingType
  rw [h]
  have : ascii "solid" = [115, 111, 108, 105, 100] := by decide +kernel
  rw [this]
  simp [List.isPrefixOf, Ne.symm h2]

end QuESo.IO
