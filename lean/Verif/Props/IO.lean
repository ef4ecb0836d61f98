import Verif.Proofs.STLAscii
import Mathlib.Tactic.NormNum
import Mathlib.Data.Rat.Lemmas
import Mathlib.Algebra.Order.Ring.Unbundled.Rat

/-!
# Properties C38, C39, C40, C47, C52: files

`session host endian size file ops` is the block of a `BinaryBufferWriter` with buffer capacity `size` on a file.
-/
namespace QuESo.Props
open QuESo.IO QuESo.Spec
variable {K : Type _}

/-! ## C38 Buffered output -/

/-- For every capacity, byte order and sequence of calls the block succeeds (no access outside the buffer) and the
file finally contains its old contents followed by the bytes of all calls in order. -/
theorem C38_concatenation (host endian : Endian) (size : Nat) (file : List UInt8) (ops : List WriteOp) :
    session host endian size file ops = some (file ++ ops.flatMap (opBytes endian)) :=
  session_eq host endian size file ops

/-- At every moment: the buffer has not grown and is not overrun, and what has reached the file is a prefix of what
was written, the rest being in the buffer.  So a crash leaves a prefix. -/
theorem C38_every_moment (host endian : Endian) (size : Nat) (file : List UInt8) (ops : List WriteOp) :
    ∃ w, (Writer.new file endian size).run host ops = some w ∧ w.mem.length = size ∧ w.pos ≤ size ∧
      w.out ++ w.mem.take w.pos = file ++ ops.flatMap (opBytes endian) ∧
      w.out <+: file ++ ops.flatMap (opBytes endian) ∧ file <+: w.out := by
  obtain ⟨w, r1, r2, r3, _, e, r5⟩ := run_spec host ops (new_ok file endian size)
  refine ⟨w, r1, r2.1, r2.2, ?_, ?_, ?_⟩
  · have : w.content = w.out ++ w.mem.take w.pos := rfl
    rw [← this, r3]
    simp [Writer.content, Writer.new]
  · have : w.content = file ++ ops.flatMap (opBytes endian) := by rw [r3]; simp [Writer.content, Writer.new]
    rw [← this]
    exact ⟨_, rfl⟩
  · rw [r5]; exact ⟨e, rfl⟩

/-- Values that fit, that force a flush, and that are larger than the buffer. -/
example : (session .little .big 3 [9] [.value 2 0x0102, .value 2 0x0304, .raw [1, 2, 3, 4], .flush, .array 1 [7, 8]]) =
    some [9, 1, 2, 3, 4, 1, 2, 3, 4, 7, 8] := by decide +kernel
/-- Capacity zero. -/
example : session .little .little 0 [] [.value 2 0x0102, .raw []] = some [2, 1] := by decide +kernel

/-! ## C39 Byte order -/

/-- On hosts of either byte order the bytes handed over for a value are its bytes in the requested order. -/
theorem C39_byte_order (host target : Endian) (width v : Nat) :
    valueBytes host target width v = encode target width v := valueBytes_eq host target width v

/-- Swapping reverses the bytes; twice is the identity. -/
theorem C39_swap (bytes : List UInt8) : swapEnd bytes = bytes.reverse ∧ swapEnd (swapEnd bytes) = bytes := by
  rw [swapEnd_eq, swapEnd_eq]; simp

/-- The little-endian bytes determine the value. -/
theorem C39_decode (width v : Nat) (hv : v < 256 ^ width) : ofLeBytes (valueBytes .big .little width v) = v := by
  rw [valueBytes_eq, encode_little, ofLeBytes_leBytes, Nat.mod_eq_of_lt hv]

example : valueBytes .little .big 4 0x01020304 = [1, 2, 3, 4] ∧ valueBytes .big .little 4 0x01020304 = [4, 3, 2, 1] := by
  decide +kernel
example : swapEnd [1, 2, 3, 4, 5] = [5, 4, 3, 2, 1] := by decide +kernel

/-! ## C40 Binary STL files -/

/-- Size: 84 bytes and 50 bytes for every triangle, on hosts of either byte order. -/
theorem C40_file_size (host : Endian) (toF : K → UInt32) (m : Mesh K) (hm : m.check = true) (hn : m.triangles.length < 2 ^ 32) :
    ∃ file, writeSTL host toF m = some file ∧ file.length = 84 + 50 * m.triangles.length := by
  obtain ⟨ts, hts⟩ := check_visit hm
  refine ⟨_, writeSTL_eq host toF hts hn, ?_⟩
  have : (ts.flatMap (triBytes toF)).length = 50 * ts.length := by
    rw [List.length_flatMap]
    have : (ts.map (fun a => (triBytes toF a).length)) = ts.map (fun _ => 50) := by
      refine List.map_congr_left fun t _ => ?_
      simp [triBytes, pointBytes_length, leBytes_length]
    rw [this]
    simp [Nat.mul_comm]
  rw [List.length_append, List.length_append, stlHeader_length, leBytes_length, this, (visit_spec hts).1]
  omega

/-- Whatever the map answers (as long as it names an existing key): a written file is recognised as binary, reading
it succeeds and gives the same number of triangles with valid indices. -/
theorem C40_any_lookup (toF : K → UInt32) (ofF : UInt32 → K) (lookup : List (V3 K) → V3 K → Option Nat)
    (hl : ∀ keys v i, lookup keys v = some i → i < keys.length) (normalOf : V3 K → V3 K → V3 K → V3 K) (m : Mesh K)
    (hm : m.check = true) (hn : m.triangles.length < 2 ^ 32) :
    ∃ file m', writeSTL .little toF m = some file ∧ encodingType file = .binary ∧
      readSTL .little ofF lookup normalOf file = .ok m' ∧ m'.triangles.length = m.triangles.length ∧ m'.check = true := by
  obtain ⟨ts, hts⟩ := check_visit hm
  obtain ⟨v1, _⟩ := visit_spec hts
  have h0 : (Mesh.empty : Mesh K).check = true := rfl
  obtain ⟨a1, a2⟩ := addAll_any hl normalOf (ts.map (rcorners toF ofF)) h0
  refine ⟨_, _, writeSTL_eq .little toF hts hn, ?_, ?_, ?_, a1⟩
  · have : ∃ rest, stlHeader = 66 :: rest := ⟨_, rfl⟩
    obtain ⟨rest, hr⟩ := this
    rw [hr, List.cons_append]
    exact encoding_binary 66 (by decide) (by decide) _
  · rw [readSTL_eq toF ofF lookup normalOf ts _ hn v1, if_pos a1]
  · rw [a2]; simp [v1, Mesh.empty]

section exact
variable [Field K] [LinearOrder K] [IsStrictOrderedRing K]

/-- On a little-endian host, if the rounded coordinates of different corners are equal or further apart than the
tolerance: reading a written file gives the same triangles in the same order with rounded corner coordinates.
Partial: big-endian hosts and nearly equal corners are not covered; see `C40_false_big_endian` and
`C40_false_close_corners`. -/
theorem C40_round_trip_partial (toF : K → UInt32) (ofF : UInt32 → K) (tol : K) (ht : 0 < tol)
    (lookup : List (V3 K) → V3 K → Option Nat) (hl : MapLookup (pointLt tol) lookup)
    (normalOf : V3 K → V3 K → V3 K → V3 K) (m : Mesh K) (hm : m.check = true) (hn : m.triangles.length < 2 ^ 32)
    (hs : Separated tol (meshCorners (fun x => ofF (toF x)) m)) :
    ∃ file m', writeSTL .little toF m = some file ∧ readSTL .little ofF lookup normalOf file = .ok m' ∧
      m'.triangles.length = m.triangles.length ∧
      ∀ i, m'.corners i = (m.corners i).map (roundCorners (fun x => ofF (toF x))) := by
  obtain ⟨ts, hts⟩ := check_visit hm
  obtain ⟨v1, v2⟩ := visit_spec hts
  have hc : ∀ c ∈ ts.map (rcorners toF ofF), c.x ∈ meshCorners (fun x => ofF (toF x)) m ∧
      c.y ∈ meshCorners (fun x => ofF (toF x)) m ∧ c.z ∈ meshCorners (fun x => ofF (toF x)) m := by
    intro c hcm
    obtain ⟨t, ht', rfl⟩ := List.mem_map.1 hcm
    obtain ⟨i, hi⟩ := List.mem_iff_getElem?.1 ht'
    have hlt := (List.getElem?_eq_some_iff.1 hi).1
    have hci : m.corners i = some ⟨t.p1, t.p2, t.p3⟩ := by rw [v2 i, hi]; rfl
    have hmem : ∀ x, x ∈ ([(rcorners toF ofF t).x, (rcorners toF ofF t).y, (rcorners toF ofF t).z] : List (V3 K)) →
        x ∈ meshCorners (fun x => ofF (toF x)) m := by
      intro x hx
      unfold meshCorners
      rw [List.mem_flatMap]
      refine ⟨i, List.mem_range.2 (by omega), ?_⟩
      rw [hci]
      exact hx
    exact ⟨hmem _ (by simp), hmem _ (by simp), hmem _ (by simp)⟩
  have h0 : HasCorners (Mesh.empty : Mesh K) [] := ⟨rfl, rfl, fun i => by simp [Mesh.corners, Mesh.empty]⟩
  have hA := addAll_exact ht hs hl normalOf (ts.map (rcorners toF ofF)) hc (m := Mesh.empty) (by simp [Mesh.empty]) h0
  refine ⟨_, (ts.map (rcorners toF ofF)).foldl (addCorners lookup normalOf) Mesh.empty, writeSTL_eq .little toF hts hn, ?_, ?_, ?_⟩
  · rw [readSTL_eq toF ofF lookup normalOf ts _ hn v1, if_pos (hasCorners_check hA)]
  · rw [hA.2.1]; simp [v1]
  · intro i
    rw [hA.2.2 i, v2 i]
    simp only [List.nil_append, List.getElem?_map, Option.map_map]
    rfl

end exact

/-- Bit patterns of small integers, standing for single-precision numbers in the examples. -/
def exToF (x : ℚ) : UInt32 := UInt32.ofNat x.num.toNat
def exOfF (u : UInt32) : ℚ := u.toNat
def exLookup (tol : ℚ) (keys : List (V3 ℚ)) (v : V3 ℚ) : Option Nat :=
  keys.findIdx? (fun k => !pointLt tol v k && !pointLt tol k v)
def exNormal (_ _ _ : V3 ℚ) : V3 ℚ := ⟨0, 0, 0⟩

/-- Searching all keys meets the contract of the map. -/
theorem exLookup_ok (tol : ℚ) : MapLookup (pointLt tol) (exLookup tol) := by
  intro keys v _
  unfold exLookup
  refine ⟨fun i hi => ?_, fun hnone k hk => ?_⟩
  · obtain ⟨h1, h2, _⟩ := List.findIdx?_eq_some_iff_getElem.1 hi
    refine ⟨keys[i], List.getElem?_eq_getElem h1, ?_⟩
    simpa using h2
  · have := List.findIdx?_eq_none_iff.1 hnone k hk
    cases h1 : pointLt tol v k <;> cases h2 : pointLt tol k v <;> simp_all

/-- Two triangles that share an edge. -/
def exMesh : Mesh ℚ :=
  ⟨[⟨0, 0, 0⟩, ⟨1, 0, 0⟩, ⟨0, 1, 0⟩, ⟨0, 0, 2⟩], [⟨0, 1, 2⟩, ⟨1, 0, 3⟩], [⟨0, 0, 1⟩, ⟨0, 1, 0⟩]⟩
example : exMesh.check = true := by decide +kernel
example : Separated (1/2) (meshCorners (fun x => exOfF (exToF x)) exMesh) := by
  have : meshCorners (fun x => exOfF (exToF x)) exMesh =
      [⟨0, 0, 0⟩, ⟨1, 0, 0⟩, ⟨0, 1, 0⟩, ⟨1, 0, 0⟩, ⟨0, 0, 0⟩, ⟨0, 0, 2⟩] := by decide +kernel
  rw [this]
  unfold Separated
  decide +kernel

/-- The file is always written in little-endian order but read in the order of the host: on a big-endian host the
library cannot read its own files. -/
theorem C40_false_big_endian : ∃ file, writeSTL .big exToF exMesh = some file ∧
    readSTL .big exOfF (exLookup (1/2)) exNormal file = .error := by
  obtain ⟨ts, hts⟩ := check_visit (m := exMesh) (by decide +kernel)
  refine ⟨_, writeSTL_eq .big exToF hts (by decide), ?_⟩
  have hts' : ts = [⟨⟨0, 0, 0⟩, ⟨1, 0, 0⟩, ⟨0, 1, 0⟩, ⟨0, 0, 1⟩⟩, ⟨⟨1, 0, 0⟩, ⟨0, 0, 0⟩, ⟨0, 0, 2⟩, ⟨0, 1, 0⟩⟩] := by
    have : exMesh.visit = some [⟨⟨0, 0, 0⟩, ⟨1, 0, 0⟩, ⟨0, 1, 0⟩, ⟨0, 0, 1⟩⟩, ⟨⟨1, 0, 0⟩, ⟨0, 0, 0⟩, ⟨0, 0, 2⟩, ⟨0, 1, 0⟩⟩] := by
      decide +kernel
    rw [this] at hts
    exact (Option.some.inj hts).symm
  subst hts'
  decide +kernel

/-- Corners closer than the tolerance are merged, also if their rounded coordinates differ: a triangle of that size
is read as a degenerate one. -/
theorem C40_false_close_corners : ∃ file m', writeSTL .little exToF exMesh = some file ∧
    readSTL .little exOfF (exLookup 5) exNormal file = .ok m' ∧ m'.corners 0 = some ⟨⟨0, 0, 0⟩, ⟨0, 0, 0⟩, ⟨0, 0, 0⟩⟩ ∧
    exMesh.corners 0 = some ⟨⟨0, 0, 0⟩, ⟨1, 0, 0⟩, ⟨0, 1, 0⟩⟩ := by
  obtain ⟨ts, hts⟩ := check_visit (m := exMesh) (by decide +kernel)
  have hts' : ts = [⟨⟨0, 0, 0⟩, ⟨1, 0, 0⟩, ⟨0, 1, 0⟩, ⟨0, 0, 1⟩⟩, ⟨⟨1, 0, 0⟩, ⟨0, 0, 0⟩, ⟨0, 0, 2⟩, ⟨0, 1, 0⟩⟩] := by
    have : exMesh.visit = some [⟨⟨0, 0, 0⟩, ⟨1, 0, 0⟩, ⟨0, 1, 0⟩, ⟨0, 0, 1⟩⟩, ⟨⟨1, 0, 0⟩, ⟨0, 0, 0⟩, ⟨0, 0, 2⟩, ⟨0, 1, 0⟩⟩] := by
      decide +kernel
    rw [this] at hts
    exact (Option.some.inj hts).symm
  subst hts'
  refine ⟨_, ⟨[⟨0, 0, 0⟩], [⟨0, 0, 0⟩, ⟨0, 0, 0⟩], [⟨0, 0, 0⟩, ⟨0, 0, 0⟩]⟩, writeSTL_eq .little exToF hts (by decide), ?_, by decide +kernel, by decide +kernel⟩
  decide +kernel

/-! ## C52 STL files in text format -/

/-- Reading a text file that was written from a mesh, where numbers are printed in fixed notation and printed numbers
are read as `g`: the file is recognised as text, reading succeeds, never uses a number that was not read, and gives
the same number of triangles with valid indices, whatever the map answers. -/
theorem C52_any_lookup (fmt : K → List UInt8) (hf : ∀ x, NumberText (fmt x)) (parse : List UInt8 → Option K) (g : K → K)
    (hp : ∀ x, parse (fmt x) = some (g x)) (lookup : List (V3 K) → V3 K → Option Nat)
    (hl : ∀ keys v i, lookup keys v = some i → i < keys.length) (normalOf : V3 K → V3 K → V3 K → V3 K) (m : Mesh K)
    (hm : m.check = true) :
    ∃ file m', writeAscii fmt m = some file ∧ encodingType file = .ascii ∧
      readAscii parse lookup normalOf file = .ok m' ∧ m'.triangles.length = m.triangles.length ∧ m'.check = true := by
  obtain ⟨ts, hts⟩ := check_visit hm
  obtain ⟨v1, _⟩ := visit_spec hts
  have h0 : (Mesh.empty : Mesh K).check = true := rfl
  obtain ⟨a1, a2⟩ := addAll_any hl normalOf (ts.map (gcorners g)) h0
  refine ⟨((asciiLines fmt ts).map (fun l => l ++ [10])).flatten, _, ?_, encoding_ascii hf ts, ?_, ?_, a1⟩
  · unfold writeAscii
    rw [hts]
    rfl
  · rw [readAscii_eq hf hp, if_pos a1]
  · rw [a2]; simp [v1, Mesh.empty]

section exactAscii
variable [Field K] [LinearOrder K] [IsStrictOrderedRing K]

/-- The same with the corner coordinates, if the coordinates read are equal or further apart than the tolerance. -/
theorem C52_round_trip (fmt : K → List UInt8) (hf : ∀ x, NumberText (fmt x)) (parse : List UInt8 → Option K) (g : K → K)
    (hp : ∀ x, parse (fmt x) = some (g x)) (tol : K) (ht : 0 < tol)
    (lookup : List (V3 K) → V3 K → Option Nat) (hl : MapLookup (pointLt tol) lookup)
    (normalOf : V3 K → V3 K → V3 K → V3 K) (m : Mesh K) (hm : m.check = true) (hs : Separated tol (meshCorners g m)) :
    ∃ file m', writeAscii fmt m = some file ∧ readAscii parse lookup normalOf file = .ok m' ∧
      m'.triangles.length = m.triangles.length ∧ ∀ i, m'.corners i = (m.corners i).map (roundCorners g) := by
  obtain ⟨ts, hts⟩ := check_visit hm
  obtain ⟨v1, v2⟩ := visit_spec hts
  have hc : ∀ c ∈ ts.map (gcorners g), c.x ∈ meshCorners g m ∧ c.y ∈ meshCorners g m ∧ c.z ∈ meshCorners g m := by
    intro c hcm
    obtain ⟨t, ht', rfl⟩ := List.mem_map.1 hcm
    obtain ⟨i, hi⟩ := List.mem_iff_getElem?.1 ht'
    have hlt := (List.getElem?_eq_some_iff.1 hi).1
    have hci : m.corners i = some ⟨t.p1, t.p2, t.p3⟩ := by rw [v2 i, hi]; rfl
    have hmem : ∀ x, x ∈ ([(gcorners g t).x, (gcorners g t).y, (gcorners g t).z] : List (V3 K)) → x ∈ meshCorners g m := by
      intro x hx
      unfold meshCorners
      rw [List.mem_flatMap]
      refine ⟨i, List.mem_range.2 (by omega), ?_⟩
      rw [hci]
      exact hx
    exact ⟨hmem _ (by simp), hmem _ (by simp), hmem _ (by simp)⟩
  have h0 : HasCorners (Mesh.empty : Mesh K) [] := ⟨rfl, rfl, fun i => by simp [Mesh.corners, Mesh.empty]⟩
  have hA := addAll_exact ht hs hl normalOf (ts.map (gcorners g)) hc (m := Mesh.empty) (by simp [Mesh.empty]) h0
  refine ⟨((asciiLines fmt ts).map (fun l => l ++ [10])).flatten,
    (ts.map (gcorners g)).foldl (addCorners lookup normalOf) Mesh.empty, ?_, ?_, ?_, ?_⟩
  · unfold writeAscii
    rw [hts]
    rfl
  · rw [readAscii_eq hf hp, if_pos (hasCorners_check hA)]
  · rw [hA.2.1]; simp [v1]
  · intro i
    rw [hA.2.2 i, v2 i]
    simp only [List.nil_append, List.getElem?_map, Option.map_map]
    rfl

end exactAscii

/-- Printing of the digits 0 to 9 and the text '0' otherwise, as an example of a number format. -/
def exFmt (x : ℚ) : List UInt8 := [UInt8.ofNat (48 + (x.num.toNat) % 10)]
def exParse (txt : List UInt8) : Option ℚ := (txt.head?).map (fun b => ((b.toNat - 48 : Nat) : ℚ))
example : exParse (exFmt 7) = some 7 := by decide +kernel
theorem exFmt_number (x : ℚ) : NumberText (exFmt x) := by
  refine ⟨by simp [exFmt], fun b hb => Or.inr (Or.inr ?_)⟩
  rw [exFmt, List.mem_singleton] at hb
  subst hb
  have : ∀ k : Fin 10, 48 ≤ UInt8.ofNat (48 + k.val) ∧ UInt8.ofNat (48 + k.val) ≤ 57 := by decide +kernel
  exact this ⟨x.num.toNat % 10, Nat.mod_lt _ (by norm_num)⟩
example : (writeAscii exFmt exMesh).map (readAscii exParse (exLookup (1/2)) exNormal) =
    some (.ok ⟨[⟨0, 0, 0⟩, ⟨1, 0, 0⟩, ⟨0, 1, 0⟩, ⟨0, 0, 2⟩], [⟨0, 1, 2⟩, ⟨1, 0, 3⟩], [⟨0, 0, 0⟩, ⟨0, 0, 0⟩]⟩) := by decide +kernel

/-- Not every text file can be read: if the name in the first line contains the word 'facet' the reader takes this
line for a facet and fails. -/
theorem C52_name_with_facet : readAscii exParse (exLookup (1/2)) exNormal
    (([ascii "solid facet_model"] ++ asciiTriangle exFmt ⟨⟨0, 0, 0⟩, ⟨1, 0, 0⟩, ⟨0, 1, 0⟩, ⟨0, 0, 1⟩⟩ ++
      [ascii "endsolid facet_model"]).map (fun l => l ++ [10])).flatten = .error := by decide +kernel

/-! ## C47 Order used to merge vertices -/

section order
variable [Field K] [LinearOrder K] [IsStrictOrderedRing K]

/-- On points whose coordinates are equal or further apart than the tolerance the comparison is a strict weak order
(and equivalent points are equal).  Partial: it is not one on arbitrary points, see `C47_false_of_code`. -/
theorem C47_strict_weak_partial (tol : K) (ht : 0 < tol) (l : List (V3 K)) (hs : Separated tol l) :
    StrictWeakOn (pointLt tol) l ∧
    ∀ a ∈ l, ∀ b ∈ l, pointLt tol a b = false → pointLt tol b a = false → a = b := by
  refine ⟨separated_weak ht hs, fun a ha b hb h1 h2 => lex_eq ?_ ?_⟩
  · intro h; rw [(pointLt_iff ht hs ha hb).2 h] at h1; cases h1
  · intro h; rw [(pointLt_iff ht hs hb ha).2 h] at h2; cases h2

/-- Irreflexive and asymmetric on all points, for every positive tolerance. -/
theorem C47_asymmetric (tol : K) (ht : 0 < tol) (a b : V3 K) :
    pointLt tol a a = false ∧ (pointLt tol a b = true → pointLt tol b a = false) := by
  have hsym : ∀ x y : K, max (x - y) (-(x - y)) = max (y - x) (-(y - x)) := by
    intro x y
    rw [show x - y = -(y - x) by ring, neg_neg, max_comm]
  constructor
  · unfold pointLt
    simp only [sub_self, neg_zero, max_self, ht, if_true, decide_eq_false_iff_not, not_lt]
    linarith
  · unfold pointLt
    rw [hsym b.x a.x, hsym b.y a.y]
    split_ifs <;> simp only [decide_eq_true_eq, decide_eq_false_iff_not, not_lt] <;> intro h <;> linarith

/-- For every positive tolerance: equivalence of points is not transitive, and the order itself is not transitive, so
the comparison is not a strict weak order, which `std::map` requires. -/
theorem C47_false_of_code (tol : K) (ht : 0 < tol) :
    (∃ a b c : V3 K, (pointLt tol a b = false ∧ pointLt tol b a = false) ∧ (pointLt tol b c = false ∧ pointLt tol c b = false) ∧
      pointLt tol a c = true) ∧
    (∃ a b c : V3 K, pointLt tol a b = true ∧ pointLt tol b c = true ∧ pointLt tol a c = false) := by
  have h1 : max (-(tol * (3/4))) (tol * (3/4)) = tol * (3/4) := max_eq_right (by linarith)
  have h2 : max (tol * (3/4)) (-(tol * (3/4))) = tol * (3/4) := max_eq_left (by linarith)
  have h3 : max (-(tol * (3/2))) (tol * (3/2)) = tol * (3/2) := max_eq_right (by linarith)
  have h4 : max (tol * (3/2)) (-(tol * (3/2))) = tol * (3/2) := max_eq_left (by linarith)
  constructor
  · refine ⟨⟨0, 0, 0⟩, ⟨tol * (3/4), 0, 0⟩, ⟨tol * (3/2), 0, 0⟩, ?_, ?_, ?_⟩
    · simp only [pointLt, zero_sub, sub_zero, neg_neg, h1, h2, neg_zero, max_self]
      rw [if_pos (by linarith), if_pos ht]
      simp [ht.le]
      intro h; linarith
    · have e : tol * (3/4) - tol * (3/2) = -(tol * (3/4)) := by ring
      have e' : tol * (3/2) - tol * (3/4) = tol * (3/4) := by ring
      simp only [pointLt, e, e', sub_zero, neg_neg, h1, h2, neg_zero, max_self]
      rw [if_pos (by linarith), if_pos ht]
      simp [ht.le]
      intro h; linarith
    · simp only [pointLt, zero_sub, neg_neg, h3]
      rw [if_neg (by linarith)]
      simp only [decide_eq_true_eq]
      linarith
  · -- a < b and b < c by the second coordinate, but the first coordinates of a and c are apart
    refine ⟨⟨tol * (3/2), 0, 0⟩, ⟨tol * (3/4), 2 * tol, 0⟩, ⟨0, 4 * tol, 0⟩, ?_, ?_, ?_⟩
    · have e : tol * (3/2) - tol * (3/4) = tol * (3/4) := by ring
      simp only [pointLt, e, h2, zero_sub, neg_neg]
      rw [if_pos (by linarith), if_neg (by rw [not_lt]; exact le_trans (by linarith) (le_max_right _ _))]
      simp only [decide_eq_true_eq]
      linarith
    · have e : 2 * tol - 4 * tol = -(2 * tol) := by ring
      simp only [pointLt, sub_zero, h2, e, neg_neg]
      rw [if_pos (by linarith), if_neg (by rw [not_lt]; exact le_trans (by linarith) (le_max_right _ _))]
      simp only [decide_eq_true_eq]
      linarith
    · simp only [pointLt, sub_zero, h4]
      rw [if_neg (by linarith)]
      simp only [decide_eq_false_iff_not, not_lt]
      linarith

end order

example : Separated (1/2 : ℚ) [⟨0, 0, 0⟩, ⟨0, 1, 0⟩, ⟨3, 1, 7⟩] := by unfold Separated; decide +kernel

end QuESo.Props
