import Verif.Model.BinaryIO
import Mathlib.Algebra.Order.Field.Basic

/-!
# Specification vocabulary for files

Uses the data types of the model only.
-/
namespace QuESo.Spec
open QuESo.IO

/-- Bytes of a number in a byte order: `v / 256^k % 256` is the byte of significance `k`. -/
def encode (target : Endian) (width v : Nat) : List UInt8 :=
  match target with
  | .little => (List.range width).map (fun k => UInt8.ofNat (v / 256 ^ k % 256))
  | .big => (List.range width).map (fun k => UInt8.ofNat (v / 256 ^ (width - 1 - k) % 256))

/-- Bytes that a call shall add to the file. -/
def opBytes (target : Endian) : WriteOp → List UInt8
  | .raw data => data
  | .value width v => encode target width v
  | .array width vs => vs.flatMap (encode target width)
  | .flush => []

variable {K : Type _}

/-- Text of a number in fixed notation: digits, a sign and a point. -/
def NumberText (txt : List UInt8) : Prop := txt ≠ [] ∧ ∀ b ∈ txt, b = 45 ∨ b = 46 ∨ (48 ≤ b ∧ b ≤ 57)

/-- A strict weak order on the points of a list: what the ordered containers of C++ require. -/
structure StrictWeakOn {α : Type _} (lt : α → α → Bool) (l : List α) : Prop where
  irrefl : ∀ a ∈ l, lt a a = false
  trans : ∀ a ∈ l, ∀ b ∈ l, ∀ c ∈ l, lt a b = true → lt b c = true → lt a c = true
  incomp : ∀ a ∈ l, ∀ b ∈ l, ∀ c ∈ l, lt a b = false → lt b a = false → lt b c = false → lt c b = false →
    lt a c = false ∧ lt c a = false

/-- The contract of `std::map::try_emplace`: if the comparison is a strict weak order on the keys and the new point
then an equivalent key is found exactly if there is one. -/
def MapLookup {α : Type _} (lt : α → α → Bool) (lookup : List α → α → Option Nat) : Prop :=
  ∀ keys v, StrictWeakOn lt (v :: keys) →
    (∀ i, lookup keys v = some i → ∃ k, keys[i]? = some k ∧ lt v k = false ∧ lt k v = false) ∧
    (lookup keys v = none → ∀ k ∈ keys, lt v k = true ∨ lt k v = true)

variable [Field K] [LinearOrder K] [IsStrictOrderedRing K]

/-- Coordinates of different points are equal or further apart than the tolerance. -/
def Separated (tol : K) (l : List (V3 K)) : Prop :=
  ∀ a ∈ l, ∀ b ∈ l, (a.x = b.x ∨ tol < |a.x - b.x|) ∧ (a.y = b.y ∨ tol < |a.y - b.y|) ∧ (a.z = b.z ∨ tol < |a.z - b.z|)

/-- All corners of a mesh after a change of coordinates. -/
def meshCorners (round : K → K) (m : Mesh K) : List (V3 K) :=
  (List.range m.triangles.length).flatMap (fun i =>
    match m.corners i with
    | none => []
    | some c => [⟨round c.x.x, round c.x.y, round c.x.z⟩, ⟨round c.y.x, round c.y.y, round c.y.z⟩, ⟨round c.z.x, round c.z.y, round c.z.z⟩])

/-- Three corners with rounded coordinates. -/
def roundCorners (round : K → K) (c : V3 (V3 K)) : V3 (V3 K) :=
  ⟨⟨round c.x.x, round c.x.y, round c.x.z⟩, ⟨round c.y.x, round c.y.y, round c.y.z⟩, ⟨round c.z.x, round c.z.y, round c.z.z⟩⟩

end QuESo.Spec
