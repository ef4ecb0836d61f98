import Verif.Model.BackgroundGrid

/-!
# Model of `queso/quadrature/multiple_elements.hpp`

Elements are identified by their ids; pointers into the element vector become ids.
-/
namespace QuESo.GGQ
open QuESo.BGrid

variable {α : Type _} {K : Type _} [Field K] [LinearOrder K]

/-- `pNextElement`, multiple_elements.hpp L308-310: only the element of the lookup result is used,
the flag `is_end` is ignored. -/
def pNext (s : State α) (n : V3 Nat) (id : Nat) (d : Dir) : Option Nat :=
  match (s.nextElement n .untrimmed id d).element with
  | .elem _ i _ => some i
  | _ => none

/-- `LinearFunction`, multiple_elements.hpp L316-325; `none` is the raised error.  Exact arithmetic;
`zerotol` is `ZEROTOL`. -/
def linearFunction (zerotol : K) (x num : Nat) : Option K :=
  let center : K := ((num - 1 : Nat) : K) / 2
  let dlt := |center - (x : K)|
  let value := (1 - ((9 / 10) / center) * dlt) * (num : K)
  if value < zerotol then none else some value

/-- `AssignNeighborCoefficients`, multiple_elements.hpp L156-167 (the final `clear` is in the caller of
the model): multiplies the coefficient of the i-th element of the row.  `none`: error raised. -/
def assignFrom (zerotol : K) (num : Nat) : Nat → List Nat → (Nat → K) → Option (Nat → K)
  | _, [], c => some c
  | i, id :: rest, c =>
    match linearFunction zerotol i num with
    | none => none
    | some v => assignFrom zerotol num (i + 1) rest (fun j => if j = id then c j * v else c j)

/-- `AssignNeighborCoefficients`, multiple_elements.hpp L156-167. -/
def assign (zerotol : K) (row : List Nat) (c : Nat → K) : Option (Nat → K) :=
  if row.length > 1 then assignFrom zerotol row.length 0 row c else some c

/-- Result of a loop that may run out of the given number of iterations, or raise an error. -/
inductive Res (β : Type _)
  | ok (b : β)
  | error
  | outOfFuel
  deriving DecidableEq, Repr

/-- The while loop of `ComputeNeighborCoefficients`, multiple_elements.hpp L134-148, including the final
call L149. -/
def coeffLoop (s : State α) (n : V3 Nat) (zerotol : K) (d : Dir) :
    Nat → (counter current : Nat) → (row : List Nat) → (Nat → K) → Res (Nat → K)
  | fuel, counter, current, row, c =>
    if counter < s.numUntrimmed then
      match fuel with
      | 0 => .outOfFuel
      | fuel + 1 =>
        let r := s.nextElement n .untrimmed current d
        let found := pNext s n current d
        let counter' := if found.isSome then counter + 1 else counter
        let row' := match found with
          | some j => row ++ [j]
          | none => row
        if r.isEnd then
          match assign zerotol row' c with
          | none => .error
          | some c' => coeffLoop s n zerotol d fuel counter' r.nextId [] c'
        else coeffLoop s n zerotol d fuel counter' r.nextId row' c
    else
      match assign zerotol row c with
      | none => .error
      | some c' => .ok c'

/-- One pass of the loop over the directions, multiple_elements.hpp L122-150. -/
def coeffDir (s : State α) (n : V3 Nat) (zerotol : K) (fuel : Nat) (d : Dir) (c : Nat → K) : Res (Nat → K) :=
  let row := if (s.getElement .untrimmed 1).present then [1] else []
  coeffLoop s n zerotol d fuel 1 1 row c

/-- `ComputeNeighborCoefficients`, multiple_elements.hpp L119-151.  Initial coefficients are 1
(untrimmed_element.hpp L81). -/
def computeCoefficients (s : State α) (n : V3 Nat) (zerotol : K) (fuel : Nat) : Res (Nat → K) :=
  match coeffDir s n zerotol fuel .xf (fun _ => 1) with
  | .ok c1 =>
    match coeffDir s n zerotol fuel .yf c1 with
    | .ok c2 => coeffDir s n zerotol fuel .zf c2
    | r => r
  | r => r

/-- `CompareByCoefficient`, multiple_elements.hpp L101-110: `true` if the left element has lower
priority. -/
def compareByCoefficient (zerotol : K) (c : Nat → K) (l r : Nat) : Bool :=
  if |c l - c r| < zerotol then decide (l > r) else decide (c l < c r)

/-- The lists `neighbours[dir]`, multiple_elements.hpp L184-199: unvisited untrimmed neighbours of
the elements of the box, in the order of the box. -/
def neighbours (s : State α) (n : V3 Nat) (visited : List Nat) (box : List Nat) (d : Dir) : List Nat :=
  box.filterMap (fun id =>
    match pNext s n id d with
    | some j => if j ∈ visited then none else some j
    | none => none)

/-- `neighbour_coeffs[dir]`, multiple_elements.hpp L192: sums of the coefficients. -/
def coeffSum (c : Nat → K) (l : List Nat) : K := l.foldl (fun a j => a + c j) 0

/-- `std::max_element` over the six directions (the first maximum), multiple_elements.hpp L204-205. -/
def maxDir (f : Dir → K) : Dir :=
  [Dir.xb, .yf, .yb, .zf, .zb].foldl (fun b d => if f b < f d then d else b) .xf

/-- `required_number_neighbors`, multiple_elements.hpp L209-216. -/
def required (size : V3 Nat) : Dir → Nat
  | .xf | .xb => size.y * size.z
  | .yf | .yb => size.x * size.z
  | .zf | .zb => size.x * size.y

/-- `rBoxSize[dimension_index]++`, multiple_elements.hpp L229. -/
def bump (size : V3 Nat) : Dir → V3 Nat
  | .xf | .xb => { size with x := size.x + 1 }
  | .yf | .yb => { size with y := size.y + 1 }
  | .zf | .zb => { size with z := size.z + 1 }

/-- The loop of six attempts, multiple_elements.hpp L203-236: the direction in which the box grows, if
there is one. -/
def attempt (nb : Dir → List Nat) (size : V3 Nat) : Nat → (Dir → K) → Option Dir
  | 0, _ => none
  | k + 1, f =>
    let d := maxDir f
    if (nb d).length = required size d then some d
    else attempt nb size k (fun d' => if d' = d then 0 else f d')

/-- Minimum and maximum of two boxes, multiple_elements.hpp L224-227. -/
def hull (a b : Box K) : Box K :=
  { lower := ⟨min a.lower.x b.lower.x, min a.lower.y b.lower.y, min a.lower.z b.lower.z⟩
    upper := ⟨max a.upper.x b.upper.x, max a.upper.y b.upper.y, max a.upper.z b.upper.z⟩ }

/-- The current box: elements, sizes and bounds, multiple_elements.hpp L79-83. -/
structure Block (K : Type _) where
  elems : List Nat
  size : V3 Nat
  bounds : Box K

/-- `TryToExpandCurrentBox`, multiple_elements.hpp L176-237.  `cell` gives the parametric bounds of an
element.  Returns the set of visited elements and the grown box, or `none` (`return false`). -/
def tryExpand (s : State α) (n : V3 Nat) (cell : Nat → Box K) (c : Nat → K) (visited : List Nat)
    (b : Block K) : Option (List Nat × Block K) :=
  let nb := neighbours s n visited b.elems
  match attempt nb b.size 6 (fun d => coeffSum c (nb d)) with
  | none => none
  | some d =>
    some (visited ++ nb d,
      { elems := b.elems ++ nb d
        size := bump b.size d
        bounds := (nb d).foldl (fun acc j => hull acc (cell j)) b.bounds })

/-- The loop `while( TryToExpandCurrentBox(...) )`, multiple_elements.hpp L84-85. -/
def grow (s : State α) (n : V3 Nat) (cell : Nat → Box K) (c : Nat → K) :
    Nat → List Nat → Block K → Res (List Nat × Block K)
  | fuel, visited, b =>
    match tryExpand s n cell c visited b with
    | none => .ok (visited, b)
    | some (v', b') =>
      match fuel with
      | 0 => .outOfFuel
      | fuel + 1 => grow s n cell c fuel v' b'

/-- The loop over the priority queue, multiple_elements.hpp L71-90.  `order` is the order in which the
queue delivers the elements (the comparison is not a strict weak order because of its tolerance, so the
theorems quantify over the order).  The result is the list of all blocks that are handed to
`AssembleGGQRulesOnBox`. -/
def blocks (s : State α) (n : V3 Nat) (cell : Nat → Box K) (c : Nat → K) (fuel : Nat) :
    List Nat → List Nat → Res (List (Block K))
  | [], _ => .ok []
  | id :: order, visited =>
    if id ∈ visited then blocks s n cell c fuel order visited
    else
      match grow s n cell c fuel (visited ++ [id]) ⟨[id], ⟨1, 1, 1⟩, cell id⟩ with
      | .ok (v', b) =>
        match blocks s n cell c fuel order v' with
        | .ok bs => .ok (b :: bs)
        | r => r
      | .error => .error
      | .outOfFuel => .outOfFuel

/-- The one-dimensional points of one element in one direction, multiple_elements.hpp L263-284:
`lo`, `up` are the bounds of the box, `elo`, `eup` those of the element, `rule` is the list of
(position, weight) of the GGQ rule on the unit interval. -/
def points1D (eps2 eps3 : K) (rule : List (K × K)) (lo up elo eup : K) : List (K × K) :=
  rule.filterMap (fun q =>
    let position := lo + (up - lo) * q.1
    let weight := |up - lo| * q.2
    if elo - eps3 ≤ position ∧ position < eup - eps3 then
      some (if elo + eps2 > position then (elo + 2 * eps3, weight) else (position, weight))
    else none)

/-- An integration point: position and weight. -/
structure IP (K : Type _) where
  pos : V3 K
  weight : K

/-- The tensor product, multiple_elements.hpp L292-302. -/
def tensor (pu pv pw : List (K × K)) : List (IP K) :=
  pu.flatMap fun u => pv.flatMap fun v => pw.map fun w => ⟨⟨u.1, v.1, w.1⟩, u.2 * v.2 * w.2⟩

/-- `AssembleGGQRulesOnBox` for one element, multiple_elements.hpp L252-303.  `rule` is
`IntegrationPointFactory1D::GetGGQ` (direction → number of knot spans → rule). -/
def elementPoints (eps2 eps3 : K) (rule : V3 (Nat → List (K × K))) (size : V3 Nat) (b e : Box K) : List (IP K) :=
  tensor
    (points1D eps2 eps3 (rule.x size.x) b.lower.x b.upper.x e.lower.x e.upper.x)
    (points1D eps2 eps3 (rule.y size.y) b.lower.y b.upper.y e.lower.y e.upper.y)
    (points1D eps2 eps3 (rule.z size.z) b.lower.z b.upper.z e.lower.z e.upper.z)

/-- `AssembleGGQRulesOnBox`, multiple_elements.hpp L245-304: the points given to each element. -/
def assembleBlock (eps2 eps3 : K) (rule : V3 (Nat → List (K × K))) (cell : Nat → Box K) (b : Block K) :
    List (Nat × List (IP K)) :=
  b.elems.map (fun id => (id, elementPoints eps2 eps3 rule b.size b.bounds (cell id)))

end QuESo.GGQ
