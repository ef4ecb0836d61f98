import Mathlib.Algebra.Order.Field.Basic

/-!
# Non-negative least squares

Models `queso/solvers/nnls.cpp` and `external_libraries/nnls/nnls_impl.h` (a translation of the program of Lawson and
Hanson) over an exact field.  Arrays are functions, with the numbering of the program that starts at one; a matrix is a
function of the column and the row.  Assignments through `goto` are loops with the same order of assignments.  The square
root is a parameter.
-/
namespace QuESo.NNLS
variable {K : Type _} [Field K] [LinearOrder K]

/-- The values of a loop variable, `for (i = lo; i <= hi; ++i)`. -/
def upto (lo hi : Nat) : List Nat := List.range' lo (hi + 1 - lo)

/-- An assignment `f[i] = v`. -/
def put {α : Type _} (f : Nat → α) (i : Nat) (v : α) : Nat → α := fun k => if k = i then v else f k

/-- `s += f(i)` in a loop from `lo` to `hi`. -/
def addUp (s : K) (lo hi : Nat) (f : Nat → K) : K := (upto lo hi).foldl (fun s i => s + f i) s

/-- A loop `dst[i] = src[i]` from 1 to `m`, e.g. nnls_impl.h L248-252. -/
def copy (m : Nat) (src dst : Nat → K) : Nat → K := (upto 1 m).foldl (fun d i => put d i (src i)) dst

/-- `d_sign`, nnls_impl.h L36-41. -/
def dSign (a b : K) : K :=
  let x := if 0 ≤ a then a else -a
  if 0 ≤ b then x else -x

/-- `g1_`, nnls_impl.h L507-565: cosine, sine and the new first entry. -/
def g1 (sqrt : K → K) (a b : K) : K × K × K :=
  if |a| > |b| then
    let xr := b / a
    let yr := sqrt (xr * xr + 1)
    let c := dSign (1 / yr) a
    (c, c * xr, |a| * yr)
  else if b ≠ 0 then
    let xr := a / b
    let yr := sqrt (xr * xr + 1)
    let s := dSign (1 / yr) b
    (s * xr, s, |b| * yr)
  else (0, 1, 0)

/-- `h12_` with mode 1 and no vectors, nnls_impl.h L636-692: the new pivot vector and `up`, which keeps its value in some
cases. -/
def h1 (sqrt : K → K) (lpivot l1 m : Nat) (u : Nat → K) (up : K) : (Nat → K) × K :=
  if 0 ≥ lpivot ∨ lpivot ≥ l1 ∨ l1 > m then (u, up)
  else
    let cl := (upto l1 m).foldl (fun cl j => if |u j| ≥ cl then |u j| else cl) |u lpivot|
    if cl ≤ 0 then (u, up)
    else
      let clinv := 1 / cl
      let sm := addUp ((u lpivot * clinv) * (u lpivot * clinv)) l1 m fun j => (u j * clinv) * (u j * clinv)
      let cl := cl * sqrt sm
      let cl := if u lpivot ≤ 0 then cl else -cl
      (put u lpivot cl, u lpivot - cl)

/-- `h12_` with mode 2 and one vector `c`, nnls_impl.h L636-640 and L684-738. -/
def h2 (lpivot l1 m : Nat) (u : Nat → K) (up : K) (c : Nat → K) : Nat → K :=
  if 0 ≥ lpivot ∨ lpivot ≥ l1 ∨ l1 > m then c
  else if |u lpivot| ≤ 0 then c
  else
    let b := up * u lpivot
    if b ≥ 0 then c
    else
      let b := 1 / b
      let sm := addUp (c lpivot * up) l1 m fun i => c i * u i
      if sm ≠ 0 then
        let sm := sm * b
        let c := put c lpivot (c lpivot + sm * up)
        (upto l1 m).foldl (fun c i => put c i (c i + sm * u i)) c
      else c

/-- The variables of `nnls_`, nnls_impl.h L93-130.  `iz2` is always the number of columns. -/
structure St (K : Type _) where
  a : Nat → Nat → K
  b : Nat → K
  x : Nat → K
  zz : Nat → K
  w : Nat → K
  index : Nat → Nat
  iz1 : Nat
  nsetp : Nat
  npp1 : Nat

/-- The start of `nnls_`, nnls_impl.h L163-173. -/
def start (n : Nat) (a : Nat → Nat → K) (b x zz w : Nat → K) (index : Nat → Nat) : St K :=
  let r := (upto 1 n).foldl (fun (r : (Nat → K) × (Nat → Nat)) i => (put r.1 i 0, put r.2 i i)) (x, index)
  { a := a, b := b, x := r.1, zz := zz, w := w, index := r.2, iz1 := 1, nsetp := 0, npp1 := 1 }

/-- The dual vector, nnls_impl.h L187-198. -/
def dual (m n : Nat) (s : St K) : St K :=
  { s with w := (upto s.iz1 n).foldl (fun w iz =>
      put w (s.index iz) (addUp 0 s.npp1 m fun l => s.a (s.index iz) l * s.b l)) s.w }

/-- The largest positive component of the dual vector, nnls_impl.h L201-210. -/
def findMax (n : Nat) (s : St K) : K × Nat :=
  (upto s.iz1 n).foldl (fun r iz => if s.w (s.index iz) > r.1 then (s.w (s.index iz), iz) else r) (0, 0)

/-- Result of the search for a column: none (`goto L350`) or a column with `iz`, `j` and `up` (`goto L140`). -/
inductive Choice (K : Type _)
  | done (s : St K)
  | chosen (s : St K) (iz j : Nat) (up : K)

/-- The search for a column, nnls_impl.h L200-271 (`none`: the number of repetitions `fuel` does not suffice).  `junk` is
the value of the variable `up` before it is set (simplification: it is the same in each search; the program reads it only
after it is set). -/
def select (sqrt : K → K) (junk : K) (m n : Nat) : Nat → St K → Option (Choice K)
  | 0, _ => none
  | fuel + 1, s =>
    let r := findMax n s
    if r.1 ≤ 0 then some (.done s)
    else
      let iz := r.2
      let j := s.index iz
      let asave := s.a j s.npp1
      let h := h1 sqrt s.npp1 (s.npp1 + 1) m (s.a j) junk
      let a := put s.a j h.1
      let unorm := if s.nsetp ≠ 0 then addUp 0 1 s.nsetp (fun l => a j l * a j l) else 0
      let unorm := sqrt unorm
      let d2 := unorm + |a j s.npp1| * (1 / 100)
      let reject := select sqrt junk m n fuel { s with a := put a j (put (a j) s.npp1 asave), w := put s.w j 0 }
      if d2 - unorm > 0 then
        let zz := h2 s.npp1 (s.npp1 + 1) m (a j) h.2 (copy m s.b s.zz)
        let ztest := zz s.npp1 / a j s.npp1
        if ztest > 0 then some (.chosen { s with a := a, zz := zz } iz j h.2)
        else
          -- the array `zz` keeps the new values
          select sqrt junk m n fuel { s with a := put a j (put (a j) s.npp1 asave), w := put s.w j 0, zz := zz }
      else reject

/-- A column is moved to the set P, nnls_impl.h L278-309. -/
def accept (m n : Nat) (s : St K) (iz j : Nat) (up : K) : St K :=
  let b := copy m s.zz s.b
  let index := put (put s.index iz (s.index s.iz1)) s.iz1 j
  let iz1 := s.iz1 + 1
  let nsetp := s.npp1
  let npp1 := s.npp1 + 1
  let a := if iz1 ≤ n then
      (upto iz1 n).foldl (fun a jz => put a (index jz) (h2 nsetp npp1 m (a j) up (a (index jz)))) s.a
    else s.a
  let a := if nsetp ≠ m then put a j ((upto npp1 m).foldl (fun c l => put c l 0) (a j)) else a
  { s with a := a, b := b, index := index, iz1 := iz1, nsetp := nsetp, npp1 := npp1, w := put s.w j 0 }

/-- The solution of the triangular system, nnls_impl.h L480-494; `jj` is set before it is used. -/
def solve (s : St K) : St K :=
  { s with zz := ((upto 1 s.nsetp).foldl (fun (r : (Nat → K) × Nat) l =>
      let ip := s.nsetp + 1 - l
      let zz := if l ≠ 1 then (upto 1 ip).foldl (fun zz ii => put zz ii (zz ii - s.a r.2 ii * zz (ip + 1))) r.1 else r.1
      (put zz ip (zz ip / s.a (s.index ip) ip), s.index ip)) (s.zz, 0)).1 }

/-- `alpha` and `jj`, nnls_impl.h L337-349. -/
def stepSize (s : St K) : K × Nat :=
  (upto 1 s.nsetp).foldl (fun r ip =>
    if s.zz ip ≤ 0 then
      let t := -s.x (s.index ip) / (s.zz ip - s.x (s.index ip))
      if r.1 > t then (t, ip) else r
    else r) (2, 0)

/-- The interpolation, nnls_impl.h L361-366. -/
def interpolate (s : St K) (alpha : K) : St K :=
  { s with x := (upto 1 s.nsetp).foldl (fun x ip => put x (s.index ip) (x (s.index ip) + alpha * (s.zz ip - x (s.index ip)))) s.x }

/-- Two entries of a vector are rotated, e.g. nnls_impl.h L401-403. -/
def g2 (cc ss : K) (j : Nat) (c : Nat → K) : Nat → K :=
  put (put c (j - 1) (cc * c (j - 1) + ss * c j)) j (-ss * c (j - 1) + cc * c j)

/-- One step of the loop of nnls_impl.h L378-405. -/
def rotate (sqrt : K → K) (n : Nat) (s : St K) (j : Nat) : St K :=
  let ii := s.index j
  let index := put s.index (j - 1) ii
  let g := g1 sqrt (s.a ii (j - 1)) (s.a ii j)
  let a := put s.a ii (put (put (s.a ii) (j - 1) g.2.2) j 0)
  let a := (upto 1 n).foldl (fun a l => if l ≠ ii then put a l (g2 g.1 g.2.1 j (a l)) else a) a
  { s with a := a, b := g2 g.1 g.2.1 j s.b, index := index }

/-- Columns whose coefficient is not positive are moved out of the set P, nnls_impl.h L371-427 (`none`: the number of
repetitions does not suffice). -/
def remove (sqrt : K → K) (n : Nat) : Nat → Nat → St K → Option (St K)
  | 0, _, _ => none
  | fuel + 1, jj, s =>
    let i := s.index jj
    let s := { s with x := put s.x i 0 }
    let s := if jj ≠ s.nsetp then (upto (jj + 1) s.nsetp).foldl (rotate sqrt n) s else s
    let s := { s with npp1 := s.nsetp, nsetp := s.nsetp - 1, iz1 := s.iz1 - 1, index := put s.index (s.iz1 - 1) i }
    match (upto 1 s.nsetp).find? (fun p => s.x (s.index p) ≤ 0) with
    | none => some s
    | some p => remove sqrt n fuel p s

/-- Result of the secondary loop: the limit on the number of iterations is reached, or the loop ends with the number of
iterations left. -/
inductive Second (K : Type _)
  | limit (s : St K)
  | done (left : Nat) (s : St K)

/-- The secondary loop, nnls_impl.h L321-448, with the number of iterations left, `itmax - iter`. -/
def second (sqrt : K → K) (m n : Nat) : Nat → St K → Option (Second K)
  | 0, s => some (.limit s)
  | left + 1, s =>
    let r := stepSize s
    if r.1 = 2 then
      some (.done left { s with x := (upto 1 s.nsetp).foldl (fun x ip => put x (s.index ip) (s.zz ip)) s.x })
    else
      match remove sqrt n n r.2 (interpolate s r.1) with
      | none => none
      | some s => second sqrt m n left (solve { s with zz := copy m s.b s.zz })

/-- The main loop, nnls_impl.h L174-452, with the final state and `mode` (`none`: the number of repetitions does not
suffice). -/
def main (sqrt : K → K) (junk : K) (m n : Nat) : Nat → Nat → St K → Option (St K × Nat)
  | 0, _, _ => none
  | fuel + 1, left, s =>
    if s.iz1 > n ∨ s.nsetp ≥ m then some (s, 1)
    else
      match select sqrt junk m n (n + 1) (dual m n s) with
      | none => none
      | some (.done s) => some (s, 1)
      | some (.chosen s iz j up) =>
        match second sqrt m n left (solve (accept m n s iz j up)) with
        | none => none
        | some (.limit s) => some (s, 3)
        | some (.done left s) => main sqrt junk m n fuel left s

/-- The norm of the residual, nnls_impl.h L457-474 (without the values of `w`). -/
def rnorm (sqrt : K → K) (m : Nat) (s : St K) : K :=
  sqrt (if s.npp1 ≤ m then addUp 0 s.npp1 m fun i => s.b i * s.b i else 0)

/-- The arrays with which the program starts that are not initialised, and the value of `up`. -/
structure Junk (K : Type _) where
  x : Nat → K
  zz : Nat → K
  w : Nat → K
  index : Nat → Nat
  up : K

/-- `nnls_`, nnls_impl.h L93-505, for `m > 0` and `n > 0`: the solution, the norm of the residual and the mode. -/
def nnls (sqrt : K → K) (junk : Junk K) (m n : Nat) (a : Nat → Nat → K) (b : Nat → K) : Option ((Nat → K) × K × Nat) :=
  (main sqrt junk.up m n (n * 5 + 1) (n * 5) (start n a b junk.x junk.zz junk.w junk.index)).map fun r =>
    (r.1.x, rnorm sqrt m r.1, r.2)

/-- `NNLS::solve`, solvers/nnls.cpp L25-64: the solution, the returned value and the mode.  The matrix is a list of columns
(in the code one array, column after column). -/
def solveNNLS (sqrt : K → K) (junk : Junk K) (A : List (List K)) (b : List K) : Option (List K × K × Nat) :=
  let m := b.length
  let n := if m > 0 then A.length else 0
  if m = 0 ∨ n = 0 then some (List.replicate n 0, 10 ^ 8, 2)
  else
    (nnls sqrt junk m n (fun j l => ((A[j - 1]?.getD [])[l - 1]?).getD 0) (fun l => (b[l - 1]?).getD 0)).map fun r =>
      ((List.range n).map fun j => r.1 (j + 1), r.2)

/-- The call of `NNLS::solve` in `MomentFitting`, trimmed_element.hpp L363-366 (`rel_residual` before the division): weights and
returned value.  The messages of the modes 2 and 3 are left out.  Simplification: `junk` depends on the arguments only. -/
def fitWeights (sqrt : K → K) (junk : List (List K) → List K → Junk K) (A : List (List K)) (b : List K) : List K × K :=
  match solveNNLS sqrt (junk A b) A b with
  | some r => (r.1, r.2.1)
  | none => ([], 0)

end QuESo.NNLS
