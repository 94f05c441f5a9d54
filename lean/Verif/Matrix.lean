import Verif.Float
import Verif.Outcome

/-!
# `matrix<T>` (ColorMagic/utils/matrix.h)

Generic in the element type: `Elem K` lists what the template uses of `T`.  A loop nest that assigns every cell (i,j) of a
result once, from data the loop does not change, is written as `build`; the order of evaluation (row by row) decides which exception or
undefined access comes first and is kept.  Not modelled: exhaustion of memory, the overflow of `int` in `size()` apart from
`insert`.
-/

open Outcome

/-- What `matrix<T>` uses of `T`: `0`, `1`, `-1` (converted from `int`), arithmetic and `==`. -/
class Elem (K : Type) extends Zero K, One K, Add K, Sub K, Mul K, Div K where
  /-- `T(-1)` -/
  neg1 : K
  /-- `a == b` -/
  same : K → K → Prop

open Classical in
noncomputable instance {K : Type} [Elem K] (a b : K) : Decidable (Elem.same a b) := Classical.propDecidable _

noncomputable instance [FloatModel] : Elem Fl where
  zero := 0
  one := 1
  neg1 := .fin (-1)
  same := Fl.feq

/-- matrix.h:674-676: the members. -/
structure Mat (K : Type) where
  rows : Int
  cols : Int
  vals : List (List K)

namespace Mat
variable {K : Type}

/-! ### Loops -/

/-- A loop that pushes one value per iteration. -/
def collect {α : Type} (f : Nat → Outcome α) : Nat → Outcome (List α)
  | 0 => ok []
  | n + 1 => do
    let l ← collect f n
    let a ← f n
    ok (l ++ [a])

/-- The loop nest `for i < r, for j < c: result[i][j] = f(i,j)`. -/
def build (r c : Nat) (f : Nat → Nat → Outcome K) : Outcome (List (List K)) :=
  collect (fun i => collect (f i) c) r

/-- `for i < n: acc = step(acc, i)`. -/
def loop {σ : Type} (step : σ → Nat → Outcome σ) (s : σ) : Nat → Outcome σ
  | 0 => ok s
  | n + 1 => do
    let s' ← loop step s n
    step s' n

/-- `for x in l: if (!p(x)) return false; return true`. -/
def allM {α : Type} (p : α → Outcome Bool) : List α → Outcome Bool
  | [] => ok true
  | a :: l => do
    let b ← p a
    if b then allM p l else ok false

/-- `for x in l: if (p(x)) break with true; false`. -/
def anyM {α : Type} (p : α → Outcome Bool) : List α → Outcome Bool
  | [] => ok false
  | a :: l => do
    let b ← p a
    if b then ok true else anyM p l

/-- `m_values[i][j]` without a check: undefined outside the storage. -/
def raw (v : List (List K)) (i j : Int) : Outcome K :=
  if i < 0 ∨ j < 0 then ub else
  match v[i.toNat]? with
  | none => ub
  | some row =>
    match row[j.toNat]? with
    | none => ub
    | some x => ok x

/-- `m_values[i][j] = x` without a check. -/
def setRaw (v : List (List K)) (i j : Nat) (x : K) : Outcome (List (List K)) :=
  match v[i]? with
  | none => ub
  | some row => if j < row.length then ok (v.set i (row.set j x)) else ub

/-- `std::vector::resize(n, x)`. -/
def vresize {α : Type} (l : List α) (n : Nat) (x : α) : List α := l.take n ++ List.replicate (n - l.length) x

/-! ### Construction -/

/-- `std::length_error`, thrown by `std::vector::resize` when a negative `int` arrives as a huge size. -/
def lengthError {α : Type} : Outcome α := throw ⟨.lengthError, false⟩

/-- matrix.h:17-19 `matrix()` -/
def empty : Mat K := ⟨0, 0, []⟩

/-- matrix.h:56-63 `matrix(rows, columns, initial_value)` -/
def create (r c : Int) (x : K) : Outcome (Mat K) :=
  if r < 0 then lengthError
  else if 0 < r ∧ c < 0 then lengthError
  else ok ⟨r, c, List.replicate r.toNat (List.replicate c.toNat x)⟩

variable [Elem K]

/-- matrix.h:26-33 `matrix(rows, columns)`; the elements are value-initialised. -/
def ofSize (r c : Int) : Outcome (Mat K) := create r c 0

/-- matrix.h:70-77 `matrix(size)` -/
def ofSquare (n : Int) : Outcome (Mat K) := create n n 0

/-- matrix.h:508-521 `insert`.  The position read is `i * m_rows + j`.  `size()` (line 612) multiplies two `int`s: overflow is
undefined. -/
def insert (m : Mat K) (values : List K) : Outcome (Mat K) :=
  if m.rows * m.cols < -(2 ^ 31) ∨ 2 ^ 31 ≤ m.rows * m.cols then ub
  else if (values.length : Int) = m.rows * m.cols then do
    let v ← build m.rows.toNat m.cols.toNat fun i j =>
      match values[i * m.rows.toNat + j]? with
      | none => ub
      | some x => ok x
    ok { m with vals := v }
  else ok m

/-- matrix.h:41-49 `matrix(rows, columns, data)` -/
def ofList (r c : Int) (values : List K) : Outcome (Mat K) := do
  let m ← ofSize r c
  m.insert values

/-- matrix.h:84-92 `matrix(size, data)` -/
def ofSquareList (n : Int) (values : List K) : Outcome (Mat K) := do
  let m ← ofSquare n
  m.insert values

/-- matrix.h:98-103 copy constructor -/
def copy (m : Mat K) : Mat K := ⟨m.rows, m.cols, m.vals⟩

/-! ### Access -/

/-- Building the message `std::string(literal, count)` of the exception: takes `count` characters from a literal that has `len` characters
and a terminating zero; undefined if there are fewer. -/
def rangeError {α : Type} (len : Int) (count : Int) : Outcome α :=
  if count < 0 ∨ len + 1 < count then ub else throw ⟨.outOfRange, false⟩

/-- matrix.h:111-124 `operator()(row, column)` -/
def at' (m : Mat K) (row column : Int) : Outcome K :=
  if m.rows ≤ row then rangeError 37 row
  else if m.cols ≤ column then rangeError 40 column
  else raw m.vals row column

/-- matrix.h:127-151 `operator=` (the storage is resized to the shape of `other`, then every cell is overwritten) -/
def assign (_this other : Mat K) : Outcome (Mat K) := do
  let v ← build other.rows.toNat other.cols.toNat fun i j => other.at' i j
  ok ⟨other.rows, other.cols, v⟩

/-- `std::vector<T> ==` element by element. -/
def sameList : List K → List K → Prop
  | [], [] => True
  | a :: l, b :: l' => Elem.same a b ∧ sameList l l'
  | _, _ => False

/-- `std::vector<std::vector<T>> ==`. -/
def sameVals : List (List K) → List (List K) → Prop
  | [], [] => True
  | a :: l, b :: l' => sameList a b ∧ sameVals l l'
  | _, _ => False

/-- matrix.h:154-163 `operator==` -/
def eq (m other : Mat K) : Prop := m.rows = other.rows ∧ m.cols = other.cols ∧ sameVals m.vals other.vals

/-! ### Arithmetic -/

/-- Common shape of matrix.h:166-179 and 190-203: the result has the shape of `*this`. -/
def zipWith (op : K → K → K) (m other : Mat K) : Outcome (Mat K) := do
  let r ← ofSize (K := K) m.rows m.cols
  let v ← build r.rows.toNat r.cols.toNat fun i j => do
    let a ← raw m.vals i j
    let b ← other.at' i j
    ok (op a b)
  ok { r with vals := v }

/-- matrix.h:166-179 `operator+(const matrix&)` -/
def add (m other : Mat K) : Outcome (Mat K) := zipWith (· + ·) m other
/-- matrix.h:190-203 `operator-(const matrix&)` -/
def sub (m other : Mat K) : Outcome (Mat K) := zipWith (· - ·) m other

/-- matrix.h:182-187 `operator+=` -/
def addAssign (m other : Mat K) : Outcome (Mat K) := do
  let r ← m.add other
  m.assign r
/-- matrix.h:206-211 `operator-=` -/
def subAssign (m other : Mat K) : Outcome (Mat K) := do
  let r ← m.sub other
  m.assign r

/-- matrix.h:214-232 `operator*(const matrix&)`: the result has the shape of the *right* operand and the inner loop runs over its rows. -/
def mul (m other : Mat K) : Outcome (Mat K) := do
  let r ← ofSize (K := K) other.rows other.cols
  let v ← build other.rows.toNat other.cols.toNat fun i j =>
    loop (fun acc k => do
      let a ← raw m.vals i k
      let b ← other.at' k j
      ok (acc + a * b)) 0 other.rows.toNat
  ok { r with vals := v }

/-- matrix.h:235-240 `operator*=` -/
def mulAssign (m other : Mat K) : Outcome (Mat K) := do
  let r ← m.mul other
  m.assign r

/-- Common shape of matrix.h:243-304. -/
def mapAll (op : K → K) (m : Mat K) : Outcome (Mat K) := do
  let r ← ofSize (K := K) m.rows m.cols
  let v ← build m.rows.toNat m.cols.toNat fun i j => do
    let a ← raw m.vals i j
    ok (op a)
  ok { r with vals := v }

/-- matrix.h:243-256 -/
def addScalar (m : Mat K) (x : K) : Outcome (Mat K) := mapAll (· + x) m
/-- matrix.h:259-272 -/
def subScalar (m : Mat K) (x : K) : Outcome (Mat K) := mapAll (· - x) m
/-- matrix.h:275-288 -/
def mulScalar (m : Mat K) (x : K) : Outcome (Mat K) := mapAll (· * x) m
/-- matrix.h:291-304 -/
def divScalar (m : Mat K) (x : K) : Outcome (Mat K) := mapAll (· / x) m

/-- `vec[i]` without a check. -/
def vget (v : List K) (i : Nat) : Outcome K :=
  match v[i]? with
  | none => ub
  | some x => ok x

/-- matrix.h:311-324 `operator*(const std::vector&)`: the result has as many elements as the argument. -/
def mulVec (m : Mat K) (v : List K) : Outcome (List K) :=
  loop (fun res i =>
    loop (fun res j => do
      let acc ← vget res i
      let a ← raw m.vals i j
      let x ← vget v j
      ok (res.set i (acc + a * x))) res m.cols.toNat) (List.replicate v.length 0) m.rows.toNat

/-- matrix.h:330-338 `create_idendity` -/
def identity (n : Int) : Outcome (Mat K) := do
  let m ← create n n (0 : K)
  let v ← build n.toNat n.toNat fun i j => if i = j then ok 1 else raw m.vals i j
  ok { m with vals := v }

/-- matrix.h:344-357 `transpose`: the result has the shape of `*this`. -/
def transpose (m : Mat K) : Outcome (Mat K) := do
  let r ← ofSize (K := K) m.rows m.cols
  let v ← build m.rows.toNat m.cols.toNat fun i j => raw m.vals j i
  ok { r with vals := v }

/-! ### Determinant, adjoint, inverse -/

/-- matrix.h:560-569 -/
noncomputable def isRowNull (m : Mat K) (row : Int) : Outcome Bool :=
  if m.rows ≤ row then ok false else
  allM (fun i => do
    let a ← raw m.vals row i
    ok (decide (Elem.same a 0))) ((List.range m.cols.toNat).map Int.ofNat)

/-- matrix.h:572-581 -/
noncomputable def isColumnNull (m : Mat K) (col : Int) : Outcome Bool :=
  if m.cols ≤ col then ok false else
  allM (fun i => do
    let a ← raw m.vals i col
    ok (decide (Elem.same a 0))) ((List.range m.rows.toNat).map Int.ofNat)

/-- matrix.h:584-593 -/
noncomputable def areRowsEqual (m : Mat K) (row1 row2 : Int) : Outcome Bool :=
  if m.rows ≤ row1 ∨ m.rows ≤ row2 then ok false else
  allM (fun i => do
    let a ← raw m.vals row1 i
    let b ← raw m.vals row2 i
    ok (decide (Elem.same a b))) ((List.range m.cols.toNat).map Int.ofNat)

/-- matrix.h:596-605 -/
noncomputable def areColumnsEqual (m : Mat K) (col1 col2 : Int) : Outcome Bool :=
  if m.cols ≤ col1 ∨ m.cols ≤ col2 then ok false else
  allM (fun i => do
    let a ← raw m.vals i col1
    let b ← raw m.vals i col2
    ok (decide (Elem.same a b))) ((List.range m.rows.toNat).map Int.ofNat)

/-- State of the two nested loops in `get_cofactor`: the storage and the write position. -/
structure CofState (K : Type) where
  res : List (List K)
  i : Nat
  j : Nat

/-- matrix.h:653-668: one iteration of the loops. -/
def cofStep (mat : List (List K)) (cfRow cfCol n row : Nat) (s : CofState K) (col : Nat) : Outcome (CofState K) :=
  if row ≠ cfRow ∧ col ≠ cfCol then do
    let x ← raw mat row col
    let res ← setRaw s.res s.i s.j x
    if s.j + 1 = n - 1 then ok ⟨res, s.i + 1, 0⟩ else ok ⟨res, s.i, s.j + 1⟩
  else ok s

/-- matrix.h:642-671 `get_cofactor`: a storage of the *same* size, filled in its upper left corner. -/
def getCofactor (mat : List (List K)) (cfRow cfCol n : Nat) : Outcome (List (List K)) := do
  let s ← loop (fun s row => loop (cofStep mat cfRow cfCol n row) s n)
    (⟨mat.map fun row => row.map fun _ => (0 : K), 0, 0⟩ : CofState K) n
  ok s.res

/-- matrix.h:621-636 `calculate_determinante` -/
def calcDet : Nat → List (List K) → Outcome K
  | 0, _ => ok 0
  | 1, mat => raw mat 0 0
  | n + 2, mat =>
    loop (fun det i => do
      let cof ← getCofactor mat 0 i (n + 2)
      let a ← raw mat 0 i
      let sign : K := if i % 2 = 0 then 1 else Elem.neg1
      let d ← calcDet (n + 1) cof
      ok (det + sign * a * d)) 0 (n + 2)

/-- matrix.h:363-425 `determinante` -/
noncomputable def det (m : Mat K) : Outcome K :=
  if m.rows ≠ m.cols then ok 0
  else if m.rows = 1 then raw m.vals 0 0
  else do
    let n := m.rows.toNat
    let b ← anyM (fun r => m.isRowNull r) ((List.range n).map Int.ofNat)
    if b then ok 0 else do
    let b ← anyM (fun c => m.isColumnNull c) ((List.range n).map Int.ofNat)
    if b then ok 0 else do
    let b ← anyM (fun (i : Nat) => anyM (fun (j : Nat) => m.areRowsEqual i j) (List.range' (i + 1) (n - (i + 1)))) (List.range n)
    if b then ok 0 else do
    let b ← anyM (fun (i : Nat) => anyM (fun (j : Nat) => m.areColumnsEqual i j) (List.range' (i + 1) (n - (i + 1)))) (List.range n)
    if b then ok 0 else
    calcDet n m.vals

/-- matrix.h:431-457 `adjoint` (cell (j,i) of the result is written in iteration (i,j): the order of evaluation differs from `build`,
but no iteration can fail on a well-formed matrix) -/
def adjoint (m : Mat K) : Outcome (Mat K) :=
  if m.rows ≠ m.cols then ok m
  else do
    let adj ← create m.rows m.rows (0 : K)
    let n := m.rows.toNat
    if m.rows = 1 then ok { adj with vals := [[1]] }
    else do
      let v ← build n n fun j i => do
        let cof ← getCofactor m.vals i j n
        let d ← calcDet (n - 1) cof
        let sign : K := if (i + j) % 2 = 0 then 1 else Elem.neg1
        ok (sign * d)
      ok { adj with vals := v }

/-- matrix.h:463-480 `invert` -/
noncomputable def invert (m : Mat K) : Outcome (Mat K) := do
  let d ← m.det
  if Elem.same d 0 then ok m
  else do
    let adj ← m.adjoint
    let inv ← ofSize (K := K) m.rows m.rows
    let v ← build m.rows.toNat m.rows.toNat fun i j => do
      let a ← adj.at' i j
      ok (a / d)
    ok { inv with vals := v }

/-! ### Modification -/

/-- matrix.h:488-498 `fill` -/
def fill (m : Mat K) (x : K) : Outcome (Mat K) := do
  let v ← loop (fun v i => loop (fun v j => setRaw v i j x) v m.cols.toNat) m.vals m.rows.toNat
  ok { m with vals := v }

/-- matrix.h:531-557 `resize`: the matrix afterwards and how the call ended.  A negative column count throws in the first inner `resize`, after
the outer vector has been resized. -/
def resize (m : Mat K) (r c : Int) (x : K) : Mat K × Outcome Unit :=
  if r < 0 then (m, lengthError)
  else if 0 < r ∧ c < 0 then ({ m with vals := vresize m.vals r.toNat [] }, lengthError)
  else
    (⟨r, c, (List.range r.toNat).map fun (i : Nat) => (List.range c.toNat).map fun (j : Nat) =>
        if m.rows ≤ (i : Int) ∨ m.cols ≤ (j : Int) then x
        else (((m.vals[i]?).bind (·[j]?)).getD 0)⟩, ok ())

end Mat
