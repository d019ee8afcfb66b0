import Verif.Model.LevMar

/-!
# The linear algebra of `mpfit`

`mp_qrfac`, `mp_qrsolv`, `mp_lmpar`, `mp_covar` and the parts of `mpfit` that connect them (`solvers/mpfit.cpp`).

A column-major array `a[i + ld*j]` is written as a function of row `i` and column `j`, a vector as a function of its index. Every subscript in
this code is a loop variable, or an entry of `ipvt`; loops that change each element by itself are written as one new function.
The norm is the real `mp_enorm`.
-/

namespace Imfit

/-- `a[i + ld*j]` as a function of `i` and `j`. -/
abbrev Arr2 (α : Type) := ℕ → ℕ → α

section
variable {α : Type} [FP α]

/-- `sum = 0; for (i = lo; i < hi; i++) sum += f(i);` -/
def sumFrom (lo hi : ℕ) (f : ℕ → α) : α := (List.range' lo (hi - lo)).foldl (fun s i => s + f i) 0

/-- `mp_enorm(m - lo, &a[lo + m*k])` -/
def colNorm (a : Arr2 α) (k lo m : ℕ) : α := mpEnorm ((List.range' lo (m - lo)).map fun i => a i k)

/-- `mp_enorm(n, w)` -/
def vecNorm (n : ℕ) (w : ℕ → α) : α := mpEnorm ((List.range n).map w)

/-! ### `mp_qrfac` -/

/-- The arrays of `mp_qrfac`. -/
structure QrSt (α : Type) where
  a : Arr2 α
  ipvt : ℕ → ℕ
  rdiag : ℕ → α
  wa : ℕ → α

/-- The first loop: column norms, `ipvt[j] = j`. `solvers/mpfit.cpp:1451-1461`. -/
def qrInit (m : ℕ) (a : Arr2 α) : QrSt α := ⟨a, id, fun j => colNorm a j 0 m, fun j => colNorm a j 0 m⟩

/-- The column with the largest norm, the first one if there are several. `solvers/mpfit.cpp:1475-1479`. -/
def qrPivot (n j : ℕ) (rdiag : ℕ → α) : ℕ :=
  (List.range' j (n - j)).foldl (fun kmax k => if flt (rdiag kmax) (rdiag k) then k else kmax) j

/-- Exchange of columns `j` and `kmax`. `solvers/mpfit.cpp:1483-1496`. -/
def qrSwap (j kmax : ℕ) (st : QrSt α) : QrSt α :=
  { a := fun i k => if k = j then st.a i kmax else if k = kmax then st.a i j else st.a i k
    ipvt := fun k => if k = j then st.ipvt kmax else if k = kmax then st.ipvt j else st.ipvt k
    rdiag := Function.update st.rdiag kmax (st.rdiag j)
    wa := Function.update st.wa kmax (st.wa j) }

/-- The Householder vector: column `j` from row `j` on, divided by `ajnorm`, plus one in row `j`. `solvers/mpfit.cpp:1509-1514`. -/
def qrVec (j : ℕ) (aj : α) (a : Arr2 α) : Arr2 α := fun i k =>
  if k = j ∧ j ≤ i then (if i = j then a i j / aj + 1 else a i j / aj) else a i k

/-- The transformation applied to the columns after `j`. `solvers/mpfit.cpp:1521-1537`. -/
def qrApply (m j : ℕ) (a : Arr2 α) : Arr2 α := fun i k =>
  if j < k ∧ j ≤ i then a i k - sumFrom j m (fun r => a r j * a r k) / a j j * a i j else a i k

/-- The new norm of column `k` and the new `wa[k]`. `solvers/mpfit.cpp:1538-1547`. -/
def qrNorm (m j : ℕ) (a : Arr2 α) (k : ℕ) (rd wa : α) : α × α :=
  if feq rd 0 then (rd, wa)
  else
    let t := a j k / rd
    let rd' := rd * fsqrt (dmax 0 (1 - t * t))
    let u := rd' / wa
    if fle (lit (1 / 20) * u * u) (lit MACHEP0) then (colNorm a k (j + 1) m, colNorm a k (j + 1) m) else (rd', wa)

/-- The Householder step for column `j` with `ajnorm` different from zero. `solvers/mpfit.cpp:1509-1552`. -/
def qrHouse (m j : ℕ) (aj : α) (st : QrSt α) : QrSt α :=
  let a := qrApply m j (qrVec j aj st.a)
  { st with
    a := a
    rdiag := fun k => if k = j then -aj else if j < k then (qrNorm m j a k (st.rdiag k) (st.wa k)).1 else st.rdiag k
    wa := fun k => if j < k then (qrNorm m j a k (st.rdiag k) (st.wa k)).2 else st.wa k }

/-- Reduction of column `j`. `solvers/mpfit.cpp:1498-1552`. -/
def qrReduce (m j : ℕ) (st : QrSt α) : QrSt α :=
  let aj := colNorm st.a j j m
  if feq aj 0 then { st with rdiag := Function.update st.rdiag j (-aj) }
  else qrHouse m j (if flt (st.a j j) 0 then -aj else aj) st

/-- One turn of the main loop. `solvers/mpfit.cpp:1469-1553`. -/
def qrStep (m n : ℕ) (st : QrSt α) (j : ℕ) : QrSt α :=
  let kmax := qrPivot n j st.rdiag
  qrReduce m j (if kmax = j then st else qrSwap j kmax st)

/-- `mp_qrfac` with pivoting. `solvers/mpfit.cpp:1361-1557`. -/
def qrfac (m n : ℕ) (a : Arr2 α) : QrSt α := (List.range (min m n)).foldl (qrStep m n) (qrInit m a)

/-! ### `mpfit`: the product of `Q` transposed and the deviates -/

/-- One turn: `wa4` after the transformation stored in column `j`. `solvers/mpfit.cpp:655-667`. -/
def qtfStep (m : ℕ) (a : Arr2 α) (w : ℕ → α) (j : ℕ) : ℕ → α :=
  if feq (a j j) 0 then w
  else
    let temp := -sumFrom j m (fun i => a i j * w i) / a j j
    fun i => if j ≤ i then w i + a i j * temp else w i

/-- `qtf` with the whole of `wa4`: `qtf[j] = wa4[j]` in turn `j`. `solvers/mpfit.cpp:646-671`. -/
def qtfLoop (m n : ℕ) (a : Arr2 α) (f : ℕ → α) : (ℕ → α) × (ℕ → α) :=
  (List.range n).foldl (fun s j => let w := qtfStep m a s.1 j; (w, Function.update s.2 j (w j))) (f, fun _ => 0)

/-- `fjac[j + m*j] = wa1[j]`. `solvers/mpfit.cpp:668`. -/
def setDiag (a : Arr2 α) (rdiag : ℕ → α) : Arr2 α := fun i k => if i = k then rdiag k else a i k

/-- The gradient norm. `solvers/mpfit.cpp:703-720`. -/
def gradNorm (n : ℕ) (r : Arr2 α) (ipvt : ℕ → ℕ) (qtf acnorm : ℕ → α) (fnorm : α) : α :=
  if feq fnorm 0 then 0
  else (List.range n).foldl (fun g j =>
    if feq (acnorm (ipvt j)) 0 then g
    else dmax g (fabs (sumFrom 0 (j + 1) (fun i => r i j * (qtf i / fnorm)) / acnorm (ipvt j)))) 0

/-! ### `mp_qrsolv` -/

/-- `x[ipvt[j]] = w[j]` for every `j`. `solvers/mpfit.cpp:1772-1775`, `1918-1921`. -/
def permute (n : ℕ) (ipvt : ℕ → ℕ) (w x : ℕ → α) : ℕ → α := (List.range n).foldl (fun x j => Function.update x (ipvt j) (w j)) x

/-- `nsing`: the first index with a zero on the diagonal. `solvers/mpfit.cpp:1743-1749`, `1891-1899`. -/
def firstZero (n : ℕ) (d : ℕ → α) : ℕ := ((List.range n).find? fun j => feq (d j) 0).getD n

/-- The rotation that eliminates `s` with `r`: cosine and sine. `solvers/mpfit.cpp:1688-1699`. -/
def givens (r s : α) : α × α :=
  if flt (fabs r) (fabs s) then
    let cotan := r / s
    let sn := lit (1 / 2) / fsqrt (lit (1 / 4) + lit (1 / 4) * cotan * cotan)
    (sn * cotan, sn)
  else
    let tn := s / r
    let cs := lit (1 / 2) / fsqrt (lit (1 / 4) + lit (1 / 4) * tn * tn)
    (cs, cs * tn)

/-- The arrays of `mp_qrsolv`. -/
structure GvSt (α : Type) where
  r : Arr2 α
  sdiag : ℕ → α
  wa : ℕ → α
  q : α

/-- One rotation. `solvers/mpfit.cpp:1679-1727`. -/
def givensStep (st : GvSt α) (k : ℕ) : GvSt α :=
  if feq (st.sdiag k) 0 then st
  else
    let g := givens (st.r k k) (st.sdiag k)
    { r := fun i c => if c = k ∧ k ≤ i then g.1 * st.r i k + g.2 * st.sdiag i else st.r i c
      sdiag := fun i => if k < i then -g.2 * st.r i k + g.1 * st.sdiag i else st.sdiag i
      wa := Function.update st.wa k (g.1 * st.wa k + g.2 * st.q)
      q := -g.2 * st.wa k + g.1 * st.q }

/-- Elimination of row `j` of the diagonal matrix; `x0` is the saved diagonal of `R`. `solvers/mpfit.cpp:1667-1738`. -/
def elimRow (n : ℕ) (ipvt : ℕ → ℕ) (diag x0 : ℕ → α) (st : GvSt α) (j : ℕ) : GvSt α :=
  let st1 : GvSt α :=
    if feq (diag (ipvt j)) 0 then st
    else (List.range' j (n - j)).foldl givensStep
      { st with sdiag := fun k => if k = j then diag (ipvt j) else if j < k then 0 else st.sdiag k, q := 0 }
  { st1 with
    sdiag := Function.update st1.sdiag j (st1.r j j)
    r := fun i c => if i = j ∧ c = j then x0 j else st1.r i c }

/-- One turn of the back substitution. `solvers/mpfit.cpp:1753-1767`. -/
def backStep (nsing : ℕ) (r : Arr2 α) (sdiag wa : ℕ → α) (k : ℕ) : ℕ → α :=
  let j := nsing - k - 1
  Function.update wa j ((wa j - sumFrom (j + 1) nsing (fun i => r i j * wa i)) / sdiag j)

/-- `mp_qrsolv`: the new `r`, `sdiag` and `x`. `solvers/mpfit.cpp:1561-1779`. -/
def qrsolv (n : ℕ) (r : Arr2 α) (ipvt : ℕ → ℕ) (diag qtb x sdiag : ℕ → α) : Arr2 α × (ℕ → α) × (ℕ → α) :=
  let r0 : Arr2 α := fun i j => if j ≤ i then r j i else r i j
  let st := (List.range n).foldl (elimRow n ipvt diag fun j => r j j) ⟨r0, sdiag, qtb, 0⟩
  let ns := firstZero n st.sdiag
  let w0 : ℕ → α := fun j => if ns ≤ j then 0 else st.wa j
  let w := (List.range ns).foldl (backStep ns st.r st.sdiag) w0
  (st.r, st.sdiag, permute n ipvt w x)

/-! ### `mp_lmpar` -/

/-- One turn of the back substitution for the Gauss-Newton direction. `solvers/mpfit.cpp:1902-1913`. -/
def gnStep (nsing : ℕ) (r : Arr2 α) (w : ℕ → α) (k : ℕ) : ℕ → α :=
  let j := nsing - k - 1
  let t := w j / r j j
  fun i => if i = j then t else if i < j then w i - r i j * t else w i

/-- The Gauss-Newton direction. `solvers/mpfit.cpp:1887-1921`. -/
def gaussNewton (n : ℕ) (r : Arr2 α) (ipvt : ℕ → ℕ) (qtb x : ℕ → α) : ℕ → α :=
  let ns := firstZero n fun j => r j j
  let w0 : ℕ → α := fun j => if ns ≤ j then 0 else qtb j
  permute n ipvt ((List.range ns).foldl (gnStep ns r) w0) x

/-- `wa1[j] = diag[l]*(wa2[l]/dxnorm)` with `l = ipvt[j]`. `solvers/mpfit.cpp:1942-1945`, `2020-2023`. -/
def scaledDir (ipvt : ℕ → ℕ) (d wa2 : ℕ → α) (dxnorm : α) : ℕ → α := fun j => d (ipvt j) * (wa2 (ipvt j) / dxnorm)

/-- Forward substitution with `R` transposed. `solvers/mpfit.cpp:1946-1959`. -/
def fwdStep (r : Arr2 α) (w : ℕ → α) (j : ℕ) : ℕ → α :=
  Function.update w j ((w j - sumFrom 0 j fun i => r i j * w i) / r j j)

/-- Forward substitution with `S` transposed. `solvers/mpfit.cpp:2025-2037`. -/
def newtonStep (r : Arr2 α) (sdiag : ℕ → α) (w : ℕ → α) (j : ℕ) : ℕ → α :=
  let t := w j / sdiag j
  fun i => if i = j then t else if j < i then w i - r i j * t else w i

/-- `parl`. `solvers/mpfit.cpp:1940-1962`. -/
def lmParl (n : ℕ) (r : Arr2 α) (ipvt : ℕ → ℕ) (d wa2 : ℕ → α) (dxnorm fp delta : α) : α :=
  if firstZero n (fun j => r j j) < n then 0
  else
    let t := vecNorm n ((List.range n).foldl (fwdStep r) (scaledDir ipvt d wa2 dxnorm))
    ((fp / delta) / t) / t

/-- `gnorm`. `solvers/mpfit.cpp:1966-1978`. -/
def lmGnorm (n : ℕ) (r : Arr2 α) (ipvt : ℕ → ℕ) (d qtb : ℕ → α) : α :=
  vecNorm n fun j => sumFrom 0 (j + 1) (fun i => r i j * qtb i) / d (ipvt j)

/-- `MP_DWARF`, `solvers/mpfit.h:133`. -/
def MPDWARF : ℚ := 22250739 / 10 ^ 315

/-- The iteration; the first argument counts the turns that are left. `solvers/mpfit.cpp:1994-2056`. -/
def lmparLoop (n : ℕ) (ipvt : ℕ → ℕ) (d qtb : ℕ → α) (delta : α) :
    ℕ → Arr2 α → (ℕ → α) → (ℕ → α) → α → α → α → α → α × (ℕ → α) × Arr2 α
  | 0, r, x, _, par, _, _, _ => (par, x, r)
  | left + 1, r, x, sdiag, par0, parl, paru, fp0 =>
    let par := if feq par0 0 then dmax (lit MPDWARF) (lit (1 / 1000) * paru) else par0
    let s := qrsolv n r ipvt (fun j => fsqrt par * d j) qtb x sdiag
    let wa2 : ℕ → α := fun j => d j * s.2.2 j
    let dxnorm := vecNorm n wa2
    let fp := dxnorm - delta
    if fle (fabs fp) (lit (1 / 10) * delta) || (feq parl 0 && fle fp fp0 && flt fp0 0) || left == 0 then (par, s.2.2, s.1)
    else
      let t := vecNorm n ((List.range n).foldl (newtonStep s.1 s.2.1) (scaledDir ipvt d wa2 dxnorm))
      let parc := ((fp / delta) / t) / t
      let parl' := if flt 0 fp then dmax parl par else parl
      let paru' := if flt fp 0 then dmin paru par else paru
      lmparLoop n ipvt d qtb delta left s.1 s.2.2 s.2.1 (dmax parl' (par + parc)) parl' paru' fp

/-- `mp_lmpar`: the new `par`, `x` and `r`. The vector `d` is `diag[ifree[j]]`. `solvers/mpfit.cpp:1783-2067`. -/
def lmpar (n : ℕ) (r : Arr2 α) (ipvt : ℕ → ℕ) (d qtb : ℕ → α) (delta par0 : α) (x0 sdiag0 : ℕ → α) : α × (ℕ → α) × Arr2 α :=
  let x := gaussNewton n r ipvt qtb x0
  let wa2 : ℕ → α := fun j => d j * x j
  let dxnorm := vecNorm n wa2
  let fp := dxnorm - delta
  if fle fp (lit (1 / 10) * delta) then (0, x, r)
  else
    let parl := lmParl n r ipvt d wa2 dxnorm fp delta
    let gnorm := lmGnorm n r ipvt d qtb
    let paru0 := gnorm / delta
    let paru := if feq paru0 0 then lit MPDWARF / dmin delta (lit (1 / 10)) else paru0
    let p1 := dmin (dmax par0 parl) paru
    let par := if feq p1 0 then gnorm / dxnorm else p1
    lmparLoop n ipvt d qtb delta 10 r x sdiag0 par parl paru fp

/-! ### The predicted reduction -/

/-- One turn of the loop that multiplies the triangle with the step. `solvers/mpfit.cpp:854-864`. -/
def predStep (r : Arr2 α) (ipvt : ℕ → ℕ) (step wa3 : ℕ → α) (j : ℕ) : ℕ → α :=
  let w := Function.update wa3 j 0
  fun i => if i ≤ j then w i + r i j * step (ipvt j) else w i

/-- `wa3`, the triangle times the step. `solvers/mpfit.cpp:853-864`. -/
def predVec (n : ℕ) (r : Arr2 α) (ipvt : ℕ → ℕ) (step wa3 : ℕ → α) : ℕ → α := (List.range n).foldl (predStep r ipvt step) wa3

/-- The numbers that the inner loop takes from the linear algebra, for the step `step` actually taken. `solvers/mpfit.cpp:812-816`, `853-873`. -/
def stepLA (n : ℕ) (r : Arr2 α) (ipvt : ℕ → ℕ) (d step wa3 : ℕ → α) (par xnorm : α) (dir : List α) (stop : Bool) : InnerLA α :=
  { dir := dir, par := par, pnorm := vecNorm n fun j => d j * step j, jnorm := vecNorm n (predVec n r ipvt step wa3), xnorm := xnorm, stop := stop }

/-! ### `mp_covar` -/

/-- Column `k` of the inverse of `R`: one turn of the loop over `j`, on the column `c`. `solvers/mpfit.cpp:2192-2201`. -/
def invColStep (r : Arr2 α) (k : ℕ) (c : ℕ → α) (j : ℕ) : ℕ → α :=
  let t := c k * c j
  let c0 := Function.update c j 0
  fun i => if i ≤ j then c0 i + -t * r i j else c0 i

/-- Column `k` of the inverse of `R`. `solvers/mpfit.cpp:2191-2201`. -/
def invCol (r : Arr2 α) (k : ℕ) : ℕ → α := (List.range k).foldl (invColStep r k) (Function.update (fun i => r i k) k (1 / r k k))

/-- The first loop from column `k` on; the answer also holds `l + 1`. `solvers/mpfit.cpp:2185-2203`. -/
def invLoop (tolr : α) : ℕ → ℕ → Arr2 α → Arr2 α × ℕ
  | 0, k, r => (r, k)
  | left + 1, k, r =>
    if fle (fabs (r k k)) tolr then (r, k)
    else
      let c := invCol r k
      invLoop tolr left (k + 1) fun i j => if j = k then c i else r i j

/-- One turn of the second loop, for column `k`. `solvers/mpfit.cpp:2211-2228`. -/
def gramStep (r : Arr2 α) (k : ℕ) : Arr2 α := fun i j =>
  if j < k ∧ i ≤ j then r i j + r j k * r i k else if j = k ∧ i ≤ k then r i k * r k k else r i j

/-- One element of the third loop. `solvers/mpfit.cpp:2239-2246`. -/
def scatterStep (ipvt : ℕ → ℕ) (sing : Bool) (j : ℕ) (r : Arr2 α) (i : ℕ) : Arr2 α :=
  let v := if sing then 0 else r i j
  let r0 : Arr2 α := fun a b => if a = i ∧ b = j then v else r a b
  if ipvt j < ipvt i then fun a b => if a = ipvt i ∧ b = ipvt j then v else r0 a b
  else if ipvt i < ipvt j then fun a b => if a = ipvt j ∧ b = ipvt i then v else r0 a b
  else r0

/-- One turn of the third loop. `solvers/mpfit.cpp:2234-2248`. -/
def scatterCol (ipvt : ℕ → ℕ) (rank : ℕ) (s : Arr2 α × (ℕ → α)) (j : ℕ) : Arr2 α × (ℕ → α) :=
  let r := (List.range (j + 1)).foldl (scatterStep ipvt (decide (rank ≤ j)) j) s.1
  (r, Function.update s.2 (ipvt j) (r j j))

/-- The last loop. `solvers/mpfit.cpp:2253-2259`. -/
def symStep (wa : ℕ → α) (r : Arr2 α) (j : ℕ) : Arr2 α := fun a b =>
  if b = j then (if a < j then r j a else if a = j then wa j else r a b) else r a b

/-- `mp_covar`. `solvers/mpfit.cpp:2165-2270`. -/
def covar (n : ℕ) (r : Arr2 α) (ipvt : ℕ → ℕ) (tol : α) (wa0 : ℕ → α) : Arr2 α :=
  let inv := invLoop (tol * fabs (r 0 0)) n 0 r
  let g := (List.range inv.2).foldl gramStep inv.1
  let s := (List.range n).foldl (scatterCol ipvt inv.2) (g, wa0)
  (List.range n).foldl (symStep s.2) s.1

/-- `xerror` for one free parameter. `solvers/mpfit.cpp:1041-1045`. -/
def xError (c : Arr2 α) (j : ℕ) : α := if flt 0 (c j j) then fsqrt (c j j) else 0

end

end Imfit
