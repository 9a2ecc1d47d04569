import Verif.Py.Real
import Verif.Py.Str

/-!
# The ray tracer: surfaces, intercepts, refraction and the loop over surfaces

Model of py/desimeter/transform/tan2fp/raytrace/RT185v2.py lines 128-203 and 432-925,
1369-1385 and 1410-1436.

One row of `Oarray` (one optical surface) is a `Surf`; one row of `Rarray` (one ray at one
surface) is a `Hit`: upper case columns (lab frame) and lower case columns (frame of the vertex
of the surface).  Numbers are reals; `-0.0` is `0`.  Messages printed (`Yikes`, `testUVW`) are
not modelled.
-/

namespace Verif.RayTrace

open Verif.Py

/-- A triplet of numbers: `[x, y, z]` or `[u, v, w]`. -/
@[ext] structure V3 where
  x : ℝ
  y : ℝ
  z : ℝ

/-- The nine elements `OE11 ... OE33` of a row of `Oarray` (RT185v2.py:113-122). -/
@[ext] structure M3 where
  e11 : ℝ
  e12 : ℝ
  e13 : ℝ
  e21 : ℝ
  e22 : ℝ
  e23 : ℝ
  e31 : ℝ
  e32 : ℝ
  e33 : ℝ

/-- Position and direction of a ray in one frame (six columns of `Rarray`,
RT185v2.py:145-163). -/
@[ext] structure Ray where
  pos : V3
  dir : V3

/-- The row of `Rarray` of one ray at one surface: lab frame and vertex frame. -/
structure Hit where
  lab : Ray
  loc : Ray

/-- Failure codes, RT185v2.py:167-177. -/
inductive Code where
  | OK | BACK | MISS | ODIAM | IDIAM | SPI | TIR | EDGE | UNKNOWN
  deriving DecidableEq, Repr

/-- A row of `Oarray` with its entries of `OhasPoly` and `OglassNames`
(RT185v2.py:75-111).  `action` is `int(Oarray[j, OACTIONTYPE])`, `poly` are the columns
`OA1 ... OA14`, `legs` is `int(Oarray[j, ONSPIDER])`, `legWidth` is `OWSPIDER`. -/
structure Surf where
  action : Int
  odiam : ℝ
  idiam : ℝ
  curve : ℝ
  asph : ℝ
  vertex : V3
  tilt : ℝ
  pitch : ℝ
  roll : ℝ
  hasPoly : Bool
  poly : List ℝ
  legs : Int
  legWidth : ℝ
  glass : PyStr

/-! ## Vector helpers -/

/-- RT185v2.py:509-511 `dotproduct`. -/
def dot (a b : V3) : ℝ := a.x * b.x + a.y * b.y + a.z * b.z

/-- RT185v2.py:514-520 `crossproduct`. -/
def cross (a b : V3) : V3 :=
  ⟨a.y * b.z - a.z * b.y, a.z * b.x - a.x * b.z, a.x * b.y - a.y * b.x⟩

/-- `k * vector` and `vector + vector` of numpy. -/
def smul (k : ℝ) (a : V3) : V3 := ⟨k * a.x, k * a.y, k * a.z⟩
/-- numpy addition. -/
def add (a b : V3) : V3 := ⟨a.x + b.x, a.y + b.y, a.z + b.z⟩

/-- `Rarray[.., Rx] + d*Rarray[.., Ru]` and likewise for y, z: the point at distance `d`
along the ray. -/
def along (r : Ray) (d : ℝ) : V3 :=
  ⟨r.pos.x + d * r.dir.x, r.pos.y + d * r.dir.y, r.pos.z + d * r.dir.z⟩

/-- RT185v2.py:522-530 `normalize`: a zero vector is left as it is. -/
noncomputable def normalize (n : V3) : V3 :=
  let len := Real.sqrt (n.x ^ 2 + n.y ^ 2 + n.z ^ 2)
  if len = 0 then n else ⟨n.x / len, n.y / len, n.z / len⟩

/-- RT185v2.py:244-252 `fixup`: the third direction cosine from the first two, with the sign
of `w`; `quit()` ends the program with exit code 0. -/
noncomputable def fixup (u v w : ℝ) : Except PyErr ℝ :=
  let arg := 1 - u * u - v * v
  if arg < 0 then .error (.sysExit 0)
  else if 0 ≤ w then .ok (Real.sqrt arg) else .ok (-Real.sqrt arg)

/-- RT185v2.py:472-489 `getBothRoots`. -/
noncomputable def getBothRoots (A B C : ℝ) : ℝ × ℝ :=
  if A = 0 ∧ B ≠ 0 then (-C / B, 0)
  else if B = 0 ∧ A ≠ 0 then
    if 0 < C / A then (Real.sqrt (C / A), -Real.sqrt (C / A)) else (0, 0)
  else if C = 0 ∧ A ≠ 0 then (-B / A, 0)
  else
    let D := B * B - 4 * A * C
    if D ≤ 0 then (0, 0)
    else
      let Q := -0.5 * (B + sign B * Real.sqrt D)
      (Q / A, C / Q)

/-! ## Frames -/

/-- RT185v2.py:491-507, the body of the loop of `setEulers` (angles in degrees). -/
noncomputable def euler (tilt pitch roll : ℝ) : M3 :=
  let ct := Real.cos (radians tilt)
  let st := Real.sin (radians tilt)
  let cp := Real.cos (radians pitch)
  let sp := Real.sin (radians pitch)
  let cr := Real.cos (radians roll)
  let sr := Real.sin (radians roll)
  { e11 := cr * cp
    e12 := -sr * cp
    e13 := sp
    e21 := cr * sp * st + sr * ct
    e22 := cr * ct - sr * sp * st
    e23 := -cp * st
    e31 := -cr * sp * ct + sr * st
    e32 := sr * sp * ct + cr * st
    e33 := cp * ct }

/-- The Euler matrix of a surface. -/
noncomputable def Surf.E (S : Surf) : M3 := euler S.tilt S.pitch S.roll

/-- The product with the transposed matrix used twice in `labtovx` (RT185v2.py:882-888). -/
def M3.tmul (E : M3) (a : V3) : V3 :=
  ⟨a.x * E.e11 + a.y * E.e21 + a.z * E.e31,
   a.x * E.e12 + a.y * E.e22 + a.z * E.e32,
   a.x * E.e13 + a.y * E.e23 + a.z * E.e33⟩

/-- The product with the matrix used twice in `vxtolab` (RT185v2.py:913-919). -/
def M3.mul (E : M3) (a : V3) : V3 :=
  ⟨a.x * E.e11 + a.y * E.e12 + a.z * E.e13,
   a.x * E.e21 + a.y * E.e22 + a.z * E.e23,
   a.x * E.e31 + a.y * E.e32 + a.z * E.e33⟩

/-- RT185v2.py:864-890 `labtovx`: the lab ray left by the previous surface in the frame of
this one. -/
noncomputable def labtovx (S : Surf) (r : Ray) : Ray :=
  { pos := S.E.tmul ⟨r.pos.x - S.vertex.x, r.pos.y - S.vertex.y, r.pos.z - S.vertex.z⟩
    dir := S.E.tmul r.dir }

/-- RT185v2.py:901-925 `vxtolab`. -/
noncomputable def vxtolab (S : Surf) (r : Ray) : Ray :=
  let p := S.E.mul r.pos
  { pos := ⟨p.x + S.vertex.x, p.y + S.vertex.y, p.z + S.vertex.z⟩
    dir := S.E.mul r.dir }

/-! ## The surface -/

/-- RT185v2.py:559-574 `getZconic` at the point `(x, y)`: `none` is the failure code MISS. -/
noncomputable def zConic (S : Surf) (x y : ℝ) : Option ℝ :=
  let r2 := x * x + y * y
  let s := S.asph + 1
  let c := S.curve
  let arg := 1 - s * c * c * r2
  if arg < 0 then none else some (c * r2 / (1 + Real.sqrt arg))

/-- The loop of `getZpoly` (RT185v2.py:581-585): running `product` and `sum`. -/
noncomputable def polyLoop (r : ℝ) : List ℝ → ℝ → ℝ → ℝ
  | [], _, sum => sum
  | a :: l, product, sum => polyLoop r l (product * r) (sum + a * (product * r))

/-- RT185v2.py:576-586 `getZpoly`. -/
noncomputable def zPoly (S : Surf) (x y : ℝ) : ℝ :=
  polyLoop (Real.sqrt (x * x + y * y)) S.poly 1 0

/-- RT185v2.py:607-621 `gradConic`. -/
noncomputable def gradConic (S : Surf) (x y : ℝ) : ℝ × ℝ :=
  let s := S.asph + 1
  let c := S.curve
  if c = 0 then (0, 0)
  else
    let r2 := x * x + y * y
    let arg := 1 - s * c ^ 2 * r2
    if arg ≤ 0 then (0, 0)
    else
      let coef := c / Real.sqrt arg
      (x * coef, y * coef)

/-- The loop of `gradPoly` (RT185v2.py:629-634): `k` is `coef = 1 + index - OA1`. -/
noncomputable def gradLoop (r : ℝ) : List ℝ → ℝ → ℝ → ℝ → ℝ
  | [], _, _, dzdr => dzdr
  | a :: l, k, product, dzdr => gradLoop r l (k + 1) (product * r) (dzdr + k * a * product)

/-- RT185v2.py:623-635 `gradPoly`. -/
noncomputable def gradPoly (S : Surf) (x y : ℝ) : ℝ × ℝ :=
  let r := Real.sqrt (x * x + y * y)
  if r = 0 then (0, 0)
  else
    let dzdr := gradLoop r S.poly 1 1 0
    (x / r * dzdr, y / r * dzdr)

/-- RT185v2.py:598-605 `gradTotal`. -/
noncomputable def gradTotal (S : Surf) (x y : ℝ) : ℝ × ℝ :=
  let g := gradConic S x y
  if S.hasPoly then
    let p := gradPoly S x y
    (g.1 + p.1, g.2 + p.2)
  else g

/-- RT185v2.py:591-596 `getNormal` at the local point `p` of the ray. -/
noncomputable def getNormal (S : Surf) (p : V3) : V3 :=
  let g := gradTotal S p.x p.y
  normalize ⟨-g.1, -g.2, 1⟩

/-! ## Intercepts -/

/-- RT185v2.py:703-744 `conicIntercept`: the ray is moved to the intercept if the code is
`OK` and left as it is otherwise. -/
noncomputable def conicIntercept (S : Surf) (r : Ray) : Code × Ray :=
  let s := S.asph + 1
  let c := S.curve
  let x := r.pos.x
  let y := r.pos.y
  let z := r.pos.z
  let u := r.dir.x
  let v := r.dir.y
  let w := r.dir.z
  let A := c * (u * u + v * v + s * w * w)
  let B := 2 * c * (x * u + y * v + s * z * w) - 2 * w
  let C := c * (x * x + y * y + s * z * z) - 2 * z
  let roots := getBothRoots A B C
  let lo := min roots.1 roots.2
  let hi := max roots.1 roots.2
  if hi ≤ 0 ∧ lo < 0 then (.BACK, r)
  else
    let d := if s * c * (z + w * lo) < 1 ∧ 0 < lo then lo
             else if s * c * (z + w * hi) < 1 ∧ 0 < hi then hi
             else 0
    if d ≤ 0 then (.MISS, r)
    else (.OK, { r with pos := along r d })

/-- RT185v2.py:655-669 `func`: height of the surface above the ray at distance `d`;
`none` is a code that is not `OK` (it is MISS). -/
noncomputable def func (S : Surf) (r : Ray) (d : ℝ) : Option ℝ :=
  let p := along r d
  match zConic S p.x p.y with
  | none => none
  | some zc => some (zc + zPoly S p.x p.y - (r.pos.z + r.dir.z * d))

/-- RT185v2.py:671-676 `deriv`; the codes of both calls are thrown away, a call that failed
counts as `-0.0`. -/
noncomputable def deriv (S : Surf) (r : Ray) (d : ℝ) : ℝ :=
  let DELTA := 0.00001
  (((func S r (d + DELTA)).getD 0) - ((func S r (d - DELTA)).getD 0)) / (2 * DELTA)

/-- The loop of `higherIntercept` (RT185v2.py:688-698), `fuel` + 1 passes at most:
`fuel = 9 - niters`, so `niters > 8` is `fuel = 0`.  `none` is the code MISS.  With a slope of
zero numpy only warns and goes on with a number that is not finite: `nanResult`, not followed
further. -/
noncomputable def newton (S : Surf) (r : Ray) : ℕ → ℝ → Except PyErr (Option ℝ)
  | fuel, d =>
    match func S r d with
    | none => .ok none
    | some f =>
      let slope := deriv S r d
      if slope = 0 then .error .nanResult
      else
        let d' := d - f / slope
        if |f| < 1e-12 then .ok (some d')
        else match fuel with
          | 0 => .ok (some d')
          | fuel + 1 => newton S r fuel d'

/-- RT185v2.py:678-701 `higherIntercept`.  (If the loop ends with MISS the ray stays at its
conic intercept.) -/
noncomputable def higherIntercept (S : Surf) (r : Ray) : Except PyErr (Code × Ray) :=
  match conicIntercept S r with
  | (.OK, r') =>
    match newton S r' 8 0 with
    | .error e => .error e
    | .ok none => .ok (.MISS, r')
    | .ok (some d) => .ok (.OK, { r' with pos := along r' d })
  | (code, r') => .ok (code, r')

/-- RT185v2.py:646-653 `intercept`. -/
noncomputable def intercept (S : Surf) (r : Ray) : Except PyErr (Code × Ray) :=
  if S.hasPoly then higherIntercept S r else .ok (conicIntercept S r)

/-! ## Apertures -/

/-- The test of one spider leg (RT185v2.py:779-785). -/
noncomputable def legHit (nlegs : Int) (half rolldeg raydeg r : ℝ) (ileg : ℕ) : Bool :=
  let diff := (ileg : ℝ) * 360 / (nlegs : ℝ) + rolldeg - raydeg
  let xtemp := |r * Real.sin (radians diff)|
  let ytemp := r * Real.cos (radians diff)
  decide (xtemp < half ∧ 0 < ytemp)

/-- RT185v2.py:756-788 `validate`. -/
noncomputable def validate (S : Surf) (p : V3) : Code :=
  let r := Real.sqrt (p.x * p.x + p.y * p.y)
  if 0 < S.odiam ∧ 0.5 * S.odiam < r then .ODIAM
  else if r < 0.5 * S.idiam then .IDIAM
  else
    let half := 0.5 * S.legWidth
    if S.legs < 1 ∨ half ≤ 0 then .OK
    else if (List.range S.legs.toNat).any
        (legHit S.legs half S.roll (degrees (atan2 p.y p.x)) r) then .SPI
    else .OK

/-! ## Redirection -/

/-- The mirror branch of `redirect` (RT185v2.py:809-815). -/
noncomputable def reflect (n k : V3) : V3 :=
  let dotp := k.x * n.x + k.y * n.y + k.z * n.z
  ⟨k.x - 2 * dotp * n.x, k.y - 2 * dotp * n.y, k.z - 2 * dotp * n.z⟩

/-- The lens branch of `redirect` (RT185v2.py:826-843); `none` is TIR. -/
noncomputable def refract (mu : ℝ) (n k : V3) : Option V3 :=
  let kparallel := smul mu (cross n (cross k n))
  let kperpSQ := 1 - dot kparallel kparallel
  if kperpSQ ≤ 0 then none
  else
    let kperp := smul (sign (dot n k) * Real.sqrt kperpSQ) n
    some (add kparallel kperp)

/-- `if numer==0.0: numer = 1.0` (RT185v2.py:819-823). -/
noncomputable def orOne (n : ℝ) : ℝ := if n = 0 then 1 else n

/-- RT185v2.py:796-853 `redirect`.  `next` is the surface `jsurf+1` (`none` at the last
surface), `refr` the refractive index of a glass at the wavelength of the ray
(`findRefraction`, which may end the program). -/
noncomputable def redirect (refr : PyStr → Except PyErr ℝ) (S : Surf) (next : Option Surf)
    (r : Ray) : Except PyErr (Code × Ray) :=
  match next with
  | none => .ok (.OK, r)
  | some T =>
    if S.action = 3 then .ok (.OK, r)
    else if S.action = 1 then .ok (.OK, { r with dir := reflect (getNormal S r.pos) r.dir })
    else if S.action = 0 then
      match refr S.glass with
      | .error e => .error e
      | .ok numer =>
        match refr T.glass with
        | .error e => .error e
        | .ok denom =>
          match refract (orOne numer / orOne denom) (getNormal S r.pos) r.dir with
          | none => .ok (.TIR, r)
          | some k => .ok (.OK, { r with dir := k })
    else if S.action = 2 then
      .ok (.OK, { r with dir := ⟨r.dir.x * -1, r.dir.y * -1, r.dir.z * -1⟩ })
    else if S.action = 4 ∨ S.action = 5 then .ok (.OK, r)
    else .ok (.UNKNOWN, r)

/-! ## The loop over the surfaces -/

/-- One pass of the loop of `runOneRay` (RT185v2.py:1416-1434): the code and the row of
`Rarray` written.  `prev` is the row of the previous surface. -/
noncomputable def passOne (refr : PyStr → Except PyErr ℝ) (S : Surf) (next : Option Surf)
    (prev : Hit) : Except PyErr (Code × Hit) :=
  if S.action = 5 then
    .ok (.OK, { lab := vxtolab S prev.loc, loc := prev.loc })
  else
    match intercept S (labtovx S prev.lab) with
    | .error e => .error e
    | .ok (.OK, r) =>
      match validate S r.pos with
      | .OK =>
        match redirect refr S next r with
        | .error e => .error e
        | .ok (code, r') => .ok (code, { lab := vxtolab S r', loc := r' })
      | code => .ok (code, { lab := vxtolab S r, loc := r })
    | .ok (code, r) => .ok (code, { lab := vxtolab S r, loc := r })

/-- RT185v2.py:1410-1436 `runOneRay` from the surface `j + 1` on: the list of rows written at
the surfaces passed (code OK), that is `howfar - j` rows.  The row of the surface where a ray is lost is
written too but nothing reads it. -/
noncomputable def runFrom (refr : PyStr → Except PyErr ℝ) :
    List Surf → Hit → Except PyErr (List Hit)
  | [], _ => .ok []
  | S :: l, prev =>
    match passOne refr S l.head? prev with
    | .error e => .error e
    | .ok (.OK, h) =>
      match runFrom refr l h with
      | .error e => .error e
      | .ok t => .ok (h :: t)
    | .ok (_, _) => .ok []

/-- RT185v2.py:1410-1436 `runOneRay`, with `howfar` the number of rows. -/
noncomputable def runOneRay (refr : PyStr → Except PyErr ℝ) (surfs : List Surf) (start : Hit) :
    Except PyErr (ℕ × List Hit) :=
  match runFrom refr surfs start with
  | .error e => .error e
  | .ok rows => .ok (rows.length, rows)

/-- Writing the column `OROLL` of surface `j` (counted from 1; numpy's IndexError if there is
no such row; row 0 exists and is not a surface). -/
def setRoll (surfs : List Surf) (j : ℕ) (roll : ℝ) : Except PyErr (List Surf) :=
  match surfs[j - 1]? with
  | none => .error .indexError
  | some S => .ok (surfs.set (j - 1) { S with roll := roll })

/-- RT185v2.py:1369-1384 `modifyADC` (followed by `setEulers`: the Euler matrices are
functions of the angles here). -/
def modifyADC (adc1 adc2 : ℝ) (surfs : List Surf) : Except PyErr (List Surf) := do
  let s ← setRoll surfs 11 (-adc1)
  let s ← setRoll s 15 adc1
  let s ← setRoll s 17 (-adc2)
  setRoll s 21 adc2

end Verif.RayTrace
