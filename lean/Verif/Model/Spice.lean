import Verif.Model.DA

/-!
# Spiciness

Models `/repo/src/momlevel/spice/flament.py` on numpy arrays (shape plus row-major data) and
`calc_spice` of `/repo/src/momlevel/derived.py` on DataArrays.
-/

set_option linter.unusedSectionVars false

namespace Momlevel

/-- A numpy array: shape and row-major data. -/
structure NArr (V : Type*) where
  shape : List Nat
  data : List V

/-- The invariant of every numpy array. -/
def NArr.WF {V : Type*} (a : NArr V) : Prop := a.data.length = a.shape.prod

namespace Spice

variable {K : Type} [Field K] [LinearOrder K]

/-- `x ** k` for a float `x` and a Python int `k >= 0`; `nan ** 0 = 1.0`. -/
def pow (x : Fl K) : Nat → Fl K
  | 0 => .fin 1
  | k + 1 => pow x k * x

/-- spice/flament.py:7-40 `B_IJ`, already reshaped to 6 rows of 5 (for any number type). -/
def B_IJ {α : Type*} [Neg α] [OfScientific α] : List (List α) :=
  [[0.0, 7.7442e-1, -5.85e-3, -9.84e-4, -2.06e-4],
   [5.1655e-2, 2.034e-3, -2.742e-4, -8.5e-6, 1.36e-5],
   [6.64783e-3, -2.4681e-4, -1.428e-5, 3.337e-5, 7.894e-6],
   [-5.4023e-5, 7.326e-6, 7.0036e-6, -3.0412e-6, -1.0853e-6],
   [3.949e-7, -3.029e-8, -3.8209e-7, 1.0012e-7, 4.7133e-8],
   [-6.36e-10, -1.309e-9, 6.048e-9, -1.1409e-9, -6.676e-10]]

/-- An argument of `spice`: a Python number or a numpy array. -/
inductive Arg (K : Type)
  | num (x : Fl K)
  | arr (a : NArr (Fl K))

/-- flament.py:68-70: numbers become arrays of shape (1,). -/
def Arg.toArr : Arg K → NArr (Fl K)
  | .num x => ⟨[1], [x]⟩
  | .arr a => a

/-- `np.array([x**k for k in range(m)])` of a flat array: row `k` holds the `k`-th powers. -/
def powerRows (m : Nat) (x : List (Fl K)) : List (List (Fl K)) :=
  (List.range m).map (fun k => x.map (fun v => pow v k))

/-- `np.swapaxes(rows, 0, 1)` for rows of length `n`. -/
def swapaxes (n : Nat) (rows : List (List (Fl K))) : List (List (Fl K)) :=
  (List.range n).map (fun i => rows.map (fun r => r.getD i .nan))

/-- numpy `sum` (NaN propagates). -/
def npsum (l : List (Fl K)) : Fl K := l.foldr (· + ·) (.fin 0)

/-- flament.py:86-90 for one point: the 6×5 table `so[j] * thetao[i] * B_IJ[i][j]` summed. -/
def contract (srow trow : List (Fl K)) : Fl K :=
  npsum ((List.zip trow B_IJ).map (fun p => npsum ((List.zip srow p.2).map (fun q => q.1 * p.1 * q.2))))

/-- spice/flament.py:43-95 `spice`.  The two `np.tile`s only repeat values so that the product is
formed for every (i, j); they are folded into `contract`.  `reshape` keeps the row-major data. -/
def spice (thetao so : Arg K) : Except PyErr (NArr (Fl K)) := do
  let thetao := thetao.toArr
  let so := so.toArr
  pyAssert (thetao.shape == so.shape)
  let t := swapaxes thetao.data.length (powerRows 6 thetao.data)
  let s := swapaxes so.data.length (powerRows 5 (so.data.map (fun v => v - 35.0)))
  let pi := List.zipWith contract s t
  return ⟨thetao.shape, pi⟩

/-- Row-major values of an array over the dimensions `ds`. -/
def ravel {V : Type*} : List (String × Nat) → (Env → V) → List V
  | [], g => [g (fun _ => 0)]
  | (d, n) :: ds, g =>
    (List.range n).flatMap (fun i => ravel ds (fun e => g (Function.update e d i)))

/-- Number of elements of an array with the given dimensions. -/
def count (ds : List (String × Nat)) : Nat := (ds.map Prod.snd).prod

/-- Position of an index environment in the row-major order of `ds`. -/
def flatIndex : List (String × Nat) → Env → Nat
  | [], _ => 0
  | (d, _) :: ds, e => e d * count ds + flatIndex ds e

/-- The numpy array `xr.apply_ufunc` passes for an argument when the broadcast result has
dimensions `out` (xarray/core/computation.py, `broadcast_compat_data`): axes are put in the order
of `out`, a missing dimension becomes an axis of length 1 unless it comes before every dimension
the argument has. -/
def ufuncData (out : List (String × Nat)) (a : DA (Fl K)) : NArr (Fl K) :=
  let mine := fun p : String × Nat => a.dimNames.contains p.1
  ⟨(out.dropWhile (fun p => !mine p)).map (fun p => if mine p then a.size p.1 else 1),
   ravel ((out.filter mine).map (fun p => (p.1, a.size p.1))) a.get⟩

/-- derived.py:669-711 `calc_spice` (attributes omitted). -/
def calcSpice (thetao so : DA (Fl K)) : Except PyErr (DA (Fl K)) := do
  let out := DA.bdims thetao.dims so.dims
  let pi ← spice (.arr (ufuncData out thetao)) (.arr (ufuncData out so))
  return ⟨out, fun e => pi.data.getD (flatIndex out e) .nan⟩

end Spice
end Momlevel
