import Verif.Model.Rebin

/-!
# `exorad/utils/exolib.py:19-115` `rebin`: NaN in the grids, and data with two axes

`Model/Rebin` has grids without NaN and one value per wavelength. Here a wavelength may be NaN (`none`), and the data of a `Signal`
may have the second axis the class allows (`exorad/models/signal.py:23-31`, `:127-151`: wavelength by time). Numbers are exact.

Assumed about numpy: a comparison with NaN is false, `min()` and `max()` of an array with a NaN are NaN, `np.delete` without `axis`
flattens its argument. Assumed about scipy: `interp1d(x, y)` works along the last axis of `y` and raises ValueError if that axis has
another length than `x`; `binned_statistic(x, values)` works on every row of `values` and raises AttributeError if the rows have another
length than `x`.
-/

namespace ExoRad.Rebin

variable {α : Type} [Field α] [LinearOrder α]

/-- A comparison of numbers that may be NaN: false with a NaN. `exorad/utils/exolib.py:44`. -/
def ltN : Option α → Option α → Bool
  | some a, some b => decide (a < b)
  | _, _ => false

/-- `x.min()` of an array that may have NaN. `exorad/utils/exolib.py:44`. -/
def minN (x : List (Option α)) : Except Exc (Option α) :=
  match x with
  | [] => .error .valueError
  | _ :: _ =>
    if x.all Option.isSome then
      match minE (x.filterMap id) with
      | .error e => .error e
      | .ok m => .ok (some m)
    else .ok none

/-- `x.max()` of an array that may have NaN. `exorad/utils/exolib.py:44`. -/
def maxN (x : List (Option α)) : Except Exc (Option α) :=
  match x with
  | [] => .error .valueError
  | _ :: _ =>
    if x.all Option.isSome then
      match maxE (x.filterMap id) with
      | .error e => .error e
      | .ok m => .ok (some m)
    else .ok none

/-- `exorad/utils/exolib.py:44-46`: the input points strictly inside the margins. -/
def windowN (lo hi : Option α) (pts : List (Option α × α)) : List (Option α × α) :=
  pts.filter (fun p => ltN (lo.map (fun v => 9 / 10 * v)) p.1 && ltN p.1 (hi.map (fun v => 11 / 10 * v)))

/-- `exorad/utils/exolib.py:53-58`: the input points with a NaN wavelength are removed. -/
def dropNan (pts : List (Option α × α)) : List (α × α) :=
  pts.filterMap (fun p => p.1.map (fun w => (w, p.2)))

/-- `exorad/utils/exolib.py:19-115` `rebin` with NaN in the new grid `x` and in the wavelengths of the input. -/
def rebinN (x : List (Option α)) (pts : List (Option α × α)) : Except Exc (List α × List (Option α)) :=
  match minN x with
  | .error e => .error e
  | .ok lo =>
    match maxN x with
    | .error e => .error e
    | .ok hi =>
      match dedup ((dropNan (windowN lo hi pts)).length + 1) (dropNan (windowN lo hi pts)) with
      | .error e => .error e
      | .ok pts =>
        match dedupGrid (x.filterMap id) with
        | .error e => .error e
        | .ok x =>
          match resample x pts with
          | .error e => .error e
          | .ok f => .ok (x, f)

/-! ## Data with two axes -/

/-- The data while `rebin` runs: rows of `nt` numbers, or one flat array after `np.delete`. `exorad/utils/exolib.py:66-70`. -/
inductive Fp (α : Type) where
  | rows (nt : Nat) (m : List (List α))
  | flat (l : List α)

/-- `np.delete(fp, id)`: without an axis the array is flattened first. `exorad/utils/exolib.py:70`. -/
def Fp.delete (i : Nat) : Fp α → Fp α
  | .rows _ m => .flat (m.flatten.eraseIdx i)
  | .flat l => .flat (l.eraseIdx i)

/-- The length of the last axis, and the rows along it. `exorad/utils/exolib.py:85-87`, `:101-108`. -/
def Fp.last : Fp α → Nat
  | .rows nt _ => nt
  | .flat l => l.length

/-- The rows the libraries work on. `exorad/utils/exolib.py:85-87`, `:101-108`. -/
def Fp.lines : Fp α → List (List α)
  | .rows _ m => m
  | .flat l => [l]

/-- `np.argmin` of the differences when the smallest is 0. `exorad/utils/exolib.py:68`. -/
def firstZero : List α → Nat
  | d :: ds => if d = 0 then 0 else firstZero ds + 1
  | [] => 0

/-- `exorad/utils/exolib.py:66-70`: `while np.diff(xp).min() == 0`, with data of any shape. `n` bounds the number of rounds. -/
def dedup2 : Nat → List α → Fp α → Except Exc (List α × Fp α)
  | 0, xp, fp => .ok (xp, fp)
  | n + 1, xp, fp =>
    match minE (diffs xp) with
    | .error e => .error e
    | .ok m =>
      if m = 0 then dedup2 n (xp.eraseIdx (firstZero (diffs xp))) (fp.delete (firstZero (diffs xp))) else .ok (xp, fp)

/-- `exorad/utils/exolib.py:77-113` along the last axis. -/
def resample2 (x xp : List α) (fp : Fp α) : Except Exc (List (List (Option α))) :=
  match maxE (diffs xp) with
  | .error e => .error e
  | .ok mp =>
    match minE (diffs x) with
    | .error e => .error e
    | .ok mx =>
      if mp < mx then
        if fp.last = xp.length then .ok (fp.lines.map (fun r => binMeans (xp.zip r) (edges x))) else .error .attributeError
      else if fp.last = xp.length then .ok (fp.lines.map (fun r => x.map (fun t => some (interp (xp.zip r) t))))
      else .error .valueError

/-- `exorad/utils/exolib.py:19-115` `rebin` of data with two axes: `pts` are the wavelengths with their rows of `nt` times. -/
def rebin2 (nt : Nat) (x : List α) (pts : List (α × List α)) : Except Exc (List α × List (List (Option α))) :=
  match minE x with
  | .error e => .error e
  | .ok lo =>
    match maxE x with
    | .error e => .error e
    | .ok hi =>
      match dedup2 ((window lo hi pts).length + 1) ((window lo hi pts).map Prod.fst) (.rows nt ((window lo hi pts).map Prod.snd)) with
      | .error e => .error e
      | .ok (xp, fp) =>
        match dedupGrid x with
        | .error e => .error e
        | .ok x =>
          match resample2 x xp fp with
          | .error e => .error e
          | .ok f => .ok (x, f)

end ExoRad.Rebin
