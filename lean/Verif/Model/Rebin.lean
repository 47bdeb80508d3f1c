import Verif.Model.Py
import Mathlib.Algebra.Order.Field.Basic
import Mathlib.Data.List.Sort

/-!
# `exorad/utils/exolib.py:19-115` `rebin` and `exorad/models/signal.py` `Signal`

Numbers are elements of a linearly ordered field (no rounding). Grids carry no NaN: a NaN in the new
grid makes `x.min()` NaN, hence an empty window and a ValueError; a NaN in the input grid is dropped by
the window. Both are in `Model/RebinMore`, with data of two axes; here `fp` has one
value per input point. The unit check (lines 38-42) is in `Model/SignalUnits`.
In the binning branch the new grid is meant to be increasing (scipy rejects other bin edges). Two input
points with the same wavelength that are not neighbours survive the clean up; a division by their distance
gives NaN in numpy and 0 here.
-/

namespace ExoRad.Rebin

variable {α : Type} [Field α] [LinearOrder α] {β : Type}

/-- `np.diff`. `exorad/utils/exolib.py:66-77`. -/
def diffs : List α → List α
  | a :: b :: l => (b - a) :: diffs (b :: l)
  | _ => []

/-- `array.min()` / `array.max()`; ValueError on an empty array. `exorad/utils/exolib.py:44`, `:66-77`. -/
def minE : List α → Except Exc α
  | [] => .error .valueError
  | a :: l => .ok (l.foldl min a)

/-- `array.max()` (`exorad/utils/exolib.py:44`, `:77`). -/
def maxE : List α → Except Exc α
  | [] => .error .valueError
  | a :: l => .ok (l.foldl max a)

/-- Line 44-46: input points strictly between 0.9 times the smallest and 1.1 times the largest new
point. -/
def window (lo hi : α) (pts : List (α × β)) : List (α × β) :=
  pts.filter (fun p => decide (9 / 10 * lo < p.1) && decide (p.1 < 11 / 10 * hi))

/-- `np.delete(xp, np.argmin(np.diff(xp)))` when the smallest difference is 0: drop the first of the
first two equal neighbours. `exorad/utils/exolib.py:66-75`. -/
def dropFirstZero : List (α × β) → List (α × β)
  | p :: q :: l => if q.1 - p.1 = 0 then q :: l else p :: dropFirstZero (q :: l)
  | l => l

/-- Lines 66-75: `while np.diff(xp).min() == 0`. `n` bounds the number of rounds (each one removes a
point). -/
def dedup : Nat → List (α × β) → Except Exc (List (α × β))
  | 0, l => .ok l
  | n + 1, l =>
    match minE (diffs (l.map Prod.fst)) with
    | .error e => .error e
    | .ok m => if m = 0 then dedup n (dropFirstZero l) else .ok l

/-- `0.5 * (x[1:] + x[:-1])` (line 80). -/
def mids : List α → List α
  | a :: b :: l => (b + a) / 2 :: mids (b :: l)
  | _ => []

/-- Lines 80-84: bin edges of a grid with at least two points. -/
def edges (x : List α) : List α :=
  match x, mids x with
  | a :: l, m :: ms =>
    let last := (a :: l).getLast (by simp)
    let mlast := (m :: ms).getLast (by simp)
    (a - (m - a) / 2) :: (m :: ms) ++ [last + (last - mlast) / 2]
  | _, _ => []

/-- Mean of a list, NaN (`none`) if empty. `exorad/utils/exolib.py:85-87`. -/
def mean (l : List α) : Option α := if l = [] then none else some (l.sum / (l.length : α))

/-- Values of the points within a bin: closed on the left, open on the right except for the last bin. `exorad/utils/exolib.py:85-87`. -/
def inBin (lo hi : α) (isLast : Bool) (pts : List (α × α)) : List α :=
  (pts.filter (fun p => decide (lo ≤ p.1) && (decide (p.1 < hi) || (isLast && decide (p.1 = hi))))).map Prod.snd

/-- `scipy.stats.binned_statistic(..., statistic="mean")` (lines 85-87). -/
def binMeans (pts : List (α × α)) : List α → List (Option α)
  | lo :: hi :: rest => mean (inBin lo hi rest.isEmpty pts) :: binMeans pts (hi :: rest)
  | _ => []

/-- The linear segment used for `x`, given the sorted points from `lo` on. -/
def segment (lo : α × α) : List (α × α) → α → α
  | [], _ => lo.2
  | hi :: rest, x =>
    if x ≤ hi.1 then (hi.2 - lo.2) / (hi.1 - lo.1) * (x - lo.1) + lo.2 else segment hi rest x

/-- The x-coordinate of the last point. For `interp`: `exorad/utils/exolib.py:101-108`. -/
def lastX (lo : α × α) (l : List (α × α)) : α := ((lo :: l).getLast (by simp)).1

/-- `scipy.interpolate.interp1d` on sorted points, kind linear, 0 outside (lines 101-109). -/
def interpSorted (l : List (α × α)) (x : α) : α :=
  match l with
  | [] => 0
  | lo :: rest => if x < lo.1 then 0 else if lastX lo rest < x then 0 else segment lo rest x

/-- `interp1d` sorts its points first (`assume_sorted=False`). `exorad/utils/exolib.py:101-109`. -/
def interp (pts : List (α × α)) (x : α) : α :=
  interpSorted (pts.insertionSort (fun p q => p.1 ≤ q.1)) x

/-- Lines 77-113, after the clean up. NaN is `none`. -/
def resample (x : List α) (pts : List (α × α)) : Except Exc (List (Option α)) :=
  match maxE (diffs (pts.map Prod.fst)) with
  | .error e => .error e
  | .ok mp =>
    match minE (diffs x) with
    | .error e => .error e
    | .ok mx => if mp < mx then .ok (binMeans pts (edges x)) else .ok (x.map (fun t => some (interp pts t)))

/-- Remove duplicates of the new grid (lines 72-75). -/
def dedupGrid (x : List α) : Except Exc (List α) :=
  match dedup (x.length + 1) (x.map (fun t => (t, ()))) with
  | .error e => .error e
  | .ok l => .ok (l.map Prod.fst)

/-- `exorad/utils/exolib.py:19-115`: the new grid (without duplicates) and the new samples. -/
def rebin (x : List α) (pts : List (α × α)) : Except Exc (List α × List (Option α)) :=
  match minE x with
  | .error e => .error e
  | .ok lo =>
    match maxE x with
    | .error e => .error e
    | .ok hi =>
      match dedup ((window lo hi pts).length + 1) (window lo hi pts) with
      | .error e => .error e
      | .ok pts =>
        match dedupGrid x with
        | .error e => .error e
        | .ok x =>
          match resample x pts with
          | .error e => .error e
          | .ok f => .ok (x, f)

/-! ## `Signal` -/

/-- An array of wavelengths and an array of data (values of shape `(n,)`), with a time grid of one
point. Units are converted on construction (lines 79-125) and not modelled. -/
structure Signal (α : Type) where
  wl : List α
  data : List α

/-- Shapes as seen by `check_sizes` (lines 127-151). -/
structure Shapes where
  wl : List Nat
  time : List Nat
  data : List Nat

/-- `exorad/models/signal.py:127-151` `check_sizes`. `shape[i]` of a missing axis raises IndexError. -/
def checkSizes (s : Shapes) : Except Exc Unit :=
  if s.wl.length > 1 then .error .valueError
  else if s.time.length > 1 then .error .valueError
  else if s.data.length > 2 then .error .valueError
  else
    match s.data[0]?, s.wl[0]? with
    | some d0, some w0 =>
      if d0 ≠ w0 then .error .valueError
      else
        match s.time[0]? with
        | none => .error .indexError
        | some t0 =>
          if t0 > 1 ∨ s.data.length > 1 then
            match s.data[1]? with
            | none => .error .indexError
            | some d1 => if d1 ≠ t0 then .error .valueError else .ok ()
          else .ok ()
    | _, _ => .error .indexError

/-- The one-dimensional constructor (lines 43-61) with the default time grid. -/
def Signal.mk? (wl data : List α) : Except Exc (Signal α) :=
  match checkSizes ⟨[wl.length], [1], [data.length]⟩ with
  | .error e => .error e
  | .ok _ => .ok ⟨wl, data⟩

/-- `exorad/models/signal.py:153-160` `spectral_rebin`: NaN become 0, the grid becomes the new grid as
given (not the one returned by `rebin`). For a signal whose two arrays have different lengths numpy would
index out of range; here the shorter one decides. -/
def Signal.spectralRebin (s : Signal α) (newWl : List α) : Except Exc (Signal α) :=
  match rebin newWl (s.wl.zip s.data) with
  | .error e => .error e
  | .ok (_, f) => .ok ⟨newWl, f.map (fun v => v.getD 0)⟩

end ExoRad.Rebin
