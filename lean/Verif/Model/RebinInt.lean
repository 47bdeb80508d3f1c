import Verif.Model.Rebin

/-!
# `rebin_`, the rebinning that integrates (`exorad/utils/exolib.py:118-164`)

Values without units (both arguments must have the same unit). `np.interp` is modelled for increasing samples only.
-/

namespace ExoRad.RebinInt

variable {α : Type} [Field α] [LinearOrder α]

/-- Line 148: `cumulative_trapezoid(fp, x=xp)` with the coordinates `xp[1:]` it belongs to (line 149). `exorad/utils/exolib.py:148-149`. -/
def cumNodes : α → α × α → List (α × α) → List (α × α)
  | _, _, [] => []
  | acc, p, q :: l =>
    let a := acc + (p.2 + q.2) / 2 * (q.1 - p.1)
    (q.1, a) :: cumNodes a q l

/-- `np.gradient` from the second point on. `exorad/utils/exolib.py:151`. -/
def gradTail : α → α → List α → List α
  | p, c, [] => [c - p]
  | p, c, n :: l => (n - p) / 2 :: gradTail c n l

/-- Line 151: `np.gradient(x)`; ValueError for less than two points. `exorad/utils/exolib.py:151`. -/
def gradient : List α → Except Exc (List α)
  | x0 :: x1 :: l => .ok ((x1 - x0) :: gradTail x0 x1 l)
  | _ => .error .valueError

/-- Lines 152-158: the difference of the cumulative integral at the ends of each bin, over its width. `exorad/utils/exolib.py:152-158`. -/
def binned (nodes : List (α × α)) : List α → List α → List α
  | x :: xs, d :: ds => (Rebin.interpSorted nodes (x + d / 2) - Rebin.interpSorted nodes (x - d / 2)) / d :: binned nodes xs ds
  | _, _ => []

/-- `exorad/utils/exolib.py:118-164` `rebin_`: the new samples on the new grid `x`. -/
def rebin (x : List α) (pts : List (α × α)) : Except Exc (List α) :=
  match Rebin.minE x with
  | .error e => .error e
  | .ok lo =>
    match Rebin.maxE x with
    | .error e => .error e
    | .ok hi =>
      match Rebin.window lo hi pts with
      | [] => .error .valueError
      | p :: l =>
        match Rebin.maxE (Rebin.diffs ((p :: l).map Prod.fst)) with
        | .error e => .error e
        | .ok mp =>
          match Rebin.minE (Rebin.diffs x) with
          | .error e => .error e
          | .ok mx =>
            if mp < mx then
              match gradient x with
              | .error e => .error e
              | .ok d => .ok (binned (cumNodes 0 p l) x d)
            else .ok (x.map (Rebin.interpSorted (p :: l)))

end ExoRad.RebinInt
