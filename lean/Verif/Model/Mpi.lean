import Verif.Model.Py

/-!
# `exorad/utils/mpi.py`

Every process of a group calls the same function once; what each call does is a function of the arguments of all of them. Assumed about mpi4py: `comm.scatter`
is a ValueError at the root if the list does not have one piece for each process, and nothing is sent then; elsewhere it waits for what the root sends,
and does not look at its own argument. `comm.gather` returns the list in the order of the ranks at the root and None elsewhere, when all have called it. `root` is a rank of
the group.
-/

namespace ExoRad.Mpi

/-- The processes. `mpi`: whether mpi4py can be imported. `exorad/utils/mpi.py:6-44`. -/
structure Group where
  mpi : Bool
  size : Nat

/-- What a call does: it returns, raises, waits forever, or there is no mpi4py (ImportError). For `exorad/utils/mpi.py:47-63`. -/
inductive Outcome (β : Type) where
  | done (v : β)
  | raised (e : Exc)
  | waiting
  | importError
deriving DecidableEq

/-- `exorad/utils/mpi.py:6-22` `nprocs`. -/
def nprocs (w : Group) : Nat := if w.mpi then w.size else 1

/-- `exorad/utils/mpi.py:26-44` `get_rank`, in the process `r`. -/
def getRank (w : Group) (r : Nat) : Nat := if w.mpi then r else 0

/-- What the root sends, if it gets to `comm.scatter` with one piece for each process. `exorad/utils/mpi.py:51-54`. -/
def sent {β : Type} (w : Group) : Option (List β) → Option (List β)
  | none => none
  | some l => if l.length < nprocs w then none else if l.length = w.size then some l else none

/-- `exorad/utils/mpi.py:47-55` `scatter`, in the process `r`; `args s` is the argument of process `s` (`none`: None). -/
def scatter {β : Type} (w : Group) (root : Nat) (args : Nat → Option (List β)) (r : Nat) : Outcome β :=
  if w.mpi = false then .importError
  else
    match args r with
    | none => .raised .typeError
    | some l =>
      if l.length < nprocs w then .raised .valueError
      else
        match sent w (args root) with
        | some d => match d[r]? with
          | some v => .done v
          | none => .waiting
        | none => if r = root then .raised .valueError else .waiting

/-- `exorad/utils/mpi.py:58-63` `gather`, in the process `r`; `data s` is the argument of process `s`. -/
def gather {β : Type} (w : Group) (root : Nat) (data : Nat → β) (r : Nat) : Outcome (Option (List β)) :=
  if w.mpi = false then .importError
  else if r = root then .done (some ((List.range w.size).map data)) else .done none

end ExoRad.Mpi
