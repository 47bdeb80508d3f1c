import Verif.Model.Mpi
import Mathlib.Data.List.Basic
import Mathlib.Order.Basic

/-! # C118: what is scattered to the processes can be gathered again -/

namespace ExoRad.Mpi

variable {β : Type}

/-- C118: if every process passes the same list with one piece for each, process `r` gets the `r`-th. -/
theorem scatter_pieces {w : Group} (hm : w.mpi = true) {l : List β} (hl : l.length = w.size) (root r : ℕ) (hr : r < w.size) :
    ∃ h : r < l.length, scatter w root (fun _ => some l) r = .done l[r] := by
  have h : r < l.length := by rw [hl]; exact hr
  refine ⟨h, ?_⟩
  have hn : nprocs w = w.size := by unfold nprocs; rw [hm]; rfl
  unfold scatter sent
  simp only [hm, hn, hl, Nat.lt_irrefl, if_false, if_true, List.getElem?_eq_getElem h, Bool.true_eq_false]

/-- C118: gathering what was scattered gives the list again, at the root, and None elsewhere. -/
theorem gather_scatter {w : Group} (hm : w.mpi = true) {l : List β} (hl : l.length = w.size) (root root' : ℕ) (data : ℕ → β)
    (hd : ∀ r < w.size, scatter w root (fun _ => some l) r = .done (data r)) :
    gather w root' data root' = .done (some l) ∧ ∀ r, r ≠ root' → gather w root' data r = .done none := by
  have hl' : (List.range w.size).map data = l := by
    apply List.ext_getElem
    · simp [hl]
    · intro i h1 h2
      have hi : i < w.size := by simpa using h1
      obtain ⟨h3, h4⟩ := scatter_pieces hm hl root i hi
      rw [hd i hi] at h4
      simp only [Outcome.done.injEq] at h4
      simp [h4]
  constructor
  · unfold gather
    rw [if_neg (by rw [hm]; simp), if_pos rfl, hl']
  · intro r hr
    unfold gather
    rw [if_neg (by rw [hm]; simp), if_neg hr]

/-- C118: with fewer pieces than processes every call is a ValueError; none waits. -/
theorem scatter_short {w : Group} (hm : w.mpi = true) {l : List β} (hl : l.length < w.size) (root r : ℕ) :
    scatter w root (fun _ => some l) r = .raised .valueError := by
  have hn : nprocs w = w.size := by unfold nprocs; rw [hm]; rfl
  unfold scatter
  simp only [hm, hn, if_pos hl, Bool.true_eq_false, if_false]

/-- C118, what is false: with more pieces than processes the root ends with a ValueError and all others wait forever. -/
theorem scatter_long {w : Group} (hm : w.mpi = true) {l : List β} (hl : w.size < l.length) (root r : ℕ) :
    scatter w root (fun _ => some l) r = if r = root then .raised .valueError else .waiting := by
  have hn : nprocs w = w.size := by unfold nprocs; rw [hm]; rfl
  unfold scatter sent
  simp only [hm, hn, if_neg (Nat.not_lt.mpr (Nat.le_of_lt hl)), if_neg (Nat.ne_of_gt hl), Bool.true_eq_false, if_false]

/-- C118, what is false: if only the root passes the list and the others pass None, as is usual with MPI, the others end with a TypeError; the root gets its piece. -/
theorem scatter_from_root {w : Group} (hm : w.mpi = true) {l : List β} (hl : l.length = w.size) {root : ℕ} (hr : root < w.size) (r : ℕ) :
    (r ≠ root → scatter w root (fun s => if s = root then some l else none) r = .raised .typeError) ∧
    ∃ h : root < l.length, scatter w root (fun s => if s = root then some l else none) root = .done l[root] := by
  constructor
  · intro h
    unfold scatter
    simp only [hm, if_neg h, Bool.true_eq_false, if_false]
  · have h : root < l.length := by rw [hl]; exact hr
    refine ⟨h, ?_⟩
    have hn : nprocs w = w.size := by unfold nprocs; rw [hm]; rfl
    unfold scatter sent
    simp only [hm, hn, hl, Nat.lt_irrefl, if_false, if_true, List.getElem?_eq_getElem h, Bool.true_eq_false]

/-- C118: without mpi4py there is one process, of rank 0, and nothing can be scattered or gathered, whatever the data. -/
theorem without_mpi {w : Group} (hm : w.mpi = false) (root r : ℕ) (args : ℕ → Option (List β)) (data : ℕ → β) :
    nprocs w = 1 ∧ getRank w r = 0 ∧ scatter w root args r = .importError ∧ gather w root data r = .importError := by
  unfold nprocs getRank scatter gather
  simp [hm]

/-- C118: with mpi4py the ranks are those of the processes, so they are different and below `nprocs`. -/
theorem with_mpi {w : Group} (hm : w.mpi = true) (r : ℕ) : nprocs w = w.size ∧ getRank w r = r := by
  unfold nprocs getRank
  simp [hm]

namespace Demo

/-- Three processes. -/
def three : Group := ⟨true, 3⟩

example : (List.range 3).map (scatter three 0 (fun _ => some [10, 20, 30])) = [.done 10, .done 20, .done 30] := by decide

example : (List.range 3).map (scatter three 0 (fun _ => some [10, 20, 30, 40])) = [.raised .valueError, .waiting, .waiting] := by decide

example : (List.range 3).map (scatter three 1 (fun s => if s = 1 then some [10, 20, 30] else none)) =
    [.raised .typeError, .done 20, .raised .typeError] := by decide

example : gather three 0 (fun r => 10 * (r + 1)) 0 = .done (some [10, 20, 30]) := by decide

end Demo

end ExoRad.Mpi
