import Verif.Model.Py
import Mathlib.Data.List.Nodup

/-! Lemmas about association-list dictionaries. -/

set_option linter.unusedSectionVars false

namespace ExoRad.Dict
variable {κ ν : Type} [DecidableEq κ]

@[simp] theorem get?_nil (k : κ) : get? ([] : Dict κ ν) k = none := rfl

theorem get?_cons (k k' : κ) (v : ν) (d : Dict κ ν) :
    get? ((k', v) :: d) k = if k' = k then some v else get? d k := rfl

@[simp] theorem keys_nil : keys ([] : Dict κ ν) = [] := rfl
@[simp] theorem keys_cons (p : κ × ν) (d : Dict κ ν) : keys (p :: d) = p.1 :: keys d := rfl
@[simp] theorem keys_append (d e : Dict κ ν) : keys (d ++ e : List (κ × ν)) = keys d ++ keys e := by
  simp [keys]

theorem get?_eq_none_iff (d : Dict κ ν) (k : κ) : d.get? k = none ↔ k ∉ d.keys := by
  induction d with
  | nil => simp
  | cons p d ih =>
    obtain ⟨k', v⟩ := p
    rw [get?_cons]
    by_cases h : k' = k
    · simp [h]
    · have h' : k ≠ k' := fun e => h e.symm
      simp [h, h', ih]

theorem get?_isSome_iff (d : Dict κ ν) (k : κ) : (d.get? k).isSome ↔ k ∈ d.keys := by
  rw [← not_iff_not, ← get?_eq_none_iff]
  cases d.get? k <;> simp

theorem exists_get? {d : Dict κ ν} {k : κ} (h : k ∈ d.keys) : ∃ v, d.get? k = some v := by
  rw [← get?_isSome_iff] at h
  exact Option.isSome_iff_exists.mp h

theorem mem_keys_of_get? {d : Dict κ ν} {k : κ} {v : ν} (h : d.get? k = some v) : k ∈ d.keys := by
  rw [← get?_isSome_iff, h]; rfl

theorem has_iff (d : Dict κ ν) (k : κ) : d.has k = true ↔ k ∈ d.keys := by
  simp [has, keys]

theorem has_eq_false_iff (d : Dict κ ν) (k : κ) : d.has k = false ↔ k ∉ d.keys := by
  rw [← has_iff]; simp

theorem get?_set (d : Dict κ ν) (k k' : κ) (v : ν) :
    (d.set k v).get? k' = if k' = k then some v else d.get? k' := by
  induction d with
  | nil =>
    by_cases h : k' = k
    · simp [set, get?_cons, h]
    · simp only [set, get?_cons, if_neg h, if_neg (Ne.symm h)]
  | cons p d ih =>
    obtain ⟨a, b⟩ := p
    unfold set
    by_cases h : a = k
    · subst h
      by_cases h2 : a = k'
      · simp [get?_cons, h2]
      · simp [get?_cons, h2, Ne.symm h2]
    · rw [if_neg h, get?_cons, get?_cons, ih]
      by_cases h2 : a = k'
      · subst h2; simp [h]
      · simp [h2]

@[simp] theorem get?_set_self (d : Dict κ ν) (k : κ) (v : ν) : (d.set k v).get? k = some v := by
  simp [get?_set]

theorem get?_set_ne (d : Dict κ ν) {k k' : κ} (v : ν) (h : k' ≠ k) :
    (d.set k v).get? k' = d.get? k' := by
  simp [get?_set, h]

theorem keys_set (d : Dict κ ν) (k : κ) (v : ν) :
    (d.set k v).keys = if k ∈ d.keys then d.keys else d.keys ++ [k] := by
  induction d with
  | nil => simp [set]
  | cons p d ih =>
    obtain ⟨a, b⟩ := p
    unfold set
    by_cases h : a = k
    · simp [h]
    · rw [if_neg h, keys_cons, ih]
      have h' : k ≠ a := fun e => h e.symm
      by_cases h2 : k ∈ keys d <;> simp [h2, h']

theorem mem_keys_set (d : Dict κ ν) (k k' : κ) (v : ν) :
    k' ∈ (d.set k v).keys ↔ k' = k ∨ k' ∈ d.keys := by
  rw [keys_set]
  by_cases h : k ∈ d.keys
  · rw [if_pos h]
    constructor
    · exact Or.inr
    · rintro (rfl | h') <;> assumption
  · simp [h, or_comm]

theorem nodup_set (d : Dict κ ν) (k : κ) (v : ν) (h : d.keys.Nodup) : (d.set k v).keys.Nodup := by
  rw [keys_set]
  by_cases h2 : k ∈ d.keys
  · simpa [h2] using h
  · rw [if_neg h2]
    rw [List.nodup_append]
    refine ⟨h, by simp, ?_⟩
    intro a ha b hb
    simp at hb; subst hb
    intro e; exact h2 (e ▸ ha)

theorem getE_ok {d : Dict κ ν} {k : κ} {v : ν} (h : d.get? k = some v) : d.getE k = .ok v := by
  simp [getE, h]

theorem getE_error {d : Dict κ ν} {k : κ} (h : k ∉ d.keys) : d.getE k = .error .keyError := by
  have := (get?_eq_none_iff d k).mpr h
  simp [getE, this]

theorem getE_eq_ok_iff {d : Dict κ ν} {k : κ} {v : ν} : d.getE k = .ok v ↔ d.get? k = some v := by
  unfold getE; cases d.get? k <;> simp

theorem get?_append (d e : Dict κ ν) (k : κ) :
    get? (d ++ e : List (κ × ν)) k = if k ∈ d.keys then d.get? k else e.get? k := by
  induction d with
  | nil => simp
  | cons p d ih =>
    obtain ⟨a, b⟩ := p
    rw [List.cons_append, get?_cons, get?_cons, ih]
    by_cases h : a = k
    · simp [h]
    · have h' : k ≠ a := fun e => h e.symm
      simp [h, h']

theorem keys_removeAll (d : Dict κ ν) (ks : List κ) :
    (d.removeAll ks).keys = d.keys.filter (fun k => !ks.contains k) := by
  simp [removeAll, keys, List.filter_map, Function.comp_def]

theorem get?_removeAll (d : Dict κ ν) (ks : List κ) (k : κ) :
    (d.removeAll ks).get? k = if k ∈ ks then none else d.get? k := by
  induction d with
  | nil => simp [removeAll]
  | cons p d ih =>
    obtain ⟨a, b⟩ := p
    unfold removeAll at ih ⊢
    by_cases h : a = k
    · subst h
      by_cases h2 : a ∈ ks
      · rw [List.filter_cons_of_neg (by simpa using h2), ih]; simp [h2]
      · rw [List.filter_cons_of_pos (by simpa using h2), get?_cons]; simp [h2, get?_cons]
    · by_cases h2 : a ∈ ks
      · rw [List.filter_cons_of_neg (by simpa using h2), ih, get?_cons]; simp [h]
      · rw [List.filter_cons_of_pos (by simpa using h2), get?_cons, get?_cons, ih]; simp [h]

theorem mem_of_get? {d : Dict κ ν} {k : κ} {v : ν} (h : d.get? k = some v) : (k, v) ∈ d := by
  induction d with
  | nil => simp at h
  | cons p d ih =>
    obtain ⟨a, b⟩ := p
    rw [get?_cons] at h
    by_cases h2 : a = k
    · simp [h2] at h; simp [h2, h]
    · rw [if_neg h2] at h; exact List.mem_cons_of_mem _ (ih h)

theorem get?_of_mem {d : Dict κ ν} (hn : d.keys.Nodup) {k : κ} {v : ν} (h : (k, v) ∈ d) :
    d.get? k = some v := by
  induction d with
  | nil => simp at h
  | cons p d ih =>
    obtain ⟨a, b⟩ := p
    rw [keys_cons, List.nodup_cons] at hn
    rw [get?_cons]
    rcases List.mem_cons.mp h with h | h
    · simp at h; simp [h]
    · have : k ∈ keys d := List.mem_map.mpr ⟨(k, v), h, rfl⟩
      have hak : a ≠ k := fun e => hn.1 (e ▸ this)
      rw [if_neg hak]; exact ih hn.2 h

end ExoRad.Dict
