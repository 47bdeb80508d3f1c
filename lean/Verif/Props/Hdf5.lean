import Verif.Model.Hdf5
import Verif.Lemmas.Dict
import Verif.Props.Options
import Mathlib.Tactic.FinCases

/-! # C24, C25: HDF5 output -/

namespace ExoRad.Hdf5
variable {V : Type}

/-- The entry found by following names from a node. -/
def Node.at : Node V → List String → Option (Node V)
  | n, [] => some n
  | .ds _, _ :: _ => none
  | .group g, k :: p =>
    match Dict.get? g k with
    | some n => n.at p
    | none => none
termination_by _ p => p.length

/-- Nothing stored in `g` is lost or changed in `g'`: every dataset is still there with the same
contents, every group is still a group. -/
def Kept (g g' : Group V) : Prop :=
  ∀ p : List String,
    (∀ d, (Node.group g).at p = some (.ds d) → (Node.group g').at p = some (.ds d)) ∧
    (∀ h, (Node.group g).at p = some (.group h) → ∃ h', (Node.group g').at p = some (.group h'))

theorem Kept.refl (g : Group V) : Kept g g := fun _ => ⟨fun _ h => h, fun h e => ⟨h, e⟩⟩

theorem Kept.trans {a b c : Group V} (h : Kept a b) (h' : Kept b c) : Kept a c := by
  intro p
  refine ⟨fun d hd => (h' p).1 d ((h p).1 d hd), fun x hx => ?_⟩
  obtain ⟨y, hy⟩ := (h p).2 x hx
  exact (h' p).2 y hy

theorem Kept.set_new {g : Group V} {k : String} (n : Node V) (h : g.get? k = none) : Kept g (g.set k n) := by
  intro p
  cases p with
  | nil => exact ⟨fun d hd => by simp [Node.at] at hd, fun x _ => ⟨g.set k n, by simp [Node.at]⟩⟩
  | cons k' p =>
    simp only [Node.at]
    have : ∀ m, g.get? k' = some m → (g.set k n).get? k' = some m := by
      intro m hm
      rw [Dict.get?_set_ne]
      · exact hm
      · rintro rfl; rw [h] at hm; cases hm
    constructor
    · intro d hd
      split at hd
      · rename_i m hm; rw [this m hm]; exact hd
      · cases hd
    · intro x hx
      split at hx
      · rename_i m hm; rw [this m hm]; exact ⟨x, hx⟩
      · cases hx

theorem Kept.set_group {g : Group V} {k : String} {s s' : Group V} (h : g.get? k = some (.group s))
    (hs : Kept s s') : Kept g (g.set k (.group s')) := by
  intro p
  cases p with
  | nil => exact ⟨fun d hd => by simp [Node.at] at hd, fun x _ => ⟨g.set k (.group s'), by simp [Node.at]⟩⟩
  | cons k' p =>
    simp only [Node.at, Dict.get?_set]
    by_cases hk : k' = k
    · subst hk; rw [if_pos rfl, h]; exact hs p
    · rw [if_neg hk]; exact ⟨fun _ h => h, fun x h => ⟨x, h⟩⟩

theorem createDs_kept (g : Group V) (k : String) (d : Data V) : Kept g (createDs g k d).1 := by
  unfold createDs
  split
  · rename_i h; exact Kept.set_new _ h
  · exact Kept.refl g

theorem createGroupWith_kept (g : Group V) (k : String) (s : Group V) : Kept g (createGroupWith g k s).1 := by
  unfold createGroupWith
  split
  · rename_i h; exact Kept.set_new _ h
  · exact Kept.refl g

theorem writeTable_kept (g : Group V) (k id : String) (cols : List (String × V × Option String)) :
    Kept g (writeTable g k id cols).1 := by
  unfold writeTable
  have h1 := createDs_kept g k (Data.tab id)
  generalize createDs g k (Data.tab id) = r1 at h1
  obtain ⟨g1, e1⟩ := r1
  cases e1 with
  | error e => exact h1
  | ok _ =>
    simp only
    have h2 := createDs_kept g1 (k ++ metaKey) (Data.tabMeta id)
    generalize createDs g1 (k ++ metaKey) (Data.tabMeta id) = r2 at h2
    obtain ⟨g2, e2⟩ := r2
    cases e2 with
    | error e => exact h1.trans h2
    | ok _ => exact (h1.trans h2).trans (createGroupWith_kept _ _ _)

mutual
theorem storeThing_kept : ∀ (x : Item V) (k : String) (g : Group V), Kept g (storeThing x k g).1
  | .quantity v u, k, g => by
      rw [storeThing, writeQuantity]
      split
      · exact createDs_kept _ _ _
      · exact createGroupWith_kept _ _ _
  | .num v, k, g => by rw [storeThing]; exact createDs_kept _ _ _
  | .str s, k, g => by rw [storeThing]; exact createDs_kept _ _ _
  | .table id cols, k, g => by rw [storeThing]; exact writeTable_kept _ _ _ _
  | .dict d, k, g => by
      rw [storeThing]
      split
      · rename_i h; exact Kept.set_new _ h
      · rename_i s h; exact Kept.set_group h (saveDict_kept d s)
      · exact Kept.refl g
  | .objs l, k, g => by rw [storeThing]; exact saveObjs_kept l 0 k g
  | .other, k, g => by rw [storeThing]; exact Kept.refl g
theorem saveDict_kept : ∀ (d : List (String × Item V)) (g : Group V), Kept g (saveDict d g).1
  | [], g => by rw [saveDict]; exact Kept.refl g
  | (k, x) :: d, g => by
      rw [saveDict]
      have h := storeThing_kept x k g
      split
      · rename_i g' u hr; rw [hr] at h; exact h.trans (saveDict_kept d g')
      · rename_i g' u hr; rw [hr] at h; exact h
theorem saveObjs_kept : ∀ (l : List (Item V)) (i : Nat) (k : String) (g : Group V), Kept g (saveObjs l i k g).1
  | [], i, k, g => by rw [saveObjs]; exact Kept.refl g
  | x :: l, i, k, g => by
      rw [saveObjs]
      have h := storeThing_kept x (k ++ toString i) g
      split
      · rename_i g' u hr; rw [hr] at h; exact h.trans (saveObjs_kept l (i + 1) k g')
      · rename_i g' u hr; rw [hr] at h; exact h
end

/-- One call of the output API on the opened file: store a value under a name, inside the group reached
by a list of names (created on the way, as `create_group` does). -/
inductive Op (V : Type) where
  | store (groups : List String) (key : String) (item : Item V)

/-- Storing `item` in a nested group is storing nested one-entry dictionaries. -/
def nest : List String → String → Item V → String × Item V
  | [], k, x => (k, x)
  | g :: gs, k, x => (g, .dict [nest gs k x])

/-- A run of operations; the caller carries on after an exception. -/
def run : List (Op V) → Group V → Group V
  | [], g => g
  | .store gs k x :: ops, g => run ops (storeThing (nest gs k x).2 (nest gs k x).1 g).1

/-- C25: no sequence of writes, failing or not, changes or removes anything already stored. -/
theorem writes_keep_everything (ops : List (Op V)) (g : Group V) : Kept g (run ops g) := by
  induction ops generalizing g with
  | nil => exact Kept.refl g
  | cons op ops ih =>
    obtain ⟨gs, k, x⟩ := op
    exact (storeThing_kept _ _ g).trans (ih _)

/-- C25: writing a number, string, quantity or table under a name that exists raises ValueError and
leaves the file exactly as it was; so does a dictionary written over a dataset (AttributeError or
ValueError, unless it is empty). -/
theorem colliding_write_raises (g : Group V) (k : String) (n : Node V) (h : g.get? k = some n) :
    (∀ v, storeThing (.num v) k g = (g, .error .valueError)) ∧
    (∀ s, storeThing (.str s) k g = (g, .error .valueError)) ∧
    (∀ v u, storeThing (.quantity v u) k g = (g, .error .valueError)) ∧
    (∀ i c, storeThing (.table i c) k g = (g, .error .valueError)) ∧
    (∀ d0 d, n = .ds d0 → d ≠ [] → ∃ e, storeThing (.dict d) k g = (g, .error e)) := by
  refine ⟨fun v => ?_, fun s => ?_, fun v u => ?_, fun i c => ?_, fun d0 d hn hd => ?_⟩
  · simp [storeThing, createDs, h]
  · simp [storeThing, createDs, h]
  · by_cases hk : k = "value"
    · subst hk; simp [storeThing, writeQuantity, createDs, h]
    · simp [storeThing, writeQuantity, hk, createGroupWith, h]
  · simp [storeThing, writeTable, createDs, h]
  · subst hn
    rw [storeThing, h]
    cases d with
    | nil => exact absurd rfl hd
    | cons p d =>
      obtain ⟨k', x⟩ := p
      cases x <;> exact ⟨_, rfl⟩

example : Kept ([("a", .ds (.num 1))] : Group Nat)
    (run [.store ["t"] "a" (.num 2), .store [] "a" (.num 3), .store ["t", "u"] "b" (.other)] [("a", .ds (.num 1))]) :=
  writes_keep_everything _ _

example : run [.store ["t"] "a" (.num 2), .store [] "a" (.num 3)] ([("a", .ds (.num 1))] : Group Nat)
    = [("a", .ds (.num 1)), ("t", .group [("a", .ds (.num 2))])] := by
  simp [run, nest, storeThing, saveDict, createDs, Dict.get?, Dict.set]

/-! ## C24 reading back -/

/-- The names an entry occupies in the file (a table needs two auxiliary ones). -/
def namesOf : String × Item V → List String
  | (k, .table _ _) => [k, k ++ metaKey, k ++ "_to_group"]
  | (k, _) => [k]

/-- The columns of a table can be read back: distinct names free of the reserved suffix, not both
`value` and `unit`, known units. -/
structure ColsOk (unit : String → Option String) (cols : List (String × V × Option String)) : Prop where
  nodup : (cols.map Prod.fst).Nodup
  names : ∀ c ∈ cols, substr metaKey c.1 = false
  notBoth : ¬ ("value" ∈ cols.map Prod.fst ∧ "unit" ∈ cols.map Prod.fst)
  units : ∀ c ∈ cols, ∀ u, c.2.2 = some u → (unit u).isSome

mutual
/-- A storable option value: no unsupported type, and (dictionaries) distinct names, none containing
the reserved table suffix, a quantity called `value` accompanied by its unit text (as the payload
parser produces it), or numbers called `value` with a unit text (as `Signal.to_dict` produces them), no other `value`/`unit`
pair, units that `u.Unit` knows. -/
def Storable (unit : String → Option String) : Item V → Prop
  | .num _ => True
  | .str _ => True
  | .quantity _ u => unit u = some u
  | .table _ cols => ColsOk unit cols
  | .dict d =>
    (d.flatMap namesOf).Nodup ∧ (∀ p ∈ d, substr metaKey p.1 = false) ∧
    (∀ p ∈ d, ∀ i c, p.2 = .table i c → '.' ∉ p.1.toList) ∧
    (∀ v u, ("value", .quantity v u) ∈ d → ∃ s, ("unit", .str s) ∈ d ∧ unit s = some u) ∧
    ("value" ∈ d.map Prod.fst → "unit" ∈ d.map Prod.fst → (∃ v u, ("value", .quantity v u) ∈ d) ∨
      ∃ v s u, ("value", .num v) ∈ d ∧ ("unit", .str s) ∈ d ∧ unit s = some u) ∧
    StorableAll unit d
  | .objs _ => False
  | .other => False
def StorableAll (unit : String → Option String) : List (String × Item V) → Prop
  | [] => True
  | (_, x) :: d => Storable unit x ∧ StorableAll unit d
end

mutual
/-- `Reads x y`: `y` is the faithful image of `x`: numbers, tables equal, strings as bytes, a quantity
as the pair of a quantity under `value` and its unit text, a dictionary key by key. Numbers called `value` become
a quantity if there is a unit text beside them. -/
def Reads (unit : String → Option String) : Item V → LVal V → Prop
  | .num v, y => y = .num v
  | .str s, y => y = .bytes s
  | .quantity v u, y => y = .dict [("value", .qty v u), ("unit", .bytes u)]
  | .table id _, y => y = .table id
  | .dict d, y => ∃ r : Dict String (LVal V), y = .dict r ∧ r.keys = d.flatMap namesOf ∧ ReadsAll unit r d
  | .objs _, _ => False
  | .other, _ => False
def ReadsAll (unit : String → Option String) (r : Dict String (LVal V)) : List (String × Item V) → Prop
  | [] => True
  | (k, x) :: d =>
    (∃ y, r.get? k = some y ∧ ((k = "value" ∧ ∃ v u, x = .quantity v u ∧ y = .qty v u) ∨
      (k = "value" ∧ ∃ v s u, x = .num v ∧ r.get? "unit" = some (.bytes s) ∧ unit s = some u ∧ y = .qty v u) ∨
      (¬ (k = "value" ∧ ∃ v u, x = .quantity v u) ∧ ¬ (k = "value" ∧ (∃ v, x = .num v) ∧ "unit" ∈ r.keys) ∧
        Reads unit x y))) ∧ ReadsAll unit r d
end

mutual
/-- What is in the file after a successful write. -/
def nodeOf : Item V → Node V
  | .num v => .ds (.num v)
  | .str s => .ds (.bytes s)
  | .quantity v u => .group [("value", .ds (.num v)), ("unit", .ds (.bytes u))]
  | .table id _ => .ds (.tab id)
  | .dict d => .group (entriesOf d)
  | .objs _ => .group []
  | .other => .group []
def entriesOf : List (String × Item V) → List (String × Node V)
  | [] => []
  | (k, .table id cols) :: d =>
    [(k, .ds (.tab id)), (k ++ metaKey, .ds (.tabMeta id)), (k ++ "_to_group", .group (columnGroups cols))]
      ++ entriesOf d
  | (k, .quantity v u) :: d =>
    (k, if k = "value" then .ds (.num v) else nodeOf (.quantity v u)) :: entriesOf d
  | (k, x) :: d => (k, nodeOf x) :: entriesOf d
end

theorem dict_set_new {κ ν : Type} [DecidableEq κ] (d : Dict κ ν) (k : κ) (v : ν) (h : k ∉ d.keys) :
    d.set k v = (d ++ [(k, v)] : List (κ × ν)) := by
  induction d with
  | nil => rfl
  | cons p d ih =>
    obtain ⟨a, b⟩ := p
    simp only [Dict.keys_cons, List.mem_cons, not_or] at h
    have h1 : ¬ a = k := fun e => h.1 e.symm
    simp only [Dict.set, if_neg h1, ih h.2, List.cons_append]

theorem createDs_new {g : Group V} {k : String} (d : Data V) (h : k ∉ g.keys) :
    createDs g k d = ((g ++ [(k, .ds d)] : List _), .ok ()) := by
  rw [createDs, (Dict.get?_eq_none_iff g k).mpr h]
  simp only [dict_set_new g k _ h]

theorem createGroupWith_new {g : Group V} {k : String} (s : Group V) (h : k ∉ g.keys) :
    createGroupWith g k s = ((g ++ [(k, .group s)] : List _), .ok ()) := by
  rw [createGroupWith, (Dict.get?_eq_none_iff g k).mpr h]
  simp only [dict_set_new g k _ h]

theorem storableAll_iff (unit : String → Option String) (d : List (String × Item V)) :
    StorableAll unit d ↔ ∀ p ∈ d, Storable unit p.2 := by
  induction d with
  | nil => simp [StorableAll]
  | cons p d ih => obtain ⟨k, x⟩ := p; simp [StorableAll, ih]

mutual
theorem store_new (unit : String → Option String) : ∀ (x : Item V) (k : String) (g : Group V), Storable unit x →
    (∀ n ∈ namesOf (k, x), n ∉ g.keys) → (namesOf (k, x)).Nodup →
    storeThing x k g = ((g ++ entriesOf [(k, x)] : List _), .ok ())
  | .num v, k, g, _, hn, _ => by
      rw [storeThing, createDs_new _ (hn k (by simp [namesOf]))]; rfl
  | .str s, k, g, _, hn, _ => by
      rw [storeThing, createDs_new _ (hn k (by simp [namesOf]))]; rfl
  | .quantity v u, k, g, _, hn, _ => by
      have hk := hn k (by simp [namesOf])
      rw [storeThing, writeQuantity]
      by_cases h : k = "value"
      · subst h; rw [if_pos rfl, createDs_new _ hk]; simp [entriesOf]
      · rw [if_neg h, createGroupWith_new _ hk]; simp [entriesOf, h, nodeOf]
  | .table id cols, k, g, _, hn, hd => by
      have h1 := hn k (by simp [namesOf])
      have h2 := hn (k ++ metaKey) (by simp [namesOf])
      have h3 := hn (k ++ "_to_group") (by simp [namesOf])
      simp only [namesOf, List.nodup_cons, List.mem_cons, List.not_mem_nil, or_false, not_or] at hd
      rw [storeThing, writeTable, createDs_new _ h1]
      simp only
      rw [createDs_new]
      · simp only
        rw [createGroupWith_new]
        · simp [entriesOf]
        · simp only [Dict.keys_append, List.mem_append, not_or]
          refine ⟨⟨h3, ?_⟩, ?_⟩
          · simp only [Dict.keys_cons, Dict.keys_nil, List.mem_singleton]; exact fun e => hd.1.2 e.symm
          · simp only [Dict.keys_cons, Dict.keys_nil, List.mem_singleton]; exact fun e => hd.2.1 e.symm
      · simp only [Dict.keys_append, List.mem_append, not_or]
        refine ⟨h2, ?_⟩
        simp only [Dict.keys_cons, Dict.keys_nil, List.mem_singleton]; exact fun e => hd.1.1 e.symm
  | .dict d, k, g, hs, hn, _ => by
      have hk := hn k (by simp [namesOf])
      rw [storeThing, (Dict.get?_eq_none_iff g k).mpr hk]
      simp only [Storable] at hs
      have := saveDict_new unit d [] hs.2.2.2.2.2 (by simp) hs.1
      simp only [this, dict_set_new g k _ hk]
      simp [entriesOf, nodeOf]
  | .objs _, k, g, hs, _, _ => by simp [Storable] at hs
  | .other, k, g, hs, _, _ => by simp [Storable] at hs
theorem saveDict_new (unit : String → Option String) : ∀ (d : List (String × Item V)) (g : Group V),
    StorableAll unit d → (∀ n ∈ d.flatMap namesOf, n ∉ g.keys) → (d.flatMap namesOf).Nodup →
    saveDict d g = ((g ++ entriesOf d : List _), .ok ())
  | [], g, _, _, _ => by rw [saveDict]; simp [entriesOf]
  | (k, x) :: d, g, hs, hn, hd => by
      simp only [StorableAll] at hs
      rw [List.flatMap_cons] at hn hd
      rw [List.nodup_append] at hd
      rw [saveDict, store_new unit x k g hs.1 (fun n h => hn n (List.mem_append_left _ h)) hd.1]
      simp only
      rw [saveDict_new unit d _ hs.2 ?_ hd.2.1]
      · rw [List.append_assoc]
        congr 2
        cases x <;> simp [entriesOf]
      · intro n hmem
        have hkeys : Dict.keys (entriesOf [(k, x)]) = namesOf (k, x) := by
          cases x <;> simp [entriesOf, namesOf]
        rw [Dict.keys_append, hkeys, List.mem_append, not_or]
        exact ⟨hn n (List.mem_append_right _ hmem), fun h => hd.2.2 n h n hmem rfl⟩
end

theorem keys_entriesOf (d : List (String × Item V)) : Dict.keys (entriesOf d) = d.flatMap namesOf := by
  induction d with
  | nil => simp [entriesOf]
  | cons p d ih =>
    obtain ⟨k, x⟩ := p
    cases x <;> simp [entriesOf, namesOf, ih]

/-- Loading the entries of a group: all of them or an error. -/
theorem loadEntries_ok (unit : String → Option String) (ov : Dict String (LVal V)) :
    ∀ g : List (String × Node V), (∀ p ∈ g, ov.get? p.1 = none → ∃ y, loadNode unit p.2 = .ok y) →
      (Dict.keys g).Nodup →
      ∃ r : Dict String (LVal V), loadEntries unit ov g = .ok r ∧ r.keys = Dict.keys g ∧
        ∀ k n, (k, n) ∈ g → ∃ y, r.get? k = some y ∧
          (ov.get? k = some y ∨ (ov.get? k = none ∧ loadNode unit n = .ok y)) := by
  intro g
  induction g with
  | nil => intro _ _; exact ⟨[], by rw [loadEntries], rfl, by simp⟩
  | cons p g ih =>
    obtain ⟨k, n⟩ := p
    intro h hnd
    simp only [Dict.keys_cons, List.nodup_cons] at hnd
    obtain ⟨r, hr, hk, hget⟩ := ih (fun p hp => h p (by simp [hp])) hnd.2
    have hy : ∃ y, (ov.get? k = some y ∨ (ov.get? k = none ∧ loadNode unit n = .ok y)) := by
      cases ho : ov.get? k with
      | some y => exact ⟨y, .inl rfl⟩
      | none =>
        obtain ⟨y, hy⟩ := h (k, n) (by simp) ho
        exact ⟨y, .inr ⟨rfl, hy⟩⟩
    obtain ⟨y, hy⟩ := hy
    refine ⟨(k, y) :: r, ?_, by simp [hk], ?_⟩
    · rw [loadEntries]
      rcases hy with hy | ⟨hy, hy'⟩
      · simp only [hy, hr]
      · simp only [hy, hy', hr]
    · intro k' n' hm
      rcases List.mem_cons.mp hm with he | hm
      · cases he
        exact ⟨y, by simp [Dict.get?_cons], hy⟩
      · obtain ⟨y', h1, h2⟩ := hget k' n' hm
        refine ⟨y', ?_, h2⟩
        rw [Dict.get?_cons, if_neg]
        · exact h1
        · rintro rfl
          exact hnd.1 (List.mem_map_of_mem (f := Prod.fst) hm)

/-- No table in the group: no table overrides. -/
theorem tableOverrides_none (g : Group V) (ks : List String) (h : ∀ k ∈ ks, substr metaKey k = false) :
    tableOverrides g ks = .ok [] := by
  induction ks with
  | nil => rfl
  | cons k ks ih =>
    rw [tableOverrides, h k (by simp)]
    exact ih (fun k' hk' => h k' (by simp [hk']))

theorem columnGroup_load (unit : String → Option String) (c : String × V × Option String)
    (h : ∀ u, c.2.2 = some u → (unit u).isSome) : ∃ y, loadNode unit (.group (columnGroup c)) = .ok y := by
  obtain ⟨name, v, ou⟩ := c
  cases ou with
  | none =>
    refine ⟨.dict [("value", .num v)], ?_⟩
    have h1 : substr metaKey "value" = false := by decide
    simp [columnGroup, loadNode, overrides, valueOverride, Dict.get?, tableOverrides, h1, loadEntries, ofData]
  | some u =>
    obtain ⟨u', hu⟩ := Option.isSome_iff_exists.mp (h u rfl)
    refine ⟨.dict [("value", .qty v u'), ("unit", .bytes u)], ?_⟩
    have h1 : substr metaKey "value" = false := by decide
    have h2 : substr metaKey "unit" = false := by decide
    simp [columnGroup, loadNode, overrides, valueOverride, Dict.get?, tableOverrides, h1, h2, loadEntries, ofData, hu]

theorem columnGroups_load (unit : String → Option String) (cols : List (String × V × Option String))
    (h : ColsOk unit cols) : ∃ y, loadNode unit (.group (columnGroups cols)) = .ok y := by
  have hkeys : Dict.keys (columnGroups cols) = cols.map Prod.fst := by
    simp [columnGroups, Dict.keys, Function.comp_def]
  have hv : valueOverride unit (columnGroups cols) = .ok [] := by
    unfold valueOverride
    split
    · rename_i v u h1 h2
      refine absurd ⟨?_, ?_⟩ h.notBoth
      · rw [← hkeys]; exact Dict.mem_keys_of_get? h1
      · rw [← hkeys]; exact Dict.mem_keys_of_get? h2
    · rfl
  have ht : tableOverrides (columnGroups cols) (Dict.keys (columnGroups cols)) = .ok [] := by
    apply tableOverrides_none
    intro k hk
    rw [hkeys] at hk
    obtain ⟨c, hc, rfl⟩ := List.mem_map.mp hk
    exact h.names c hc
  have ho : overrides unit (columnGroups cols) = .ok [] := by
    rw [overrides, hv]; simp only [ht]; rfl
  obtain ⟨r, hr, _, _⟩ := loadEntries_ok unit [] (columnGroups cols) (by
    intro p hp _
    obtain ⟨c, hc, rfl⟩ := List.mem_map.mp hp
    exact columnGroup_load unit c (h.units c hc)) (by rw [hkeys]; exact h.nodup)
  exact ⟨.dict r, by rw [loadNode, ho]; simp only [hr]⟩

theorem mem_namesOf (k : String) (x : Item V) : k ∈ namesOf (k, x) := by
  cases x <;> simp [namesOf]

theorem substr_append_meta (k : String) : substr metaKey (k ++ metaKey) = true := by
  rw [Options.substr_iff, String.toList_append]
  exact (List.suffix_append _ _).isInfix

theorem beforeDot_meta (k : String) (h : '.' ∉ k.toList) : beforeDot (k ++ metaKey) = k := by
  unfold beforeDot
  rw [String.toList_append]
  have hm : metaKey.toList = '.' :: metaKey.toList.tail := by decide
  rw [hm, List.takeWhile_append_of_pos]
  · simp
  · intro c hc
    simp only [bne_iff_ne, ne_eq]
    rintro rfl; exact h hc

theorem not_substr_group (k : String) (h : '.' ∉ k.toList) : substr metaKey (k ++ "_to_group") = false := by
  rw [Bool.eq_false_iff, Ne, Options.substr_iff]
  intro hi
  have hm : '.' ∈ metaKey.toList := by decide
  have := hi.sublist.subset hm
  rw [String.toList_append, List.mem_append] at this
  rcases this with h' | h'
  · exact h h'
  · revert h'; decide

/-- The file entry `p` was written for the item `x` called `k`. -/
def Origin (p : String × Node V) (k : String) (x : Item V) : Prop :=
  (∃ i c, x = .table i c ∧ (p = (k, .ds (.tab i)) ∨ p = (k ++ metaKey, .ds (.tabMeta i)) ∨
      p = (k ++ "_to_group", .group (columnGroups c)))) ∨
  (∃ v u, x = .quantity v u ∧ k = "value" ∧ p = (k, .ds (.num v))) ∨
  ((∀ i c, x ≠ .table i c) ∧ ¬ (k = "value" ∧ ∃ v u, x = .quantity v u) ∧ p = (k, nodeOf x))

/-- Every file entry of a dictionary belongs to one of its items. -/
theorem mem_entriesOf (d : List (String × Item V)) (p : String × Node V) (hp : p ∈ entriesOf d) :
    ∃ k x, (k, x) ∈ d ∧ Origin p k x := by
  induction d with
  | nil => simp [entriesOf] at hp
  | cons q d ih =>
    obtain ⟨k, x⟩ := q
    have lift : p ∈ entriesOf d → ∃ k' x', (k', x') ∈ (k, x) :: d ∧ Origin p k' x' := fun h => by
      obtain ⟨k', x', hm, h'⟩ := ih h
      exact ⟨k', x', List.mem_cons_of_mem _ hm, h'⟩
    cases x with
    | table i c =>
      simp only [entriesOf, List.cons_append, List.nil_append, List.mem_cons] at hp
      rcases hp with h | h | h | h
      · exact ⟨k, .table i c, by simp, .inl ⟨i, c, rfl, .inl h⟩⟩
      · exact ⟨k, .table i c, by simp, .inl ⟨i, c, rfl, .inr (.inl h)⟩⟩
      · exact ⟨k, .table i c, by simp, .inl ⟨i, c, rfl, .inr (.inr h)⟩⟩
      · exact lift h
    | quantity v u =>
      simp only [entriesOf, List.mem_cons] at hp
      rcases hp with h | h
      · by_cases hk : k = "value"
        · exact ⟨k, .quantity v u, by simp, .inr (.inl ⟨v, u, rfl, hk, by rw [h, if_pos hk]⟩)⟩
        · exact ⟨k, .quantity v u, by simp, .inr (.inr ⟨by simp, by simp [hk], by rw [h, if_neg hk]⟩)⟩
      · exact lift h
    | num v =>
      simp only [entriesOf, List.mem_cons] at hp
      rcases hp with h | h
      · exact ⟨k, .num v, by simp, .inr (.inr ⟨by simp, by simp, h⟩)⟩
      · exact lift h
    | str v =>
      simp only [entriesOf, List.mem_cons] at hp
      rcases hp with h | h
      · exact ⟨k, .str v, by simp, .inr (.inr ⟨by simp, by simp, h⟩)⟩
      · exact lift h
    | dict v =>
      simp only [entriesOf, List.mem_cons] at hp
      rcases hp with h | h
      · exact ⟨k, .dict v, by simp, .inr (.inr ⟨by simp, by simp, h⟩)⟩
      · exact lift h
    | objs v =>
      simp only [entriesOf, List.mem_cons] at hp
      rcases hp with h | h
      · exact ⟨k, .objs v, by simp, .inr (.inr ⟨by simp, by simp, h⟩)⟩
      · exact lift h
    | other =>
      simp only [entriesOf, List.mem_cons] at hp
      rcases hp with h | h
      · exact ⟨k, .other, by simp, .inr (.inr ⟨by simp, by simp, h⟩)⟩
      · exact lift h

/-- ... and conversely. -/
theorem entriesOf_mem (d : List (String × Item V)) (k : String) (x : Item V) (h : (k, x) ∈ d) :
    (∀ i c, x = .table i c → (k, .ds (.tab i)) ∈ entriesOf d ∧ (k ++ metaKey, .ds (.tabMeta i)) ∈ entriesOf d ∧
      (k ++ "_to_group", .group (columnGroups c)) ∈ entriesOf d) ∧
    (∀ v u, x = .quantity v u → k = "value" → (k, .ds (.num v)) ∈ entriesOf d) ∧
    ((∀ i c, x ≠ .table i c) → ¬ (k = "value" ∧ ∃ v u, x = .quantity v u) → (k, nodeOf x) ∈ entriesOf d) := by
  induction d with
  | nil => simp at h
  | cons q d ih =>
    obtain ⟨k', x'⟩ := q
    have hsub : ∀ e, e ∈ entriesOf d → e ∈ entriesOf ((k', x') :: d) := by
      intro e he
      cases x' <;> simp [entriesOf, he]
    rcases List.mem_cons.mp h with he | h
    · cases he
      cases x with
      | table i c =>
        refine ⟨?_, by simp, by simp⟩
        rintro i' c' heq
        cases heq
        simp [entriesOf]
      | quantity v u =>
        refine ⟨by simp, ?_, ?_⟩
        · rintro v' u' heq rfl
          cases heq
          simp [entriesOf]
        · intro _ hn
          have hk : ¬ k = "value" := fun e => hn ⟨e, v, u, rfl⟩
          simp [entriesOf, hk]
      | num v => exact ⟨by simp, by simp, by simp [entriesOf]⟩
      | str v => exact ⟨by simp, by simp, by simp [entriesOf]⟩
      | dict v => exact ⟨by simp, by simp, by simp [entriesOf]⟩
      | objs v => exact ⟨by simp, by simp, by simp [entriesOf]⟩
      | other => exact ⟨by simp, by simp, by simp [entriesOf]⟩
    · obtain ⟨h1, h2, h3⟩ := ih h
      exact ⟨fun i c e => ⟨hsub _ (h1 i c e).1, hsub _ (h1 i c e).2.1, hsub _ (h1 i c e).2.2⟩,
        fun v u e e' => hsub _ (h2 v u e e'), fun a b => hsub _ (h3 a b)⟩

/-- A table is read exactly if there are its array and its header, and it is the table of the array. -/
theorem loadTable_ok_iff (g : Group V) (k : String) (r : String × LVal V) :
    loadTable g k = .ok r ↔ ∃ i j, g.get? k = some (.ds (.tab i)) ∧ g.get? (k ++ metaKey) = some (.ds (.tabMeta j)) ∧ r = (k, .table i) := by
  unfold loadTable
  constructor
  · intro h
    split at h
    · cases h
    · rename_i i e
      split at h
      · rename_i j e'
        cases h
        exact ⟨i, j, e, e', rfl⟩
      · cases h
      · cases h
    · cases h
  · rintro ⟨i, j, e, e', rfl⟩
    rw [e]
    dsimp only
    rw [e']

/-- Table overrides of a group: exactly its tables. -/
theorem tableOverrides_spec (g : Group V) (ks : List String)
    (h : ∀ k ∈ ks, substr metaKey k = true → ∃ i, loadTable g (beforeDot k) = .ok (beforeDot k, .table i)) :
    ∃ ov : Dict String (LVal V), tableOverrides g ks = .ok ov ∧
      (∀ n y, (n, y) ∈ ov → ∃ k ∈ ks, substr metaKey k = true ∧ n = beforeDot k ∧
        loadTable g n = .ok (n, y)) ∧
      (∀ k ∈ ks, substr metaKey k = true → beforeDot k ∈ ov.keys) := by
  induction ks with
  | nil => exact ⟨[], rfl, by simp, by simp⟩
  | cons k ks ih =>
    obtain ⟨ov, h1, h2, h3⟩ := ih (fun k' hk' => h k' (by simp [hk']))
    by_cases hk : substr metaKey k = true
    · obtain ⟨i, hi⟩ := h k (by simp) hk
      refine ⟨(beforeDot k, .table i) :: ov, ?_, ?_, ?_⟩
      · rw [tableOverrides, if_pos hk, hi]; simp only [h1]
      · intro n y hm
        rcases List.mem_cons.mp hm with e | hm
        · cases e; exact ⟨k, by simp, hk, rfl, hi⟩
        · obtain ⟨k', hk', h'⟩ := h2 n y hm
          exact ⟨k', by simp [hk'], h'⟩
      · intro k' hk' hs
        rcases List.mem_cons.mp hk' with rfl | hk'
        · simp
        · exact List.mem_cons_of_mem _ (h3 k' hk' hs)
    · refine ⟨ov, by rw [tableOverrides, if_neg hk]; exact h1, ?_, ?_⟩
      · intro n y hm
        obtain ⟨k', hk', h'⟩ := h2 n y hm
        exact ⟨k', by simp [hk'], h'⟩
      · intro k' hk' hs
        rcases List.mem_cons.mp hk' with rfl | hk'
        · exact absurd hs hk
        · exact h3 k' hk' hs

theorem readsAll_iff (unit : String → Option String) (r : Dict String (LVal V)) (d : List (String × Item V)) :
    ReadsAll unit r d ↔ ∀ k x, (k, x) ∈ d → ∃ y, r.get? k = some y ∧
      ((k = "value" ∧ ∃ v u, x = .quantity v u ∧ y = .qty v u) ∨
      (k = "value" ∧ ∃ v s u, x = .num v ∧ r.get? "unit" = some (.bytes s) ∧ unit s = some u ∧ y = .qty v u) ∨
      (¬ (k = "value" ∧ ∃ v u, x = .quantity v u) ∧ ¬ (k = "value" ∧ (∃ v, x = .num v) ∧ "unit" ∈ r.keys) ∧
        Reads unit x y)) := by
  induction d with
  | nil => simp [ReadsAll]
  | cons p d ih =>
    obtain ⟨k, x⟩ := p
    rw [ReadsAll, ih]
    constructor
    · rintro ⟨h1, h2⟩ k' x' hm
      rcases List.mem_cons.mp hm with e | hm
      · cases e; exact h1
      · exact h2 k' x' hm
    · intro h
      exact ⟨h k x (by simp), fun k' x' hm => h k' x' (by simp [hm])⟩

/-- The group of a storable dictionary loads to its faithful image, provided its items do. -/
theorem load_group (unit : String → Option String) (d : List (String × Item V)) (hs : Storable unit (.dict d))
    (hitems : ∀ k x, (k, x) ∈ d → (∀ i c, x ≠ .table i c) → ∃ y, loadNode unit (nodeOf x) = .ok y ∧ Reads unit x y) :
    ∃ y, loadNode unit (.group (entriesOf d)) = .ok y ∧ Reads unit (.dict d) y := by
  rw [Storable] at hs
  obtain ⟨hnd, hmeta, hdot, hval, hboth, hall⟩ := hs
  rw [storableAll_iff] at hall
  set g : Group V := entriesOf d with hg
  have hkeys : Dict.keys g = d.flatMap namesOf := keys_entriesOf d
  have hgnd : (Dict.keys g).Nodup := by rw [hkeys]; exact hnd
  have hget : ∀ k n, (k, n) ∈ g → g.get? k = some n := fun k n h => Dict.get?_of_mem hgnd h
  -- keys of `d` are distinct
  have hmemKey : ∀ k x, (k, x) ∈ d → k ∈ Dict.keys g := by
    intro k x hm; rw [hkeys]; exact List.mem_flatMap.mpr ⟨(k, x), hm, mem_namesOf k x⟩
  have huniq : ∀ k x x', (k, x) ∈ d → (k, x') ∈ d → x = x' := by
    intro k x x' h1 h2
    by_contra hne
    have hp : (d.map Prod.fst).Nodup := by
      clear * - hnd
      induction d with
      | nil => simp
      | cons p d ih =>
        rw [List.flatMap_cons, List.nodup_append] at hnd
        rw [List.map_cons, List.nodup_cons]
        refine ⟨?_, ih hnd.2.1⟩
        intro hm
        obtain ⟨q, hq, he⟩ := List.mem_map.mp hm
        refine hnd.2.2 p.1 (by obtain ⟨a, b⟩ := p; exact mem_namesOf a b) p.1 ?_ rfl
        exact List.mem_flatMap.mpr ⟨q, hq, by rw [← he]; obtain ⟨a, b⟩ := q; exact mem_namesOf a b⟩
    have e1 := Dict.get?_of_mem (d := d) hp h1
    have e2 := Dict.get?_of_mem (d := d) hp h2
    rw [e1] at e2
    exact hne (Option.some.inj e2)
  -- a key with the reserved suffix is the meta entry of a table
  have hmetaKeys : ∀ k ∈ Dict.keys g, substr metaKey k = true →
      ∃ n i c, (n, .table i c) ∈ d ∧ k = n ++ metaKey ∧ beforeDot k = n := by
    intro k hk hsub
    obtain ⟨n, hn⟩ := Dict.exists_get? hk
    obtain ⟨k', x, hm, hcase⟩ := mem_entriesOf d (k, n) (Dict.mem_of_get? hn)
    have hno : k = k' → False := by
      rintro rfl
      have := hmeta _ hm
      simp only at this
      rw [this] at hsub; cases hsub
    rcases hcase with ⟨i, c, rfl, h | h | h⟩ | ⟨v, u, rfl, rfl, h⟩ | ⟨_, _, h⟩
    · exact absurd (Prod.mk.inj h).1 hno
    · have := (Prod.mk.inj h).1
      exact ⟨k', i, c, hm, this, by rw [this]; exact beforeDot_meta _ (hdot _ hm i c rfl)⟩
    · have e := (Prod.mk.inj h).1
      rw [e, not_substr_group _ (hdot _ hm i c rfl)] at hsub; cases hsub
    · exact absurd (Prod.mk.inj h).1 hno
    · exact absurd (Prod.mk.inj h).1 hno
  have hload : ∀ n i c, (n, .table i c) ∈ d → loadTable g n = .ok (n, .table i) := by
    intro n i c hm
    obtain ⟨h1, _, _⟩ := entriesOf_mem d n (.table i c) hm
    obtain ⟨e1, e2, _⟩ := h1 i c rfl
    simp only [loadTable, hget _ _ e1, hget _ _ e2]
  obtain ⟨ovt, hovt, hovt1, hovt2⟩ := tableOverrides_spec g (Dict.keys g) (by
    intro k hk hsub
    obtain ⟨n, i, c, hm, _, hb⟩ := hmetaKeys k hk hsub
    exact ⟨i, by rw [hb]; exact hload n i c hm⟩)
  -- the table overrides are the tables
  have hovtGet : ∀ n y, (n, y) ∈ ovt → ∃ i c, (n, .table i c) ∈ d ∧ y = .table i := by
    intro n y hm
    obtain ⟨k, hk, hsub, hnb, hl⟩ := hovt1 n y hm
    obtain ⟨n', i, c, hm', _, hb⟩ := hmetaKeys k hk hsub
    have : n = n' := by rw [hnb, hb]
    subst this
    rw [hload n i c hm'] at hl
    simp only [Except.ok.injEq, Prod.mk.injEq, true_and] at hl
    exact ⟨i, c, hm', hl.symm⟩
  have hovtTable : ∀ n i c, (n, .table i c) ∈ d → ovt.get? n = some (.table i) := by
    intro n i c hm
    have hmk : n ++ metaKey ∈ Dict.keys g := by
      rw [hkeys]; exact List.mem_flatMap.mpr ⟨(n, .table i c), hm, by simp [namesOf]⟩
    have hk := hovt2 _ hmk (substr_append_meta n)
    rw [beforeDot_meta n (hdot _ hm i c rfl)] at hk
    obtain ⟨y, hy⟩ := Dict.exists_get? hk
    obtain ⟨i', c', hm', rfl⟩ := hovtGet n y (Dict.mem_of_get? hy)
    have := huniq n _ _ hm hm'
    cases this
    exact hy
  have hovtNone : ∀ k x, (k, x) ∈ d → (∀ i c, x ≠ .table i c) → ovt.get? k = none := by
    intro k x hm hx
    cases ho : ovt.get? k with
    | none => rfl
    | some y =>
      obtain ⟨i, c, hm', _⟩ := hovtGet k y (Dict.mem_of_get? ho)
      exact absurd (huniq k _ _ hm hm') (hx i c)
  -- the names `value` and `unit` in the file come from keys of `d`
  have key : ∀ k, k ∈ Dict.keys g → (k = "value" ∨ k = "unit") → k ∈ d.map Prod.fst := by
    intro k hkg hk
    obtain ⟨n, hn⟩ := Dict.exists_get? hkg
    obtain ⟨k', x, hm, hcase⟩ := mem_entriesOf d (k, n) (Dict.mem_of_get? hn)
    have hkk : k = k' := by
      rcases hcase with ⟨i, c, rfl, h | h | h⟩ | ⟨v, u, rfl, rfl, h⟩ | ⟨_, _, h⟩
      · exact (Prod.mk.inj h).1
      · have e := (Prod.mk.inj h).1
        have := substr_append_meta k'
        rw [← e] at this
        rcases hk with rfl | rfl <;> exact absurd this (by decide)
      · have e := congrArg String.toList (Prod.mk.inj h).1
        rw [String.toList_append] at e
        have hl := congrArg List.getLast? e
        rw [List.getLast?_append] at hl
        have hp : "_to_group".toList.getLast? = some 'p' := by decide
        rw [hp] at hl
        rcases hk with rfl | rfl <;> exact absurd hl (by simp)
      · exact (Prod.mk.inj h).1
      · exact (Prod.mk.inj h).1
    rw [hkk]; exact List.mem_map_of_mem (f := Prod.fst) hm
  have hunit : ∀ s, ("unit", .str s) ∈ d → g.get? "unit" = some (.ds (.bytes s)) := by
    intro s hus
    have := (entriesOf_mem d _ _ hus).2.2 (by simp) (by simp)
    exact hget _ _ (by simpa [nodeOf] using this)
  -- the value override
  have hvalue : ∃ ovv : Dict String (LVal V), valueOverride unit g = .ok ovv ∧
      (∀ k, k ≠ "value" → ovv.get? k = none) ∧
      (∀ v u, ("value", .quantity v u) ∈ d → ovv.get? "value" = some (.qty v u)) ∧
      (∀ x, ("value", x) ∈ d → (∀ v u, x ≠ .quantity v u) → ((∃ v, x = .num v) → "unit" ∉ d.map Prod.fst) → ovv.get? "value" = none) ∧
      (∀ v s u, ("value", .num v) ∈ d → ("unit", .str s) ∈ d → unit s = some u → ovv.get? "value" = some (.qty v u)) := by
    by_cases hq : ∃ v u, ("value", .quantity v u) ∈ d
    · obtain ⟨v, u, hm⟩ := hq
      obtain ⟨s, hus, hu⟩ := hval v u hm
      have e1 : g.get? "value" = some (.ds (.num v)) :=
        hget _ _ ((entriesOf_mem d _ _ hm).2.1 v u rfl rfl)
      have e2 := hunit s hus
      refine ⟨[("value", .qty v u)], ?_, ?_, ?_, ?_, ?_⟩
      · simp only [valueOverride, e1, e2, hu]
      · intro k hk; simp [Dict.get?, Ne.symm hk]
      · intro v' u' hm'
        have := huniq _ _ _ hm hm'
        cases this; rfl
      · intro x hx hxq
        exact absurd (huniq _ _ _ hx hm) (hxq v u)
      · intro v' s' u' hm'
        have := huniq _ _ _ hm hm'
        cases this
    · by_cases hb : "value" ∈ d.map Prod.fst ∧ "unit" ∈ d.map Prod.fst
      · obtain ⟨v, s, u, hm, hus, hu⟩ := (hboth hb.1 hb.2).resolve_left hq
        have e1 : g.get? "value" = some (.ds (.num v)) := by
          have := (entriesOf_mem d _ _ hm).2.2 (by simp) (by simp)
          exact hget _ _ (by simpa [nodeOf] using this)
        have e2 := hunit s hus
        refine ⟨[("value", .qty v u)], ?_, ?_, fun v u hm => absurd ⟨v, u, hm⟩ hq, ?_, ?_⟩
        · simp only [valueOverride, e1, e2, hu]
        · intro k hk; simp [Dict.get?, Ne.symm hk]
        · intro x hx hxq hn
          exact absurd hb.2 (hn ⟨v, huniq _ _ _ hx hm⟩)
        · intro v' s' u' hm' hus' hu'
          have h1 := huniq _ _ _ hm hm'
          cases h1
          have h2 := huniq _ _ _ hus hus'
          cases h2
          rw [hu] at hu'
          cases hu'
          rfl
      · refine ⟨[], ?_, fun _ _ => rfl, fun v u hm => absurd ⟨v, u, hm⟩ hq, fun _ _ _ _ => rfl, ?_⟩
        · unfold valueOverride
          split
          · rename_i nv nu hv hu
            exact absurd ⟨key _ (Dict.mem_keys_of_get? hv) (.inl rfl), key _ (Dict.mem_keys_of_get? hu) (.inr rfl)⟩ hb
          · rfl
        · intro v s u hm hus
          exact absurd ⟨List.mem_map_of_mem (f := Prod.fst) hm, List.mem_map_of_mem (f := Prod.fst) hus⟩ hb
  obtain ⟨ovv, hovv, hv1, hv2, hv3, hv4⟩ := hvalue
  have hov : overrides unit g = .ok (ovv ++ ovt : List (String × LVal V)) := by
    simp only [overrides, hovv, hovt]
  have hovGet : ∀ k, Dict.get? (ovv ++ ovt : List (String × LVal V)) k
      = if k ∈ ovv.keys then ovv.get? k else ovt.get? k := Dict.get?_append ovv ovt
  have hovNone : ∀ k, ovv.get? k = none → Dict.get? (ovv ++ ovt : List (String × LVal V)) k = ovt.get? k := by
    intro k hk
    rw [hovGet, if_neg ((Dict.get?_eq_none_iff ovv k).mp hk)]
  have hovSome : ∀ k y, ovv.get? k = some y → Dict.get? (ovv ++ ovt : List (String × LVal V)) k = some y := by
    intro k y hk
    rw [hovGet, if_pos (Dict.mem_keys_of_get? hk), hk]
  -- all entries load
  obtain ⟨r, hr, hrk, hrg⟩ := loadEntries_ok unit (ovv ++ ovt : List (String × LVal V)) g (by
    intro p hp _
    obtain ⟨k, x, hm, hcase⟩ := mem_entriesOf d p hp
    rcases hcase with ⟨i, c, rfl, rfl | rfl | rfl⟩ | ⟨v, u, rfl, rfl, rfl⟩ | ⟨h1, h2, rfl⟩
    · exact ⟨_, by rw [loadNode]⟩
    · exact ⟨_, by rw [loadNode]⟩
    · exact columnGroups_load unit c (by have := hall _ hm; simpa only [Storable] using this)
    · exact ⟨_, by rw [loadNode]⟩
    · obtain ⟨y, hy, _⟩ := hitems k x hm h1
      exact ⟨y, hy⟩) hgnd
  refine ⟨.dict r, ?_, ?_⟩
  · rw [loadNode, hov]; simp only [hr]
  rw [Reads]
  refine ⟨r, rfl, by rw [hrk, hkeys], ?_⟩
  rw [readsAll_iff]
  intro k x hm
  by_cases ht : ∃ i c, x = .table i c
  · obtain ⟨i, c, rfl⟩ := ht
    obtain ⟨y, h1, h2⟩ := hrg k _ ((entriesOf_mem d k _ hm).1 i c rfl).1
    refine ⟨y, h1, .inr (.inr ⟨by simp, by simp, ?_⟩)⟩
    have hvn : ovv.get? k = none := by
      by_cases hk : k = "value"
      · subst hk; exact hv3 _ hm (by simp) (by simp)
      · exact hv1 k hk
    rw [hovNone k hvn, hovtTable k i c hm] at h2
    rcases h2 with h2 | ⟨h2, _⟩
    · simp only [Reads]; exact (Option.some.inj h2).symm
    · cases h2
  · push Not at ht
    by_cases hq : k = "value" ∧ ∃ v u, x = .quantity v u
    · obtain ⟨rfl, v, u, rfl⟩ := hq
      obtain ⟨y, h1, h2⟩ := hrg "value" _ ((entriesOf_mem d _ _ hm).2.1 v u rfl rfl)
      refine ⟨y, h1, .inl ⟨rfl, v, u, rfl, ?_⟩⟩
      rw [hovSome _ _ (hv2 v u hm)] at h2
      rcases h2 with h2 | ⟨h2, _⟩
      · exact (Option.some.inj h2).symm
      · cases h2
    · obtain ⟨y, h1, h2⟩ := hrg k _ ((entriesOf_mem d k x hm).2.2 ht hq)
      by_cases hn : k = "value" ∧ (∃ v, x = .num v) ∧ "unit" ∈ d.map Prod.fst
      · obtain ⟨rfl, ⟨v, rfl⟩, hun⟩ := hn
        obtain ⟨v', s, u, hm', hus, hu⟩ := (hboth (List.mem_map_of_mem (f := Prod.fst) hm) hun).resolve_left
          (fun ⟨v', u', h'⟩ => by have := huniq _ _ _ hm h'; cases this)
        have := huniq _ _ _ hm hm'
        cases this
        refine ⟨y, h1, .inr (.inl ⟨rfl, v, s, u, rfl, ?_, hu, ?_⟩)⟩
        · obtain ⟨y', h1', h2'⟩ := hrg "unit" _ ((entriesOf_mem d _ _ hus).2.2 (by simp) (by simp))
          rw [hovNone "unit" (hv1 _ (by decide)), hovtNone "unit" _ hus (by simp)] at h2'
          rcases h2' with h2' | ⟨_, h2'⟩
          · cases h2'
          · rw [nodeOf, loadNode, ofData] at h2'
            cases h2'
            exact h1'
        · rw [hovSome _ _ (hv4 v s u hm hus hu)] at h2
          rcases h2 with h2 | ⟨h2, _⟩
          · exact (Option.some.inj h2).symm
          · cases h2
      · refine ⟨y, h1, .inr (.inr ⟨hq, ?_, ?_⟩)⟩
        · rintro ⟨e, e', hu⟩
          rw [hrk] at hu
          exact hn ⟨e, e', key _ hu (.inr rfl)⟩
        have hvn : ovv.get? k = none := by
          by_cases hk : k = "value"
          · subst hk
            exact hv3 _ hm (fun v u e => hq ⟨rfl, v, u, e⟩) (fun e hu => hn ⟨rfl, e, hu⟩)
          · exact hv1 k hk
        rw [hovNone k hvn, hovtNone k x hm ht] at h2
        rcases h2 with h2 | ⟨_, h2⟩
        · cases h2
        · obtain ⟨y', hy', hrd⟩ := hitems k x hm ht
          rw [hy'] at h2
          cases h2
          exact hrd

mutual
theorem load_item (unit : String → Option String) : ∀ x : Item V, Storable unit x → (∀ i c, x ≠ .table i c) →
    ∃ y, loadNode unit (nodeOf x) = .ok y ∧ Reads unit x y
  | .num v, _, _ => ⟨.num v, by simp [nodeOf, loadNode, ofData], by simp [Reads]⟩
  | .str s, _, _ => ⟨.bytes s, by simp [nodeOf, loadNode, ofData], by simp [Reads]⟩
  | .quantity v u, hs, _ => by
      simp only [Storable] at hs
      refine ⟨.dict [("value", .qty v u), ("unit", .bytes u)], ?_, by simp [Reads]⟩
      have h1 : substr metaKey "value" = false := by decide
      have h2 : substr metaKey "unit" = false := by decide
      simp [nodeOf, loadNode, overrides, valueOverride, Dict.get?, tableOverrides, h1, h2, loadEntries, ofData, hs]
  | .table i c, _, h => absurd rfl (h i c)
  | .dict d, hs, _ => by
      have hs' := hs
      rw [Storable] at hs'
      rw [nodeOf]
      exact load_group unit d hs (load_items unit d hs'.2.2.2.2.2)
  | .objs _, hs, _ => by simp [Storable] at hs
  | .other, hs, _ => by simp [Storable] at hs
theorem load_items (unit : String → Option String) : ∀ d : List (String × Item V), StorableAll unit d →
    ∀ k x, (k, x) ∈ d → (∀ i c, x ≠ .table i c) → ∃ y, loadNode unit (nodeOf x) = .ok y ∧ Reads unit x y
  | [], _, k, x, hm, _ => by simp at hm
  | (k', x') :: d, hs, k, x, hm, ht => by
      simp only [StorableAll] at hs
      by_cases hx : (k, x) = (k', x')
      · rw [(Prod.mk.inj hx).2] at ht ⊢
        exact load_item unit x' hs.1 ht
      · have hm' : (k, x) ∈ d := by
          rcases List.mem_cons.mp hm with h | h
          · exact absurd h hx
          · exact h
        exact load_items unit d hs.2 k x hm' ht
end

/-- C24: every storable option dictionary is written to a fresh group without error and `load` gives
its faithful image back, at every depth. -/
theorem store_load_roundtrip (unit : String → Option String) (d : List (String × Item V))
    (hs : Storable unit (.dict d)) :
    ∃ (g : Group V) (y : LVal V), saveDict d [] = (g, .ok ()) ∧ load unit g = .ok y ∧ Reads unit (.dict d) y := by
  have hs' := hs
  rw [Storable] at hs'
  obtain ⟨y, h1, h2⟩ := load_item unit (.dict d) hs (by simp)
  refine ⟨entriesOf d, y, ?_, ?_, h2⟩
  · have := saveDict_new unit d [] hs'.2.2.2.2.2 (by simp) hs'.1
    simpa using this
  · rw [nodeOf] at h1; exact h1

/-- C24, excluded input: a quantity called `value` without a unit text beside it loses its unit. -/
theorem value_without_unit_loses_unit (unit : String → Option String) (v : V) (u : String) :
    (saveDict [("value", .quantity v u)] []).2 = .ok () ∧
    load unit (saveDict [("value", .quantity v u)] []).1 = .ok (.dict [("value", .num v)]) := by
  have h1 : substr metaKey "value" = false := by decide
  constructor <;>
    simp [saveDict, storeThing, writeQuantity, createDs, Dict.get?, Dict.set, load, loadNode, overrides,
      valueOverride, tableOverrides, Dict.keys, h1, loadEntries, ofData]

/-- C24, excluded input: a stored unit text that `u.Unit` does not know makes the file unreadable. -/
theorem unknown_unit_unreadable (unit : String → Option String) (v : V) (s u : String) (h : unit s = none) :
    (saveDict [("unit", .str s), ("value", .quantity v u)] []).2 = .ok () ∧
    load unit (saveDict [("unit", .str s), ("value", .quantity v u)] []).1 = .error .valueError := by
  constructor <;>
    simp [saveDict, storeThing, writeQuantity, createDs, Dict.get?, Dict.set, load, loadNode, overrides,
      valueOverride, h]

/-! Non-vacuity: a payload fragment with a quantity, a nested section and a table. -/
example : Storable (V := Nat) (fun s => if s = "um" then some "um" else none)
    (.dict [("wl_min", .dict [("unit", .str "um"), ("value", .quantity 3 "um")]), ("name", .str "Photo"),
      ("data", .table "t" [("Wavelength", 1, some "um"), ("Transmission", 2, none)])]) := by
  simp only [Storable, StorableAll]
  refine ⟨by decide, ?_, ?_, ?_, ?_, ⟨by decide, ?_, ?_, ?_, ?_, trivial, by simp⟩, trivial, ⟨by decide, ?_, by decide, ?_⟩, trivial⟩
  · intro p hp; fin_cases hp <;> decide
  · intro p hp i c _; fin_cases hp <;> decide
  · simp
  · simp
  · intro p hp; fin_cases hp <;> decide
  · intro p hp; fin_cases hp <;> simp
  · intro v u h
    simp at h
    exact ⟨"um", by simp, by simp [h.2]⟩
  · intro _ _; exact .inl ⟨3, "um", by simp⟩
  · intro c hc; fin_cases hc <;> decide
  · intro c hc; fin_cases hc <;> simp

/-! Non-vacuity: the dictionary of a `Signal`. -/
example : Storable (V := Nat) (fun s => some s)
    (.dict [("wl_grid", .dict [("value", .num 3), ("unit", .str "um")]), ("data", .dict [("value", .num 5), ("unit", .str "")])]) := by
  simp only [Storable, StorableAll, and_true]
  refine ⟨by decide, ?_, ?_, ?_, ?_, ⟨by decide, ?_, ?_, ?_, ?_⟩, ⟨by decide, ?_, ?_, ?_, ?_⟩⟩
  · intro p hp; fin_cases hp <;> decide
  · intro p hp i c e; fin_cases hp <;> simp at e
  · simp
  · simp
  · intro p hp; fin_cases hp <;> decide
  · intro p hp i c e; fin_cases hp <;> simp at e
  · simp
  · intro _ _; exact .inr ⟨3, "um", "um", by simp⟩
  · intro p hp; fin_cases hp <;> decide
  · intro p hp i c e; fin_cases hp <;> simp at e
  · simp
  · intro _ _; exact .inr ⟨5, "", "", by simp⟩

/-! ## Things that cannot be stored -/

/-- Saving a dictionary never raises TypeError: a thing of an unsupported type in it is a ValueError, and nothing of it is written. -/
theorem save_no_type_error (d : List (String × Item V)) : ∀ g : Group V, (saveDict d g).2 ≠ .error .typeError := by
  induction d with
  | nil => intro g; rw [saveDict]; simp
  | cons p d ih =>
    intro g
    obtain ⟨k, x⟩ := p
    rw [saveDict]
    rcases h : storeThing x k g with ⟨g', r⟩
    cases r with
    | ok u => exact ih g'
    | error e => cases e <;> simp [wrap]

theorem save_unsupported (k : String) (d : List (String × Item V)) (g : Group V) :
    saveDict ((k, .other) :: d) g = (g, .error .valueError) := by
  rw [saveDict, storeThing]
  rfl

/-- Saving an empty dictionary under a used name changes nothing and is no error, whatever has the name. -/
theorem save_empty_dict (k : String) (g : Group V) (h : g.get? k ≠ none) :
    (storeThing (.dict []) k g).2 = .ok () ∧ ∀ k', (storeThing (.dict []) k g).1.get? k' = g.get? k' := by
  rw [storeThing]
  obtain ⟨n, hn⟩ := Option.ne_none_iff_exists'.mp h
  rw [hn]
  cases n with
  | ds d => exact ⟨rfl, fun _ => rfl⟩
  | group sub =>
    dsimp only
    rw [saveDict]
    refine ⟨rfl, fun k' => ?_⟩
    rw [Dict.get?_set]
    by_cases e : k' = k
    · rw [if_pos e, e, hn]
    · rw [if_neg e]

example : (storeThing (.dict []) "a" ([("a", .ds (.num (1 : ℕ)))] : Hdf5.Group ℕ)).2 = .ok () := (save_empty_dict "a" _ (by simp [Dict.get?])).1

end ExoRad.Hdf5
