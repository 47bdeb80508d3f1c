import Verif.Model.Table
import Verif.Lemmas.Dict
import Mathlib.Tactic.Ring
import Mathlib.Tactic.Linarith

/-! Helper lemmas about tables. -/

set_option linter.unusedSectionVars false

namespace ExoRad.Table
variable {α : Type} [Field α] [LinearOrder α]

/-- A rectangular table: at least one column, distinct names, all columns of length `n`. -/
structure Rect (t : Table α) (n : ℕ) : Prop where
  ne : t ≠ []
  nodup : t.keys.Nodup
  len : ∀ p ∈ t, p.2.length = n

/-- The zero cell. -/
def zero : Cell α := .num (Num.fin 0)

/-- A finite number. -/
def isFin (c : Cell α) : Prop := ∃ x, c = .num (Num.fin x)

theorem Rect.rows {t : Table α} {n : ℕ} (h : Rect t n) : t.rows = n := by
  cases t with
  | nil => exact absurd rfl h.ne
  | cons p t => exact h.len p (by simp)

theorem Rect.get?_len {t : Table α} {n : ℕ} (h : Rect t n) {c : String} {col : List (Cell α)}
    (hc : t.get? c = some col) : col.length = n := h.len _ (Dict.mem_of_get? hc)

theorem set_append_of_not_mem (t : Table α) (c : String) (v : List (Cell α)) (h : c ∉ t.keys) :
    t.set c v = t ++ [(c, v)] := by
  induction t with
  | nil => rfl
  | cons p t ih =>
    obtain ⟨a, b⟩ := p
    simp only [Dict.keys_cons, List.mem_cons, not_or] at h
    unfold Dict.set
    rw [if_neg (fun e => h.1 e.symm), ih h.2]; rfl

theorem Rect.append {t : Table α} {n : ℕ} (h : Rect t n) {c : String} {v : List (Cell α)}
    (hc : c ∉ t.keys) (hv : v.length = n) : Rect (t ++ [(c, v)] : List _) n where
  ne := by simp
  nodup := by
    rw [Dict.keys_append, List.nodup_append]
    refine ⟨h.nodup, by simp [Dict.keys], ?_⟩
    intro a ha b hb
    simp [Dict.keys] at hb; subst hb
    intro e; exact hc (e ▸ ha)
  len := by
    intro p hp
    rcases List.mem_append.mp hp with hp | hp
    · exact h.len p hp
    · simp at hp; subst hp; exact hv

theorem zerosTimes_fin (n : ℕ) {x : Cell α} (h : isFin x) :
    zerosTimes n x = .ok (List.replicate n zero) := by
  obtain ⟨y, rfl⟩ := h
  simp [zerosTimes, zero]

/-- `addMissing other tab` succeeds and appends zero columns for the names of `other` missing in
`tab`. -/
theorem addMissing_spec (other tab : Table α) (n : ℕ) (hn : Rect tab n)
    (ho : other.keys.Nodup)
    (hfill : ∀ p ∈ other, p.1 ∉ tab.keys → p.2 ≠ [] ∧ ∀ x ∈ p.2, isFin x) :
    ∃ tab', addMissing other tab = .ok tab' ∧ Rect tab' n ∧ tab <+: tab' ∧
      (∀ c, tab'.get? c = if c ∈ tab.keys then tab.get? c
        else if c ∈ other.keys then some (List.replicate n zero) else none) := by
  induction other generalizing tab with
  | nil =>
    refine ⟨tab, rfl, hn, List.prefix_refl _, ?_⟩
    intro c
    by_cases h : c ∈ tab.keys
    · simp [h]
    · simp [h, (Dict.get?_eq_none_iff tab c).mpr h]
  | cons p other ih =>
    obtain ⟨a, col⟩ := p
    rw [Dict.keys_cons, List.nodup_cons] at ho
    by_cases h : a ∈ tab.keys
    · obtain ⟨tab', h1, h2, h3, h4⟩ := ih tab hn ho.2
        (fun q hq => hfill q (List.mem_cons_of_mem _ hq))
      refine ⟨tab', ?_, h2, h3, ?_⟩
      · simp only [addMissing, (Dict.has_iff tab a).mpr h, if_true]; exact h1
      · intro c
        rw [h4 c]
        by_cases hc : c ∈ tab.keys
        · simp [hc]
        · have : c ≠ a := fun e => hc (e ▸ h)
          simp [hc, this]
    · obtain ⟨hne, hf⟩ := hfill (a, col) (by simp) h
      cases col with
      | nil => exact absurd rfl hne
      | cons x xs =>
        have hz := zerosTimes_fin tab.rows (hf x (by simp))
        have hset := set_append_of_not_mem tab a (List.replicate tab.rows zero) h
        have hlen : (List.replicate tab.rows (zero : Cell α)).length = n := by
          rw [List.length_replicate, hn.rows]
        have hR := hn.append h hlen
        obtain ⟨tab', h1, h2, h3, h4⟩ := ih (tab ++ [(a, List.replicate tab.rows zero)]) hR ho.2 (by
          intro q hq hq2
          apply hfill q (List.mem_cons_of_mem _ hq)
          intro hc
          exact hq2 (by rw [Dict.keys_append]; exact List.mem_append_left _ hc))
        refine ⟨tab', ?_, h2, (List.prefix_append _ _).trans h3, ?_⟩
        · simp only [addMissing, (Dict.has_eq_false_iff tab a).mpr h, Bool.false_eq_true, if_false, hz,
            bind, Except.bind, hset]
          exact h1
        · intro c
          rw [h4 c, Dict.keys_append, Dict.get?_append]
          by_cases hc : c ∈ tab.keys
          · simp [hc]
          · by_cases hca : c = a
            · subst hca; simp [hc, Dict.get?_cons, hn.rows]
            · have hca' : a ≠ c := fun e => hca e.symm
              simp [hc, hca]

theorem keys_vstack2 (a b : Table α) : (vstack2 a b).keys = a.keys := by
  simp [vstack2, Dict.keys, Function.comp_def]

theorem get?_vstack2 (a b : Table α) (c : String) :
    (vstack2 a b).get? c = (a.get? c).map (fun col => col ++ (b.get? c).getD []) := by
  unfold vstack2
  induction a with
  | nil => rfl
  | cons p a ih =>
    obtain ⟨k, v⟩ := p
    rw [List.map_cons, Dict.get?_cons, Dict.get?_cons]
    by_cases h : k = c
    · subst h; simp
    · rw [if_neg h, if_neg h]; exact ih

/-- The column `c` of the stack of `ts` as a user expects it: the column of each table, or zeros
for a table without it. -/
def stackedCol (ts : List (Table α)) (c : String) : List (Cell α) :=
  ts.flatMap (fun t => match t.get? c with
    | some col => col
    | none => List.replicate t.rows zero)

/-- One step of the stacking loop. -/
theorem vstackStep_spec (t u : Table α) (m n : ℕ) (hm : 0 < m) (hn : 0 < n) (ht : Rect t m)
    (hu : Rect u n)
    (hft : ∀ p ∈ t, p.1 ∈ u.keys ∨ ∀ x ∈ p.2, isFin x)
    (hfu : ∀ p ∈ u, p.1 ∈ t.keys ∨ ∀ x ∈ p.2, isFin x) :
    ∃ r t' u', vstackStep t u = .ok (r, t', u') ∧ Rect r (m + n) ∧ t <+: t' ∧ u <+: u' ∧
      (∀ c, c ∈ r.keys ↔ c ∈ t.keys ∨ c ∈ u.keys) ∧ t.keys <+: r.keys ∧
      (∀ c ∈ r.keys, r.get? c = some (stackedCol [t, u] c)) := by
  have nn : ∀ p ∈ t, p.2 ≠ [] := by
    intro p hp e; have := ht.len p hp; rw [e] at this; simp at this; omega
  have nn' : ∀ p ∈ u, p.2 ≠ [] := by
    intro p hp e; have := hu.len p hp; rw [e] at this; simp at this; omega
  obtain ⟨u', a1, a2, a3, a4⟩ := addMissing_spec t u n hu ht.nodup (by
    intro p hp hq
    refine ⟨nn p hp, ?_⟩
    rcases hft p hp with h | h
    · exact absurd h hq
    · exact h)
  have hu'keys : ∀ c, c ∈ u'.keys ↔ c ∈ u.keys ∨ c ∈ t.keys := by
    intro c
    rw [← Dict.get?_isSome_iff, a4]
    by_cases h : c ∈ u.keys
    · simp [h, (Dict.get?_isSome_iff u c).mpr h]
    · by_cases h2 : c ∈ t.keys <;> simp [h, h2]
  obtain ⟨t', b1, b2, b3, b4⟩ := addMissing_spec u' t m ht a2.nodup (by
    intro p hp hq
    have hg := Dict.get?_of_mem a2.nodup (k := p.1) (v := p.2) hp
    rw [a4] at hg
    have hpu : p.1 ∈ u.keys := by
      rcases (hu'keys p.1).mp (Dict.mem_keys_of_get? (Dict.get?_of_mem a2.nodup hp)) with h | h
      · exact h
      · exact absurd h hq
    rw [if_pos hpu] at hg
    have hmem := Dict.mem_of_get? hg
    refine ⟨nn' _ hmem, ?_⟩
    rcases hfu _ hmem with h | h
    · exact absurd h hq
    · exact h)
  have ht'keys : ∀ c, c ∈ t'.keys ↔ c ∈ t.keys ∨ c ∈ u.keys := by
    intro c
    rw [← Dict.get?_isSome_iff, b4]
    by_cases h : c ∈ t.keys
    · simp [h, (Dict.get?_isSome_iff t c).mpr h]
    · by_cases h2 : c ∈ u.keys <;> simp [h, h2, hu'keys]
  have hcol : ∀ c ∈ (vstack2 t' u').keys, (vstack2 t' u').get? c = some (stackedCol [t, u] c) := by
    intro c hc
    rw [keys_vstack2] at hc
    rw [get?_vstack2, b4, a4]
    have hst : stackedCol [t, u] c = (match t.get? c with
        | some col => col
        | none => List.replicate t.rows zero) ++ (match u.get? c with
        | some col => col
        | none => List.replicate u.rows zero) := by simp [stackedCol]
    rw [hst]
    by_cases h : c ∈ t.keys
    · obtain ⟨v, hv⟩ := Dict.exists_get? h
      by_cases h2 : c ∈ u.keys
      · obtain ⟨w, hw⟩ := Dict.exists_get? h2
        simp [h, h2, hv, hw]
      · have hw := (Dict.get?_eq_none_iff u c).mpr h2
        simp [h, h2, hv, hw, hu.rows]
    · have h2 : c ∈ u.keys := by
        rcases (ht'keys c).mp hc with h' | h'
        · exact absurd h' h
        · exact h'
      obtain ⟨w, hw⟩ := Dict.exists_get? h2
      have hv := (Dict.get?_eq_none_iff t c).mpr h
      have hcu' : c ∈ u'.keys := (hu'keys c).mpr (Or.inl h2)
      simp [h, h2, hv, hw, hcu', ht.rows]
  refine ⟨vstack2 t' u', t', u', ?_, ?_, b3, a3, ?_, ?_, hcol⟩
  · simp only [vstackStep, a1, b1, bind, Except.bind, pure, Except.pure]
  · refine ⟨?_, ?_, ?_⟩
    · intro e
      have := congrArg Dict.keys e
      rw [keys_vstack2] at this
      have : t' = [] := by simpa [Dict.keys] using this
      exact b2.ne this
    · rw [keys_vstack2]; exact b2.nodup
    · intro p hp
      unfold vstack2 at hp
      obtain ⟨q, hq, rfl⟩ := List.mem_map.mp hp
      have hqk : q.1 ∈ t'.keys := List.mem_map.mpr ⟨q, hq, rfl⟩
      have : q.1 ∈ u'.keys := by
        rw [hu'keys]; exact ((ht'keys q.1).mp hqk).symm
      obtain ⟨w, hw⟩ := Dict.exists_get? this
      simp only [List.length_append, hw, Option.getD_some]
      rw [b2.len q hq, a2.get?_len hw]
  · intro c; rw [keys_vstack2, ht'keys]
  · rw [keys_vstack2]
    obtain ⟨z, hz⟩ := b3
    refine ⟨Dict.keys z, ?_⟩
    rw [← hz, Dict.keys_append]

end ExoRad.Table

namespace ExoRad.Table
variable {α : Type} [Field α] [LinearOrder α]

/-- Total number of rows. -/
def totalRows (ts : List (Table α)) : ℕ := (ts.map rows).sum

/-- Columns that not every table has hold finite numbers only (so that zero filling makes sense;
`chName` is in every table). -/
def Fillable (ts : List (Table α)) : Prop :=
  ∀ t ∈ ts, ∀ p ∈ t, (∀ u ∈ ts, p.1 ∈ u.keys) ∨ ∀ x ∈ p.2, isFin x

theorem stackedCol_append (ts us : List (Table α)) (c : String) :
    stackedCol (ts ++ us) c = stackedCol ts c ++ stackedCol us c := by
  simp [stackedCol]

theorem stackedCol_none (ts : List (Table α)) (c : String) (h : ∀ t ∈ ts, c ∉ t.keys) :
    stackedCol ts c = List.replicate (totalRows ts) zero := by
  induction ts with
  | nil => rfl
  | cons t ts ih =>
    have h1 := (Dict.get?_eq_none_iff t c).mpr (h t (by simp))
    have := ih (fun u hu => h u (List.mem_cons_of_mem _ hu))
    have e : stackedCol (t :: ts) c = List.replicate t.rows zero ++ stackedCol ts c := by
      simp [stackedCol, h1]
    rw [e, this, List.replicate_append_replicate]; simp [totalRows]

theorem stackedCol_fin (ts : List (Table α)) (c : String)
    (h : ∀ t ∈ ts, ∀ col, t.get? c = some col → ∀ x ∈ col, isFin x) :
    ∀ x ∈ stackedCol ts c, isFin x := by
  intro x hx
  obtain ⟨t, ht, hx⟩ := List.mem_flatMap.mp hx
  cases hg : t.get? c with
  | some col => rw [hg] at hx; exact h t ht col hg x hx
  | none => rw [hg] at hx; exact ⟨0, List.eq_of_mem_replicate hx⟩

theorem fill_fin {ts : List (Table α)} (hf : Fillable ts) {t u : Table α} (ht : t ∈ ts) (hu : u ∈ ts)
    {c : String} (hc : c ∉ u.keys) {col : List (Cell α)} (hg : t.get? c = some col) :
    ∀ x ∈ col, isFin x := by
  rcases hf t ht _ (Dict.mem_of_get? hg) with h | h
  · exact absurd (h u hu) hc
  · exact h

theorem vstackAcc_spec (rest : List (Table α)) (ds : List (Table α)) (acc : Table α)
    (hrect : ∀ t ∈ ds ++ rest, ∃ n, 0 < n ∧ Rect t n) (hf : Fillable (ds ++ rest))
    (hpos : 0 < totalRows ds) (hacc : Rect acc (totalRows ds))
    (hkeys : ∀ c, c ∈ acc.keys ↔ ∃ t ∈ ds, c ∈ t.keys)
    (hcol : ∀ c ∈ acc.keys, acc.get? c = some (stackedCol ds c)) :
    ∃ r rest', vstackAcc acc rest = .ok (r, rest') ∧ Rect r (totalRows (ds ++ rest)) ∧
      List.Forall₂ (· <+: ·) rest rest' ∧ acc.keys <+: r.keys ∧
      (∀ c, c ∈ r.keys ↔ ∃ t ∈ ds ++ rest, c ∈ t.keys) ∧
      (∀ c ∈ r.keys, r.get? c = some (stackedCol (ds ++ rest) c)) := by
  induction rest generalizing ds acc with
  | nil =>
    refine ⟨acc, [], rfl, by simpa using hacc, .nil, List.prefix_refl _, by simpa using hkeys, by simpa using hcol⟩
  | cons u us ih =>
    obtain ⟨n, hn, hu⟩ := hrect u (by simp)
    have humem : u ∈ ds ++ u :: us := by simp
    obtain ⟨r, t', u', s1, s2, s3, s4, s5, s6, s7⟩ := vstackStep_spec acc u _ n hpos hn hacc hu
      (by
        intro p hp
        by_cases h : p.1 ∈ u.keys
        · exact Or.inl h
        · right
          have hk : p.1 ∈ acc.keys := List.mem_map.mpr ⟨p, hp, rfl⟩
          have e := Dict.get?_of_mem hacc.nodup (k := p.1) (v := p.2) hp
          rw [hcol _ hk] at e
          have e' := Option.some.inj e
          rw [← e']
          apply stackedCol_fin
          intro t ht col hg
          exact fill_fin hf (List.mem_append_left _ ht) humem h hg)
      (by
        intro p hp
        by_cases h : p.1 ∈ acc.keys
        · exact Or.inl h
        · right
          -- some table of ds lacks the column
          have hds : ds ≠ [] := by rintro rfl; simp [totalRows] at hpos
          obtain ⟨t, ht⟩ := List.exists_mem_of_ne_nil ds hds
          have hnot : p.1 ∉ t.keys := fun hc => h ((hkeys _).mpr ⟨t, ht, hc⟩)
          exact fill_fin hf humem (List.mem_append_left _ ht) hnot
            (Dict.get?_of_mem hu.nodup (k := p.1) (v := p.2) hp))
    have e1 : totalRows (ds ++ [u]) = totalRows ds + n := by simp [totalRows, hu.rows]
    have hlist : (ds ++ [u]) ++ us = ds ++ u :: us := by simp
    have hcolr : ∀ c ∈ r.keys, r.get? c = some (stackedCol (ds ++ [u]) c) := by
      intro c hc
      rw [s7 c hc, stackedCol_append]
      congr 1
      have : stackedCol [acc, u] c = stackedCol [acc] c ++ stackedCol [u] c :=
        stackedCol_append [acc] [u] c
      rw [this]
      congr 1
      by_cases h : c ∈ acc.keys
      · simp [stackedCol, hcol c h]
      · rw [stackedCol_none ds c (fun t ht hc' => h ((hkeys c).mpr ⟨t, ht, hc'⟩))]
        simp [stackedCol, (Dict.get?_eq_none_iff acc c).mpr h, hacc.rows]
    obtain ⟨r', rest', g1, g2, g3, g4, g5, g6⟩ := ih (ds ++ [u]) r (by rwa [hlist]) (by rwa [hlist])
      (by rw [e1]; omega) (by rw [e1]; exact s2)
      (by
        intro c; rw [s5, hkeys]
        simp only [List.mem_append, List.mem_singleton]
        constructor
        · rintro (⟨t, ht, hc⟩ | hc)
          · exact ⟨t, Or.inl ht, hc⟩
          · exact ⟨u, Or.inr rfl, hc⟩
        · rintro ⟨t, ht | rfl, hc⟩
          · exact Or.inl ⟨t, ht, hc⟩
          · exact Or.inr hc)
      hcolr
    rw [hlist] at g2 g5 g6
    refine ⟨r', u' :: rest', ?_, g2, .cons s4 g3, s6.trans g4, g5, g6⟩
    simp only [vstackAcc, s1, g1, bind, Except.bind, pure, Except.pure]

/-! ### numeric columns -/

theorem numCol_num (l : List (Num α)) : numCol (l.map Cell.num) = .ok l := by
  induction l with
  | nil => rfl
  | cons x l ih => simp [numCol, ih, bind, Except.bind, pure, Except.pure]

theorem sumCols_spec (t : Table α) (n : ℕ) (f : String → ℕ → α) (ks : List String) (a : ℕ → α)
    (h : ∀ k ∈ ks, t.get? k = some ((List.range n).map (fun i => .num (.fin (f k i))))) :
    sumCols t ks ((List.range n).map (fun i => .fin (a i))) =
      .ok ((List.range n).map (fun i => .fin (a i + (ks.map (fun k => f k i)).sum))) := by
  induction ks generalizing a with
  | nil => simp [sumCols]
  | cons k ks ih =>
    have hk := h k (by simp)
    have hnum : numCol ((List.range n).map (fun i => Cell.num (Num.fin (f k i))))
        = .ok ((List.range n).map (fun i => Num.fin (f k i))) := by
      rw [← numCol_num, List.map_map]; rfl
    have hz : ∀ (l : List ℕ), List.zipWith (· + ·) (l.map (fun i => (Num.fin (a i) : Num α)))
        (l.map (fun i => Num.fin (f k i))) = l.map (fun i => Num.fin (a i + f k i)) := by
      intro l; induction l with
      | nil => rfl
      | cons x l ih => simp [ih]
    unfold sumCols
    simp only [Dict.getE_ok hk, hnum, bind, Except.bind, hz]
    rw [ih _ (fun k' hk' => h k' (List.mem_cons_of_mem _ hk'))]
    simp [add_assoc]

theorem get?_update (old new : Table α) (c : String) :
    (update old new).get? c = if c ∈ new.keys then new.get? c else old.get? c := by
  unfold update
  rw [Dict.get?_append, Dict.keys_removeAll, Dict.get?_removeAll]
  by_cases h : c ∈ new.keys
  · have : ¬ (c ∈ old.keys.filter (fun k => !(old.keys.filter (fun k => new.has k)).contains k)) := by
      simp only [List.mem_filter, List.contains_eq_mem, Bool.not_eq_true', decide_eq_false_iff_not, not_and,
        not_not]
      intro ho hcon; exact hcon ho ((Dict.has_iff new c).mpr h)
    rw [if_neg this, if_pos h]
  · rw [if_neg h]
    have hh : new.has c = false := (Dict.has_eq_false_iff new c).mpr h
    by_cases ho : c ∈ old.keys
    · rw [if_pos, if_neg]
      · simp [List.mem_filter, hh]
      · simp [List.mem_filter, ho, hh]
    · have e1 := (Dict.get?_eq_none_iff old c).mpr ho
      have e2 := (Dict.get?_eq_none_iff new c).mpr h
      rw [e1, e2]; simp

theorem keys_update (old new : Table α) :
    (update old new).keys = old.keys.filter (fun k => !new.has k) ++ new.keys := by
  unfold update
  rw [Dict.keys_append, Dict.keys_removeAll]
  congr 1
  apply List.filter_congr
  intro k hk
  cases h : new.has k <;> simp [h, hk]

end ExoRad.Table
