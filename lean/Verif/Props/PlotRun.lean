import Verif.Props.Plotter
import Verif.Props.Contrib
import Verif.Lemmas.PipelineKeys

/-! # Every observed target can be drawn (C71, C85) -/

set_option linter.unusedSectionVars false

namespace ExoRad

namespace Table
variable {α : Type} [Field α] [LinearOrder α]

/-- What holds of the tables and is kept by adding missing columns and by stacking two tables, holds of the stack, and of the tables afterwards. -/
theorem vstackStep_closed {Q : Table α → Prop} (h1 : ∀ a b a', Q a → Q b → addMissing b a = .ok a' → Q a') (h2 : ∀ a b, Q a → Q b → Q (vstack2 a b))
    {t u r t' u' : Table α} (h : vstackStep t u = .ok (r, t', u')) (ht : Q t) (hu : Q u) : Q r ∧ Q t' ∧ Q u' := by
  obtain ⟨a, b, rfl⟩ := vstackStep_parts h
  have q1 := h1 u t u' hu ht a
  have q2 := h1 t u' t' ht q1 b
  exact ⟨h2 _ _ q2 q1, q2, q1⟩

theorem vstackAcc_closed {Q : Table α → Prop} (h1 : ∀ a b a', Q a → Q b → addMissing b a = .ok a' → Q a') (h2 : ∀ a b, Q a → Q b → Q (vstack2 a b)) :
    ∀ (ts : List (Table α)) (acc r : Table α) (ts' : List (Table α)), vstackAcc acc ts = .ok (r, ts') → Q acc → (∀ t ∈ ts, Q t) →
      Q r ∧ ∀ t ∈ ts', Q t
  | [], acc, r, ts', h, ha, _ => by cases h; exact ⟨ha, by simp⟩
  | t :: ts, acc, r, ts', h, ha, ht => by
    simp only [vstackAcc, bind, Except.bind, pure, Except.pure] at h
    cases e1 : vstackStep acc t with
    | error e => simp [e1] at h
    | ok q =>
      obtain ⟨a, b, d⟩ := q
      simp only [e1] at h
      cases e2 : vstackAcc a ts with
      | error e => simp [e2] at h
      | ok q =>
        obtain ⟨r', us⟩ := q
        simp only [e2, Except.ok.injEq, Prod.mk.injEq] at h
        obtain ⟨rfl, rfl⟩ := h
        obtain ⟨q1, q2, q3⟩ := vstackStep_closed h1 h2 e1 ha (ht t (by simp))
        obtain ⟨q4, q5⟩ := vstackAcc_closed h1 h2 ts a r' us e2 q1 (fun u hu => ht u (by simp [hu]))
        exact ⟨q4, by simpa using ⟨q3, q5⟩⟩

theorem vstackTables_closed {Q : Table α → Prop} (h1 : ∀ a b a', Q a → Q b → addMissing b a = .ok a' → Q a') (h2 : ∀ a b, Q a → Q b → Q (vstack2 a b)) :
    ∀ (ts : List (Table α)) (r : Option (Table α)) (ts' : List (Table α)), vstackTables ts = .ok (r, ts') → (∀ t ∈ ts, Q t) →
      (∀ x, r = some x → Q x) ∧ ∀ t ∈ ts', Q t
  | [], r, ts', h, _ => by cases h; simp
  | [t], r, ts', h, ht => by
    by_cases h0 : t.rows = 0 <;> simp only [vstackTables, h0, if_true, if_false, Except.ok.injEq, Prod.mk.injEq] at h <;>
      obtain ⟨rfl, rfl⟩ := h <;> simpa using ht
  | t :: u :: us, r, ts', h, ht => by
    by_cases h0 : t.rows = 0
    · rw [vstackTables] at h
      simp only [h0, if_true, bind, Except.bind, pure, Except.pure] at h
      cases e1 : vstackTables (u :: us) with
      | error e => simp [e1] at h
      | ok q =>
        obtain ⟨r1, us'⟩ := q
        simp only [e1, Except.ok.injEq, Prod.mk.injEq] at h
        obtain ⟨rfl, rfl⟩ := h
        obtain ⟨q1, q2⟩ := vstackTables_closed h1 h2 (u :: us) r1 us' e1 (fun z hz => ht z (List.mem_cons_of_mem _ hz))
        exact ⟨q1, by simpa using ⟨ht t (by simp), q2⟩⟩
    · obtain ⟨a, t', u', r', us', e1, e2, he, rfl⟩ := vstackTables_two h0 h
      obtain ⟨q1, q2, q3⟩ := vstackStep_closed h1 h2 e1 (ht t (by simp)) (ht u (by simp))
      obtain ⟨q4, q5⟩ := vstackAcc_closed h1 h2 us a r' us' e2 q1 (fun z hz => ht z (by simp [hz]))
      subst he
      refine ⟨fun x hx => by cases hx; exact q4, ?_⟩
      intro z hz
      rcases List.mem_cons.mp hz with rfl | hz
      · exact q2
      · rcases List.mem_cons.mp hz with rfl | hz
        · exact q3
        · exact q5 z hz

end Table

namespace Pipeline
open Table Plotter

/-! ## Specification -/

/-- Only the names of the channels are text. -/
def Numeric (t : Table ℝ) : Prop := ∀ k c, t.get? k = some c → k ≠ "chName" → ∀ x ∈ c, ∃ v, x = Cell.num v

/-- The columns that place a row: the name of its channel, its wavelength and the ends of its bin, as many of each, and at least one. -/
def Framed (t : Table ℝ) : Prop :=
  "Wavelength" ∈ t.keys ∧ ∃ (ch : List (Cell ℝ)) (l r : List ℝ), ch ≠ [] ∧ l.length = ch.length ∧ r.length = ch.length ∧
    t.get? "chName" = some ch ∧ t.get? "LeftBinEdge" = some (col l) ∧ t.get? "RightBinEdge" = some (col r)

/-- The four columns of `Framed`. -/
def frame : List String := ["chName", "Wavelength", "LeftBinEdge", "RightBinEdge"]

/-! ## Stacking -/

theorem addMissing_cells : ∀ (other tab tab' : Table ℝ), addMissing other tab = .ok tab' → ∀ k c, tab'.get? k = some c →
    tab.get? k = some c ∨ (k ∉ tab.keys ∧ ∀ x ∈ c, ∃ v, x = Cell.num v)
  | [], tab, tab', h, k, c, hk => by cases h; exact .inl hk
  | (a, cl) :: rest, tab, tab', h, k, c, hk => by
    by_cases ha : a ∈ tab.keys
    · rw [addMissing_in a cl rest tab ha] at h
      exact addMissing_cells rest tab tab' h k c hk
    · cases cl with
      | nil => rw [addMissing_out_nil a rest tab ha] at h; cases h
      | cons x xs =>
        rw [addMissing_out a x xs rest tab ha] at h
        cases x with
        | str s => simp [zerosTimes] at h
        | num v =>
          simp only [zerosTimes] at h
          rcases addMissing_cells rest _ tab' h k c hk with e | ⟨e1, e2⟩
          · rw [Dict.get?_append] at e
            by_cases hin : k ∈ tab.keys
            · rw [if_pos hin] at e; exact .inl e
            · rw [if_neg hin] at e
              right
              refine ⟨hin, ?_⟩
              rw [Dict.get?_cons] at e
              split at e
              · cases e
                intro x hx
                exact ⟨_, (List.mem_replicate.mp hx).2⟩
              · cases e
          · right
            refine ⟨fun hin => e1 ?_, e2⟩
            rw [Dict.keys_append]
            exact List.mem_append_left _ hin

theorem addMissing_get {other tab tab' : Table ℝ} (h : addMissing other tab = .ok tab') {k : String} {c : List (Cell ℝ)} (hk : tab.get? k = some c) :
    tab'.get? k = some c := by
  obtain ⟨z, rfl⟩ := (addMissing_grows _ _ _ h).1
  have : k ∈ tab.keys := Dict.mem_keys_of_get? hk
  rw [Dict.get?_append, if_pos this, hk]

theorem numeric_add {a b a' : Table ℝ} (ha : Numeric a) (h : addMissing b a = .ok a') : Numeric a' := by
  intro k c hk hn
  rcases addMissing_cells b a a' h k c hk with e | ⟨_, e⟩
  · exact ha k c e hn
  · exact e

theorem numeric_stack {a b : Table ℝ} (ha : Numeric a) (hb : Numeric b) : Numeric (vstack2 a b) := by
  intro k c hk hn
  rw [get?_vstack2] at hk
  cases h1 : a.get? k with
  | none => simp [h1] at hk
  | some c1 =>
    simp only [h1, Option.map_some, Option.some.injEq] at hk
    subst hk
    intro x hx
    rcases List.mem_append.mp hx with hx | hx
    · exact ha k c1 h1 hn x hx
    · cases h2 : b.get? k with
      | none => simp [h2] at hx
      | some c2 =>
        simp only [h2, Option.getD_some] at hx
        exact hb k c2 h2 hn x hx

theorem framed_add {a b a' : Table ℝ} (ha : Framed a) (h : addMissing b a = .ok a') : Framed a' := by
  obtain ⟨hw, ch, l, r, h1, h2, h3, h4, h5, h6⟩ := ha
  exact ⟨mem_keys_prefix (addMissing_grows _ _ _ h).1 hw, ch, l, r, h1, h2, h3, addMissing_get h h4, addMissing_get h h5, addMissing_get h h6⟩

theorem framed_stack {a b : Table ℝ} (ha : Framed a) (hb : Framed b) : Framed (vstack2 a b) := by
  obtain ⟨hw, ch, l, r, h1, h2, h3, h4, h5, h6⟩ := ha
  obtain ⟨hw', ch', l', r', h1', h2', h3', h4', h5', h6'⟩ := hb
  refine ⟨by rw [keys_vstack2]; exact hw, ch ++ ch', l ++ l', r ++ r', by simp [h1], by simp [h2, h2'], by simp [h3, h3'], ?_, ?_, ?_⟩
  · rw [get?_vstack2, h4, h4']; rfl
  · rw [get?_vstack2, h5, h5']; simp [col]
  · rw [get?_vstack2, h6, h6']; simp [col]

/-- A table with the columns of `Framed`, and numbers in all but one. -/
def Placed (t : Table ℝ) : Prop := Numeric t ∧ Framed t

theorem placed_stack {ts ts' : List (Table ℝ)} {r : Option (Table ℝ)} (h : vstackTables ts = .ok (r, ts')) (ht : ∀ t ∈ ts, Placed t) :
    (∀ x, r = some x → Placed x) ∧ ∀ t ∈ ts', Placed t :=
  vstackTables_closed (fun _ _ _ ha _ e => ⟨numeric_add ha.1 e, framed_add ha.2 e⟩) (fun _ _ ha hb => ⟨numeric_stack ha.1 hb.1, framed_stack ha.2 hb.2⟩) ts r ts' h ht

theorem numeric_stacked {ts ts' : List (Table ℝ)} {r : Option (Table ℝ)} (h : vstackTables ts = .ok (r, ts')) (ht : ∀ t ∈ ts, Numeric t) :
    ∀ x, r = some x → Numeric x :=
  (vstackTables_closed (fun _ _ _ ha _ e => numeric_add ha e) (fun _ _ ha hb => numeric_stack ha hb) ts r ts' h ht).1

/-! ## Updating -/

theorem placed_update {old new : Table ℝ} (ho : Placed old) (hn : Numeric new) (hf : ∀ k ∈ frame, k ∉ new.keys) : Placed (update old new) := by
  refine ⟨?_, ?_⟩
  · intro k c hk hne
    rw [get?_update] at hk
    split at hk
    · exact hn k c hk hne
    · exact ho.1 k c hk hne
  · obtain ⟨hw, ch, l, r, h1, h2, h3, h4, h5, h6⟩ := ho.2
    refine ⟨(mem_keys_update _ _ _).mpr (.inl hw), ch, l, r, h1, h2, h3, ?_, ?_, ?_⟩
    · rw [get?_update, if_neg (hf _ (by simp [frame]))]; exact h4
    · rw [get?_update, if_neg (hf _ (by simp [frame]))]; exact h5
    · rw [get?_update, if_neg (hf _ (by simp [frame]))]; exact h6

theorem placed_remove {t : Table ℝ} (h : Placed t) {ks : List String} (hk : ∀ k ∈ frame, k ∉ ks) : Placed (t.removeAll ks) := by
  have hget : ∀ k c, (t.removeAll ks).get? k = some c → t.get? k = some c := by
    intro k c hc
    rw [Dict.get?_removeAll] at hc
    split at hc
    · cases hc
    · exact hc
  refine ⟨fun k c hc hne => h.1 k c (hget k c hc) hne, ?_⟩
  obtain ⟨hw, ch, l, r, h1, h2, h3, h4, h5, h6⟩ := h.2
  have hg : ∀ k ∈ frame, (t.removeAll ks).get? k = t.get? k := by
    intro k hf
    rw [Dict.get?_removeAll, if_neg (by simpa using hk k hf)]
  refine ⟨?_, ch, l, r, h1, h2, h3, by rw [hg _ (by simp [frame])]; exact h4, by rw [hg _ (by simp [frame])]; exact h5, by rw [hg _ (by simp [frame])]; exact h6⟩
  obtain ⟨v, hv⟩ := Dict.exists_get? hw
  exact Dict.mem_keys_of_get? (by rw [hg _ (by simp [frame])]; exact hv)

theorem placed_set {t : Table ℝ} (h : Placed t) {k : String} (hk : k ∉ frame) (v : List (Num ℝ)) : Placed (t.set k (v.map Cell.num)) := by
  refine ⟨?_, ?_⟩
  · intro q c hq hne
    rw [Dict.get?_set] at hq
    split at hq
    · cases hq
      intro x hx
      obtain ⟨y, _, rfl⟩ := List.mem_map.mp hx
      exact ⟨y, rfl⟩
    · exact h.1 q c hq hne
  · obtain ⟨hw, ch, l, r, h1, h2, h3, h4, h5, h6⟩ := h.2
    have hg : ∀ q ∈ frame, (t.set k (v.map Cell.num)).get? q = t.get? q := by
      intro q hq
      exact Dict.get?_set_ne _ _ (fun e => hk (e ▸ hq))
    refine ⟨?_, ch, l, r, h1, h2, h3, by rw [hg _ (by simp [frame])]; exact h4, by rw [hg _ (by simp [frame])]; exact h5, by rw [hg _ (by simp [frame])]; exact h6⟩
    obtain ⟨v', hv⟩ := Dict.exists_get? hw
    exact Dict.mem_keys_of_get? (by rw [hg _ (by simp [frame])]; exact hv)

/-! ## New tables -/

theorem col_num (l : List ℝ) : ∀ x ∈ col l, ∃ v, x = Cell.num v := by
  intro x hx
  obtain ⟨y, _, rfl⟩ := List.mem_map.mp hx
  exact ⟨_, rfl⟩

theorem numeric_of_mem {t : Table ℝ} (h : ∀ q ∈ t, ∀ x ∈ q.2, ∃ v, x = Cell.num v) : Numeric t :=
  fun k c hk _ => h (k, c) (Dict.mem_of_get? hk)

theorem fg_not_frame {c : String} (h : ∃ k, c = k ++ "_signal" ∨ c = k ++ "_MaxSignal_inPixel") : c ∉ frame := by
  intro hc
  simp only [frame, List.mem_cons, List.not_mem_nil, or_false] at hc
  obtain ⟨k, h | h⟩ := h <;> subst h <;> rcases hc with e | e | e | e <;>
    · have := congrArg (fun s : String => s.toList.reverse) e
      simp [String.toList_append] at this

theorem channelForeground_numeric {sky : Foreground.Sky ℝ} {ch : Channel} {n : Table ℝ} (h : channelForeground sky ch = .ok n) :
    Numeric n ∧ ∀ k ∈ frame, k ∉ n.keys := by
  refine ⟨?_, fun k hk hn => fg_not_frame (channelForeground_shape h k hn) hk⟩
  unfold channelForeground at h
  split at h
  · cases h
  · cases h
    apply numeric_of_mem
    intro q hq
    obtain ⟨y, _, rfl⟩ := List.mem_map.mp hq
    exact col_num _

theorem stack_frame {ts ts' : List (Table ℝ)} {r : Table ℝ} (h : vstackTables ts = .ok (some r, ts')) (hf : ∀ t ∈ ts, ∀ k ∈ frame, k ∉ t.keys) :
    ∀ k ∈ frame, k ∉ r.keys := by
  intro k hk hr
  obtain ⟨t, ht, hkt⟩ := (vstackTables_keys ts r ts' h k).1 hr
  exact hf t ht k hk hkt

/-! ## The steps -/

/-- The state of an observation: channel tables and, once it is there, the target's table are placed. -/
def Sound (s : St) : Prop := (∀ t ∈ s.tabs, Placed t) ∧ ∀ r, s.target.table = some r → Placed r

theorem prepare_sound {s : St} (h : Sound s) : Sound (prepareTarget s).1 := by
  unfold prepareTarget
  cases e : vstackTables s.tabs with
  | error x => exact h
  | ok q =>
    obtain ⟨r, tabs⟩ := q
    obtain ⟨a, b⟩ := placed_stack e h.1
    cases r with
    | none => exact ⟨b, h.2⟩
    | some r => exact ⟨b, fun x hx => a x (by simpa using hx)⟩

theorem estimate_sound {w : World} {sec : Foreground.Section ℝ} {s : St} (h : Sound s) : Sound (estimateForegrounds w sec s).1 := by
  unfold estimateForegrounds
  exact h

theorem loadSource_sound {w : World} {p : Payload} {s : St} (h : Sound s) : Sound (loadSource w p s).1 := by
  unfold loadSource
  split
  · exact h
  · split
    · exact h
    · exact h

theorem removeShared_sound {tabs : List (Table ℝ)} {n : Table ℝ} (h : ∀ t ∈ tabs, Placed t) (hf : ∀ k ∈ frame, k ∉ n.keys) :
    ∀ t ∈ removeShared tabs n, Placed t := by
  unfold removeShared
  split
  · split
    · exact h
    · rename_i t ht
      intro u hu
      rcases List.mem_append.mp hu with hu | hu
      · exact h u (List.dropLast_subset _ hu)
      · rw [List.mem_singleton] at hu
        subst hu
        refine placed_remove (h t (List.mem_of_getLast? ht)) ?_
        intro k hk hm
        rw [List.mem_filter, Dict.has_iff] at hm
        exact hf k hk hm.2
  · exact h

theorem updateWith_sound {t t' : Target} {new : Option (Table ℝ)} {n : Table ℝ} (h : updateWith t new = .ok (t', n))
    (ht : ∀ r, t.table = some r → Placed r) (hn : ∀ x, new = some x → Numeric x ∧ ∀ k ∈ frame, k ∉ x.keys) :
    (∀ r, t'.table = some r → Placed r) ∧ new = some n ∧ ∃ old, t.table = some old ∧ t'.table = some (update old n) := by
  unfold updateWith at h
  split at h
  · rename_i old m e1
    cases h
    obtain ⟨a, b⟩ := hn _ rfl
    exact ⟨fun r hr => by cases hr; exact placed_update (ht _ e1) a b, rfl, _, e1, rfl⟩
  · cases h

theorem propagateForeground_sound {chs : List Channel} {s : St} (h : Sound s) : Sound (propagateForeground chs s).1 := by
  unfold propagateForeground
  cases e1 : Source.mapE (channelForeground s.target.sky) chs with
  | error x => exact h
  | ok ts =>
    simp only
    cases e2 : vstackTables ts with
    | error x => exact h
    | ok q =>
      obtain ⟨new, us⟩ := q
      simp only
      cases e3 : updateWith s.target new with
      | error x => exact h
      | ok q =>
        obtain ⟨t, n⟩ := q
        have hts : ∀ z ∈ ts, Numeric z ∧ ∀ k ∈ frame, k ∉ z.keys := by
          intro z hz
          obtain ⟨c, _, hc⟩ := (mapE_mem e1).2 z hz
          exact channelForeground_numeric hc
        have hnew : ∀ x, new = some x → Numeric x ∧ ∀ k ∈ frame, k ∉ x.keys := by
          intro x hx
          exact ⟨numeric_stacked e2 (fun z hz => (hts z hz).1) x hx, stack_frame (hx ▸ e2) (fun z hz => (hts z hz).2)⟩
        obtain ⟨a, b, _⟩ := updateWith_sound e3 h.2 hnew
        exact ⟨removeShared_sound h.1 (hnew n b).2, a⟩

theorem colN_eq (l : List (Option ℝ)) : ∃ v : List (Num ℝ), colN l = v.map Cell.num :=
  ⟨l.map (fun v => match v with | some v => .fin v | none => .nan), by
    unfold colN
    rw [List.map_map]
    apply List.map_congr_left
    intro x _
    cases x <;> rfl⟩

theorem markSky_placed (ch : Instrument.Chan ℝ) (wl : List ℝ) (sky : Option (Rebin.Signal ℝ)) {tab : Table ℝ} (h : Placed tab) :
    Placed (markSky ch wl sky tab) := by
  rcases markSky_cases ch wl sky tab with e | ⟨s, c, s', _, _, e⟩
  · rw [e]; exact h
  · rw [e]
    obtain ⟨v, hv⟩ := colN_eq c
    rw [hv]
    exact placed_set h (by decide) v

theorem targetTable_numeric {fg : Option (List (Cell ℝ))} (hfg : ∀ c, fg = some c → ∀ x ∈ c, ∃ v, x = Cell.num v) (o : Instrument.TargetOut ℝ) :
    Numeric (targetTable fg o) ∧ (∀ k ∈ frame, k ∉ (targetTable fg o).keys) ∧ "star_signal_inAperture" ∈ (targetTable fg o).keys := by
  refine ⟨?_, ?_, ?_⟩
  · apply numeric_of_mem
    intro q hq
    cases fg with
    | none =>
      simp only [targetTable, List.nil_append, List.mem_cons, List.not_mem_nil, or_false] at hq
      rcases hq with rfl | rfl | rfl | rfl <;> exact col_num _
    | some c =>
      simp only [targetTable, List.cons_append, List.nil_append, List.mem_cons, List.not_mem_nil, or_false] at hq
      rcases hq with rfl | rfl | rfl | rfl | rfl
      · exact hfg _ rfl
      all_goals exact col_num _
  · intro k hk
    simp only [frame, List.mem_cons, List.not_mem_nil, or_false] at hk
    cases fg <;> rcases hk with rfl | rfl | rfl | rfl <;> simp [targetTable, Dict.keys]
  · cases fg <;> simp [targetTable, Dict.keys]

theorem propagateIn_sound (ch : Channel) (sed : Rebin.Signal ℝ) (sky : Option (Rebin.Signal ℝ)) {tab : Table ℝ} (h : Placed tab) :
    Placed (propagateIn ch sed sky tab).1 ∧ ∀ t, (propagateIn ch sed sky tab).2 = .ok t → Numeric t ∧ (∀ k ∈ frame, k ∉ t.keys) ∧ "star_signal_inAperture" ∈ t.keys := by
  have hm := markSky_placed ch.inst sed.wl sky h
  refine ⟨by rw [propagateIn_fst]; exact hm, ?_⟩
  intro t ht
  unfold propagateIn at ht
  simp only at ht
  split at ht
  · cases ht
  · cases ht
    exact targetTable_numeric (fun c hc => hm.1 _ c hc (by decide)) _

theorem propagateAll_sound (sed : Rebin.Signal ℝ) (sky : Option (Rebin.Signal ℝ)) : ∀ (chs : List Channel) (tabs : List (Table ℝ)),
    (∀ t ∈ tabs, Placed t) → (∀ t ∈ (propagateAll sed sky chs tabs).1, Placed t) ∧
      ∀ ts, (propagateAll sed sky chs tabs).2 = .ok ts → ∀ t ∈ ts, Numeric t ∧ (∀ k ∈ frame, k ∉ t.keys) ∧ "star_signal_inAperture" ∈ t.keys
  | [], tabs, h => by
    unfold propagateAll
    exact ⟨h, fun ts hts => by cases hts; simp⟩
  | ch :: chs, [], h => by
    unfold propagateAll
    exact ⟨h, fun ts hts => by cases hts; simp⟩
  | ch :: chs, tab :: tabs, h => by
    have hi := propagateIn_sound ch sed sky (h tab (by simp))
    have ih := propagateAll_sound sed sky chs tabs (fun t ht => h t (by simp [ht]))
    unfold propagateAll
    revert hi
    generalize propagateIn ch sed sky tab = q
    obtain ⟨tab', q⟩ := q
    intro hi
    cases q with
    | error e =>
      simp only
      refine ⟨?_, fun ts hts => by cases hts⟩
      intro t ht
      rcases List.mem_cons.mp ht with rfl | ht
      · exact hi.1
      · exact h t (by simp [ht])
    | ok t0 =>
      simp only
      revert ih
      generalize propagateAll sed sky chs tabs = q
      obtain ⟨tabs', q⟩ := q
      intro ih
      have h1 : ∀ t ∈ tab' :: tabs', Placed t := by
        intro t ht
        rcases List.mem_cons.mp ht with rfl | ht
        · exact hi.1
        · exact ih.1 t ht
      cases q with
      | error e => exact ⟨h1, fun ts hts => by cases hts⟩
      | ok us =>
        refine ⟨h1, fun ts hts => ?_⟩
        cases hts
        intro t ht
        rcases List.mem_cons.mp ht with rfl | ht
        · exact hi.2 _ rfl
        · exact ih.2 us rfl t ht

/-- After the light of the target the table has the star. -/
theorem propagateTarget_sound {chs : List Channel} {s : St} (h : Sound s) : Sound (propagateTarget chs s).1 ∧
    ((propagateTarget chs s).2 = .ok () → ∃ r, (propagateTarget chs s).1.target.table = some r ∧ "star_signal_inAperture" ∈ r.keys) := by
  unfold propagateTarget
  cases hb : s.target.built with
  | none => exact ⟨h, fun e => by cases e⟩
  | some b =>
    have ha := propagateAll_sound b.sed s.target.sky.transmission chs s.tabs h.1
    simp only
    revert ha
    generalize propagateAll b.sed s.target.sky.transmission chs s.tabs = q
    obtain ⟨tabs, q⟩ := q
    intro ha
    cases q with
    | error e => exact ⟨⟨ha.1, h.2⟩, fun e => by cases e⟩
    | ok ts =>
      simp only
      have hts := ha.2 ts rfl
      cases e2 : vstackTables ts with
      | error x => exact ⟨⟨ha.1, h.2⟩, fun e => by cases e⟩
      | ok q =>
        obtain ⟨new, us⟩ := q
        simp only
        cases e3 : updateWith s.target new with
        | error x => exact ⟨⟨ha.1, h.2⟩, fun e => by cases e⟩
        | ok q =>
          obtain ⟨t, n⟩ := q
          have hnew : ∀ x, new = some x → Numeric x ∧ ∀ k ∈ frame, k ∉ x.keys := by
            intro x hx
            exact ⟨numeric_stacked e2 (fun z hz => (hts z hz).1) x hx, stack_frame (hx ▸ e2) (fun z hz => (hts z hz).2.1)⟩
          obtain ⟨a, b, old, _, d⟩ := updateWith_sound e3 h.2 hnew
          refine ⟨⟨ha.1, a⟩, fun _ => ⟨_, d, ?_⟩⟩
          rw [mem_keys_update]
          right
          exact (vstackTables_keys ts n us (by rw [e2, b]) _).2 (fun z hz => (hts z hz).2.2)

theorem noise_tables_numeric (t : Table ℝ) : ∀ (chs : List (NoiseChannel × Option CustomNoise)) (ts : List (Table ℝ)), noiseTables t chs = .ok ts →
    ∀ u ∈ ts, Numeric u
  | [], ts, h => by
    simp only [noiseTables, Except.ok.injEq] at h
    cases h; simp
  | (ch, cm) :: cs, ts, h => by
    simp only [noiseTables, bind, Except.bind, pure, Except.pure] at h
    cases h1 : estimateNoiseInChannel t ch cm with
    | error e => simp [h1] at h
    | ok o =>
      simp only [h1] at h
      cases h2 : noiseTables t cs with
      | error e => simp [h2] at h
      | ok us =>
        simp only [h2, Except.ok.injEq] at h
        subst h
        intro u hu
        rcases List.mem_cons.mp hu with rfl | hu
        · intro k c hk _ x hx
          rw [toTable_get?] at hk
          cases h3 : o.get? k with
          | none => simp [h3] at hk
          | some y =>
            simp only [h3, Option.map_some, Option.some.injEq] at hk
            subst hk
            obtain ⟨z, _, rfl⟩ := List.mem_map.mp hx
            exact ⟨z, rfl⟩
        · exact noise_tables_numeric t cs us h2 u hu

theorem estimateNoise_placed {t r : Table ℝ} {chs : List (NoiseChannel × Option CustomNoise)} (h : estimateNoise t chs = .ok r) (ht : Placed t) : Placed r := by
  unfold estimateNoise Table.estimateMaxSignal at h
  simp only [bind, Except.bind, pure, Except.pure] at h
  split at h
  · cases h
  rename_i t1 ht1
  split at ht1
  · cases ht1
  split at ht1
  · cases ht1
  cases ht1
  split at h
  · cases h
  rename_i ts hts
  split at h
  · cases h
  rename_i q hq
  obtain ⟨r1, us⟩ := q
  simp only at h
  split at h
  · cases h
  rename_i r2
  cases h
  refine placed_update (placed_update ht ?_ ?_) ?_ ?_
  · apply numeric_of_mem
    intro q hq
    simp only [List.mem_singleton] at hq
    subst hq
    intro x hx
    obtain ⟨z, _, rfl⟩ := List.mem_map.mp hx
    exact ⟨z, rfl⟩
  · intro k hk
    simp only [frame, List.mem_cons, List.not_mem_nil, or_false] at hk
    rcases hk with rfl | rfl | rfl | rfl <;> simp [Dict.keys]
  · exact numeric_stacked hq (noise_tables_numeric _ _ _ hts) _ rfl
  · refine stack_frame hq ?_
    intro u hu k hk hku
    have hn := noiseTables_names _ _ _ hts u hu k hku
    simp only [frame, List.mem_cons, List.not_mem_nil, or_false] at hk
    revert hn
    unfold NoiseName
    rcases hk with rfl | rfl | rfl | rfl <;> decide

theorem noiseStep_sound {chs : List Channel} {s : St} (h : Sound s) : Sound (noiseStep chs s).1 := by
  unfold noiseStep
  cases e : s.target.table with
  | none => exact h
  | some t =>
    simp only
    cases e2 : estimateNoise t (chs.map (fun c => (c.noise, c.common))) with
    | error x => exact h
    | ok r => exact ⟨h.1, fun x hx => by cases hx; exact estimateNoise_placed e2 (h.2 t e)⟩

theorem step_sound (w : World) (p : Payload) : ∀ f ∈ steps w p, ∀ s, Sound s → Sound (f s).1 := by
  intro f hf s h
  unfold steps at hf
  simp only [List.mem_append, List.mem_cons, List.not_mem_nil, or_false] at hf
  rcases hf with (rfl | hf) | rfl | rfl | rfl | rfl
  · exact prepare_sound h
  · split at hf
    · simp only [List.mem_singleton] at hf
      subst hf
      exact estimate_sound h
    · cases hf
  · exact propagateForeground_sound h
  · exact loadSource_sound h
  · exact (propagateTarget_sound h).1
  · exact noiseStep_sound h

theorem runSteps_sound : ∀ (fs : List Step), (∀ f ∈ fs, ∀ s, Sound s → Sound (f s).1) → ∀ s, Sound s → Sound (runSteps fs s).1
  | [], _, s, h => h
  | f :: fs, hf, s, h => by
    have h1 := hf f (by simp) s h
    unfold runSteps
    revert h1
    generalize f s = q
    obtain ⟨s', r⟩ := q
    intro h1
    cases r with
    | error e => exact h1
    | ok u => exact runSteps_sound fs (fun g hg => hf g (by simp [hg])) s' h1

/-! ## C71, C85 -/

theorem framed_bins {t : Table ℝ} (h : Framed t) : ∃ n, 0 < n ∧ ∃ ch left right, Bins t n ch left right := by
  obtain ⟨_, ch, l, r, h1, h2, h3, h4, h5, h6⟩ := h
  have hc : ∀ {β : Type} (l : List β) (d : β), (List.range l.length).map (fun i => l.getD i d) = l := by
    intro β l d
    apply List.ext_getElem (by simp)
    intro i h1 h2
    simp [List.getD, h2]
  refine ⟨ch.length, List.length_pos_iff.mpr h1, fun i => ch.getD i (.num .nan), fun i => l.getD i 0, fun i => r.getD i 0, ?_, ?_, ?_⟩
  · rw [h4, hc]
  · rw [h5, ← h2]
    conv_lhs => rw [← hc l 0]
    simp [col]
  · rw [h6, ← h3]
    conv_lhs => rw [← hc r 0]
    simp [col]

/-- A placed table with the star can be drawn. -/
theorem placed_drawable (order : List (Cell ℝ) → List (Cell ℝ)) (ho : Enumerates order) (ce : Bool) {r : Table ℝ} (h : Placed r)
    (hs : "star_signal_inAperture" ∈ r.keys) (name : String) (sq : String → Bool) : ∃ f, plotTable order ce ⟨some name, r, sq⟩ = .ok f ∧ f.title = name := by
  obtain ⟨n, hn, ch, left, right, hb⟩ := framed_bins h.2
  have hnum : ∀ k ∈ r.keys, k ≠ "chName" → ∃ v : List (Num ℝ), r.get? k = some (v.map Cell.num) := by
    intro k hk hne
    obtain ⟨c, hc⟩ := Dict.exists_get? hk
    have := h.1 k c hc hne
    have : ∃ v : List (Num ℝ), c = v.map Cell.num := by
      clear hc
      induction c with
      | nil => exact ⟨[], rfl⟩
      | cons x c ih =>
        obtain ⟨v, hv⟩ := ih (fun y hy => this y (by simp [hy]))
        obtain ⟨y, hy⟩ := this x (by simp)
        exact ⟨y :: v, by rw [hy, hv]; rfl⟩
    obtain ⟨v, rfl⟩ := this
    exact ⟨v, hc⟩
  obtain ⟨f, h1, h2, _⟩ := can_be_drawn order ho ce ⟨some name, r, sq⟩ name rfl n hn ch left right hb h.2.1 (hnum _ hs (by decide)) (by
    intro k hk hh
    refine hnum k hk ?_
    rintro rfl
    rcases hh with hh | hh
    · rw [← has_iff] at hh; exact absurd hh (by decide)
    · rw [← has_iff] at hh; exact absurd hh (by decide))
  exact ⟨f, h1, h2⟩

theorem observe_sound (w : World) (p : Payload) (tabs : List (Table ℝ)) (t : Target) (ht : ∀ r, t.table = some r → Placed r) (hp : ∀ x ∈ tabs, Placed x) :
    (∀ x ∈ (observe w p tabs t).1, Placed x) ∧
    ∀ t', (observe w p tabs t).2 = .ok t' → ∃ r, t'.table = some r ∧ Placed r ∧ "star_signal_inAperture" ∈ r.keys := by
  have h0 : Sound ⟨tabs, t⟩ := ⟨hp, ht⟩
  have h1 := runSteps_sound (steps w p) (step_sound w p) ⟨tabs, t⟩ h0
  have hfst : (observe w p tabs t).1 = (runSteps (steps w p) ⟨tabs, t⟩).1.tabs := by
    unfold observe
    generalize runSteps (steps w p) ⟨tabs, t⟩ = q
    obtain ⟨s, r⟩ := q
    cases r <;> rfl
  refine ⟨by rw [hfst]; exact h1.1, ?_⟩
  intro t' ht'
  obtain ⟨s', hrun, htt⟩ : ∃ s', runSteps (steps w p) ⟨tabs, t⟩ = (s', .ok ()) ∧ s'.target = t' := by
    unfold observe at ht'
    generalize runSteps (steps w p) ⟨tabs, t⟩ = q at ht'
    obtain ⟨s, r⟩ := q
    cases r with
    | error e => cases ht'
    | ok u => cases ht'; exact ⟨s, rfl, rfl⟩
  obtain ⟨pre, hpre⟩ : ∃ pre, steps w p = pre ++ [propagateTarget p.channels, noiseStep p.channels] := by
    unfold steps
    cases p.foreground with
    | none => exact ⟨[prepareTarget, propagateForeground p.channels, loadSource w p], rfl⟩
    | some sec => exact ⟨[prepareTarget, estimateForegrounds w sec, propagateForeground p.channels, loadSource w p], rfl⟩
  have hsplit : ∀ (pre : List Step) (s s' : St), (∀ f ∈ pre, ∀ s, Sound s → Sound (f s).1) → Sound s →
      runSteps (pre ++ [propagateTarget p.channels, noiseStep p.channels]) s = (s', .ok ()) → ∃ r, s'.target.table = some r ∧ "star_signal_inAperture" ∈ r.keys := by
    intro pre
    induction pre with
    | nil =>
      intro s s' _ hs h
      simp only [List.nil_append, runSteps] at h
      obtain ⟨a, b⟩ := propagateTarget_sound (chs := p.channels) hs
      revert a b h
      generalize propagateTarget p.channels s = q
      obtain ⟨s1, q⟩ := q
      intro h a b
      cases q with
      | error e => simp at h
      | ok u =>
        simp only at h
        obtain ⟨r, hr, hk⟩ := b rfl
        simp only at hr
        unfold noiseStep at h
        rw [hr] at h
        simp only at h
        cases e2 : estimateNoise r (p.channels.map (fun c => (c.noise, c.common))) with
        | error x => simp [e2] at h
        | ok r' =>
          simp only [e2] at h
          cases h
          exact ⟨r', rfl, (estimateNoise_keys _ _ _ e2).1 _ hk⟩
    | cons f pre ih =>
      intro s s' hf hs h
      simp only [List.cons_append, runSteps] at h
      have h1 := hf f (by simp) s hs
      revert h h1
      generalize f s = q
      obtain ⟨s1, q⟩ := q
      intro h h1
      cases q with
      | error e => simp at h
      | ok u => exact ih s1 s' (fun g hg => hf g (by simp [hg])) h1 h
  rw [hpre] at hrun
  obtain ⟨r, hr, hk⟩ := hsplit pre _ _ (fun f hf => step_sound w p f (by rw [hpre]; exact List.mem_append_left _ hf)) h0 hrun
  rw [← hpre] at hrun
  rw [hrun] at h1
  rw [htt] at hr
  exact ⟨r, hr, h1.2 r (by rw [htt]; exact hr), hk⟩

/-- C85: every target that can be observed can be drawn, with channels whose tables have the columns of bins and otherwise numbers. -/
theorem observed_can_be_drawn (order : List (Cell ℝ) → List (Cell ℝ)) (ho : Enumerates order) (w : World) (p : Payload) (tabs : List (Table ℝ))
    (hp : ∀ x ∈ tabs, Placed x) (t t' : Target) (ht : t.table = none) (tabs' : List (Table ℝ)) (h : observe w p tabs t = (tabs', .ok t')) (sq : String → Bool) :
    ∃ r, t'.table = some r ∧ ∃ f, plotTable order true ⟨some t'.name, r, sq⟩ = .ok f ∧ f.title = t'.name := by
  obtain ⟨_, h2⟩ := observe_sound w p tabs t (by rw [ht]; simp) hp
  rw [h] at h2
  obtain ⟨r, h3, h4, h5⟩ := h2 t' rfl
  exact ⟨r, h3, placed_drawable order ho true h4 h5 _ _⟩

/-- The plotter of the run is that of `Model/Plotter`: it raises only where that does. -/
def DrawsAs (order : List (Cell ℝ) → List (Cell ℝ)) (o : RunOpts) : Prop :=
  ∃ sq : String → Bool, ∀ t name f, plotTable order true ⟨some name, t, sq⟩ = .ok f → o.draw t = .ok ()

theorem pipeline_plot (order : List (Cell ℝ) → List (Cell ℝ)) (ho : Enumerates order) (w : World) (p : Payload) (o : RunOpts) (hd : DrawsAs order o)
    (hs : ∀ f, o.save f = .ok ()) (hdir : o.outDir ≠ none) (s : Shared) (t : Target) (hp : ∀ x ∈ s.tabs, Placed x) (ht : t.table = none) :
    pipelineToDict w p o s t = pipelineToDict w p { o with plot := false } s t ∧ ∀ x ∈ (pipelineToDict w p o s t).1.tabs, Placed x := by
  obtain ⟨h1, h2⟩ := observe_sound w p s.tabs t (by rw [ht]; simp) hp
  unfold pipelineToDict
  revert h1 h2
  generalize observe w p s.tabs t = q
  obtain ⟨tabs, q⟩ := q
  intro h1 h2
  cases q with
  | error e => exact ⟨rfl, h1⟩
  | ok t' =>
    simp only
    obtain ⟨r, hr, h3, h4⟩ := h2 t' rfl
    have e : plotTarget o t' = .ok () := by
      unfold plotTarget
      split
      · obtain ⟨sq, hsq⟩ := hd
        obtain ⟨f, hf, _⟩ := placed_drawable order ho true h3 h4 t'.name sq
        rw [hr, Option.getD_some, hsq _ _ _ hf]
        cases h : o.outDir with
        | none => exact absurd h hdir
        | some d => simp [hs]
      · rfl
    have e' : plotTarget { o with plot := false } t' = .ok () := by simp [plotTarget]
    rw [e, e']
    exact ⟨rfl, h1⟩

theorem plots_never_matter_list (order : List (Cell ℝ) → List (Cell ℝ)) (ho : Enumerates order) (w : World) (p : Payload) (o : RunOpts) (hd : DrawsAs order o)
    (hs : ∀ f, o.save f = .ok ()) (hdir : o.outDir ≠ none) : ∀ (ts : List Target) (s : Shared), (∀ x ∈ s.tabs, Placed x) → (∀ t ∈ ts, t.table = none) →
    runList w p o s ts = runList w p { o with plot := false } s ts
  | [], s, _, _ => rfl
  | t :: ts, s, hp, ht => by
    obtain ⟨h1, h2⟩ := pipeline_plot order ho w p o hd hs hdir s t hp (ht t (by simp))
    have ih := plots_never_matter_list order ho w p o hd hs hdir ts (pipelineToDict w p o s t).1 h2 (fun u hu => ht u (by simp [hu]))
    unfold runList
    rw [← h1]
    revert ih
    generalize pipelineToDict w p o s t = q
    obtain ⟨s', r⟩ := q
    intro ih
    simp only at ih ⊢
    rw [ih]

/-- C71: with an output directory in which figures can be saved, and channels whose tables have the columns of bins, plotting changes
no result of a list of targets: the plotter never raises on a target that was observed. Both in this process and with several. -/
theorem plots_never_matter (order : List (Cell ℝ) → List (Cell ℝ)) (ho : Enumerates order) (w : World) (p : Payload) (o : RunOpts) (hd : DrawsAs order o)
    (hs : ∀ f, o.save f = .ok ()) (hdir : o.outDir ≠ none) (ts : List Target) (s : Shared) (hp : ∀ x ∈ s.tabs, Placed x) (ht : ∀ t ∈ ts, t.table = none)
    (nThread : Nat) (sched : List Nat) :
    observeTargetlist w p o nThread sched s ts = observeTargetlist w p { o with plot := false } nThread sched s ts := by
  have hpool : ∀ (is : List Nat) (done : Dict Nat (Option Target)), poolLoop w p o s ts is done = poolLoop w p { o with plot := false } s ts is done := by
    intro is
    induction is with
    | nil => intro done; rfl
    | cons i is ih =>
      intro done
      unfold poolLoop
      cases hi : ts[i]? with
      | none => exact ih done
      | some t =>
        simp only
        rw [(pipeline_plot order ho w p o hd hs hdir s t hp (ht t (List.mem_of_getElem? hi))).1]
        exact ih _
  unfold observeTargetlist runPool
  rw [plots_never_matter_list order ho w p o hd hs hdir ts s hp ht, hpool]

end Pipeline
end ExoRad
