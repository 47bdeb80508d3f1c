import Verif.Props.Pipeline
import Verif.Props.NonNeg

/-!
# A whole observation: C72
-/

set_option linter.unusedSectionVars false

namespace ExoRad.Pipeline
open Table

/-! ## Specification -/

/-- A channel of an observation: its table (`n` rows), the table of the foregrounds and what the light of the target gives. -/
structure Obs where
  ch : Channel
  tab : Table ℝ
  n : ℕ
  fg : Table ℝ
  out : Instrument.TargetOut ℝ

/-- A finite number that is not negative. -/
def NonNeg (c : Cell ℝ) : Prop := ∃ v, c = .num (.fin v) ∧ 0 ≤ v

/-- The table of a built channel. -/
structure Obs.BuiltTable (it : Obs) : Prop where
  pos : 0 < it.n
  rect : Rect it.tab it.n
  clean : "sky TR" ∉ it.tab.keys
  fresh : "MaxSignal_inPixel" ∉ it.tab.keys
  chName : it.tab.get? "chName" = some (List.replicate it.n (.str it.ch.noise.value))
  win : "WindowSize" ∈ it.tab.keys
  wl : "Wavelength" ∈ it.tab.keys
  wlFin : ∀ col, it.tab.get? "Wavelength" = some col → ∀ c ∈ col, isFin c
  winPos : ∀ col, it.tab.get? "WindowSize" = some col → ∀ c ∈ col, NonNeg c
  signals : ∀ k col, it.tab.get? k = some col → (substr "signal" k = true ∨ substr "Max" k = true) → ∀ c ∈ col, NonNeg c
  bins : it.ch.inst.bins.wl.length = it.n ∧ it.ch.inst.bins.left.length = it.n ∧ it.ch.inst.bins.right.length = it.n

/-- The light of the foregrounds and of the target gets through the channel: a finite value that is not negative in
every bin, and some pixel gets light. -/
structure Obs.Lit (sky : Foreground.Sky ℝ) (sed : Rebin.Signal ℝ) (it : Obs) : Prop where
  fg : channelForeground sky it.ch = .ok it.fg
  fgRect : Rect it.fg it.n
  fgPos : ∀ q ∈ it.fg, ∀ c ∈ q.2, NonNeg c
  out : channelTarget it.ch sed sky.transmission = .ok it.out
  flux : it.out.starFlux.length = it.n
  signal : it.out.starSignal.length = it.n
  aperture : it.out.inAperture.length = it.n ∧ ∀ v ∈ it.out.inAperture, 0 ≤ v
  maxPix : it.out.maxInPixel.length = it.n ∧ ∀ v ∈ it.out.maxInPixel, 0 ≤ v
  bright : ∃ v ∈ it.out.maxInPixel, 0 < v

/-- Channel name of every row. -/
def rowNames (items : List Obs) : List String := items.flatMap (fun it => List.replicate it.n it.ch.noise.value)

/-! ## Rows -/

theorem flatMap_zip_mem {β γ δ : Type} (f : β → List γ) (g : β → List δ) : ∀ (l : List β), (∀ b ∈ l, (f b).length = (g b).length) →
    (l.flatMap f).zip (l.flatMap g) = l.flatMap (fun b => (f b).zip (g b))
  | [], _ => rfl
  | b :: l, h => by
    rw [List.flatMap_cons, List.flatMap_cons, List.flatMap_cons, List.zip_append (h b (by simp)),
      flatMap_zip_mem f g l (fun c hc => h c (by simp [hc]))]

theorem length_flatMap_sum {β γ : Type} (f : β → List γ) (n : β → ℕ) : ∀ (l : List β), (∀ b ∈ l, (f b).length = n b) →
    (l.flatMap f).length = (l.map n).sum
  | [], _ => rfl
  | b :: l, h => by
    rw [List.flatMap_cons, List.length_append, h b (by simp), length_flatMap_sum f n l (fun c hc => h c (by simp [hc])), List.map_cons,
      List.sum_cons]

/-- Rows grouped by channel in channel order. -/
theorem rows_grouped {β : Type} (v : β → String) (n : β → ℕ) : ∀ (l : List β), (l.map v).Nodup →
    ∀ (off : ℕ) (name : ℕ → String), (∀ i, i < (l.map n).sum → some (name (off + i)) = (l.flatMap (fun b => List.replicate (n b) (v b)))[i]?) →
    l.flatMap (fun b => ((List.range (l.map n).sum).map (off + ·)).filter (fun i => decide (name i = v b))) = (List.range (l.map n).sum).map (off + ·)
  | [], _, off, name, _ => by simp
  | b :: l, hnd, off, name, hname => by
    simp only [List.map_cons, List.nodup_cons] at hnd
    have hsum : ((b :: l).map n).sum = n b + (l.map n).sum := by simp
    have hlen : (List.replicate (n b) (v b)).length = n b := by simp
    have h1 : ∀ i < n b, name (off + i) = v b := by
      intro i hi
      have := hname i (by rw [hsum]; omega)
      rw [List.flatMap_cons, List.getElem?_append_left (by simpa using hi)] at this
      simpa [hi] using this
    have h2 : ∀ i, i < (l.map n).sum → some (name (off + n b + i)) = (l.flatMap (fun b => List.replicate (n b) (v b)))[i]? := by
      intro i hi
      have := hname (n b + i) (by rw [hsum]; omega)
      rw [List.flatMap_cons, List.getElem?_append_right (by simp)] at this
      simpa [Nat.add_assoc] using this
    have h3 : ∀ i, i < (l.map n).sum → name (off + n b + i) ∈ l.map v := by
      intro i hi
      have := List.mem_of_getElem? (h2 i hi).symm
      obtain ⟨c, hc, hm⟩ := List.mem_flatMap.mp this
      rw [List.eq_of_mem_replicate hm]
      exact List.mem_map_of_mem hc
    have ih := rows_grouped v n l hnd.2 (off + n b) name h2
    have hsplit : (List.range (n b + (l.map n).sum)).map (off + ·) =
        (List.range (n b)).map (off + ·) ++ (List.range (l.map n).sum).map (off + n b + ·) := by
      rw [List.range_add, List.map_append, List.map_map]
      congr 1
      apply List.map_congr_left
      intro i _
      simp only [Function.comp_apply]
      omega
    rw [hsum, hsplit, List.flatMap_cons]
    congr 1
    · rw [List.filter_append]
      have e1 : ((List.range (n b)).map (off + ·)).filter (fun i => decide (name i = v b)) = (List.range (n b)).map (off + ·) := by
        rw [List.filter_eq_self]
        intro i hi
        obtain ⟨j, hj, rfl⟩ := List.mem_map.mp hi
        simpa using h1 j (List.mem_range.mp hj)
      have e2 : ((List.range (l.map n).sum).map (off + n b + ·)).filter (fun i => decide (name i = v b)) = [] := by
        rw [List.filter_eq_nil_iff]
        intro i hi
        obtain ⟨j, hj, rfl⟩ := List.mem_map.mp hi
        have := h3 j (List.mem_range.mp hj)
        simp only [decide_eq_true_eq]
        intro e
        rw [e] at this
        exact hnd.1 this
      rw [e1, e2, List.append_nil]
    · have : l.flatMap (fun b' => ((List.range (n b)).map (off + ·) ++ (List.range (l.map n).sum).map (off + n b + ·)).filter
          (fun i => decide (name i = v b'))) =
          l.flatMap (fun b' => ((List.range (l.map n).sum).map (off + n b + ·)).filter (fun i => decide (name i = v b'))) := by
        apply List.flatMap_congr
        intro b' hb'
        rw [List.filter_append]
        have : ((List.range (n b)).map (off + ·)).filter (fun i => decide (name i = v b')) = [] := by
          rw [List.filter_eq_nil_iff]
          intro i hi
          obtain ⟨j, hj, rfl⟩ := List.mem_map.mp hi
          simp only [decide_eq_true_eq]
          rw [h1 j (List.mem_range.mp hj)]
          intro e
          exact hnd.1 (e ▸ List.mem_map_of_mem hb')
        rw [this, List.nil_append]
      rw [this, ih]

/-! ## Cells -/

/-- The number in a cell. -/
def cellVal : Cell ℝ → ℝ
  | .num (.fin v) => v
  | _ => 0

theorem col_eq_range {c : List (Cell ℝ)} {N : ℕ} (hl : c.length = N) (hf : ∀ x ∈ c, isFin x) :
    c = (List.range N).map (fun i => .num (.fin (cellVal (c.getD i zero)))) := by
  apply List.ext_getElem (by simp [hl])
  intro i h1 h2
  obtain ⟨v, hv⟩ := hf c[i] (List.getElem_mem h1)
  simp [List.getD, h1, hv, cellVal]

theorem stackedCol_length (ts : List (Table ℝ)) (k : String) (h : ∀ t ∈ ts, ∃ n, Rect t n) : (stackedCol ts k).length = totalRows ts := by
  induction ts with
  | nil => rfl
  | cons t ts ih =>
    obtain ⟨n, hn⟩ := h t (by simp)
    unfold stackedCol at ih ⊢
    rw [List.flatMap_cons, List.length_append, ih (fun u hu => h u (by simp [hu]))]
    unfold totalRows
    rw [List.map_cons, List.sum_cons]
    congr 1
    split
    · rename_i col hc
      rw [hn.get?_len hc, hn.rows]
    · simp

theorem stackedCol_all (ts : List (Table ℝ)) (k : String) (P : Cell ℝ → Prop) (h0 : P zero)
    (h : ∀ t ∈ ts, ∀ col, t.get? k = some col → ∀ c ∈ col, P c) : ∀ c ∈ stackedCol ts k, P c := by
  intro c hc
  unfold stackedCol at hc
  obtain ⟨t, ht, hm⟩ := List.mem_flatMap.mp hc
  split at hm
  · rename_i col hcol
    exact h t ht col hcol c hm
  · rw [List.eq_of_mem_replicate hm]
    exact h0

theorem nonNeg_zero : NonNeg zero := ⟨0, rfl, le_refl _⟩

theorem NonNeg.fin {c : Cell ℝ} (h : NonNeg c) : isFin c := ⟨h.choose, h.choose_spec.1⟩

/-! ## The light of the target -/

/-- The column `foreground_transmission` of a channel. -/
noncomputable def skyColumn (ch : Channel) : Option (Rebin.Signal ℝ) → Option (List (Cell ℝ))
  | none => none
  | some s =>
    match Instrument.getTransmission ch.inst s.wl s.data with
    | .ok (c, _) => some (colN c)
    | .error _ => none

theorem propagateAll_items (sed : Rebin.Signal ℝ) (sky : Option (Rebin.Signal ℝ)) : ∀ (items : List Obs) (tabs : List (Table ℝ)),
    tabs.length = items.length → (sky = none → ∀ t ∈ tabs, "sky TR" ∉ t.keys) →
    (∀ it ∈ items, channelTarget it.ch sed sky = .ok it.out) →
    ∃ tabs', propagateAll sed sky (items.map Obs.ch) tabs = (tabs', .ok (items.map (fun it => targetTable (skyColumn it.ch sky) it.out)))
  | [], tabs, hl, _, _ => by
    rw [List.length_nil, List.length_eq_zero_iff] at hl
    subst hl
    exact ⟨[], rfl⟩
  | it :: items, [], hl, _, _ => by simp at hl
  | it :: items, tab :: tabs, hl, hclean, h => by
    obtain ⟨tabs', ih⟩ := propagateAll_items sed sky items tabs (by simpa using hl) (fun e t ht => hclean e t (by simp [ht]))
      (fun x hx => h x (by simp [hx]))
    have ho := h it (by simp)
    have hin : propagateIn it.ch sed sky tab = (markSky it.ch.inst sed.wl sky tab, .ok (targetTable (skyColumn it.ch sky) it.out)) := by
      unfold propagateIn
      simp only [ho]
      cases sky with
      | none =>
        have hm : markSky it.ch.inst sed.wl none tab = tab := by unfold markSky; split <;> simp_all
        rw [hm, (Dict.get?_eq_none_iff _ _).mpr (hclean rfl tab (by simp))]
        rfl
      | some s =>
        obtain ⟨c, s', hc, hm⟩ := markSky_ok ho
        rw [hm, Dict.get?_set_self]
        simp only [skyColumn, hc]
    simp only [List.map_cons]
    unfold propagateAll
    simp only [hin, ih]
    exact ⟨_, rfl⟩

theorem mapE_items {β γ : Type} (f : β → Except Exc γ) (g : Obs → β) (r : Obs → γ) : ∀ (items : List Obs),
    (∀ it ∈ items, f (g it) = .ok (r it)) → Source.mapE f (items.map g) = .ok (items.map r)
  | [], _ => rfl
  | it :: items, h => by
    simp only [List.map_cons]
    unfold Source.mapE
    simp only [h it (by simp), mapE_items f g r items (fun x hx => h x (by simp [hx]))]

theorem skyColumn_length {ch : Channel} {n : ℕ} (hb : ch.inst.bins.wl.length = n ∧ ch.inst.bins.left.length = n ∧ ch.inst.bins.right.length = n)
    {sky : Option (Rebin.Signal ℝ)} {c : List (Cell ℝ)} (h : skyColumn ch sky = some c) : c.length = n := by
  obtain ⟨b0, b1, b2⟩ := hb
  cases sky with
  | none => simp [skyColumn] at h
  | some s =>
    simp only [skyColumn] at h
    cases hg : Instrument.getTransmission ch.inst s.wl s.data with
    | error e => simp [hg] at h
    | ok q =>
      obtain ⟨c', s'⟩ := q
      simp only [hg, Option.some.injEq] at h
      subst h
      unfold Instrument.getTransmission at hg
      split at hg
      · cases hg
      · simp only at hg
        split at hg
        · cases hg
        · simp only [Except.ok.injEq, Prod.mk.injEq] at hg
          rw [← hg.1]
          simp [colN, Instrument.binSignal, b1, b2]
        · simp only [Except.ok.injEq, Prod.mk.injEq] at hg
          rw [← hg.1]
          simp [colN, Instrument.binSignal, Instrument.zeroOutCol, b0, b1, b2]

theorem skyColumn_isSome {it : Obs} {sed : Rebin.Signal ℝ} {sky : Option (Rebin.Signal ℝ)}
    (h : channelTarget it.ch sed sky = .ok it.out) : (skyColumn it.ch sky).isSome = sky.isSome := by
  cases sky with
  | none => rfl
  | some s =>
    obtain ⟨c, s', hc, _⟩ := markSky_ok h
    simp [skyColumn, hc]

theorem targetTable_rect {it : Obs} (hb : it.BuiltTable) {sky : Foreground.Sky ℝ} {sed : Rebin.Signal ℝ} (hl : it.Lit sky sed) :
    Rect (targetTable (skyColumn it.ch sky.transmission) it.out) it.n := by
  have e := fun c (h : skyColumn it.ch sky.transmission = some c) => skyColumn_length hb.bins h
  revert e
  generalize skyColumn it.ch sky.transmission = o
  intro e
  cases o with
  | none =>
    refine ⟨by simp [targetTable], by simp [targetTable, Dict.keys], ?_⟩
    intro q hq
    simp only [targetTable, List.nil_append, List.mem_cons, List.not_mem_nil, or_false] at hq
    rcases hq with rfl | rfl | rfl | rfl <;> simp [col, hl.flux, hl.signal, hl.aperture.1, hl.maxPix.1]
  | some c =>
    refine ⟨by simp [targetTable], by simp [targetTable, Dict.keys], ?_⟩
    intro q hq
    simp only [targetTable, List.cons_append, List.nil_append, List.mem_cons, List.not_mem_nil, or_false] at hq
    rcases hq with rfl | rfl | rfl | rfl | rfl <;> simp [col, hl.flux, hl.signal, hl.aperture.1, hl.maxPix.1, e _ rfl]

theorem targetTable_keys (o : Option (List (Cell ℝ))) (out : Instrument.TargetOut ℝ) : (targetTable o out).keys =
    (if o.isSome then ["foreground_transmission"] else []) ++ ["starFlux", "starSignal", "star_signal_inAperture", "star_MaxSignal_inPixel"] := by
  cases o <;> rfl

theorem targetTable_get (o : Option (List (Cell ℝ))) (out : Instrument.TargetOut ℝ) :
    (targetTable o out).get? "starFlux" = some (col out.starFlux) ∧ (targetTable o out).get? "starSignal" = some (col out.starSignal) ∧
    (targetTable o out).get? "star_signal_inAperture" = some (col out.inAperture) ∧
    (targetTable o out).get? "star_MaxSignal_inPixel" = some (col out.maxInPixel) := by
  cases o <;> refine ⟨?_, ?_, ?_, ?_⟩ <;> simp [targetTable, Dict.get?]

theorem stackedCol_map (items : List Obs) (f : Obs → Table ℝ) (k : String) (g : Obs → List (Cell ℝ))
    (h : ∀ it ∈ items, (f it).get? k = some (g it)) : stackedCol (items.map f) k = items.flatMap g := by
  unfold stackedCol
  rw [List.flatMap_map]
  apply List.flatMap_congr
  intro it hit
  rw [h it hit]

theorem totalRows_map (items : List Obs) (f : Obs → Table ℝ) (h : ∀ it ∈ items, Rect (f it) it.n) :
    totalRows (items.map f) = (items.map Obs.n).sum := by
  unfold totalRows
  rw [List.map_map]
  congr 1
  apply List.map_congr_left
  intro it hit
  exact (h it hit).rows


theorem channelForeground_shape {sky : Foreground.Sky ℝ} {ch : Channel} {n : Table ℝ} (h : channelForeground sky ch = .ok n) :
    ∀ c ∈ n.keys, ∃ k, c = k ++ "_signal" ∨ c = k ++ "_MaxSignal_inPixel" := by
  unfold channelForeground at h
  cases hp : Foreground.propagate ch.diffuse ch.inst.qe ch.inst.tr sky with
  | error e => simp [hp] at h
  | ok d =>
    simp only [hp, Except.ok.injEq] at h
    subst h
    unfold Foreground.propagate at hp
    split at hp
    · cases hp
    · intro c hc
      rw [keys_foregroundTable, propagateLoop_keys _ _ _ _ _ _ hp] at hc
      rcases hc with h | ⟨k, _, h⟩
      · simp at h
      · exact ⟨k, h⟩

theorem shape_ne {c : String} (h : ∃ k, c = k ++ "_signal" ∨ c = k ++ "_MaxSignal_inPixel") :
    c ≠ "chName" ∧ c ≠ "WindowSize" ∧ c ≠ "Wavelength" ∧ c ≠ "MaxSignal_inPixel" ∧ c ≠ "frameTime" ∧ c ≠ "saturation_time" := by
  obtain ⟨k, h | h⟩ := h <;> subst h <;> refine ⟨?_, ?_, ?_, ?_, ?_, ?_⟩ <;> intro e
  all_goals first
    | (have := congrArg (fun s : String => s.toList.reverse) e
       simp [String.toList_append] at this
       done)
    | (have := congrArg (fun s : String => s.toList.length) e
       simp [String.toList_append] at this
       done)

theorem removeShared_clean {tabs : List (Table ℝ)} (n : Table ℝ) {k : String} (h : ∀ t ∈ tabs, k ∉ t.keys) :
    ∀ t ∈ removeShared tabs n, k ∉ t.keys := by
  unfold removeShared
  split
  · split
    · exact h
    · rename_i t ht
      intro u hu
      rcases List.mem_append.mp hu with hu | hu
      · exact h u (List.dropLast_subset _ hu)
      · rw [List.mem_singleton] at hu
        subst hu
        rw [Dict.keys_removeAll]
        intro hk
        exact h t (List.mem_of_getLast? ht) (List.mem_filter.mp hk).1
  · exact h

/-- The columns of the target's light. -/
def starNames : List String := ["foreground_transmission", "starFlux", "starSignal", "star_signal_inAperture", "star_MaxSignal_inPixel"]

/-- The table of the target before the noise. -/
structure Merged (items : List Obs) (sky : Option (Rebin.Signal ℝ)) (M : Table ℝ) : Prop where
  nodup : M.keys.Nodup
  star : ∀ k ∈ ["starFlux", "starSignal", "star_signal_inAperture", "star_MaxSignal_inPixel"], k ∈ M.keys
  flux : M.get? "starFlux" = some (col (items.flatMap (fun it => it.out.starFlux)))
  signal : M.get? "starSignal" = some (col (items.flatMap (fun it => it.out.starSignal)))
  aperture : M.get? "star_signal_inAperture" = some (col (items.flatMap (fun it => it.out.inAperture)))
  maxPix : M.get? "star_MaxSignal_inPixel" = some (col (items.flatMap (fun it => it.out.maxInPixel)))
  fg : ∀ k ∉ starNames, (∃ it ∈ items, k ∈ it.fg.keys) → M.get? k = some (stackedCol (items.map Obs.fg) k)
  tab : ∀ k ∉ starNames, (∀ it ∈ items, k ∉ it.fg.keys) → (∃ it ∈ items, k ∈ it.tab.keys) → M.get? k = some (stackedCol (items.map Obs.tab) k)
  none : ∀ k ∉ starNames, (∀ it ∈ items, k ∉ it.fg.keys) → (∀ it ∈ items, k ∉ it.tab.keys) → k ∉ M.keys
  rect : ∀ k c, M.get? k = some c → c.length = (items.map Obs.n).sum
  trans : sky.isSome = true → M.get? "foreground_transmission" = some (items.flatMap (fun it => (skyColumn it.ch sky).getD []))
  noTrans : sky.isSome = false → (∀ it ∈ items, "foreground_transmission" ∉ it.fg.keys) → (∀ it ∈ items, "foreground_transmission" ∉ it.tab.keys) →
    "foreground_transmission" ∉ M.keys

/-- All steps before the noise. -/
theorem before_noise (w : World) (p : Payload) (sec : Foreground.Section ℝ) (hsec : p.foreground = some sec)
    (d : Source.Descr) (hd : p.source = some d) (items : List Obs) (hne : items ≠ []) (hch : p.channels = items.map Obs.ch)
    (hfill : Fillable (items.map Obs.tab))
    (t : Target) (hf : Ready t) (sky : Foreground.Sky ℝ)
    (hsky : Foreground.estimateForegrounds w.consts.B w.maps w.skyGrid sec t.sky = (sky, .ok ())) (b : Source.Built ℝ)
    (hb : Source.loadSource w.consts w.env w.grid d t.star p.wlMin p.wlMax = .ok b)
    (hbuilt : ∀ it ∈ items, it.BuiltTable) (hlit : ∀ it ∈ items, it.Lit sky b.sed) :
    ∃ tabs' M s1 s2 s3 s4, prepareTarget ⟨items.map Obs.tab, t⟩ = (s1, .ok ()) ∧ estimateForegrounds w sec s1 = (s2, .ok ()) ∧
      propagateForeground p.channels s2 = (s3, .ok ()) ∧ loadSource w p s3 = (s4, .ok ()) ∧
      propagateTarget p.channels s4 = (⟨tabs', { t with sky := sky, built := some b, table := some M }⟩, .ok ()) ∧ Merged items sky.transmission M := by
  have hB : Built p (items.map Obs.tab) := by
    refine ⟨by rw [hch]; simp, ?_, ?_, ?_⟩
    · intro u hu
      obtain ⟨it, hit, rfl⟩ := List.mem_map.mp hu
      rw [(hbuilt it hit).rect.rows]
      have := (hbuilt it hit).pos
      omega
    · intro u hu
      obtain ⟨it, hit, rfl⟩ := List.mem_map.mp hu
      exact (hbuilt it hit).clean
    · intro ch hc
      rw [hch] at hc
      obtain ⟨it, hit, rfl⟩ := List.mem_map.mp hc
      obtain ⟨b0, b1, b2⟩ := (hbuilt it hit).bins
      have := (hbuilt it hit).pos
      refine ⟨?_, ?_, ?_⟩ <;> apply List.ne_nil_of_length_pos <;> omega
  -- the channel tables
  obtain ⟨S, tabs1, hS, Srect, Skeys, _, Sget, _⟩ := vstack_tables_complete (items.map Obs.tab) (by simpa using hne) (by
    intro u hu
    obtain ⟨it, hit, rfl⟩ := List.mem_map.mp hu
    exact ⟨it.n, (hbuilt it hit).pos, (hbuilt it hit).rect⟩) hfill
  have inv1 := (hB.inv.stack hB).2 _ _ hS
  have len1 : tabs1.length = items.length := by rw [vstackTables_length _ _ _ hS]; simp
  have h1 : prepareTarget ⟨items.map Obs.tab, t⟩ = (⟨tabs1, { t with table := some S }⟩, .ok ()) := by
    unfold prepareTarget
    simp only [hS]
  -- the foregrounds
  have h2 : estimateForegrounds w sec ⟨tabs1, { t with table := some S }⟩ = (⟨tabs1, { t with sky := sky, table := some S }⟩, .ok ()) := by
    unfold estimateForegrounds
    simp only [hsky]
  have htr : sky.transmission.isSome = skySet p := by
    rw [estimateForegrounds_loop] at hsky
    have := (estimateLoop_sky w.consts.B w.maps w.skyGrid sec.list t.sky (by rw [hsky])).2
    rw [hsky] at this
    simp only at this
    rw [this, hf.fresh.2]
    simp [skySet, sections, hsec]
  have clean1 : sky.transmission = none → ∀ u ∈ tabs1, "sky TR" ∉ u.keys := by
    intro hn
    rcases inv1.sky with h | h
    · rw [hn] at htr
      simp [h] at htr
    · exact h
  have hfgs : Source.mapE (channelForeground sky) p.channels = .ok (items.map Obs.fg) := by
    rw [hch]
    exact mapE_items _ _ _ items (fun it hit => (hlit it hit).fg)
  obtain ⟨F, fgs', hF, Frect, Fkeys, _, Fget, _⟩ := vstack_tables_complete (items.map Obs.fg) (by simpa using hne) (by
    intro u hu
    obtain ⟨it, hit, rfl⟩ := List.mem_map.mp hu
    exact ⟨it.n, (hbuilt it hit).pos, (hlit it hit).fgRect⟩) (by
    intro u hu q hq
    obtain ⟨it, hit, rfl⟩ := List.mem_map.mp hu
    exact .inr (fun c hc => ((hlit it hit).fgPos q hq c hc).fin))
  have h3 : propagateForeground p.channels ⟨tabs1, { t with sky := sky, table := some S }⟩ =
      (⟨removeShared tabs1 F, { t with sky := sky, table := some (update S F) }⟩, .ok ()) := by
    unfold propagateForeground
    simp only [hfgs, hF, updateWith]
  have h4 : loadSource w p ⟨removeShared tabs1 F, { t with sky := sky, table := some (update S F) }⟩ =
      (⟨removeShared tabs1 F, { t with sky := sky, built := some b, table := some (update S F) }⟩, .ok ()) := by
    have hm : addStarMetadata { t with sky := sky, table := some (update S F) } = .ok () := by
      unfold addStarMetadata
      exact if_pos hf.catalogued
    unfold loadSource
    simp only [hd, hb, hm]
  -- the light of the target
  obtain ⟨tabs2, hprop⟩ := propagateAll_items b.sed sky.transmission items (removeShared tabs1 F)
    (by rw [removeShared_length, len1]) (fun hn => removeShared_clean F (clean1 hn)) (fun it hit => (hlit it hit).out)
  obtain ⟨T, stars', hT, Trect, Tkeys, _, Tget, _⟩ := vstack_tables_complete
    (items.map (fun it => targetTable (skyColumn it.ch sky.transmission) it.out)) (by simpa using hne) (by
    intro u hu
    obtain ⟨it, hit, rfl⟩ := List.mem_map.mp hu
    exact ⟨it.n, (hbuilt it hit).pos, targetTable_rect (hbuilt it hit) (hlit it hit)⟩) (by
    intro u hu q hq
    left
    obtain ⟨it, hit, rfl⟩ := List.mem_map.mp hu
    intro v hv
    obtain ⟨it', hit', rfl⟩ := List.mem_map.mp hv
    have hk : q.1 ∈ (targetTable (skyColumn it.ch sky.transmission) it.out).keys := List.mem_map.mpr ⟨q, hq, rfl⟩
    rw [targetTable_keys, skyColumn_isSome (hlit it hit).out] at hk
    rw [targetTable_keys, skyColumn_isSome (hlit it' hit').out]
    exact hk)
  have h5 : propagateTarget p.channels ⟨removeShared tabs1 F, { t with sky := sky, built := some b, table := some (update S F) }⟩ =
      (⟨tabs2, { t with sky := sky, built := some b, table := some (update (update S F) T) }⟩, .ok ()) := by
    unfold propagateTarget
    simp only [hch, hprop, hT, updateWith]
  refine ⟨tabs2, _, _, _, _, _, h1, h2, h3, h4, h5, ?_⟩
  have totS := totalRows_map items Obs.tab (fun it hit => (hbuilt it hit).rect)
  have totF := totalRows_map items Obs.fg (fun it hit => (hlit it hit).fgRect)
  have totT := totalRows_map items _ (fun it hit => targetTable_rect (hbuilt it hit) (hlit it hit))
  obtain ⟨it0, hit0⟩ := List.exists_mem_of_ne_nil _ hne
  have Tsub : ∀ k ∈ T.keys, k ∈ starNames := by
    intro k hk
    obtain ⟨u, hu, hku⟩ := (Tkeys k).mp hk
    obtain ⟨it, hit, rfl⟩ := List.mem_map.mp hu
    rw [targetTable_keys] at hku
    unfold starNames
    split at hku <;> simp at hku ⊢ <;> tauto
  have Tsup : ∀ k ∈ ["starFlux", "starSignal", "star_signal_inAperture", "star_MaxSignal_inPixel"], k ∈ T.keys := by
    intro k hk
    refine (Tkeys k).mpr ⟨_, List.mem_map_of_mem hit0, ?_⟩
    rw [targetTable_keys]
    exact List.mem_append_right _ hk
  have Fmem : ∀ k, k ∈ F.keys ↔ ∃ it ∈ items, k ∈ it.fg.keys := by
    intro k
    rw [Fkeys]
    simp
  have Smem : ∀ k, k ∈ S.keys ↔ ∃ it ∈ items, k ∈ it.tab.keys := by
    intro k
    rw [Skeys]
    simp
  have hstar : ∀ k ∈ ["starFlux", "starSignal", "star_signal_inAperture", "star_MaxSignal_inPixel"], ∀ (g : Obs → List ℝ),
      (∀ it ∈ items, (targetTable (skyColumn it.ch sky.transmission) it.out).get? k = some (col (g it))) →
      (update (update S F) T).get? k = some (col (items.flatMap g)) := by
    intro k hk g hg
    rw [get?_update, if_pos (Tsup k hk), Tget k (Tsup k hk), stackedCol_map items _ k (fun it => col (g it)) hg]
    simp [col, List.map_flatMap]
  have hT : ∀ k ∉ starNames, (update (update S F) T).get? k = (update S F).get? k := by
    intro k hk
    rw [get?_update, if_neg (fun h => hk (Tsub k h))]
  refine ⟨?_, ?_, ?_, ?_, ?_, ?_, ?_, ?_, ?_, ?_, ?_, ?_⟩
  · exact (update_spec _ _ (update_spec _ _ Srect.nodup Frect.nodup).2.2.1 Trect.nodup).2.2.1
  · intro k hk
    exact (mem_keys_update _ _ _).mpr (.inr (Tsup k hk))
  · exact hstar _ (by simp) _ (fun it _ => (targetTable_get _ _).1)
  · exact hstar _ (by simp) _ (fun it _ => (targetTable_get _ _).2.1)
  · exact hstar _ (by simp) _ (fun it _ => (targetTable_get _ _).2.2.1)
  · exact hstar _ (by simp) _ (fun it _ => (targetTable_get _ _).2.2.2)
  · intro k hk hkf
    rw [hT k hk, get?_update, if_pos ((Fmem k).mpr hkf), Fget k ((Fmem k).mpr hkf)]
  · intro k hk hkf hkt
    rw [hT k hk, get?_update, if_neg (fun h => by obtain ⟨it, hit, hh⟩ := (Fmem k).mp h; exact hkf it hit hh),
      Sget k ((Smem k).mpr hkt)]
  · intro k hk hkf hkt hm
    rcases (mem_keys_update _ _ _).mp hm with hm | hm
    · rcases (mem_keys_update _ _ _).mp hm with hm | hm
      · obtain ⟨it, hit, hh⟩ := (Smem k).mp hm; exact hkt it hit hh
      · obtain ⟨it, hit, hh⟩ := (Fmem k).mp hm; exact hkf it hit hh
    · exact hk (Tsub k hm)
  · intro k c hc
    rw [get?_update] at hc
    split at hc
    · rw [Trect.get?_len hc, totT]
    · rw [get?_update] at hc
      split at hc
      · rw [Frect.get?_len hc, totF]
      · rw [Srect.get?_len hc, totS]
  · intro hs
    have hsome : ∀ it ∈ items, (targetTable (skyColumn it.ch sky.transmission) it.out).get? "foreground_transmission" =
        some ((skyColumn it.ch sky.transmission).getD []) := by
      intro it hit
      have := skyColumn_isSome (hlit it hit).out
      rw [hs] at this
      obtain ⟨c, hc⟩ := Option.isSome_iff_exists.mp this
      rw [hc]
      simp [targetTable, Dict.get?]
    have hk : "foreground_transmission" ∈ T.keys := by
      refine (Tkeys _).mpr ⟨_, List.mem_map_of_mem hit0, ?_⟩
      exact Dict.mem_keys_of_get? (hsome it0 hit0)
    rw [get?_update, if_pos hk, Tget _ hk, stackedCol_map items _ _ _ hsome]
  · intro hs hkf hkt hm
    rcases (mem_keys_update _ _ _).mp hm with hm | hm
    · rcases (mem_keys_update _ _ _).mp hm with hm | hm
      · obtain ⟨it, hit, hh⟩ := (Smem _).mp hm; exact hkt it hit hh
      · obtain ⟨it, hit, hh⟩ := (Fmem _).mp hm; exact hkf it hit hh
    · obtain ⟨u, hu, hku⟩ := (Tkeys _).mp hm
      obtain ⟨it, hit, rfl⟩ := List.mem_map.mp hu
      rw [targetTable_keys, skyColumn_isSome (hlit it hit).out, hs] at hku
      simp at hku


theorem mem_keys_of_get {t : Table ℝ} {k : String} {c : List (Cell ℝ)} (h : t.get? k = some c) : k ∈ t.keys :=
  List.mem_map.mpr ⟨(k, c), Dict.mem_of_get? h, rfl⟩

theorem getD_flatMap_names (items : List Obs) (i : ℕ) (hi : i < (items.map Obs.n).sum) :
    some ((rowNames items).getD (0 + i) "") = (rowNames items)[i]? := by
  have hl : (rowNames items).length = (items.map Obs.n).sum := length_flatMap_sum _ _ _ (fun it _ => by simp)
  have : i < (rowNames items).length := by omega
  simp [List.getD, this]

theorem le_sum_of_mem : ∀ {l : List ℝ} {x : ℝ}, (∀ y ∈ l, 0 ≤ y) → x ∈ l → x ≤ l.sum
  | a :: l, x, h, hx => by
    rw [List.sum_cons]
    have h0 : 0 ≤ l.sum := List.sum_nonneg (fun y hy => h y (by simp [hy]))
    rcases List.mem_cons.mp hx with rfl | hx
    · linarith
    · have := le_sum_of_mem (fun y hy => h y (by simp [hy])) hx
      have := h a (by simp)
      linarith

/-- The number in a row of a column, 0 if there is none. -/
noncomputable def cellAt (t : Table ℝ) (k : String) (i : ℕ) : ℝ := cellVal (((t.get? k).getD []).getD i zero)

/-- The table before the noise is one the noise can be estimated for. -/
theorem merged_ready (items : List Obs) (hne : items ≠ []) (chs : List Channel) (hch : chs = items.map Obs.ch)
    (hnames : (items.map (fun it => it.ch.noise.value)).Nodup) (sky : Foreground.Sky ℝ) (sed : Rebin.Signal ℝ)
    (hbuilt : ∀ it ∈ items, it.BuiltTable) (hlit : ∀ it ∈ items, it.Lit sky sed) (M : Table ℝ) (hM : Merged items sky.transmission M) :
    M.get? "chName" = some ((rowNames items).map Cell.str) ∧
    TargetTable M (items.map Obs.n).sum (fun i => (rowNames items).getD i "") (cellAt M) ∧
    (chs.map (fun c => (c.noise, c.common))).flatMap (fun c => rowsOf (items.map Obs.n).sum (fun i => (rowNames items).getD i "") c.1.value) =
      List.range (items.map Obs.n).sum ∧
    ∀ c ∈ chs.map (fun c => (c.noise, c.common)), ∃ i < (items.map Obs.n).sum, (rowNames items).getD i "" = c.1.value ∧
      0 < Table.maxTotal M (cellAt M) i := by
  have hlen : (rowNames items).length = (items.map Obs.n).sum := length_flatMap_sum _ _ _ (fun it _ => by simp)
  obtain ⟨N, hN⟩ : ∃ N, N = (items.map Obs.n).sum := ⟨_, rfl⟩
  obtain ⟨name, hname⟩ : ∃ name : ℕ → String, name = fun i => (rowNames items).getD i "" := ⟨_, rfl⟩
  obtain ⟨x, hx⟩ : ∃ x : String → ℕ → ℝ, x = cellAt M := ⟨_, rfl⟩
  have hnot : ∀ k, k = "chName" ∨ k = "WindowSize" ∨ k = "Wavelength" ∨ k = "MaxSignal_inPixel" ∨ k = "frameTime" ∨ k = "saturation_time" →
      ∀ it ∈ items, k ∉ it.fg.keys := by
    intro k hk it hit hm
    obtain ⟨a1, a2, a3, a4, a5, a6⟩ := shape_ne (channelForeground_shape (hlit it hit).fg k hm)
    rcases hk with rfl | rfl | rfl | rfl | rfl | rfl <;> contradiction
  obtain ⟨it0, hit0⟩ := List.exists_mem_of_ne_nil _ hne
  have hchn : M.get? "chName" = some ((rowNames items).map Cell.str) := by
    rw [hM.tab "chName" (by decide) (hnot _ (by simp)) ⟨it0, hit0, mem_keys_of_get (hbuilt it0 hit0).chName⟩,
      stackedCol_map items Obs.tab "chName" _ (fun it hit => (hbuilt it hit).chName)]
    simp [rowNames, List.map_flatMap]
  have hrange : ∀ {β : Type} (g : String → β), (rowNames items).map g = (List.range N).map (fun i => g (name i)) := by
    intro β g
    apply List.ext_getElem (by simp [hlen, hN])
    intro i h1 h2
    have : i < (rowNames items).length := by simpa using h1
    simp [hname, List.getD, this]
  -- every column of the table, by where it comes from
  have cells : ∀ (Q : Cell ℝ → Prop), Q zero → ∀ k c, M.get? k = some c →
      (∀ it ∈ items, ∀ v ∈ it.out.inAperture ++ it.out.maxInPixel, Q (.num (.fin v))) → (k ∉ ["foreground_transmission", "starFlux", "starSignal"]) →
      (∀ it ∈ items, ∀ c', it.fg.get? k = some c' → ∀ z ∈ c', Q z) → (∀ it ∈ items, ∀ c', it.tab.get? k = some c' → ∀ z ∈ c', Q z) →
      ∀ z ∈ c, Q z := by
    intro Q q0 k c hc hs hk hfg htab z hz
    by_cases hks : k ∈ starNames
    · simp only [starNames, List.mem_cons, List.not_mem_nil, or_false] at hks hk
      have hh : k = "star_signal_inAperture" ∨ k = "star_MaxSignal_inPixel" := by tauto
      rcases hh with rfl | rfl
      · rw [hM.aperture] at hc
        cases hc
        obtain ⟨v, hv, rfl⟩ := List.mem_map.mp hz
        obtain ⟨it, hit, hv⟩ := List.mem_flatMap.mp hv
        exact hs it hit v (by simp [hv])
      · rw [hM.maxPix] at hc
        cases hc
        obtain ⟨v, hv, rfl⟩ := List.mem_map.mp hz
        obtain ⟨it, hit, hv⟩ := List.mem_flatMap.mp hv
        exact hs it hit v (by simp [hv])
    · by_cases hkf : ∃ it ∈ items, k ∈ it.fg.keys
      · rw [hM.fg k hks hkf] at hc
        cases hc
        refine stackedCol_all _ k Q q0 ?_ z hz
        intro u hu
        obtain ⟨it, hit, rfl⟩ := List.mem_map.mp hu
        exact hfg it hit
      · have hkf' : ∀ it ∈ items, k ∉ it.fg.keys := fun it hit h => hkf ⟨it, hit, h⟩
        by_cases hkt : ∃ it ∈ items, k ∈ it.tab.keys
        · rw [hM.tab k hks hkf' hkt] at hc
          cases hc
          refine stackedCol_all _ k Q q0 ?_ z hz
          intro u hu
          obtain ⟨it, hit, rfl⟩ := List.mem_map.mp hu
          exact htab it hit
        · have := hM.none k hks hkf' (fun it hit h => hkt ⟨it, hit, h⟩)
          rw [(Dict.get?_eq_none_iff _ _).mpr this] at hc
          cases hc
  have hstar0 : ∀ it ∈ items, ∀ v ∈ it.out.inAperture ++ it.out.maxInPixel, NonNeg (.num (.fin v)) := by
    intro it hit v hv
    refine ⟨v, rfl, ?_⟩
    rcases List.mem_append.mp hv with hv | hv
    · exact (hlit it hit).aperture.2 v hv
    · exact (hlit it hit).maxPix.2 v hv
  have hfg0 : ∀ k, ∀ it ∈ items, ∀ c', it.fg.get? k = some c' → ∀ z ∈ c', NonNeg z :=
    fun k it hit c' hc' z hz => (hlit it hit).fgPos _ (Dict.mem_of_get? hc') z hz
  have pos : ∀ k, (substr "signal" k = true ∨ substr "Max" k = true ∨ k = "WindowSize") → ∀ c, M.get? k = some c → ∀ z ∈ c, NonNeg z := by
    intro k hk c hc
    refine cells NonNeg nonNeg_zero k c hc hstar0 ?_ (hfg0 k) ?_
    · intro h
      simp only [List.mem_cons, List.not_mem_nil, or_false] at h
      rcases h with rfl | rfl | rfl <;> revert hk <;> decide
    · intro it hit c' hc'
      rcases hk with hk | hk | rfl
      · exact (hbuilt it hit).signals k c' hc' (.inl hk)
      · exact (hbuilt it hit).signals k c' hc' (.inr hk)
      · exact (hbuilt it hit).winPos c' hc'
  have fins : ∀ k, (substr "signal" k = true ∨ substr "Max" k = true ∨ k = "WindowSize" ∨ k = "Wavelength") → ∀ c, M.get? k = some c → ∀ z ∈ c, isFin z := by
    intro k hk c hc
    by_cases hw : k = "Wavelength"
    · subst hw
      refine cells isFin ⟨0, rfl⟩ _ c hc (fun it hit v hv => ⟨v, rfl⟩) (by decide) (fun it hit c' hc' z hz => (hfg0 _ it hit c' hc' z hz).fin) ?_
      exact fun it hit c' hc' => (hbuilt it hit).wlFin c' hc'
    · exact fun z hz => (pos k (by tauto) c hc z hz).fin
  have xcol : ∀ k ∈ M.keys, (substr "signal" k = true ∨ substr "Max" k = true ∨ k = "WindowSize" ∨ k = "Wavelength") →
      M.get? k = some ((List.range N).map (fun i => .num (.fin (x k i)))) := by
    intro k hk hkk
    obtain ⟨c, hc⟩ := Dict.exists_get? hk
    rw [hc]
    congr 1
    have := col_eq_range (N := N) (by rw [hM.rect k c hc, hN]) (fins k hkk c hc)
    rw [hx]
    simp only [cellAt, hc, Option.getD_some]
    exact this
  have x0 : ∀ k ∈ M.keys, (substr "signal" k = true ∨ substr "Max" k = true ∨ k = "WindowSize") → ∀ i < N, 0 ≤ x k i := by
    intro k hk hkk i hi
    obtain ⟨c, hc⟩ := Dict.exists_get? hk
    have hl := hM.rect k c hc
    have hic : i < c.length := by omega
    obtain ⟨v, hv, hv0⟩ := pos k hkk c hc c[i] (List.getElem_mem hic)
    simp only [hx, cellAt, hc, Option.getD_some, List.getD, List.getElem?_eq_getElem hic, hv, cellVal]
    exact hv0
  have tabKey : ∀ k, (k = "chName" ∨ k = "WindowSize" ∨ k = "Wavelength") → k ∈ it0.tab.keys → k ∈ M.keys := by
    intro k hk hk0
    have := hM.tab k (by rcases hk with rfl | rfl | rfl <;> decide) (hnot k (by tauto)) ⟨it0, hit0, hk0⟩
    exact mem_keys_of_get this
  have hTT : TargetTable M N name x := by
    refine ⟨hM.nodup, fun k c hc => by rw [hM.rect k c hc, hN], ?_, xcol, hM.star _ (by simp), tabKey _ (by simp) (hbuilt it0 hit0).win,
      tabKey _ (by simp) (hbuilt it0 hit0).wl, ?_, ?_, ?_, ?_⟩
    · rw [hchn, hrange]
    · exact fun k hk hs => x0 k hk (.inl hs)
    · exact fun k hk hs => x0 k hk (.inr (.inl hs))
    · exact x0 _ (tabKey _ (by simp) (hbuilt it0 hit0).win) (.inr (.inr rfl))
    · exact hM.none _ (by decide) (hnot _ (by simp)) (fun it hit => (hbuilt it hit).fresh)
  -- rows of the channels
  have hgroup : (chs.map (fun c => (c.noise, c.common))).flatMap (fun c => rowsOf N name c.1.value) = List.range N := by
    rw [hch, List.map_map, List.flatMap_map]
    have := rows_grouped (fun it : Obs => it.ch.noise.value) Obs.n items hnames 0 name (fun i hi => by
      rw [hname]
      exact getD_flatMap_names items i hi)
    rw [← hN] at this
    simp only [Nat.zero_add, List.map_id'] at this
    exact this
  have hmem : ∀ c ∈ chs.map (fun c => (c.noise, c.common)), ∃ it ∈ items, c = (it.ch.noise, it.ch.common) := by
    intro c hc
    rw [hch, List.map_map] at hc
    obtain ⟨it, hit, rfl⟩ := List.mem_map.mp hc
    exact ⟨it, hit, rfl⟩
  have hbright : ∀ c ∈ chs.map (fun c => (c.noise, c.common)), ∃ i < N, name i = c.1.value ∧ 0 < Table.maxTotal M x i := by
    intro c hc
    obtain ⟨it, hit, rfl⟩ := hmem c hc
    obtain ⟨v, hv, hv0⟩ := (hlit it hit).bright
    have hz := flatMap_zip_mem (fun it : Obs => List.replicate it.n it.ch.noise.value) (fun it : Obs => it.out.maxInPixel) items
      (fun b hb => by simp [(hlit b hb).maxPix.1])
    have hp : (it.ch.noise.value, v) ∈ (rowNames items).zip (items.flatMap (fun it => it.out.maxInPixel)) := by
      unfold rowNames
      rw [hz]
      refine List.mem_flatMap.mpr ⟨it, hit, ?_⟩
      obtain ⟨j, hj, hjv⟩ := List.mem_iff_getElem.mp hv
      refine List.mem_iff_getElem.mpr ⟨j, by simp [(hlit it hit).maxPix.1] at hj ⊢; omega, ?_⟩
      simp [hjv]
    obtain ⟨j, hj, hjv⟩ := List.mem_iff_getElem.mp hp
    rw [List.length_zip] at hj
    rw [List.getElem_zip] at hjv
    simp only [Prod.mk.injEq] at hjv
    have hjr : j < (rowNames items).length := by omega
    refine ⟨j, by omega, ?_, ?_⟩
    · rw [hname]
      simp [List.getD, hjr, hjv.1]
    · have hkey : "star_MaxSignal_inPixel" ∈ M.keys := hM.star _ (by simp)
      have hxv : x "star_MaxSignal_inPixel" j = v := by
        have hjm : j < (items.flatMap (fun it => it.out.maxInPixel)).length := by omega
        rw [hx]
        simp only [cellAt, hM.maxPix, Option.getD_some, col, List.getD, List.getElem?_map, List.getElem?_eq_getElem hjm, Option.map_some]
        simp [cellVal, hjv.2]
      have : x "star_MaxSignal_inPixel" j ≤ Table.maxTotal M x j := by
        unfold Table.maxTotal
        apply le_sum_of_mem
        · intro y hy
          obtain ⟨k, hk, rfl⟩ := List.mem_map.mp hy
          rw [List.mem_filter] at hk
          exact x0 k hk.1 (.inr (.inl hk.2)) j (by omega)
        · exact List.mem_map_of_mem (f := fun k => x k j) (List.mem_filter.mpr ⟨hkey, by decide⟩)
      rw [hxv] at this
      linarith
  subst hN hname hx
  exact ⟨hchn, hTT, hgroup, hbright⟩

/-- C72: if the payload is built, the foregrounds and the source can be made, and their light gets through every channel, then
the observation succeeds. The table of the target has the rows of all channels, in order; the columns the channels had, the
columns of the foregrounds and of the target; one positive frame time per channel; and a total noise for every row with
signal. -/
theorem observation_complete (w : World) (p : Payload) (sec : Foreground.Section ℝ) (hsec : p.foreground = some sec)
    (d : Source.Descr) (hd : p.source = some d) (items : List Obs) (hne : items ≠ []) (hch : p.channels = items.map Obs.ch)
    (hnames : (items.map (fun it => it.ch.noise.value)).Nodup) (hfill : Fillable (items.map Obs.tab))
    (t : Target) (hf : Ready t) (sky : Foreground.Sky ℝ)
    (hsky : Foreground.estimateForegrounds w.consts.B w.maps w.skyGrid sec t.sky = (sky, .ok ())) (b : Source.Built ℝ)
    (hb : Source.loadSource w.consts w.env w.grid d t.star p.wlMin p.wlMax = .ok b)
    (hbuilt : ∀ it ∈ items, it.BuiltTable) (hlit : ∀ it ∈ items, it.Lit sky b.sed)
    (well fw freq dark rn : NoiseChannel → ℝ)
    (hdet : ∀ it ∈ items, GoodDetector it.ch.noise.detector (well it.ch.noise) (fw it.ch.noise) (freq it.ch.noise) (dark it.ch.noise) (rn it.ch.noise))
    (hX : ∀ it ∈ items, -1 ≤ it.ch.noise.noiseX.getD 0)
    (hcust : ∀ it ∈ items, (∀ e ∈ entries it.ch.common, GoodEntry e) ∧ ∀ e ∈ entries it.ch.noise.customNoise, GoodEntry e) :
    ∃ (tabs' : List (Table ℝ)) (r : Table ℝ) (ft : String → ℝ) (tot : List (Num ℝ)),
      observe w p (items.map Obs.tab) t = (tabs', .ok { t with sky := sky, built := some b, table := some r }) ∧
      r.keys.Nodup ∧
      r.get? "chName" = some ((rowNames items).map Cell.str) ∧
      r.get? "starFlux" = some (col (items.flatMap (fun it => it.out.starFlux))) ∧
      r.get? "starSignal" = some (col (items.flatMap (fun it => it.out.starSignal))) ∧
      r.get? "star_signal_inAperture" = some (col (items.flatMap (fun it => it.out.inAperture))) ∧
      r.get? "star_MaxSignal_inPixel" = some (col (items.flatMap (fun it => it.out.maxInPixel))) ∧
      (∀ k ∉ starNames, (∃ it ∈ items, k ∈ it.fg.keys) → substr "_noise" k = false → r.get? k = some (stackedCol (items.map Obs.fg) k)) ∧
      (∀ k ∉ starNames, (∃ it ∈ items, k ∈ it.tab.keys) → (∀ it ∈ items, k ∉ it.fg.keys) → substr "_noise" k = false →
        k ≠ "frameTime" → k ≠ "saturation_time" → r.get? k = some (stackedCol (items.map Obs.tab) k)) ∧
      r.get? "frameTime" = some ((rowNames items).map (fun nm => .num (.fin (ft nm)))) ∧ (∀ it ∈ items, 0 < ft it.ch.noise.value) ∧
      r.get? "total_noise" = some (tot.map Cell.num) ∧ tot.length = (rowNames items).length ∧
      ∀ (i : ℕ) (v : ℝ), (items.flatMap (fun it => it.out.inAperture))[i]? = some v →
        (v = 0 → tot[i]? = some Num.nan) ∧ (v ≠ 0 → ∃ T : ℝ, tot[i]? = some (Num.fin T) ∧ 0 ≤ T) := by
  obtain ⟨tabs', M, s1, s2, s3, s4, h1, h2, h3, h4, h5, hM⟩ := before_noise w p sec hsec d hd items hne hch hfill t hf sky hsky b hb hbuilt hlit
  obtain ⟨hchn, hTT, hgroup, hbright⟩ := merged_ready items hne p.channels hch hnames sky b.sed hbuilt hlit M hM
  have hlen : (rowNames items).length = (items.map Obs.n).sum := length_flatMap_sum _ _ _ (fun it _ => by simp)
  obtain ⟨N, hN⟩ : ∃ N, N = (items.map Obs.n).sum := ⟨_, rfl⟩
  obtain ⟨name, hname⟩ : ∃ name : ℕ → String, name = fun i => (rowNames items).getD i "" := ⟨_, rfl⟩
  obtain ⟨x, hx⟩ : ∃ x : String → ℕ → ℝ, x = cellAt M := ⟨_, rfl⟩
  rw [← hN, ← hname] at hTT hgroup
  rw [← hx] at hTT
  have hrange : ∀ {β : Type} (g : String → β), (rowNames items).map g = (List.range N).map (fun i => g (name i)) := by
    intro β g
    apply List.ext_getElem (by simp [hlen, hN])
    intro i h1 h2
    have : i < (rowNames items).length := by simpa using h1
    simp [hname, List.getD, this]
  have hbright' : ∀ c ∈ p.channels.map (fun c => (c.noise, c.common)), ∃ i < N, name i = c.1.value ∧ 0 < Table.maxTotal M x i := by
    subst hN hname hx
    exact hbright
  have hmem : ∀ c ∈ p.channels.map (fun c => (c.noise, c.common)), ∃ it ∈ items, c = (it.ch.noise, it.ch.common) := by
    intro c hc
    rw [hch, List.map_map] at hc
    obtain ⟨it, hit, rfl⟩ := List.mem_map.mp hc
    exact ⟨it, hit, rfl⟩
  obtain ⟨r, ft, tot, hr, rnd, rkeep, rmax, rft, rtot, rch⟩ := estimate_noise_target M N name x hTT
    (p.channels.map (fun c => (c.noise, c.common))) (by rw [hch]; simpa using hne) hgroup hbright' well fw freq dark rn
    (fun c hc => by obtain ⟨it, hit, rfl⟩ := hmem c hc; exact hdet it hit)
    (fun c hc => by obtain ⟨it, hit, rfl⟩ := hmem c hc; exact hX it hit)
    (fun c hc => by obtain ⟨it, hit, rfl⟩ := hmem c hc; exact hcust it hit)
  have h6 : noiseStep p.channels ⟨tabs', { t with sky := sky, built := some b, table := some M }⟩ =
      (⟨tabs', { t with sky := sky, built := some b, table := some r }⟩, .ok ()) := by
    unfold noiseStep
    simp only [hr]
  have keep : ∀ k c, M.get? k = some c → substr "_noise" k = false → k ≠ "frameTime" → k ≠ "saturation_time" → r.get? k = some c := by
    intro k c hc a1 a2 a3
    rw [rkeep k (mem_keys_of_get hc) a1 a2 a3, hc]
  refine ⟨tabs', r, ft, (List.range N).map tot, (observe_ok_iff w p sec hsec _ _ _ _).mpr ⟨s1, s2, s3, s4, _, h1, h2, h3, h4, h5, h6⟩, rnd,
    keep _ _ hchn (by decide) (by decide) (by decide), keep _ _ hM.flux (by decide) (by decide) (by decide),
    keep _ _ hM.signal (by decide) (by decide) (by decide), keep _ _ hM.aperture (by decide) (by decide) (by decide),
    keep _ _ hM.maxPix (by decide) (by decide) (by decide), ?_, ?_, ?_, ?_, ?_, ?_, ?_⟩
  · intro k hk hkf hn
    obtain ⟨it, hit, hm⟩ := hkf
    obtain ⟨_, _, _, _, a5, a6⟩ := shape_ne (channelForeground_shape (hlit it hit).fg k hm)
    exact keep k _ (hM.fg k hk ⟨it, hit, hm⟩) hn a5 a6
  · intro k hk hkt hkf hn a5 a6
    exact keep k _ (hM.tab k hk hkf hkt) hn a5 a6
  · rw [rft, hrange]
  · intro it hit
    exact (rch (it.ch.noise, it.ch.common) (by rw [hch, List.map_map]; exact List.mem_map.mpr ⟨it, hit, rfl⟩)).1
  · rw [rtot, List.map_map]
    rfl
  · simp [hlen, hN]
  · intro i v hv
    have hia : i < (items.flatMap (fun it => it.out.inAperture)).length := (List.getElem?_eq_some_iff.mp hv).1
    have hil : i < N := by
      have := hM.rect _ _ hM.aperture
      rw [← hN] at this
      simp only [col, List.length_map] at this
      omega
    have hxv : x "star_signal_inAperture" i = v := by
      rw [hx]
      simp only [cellAt, hM.aperture, Option.getD_some, col, List.getD, List.getElem?_map, hv, Option.map_some]
      simp [cellVal]
    have hname' : ∃ it ∈ items, name i = it.ch.noise.value := by
      have hlt : i < (rowNames items).length := by omega
      have hm : (rowNames items)[i] ∈ rowNames items := List.getElem_mem hlt
      obtain ⟨it, hit, he⟩ := List.mem_flatMap.mp hm
      refine ⟨it, hit, ?_⟩
      rw [← List.eq_of_mem_replicate he, hname]
      simp [List.getD, hlt]
    obtain ⟨it, hit, hne'⟩ := hname'
    obtain ⟨_, _, _, hrow⟩ := rch (it.ch.noise, it.ch.common) (by rw [hch, List.map_map]; exact List.mem_map.mpr ⟨it, hit, rfl⟩)
    obtain ⟨_, hz, hnz⟩ := hrow i hil hne'
    rw [hxv] at hz hnz
    have hget : ((List.range N).map tot)[i]? = some (tot i) := by simp [hil]
    refine ⟨fun h => by rw [hget, hz h], fun h => ?_⟩
    obtain ⟨T, hT, hT0, _⟩ := hnz h
    exact ⟨T, by rw [hget, hT], hT0⟩

/-! ## From a physical payload -/

open Light in
/-- A channel of a real instrument, with its table. -/
structure Obs.Real (it : Obs) : Prop where
  table : it.BuiltTable
  chan : GoodChan it.ch.inst
  diffuse : GoodDiffuse it.ch.diffuse
  shape : BinShape it.ch.diffuse it.n
  photometer : it.ch.spectrometer = false → it.n = 1

open Light in
/-- Light that is not negative and gets through a channel of a real instrument. -/
theorem Obs.Real.lit {it : Obs} (h : it.Real) {sky : Foreground.Sky ℝ} (hsky : GoodSky sky) {fs : Dict String (Foreground.Filter ℝ)}
    (hfs : sky.foreground = some fs) (hne : fs ≠ []) {sed : Rebin.Signal ℝ} (hx : sed.wl.Pairwise (· ≤ ·)) (hwl : All0 sed.wl) (hs : All0 sed.data)
    (hfg : channelForeground sky it.ch = .ok it.fg) (hout : channelTarget it.ch sed sky.transmission = .ok it.out)
    (hb : ∃ v ∈ it.out.maxInPixel, 0 < v) : it.Lit sky sed := by
  obtain ⟨p, hp, hq⟩ : ∃ p, Foreground.propagate it.ch.diffuse it.ch.inst.qe it.ch.inst.tr sky = .ok p ∧ it.fg = foregroundTable p := by
    unfold channelForeground at hfg
    cases hp : Foreground.propagate it.ch.diffuse it.ch.inst.qe it.ch.inst.tr sky with
    | error e => simp [hp] at hfg
    | ok p =>
      simp only [hp, Except.ok.injEq] at hfg
      exact ⟨p, rfl, hfg.symm⟩
  obtain ⟨f1, f2⟩ := foreground_nonneg h.diffuse h.shape h.chan.qe h.chan.tr hfs (fun kf hkf => hsky.fg kf (by rw [hfs]; exact hkf)) hp
  have hout' : (it.out.starFlux.length = it.n ∧ it.out.starSignal.length = it.n ∧ it.out.inAperture.length = it.n ∧ it.out.maxInPixel.length = it.n) ∧
      All0 it.out.starFlux ∧ All0 it.out.starSignal ∧ All0 it.out.inAperture ∧ All0 it.out.maxInPixel := by
    unfold channelTarget at hout
    split at hout
    · exact spectrometer_nonneg h.chan hx hwl hs hsky.tr hout h.table.bins.2.1 h.table.bins.2.2
    · rename_i hsp
      rw [h.photometer (by simpa using hsp)]
      exact photometer_nonneg h.chan hx hwl hs hsky.tr hout
  obtain ⟨⟨l1, l2, l3, l4⟩, _, _, p3, p4⟩ := hout'
  refine ⟨hfg, ⟨?_, ?_, ?_⟩, ?_, hout, l1, l2, ⟨l3, p3⟩, ⟨l4, p4⟩, hb⟩
  · rw [hq]
    intro he
    have : p = [] := by simpa [foregroundTable] using he
    obtain ⟨⟨k, f⟩, hk⟩ := List.exists_mem_of_ne_nil _ hne
    have hk' : k ++ "_signal" ∈ p.keys := by
      unfold Foreground.propagate at hp
      simp only [hfs] at hp
      rw [propagateLoop_keys _ _ _ _ _ _ hp]
      exact .inr ⟨k, List.mem_map.mpr ⟨(k, f), by simpa using hk, rfl⟩, .inl rfl⟩
    rw [this] at hk'
    simp [Dict.keys] at hk'
  · rw [hq, keys_foregroundTable]
    exact f2
  · intro q hm
    rw [hq] at hm
    obtain ⟨r, hr, rfl⟩ := List.mem_map.mp hm
    simpa [col] using (f1 r hr).1
  · intro q hm c hc
    rw [hq] at hm
    obtain ⟨r, hr, rfl⟩ := List.mem_map.mp hm
    obtain ⟨v, hv, rfl⟩ := List.mem_map.mp hc
    exact ⟨v, rfl, (f1 r hr).2 v hv⟩

open Light in
/-- The light of a real sky and of the target gets through the channels of a real instrument. -/
theorem observation_lit (w : World) (hpi : w.consts.pi = Real.pi) (hB : w.consts.B = planck) (henv : GoodFiles w.env)
    (hmaps : ∀ p rows, w.maps.file p = some (.ok rows) → ∀ r ∈ rows, 0 ≤ r.2.2)
    (hskyGrid : w.skyGrid.Pairwise (· ≤ ·) ∧ ∀ x ∈ w.skyGrid, 0 < x)
    (hgrid : ∀ a b, 0 < a → a ≤ b → (w.grid a b).Pairwise (· ≤ ·) ∧ ∀ x ∈ w.grid a b, 0 < x)
    (p : Payload) (sec : Foreground.Section ℝ) (hsec0 : sec.list ≠ [])
    (hdescr : ∀ kd ∈ sec.list, GoodDescr kd.2) (d : Source.Descr)
    (hmin : 0 < p.wlMin.v ∧ p.wlMin.unit.getD 1 = 1) (hmax : 0 < p.wlMax.v ∧ p.wlMax.unit.getD 1 = 1)
    (items : List Obs) (hreal : ∀ it ∈ items, it.Real)
    (t : Target) (hf : Ready t) (hT : ∀ T, t.star.Teff = some T → 0 < T) (sky : Foreground.Sky ℝ)
    (hsky : Foreground.estimateForegrounds w.consts.B w.maps w.skyGrid sec t.sky = (sky, .ok ())) (b : Source.Built ℝ)
    (hb : Source.loadSource w.consts w.env w.grid d t.star p.wlMin p.wlMax = .ok b)
    (hfg : ∀ it ∈ items, channelForeground sky it.ch = .ok it.fg)
    (hout : ∀ it ∈ items, channelTarget it.ch b.sed sky.transmission = .ok it.out) (hlight : ∀ it ∈ items, ∃ v ∈ it.out.maxInPixel, 0 < v) :
    ∀ it ∈ items, it.Lit sky b.sed := by
  have hB0 : ∀ x T, 0 < x → 0 < T → 0 ≤ w.consts.B x T := by rw [hB]; exact fun x T h1 h2 => (planck_pos x T h1 h2).le
  have um1 : p.wlMin.um = p.wlMin.v := by simp [Source.Wl.um, hmin.2]
  have um2 : p.wlMax.um = p.wlMax.v := by simp [Source.Wl.um, hmax.2]
  obtain ⟨s0, a', b', hsr, hw⟩ := source_nonneg (by rw [hpi]; exact Real.pi_pos.le) hB0 henv hT (by rw [um1]; exact hmin.1) (by rw [um2]; exact hmax.1) hb
  have hab : 0 < a'.v ∧ a'.v ≤ b'.v := by
    have h0 := sortRange_spec (by rw [um1]; exact hmin.1) (by rw [um2]; exact hmax.1) hsr
    have h1 : a'.um = a'.v ∧ b'.um = b'.v := by
      unfold Source.sortRange at hsr
      split at hsr
      · split at hsr <;> cases hsr <;> exact ⟨by assumption, by assumption⟩
      · split at hsr <;> cases hsr <;> exact ⟨by assumption, by assumption⟩
      · cases hsr
    rw [h1.1, h1.2] at h0
    exact h0
  have hsky' := hsky
  rw [estimateForegrounds_loop] at hsky'
  have g0 : GoodSky t.sky := by
    refine ⟨?_, ?_⟩
    · rw [hf.fresh.1]; simp
    · rw [hf.fresh.2]; simp
  have gsky : GoodSky sky := estimate_nonneg (fun x hx => ⟨hB0 _ _ (hskyGrid.2 x hx) (by norm_num), hB0 _ _ (hskyGrid.2 x hx) (by norm_num)⟩)
    hmaps hskyGrid.1 (fun x hx => (hskyGrid.2 x hx).le) sec.list t.sky sky hdescr g0 hsky'
  obtain ⟨fs, hfs, hfs0⟩ : ∃ fs, sky.foreground = some fs ∧ fs ≠ [] := by
    have := (estimateLoop_sky w.consts.B w.maps w.skyGrid sec.list t.sky (by rw [hsky'])).1
    rw [hsky'] at this
    simp only at this
    obtain ⟨kd, hkd⟩ := List.exists_mem_of_ne_nil _ hsec0
    have hm := (this (Foreground.nameOf kd)).mpr (.inr (List.mem_map_of_mem hkd))
    cases hs : sky.foreground with
    | none => rw [hs] at hm; simp [Dict.keys] at hm
    | some fs =>
      refine ⟨fs, rfl, ?_⟩
      rintro rfl
      rw [hs] at hm
      simp [Dict.keys] at hm
  exact fun it hit => (hreal it hit).lit gsky hfs hfs0 (by rw [hw]; exact (hgrid _ _ hab.1 hab.2).1)
    (by rw [hw]; exact fun x hx => ((hgrid _ _ hab.1 hab.2).2 x hx).le) s0 (hfg it hit) (hout it hit) (hlight it hit)

open Light in
/-- C72: the observation of a target by a real instrument under a real sky. The hypotheses are about the payload and the
target, the files, and that each channel can compute its columns and gets light from the target. -/
theorem observation_succeeds (w : World) (hpi : w.consts.pi = Real.pi) (hB : w.consts.B = planck) (henv : GoodFiles w.env)
    (hmaps : ∀ p rows, w.maps.file p = some (.ok rows) → ∀ r ∈ rows, 0 ≤ r.2.2)
    (hskyGrid : w.skyGrid.Pairwise (· ≤ ·) ∧ ∀ x ∈ w.skyGrid, 0 < x)
    (hgrid : ∀ a b, 0 < a → a ≤ b → (w.grid a b).Pairwise (· ≤ ·) ∧ ∀ x ∈ w.grid a b, 0 < x)
    (p : Payload) (sec : Foreground.Section ℝ) (hsec : p.foreground = some sec) (hsec0 : sec.list ≠ [])
    (hdescr : ∀ kd ∈ sec.list, GoodDescr kd.2) (d : Source.Descr) (hd : p.source = some d)
    (hmin : 0 < p.wlMin.v ∧ p.wlMin.unit.getD 1 = 1) (hmax : 0 < p.wlMax.v ∧ p.wlMax.unit.getD 1 = 1)
    (items : List Obs) (hne : items ≠ []) (hch : p.channels = items.map Obs.ch)
    (hnames : (items.map (fun it => it.ch.noise.value)).Nodup) (hfill : Fillable (items.map Obs.tab)) (hreal : ∀ it ∈ items, it.Real)
    (t : Target) (hf : Ready t) (hT : ∀ T, t.star.Teff = some T → 0 < T) (sky : Foreground.Sky ℝ)
    (hsky : Foreground.estimateForegrounds w.consts.B w.maps w.skyGrid sec t.sky = (sky, .ok ())) (b : Source.Built ℝ)
    (hb : Source.loadSource w.consts w.env w.grid d t.star p.wlMin p.wlMax = .ok b)
    (hfg : ∀ it ∈ items, channelForeground sky it.ch = .ok it.fg)
    (hout : ∀ it ∈ items, channelTarget it.ch b.sed sky.transmission = .ok it.out) (hlight : ∀ it ∈ items, ∃ v ∈ it.out.maxInPixel, 0 < v)
    (well fw freq dark rn : NoiseChannel → ℝ)
    (hdet : ∀ it ∈ items, GoodDetector it.ch.noise.detector (well it.ch.noise) (fw it.ch.noise) (freq it.ch.noise) (dark it.ch.noise) (rn it.ch.noise))
    (hX : ∀ it ∈ items, -1 ≤ it.ch.noise.noiseX.getD 0)
    (hcust : ∀ it ∈ items, (∀ e ∈ entries it.ch.common, GoodEntry e) ∧ ∀ e ∈ entries it.ch.noise.customNoise, GoodEntry e) :
    ∃ (tabs' : List (Table ℝ)) (r : Table ℝ) (tot : List (Num ℝ)),
      observe w p (items.map Obs.tab) t = (tabs', .ok { t with sky := sky, built := some b, table := some r }) ∧
      r.get? "chName" = some ((rowNames items).map Cell.str) ∧
      r.get? "star_signal_inAperture" = some (col (items.flatMap (fun it => it.out.inAperture))) ∧
      (∀ v ∈ items.flatMap (fun it => it.out.inAperture), 0 ≤ v) ∧
      r.get? "total_noise" = some (tot.map Cell.num) ∧ tot.length = (rowNames items).length ∧
      ∀ (i : ℕ) (v : ℝ), (items.flatMap (fun it => it.out.inAperture))[i]? = some v →
        (v = 0 → tot[i]? = some Num.nan) ∧ (v ≠ 0 → ∃ T : ℝ, tot[i]? = some (Num.fin T) ∧ 0 ≤ T) := by
  have hlit := observation_lit w hpi hB henv hmaps hskyGrid hgrid p sec hsec0 hdescr d hmin hmax items hreal t hf hT sky hsky b hb hfg hout hlight
  obtain ⟨tabs', r, ft, tot, h1, _, h3, _, _, h6, _, _, _, _, _, h12, h13, h14⟩ := observation_complete w p sec hsec d hd items hne hch hnames hfill
    t hf sky hsky b hb (fun it hit => (hreal it hit).table) hlit well fw freq dark rn hdet hX hcust
  refine ⟨tabs', r, tot, h1, h3, h6, ?_, h12, h13, h14⟩
  intro v hv
  obtain ⟨it, hit, hv⟩ := List.mem_flatMap.mp hv
  exact (hlit it hit).aperture.2 v hv

end ExoRad.Pipeline
