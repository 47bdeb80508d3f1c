import Verif.Model.SlashChannel
import Verif.Props.Slash
import Verif.Props.Loaded

/-!
# C119: the name of a channel may be any text

Specification in terms of the names of the channels, the entries of the file, and of what loading a payload (C70) returns.
-/

namespace ExoRad.SlashChannel

open Hdf5 Run Slash

variable {V : Type}

/-! ## Helper lemmas -/

theorem within_keys (f : Hdf5.Group V → W V) (k : String) (ks : List String) (g : Hdf5.Group V) :
    ∀ x ∈ Dict.keys (within (k :: ks) f g).1, x ∈ Dict.keys g ∨ x = k := by
  have hset : ∀ (n : Node V) x, x ∈ (g.set k n).keys → x ∈ Dict.keys g ∨ x = k := by
    intro n x hx
    rw [Dict.keys_set] at hx
    split at hx
    · exact .inl hx
    · rcases List.mem_append.mp hx with h | h
      · exact .inl h
      · exact .inr (by simpa using h)
  intro x hx
  rw [within] at hx
  split at hx
  · exact hset _ x hx
  · exact hset _ x hx
  · exact .inl hx

theorem within_other (f : Hdf5.Group V → W V) {k x : String} (ks : List String) (g : Hdf5.Group V) (hx : x ≠ k) :
    Dict.get? (within (k :: ks) f g).1 x = g.get? x := by
  rw [within]
  split
  · exact Dict.get?_set_ne _ _ hx
  · exact Dict.get?_set_ne _ _ hx
  · rfl

/-- There is no description directly in the entry `a`. -/
def NoDescription (a : String) (chs : Hdf5.Group V) : Prop := ∀ n, chs.get? a = some n → ∃ g, n = .group g ∧ "description" ∉ Dict.keys g

theorem write_no_description {a : String} {c : ChanRec V} {chs : Hdf5.Group V} (h : NoDescription a chs) (hp : parts c.name ≠ [])
    (h1 : parts c.name ≠ [a]) (h2 : ∀ ks, parts c.name ≠ a :: "description" :: ks) : NoDescription a (writeChannel c chs).1 := by
  unfold writeChannel
  cases hc : parts c.name with
  | nil => exact absurd hc hp
  | cons k ks =>
    by_cases hk : k = a
    · subst hk
      cases ks with
      | nil => exact absurd hc h1
      | cons b ks =>
        have hb : b ≠ "description" := by
          rintro rfl
          exact h2 ks hc
        intro n hn
        rw [within] at hn
        split at hn
        · rw [Dict.get?_set_self] at hn
          simp only [Option.some.injEq] at hn
          refine ⟨_, hn.symm, ?_⟩
          intro hm
          rcases within_keys _ b ks [] _ hm with h' | h'
          · simp [Dict.keys] at h'
          · exact hb h'.symm
        · rename_i sub hs
          rw [Dict.get?_set_self] at hn
          simp only [Option.some.injEq] at hn
          refine ⟨_, hn.symm, ?_⟩
          obtain ⟨g', hg, hnd⟩ := h _ hs
          simp only [Node.group.injEq] at hg
          subst hg
          intro hm
          rcases within_keys _ b ks sub _ hm with h' | h'
          · exact hnd h'
          · exact hb h'.symm
        · exact h n hn
    · intro n hn
      rw [within_other _ ks chs (fun e => hk e.symm)] at hn
      exact h n hn

theorem within_mem (f : Hdf5.Group V → W V) (k : String) (ks : List String) (g : Hdf5.Group V) : k ∈ Dict.keys (within (k :: ks) f g).1 := by
  rw [within]
  split
  · exact Dict.mem_keys_of_get? (Dict.get?_set_self _ _ _)
  · exact Dict.mem_keys_of_get? (Dict.get?_set_self _ _ _)
  · rename_i h; exact Dict.mem_keys_of_get? h

theorem get_ne_none {κ ν : Type} [DecidableEq κ] {d : Dict κ ν} {k : κ} (h : ∃ a ∈ d, a.1 = k) : d.get? k ≠ none := by
  induction d with
  | nil => obtain ⟨a, ha, -⟩ := h; cases ha
  | cons p d ih =>
    obtain ⟨x, y⟩ := p
    rw [Dict.get?]
    split
    · simp
    · rename_i hne
      apply ih
      obtain ⟨a, ha, hk⟩ := h
      rcases List.mem_cons.mp ha with rfl | ha
      · exact absurd hk hne
      · exact ⟨a, ha, hk⟩

theorem within_mono (f : Hdf5.Group V → W V) (p : List String) (g : Hdf5.Group V) (hp : p ≠ []) {x : String} (hx : x ∈ Dict.keys g) :
    x ∈ Dict.keys (within p f g).1 := by
  cases p with
  | nil => exact absurd rfl hp
  | cons k ks =>
    by_cases h : x = k
    · rw [h]; exact within_mem f k ks g
    · have hv' : g.get? x ≠ none := fun hn => absurd hx (fun hm => by
        rw [Dict.keys, List.mem_map] at hm
        exact absurd hn (get_ne_none hm))
      obtain ⟨v, hv⟩ := Option.ne_none_iff_exists'.mp hv'
      have := within_other f ks g h
      rw [hv] at this
      exact Dict.mem_keys_of_get? this

theorem writeAll_inv {a : String} : ∀ (cs : List (ChanRec V)) (chs : Hdf5.Group V), NoDescription a chs → (∀ c ∈ cs, parts c.name ≠ []) →
    (∀ c ∈ cs, parts c.name ≠ [a]) → (∀ c ∈ cs, ∀ ks, parts c.name ≠ a :: "description" :: ks) → (writeAll cs chs).2 = .ok () →
    NoDescription a (writeAll cs chs).1 ∧ (∀ x ∈ Dict.keys chs, x ∈ Dict.keys (writeAll cs chs).1) ∧
      ∀ c ∈ cs, ∀ x, (parts c.name).head? = some x → x ∈ Dict.keys (writeAll cs chs).1
  | [], chs, h, _, _, _, _ => ⟨h, fun _ hx => hx, by simp⟩
  | c :: cs, chs, h, h1, h2, h3, hok => by
    rw [writeAll] at hok ⊢
    have hw := write_no_description h (h1 c (by simp)) (h2 c (by simp)) (h3 c (by simp))
    have hmono : ∀ x ∈ Dict.keys chs, x ∈ Dict.keys (writeChannel c chs).1 := fun x hx => within_mono _ _ _ (h1 c (by simp)) hx
    have hhead : ∀ x, (parts c.name).head? = some x → x ∈ Dict.keys (writeChannel c chs).1 := by
      intro x hx
      unfold writeChannel
      cases hc : parts c.name with
      | nil => rw [hc] at hx; cases hx
      | cons k ks =>
        rw [hc] at hx
        simp only [List.head?_cons, Option.some.injEq] at hx
        subst hx
        exact within_mem _ _ _ _
    generalize writeChannel c chs = r at hok hw hmono hhead ⊢
    obtain ⟨g, e⟩ := r
    cases e with
    | error e => simp only at hok; cases hok
    | ok u =>
      simp only at hok ⊢
      obtain ⟨i1, i2, i3⟩ := writeAll_inv cs g hw (fun c hc => h1 c (List.mem_cons_of_mem _ hc)) (fun c hc => h2 c (List.mem_cons_of_mem _ hc))
        (fun c hc => h3 c (List.mem_cons_of_mem _ hc)) hok
      refine ⟨i1, fun x hx => i2 x (hmono x hx), ?_⟩
      intro c' hc' x hx
      rcases List.mem_cons.mp hc' with rfl | hc'
      · exact i2 x (hhead x hx)
      · exact i3 c' hc' x hx

theorem loadChannels_error (unit : String → Option String) (chs : Hdf5.Group V) {a : String} (ha : ∃ e, ∀ n, chs.get? a = some n → Loaded.loadChannel unit a n = .error e) :
    ∀ l : List String, a ∈ l → ∃ e, Loaded.loadChannels unit chs l = .error e
  | [], h => by cases h
  | k :: l, h => by
    rw [Loaded.loadChannels]
    cases hk : Dict.getE chs k with
    | error e => exact ⟨e, rfl⟩
    | ok n =>
      simp only
      cases hc : Loaded.loadChannel unit k n with
      | error e => exact ⟨e, rfl⟩
      | ok c =>
        simp only
        have hka : k ≠ a := by
          rintro rfl
          obtain ⟨e, he⟩ := ha
          rw [he n ((Dict.getE_eq_ok_iff).mp hk)] at hc
          cases hc
        obtain ⟨e, he⟩ := loadChannels_error unit chs ha l ((List.mem_cons.mp h).resolve_left (Ne.symm hka))
        rw [he]
        exact ⟨e, rfl⟩

/-! ## C119 -/

/-- C119, what holds: a channel whose name is one component is written as in the run of the other properties. -/
theorem plain_channel_partial {c : ChanRec V} (h : Plain c.name) (chs : Hdf5.Group V) (hd : ∀ x, chs.get? c.name ≠ some (.ds x)) :
    writeChannel c chs = storeThing (.dict [(c.name, .table c.tableId c.cols), ("description", .dict c.description), ("built_instr", .dict c.built)]) c.name chs := by
  obtain ⟨h1, -⟩ := parts_of_plain h
  have hb : ∀ g : Hdf5.Group V, writeBody [c.name] c g =
      saveDict [(c.name, .table c.tableId c.cols), ("description", .dict c.description), ("built_instr", .dict c.built)] g := by
    intro g
    unfold writeBody
    simp only [List.dropLast_singleton, List.getLast?_singleton, Option.getD_some]
    rw [within, saveDict, saveDict]
    generalize storeThing (.table c.tableId c.cols) c.name g = r
    obtain ⟨g', e⟩ := r
    cases e with
    | ok u => simp only; rw [saveDict]
    | error e =>
      simp only
      cases e <;> rfl
  unfold writeChannel
  rw [h1, within, storeThing]
  cases hk : chs.get? c.name with
  | none => simp only; rw [within, hb]
  | some n =>
    cases n with
    | ds x => exact absurd hk (hd x)
    | group s => simp only; rw [within, hb]

/-- C119, what is false: if the name of a channel has a slash (and no channel is named like its first component), the payload can be written but never loaded again. -/
theorem slash_not_loaded {cs : List (ChanRec V)} {c : ChanRec V} (hc : c ∈ cs) {a b : String} {ks : List String} (hp : parts c.name = a :: b :: ks)
    (hall : ∀ x ∈ cs, parts x.name ≠ []) (h1 : ∀ x ∈ cs, parts x.name ≠ [a])
    (h3 : ∀ x ∈ cs, ∀ ks, parts x.name ≠ a :: "description" :: ks) (hok : (writeAll cs []).2 = .ok ())
    (unit : String → Option String) {file p : Hdf5.Group V} (hpay : file.get? "payload" = some (.group p)) (hch : p.get? "channels" = some (.group (writeAll cs []).1)) :
    ∃ e, Loaded.loadPayload unit file = .error e := by
  obtain ⟨i1, -, i3⟩ := writeAll_inv (a := a) cs [] (by intro n hn; cases hn) hall h1 h3 hok
  have ha : a ∈ Dict.keys (writeAll cs []).1 := i3 c hc a (by rw [hp]; rfl)
  have hl : ∃ e, ∀ n, Dict.get? (writeAll cs []).1 a = some n → Loaded.loadChannel unit a n = .error e := by
    refine ⟨.keyError, ?_⟩
    intro n hn
    obtain ⟨g, rfl, hg⟩ := i1 n hn
    have : Loaded.member (.group g) "description" = .error .keyError := by
      unfold Loaded.member Dict.getE
      simp only [get_none hg]
    unfold Loaded.loadChannel
    rw [this]
  obtain ⟨e, he⟩ := loadChannels_error unit _ hl (Loaded.h5Keys (writeAll cs []).1) (by
    unfold Loaded.h5Keys
    exact (List.mergeSort_perm _ _).mem_iff.mpr ha)
  have e1 : Dict.getE file "payload" = .ok (.group p) := Dict.getE_eq_ok_iff.mpr hpay
  have e2 : Loaded.member (.group p) "channels" = .ok (.group (writeAll cs []).1) := Dict.getE_eq_ok_iff.mpr hch
  unfold Loaded.loadPayload
  rw [e1]
  simp only
  split
  · exact ⟨_, rfl⟩
  · split
    · exact ⟨_, rfl⟩
    · rw [e2]
      simp only
      rw [he]
      exact ⟨e, rfl⟩

/-! ## Example -/

namespace Demo

/-- A channel with this name. -/
def chan (name : String) : ChanRec ℕ := ⟨name, "id", [], [("channelClass", .dict [("value", .str "Photometer")])], []⟩

theorem parts_eq : parts "a/b" = ["a", "b"] ∧ parts "c" = ["c"] := by decide +kernel

/-- Writing the channels `c` and `a/b` works; the file then has the channels `a` and `c`. -/
theorem written : (writeAll [chan "c", chan "a/b"] []).2 = .ok () ∧ Dict.keys (writeAll [chan "c", chan "a/b"] []).1 = ["c", "a"] := by
  simp [writeAll, writeChannel, writeBody, within, chan, parts_eq, saveDict, storeThing, writeTable, createDs, createGroupWith, metaKey, columnGroups, Dict.get?, Dict.set, Dict.keys]

/-- Where things go for `a/b`: its description is in the group `a/b`, its table in the group `a` inside of that. -/
theorem nested : ∃ x y t : Hdf5.Group ℕ, (writeAll [chan "a/b"] []).1 = [("a", .group x)] ∧ x = [("b", .group y)] ∧
    Dict.keys y = ["a", "description", "built_instr"] ∧ Dict.get? y "a" = some (.group t) ∧ Dict.keys t = ["b", "b.__table_column_meta__", "b_to_group"] := by
  simp [writeAll, writeChannel, writeBody, within, chan, parts_eq, saveDict, storeThing, writeTable, createDs, createGroupWith, metaKey, columnGroups, Dict.get?, Dict.set, Dict.keys]

/-- A file with these channels. -/
def file : Hdf5.Group ℕ := [("payload", .group [("payload description", .group []), ("channels", .group (writeAll [chan "c", chan "a/b"] []).1)])]

example : ∃ e, Loaded.loadPayload (fun s => some s) file = .error e := by
  refine slash_not_loaded (cs := [chan "c", chan "a/b"]) (c := chan "a/b") (a := "a") (b := "b") (ks := []) (by simp) parts_eq.1 ?_ ?_ ?_ written.1 _
    (p := [("payload description", .group []), ("channels", .group (writeAll [chan "c", chan "a/b"] []).1)]) rfl rfl
  all_goals simp [chan, parts_eq]

example : Plain (chan "c").name := ⟨by decide, by decide, by decide⟩

end Demo

end ExoRad.SlashChannel
