import Verif.Model.Import
import Verif.Props.Misc
import Verif.Props.LogRun

/-!
# C96: importing the package, the network and the repository
-/

set_option linter.unusedSectionVars false

namespace ExoRad.Import

/-! ## Texts -/

theorem splitLoop_line (l rest cur : List Char) (hl : ∀ c ∈ l, isLineEnd c = false) (cr : Bool) (hcr : cr = false ∨ l ≠ []) :
    splitLoop cur cr (l ++ '\n' :: rest) = (cur.reverse ++ l) :: splitLoop [] false rest := by
  induction l generalizing cur cr with
  | nil =>
    have : cr = false := by
      rcases hcr with h | h
      · exact h
      · exact absurd rfl h
    subst this
    simp [splitLoop, isLineEnd]
  | cons c l ih =>
    have hc := hl c (by simp)
    have h10 : c ≠ '\n' := by
      rintro rfl
      simp [isLineEnd] at hc
    rw [List.cons_append]
    have e : ∀ (x : List Char), splitLoop cur cr (c :: x) = if (cr && decide (c = '\n')) = true then splitLoop cur false x
        else if isLineEnd c = true then cur.reverse :: splitLoop [] (decide (c = '\r')) x else splitLoop (c :: cur) false x := fun x => rfl
    rw [e, if_neg (by simp [h10]), if_neg (by simp [hc]), ih (c :: cur) (fun c hc => hl c (List.mem_cons_of_mem _ hc)) false (Or.inl rfl)]
    rw [List.reverse_cons, List.append_assoc]
    rfl

/-- The characters that end a line. -/
def lineEnds : List Char := ['\n', Char.ofNat 11, Char.ofNat 12, '\r', Char.ofNat 28, Char.ofNat 29, Char.ofNat 30]

theorem isLineEnd_iff (c : Char) : isLineEnd c = true ↔ c ∈ lineEnds := by
  have h : ∀ n : ℕ, n < 128 → (c.toNat = n ↔ c = Char.ofNat n) := by
    intro n hn
    constructor
    · rintro rfl; exact (Char.ofNat_toNat c).symm
    · rintro rfl
      have : ∀ n : Fin 128, (Char.ofNat n.val).toNat = n.val := by decide
      exact this ⟨n, hn⟩
  simp only [isLineEnd, Bool.or_eq_true, decide_eq_true_eq, lineEnds, List.mem_cons, List.not_mem_nil, or_false]
  rw [h 10 (by omega), h 11 (by omega), h 12 (by omega), h 13 (by omega), h 28 (by omega), h 29 (by omega), h 30 (by omega)]
  simp only [or_assoc]

theorem splitLoop_no_ends : ∀ (s cur : List Char) (cr : Bool), (∀ c ∈ cur, c ∉ lineEnds) → ∀ l ∈ splitLoop cur cr s, ∀ c ∈ l, c ∉ lineEnds
  | [], cur, cr, h => by
    intro l hl c hc
    unfold splitLoop at hl
    split at hl
    · cases hl
    · rw [List.mem_singleton] at hl
      subst hl
      exact h c (by simpa using hc)
  | x :: s, cur, cr, h => by
    intro l hl c hc
    unfold splitLoop at hl
    split at hl
    · exact splitLoop_no_ends s cur false h l hl c hc
    · split at hl
      · rcases List.mem_cons.mp hl with rfl | hl
        · exact h c (by simpa using hc)
        · exact splitLoop_no_ends s [] _ (by simp) l hl c hc
      · rename_i hx
        refine splitLoop_no_ends s (x :: cur) false ?_ l hl c hc
        intro y hy
        rcases List.mem_cons.mp hy with rfl | hy
        · exact fun hm => hx ((isLineEnd_iff _).mpr hm)
        · exact h y hy

/-- No line has a line end in it. -/
theorem splitlines_no_ends (s : List Char) : ∀ l ∈ splitlines s, ∀ c ∈ l, c ∉ lineEnds := by
  unfold splitlines
  exact splitLoop_no_ends s [] false (by simp)

/-- Lines joined with their ends come back. -/
theorem splitlines_lines (ls : List (List Char)) (h : ∀ l ∈ ls, ∀ c ∈ l, isLineEnd c = false) :
    splitlines (ls.flatMap (fun l => l ++ ['\n'])) = ls := by
  unfold splitlines
  induction ls with
  | nil => rfl
  | cons l ls ih =>
    rw [List.flatMap_cons, List.append_assoc, List.singleton_append, splitLoop_line l _ [] (h l (by simp)) false (Or.inl rfl),
      ih (fun l hl => h l (List.mem_cons_of_mem _ hl))]
    rfl

theorem splitSlash_ne (s : List Char) : splitSlash s ≠ [] := by
  cases s with
  | nil => simp [splitSlash]
  | cons c cs =>
    unfold splitSlash
    split
    · simp
    · split <;> simp

theorem splitSlash_word (w : List Char) (hw : '/' ∉ w) : splitSlash w = [w] := by
  induction w with
  | nil => rfl
  | cons c w ih =>
    simp only [List.mem_cons, not_or] at hw
    unfold splitSlash
    rw [ih hw.2]
    simp [Ne.symm hw.1]

theorem splitSlash_slash (a b : List Char) : splitSlash (a ++ '/' :: b) = splitSlash a ++ splitSlash b := by
  induction a with
  | nil =>
    show splitSlash ('/' :: b) = [[]] ++ splitSlash b
    conv_lhs => unfold splitSlash
    cases h : splitSlash b with
    | nil => exact absurd h (splitSlash_ne b)
    | cons w ws => simp
  | cons c a ih =>
    rw [List.cons_append]
    have e : ∀ x : List Char, splitSlash (c :: x) = match splitSlash x with
        | [] => [[c]]
        | w :: ws => if c = '/' then [] :: w :: ws else (c :: w) :: ws := fun x => rfl
    rw [e, e, ih]
    cases h : splitSlash a with
    | nil => exact absurd h (splitSlash_ne a)
    | cons w ws =>
      simp only [List.cons_append]
      split <;> rfl

/-- The repository that is asked is named by the last two parts of the address of the package. -/
theorem address_repo (pre a b : List Char) (ha : '/' ∉ a) (hb : '/' ∉ b) :
    address (some (pre ++ '/' :: a ++ '/' :: b)) =
      .ok ("https://api.github.com/repos/".toList ++ a ++ '/' :: b ++ "/contents/CHANGELOG.md".toList) := by
  unfold address
  dsimp only
  rw [splitSlash_slash, splitSlash_slash, splitSlash_word a ha, splitSlash_word b hb]
  simp

/-- An address that ends with a slash asks for a repository without a name. -/
theorem address_slash (pre a : List Char) (ha : '/' ∉ a) : address (some (pre ++ '/' :: a ++ ['/'])) =
    .ok ("https://api.github.com/repos/".toList ++ a ++ '/' :: "/contents/CHANGELOG.md".toList) := by
  have := address_repo pre a [] ha (by simp)
  simpa using this

theorem address_ok_iff (url : Option (List Char)) : (∃ u, address url = .ok u) ↔ ∃ u, url = some u ∧ '/' ∈ u := by
  constructor
  · rintro ⟨u, hu⟩
    cases url with
    | none => simp [address] at hu
    | some w =>
      refine ⟨w, rfl, ?_⟩
      by_contra hw
      unfold address at hu
      dsimp only at hu
      rw [splitSlash_word w hw] at hu
      simp at hu
  · rintro ⟨w, rfl, hw⟩
    obtain ⟨a, b, rfl⟩ := List.append_of_mem hw
    unfold address
    dsimp only
    rw [splitSlash_slash, List.reverse_append]
    cases hb : (splitSlash b).reverse with
    | nil => exact absurd (List.reverse_eq_nil_iff.mp hb) (splitSlash_ne b)
    | cons x xs =>
      cases xs with
      | nil =>
        cases ha : (splitSlash a).reverse with
        | nil => exact absurd (List.reverse_eq_nil_iff.mp ha) (splitSlash_ne a)
        | cons y ys => simp
      | cons y ys => simp

/-! ## The network -/

/-- An answer that can be read: any status but 200, or a JSON object whose content is ASCII in base 64. -/
def Readable (a : Answer) : Prop := a.status ≠ 200 ∨ ∃ bs, a.body = .content (some bs) ∧ ∀ b ∈ bs, b < 128

theorem linesOf_ok_iff (a : Answer) : (∃ ls, linesOf a = .ok ls) ↔ Readable a := by
  unfold linesOf Readable
  by_cases hs : a.status = 200
  · rw [if_pos hs]
    cases hb : a.body with
    | notJson => simp [hs]
    | noContent => simp [hs]
    | content o =>
      cases o with
      | none => simp [hs]
      | some bs =>
        by_cases h : bs.all (fun b => b < 128) = true
        · have h' : ∀ b ∈ bs, b < 128 := by simpa using h
          simp only [ascii, h, if_true]
          exact ⟨fun _ => Or.inr ⟨bs, rfl, h'⟩, fun _ => ⟨_, rfl⟩⟩
        · have h' : ¬ ∀ b ∈ bs, b < 128 := by simpa using h
          simp only [ascii, h]
          constructor
          · rintro ⟨ls, h⟩; simp at h
          · rintro (h | ⟨bs', e, h⟩)
            · exact absurd hs h
            · simp only [Body.content.injEq, Option.some.injEq] at e
              exact absurd (e ▸ h) h'
  · rw [if_neg hs]
    exact ⟨fun _ => Or.inl hs, fun _ => ⟨_, rfl⟩⟩

theorem versionControl_ok_iff (n : Net) (url : Option (List Char)) (cur : List Char) (p : Proc) :
    (versionControl n url cur p).2 = .ok () ↔
      (n.reachable = true → ∃ u a, address url = .ok u ∧ n.get u = some a ∧ Readable a) := by
  unfold versionControl checkInternet
  by_cases hr : n.reachable = true
  · simp only [hr, if_true, true_imp_iff]
    unfold getContent
    cases ha : address url with
    | error e => simp
    | ok u =>
      cases hg : n.get u with
      | none => simp [hg]
      | some a =>
        have hl := linesOf_ok_iff a
        cases h : linesOf a with
        | error e =>
          rw [h] at hl
          have : ¬ Readable a := by rw [← hl]; simp
          simp only [hg, h, Except.ok.injEq, exists_and_left, exists_eq_left', Option.some.injEq, this, and_false]
          simp
        | ok o =>
          rw [h] at hl
          have : Readable a := hl.mp ⟨o, rfl⟩
          have rhs : ∃ u' a', (Except.ok u : Except Exc (List Char)) = .ok u' ∧ n.get u' = some a' ∧ Readable a' := ⟨u, a, rfl, hg, this⟩
          simp only [hg, h, rhs, iff_true]
          match o with
          | none => rfl
          | some [] => rfl
          | some (l :: ls) => rfl
  · simp [hr]

/-! ## The repository -/

/-- A git directory that can be read: none at all, or a directory whose HEAD is a file that does not name a directory. -/
def Checkout (g : GitDir) : Prop :=
  g = .absent ∨ ∃ entry t, g = .dir entry ∧ entry headName = .text t ∧ (strip t).drop 5 ≠ [] ∧ entry ((strip t).drop 5) ≠ .directory

theorem provenance_ok_iff (g : GitDir) : (∃ v, provenance g = .ok v) ↔ Checkout g := by
  unfold Checkout
  cases g with
  | absent => simp [provenance]
  | file => simp [provenance]
  | dir entry =>
    unfold provenance
    cases h : entry headName with
    | missing => simp [h]
    | directory => simp [h]
    | text t =>
      by_cases hd : (strip t).drop 5 = []
      · have : ¬ ∃ entry' t', GitDir.dir entry = .dir entry' ∧ entry' headName = .text t' ∧ (strip t').drop 5 ≠ [] ∧
            entry' ((strip t').drop 5) ≠ .directory := by
          rintro ⟨e', t', h1, h2, h3, _⟩
          cases h1
          rw [h] at h2
          cases h2
          exact h3 hd
        simp only [h, hd, if_true, commitOf, reduceCtorEq, exists_false, false_or, this]
      · simp only [h, hd, if_false]
        cases he : entry ((strip t).drop 5) with
        | missing => exact ⟨fun _ => Or.inr ⟨entry, t, rfl, h, hd, by simp [he]⟩, fun _ => ⟨_, rfl⟩⟩
        | text c => exact ⟨fun _ => Or.inr ⟨entry, t, rfl, h, hd, by simp [he]⟩, fun _ => ⟨_, rfl⟩⟩
        | directory =>
          constructor
          · rintro ⟨v, hv⟩; simp [commitOf] at hv
          · rintro (h' | ⟨e', t', h1, h2, _, h4⟩)
            · cases h'
            · cases h1
              rw [h] at h2
              cases h2
              exact absurd he h4

/-! ## C96 -/

/-- C96: the package can be imported exactly when the repository around it can be read and either there is no network or the answer to the
question for a newer version can be read. -/
theorem import_ok_iff (g : GitDir) (n : Net) (url : Option (List Char)) (cur : List Char) (p : Proc) :
    (∃ v, (importPackage g n url cur p).2 = .ok v) ↔
      Checkout g ∧ (n.reachable = true → ∃ u a, address url = .ok u ∧ n.get u = some a ∧ Readable a) := by
  rw [← provenance_ok_iff, ← versionControl_ok_iff n url cur p]
  unfold importPackage
  cases hg : provenance g with
  | error e => simp
  | ok v =>
    cases hv : versionControl n url cur p with
    | mk p' r =>
      cases r with
      | error e => simp
      | ok x => simp

/-- C96: without network the import succeeds, and shows no message of the package. -/
theorem import_offline_partial (g : GitDir) (hg : Checkout g) (n : Net) (hn : n.reachable = false) (url : Option (List Char)) (cur : List Char) (p : Proc) :
    ∃ v, provenance g = .ok v ∧ importPackage g n url cur p = ({ p with timeout := some 3, printed := p.printed + 1 }, .ok v) := by
  obtain ⟨v, hv⟩ := (provenance_ok_iff g).mpr hg
  refine ⟨v, hv, ?_⟩
  simp [importPackage, hv, versionControl, checkInternet, hn]

/-- C96, what does not hold: with a network in which the list of changes cannot be fetched, the import raises, whatever the reason. -/
theorem import_blocked (g : GitDir) (n : Net) (hn : n.reachable = true) (hget : ∀ u, n.get u = none) (url : Option (List Char)) (cur : List Char)
    (p : Proc) : ∃ e, (importPackage g n url cur p).2 = .error e := by
  cases h : (importPackage g n url cur p).2 with
  | error e => exact ⟨e, rfl⟩
  | ok v =>
    obtain ⟨_, h2⟩ := (import_ok_iff g n url cur p).mp ⟨v, h⟩
    obtain ⟨u, a, _, h3, _⟩ := h2 hn
    rw [hget u] at h3
    cases h3

/-- C96, what does not hold: one character outside ASCII in the list of changes online makes every installed copy fail to import. -/
theorem import_not_ascii (g : GitDir) (n : Net) (hn : n.reachable = true) (url : Option (List Char)) (cur : List Char) (p : Proc)
    (u : List Char) (hu : address url = .ok u) (bs : List Nat) (hget : n.get u = some ⟨200, .content (some bs)⟩) (b : Nat) (hb : b ∈ bs) (h128 : 128 ≤ b) :
    ∃ e, (importPackage g n url cur p).2 = .error e := by
  cases h : (importPackage g n url cur p).2 with
  | error e => exact ⟨e, rfl⟩
  | ok v =>
    obtain ⟨_, h2⟩ := (import_ok_iff g n url cur p).mp ⟨v, h⟩
    obtain ⟨u', a, h3, h4, h5⟩ := h2 hn
    rw [hu, Except.ok.injEq] at h3
    subst h3
    rw [hget, Option.some.injEq] at h4
    subst h4
    rcases h5 with h5 | ⟨bs', h5, h6⟩
    · exact absurd rfl h5
    · simp only [Body.content.injEq, Option.some.injEq] at h5
      subst h5
      exact absurd (h6 b hb) (by omega)

/-- C96, what does not hold: a package inside a worktree or submodule, where `.git` is a file, cannot be imported. -/
theorem import_worktree (n : Net) (url : Option (List Char)) (cur : List Char) (p : Proc) :
    importPackage .file n url cur p = (p, .error .osError) := rfl

/-- C96: every import that gets past the repository leaves 3 seconds as the timeout of all sockets of the process. -/
theorem import_timeout (g : GitDir) (hg : Checkout g) (n : Net) (url : Option (List Char)) (cur : List Char) (p : Proc) :
    (importPackage g n url cur p).1.timeout = some 3 := by
  obtain ⟨v, hv⟩ := (provenance_ok_iff g).mpr hg
  have : (versionControl n url cur p).1.timeout = some 3 := by
    unfold versionControl checkInternet
    by_cases hr : n.reachable = true
    · simp only [hr, if_true]
      cases getContent n url with
      | error e => rfl
      | ok o =>
        match o with
        | none => rfl
        | some [] => rfl
        | some (l :: ls) =>
          unfold report
          dsimp only
          split <;> rfl
    · simp [hr]
  unfold importPackage
  rw [hv]
  cases h : versionControl n url cur p with
  | mk p' r => cases r <;> (rw [h] at this; exact this)

theorem logAll_screen (s : Log.State) (hr : s.rank = 0) (ms : List Log.Msg) (h : ∀ m ∈ ms, 10 ≤ m.level ∧ s.level ≤ m.level) :
    (Log.logAll s ms).screen = s.screen ++ ms := by
  induction ms generalizing s with
  | nil => simp [Log.logAll]
  | cons m ms ih =>
    obtain ⟨h1, h2⟩ := h m (by simp)
    have hs : (Log.log s m).screen = s.screen ++ [m] := by
      rw [Log.log_screen, if_pos ⟨h1, h2, Or.inl hr⟩]
    show (Log.logAll (Log.log s m) ms).screen = _
    rw [ih (Log.log s m) ((Log.log_rank s m).trans hr) (fun m' hm' => by rw [Log.log_level]; exact h m' (List.mem_cons_of_mem _ hm')), hs,
      List.append_assoc]
    rfl

/-- C96: when the list of changes can be fetched (written as lines; its first release header names `v`), the import succeeds and the screen
warns exactly if `v` is not the running version, then with the running and the online version. -/
theorem import_warns (g : GitDir) (hg : Checkout g) (n : Net) (hn : n.reachable = true) (url : Option (List Char)) (cur : List Char) (p : Proc)
    (hrank : p.log.rank = 0) (hlevel : p.log.level ≤ 30) (u : List Char) (hu : address url = .ok u) (v post : List Char) (before rest : List (List Char))
    (hb : ∀ l ∈ before, Misc.isHeader l = false) (h1 : '[' ∉ v) (h2 : ']' ∉ v) (h3 : '[' ∉ post) (hc : ']' ∉ cur) (hv : v ≠ "Unreleased".toList)
    (hlines : ∀ l ∈ before ++ ("## [".toList ++ v ++ ']' :: post) :: rest, ∀ c ∈ l, isLineEnd c = false ∧ c.toNat < 128)
    (hget : n.get u = some ⟨200, .content (some (((before ++ ("## [".toList ++ v ++ ']' :: post) :: rest).flatMap (fun l => l ++ ['\n'])).map Char.toNat))⟩) :
    ∃ w, (importPackage g n url cur p).2 = .ok w ∧ ∃ ms : List Log.Msg, (importPackage g n url cur p).1.log.screen = p.log.screen ++ ms ∧
      (ms = [] ↔ v = cur) ∧ (v ≠ cur → (⟨30, "your version: " ++ String.ofList cur ++ "  - online version:" ++ String.ofList v⟩ : Log.Msg) ∈ ms) := by
  obtain ⟨w, hw⟩ := (provenance_ok_iff g).mpr hg
  refine ⟨w, ?_⟩
  obtain ⟨m1, m2, _⟩ := Misc.version_message cur v post before rest hb h1 h2 h3 hc hv
  generalize hL : before ++ ("## [".toList ++ v ++ ']' :: post) :: rest = L at *
  have hL0 : L ≠ [] := by rw [← hL]; simp
  have hasc : ascii ((L.flatMap (fun l => l ++ ['\n'])).map Char.toNat) = .ok (L.flatMap (fun l => l ++ ['\n'])) := by
    unfold ascii
    rw [if_pos]
    · rw [List.map_map]
      congr 1
      have : (Char.ofNat ∘ Char.toNat) = id := by
        funext c
        exact Char.ofNat_toNat c
      rw [this, List.map_id]
    · rw [List.all_eq_true]
      intro b hb
      obtain ⟨c, hc, rfl⟩ := List.mem_map.mp hb
      obtain ⟨l, hl, hcl⟩ := List.mem_flatMap.mp hc
      rcases List.mem_append.mp hcl with h | h
      · simpa using (hlines l hl c h).2
      · rw [List.mem_singleton] at h
        subst h
        decide
  have hsp : splitlines (L.flatMap (fun l => l ++ ['\n'])) = L := splitlines_lines L (fun l hl c hc => (hlines l hl c hc).1)
  have hcont : getContent n url = .ok (some L) := by
    unfold getContent
    rw [hu]
    simp only [hget, linesOf, if_true, hasc, hsp]
  have hvc : versionControl n url cur p = (report cur { p with timeout := some 3 } L, .ok ()) := by
    unfold versionControl checkInternet
    simp only [hn, if_true, hcont]
    cases L with
    | nil => exact absurd rfl hL0
    | cons l ls => rfl
  have himp : importPackage g n url cur p = (report cur { p with timeout := some 3 } L, .ok w) := by
    unfold importPackage
    rw [hw, hvc]
  rw [himp]
  refine ⟨rfl, ?_⟩
  cases hm : Misc.getMessage cur L with
  | mk msg new =>
    rw [hm] at m1 m2
    simp only at m1 m2
    by_cases he : msg = []
    · refine ⟨[], ?_, ?_, ?_⟩
      · simp [report, hm, he]
      · exact ⟨fun _ => m1.mp he, fun _ => rfl⟩
      · intro hne
        exact absurd (m1.mp he) hne
    · have hne : v ≠ cur := fun e => he (m1.mpr e)
      obtain ⟨e2, _⟩ := m2 hne
      refine ⟨warnings cur new msg, ?_, ?_, ?_⟩
      · simp only [report, hm, if_neg he]
        apply logAll_screen p.log hrank
        intro m hm
        have : m.level = 30 := by
          simp only [warnings, List.mem_cons, List.not_mem_nil, or_false] at hm
          rcases hm with rfl | rfl | rfl <;> rfl
        omega
      · exact ⟨fun h => by simp [warnings] at h, fun h => absurd h hne⟩
      · intro _
        rw [← e2]
        simp [warnings, Log.WARNING]

/-- C96: on a branch, the package knows the branch and its commit. -/
theorem on_branch (entry : List Char → File) (b c : List Char) (hb : b ≠ []) (hb' : ∀ x ∈ b, isBlank x = false) (hc : ∀ x ∈ c, isBlank x = false)
    (hH : entry headName = .text ("ref: refs/heads/".toList ++ b ++ ['\n'])) (hR : entry ("refs/heads/".toList ++ b) = .text (c ++ ['\n'])) :
    provenance (.dir entry) = .ok ⟨some b, some c⟩ := by
  have stripr : ∀ w : List Char, (∀ x ∈ w, isBlank x = false) → strip (w ++ ['\n']) = w ∧ (w.reverse.dropWhile isBlank) = w.reverse := by
    intro w hw
    have h2 : w.reverse.dropWhile isBlank = w.reverse := by
      cases hr : w.reverse with
      | nil => rfl
      | cons x xs =>
        have : x ∈ w := by rw [← List.mem_reverse, hr]; simp
        simp [List.dropWhile, hw x this]
    refine ⟨?_, h2⟩
    unfold strip
    cases w with
    | nil => simp [List.dropWhile, isBlank]
    | cons x xs =>
      have hx := hw x (by simp)
      rw [List.cons_append, List.dropWhile_cons, if_neg (by simp [hx]), ← List.cons_append, List.reverse_append]
      show (List.dropWhile isBlank ('\n' :: (x :: xs).reverse)).reverse = _
      rw [List.dropWhile_cons, if_pos (by simp [isBlank]), h2, List.reverse_reverse]
  have hstrip : strip ("ref: refs/heads/".toList ++ b ++ ['\n']) = "ref: refs/heads/".toList ++ b := by
    unfold strip
    have e1 : List.dropWhile isBlank ("ref: refs/heads/".toList ++ b ++ ['\n']) = "ref: refs/heads/".toList ++ b ++ ['\n'] := by
      show List.dropWhile isBlank ('r' :: _) = _
      rw [List.dropWhile_cons, if_neg (by decide)]
      rfl
    rw [e1, List.reverse_append]
    show (List.dropWhile isBlank ('\n' :: ("ref: refs/heads/".toList ++ b).reverse)).reverse = _
    rw [List.dropWhile_cons, if_pos (by simp [isBlank]), List.reverse_append]
    cases hr : b.reverse with
    | nil => exact absurd (List.reverse_eq_nil_iff.mp hr) hb
    | cons x xs =>
      have : x ∈ b := by rw [← List.mem_reverse, hr]; simp
      rw [List.cons_append, List.dropWhile_cons, if_neg (by simp [hb' x this]), ← List.cons_append, ← hr, ← List.reverse_append, List.reverse_reverse]
  have d5 : ("ref: refs/heads/".toList ++ b).drop 5 = "refs/heads/".toList ++ b := rfl
  have d16 : ("ref: refs/heads/".toList ++ b).drop 16 = b := rfl
  unfold provenance
  dsimp only
  rw [hH]
  simp only [hstrip, d5, d16]
  rw [if_neg (by simp), hR]
  simp only [commitOf, (stripr c hc).1]

/-- C96: with a detached HEAD (or a branch whose commit git has packed) the import succeeds and no commit is recorded. -/
theorem no_commit (entry : List Char → File) (t : List Char) (hH : entry headName = .text t) (h5 : (strip t).drop 5 ≠ [])
    (hm : entry ((strip t).drop 5) = .missing) : provenance (.dir entry) = .ok ⟨some ((strip t).drop 16), none⟩ := by
  unfold provenance
  dsimp only
  rw [hH]
  simp only [if_neg h5, hm, commitOf]

/-! ## Imports -/

namespace Demo

def changelog : List (List Char) := ["# Changelog".toList, "## [Unreleased]".toList, "## [2.1.127] - 2024".toList, "- fix".toList]
def url : List Char := "https://github.com/ExObsSim/ExoRad2-public".toList
def api : List Char := "https://api.github.com/repos/ExObsSim/ExoRad2-public/contents/CHANGELOG.md".toList
def online (t : List Char) : Net := ⟨true, fun u => if u = api then some ⟨200, .content (some (t.map Char.toNat))⟩ else some ⟨404, .notJson⟩⟩
def text : List Char := changelog.flatMap (fun l => l ++ ['\n'])
def proc : Proc := ⟨none, 0, Log.fresh 0 []⟩
def work (p : List Char) : File :=
  if p = "HEAD".toList then .text "ref: refs/heads/main\n".toList else if p = "refs/heads/main".toList then .text "abc\n".toList else .missing

theorem demo_address : address (some url) = .ok api := by decide

theorem demo_repo : provenance (.dir work) = .ok ⟨some "main".toList, some "abc".toList⟩ :=
  on_branch work "main".toList "abc".toList (by decide) (by decide) (by decide) (by decide) (by decide)

/-- An old version is told, a current one is not. -/
theorem demo_warns : ((importPackage (.dir work) (online text) (some url) "2.1.120".toList proc).1.log.screen.map (·.text)).take 2 =
      ["### NEW CODE VERSION ONLINE ###", "your version: 2.1.120  - online version:2.1.127"] ∧
    (importPackage (.dir work) (online text) (some url) "2.1.127".toList proc).1.log.screen = [] := by
  decide +kernel

/-- An accent in the list of changes. -/
theorem demo_accent : ∃ e, (importPackage (.dir work) (online (text ++ ['é'])) (some url) "2.1.127".toList proc).2 = .error e :=
  import_not_ascii _ _ rfl _ _ _ api demo_address ((text ++ ['é']).map Char.toNat) (by simp [online]) 233 (by
    rw [List.map_append]
    exact List.mem_append_right _ (by decide)) (by decide)

end Demo
end ExoRad.Import
