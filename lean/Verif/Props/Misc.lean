import Verif.Model.Misc
import Verif.Props.Options
import Mathlib.Data.List.Basic
import Mathlib.Data.List.TakeWhile
import Mathlib.Tactic.Ring
import Mathlib.Tactic.Linarith

/-! # C57–C61: small utilities -/

namespace ExoRad.Misc

/-! ## C58 `parse_range` -/

theorem splitOn_ne_nil (c : Char) (s : List Char) : splitOn c s ≠ [] := by
  induction s with
  | nil => simp [splitOn]
  | cons x s ih =>
    rw [splitOn]
    split
    · simp
    · split <;> simp

/-- The pieces joined with the separator give the text back, and no piece contains the separator. -/
theorem splitOn_spec (c : Char) (s : List Char) :
    List.intercalate [c] (splitOn c s) = s ∧ ∀ t ∈ splitOn c s, c ∉ t := by
  induction s with
  | nil => simp [splitOn, List.intercalate]
  | cons x s ih =>
    rw [splitOn]
    split
    · rename_i h; exact absurd h (splitOn_ne_nil c s)
    · rename_i t ts h
      rw [h] at ih
      split
      · rename_i hx
        subst hx
        constructor
        · have := ih.1
          simp only [List.intercalate, List.intersperse_cons₂, List.flatten_cons, List.nil_append] at this ⊢
          rw [this]; rfl
        · intro t' ht'
          rcases List.mem_cons.mp ht' with rfl | ht'
          · simp
          · exact ih.2 t' ht'
      · rename_i hx
        constructor
        · have := ih.1
          cases ts with
          | nil => simp [List.intercalate] at this ⊢; exact this
          | cons u us =>
            simp only [List.intercalate, List.intersperse_cons₂, List.flatten_cons, List.cons_append] at this ⊢
            rw [this]
        · intro t' ht'
          rcases List.mem_cons.mp ht' with rfl | ht'
          · have := ih.2 t (by simp)
            simp only [List.mem_cons, not_or]
            exact ⟨fun e => hx e.symm, this⟩
          · exact ih.2 t' (List.mem_cons_of_mem _ ht')

theorem mem_pyRange (a b x : Int) : x ∈ pyRange a b ↔ a ≤ x ∧ x < b := by
  simp only [pyRange, List.mem_map, List.mem_range]
  constructor
  · rintro ⟨i, hi, rfl⟩; omega
  · rintro ⟨h1, h2⟩; exact ⟨(x - a).toNat, by omega, by omega⟩

theorem pyRange_sorted (a b : Int) : (pyRange a b).Pairwise (· < ·) := by
  unfold pyRange
  rw [List.pairwise_map]
  exact List.pairwise_lt_range.imp (fun h => by omega)

theorem pyRange_single (n : Int) : pyRange n (n + 1) = [n] := by
  have : (n + 1 - n).toNat = 1 := by omega
  simp [pyRange, this]

/-- What one comma-separated item denotes: a single integer, or an inclusive ascending range `x-y`
(anything after a second dash is ignored). -/
inductive Item (int : List Char → Option Int) : List Char → List Int → Prop where
  | single {a : List Char} {n : Int} : '-' ∉ a → int a = some n → Item int a [n]
  | range {a x y rest : List Char} {m n : Int} {l : List Int} : a = x ++ '-' :: y ++ rest → '-' ∉ x → '-' ∉ y →
      (rest = [] ∨ ∃ z, rest = '-' :: z) → int x = some m → int y = some n →
      l.Pairwise (· < ·) → (∀ i, i ∈ l ↔ m ≤ i ∧ i ≤ n) → Item int a l

theorem splitOn_single {c : Char} {s t : List Char} (h : splitOn c s = [t]) : s = t ∧ c ∉ s := by
  have := splitOn_spec c s
  rw [h] at this
  have h1 : t = s := by simpa [List.intercalate] using this.1
  subst h1
  exact ⟨rfl, this.2 t (by simp)⟩

theorem splitOn_two {c : Char} {s x y : List Char} {r : List (List Char)} (h : splitOn c s = x :: y :: r) :
    ∃ rest, s = x ++ c :: y ++ rest ∧ c ∉ x ∧ c ∉ y ∧ (rest = [] ∨ ∃ z, rest = c :: z) := by
  have := splitOn_spec c s
  rw [h] at this
  obtain ⟨h1, h2⟩ := this
  cases r with
  | nil =>
    refine ⟨[], ?_, h2 x (by simp), h2 y (by simp), .inl rfl⟩
    rw [← h1]; simp [List.intercalate]
  | cons z r =>
    refine ⟨c :: List.intercalate [c] (z :: r), ?_, h2 x (by simp), h2 y (by simp), .inr ⟨_, rfl⟩⟩
    rw [← h1]; simp [List.intercalate]

theorem splitOn_of_not_mem {c : Char} {s : List Char} (h : c ∉ s) : splitOn c s = [s] := by
  induction s with
  | nil => rfl
  | cons x s ih =>
    simp only [List.mem_cons, not_or] at h
    rw [splitOn, ih h.2]
    simp [Ne.symm h.1]

theorem splitOn_append {c : Char} {x s : List Char} (h : c ∉ x) : splitOn c (x ++ c :: s) = x :: splitOn c s := by
  induction x with
  | nil =>
    rw [List.nil_append, splitOn]
    split
    · rename_i he; exact absurd he (splitOn_ne_nil c s)
    · rename_i t ts he; simp [he]
  | cons a x ih =>
    simp only [List.mem_cons, not_or] at h
    rw [List.cons_append, splitOn, ih h.2]
    simp [Ne.symm h.1]

theorem sorted_ext (l l' : List Int) (h : l.Pairwise (· < ·)) (h' : l'.Pairwise (· < ·))
    (he : ∀ i, i ∈ l ↔ i ∈ l') : l = l' := by
  have hp : l.Perm l' := by
    rw [List.perm_ext_iff_of_nodup (h.imp (fun h => ne_of_lt h)) (h'.imp (fun h => ne_of_lt h))]
    exact he
  exact hp.eq_of_pairwise (fun a b _ _ h1 h2 => absurd h1 (by omega)) h h'

theorem parseItem_iff (int : List Char → Option Int) (a : List Char) (l : List Int) :
    parseItem int a = some l ↔ Item int a l := by
  constructor
  · intro h
    unfold parseItem at h
    split at h
    · cases h
    · rename_i s0 hs
      obtain ⟨rfl, hd⟩ := splitOn_single hs
      cases hn : int a with
      | none => simp [hn] at h
      | some n =>
        simp only [hn, Option.some.injEq] at h
        rw [← h, pyRange_single]
        exact .single hd hn
    · rename_i s0 s1 r hs
      obtain ⟨rest, ha, hx, hy, hr⟩ := splitOn_two hs
      split at h
      · rename_i m n hm hn
        simp only [Option.some.injEq] at h
        subst h
        exact .range ha hx hy hr hm hn (pyRange_sorted _ _) (fun i => by rw [mem_pyRange]; omega)
      · cases h
  · intro h
    cases h with
    | single hd hn =>
      simp [parseItem, splitOn_of_not_mem hd, hn, pyRange_single]
    | @range x y rest m n _ ha hx hy hr hm hn hs hl =>
      have hsp : ∃ r, splitOn '-' a = x :: y :: r := by
        rw [ha]
        rcases hr with rfl | ⟨z, rfl⟩
        · rw [List.append_nil, splitOn_append hx, splitOn_of_not_mem hy]; exact ⟨_, rfl⟩
        · rw [List.append_assoc, List.cons_append, splitOn_append hx, splitOn_append hy]; exact ⟨_, rfl⟩
      obtain ⟨r, hsp⟩ := hsp
      simp only [parseItem, hsp, hm, hn, Option.some.injEq]
      refine sorted_ext _ _ (pyRange_sorted _ _) hs (fun i => ?_)
      rw [mem_pyRange, hl]; omega

theorem parseItems_iff (int : List Char → Option Int) (as : List (List Char)) (acc l : List Int) :
    parseItems int as acc = some l ↔
      ∃ ls, List.Forall₂ (Item int) as ls ∧ l = acc ++ ls.flatten := by
  induction as generalizing acc with
  | nil => simp [parseItems, eq_comm]
  | cons a as ih =>
    rw [parseItems]
    constructor
    · intro h
      split at h
      · cases h
      · rename_i l0 h0
        obtain ⟨ls, hf, rfl⟩ := (ih _).mp h
        exact ⟨l0 :: ls, .cons ((parseItem_iff int a l0).mp h0) hf, by simp⟩
    · rintro ⟨ls, hf, rfl⟩
      cases hf with
      | @cons _ l0 _ ls' h0 hf =>
        rw [(parseItem_iff int a l0).mpr h0]
        exact (ih _).mpr ⟨ls', hf, by simp⟩

/-- `strip` removes exactly the blanks at both ends: the text is some blanks, the result, some blanks; and the result neither
begins nor ends with a blank. -/
theorem strip_spec (t : List Char) :
    ∃ l r : List Char, t = l ++ strip t ++ r ∧ (∀ c ∈ l, isBlank c = true) ∧ (∀ c ∈ r, isBlank c = true) ∧
      (∀ c, (strip t).head? = some c → isBlank c = false) ∧ (∀ c, (strip t).getLast? = some c → isBlank c = false) := by
  have hhead : ∀ (x : List Char) (c : Char), (x.dropWhile isBlank).head? = some c → isBlank c = false := by
    intro x
    induction x with
    | nil => intro c h; simp at h
    | cons a x ih =>
      intro c h
      by_cases ha : isBlank a = true
      · rw [List.dropWhile_cons_of_pos ha] at h
        exact ih c h
      · rw [List.dropWhile_cons_of_neg ha] at h
        simp at h
        rw [← h]
        simpa using ha
  have hw : ∀ (x : List Char), ∀ c ∈ x.takeWhile isBlank, isBlank c = true := by
    intro x c hc
    exact List.mem_takeWhile_imp hc
  set m := t.dropWhile isBlank with hm
  have e1 : t = t.takeWhile isBlank ++ m := (List.takeWhile_append_dropWhile).symm
  have e2 : m = (m.reverse.dropWhile isBlank).reverse ++ (m.reverse.takeWhile isBlank).reverse := by
    rw [← List.reverse_append, List.takeWhile_append_dropWhile, List.reverse_reverse]
  have hs : strip t = (m.reverse.dropWhile isBlank).reverse := rfl
  refine ⟨t.takeWhile isBlank, (m.reverse.takeWhile isBlank).reverse, ?_, hw t, ?_, ?_, ?_⟩
  · rw [hs, List.append_assoc, ← e2]
    exact e1
  · intro c hc
    exact hw _ c (List.mem_reverse.mp hc)
  · intro c hc
    rw [hs] at hc
    apply hhead t c
    rw [← hm, e2, List.head?_append, hc]
    rfl
  · intro c hc
    rw [hs, List.getLast?_reverse] at hc
    exact hhead _ c hc

/-- Blanks around a text that neither begins nor ends with one are what `strip` removes. -/
theorem strip_blanks (l m r : List Char) (hl : ∀ c ∈ l, isBlank c = true) (hr : ∀ c ∈ r, isBlank c = true)
    (h1 : ∀ c, m.head? = some c → isBlank c = false) (h2 : ∀ c, m.getLast? = some c → isBlank c = false) (hm : m ≠ []) :
    strip (l ++ m ++ r) = m := by
  have hd : ∀ (x y : List Char), (∀ c ∈ x, isBlank c = true) → (∀ c, y.head? = some c → isBlank c = false) → y ≠ [] →
      (x ++ y).dropWhile isBlank = y := by
    intro x y hx hy hne
    rw [List.dropWhile_append_of_pos (by simpa using hx)]
    cases y with
    | nil => exact absurd rfl hne
    | cons a y =>
      have := hy a rfl
      rw [List.dropWhile_cons_of_neg (by simp [this])]
  unfold strip
  rw [List.append_assoc, hd l (m ++ r) hl (by
    intro c hc
    rw [List.head?_append] at hc
    cases m with
    | nil => exact absurd rfl hm
    | cons a m => exact h1 c (by simpa using hc)) (by simp [hm])]
  rw [List.reverse_append, hd r.reverse m.reverse (by simpa using hr) (by
    intro c hc
    rw [List.head?_reverse] at hc
    exact h2 c hc) (by simpa using hm)]
  rw [List.reverse_reverse]

/-- C58: blanks before and after the words `all` and `none` do not count. -/
theorem parse_range_blanks (int : List Char → Option Int) (l r : List Char) (avail : Nat) (hl : ∀ c ∈ l, c = ' ' ∨ c = '\t' ∨ c = '\n')
    (hr : ∀ c ∈ r, c = ' ' ∨ c = '\t' ∨ c = '\n') :
    (∃ x, parseRange int (l ++ ['a', 'l', 'l'] ++ r) avail = some x ∧ x.length = avail ∧ ∀ i : Int, i ∈ x ↔ 0 ≤ i ∧ i < avail) ∧
    parseRange int (l ++ ['n', 'o', 'n', 'e'] ++ r) avail = some [] := by
  have hb : ∀ x : List Char, (∀ c ∈ x, c = ' ' ∨ c = '\t' ∨ c = '\n') → ∀ c ∈ x, isBlank c = true := by
    intro x hx c hc
    rcases hx c hc with rfl | rfl | rfl <;> decide
  have ha : strip (l ++ ['a', 'l', 'l'] ++ r) = "all".toList := by
    rw [strip_blanks l _ r (hb l hl) (hb r hr) (by intro c hc; cases hc; decide) (by intro c hc; cases hc; decide) (by simp)]
    rfl
  have hn : strip (l ++ ['n', 'o', 'n', 'e'] ++ r) = "none".toList := by
    rw [strip_blanks l _ r (hb l hl) (hb r hr) (by intro c hc; cases hc; decide) (by intro c hc; cases hc; decide) (by simp)]
    rfl
  refine ⟨⟨pyRange 0 avail, by rw [parseRange, if_pos ha], by simp [pyRange], fun i => mem_pyRange _ _ _⟩, ?_⟩
  have : strip (l ++ ['n', 'o', 'n', 'e'] ++ r) ≠ "all".toList := by rw [hn]; decide
  rw [parseRange, if_neg this, if_pos hn]

/-- C58: `all` selects all indices, `none` selects none; any other text is split at its commas and the
result is the concatenation, in order, of what the items denote, or `None` as soon as an item is
malformed. (Indices are not checked against the number of available values.) -/
theorem parse_range_spec (int : List Char → Option Int) (inp : List Char) (avail : Nat) :
    (strip inp = "all".toList → ∃ l, parseRange int inp avail = some l ∧ l.Pairwise (· < ·) ∧
      ∀ i, i ∈ l ↔ 0 ≤ i ∧ i < avail) ∧
    (strip inp = "none".toList → parseRange int inp avail = some []) ∧
    (strip inp ≠ "all".toList → strip inp ≠ "none".toList →
      ∃ items : List (List Char), List.intercalate [','] items = inp ∧ (∀ t ∈ items, ',' ∉ t) ∧
        (∀ l, parseRange int inp avail = some l ↔
          ∃ ls, List.Forall₂ (Item int) items ls ∧ l = ls.flatten) ∧
        (parseRange int inp avail = none ↔ ∃ t ∈ items, ∀ l, ¬ Item int t l)) := by
  refine ⟨?_, ?_, ?_⟩
  · intro h
    exact ⟨pyRange 0 avail, by rw [parseRange, if_pos h], pyRange_sorted _ _, fun i => mem_pyRange _ _ _⟩
  · intro h
    have : strip inp ≠ "all".toList := by rw [h]; decide
    rw [parseRange, if_neg this, if_pos h]
  · intro h1 h2
    have hp : parseRange int inp avail = parseItems int (splitOn ',' inp) [] := by
      rw [parseRange, if_neg h1, if_neg h2]
    have hiff : ∀ l, parseRange int inp avail = some l ↔
          ∃ ls, List.Forall₂ (Item int) (splitOn ',' inp) ls ∧ l = ls.flatten := by
      intro l; rw [hp, parseItems_iff]; simp
    refine ⟨splitOn ',' inp, (splitOn_spec ',' inp).1, (splitOn_spec ',' inp).2, hiff, ?_⟩
    have hex : ∀ ts : List (List Char), (∀ t ∈ ts, ∃ l, Item int t l) → ∃ ls, List.Forall₂ (Item int) ts ls := by
      intro ts
      induction ts with
      | nil => intro _; exact ⟨[], .nil⟩
      | cons t ts ih =>
        intro h
        obtain ⟨l, hl⟩ := h t (by simp)
        obtain ⟨ls, hls⟩ := ih (fun t' ht' => h t' (by simp [ht']))
        exact ⟨l :: ls, .cons hl hls⟩
    constructor
    · intro hn
      by_contra hc
      push Not at hc
      obtain ⟨ls, hls⟩ := hex _ hc
      have := (hiff ls.flatten).mpr ⟨ls, hls, rfl⟩
      rw [hn] at this; cases this
    · rintro ⟨t, ht, hno⟩
      cases hr : parseRange int inp avail with
      | none => rfl
      | some l =>
        obtain ⟨ls, hls, hl0⟩ := (hiff l).mp hr
        have : ∃ l, Item int t l := by
          clear hiff hr hp hl0
          generalize splitOn ',' inp = ts at hls ht
          induction hls with
          | nil => simp at ht
          | cons h0 _ ih =>
            rcases List.mem_cons.mp ht with rfl | ht
            · exact ⟨_, h0⟩
            · exact ih ht
        obtain ⟨l', hl'⟩ := this
        exact absurd hl' (hno l')

/-- Decimal digits as an integer: an example of `int`. -/
def intDemo (s : List Char) : Option Int :=
  if s ≠ [] ∧ s.all Char.isDigit then some (s.foldl (fun n c => n * 10 + (c.toNat - '0'.toNat : Nat)) 0) else none

example : parseRange intDemo "1-3,7,10-12".toList 20 = some [1, 2, 3, 7, 10, 11, 12] ∧
    parseRange intDemo " all".toList 3 = some [0, 1, 2] ∧ parseRange intDemo "1,x".toList 5 = none ∧
    parseRange intDemo "0:1".toList 5 = none := by decide

/-! ## C59 `chunks` -/

theorem take_drop_flatten {β : Type} (k : Nat) (l : List β) : ∀ m,
    ((List.range m).map (fun i => (l.drop (i * k)).take k)).flatten = l.take (m * k) := by
  intro m
  induction m with
  | zero => simp
  | succ m ih =>
    rw [List.range_succ, List.map_append, List.flatten_append, ih, Nat.succ_mul, List.take_add]
    simp

/-- C59: for `n > 0` the pieces are the consecutive slices: concatenated they give `l`, every one has
between 1 and `n` elements, and every one but the last exactly `n`. -/
theorem chunks_partition {β : Type} (l : List β) (n : Int) (hn : 0 < n) :
    ∃ cs, chunks l n = .ok cs ∧ cs.flatten = l ∧ (∀ c ∈ cs, 0 < c.length ∧ (c.length : Int) ≤ n) ∧
      (∀ c ∈ cs.dropLast, (c.length : Int) = n) := by
  obtain ⟨k, rfl⟩ := Int.eq_ofNat_of_zero_le hn.le
  have hk : 0 < k := by omega
  have hm1 : l.length ≤ (l.length + k - 1) / k * k := by
    have := Nat.lt_div_mul_add (a := l.length + k - 1) hk
    omega
  have hm2 : ∀ i, i < (l.length + k - 1) / k → i * k < l.length := by
    intro i hi
    have h1 : (i + 1) * k ≤ l.length + k - 1 :=
      le_trans (Nat.mul_le_mul_right k hi) (Nat.div_mul_le_self _ _)
    rw [Nat.succ_mul] at h1
    omega
  refine ⟨(List.range ((l.length + k - 1) / k)).map (fun i => (l.drop (i * k)).take k), ?_, ?_, ?_, ?_⟩
  · simp [chunks, hk.ne']
  · rw [take_drop_flatten, List.take_of_length_le hm1]
  · intro c hc
    simp only [List.mem_map, List.mem_range] at hc
    obtain ⟨i, hi, rfl⟩ := hc
    have := hm2 i hi
    simp only [List.length_take, List.length_drop]
    omega
  · intro c hc
    rw [← List.map_dropLast] at hc
    simp only [List.mem_map] at hc
    obtain ⟨i, hi, rfl⟩ := hc
    have hi' : i + 1 < (l.length + k - 1) / k := by
      generalize (l.length + k - 1) / k = m at hi
      cases m with
      | zero => simp at hi
      | succ m =>
        rw [List.range_succ, List.dropLast_concat, List.mem_range] at hi
        omega
    have h1 := hm2 (i + 1) hi'
    rw [Nat.succ_mul] at h1
    simp only [List.length_take, List.length_drop]
    omega

/-- C59, excluded sizes: 0 raises ValueError, a negative size silently yields nothing. -/
theorem chunks_bad_size {β : Type} (l : List β) :
    chunks l 0 = .error .valueError ∧ ∀ n < 0, chunks l n = .ok [] := by
  constructor
  · rfl
  · intro n hn
    rw [chunks, if_neg (by omega), if_pos hn]

example : chunks [1, 2, 3, 4, 5] 2 = .ok [[1, 2], [3, 4], [5]] := by decide

/-! ## C60 `to_dict` -/

def isPrivate (k : String) : Prop := "_".toList <+: k.toList

mutual
/-- A tree of dictionaries with untouched leaves: no instance is left in it. -/
def Plain : Obj → Prop
  | .leaf _ => True
  | .qtable _ => True
  | .dict d => PlainAll d
  | _ => False
def PlainAll : List (String × Obj) → Prop
  | [] => True
  | (_, o) :: r => Plain o ∧ PlainAll r
end

mutual
/-- Every dictionary key and table column (not: attribute) at any depth is public. -/
def PublicKeys : Obj → Prop
  | .leaf _ => True
  | .qtable _ => True
  | .quantity _ _ => True
  | .dict d => PublicKeysAll d
  | .table cols => ∀ c ∈ cols, ¬ isPrivate c.1
  | .inst _ attrs => PublicValues attrs
  | .ast o => PublicKeys o
def PublicKeysAll : List (String × Obj) → Prop
  | [] => True
  | (k, o) :: r => ¬ isPrivate k ∧ PublicKeys o ∧ PublicKeysAll r
def PublicValues : List (String × Obj) → Prop
  | [] => True
  | (_, o) :: r => PublicKeys o ∧ PublicValues r
end

theorem plainAll_iff (d : List (String × Obj)) : PlainAll d ↔ ∀ p ∈ d, Plain p.2 := by
  induction d with
  | nil => simp [PlainAll]
  | cons p d ih => obtain ⟨k, o⟩ := p; simp [PlainAll, ih]

theorem publicKeysAll_iff (d : List (String × Obj)) :
    PublicKeysAll d ↔ ∀ p ∈ d, ¬ isPrivate p.1 ∧ PublicKeys p.2 := by
  induction d with
  | nil => simp [PublicKeysAll]
  | cons p d ih => obtain ⟨k, o⟩ := p; simp [PublicKeysAll, ih, and_assoc]

mutual
theorem toDict_plain : ∀ o, Plain (toDict o)
  | .leaf _ => by simp [toDict, Plain]
  | .qtable _ => by simp [toDict, Plain, PlainAll]
  | .quantity _ _ => by simp [toDict, Plain, PlainAll]
  | .dict d => by simp only [toDict, Plain]; exact toDictAll_plain d
  | .table cols => by
      simp only [toDict, Plain, plainAll_iff]
      intro p hp
      obtain ⟨c, _, rfl⟩ := List.mem_map.mp hp
      simp [Plain, PlainAll]
  | .inst _ attrs => by simp only [toDict, Plain]; exact toDictAttrs_plain attrs
  | .ast o => by rw [toDict]; exact toDict_plain o
theorem toDictAll_plain : ∀ d, PlainAll (toDictAll d)
  | [] => by simp [toDictAll, PlainAll]
  | (k, o) :: r => by simp only [toDictAll, PlainAll]; exact ⟨toDict_plain o, toDictAll_plain r⟩
theorem toDictAttrs_plain : ∀ d, PlainAll (toDictAttrs d)
  | [] => by simp [toDictAttrs, PlainAll]
  | (k, o) :: r => by
      simp only [toDictAttrs]
      split
      · exact ⟨toDict_plain o, toDictAttrs_plain r⟩
      · exact toDictAttrs_plain r
end

mutual
theorem toDict_public : ∀ o, PublicKeys o → PublicKeys (toDict o)
  | .leaf _, _ => by simp [toDict, PublicKeys]
  | .qtable _, _ => by
      simp only [toDict, PublicKeys, PublicKeysAll, isPrivate, ← List.isPrefixOf_iff_prefix]
      decide
  | .quantity _ _, _ => by
      simp only [toDict, PublicKeys, PublicKeysAll, isPrivate, ← List.isPrefixOf_iff_prefix]
      decide
  | .dict d, h => by
      simp only [toDict, PublicKeys] at h ⊢
      exact toDictAll_public d h
  | .table cols, h => by
      simp only [toDict, PublicKeys, publicKeysAll_iff] at h ⊢
      intro p hp
      obtain ⟨c, hc, rfl⟩ := List.mem_map.mp hp
      refine ⟨h c hc, ?_⟩
      simp only [PublicKeys, PublicKeysAll, isPrivate, ← List.isPrefixOf_iff_prefix]
      decide
  | .inst _ attrs, h => by
      simp only [toDict, PublicKeys] at h ⊢
      exact toDictAttrs_public attrs h
  | .ast o, h => by
      rw [toDict]
      exact toDict_public o (by simpa only [PublicKeys] using h)
theorem toDictAll_public : ∀ d, PublicKeysAll d → PublicKeysAll (toDictAll d)
  | [], _ => by simp [toDictAll, PublicKeysAll]
  | (k, o) :: r, h => by
      simp only [toDictAll, PublicKeysAll] at h ⊢
      exact ⟨h.1, toDict_public o h.2.1, toDictAll_public r h.2.2⟩
theorem toDictAttrs_public : ∀ d, PublicValues d → PublicKeysAll (toDictAttrs d)
  | [], _ => by simp [toDictAttrs, PublicKeysAll]
  | (k, o) :: r, h => by
      simp only [PublicValues] at h
      simp only [toDictAttrs]
      split
      · rename_i hk
        refine ⟨?_, toDict_public o h.1, toDictAttrs_public r h.2⟩
        simp only [keepAttr, Bool.and_eq_true, Bool.not_eq_true'] at hk
        intro hp
        rw [isPrivate, ← List.isPrefixOf_iff_prefix] at hp
        rw [hp] at hk
        exact absurd hk.1.2 (by simp)
      · exact toDictAttrs_public r h.2
end

/-- C60, no internals: the stored form is made of dictionaries and untouched leaves only (no object is
left in it), and a private name can appear in it only as a key of a user dictionary or table, never
from an attribute. -/
theorem to_dict_no_internals (o : Obj) :
    Plain (toDict o) ∧ (PublicKeys o → PublicKeys (toDict o)) :=
  ⟨toDict_plain o, toDict_public o⟩

/-- C60, nothing public is lost: the stored form of an object lists, in order, exactly its attributes
that are public, not callable and not `name`, each with its own stored form. -/
theorem to_dict_attributes (c : Bool) (attrs : List (String × Obj)) :
    toDict (.inst c attrs) = .dict ((attrs.filter (fun p =>
      p.2.callable = false ∧ ¬ "_".toList.isPrefixOf p.1.toList = true ∧ p.1 ≠ "name")).map
        (fun p => (p.1, toDict p.2))) := by
  rw [toDict]
  congr 1
  induction attrs with
  | nil => rfl
  | cons p r ih =>
    obtain ⟨k, o⟩ := p
    rw [toDictAttrs, ih]
    by_cases hk : keepAttr k o = true
    · rw [if_pos hk, List.filter_cons_of_pos]
      · rfl
      · simp only [keepAttr, Bool.and_eq_true, Bool.not_eq_true', beq_eq_false_iff_ne] at hk
        rw [decide_eq_true_eq]
        exact ⟨hk.1.1, by rw [hk.1.2]; simp, hk.2⟩
    · rw [if_neg hk, List.filter_cons_of_neg]
      intro h
      apply hk
      simp only [decide_eq_true_eq] at h
      rw [keepAttr, h.1, Bool.eq_false_iff.mpr h.2.1, beq_eq_false_iff_ne.mpr h.2.2]; rfl

/-- C60, dictionaries keep all their keys. -/
theorem to_dict_dict (d : List (String × Obj)) :
    toDict (.dict d) = .dict (d.map (fun p => (p.1, toDict p.2))) := by
  rw [toDict]
  congr 1
  induction d with
  | nil => rfl
  | cons p r ih => obtain ⟨k, o⟩ := p; rw [toDictAll, ih]; rfl

example : toDict (.inst false [("name", .leaf "HD 1"), ("_cache", .leaf "x"), ("run", .inst true []),
      ("star", .inst false [("D", .quantity "10" "pc"), ("_t", .leaf "y")])])
    = .dict [("star", .dict [("D", .dict [("value", .leaf "10"), ("unit", .leaf "pc")])])] := by
  simp [toDict, toDictAttrs, keepAttr, Obj.callable, List.isPrefixOf]

/-! ## C61 `get_wl_col_name` -/

/-- C61, failure: whenever a description names the wavelength column, the call raises. -/
theorem wl_col_name_explicit_fails (keys : List String) (v : Option String) :
    ∃ e, getWlColName keys (some (some v)) = .error e ∧ (v.isSome → e = .unboundLocalError) := by
  cases v with
  | none => exact ⟨.keyError, rfl, by simp⟩
  | some n => exact ⟨.unboundLocalError, rfl, by simp⟩

/-- C61, failure: a table without any wavelength column gives `None` instead of an error. -/
theorem wl_col_name_missing (keys : List String) (h1 : "Wavelength" ∉ keys) (h2 : "wavelength" ∉ keys) :
    getWlColName keys none = .ok none ∧ getWlColName keys (some none) = .ok none := by
  constructor <;> simp [getWlColName, h1, h2]

/-- C61, what holds: without an explicit name, a table with one of the two usual columns gives it
(with both, the lower-case one). -/
theorem wl_col_name_partial (keys : List String) (d : Option (Option (Option String)))
    (hd : d = none ∨ d = some none) :
    ("wavelength" ∈ keys → getWlColName keys d = .ok (some "wavelength")) ∧
    ("wavelength" ∉ keys → "Wavelength" ∈ keys → getWlColName keys d = .ok (some "Wavelength")) := by
  rcases hd with rfl | rfl
  · exact ⟨fun h => by simp [getWlColName, h], fun h1 h2 => by simp [getWlColName, h1, h2]⟩
  · exact ⟨fun h => by simp [getWlColName, h], fun h1 h2 => by simp [getWlColName, h1, h2]⟩

example : getWlColName ["Transmission", "Wavelength"] none = .ok (some "Wavelength") := by decide

/-! ## C57 version check -/

theorem getMessage_skip (cur : List Char) (pre rest : List (List Char))
    (h : ∀ l ∈ pre, isHeader l = false) : getMessage cur (pre ++ rest) = getMessage cur rest := by
  induction pre with
  | nil => rfl
  | cons l pre ih =>
    rw [List.cons_append, getMessage, h l (by simp)]
    exact ih (fun l' hl' => h l' (by simp [hl']))

theorem findChar_spec {c : Char} {a b : List Char} (h : c ∉ a) : findChar c (a ++ c :: b) = some a.length := by
  induction a with
  | nil => simp [findChar]
  | cons x a ih =>
    simp only [List.mem_cons, not_or] at h
    simp [findChar, Ne.symm h.1, ih h.2]

/-- If `[w]` occurs in `pre [v] post`, where no other bracket occurs, then `w = v`. -/
theorem bracket_unique {pre v post w : List Char} (h1 : '[' ∉ pre) (h2 : '[' ∉ v) (h3 : '[' ∉ post)
    (h4 : ']' ∉ v) (hw : ']' ∉ w) :
    ('[' :: w ++ [']']) <:+: (pre ++ '[' :: v ++ ']' :: post) ↔ w = v := by
  constructor
  · rintro ⟨a, b, hab⟩
    have e1 : a ++ '[' :: (w ++ ']' :: b) = pre ++ '[' :: (v ++ ']' :: post) := by
      simpa using hab
    have ha : '[' ∉ a ∧ a = pre := by
      have hcount : (a ++ '[' :: (w ++ ']' :: b)).count '[' = 1 := by
        rw [e1]
        simp [List.count_append, List.count_cons, List.count_eq_zero_of_not_mem h1,
          List.count_eq_zero_of_not_mem h2, List.count_eq_zero_of_not_mem h3]
      have hna : '[' ∉ a := by
        intro hm
        have := List.count_pos_iff.mpr hm
        simp only [List.count_append, List.count_cons_self] at hcount
        omega
      have f1 := findChar_spec (c := '[') (a := a) (b := w ++ ']' :: b) hna
      have f2 := findChar_spec (c := '[') (a := pre) (b := v ++ ']' :: post) h1
      rw [e1, f2] at f1
      simp only [Option.some.injEq] at f1
      exact ⟨hna, (List.append_inj e1 f1.symm).1⟩
    obtain ⟨_, rfl⟩ := ha
    have e2 : w ++ ']' :: b = v ++ ']' :: post := by
      have := List.append_cancel_left e1
      simpa using this
    have f1 := findChar_spec (c := ']') (a := w) (b := b) hw
    have f2 := findChar_spec (c := ']') (a := v) (b := post) h4
    rw [e2, f2] at f1
    simp only [Option.some.injEq] at f1
    exact (List.append_inj e2 f1.symm).1
  · rintro rfl
    exact ⟨pre, post, by simp⟩

theorem isHeader_iff (l : List Char) :
    isHeader l = true ↔ "## [".toList <:+: l ∧ ¬ "## [Unreleased]".toList <:+: l := by
  rw [isHeader, Bool.and_eq_true, Bool.not_eq_true', ← Options.isInfixOfChars_iff,
    ← Options.isInfixOfChars_iff, Bool.not_eq_true]

/-- C57: in a changelog whose first release header is `## [v]…`, with nothing but text and unreleased
headers before it, the message is empty exactly when `v` is the running version; when it is not, the
message starts with that header and the reported version is `v`. Without any release header nothing
is reported. -/
theorem version_message (cur v post : List Char) (before rest : List (List Char))
    (hb : ∀ l ∈ before, isHeader l = false) (h1 : '[' ∉ v) (h2 : ']' ∉ v) (h3 : '[' ∉ post) (hc : ']' ∉ cur)
    (hu : v ≠ "Unreleased".toList) :
    ((getMessage cur (before ++ ("## [".toList ++ v ++ ']' :: post) :: rest)).1 = [] ↔ v = cur) ∧
    (v ≠ cur → (getMessage cur (before ++ ("## [".toList ++ v ++ ']' :: post) :: rest)).2 = v ∧
      ("## [".toList ++ v ++ ']' :: post) <+:
        (getMessage cur (before ++ ("## [".toList ++ v ++ ']' :: post) :: rest)).1) ∧
    getMessage cur before = ([], []) := by
  have hline : "## [".toList ++ v ++ ']' :: post = "## ".toList ++ '[' :: v ++ ']' :: post := by
    rfl
  have hpre : '[' ∉ "## ".toList := by decide
  have hhead : isHeader ("## [".toList ++ v ++ ']' :: post) = true := by
    rw [isHeader_iff]
    refine ⟨⟨[], v ++ ']' :: post, by simp⟩, ?_⟩
    intro h
    have hb' : ('[' :: "Unreleased".toList ++ [']']) <:+: "## [".toList ++ v ++ ']' :: post :=
      List.IsInfix.trans (⟨"## ".toList, [], by decide⟩) h
    rw [hline, bracket_unique hpre h1 h3 h2 (by decide)] at hb'
    exact hu hb'.symm
  have hmem : isInfixOfChars ('[' :: cur ++ [']']) ("## [".toList ++ v ++ ']' :: post) = true ↔ v = cur := by
    rw [Options.isInfixOfChars_iff, hline, bracket_unique hpre h1 h3 h2 hc]
    exact eq_comm
  have hbr : bracketed ("## [".toList ++ v ++ ']' :: post) = v := by
    have f1 : findChar '[' ("## [".toList ++ v ++ ']' :: post) = some 3 := by
      rw [hline, List.append_assoc, List.cons_append]; exact findChar_spec hpre
    have f2 : findChar ']' ("## [".toList ++ v ++ ']' :: post) = some ("## [".toList ++ v).length := by
      apply findChar_spec
      simp only [List.mem_append, not_or]
      exact ⟨by decide, h2⟩
    simp only [bracketed, f1, f2]
    rw [List.take_left']
    · rfl
    · rfl
  rw [getMessage_skip cur before _ hb, getMessage, hhead]
  simp only [if_true]
  have hnone : getMessage cur before = ([], []) := by
    have := getMessage_skip cur before [] hb
    simpa [getMessage] using this
  refine ⟨?_, ?_, hnone⟩
  · by_cases hv : v = cur
    · rw [if_pos (hmem.mpr hv)]; simp [hv]
    · rw [if_neg (fun e => hv (hmem.mp e))]
      simp [hv]
  · intro hv
    rw [if_neg (fun e => hv (hmem.mp e))]
    exact ⟨hbr, List.prefix_append _ _⟩

example : getMessage "2.1.110".toList ["# Changelog".toList, "## [Unreleased]".toList,
      "## [2.1.111] - 2022".toList, "- fix".toList, "## [2.1.110]".toList]
    = ("## [2.1.111] - 2022\n- fix\n".toList, "2.1.111".toList) := by decide

end ExoRad.Misc
