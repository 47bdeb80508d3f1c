import Verif.Model.Options
import Verif.Lemmas.Dict
import Mathlib.Tactic.NormNum
import Mathlib.Data.List.Infix

/-! # C08, C15–C18: the payload parser -/

namespace ExoRad.Options

/-! ## C15 typing of option texts -/

theorem dropWhile_head_not {p : Char → Bool} (l : List Char) :
    ∀ c, (l.dropWhile p).head? = some c → p c = false := by
  intro c h
  induction l with
  | nil => simp at h
  | cons a l ih =>
    by_cases ha : p a = true
    · rw [List.dropWhile_cons_of_pos ha] at h; exact ih h
    · rw [List.dropWhile_cons_of_neg ha] at h
      simp at h; subst h; simpa using ha

/-- C15: the text used is a contiguous part of the original text without its newlines, contains no
newline, and neither starts nor ends with a blank. -/
theorem compactString_clean (t : String) :
    '\n' ∉ (compactString t).toList ∧
    (compactString t).toList <:+: t.toList.filter (fun c => c != '\n') ∧
    (∀ c, (compactString t).toList.head? = some c → blank c = false) ∧
    (∀ c, (compactString t).toList.getLast? = some c → blank c = false) := by
  have hinf : (compactString t).toList <:+: t.toList.filter (fun c => c != '\n') := by
    simp only [compactString, String.toList_ofList]
    set l := t.toList.filter (fun c => c != '\n')
    have h1 : l.dropWhile blank <:+ l := List.dropWhile_suffix _
    have h2 : ((l.dropWhile blank).reverse.dropWhile blank).reverse <+: l.dropWhile blank := by
      have := List.dropWhile_suffix (p := blank) (l := (l.dropWhile blank).reverse)
      have := List.reverse_prefix.mpr this
      simpa using this
    exact h2.isInfix.trans h1.isInfix
  refine ⟨?_, hinf, ?_, ?_⟩
  · intro h
    have := hinf.sublist.subset h
    simp at this
  · intro c hc
    simp only [compactString, String.toList_ofList] at hc
    set l := t.toList.filter (fun c => c != '\n')
    have h2 : ((l.dropWhile blank).reverse.dropWhile blank).reverse <+: l.dropWhile blank := by
      have := List.dropWhile_suffix (p := blank) (l := (l.dropWhile blank).reverse)
      have := List.reverse_prefix.mpr this
      simpa using this
    apply dropWhile_head_not l c
    obtain ⟨z, hz⟩ := h2
    rw [← hz, List.head?_append, hc]; rfl
  · intro c hc
    simp only [compactString, String.toList_ofList] at hc
    rw [List.getLast?_reverse] at hc
    exact dropWhile_head_not _ c hc

theorem typeNumber_cases (py : Py) (v : String) :
    (∃ n, typeNumber py v = .int n) ∨ (∃ q, typeNumber py v = .float q) ∨ typeNumber py v = .str v := by
  unfold typeNumber
  split
  · exact .inl ⟨_, rfl⟩
  · split
    · split
      · exact .inr (.inl ⟨_, rfl⟩)
      · exact .inr (.inr rfl)
    · exact .inr (.inr rfl)

theorem typeBool_typeNumber_str (py : Py) (v u : String)
    (h : typeBool (typeNumber py v) = .str u) : u = v := by
  rcases typeNumber_cases py v with ⟨n, e⟩ | ⟨q, e⟩ | e
  · rw [e] at h; cases h
  · rw [e] at h; cases h
  · rw [e] at h
    simp only [typeBool] at h
    split_ifs at h
    simpa using h.symm

/-- C15: value of an element without unit and without placeholder. -/
theorem option_typing (py : Py) (cfg : Option String) (tag t : String) (retval : Dict String Opt)
    (s : St) (hne : compactString t ≠ "") (hu : "unit" ∉ retval.keys)
    (hp : substr placeholder (compactString t) = false) :
    ∃ s' x, elementValue py cfg tag (some t) retval s = (s', .ok (x, retval.set "value" (.scalar x))) ∧
      (∀ n, py.int (compactString t) = some n → x = .int n) ∧
      (py.int (compactString t) = none → (∃ c ∈ (compactString t).toList, c ≠ '.') →
        ∀ q, py.float (compactString t) = some q → x = .float q) ∧
      (py.int (compactString t) = none →
        (py.float (compactString t) = none ∨ ∀ c ∈ (compactString t).toList, c = '.') →
        (compactString t = "True" → x = .bool true) ∧
        (compactString t = "False" → x = .bool false) ∧
        (compactString t ≠ "True" → compactString t ≠ "False" → x = .str (compactString t))) := by
  generalize hv : compactString t = v at *
  have hun : unitName retval = none := by
    simp [unitName, (Dict.get?_eq_none_iff retval "unit").mpr hu]
  -- the placeholder is only looked for in strings, and a string value is `v` itself
  have hsub : ∀ x, (x = typeBool (typeNumber py v)) → substConfig x s = (s, .ok x) := by
    intro x hx
    unfold substConfig
    cases x with
    | str u =>
      have : u = v := typeBool_typeNumber_str py v u hx.symm
      subst this
      simp [hp]
    | _ => rfl
  refine ⟨(effects cfg tag (typeBool (typeNumber py v)) s).1, typeBool (typeNumber py v), ?_, ?_, ?_, ?_⟩
  · simp only [elementValue, hv, if_neg hne, withUnit, hun, P.bind, P.ofExcept, P.pure, hsub _ rfl]
    rfl
  · intro n hn; simp [typeNumber, hn, typeBool]
  · intro hi ⟨c, hc, hcd⟩ q hq
    have : v.toList.filter (fun c => c != '.') ≠ [] := by
      intro e
      rw [List.filter_eq_nil_iff] at e
      have := e c hc
      simp [hcd] at this
    simp [typeNumber, hi, this, hq, typeBool]
  · intro hi hor
    have hstr : typeNumber py v = .str v := by
      unfold typeNumber
      simp only [hi]
      rcases hor with hf | hd
      · split
        · simp [hf]
        · rfl
      · have : v.toList.filter (fun c => c != '.') = [] := by
          rw [List.filter_eq_nil_iff]; intro c hc; simp [hd c hc]
        simp [this]
    rw [hstr]
    refine ⟨?_, ?_, ?_⟩
    · intro h; simp [typeBool, h]
    · intro h; simp [typeBool, h]
    · intro h1 h2; simp [typeBool, h1, h2]

/-- C15: a number with a unit attribute becomes a quantity with that unit; `dimensionless` means the
empty unit; an unknown unit raises ValueError. -/
theorem option_unit (py : Py) (cfg : Option String) (tag t : String) (retval : Dict String Opt)
    (s : St) (uname : String) (hne : compactString t ≠ "")
    (hu : retval.get? "unit" = some (.scalar (.str uname))) :
    (∀ n u, py.int (compactString t) = some n →
      py.unit (if uname = "dimensionless" then "" else uname) = some u →
      (elementValue py cfg tag (some t) retval s).2
        = .ok (.qty true n u, retval.set "value" (.scalar (.qty true n u)))) ∧
    (∀ q u, py.int (compactString t) = none → (∃ c ∈ (compactString t).toList, c ≠ '.') →
      py.float (compactString t) = some q →
      py.unit (if uname = "dimensionless" then "" else uname) = some u →
      (elementValue py cfg tag (some t) retval s).2
        = .ok (.qty false q u, retval.set "value" (.scalar (.qty false q u)))) ∧
    (py.unit (if uname = "dimensionless" then "" else uname) = none →
      elementValue py cfg tag (some t) retval s = (s, .error .valueError)) := by
  have hun : unitName retval = some (.ok uname) := by simp [unitName, hu]
  refine ⟨?_, ?_, ?_⟩
  · intro n u hi hu'
    simp [elementValue, hne, withUnit, hun, P.bind, P.ofExcept, typeNumber, hi, applyUnit, hu', typeBool,
      substConfig, effects, P.pure]
  · intro q u hi ⟨c, hc, hcd⟩ hq hu'
    have hf : (compactString t).toList.filter (fun c => c != '.') ≠ [] := by
      intro e
      rw [List.filter_eq_nil_iff] at e
      have := e c hc
      simp [hcd] at this
    simp [elementValue, hne, withUnit, hun, P.bind, P.ofExcept, typeNumber, hi, hf, hq, applyUnit, hu', typeBool,
      substConfig, effects, P.pure]
  · intro hu'
    simp [elementValue, hne, withUnit, hun, P.bind, P.ofExcept, applyUnit, hu']

/-- C15: a unit that is an element of its own, not an attribute, is no name of a unit: TypeError, whatever the text of the element. -/
theorem option_unit_not_text (py : Py) (cfg : Option String) (tag t : String) (retval : Dict String Opt) (s : St) (x : Opt) (hne : compactString t ≠ "")
    (hu : retval.get? "unit" = some x) (hx : ∀ name, x ≠ .scalar (.str name)) : elementValue py cfg tag (some t) retval s = (s, .error .typeError) := by
  have hun : unitName retval = some (.error .typeError) := by
    unfold unitName
    rw [hu]
    split
    · rename_i h; cases h
    · rename_i name h; exact absurd (Option.some.inj h) (hx name)
    · rfl
  simp [elementValue, hne, withUnit, hun, P.bind, P.ofExcept]

example : elementValue { int := fun _ => some 12, float := fun _ => none, unit := some, readEcsv := fun _ => none, readCsv := fun _ => .error .osError, loadH5 := fun _ => .error .osError, loadPickle := fun _ => .error .osError }
    none "wl_min" (some "12") [("unit", .dict [("value", .scalar (.str "um"))])] St.init = (St.init, .error .typeError) :=
  option_unit_not_text _ _ _ _ _ _ _ (by decide) rfl (fun _ h => by cases h)

/-- C15, excluded input: an element without any text (for example `<a/>`) raises AttributeError. -/
theorem option_no_text (py : Py) (cfg : Option String) (tag : String) (retval : Dict String Opt) (s : St) :
    elementValue py cfg tag none retval s = (s, .error .attributeError) := rfl

/-! Non-vacuity of C15: `" 12\n"` with a unit-less and a unit element. -/

/-- A world with a two-entry number table and one unit, used by the examples. -/
def pyDemo : Py :=
  { int := fun s => if s = "12" then some 12 else if s = "1" then some 1 else if s = "100" then some 100 else none
    float := fun s => if s = "0.5" then some (1/2) else none
    unit := fun s => if s = "um" then some "um" else if s = "" then some "" else none
    readEcsv := fun _ => none
    readCsv := fun _ => .error .osError
    loadH5 := fun _ => .error .osError
    loadPickle := fun _ => .error .osError }

example : (elementValue pyDemo none "wl_min" (some " 12\n ") [("unit", .scalar (.str "um"))] St.init).2
    = .ok (.qty true 12 "um", [("unit", .scalar (.str "um")), ("value", .scalar (.qty true 12 "um"))]) := by
  have h : compactString " 12\n " = "12" := by decide
  have h' := (option_unit pyDemo none "wl_min" " 12\n " [("unit", .scalar (.str "um"))] St.init "um"
    (by rw [h]; decide) rfl).1 12 "um" (by rw [h]; rfl) rfl
  rw [h']; rfl

/-! ## C16 repeated tags -/

/-- The number a value is for Python: `True` is 1, `False` is 0. -/
inductive IsNumber : Scalar → Rat → Prop where
  | int (n : Int) : IsNumber (.int n) n
  | float (q : Rat) : IsNumber (.float q) q
  | yes : IsNumber (.bool true) 1
  | no : IsNumber (.bool false) 0

/-- Two values are the same key of a dictionary: the same number, text, quantity or unit. -/
inductive SameKey : Scalar → Scalar → Prop where
  | num (a b q) : IsNumber a q → IsNumber b q → SameKey a b
  | str (t) : SameKey (.str t) (.str t)
  | qty (i j q u) : SameKey (.qty i q u) (.qty j q u)
  | unit (u) : SameKey (.unit u) (.unit u)

/-- C16: two entries of the same tag are filed in the same place just if their values are the same for Python. -/
theorem key_eq_iff (a b : Scalar) : a.key = b.key ↔ SameKey a b := by
  have num : ∀ {a q}, IsNumber a q → a.key = .num q := by
    intro a q h
    cases h <;> simp [Scalar.key]
  constructor
  · intro h
    have isnum : ∀ {a q}, a.key = Key.num q → IsNumber a q := by
      intro a q h
      cases a with
      | int n => simp only [Scalar.key, Key.num.injEq] at h; subst h; exact .int n
      | float x => simp only [Scalar.key, Key.num.injEq] at h; subst h; exact .float x
      | bool x => cases x <;> simp only [Scalar.key, Key.num.injEq] at h <;> subst h <;> first | exact .yes | exact .no
      | _ => simp [Scalar.key] at h
    cases hk : b.key with
    | num q => rw [hk] at h; exact .num _ _ q (isnum h) (isnum hk)
    | _ => cases a <;> cases b <;> simp only [Scalar.key, reduceCtorEq, Key.str.injEq, Key.qty.injEq, Key.unit.injEq] at h hk <;> simp_all [SameKey.str, SameKey.qty, SameKey.unit]
  · intro h
    cases h with
    | num _ _ q h1 h2 => rw [num h1, num h2]
    | _ => rfl

example : (Scalar.bool true).key = (Scalar.int 1).key ∧ (Scalar.bool false).key ≠ (Scalar.int 1).key :=
  ⟨(key_eq_iff _ _).mpr (.num _ _ 1 .yes (.int 1)), by simp [Scalar.key]⟩

/-- What one child element is parsed to on its own: the value used as its key and its dictionary. -/
def parseOne (py : Py) (cfg : Option String) : Xml → P (Scalar × Dict String Opt)
  | .node tag attrib text chs =>
    P.bind (parser py cfg (.node tag attrib text chs)) fun sub =>
      elementValue py cfg tag text (addAttribs sub attrib)

/-- `ParsedSeq s chs es s'`: the children parse one after the other, from state `s` to `s'`, to the
entries `es` (one per child, in document order). -/
inductive ParsedSeq (py : Py) (cfg : Option String) :
    St → List Xml → List (String × Scalar × Dict String Opt) → St → Prop where
  | nil (s : St) : ParsedSeq py cfg s [] [] s
  | cons {s s' s'' : St} {x : Xml} {xs : List Xml} {v : Scalar} {d : Dict String Opt}
      {es : List (String × Scalar × Dict String Opt)} :
      parseOne py cfg x s = (s', .ok (v, d)) → ParsedSeq py cfg s' xs es s'' →
      ParsedSeq py cfg s (x :: xs) ((x.tag, v, d) :: es) s''

/-- The entries of one tag, in document order. -/
def ofTag (T : String) (es : List (String × Scalar × Dict String Opt)) :
    List (Scalar × Dict String Opt) :=
  (es.filter (fun e => e.1 = T)).map (fun e => e.2)

/-- What is stored for the entries of one tag, duplicates of a value overwriting each other. -/
def stored : List (Scalar × Dict String Opt) → Option Opt
  | [] => none
  | [e] => some (.dict e.2)
  | e :: e' :: es =>
    match Dict.get? e.2 "value" with
    | some (.scalar v) => some (.odict ((e' :: es).foldl (fun d x => Dict.set d x.1.key (.dict x.2))
        [(v.key, .dict e.2)]))
    | _ => none

theorem stored_snoc_odict (e e' : Scalar × Dict String Opt) (es : List (Scalar × Dict String Opt))
    (x : Scalar × Dict String Opt) (d : List (Key × Opt))
    (h : stored (e :: e' :: es) = some (.odict d)) :
    stored (e :: e' :: es ++ [x]) = some (.odict (Dict.set d x.1.key (.dict x.2))) := by
  simp only [stored, List.cons_append] at h ⊢
  split at h
  · simp only [Option.some.injEq, Opt.odict.injEq] at h
    subst h
    simp [List.foldl_append]
  · cases h

theorem addEntry_spec (root root' : Dict String Opt) (tag : String) (v : Scalar)
    (d : Dict String Opt) (es : List (String × Scalar × Dict String Opt))
    (h : addEntry root tag v d = .ok root')
    (hinv : ∀ T, root.get? T = stored (ofTag T es))
    (hne : ∀ T, ofTag T es ≠ [] → (stored (ofTag T es)).isSome) :
    (∀ T, root'.get? T = stored (ofTag T (es ++ [(tag, v, d)]))) ∧
    (∀ T, ofTag T (es ++ [(tag, v, d)]) ≠ [] → (stored (ofTag T (es ++ [(tag, v, d)]))).isSome) := by
  have hof : ∀ T, ofTag T (es ++ [(tag, v, d)]) = ofTag T es ++ (if tag = T then [(v, d)] else []) := by
    intro T
    by_cases hT : tag = T <;> simp [ofTag, hT]
  suffices hs : ∃ o, root' = root.set tag o ∧ stored (ofTag tag es ++ [(v, d)]) = some o by
    obtain ⟨o, rfl, ho⟩ := hs
    constructor
    · intro T
      rw [hof, Dict.get?_set]
      by_cases hT : tag = T
      · subst hT; simp [ho]
      · rw [if_neg (fun e => hT e.symm), if_neg hT, List.append_nil, hinv]
    · intro T hT
      rw [hof] at hT ⊢
      by_cases hT' : tag = T
      · subst hT'; simp [ho]
      · rw [if_neg hT', List.append_nil] at hT ⊢; exact hne T hT
  have hi := hinv tag
  have hn := hne tag
  generalize ofTag tag es = g at *
  unfold addEntry at h
  match g with
  | [] =>
    rw [hi] at h
    simp only [stored, Except.ok.injEq] at h
    exact ⟨_, h.symm, rfl⟩
  | [e] =>
    rw [hi] at h
    simp only [stored] at h
    split at h
    · rename_i v' hv'
      simp only [Except.ok.injEq] at h
      refine ⟨_, h.symm, ?_⟩
      simp [stored, hv']
    · cases h
    · cases h
  | e :: e' :: es' =>
    have := hn (by simp)
    obtain ⟨o, ho⟩ := Option.isSome_iff_exists.mp this
    rw [hi, ho] at h
    have hod : ∃ dd, o = .odict dd := by
      simp only [stored] at ho
      split at ho
      · simp only [Option.some.injEq] at ho; exact ⟨_, ho.symm⟩
      · cases ho
    obtain ⟨dd, rfl⟩ := hod
    simp only [Except.ok.injEq] at h
    exact ⟨_, h.symm, stored_snoc_odict e e' es' (v, d) dd ho⟩

theorem parseChildren_spec (py : Py) (cfg : Option String) (chs : List Xml) :
    ∀ (root root' : Dict String Opt) (s s' : St) (es : List (String × Scalar × Dict String Opt)),
      parseChildren py cfg chs root s = (s', .ok root') →
      (∀ T, root.get? T = stored (ofTag T es)) →
      (∀ T, ofTag T es ≠ [] → (stored (ofTag T es)).isSome) →
      ∃ es', ParsedSeq py cfg s chs es' s' ∧ (∀ T, root'.get? T = stored (ofTag T (es ++ es'))) ∧
        (∀ T, ofTag T (es ++ es') ≠ [] → (stored (ofTag T (es ++ es'))).isSome) := by
  induction chs with
  | nil =>
    intro root root' s s' es h hi hn
    simp only [parseChildren, P.pure, Prod.mk.injEq, Except.ok.injEq] at h
    obtain ⟨rfl, rfl⟩ := h
    exact ⟨[], .nil _, by simpa using hi, by simpa using hn⟩
  | cons x xs ih =>
    intro root root' s s' es h hi hn
    obtain ⟨tag, attrib, text, cc⟩ := x
    rw [parseChildren] at h
    have hone : ∀ s1 s2 sub p, (P.bind (parseChildren py cfg cc []) fun r => finish py r) s = (s1, .ok sub) →
        elementValue py cfg tag text (addAttribs sub attrib) s1 = (s2, .ok p) →
        parseOne py cfg (.node tag attrib text cc) s = (s2, .ok p) := by
      intro s1 s2 sub p h1 h2
      simp only [parseOne, parser]
      conv_lhs => rw [P.bind]
      rw [h1]; exact h2
    conv at h => lhs; rw [P.bind]
    split at h
    · rename_i s1 sub h1
      conv at h => lhs; rw [P.bind]
      split at h
      · rename_i s2 p h2
        conv at h => lhs; rw [P.bind]
        split at h
        · rename_i s3 root1 h3
          simp only [P.ofExcept, Prod.mk.injEq] at h3
          obtain ⟨rfl, h3⟩ := h3
          obtain ⟨hi', hn'⟩ := addEntry_spec root root1 tag p.1 p.2 es h3 hi hn
          obtain ⟨es', hseq, hr, hr'⟩ := ih root1 root' _ s' _ h hi' hn'
          refine ⟨(tag, p.1, p.2) :: es', .cons (hone _ _ _ _ h1 h2) hseq, ?_, ?_⟩
          · simpa using hr
          · simpa using hr'
        · simp at h
      · simp at h
    · simp at h

/-- The sections that make the parser read another file (lines 130-179). -/
def fileTags : List String := ["datafile", "datadict", "config_dict"]

theorem ParsedSeq.tags {py : Py} {cfg : Option String} {s s' : St} {chs : List Xml}
    {es : List (String × Scalar × Dict String Opt)} (h : ParsedSeq py cfg s chs es s') :
    es.map Prod.fst = chs.map Xml.tag := by
  induction h with
  | nil => rfl
  | cons _ _ ih => simp [ih]

theorem foldl_set_distinct (es : List (Scalar × Dict String Opt)) :
    ∀ d : List (Key × Opt), (d.map Prod.fst ++ es.map (fun e => e.1.key)).Nodup →
      es.foldl (fun d x => Dict.set d x.1.key (.dict x.2)) d
        = d ++ es.map (fun e => (e.1.key, Opt.dict e.2)) := by
  have hset : ∀ (d : List (Key × Opt)) k v, k ∉ d.map Prod.fst → Dict.set d k v = d ++ [(k, v)] := by
    intro d k v
    induction d with
    | nil => intro _; rfl
    | cons a d ih =>
      intro h
      simp only [List.map_cons, List.mem_cons, not_or] at h
      have h1 : ¬ a.1 = k := fun e => h.1 e.symm
      simp only [Dict.set, if_neg h1, List.cons_append, ih h.2]
  induction es with
  | nil => intro d _; simp
  | cons e es ih =>
    intro d h
    have hk : e.1.key ∉ d.map Prod.fst := by
      intro hm
      rw [List.nodup_append] at h
      exact h.2.2 _ hm _ (by simp) rfl
    rw [List.foldl_cons, hset _ _ _ hk, ih]
    · simp
    · simpa using h

/-- C16. A successfully parsed document section (one that does not include other files): every child
was parsed (`ParsedSeq`: one entry per child, in document order), and for each tag `T`
- absent from the document: absent from the result;
- occurring once: the result holds that element's plain dictionary;
- occurring several times: the result holds an ordered dictionary; if the values of the entries are
  pairwise different it lists **all** the entries, in document order, keyed by their values. -/
theorem repeated_tags (py : Py) (cfg : Option String) (tag : String) (attrib : List (String × String))
    (text : Option String) (chs : List Xml) (s s' : St) (root : Dict String Opt)
    (hnf : ∀ x ∈ chs, x.tag ∉ fileTags)
    (h : parser py cfg (.node tag attrib text chs) s = (s', .ok root)) :
    ∃ es, ParsedSeq py cfg s chs es s' ∧
      ∀ T,
        (T ∉ chs.map Xml.tag → root.get? T = none) ∧
        (∀ e, ofTag T es = [e] → root.get? T = some (.dict e.2)) ∧
        (∀ e e' rest, ofTag T es = e :: e' :: rest →
          ∃ v d, Dict.get? e.2 "value" = some (.scalar v) ∧ root.get? T = some (.odict d) ∧
            ((v.key :: (e' :: rest).map (fun x => x.1.key)).Nodup →
              d = (v.key, .dict e.2) :: (e' :: rest).map (fun x => (x.1.key, .dict x.2)))) := by
  simp only [parser] at h
  conv at h => lhs; rw [P.bind]
  split at h
  swap
  · simp at h
  rename_i s1 r1 h1
  obtain ⟨es, hseq, hr, hsome⟩ := parseChildren_spec py cfg chs [] r1 s s1 [] h1
    (by intro T; rfl) (by intro T hT; exact absurd rfl hT)
  have htags : ∀ T, T ∉ chs.map Xml.tag → ofTag T es = [] := by
    intro T hT
    rw [← hseq.tags] at hT
    simp only [ofTag, List.map_eq_nil_iff, List.filter_eq_nil_iff]
    intro e he hd
    simp only [decide_eq_true_eq] at hd
    exact hT (hd ▸ List.mem_map_of_mem he)
  have hnone : ∀ T ∈ fileTags, r1.get? T = none := by
    intro T hT
    rw [hr, List.nil_append, htags]
    · rfl
    · intro hm
      obtain ⟨x, hx, rfl⟩ := List.mem_map.mp hm
      exact hnf x hx hT
  have hfin : finish py r1 s1 = (s1, .ok r1) := by
    have e1 := hnone "datafile" (by decide)
    have e2 := hnone "datadict" (by decide)
    have e3 := hnone "config_dict" (by decide)
    simp [finish, P.bind, loadDatafile, loadDatadict, loadConfigDict, e1, e2, e3]
  rw [hfin] at h
  simp only [Prod.mk.injEq, Except.ok.injEq] at h
  obtain ⟨rfl, rfl⟩ := h
  refine ⟨es, hseq, fun T => ⟨?_, ?_, ?_⟩⟩
  · intro hT; rw [hr, List.nil_append, htags T hT]; rfl
  · intro e he; rw [hr, List.nil_append, he]; rfl
  · intro e e' rest he
    have hs := hsome T (by rw [List.nil_append, he]; simp)
    rw [List.nil_append, he] at hs
    have hr' := hr T
    rw [List.nil_append, he] at hr'
    simp only [stored] at hs hr'
    split at hr'
    · rename_i v hv
      refine ⟨v, _, hv, hr', ?_⟩
      intro hnd
      rw [foldl_set_distinct]
      · simp
      · simpa using hnd
    · simp_all

/-- C16, keys: an element with text is keyed by its own value, which its dictionary also holds. -/
theorem parsed_value_key (py : Py) (cfg : Option String) (x : Xml) (s s' : St) (v : Scalar)
    (d : Dict String Opt) (t : String) (ht : x.text = some t) (hne : compactString t ≠ "")
    (h : parseOne py cfg x s = (s', .ok (v, d))) : Dict.get? d "value" = some (.scalar v) := by
  obtain ⟨tag, attrib, text, cc⟩ := x
  simp only [Xml.text] at ht
  subst ht
  rw [parseOne] at h
  conv at h => lhs; rw [P.bind]
  split at h
  · rename_i s1 sub h1
    simp only [elementValue, if_neg hne] at h
    conv at h => lhs; rw [P.bind]
    split at h
    · conv at h => lhs; rw [P.bind]
      split at h
      · conv at h => lhs; rw [P.bind]
        split at h
        · simp only [P.pure, Prod.mk.injEq, Except.ok.injEq] at h
          obtain ⟨_, rfl, rfl⟩ := h
          exact Dict.get?_set_self _ _ _
        · simp at h
      · simp at h
    · simp at h
  · simp at h

/-- C08, failure for every text: two `<customNoise>` elements with the same value (here any text that
is a number) and different names are parsed without error, and only the second one is left. -/
theorem same_value_custom_noise_lost (py : Py) (cfg : Option String) (t a b : String) (n : Int) (s : St)
    (hne : compactString t ≠ "") (hi : py.int (compactString t) = some n) :
    ∃ s', parser py cfg (.node "channel" [] (some "") [
        .node "customNoise" [("name", a)] (some t) [],
        .node "customNoise" [("name", b)] (some t) []]) s
      = (s', .ok [("customNoise", .odict [(.num n, .dict [("name", .scalar (.str b)),
          ("value", .scalar (.int n))])])]) := by
  have hel : ∀ nm s0, elementValue py cfg "customNoise" (some t) [("name", .scalar (.str nm))] s0
      = ((effects cfg "customNoise" (.int n) s0).1, .ok (.int n, [("name", .scalar (.str nm)), ("value", .scalar (.int n))])) := by
    intro nm s0
    simp [elementValue, hne, withUnit, P.ofExcept, unitName, Dict.get?, P.bind, P.pure, typeNumber, hi, typeBool, substConfig,
      effects, Dict.set]
  refine ⟨(effects cfg "customNoise" (.int n) (effects cfg "customNoise" (.int n) s).1).1, ?_⟩
  simp only [parser, parseChildren, P.bind, P.pure, finish, loadDatafile, loadDatadict, loadConfigDict,
    Dict.get?, addAttribs, List.foldl_cons, List.foldl_nil, Dict.set, hel, P.ofExcept, addEntry]
  simp [Dict.set, Dict.get?, Scalar.key]

/-! Non-vacuity of C16: three siblings with two tags, all kept. -/
example : (parser pyDemo none (.node "root" [] (some "") [
      .node "channel" [] (some "Photometer") [], .node "R" [] (some "12") [],
      .node "channel" [] (some "Spectrometer") []]) St.init).2
    = .ok [("channel", .odict [(.str "Photometer", .dict [("value", .scalar (.str "Photometer"))]),
        (.str "Spectrometer", .dict [("value", .scalar (.str "Spectrometer"))])]),
      ("R", .dict [("value", .scalar (.int 12))])] := by
  have e1 : compactString "Photometer" = "Photometer" := by decide
  have e2 : compactString "12" = "12" := by decide
  have e3 : compactString "Spectrometer" = "Spectrometer" := by decide
  have s1 : substr placeholder "Photometer" = false := by decide
  have s3 : substr placeholder "Spectrometer" = false := by decide
  have f1 : "Photometer".toList.filter (fun c => c != '.') ≠ [] := by decide
  have f3 : "Spectrometer".toList.filter (fun c => c != '.') ≠ [] := by decide
  have g1 : typeNumber pyDemo "Photometer" = .str "Photometer" := by simp [typeNumber, pyDemo]
  have g2 : typeNumber pyDemo "12" = .int 12 := by simp [typeNumber, pyDemo]
  have g3 : typeNumber pyDemo "Spectrometer" = .str "Spectrometer" := by simp [typeNumber, pyDemo]
  simp [parser, parseChildren, P.bind, P.pure, finish, loadDatafile, loadDatadict, loadConfigDict,
    Dict.get?, addAttribs, Dict.set, P.ofExcept, addEntry, elementValue, e1, e2, e3, withUnit, unitName, g1, g2, g3,
    typeBool, substConfig, s1, s3, effects, Scalar.key]

/-! ## C17 the process-global working resolution -/

mutual
/-- Some element strictly inside the document has this tag. -/
def hasTag (T : String) : Xml → Bool
  | .node _ _ _ chs => anyHasTag T chs
def anyHasTag (T : String) : List Xml → Bool
  | [] => false
  | .node tag _ _ chs :: rest => decide (tag = T) || anyHasTag T chs || anyHasTag T rest
end

mutual
/-- Some element strictly inside the document has this tag and a text. -/
def hasValue (T : String) : Xml → Bool
  | .node _ _ _ chs => anyHasValue T chs
def anyHasValue (T : String) : List Xml → Bool
  | [] => false
  | .node tag _ text chs :: rest =>
    (decide (tag = T) && decide (text.map compactString ≠ some "")) || anyHasValue T chs
      || anyHasValue T rest
end

/-- `m` neither reads the working resolution nor does anything to it but (possibly) overwrite it with
`o`, which is a function of the document and of the configuration path only. -/
def Writes (m : P β) (c : Option Scalar) (o : Option Scalar) (c' : Option Scalar)
    (r : Except Exc β) : Prop :=
  ∀ w, m ⟨c, w⟩ = (⟨c', o.getD w⟩, r)

theorem Writes.pure {β : Type} (x : β) (c : Option Scalar) : Writes (P.pure x) c none c (.ok x) := by
  intro w; rfl

theorem Writes.bind_ok {β γ : Type} {m : P β} {f : β → P γ} {c o c' : Option Scalar} {x : β}
    {o2 c2 : Option Scalar} {r2 : Except Exc γ}
    (h : Writes m c o c' (.ok x)) (h2 : Writes (f x) c' o2 c2 r2) :
    Writes (P.bind m f) c (o2.or o) c2 r2 := by
  intro w
  have h2' := h2 (o.getD w)
  simp only [P.bind, h w, h2']
  cases o2 <;> rfl

theorem Writes.bind_error {β γ : Type} {m : P β} {f : β → P γ} {c o c' : Option Scalar} {e : Exc}
    (h : Writes m c o c' (.error e)) : Writes (P.bind m f) c o c' (.error e) := by
  intro w; simp [P.bind, h w]

/-- Steps that do not touch the state at all. -/
theorem writes_const {β : Type} (m : P β) (f : Option Scalar → Except Exc β)
    (h : ∀ s, m s = (s, f s.configPath)) (c : Option Scalar) : Writes m c none c (f c) := by
  intro w; rw [h]; rfl

theorem finish_writes (py : Py) (root : Dict String Opt) (c : Option Scalar) :
    ∃ r, Writes (finish py root) c none c r := by
  have h1 : ∀ root, ∃ f : Option Scalar → Except Exc (Dict String Opt), ∀ s, loadDatafile py root s = (s, f s.configPath) := by
    intro root
    refine ⟨fun c => (loadDatafile py root ⟨c, .int 0⟩).2, fun s => ?_⟩
    obtain ⟨c, w⟩ := s
    simp only [loadDatafile]
    generalize readTable py (isEcsv root) = rt
    repeat' (first | rfl | split)
  have h2 : ∀ root, ∃ f : Option Scalar → Except Exc (Dict String Opt), ∀ s, loadDatadict py root s = (s, f s.configPath) := by
    intro root
    refine ⟨fun c => (loadDatadict py root ⟨c, .int 0⟩).2, fun s => ?_⟩
    obtain ⟨c, w⟩ := s
    simp only [loadDatadict]
    generalize readDict py = rd
    repeat' (first | rfl | split)
  have h3 : ∀ root, ∃ f : Option Scalar → Except Exc (Dict String Opt), ∀ s, loadConfigDict py root s = (s, f s.configPath) := by
    intro root
    refine ⟨fun c => (loadConfigDict py root ⟨c, .int 0⟩).2, fun s => ?_⟩
    obtain ⟨c, w⟩ := s
    simp only [loadConfigDict]
    generalize readDict py = rd
    repeat' (first | rfl | split)
  obtain ⟨f1, h1⟩ := h1 root
  have w1 := writes_const _ f1 h1 c
  unfold finish
  cases e1 : f1 c with
  | error e => rw [e1] at w1; exact ⟨_, w1.bind_error⟩
  | ok x =>
    rw [e1] at w1
    obtain ⟨f2, h2⟩ := h2 x
    have w2 := writes_const _ f2 h2 c
    cases e2 : f2 c with
    | error e =>
      rw [e2] at w2
      exact ⟨.error e, w1.bind_ok (o2 := none) (c2 := c) w2.bind_error⟩
    | ok y =>
      rw [e2] at w2
      obtain ⟨f3, h3⟩ := h3 y
      have w3 := writes_const _ f3 h3 c
      exact ⟨f3 c, w1.bind_ok (o2 := none) (c2 := c) (w2.bind_ok (o2 := none) (c2 := c) w3)⟩

theorem effects_writes (cfg : Option String) (tag : String) (v : Scalar) (c : Option Scalar) :
    ∃ c', Writes (effects cfg tag v) c (if tag = "working_R" then some v else none) c' (.ok ()) := by
  refine ⟨((effects cfg tag v) ⟨c, .int 0⟩).1.configPath, fun w => ?_⟩
  unfold effects
  by_cases h1 : tag = "ConfigPath" <;> by_cases h2 : tag = "working_R" <;> cases cfg <;>
    simp [h1, h2]
  all_goals (split_ifs <;> simp_all)

theorem elementValue_writes (py : Py) (cfg : Option String) (tag : String) (text : Option String)
    (d : Dict String Opt) (c : Option Scalar) :
    ∃ o c' r, Writes (elementValue py cfg tag text d) c o c' r ∧ (tag ≠ "working_R" → o = none) ∧
      (tag = "working_R" → text.map compactString ≠ some "" → ∀ x, r = .ok x → o = some x.1) := by
  unfold elementValue
  cases text with
  | none => exact ⟨none, c, .error .attributeError, fun w => rfl, fun _ => rfl, by intro _ _ x h; cases h⟩
  | some t =>
    simp only
    by_cases hv : compactString t = ""
    · rw [if_pos hv]
      exact ⟨none, c, _, Writes.pure _ c, fun _ => rfl, by intro _ h; simp [hv] at h⟩
    · rw [if_neg hv]
      have w1 : ∃ r, Writes (P.ofExcept (withUnit py d (typeNumber py (compactString t)))) c none c r :=
        ⟨_, fun w => rfl⟩
      obtain ⟨r1, w1⟩ := w1
      cases r1 with
      | error e => exact ⟨_, _, _, w1.bind_error, fun _ => rfl, by intro _ _ x h; cases h⟩
      | ok x =>
        have w2 : ∃ r, Writes (substConfig (typeBool x)) c none c r := by
          unfold substConfig
          cases typeBool x with
          | str t' =>
            simp only
            by_cases hs : substr placeholder t' = true
            · simp only [if_pos hs]
              refine ⟨_, writes_const _ (fun c => (match replaceConfig t' c with
                | .ok t' => .ok (.str t')
                | .error e => .error e)) ?_ c⟩
              intro s; split <;> simp_all
            · simp only [if_neg hs]; exact ⟨_, fun w => rfl⟩
          | _ => exact ⟨_, fun w => rfl⟩
        obtain ⟨r2, w2⟩ := w2
        cases r2 with
        | error e => exact ⟨_, _, _, w1.bind_ok w2.bind_error, fun _ => rfl, by intro _ _ x h; cases h⟩
        | ok y =>
          obtain ⟨c', w3⟩ := effects_writes cfg tag y c
          refine ⟨_, _, _, w1.bind_ok (w2.bind_ok (w3.bind_ok (Writes.pure _ c'))), ?_, ?_⟩
          · intro h; simp [h]
          · intro h _ x hx; cases hx; simp [h]

theorem parseChildren_writes (py : Py) (cfg : Option String) (chs : List Xml)
    (root : Dict String Opt) (c : Option Scalar) :
    ∃ o c' r, Writes (parseChildren py cfg chs root) c o c' r ∧
      (anyHasTag "working_R" chs = false → o = none) ∧
      (anyHasValue "working_R" chs = true → ∀ x, r = .ok x → o.isSome = true) := by
  match chs with
  | [] =>
    refine ⟨none, c, .ok root, ?_, fun _ => rfl, by intro h; simp [anyHasValue] at h⟩
    simp only [parseChildren]; exact Writes.pure _ c
  | .node tag attrib text cc :: rest =>
    simp only [parseChildren]
    obtain ⟨o1, c1, r1, w1, n1, v1⟩ := parseChildren_writes py cfg cc [] c
    simp only [anyHasTag, anyHasValue, Bool.or_eq_false_iff, decide_eq_false_iff_not]
    cases r1 with
    | error e =>
      exact ⟨_, _, _, w1.bind_error.bind_error, fun h => n1 h.1.2, by intro _ x h; cases h⟩
    | ok sub0 =>
    obtain ⟨r2, w2⟩ := finish_writes py sub0 c1
    have w12 := w1.bind_ok w2
    cases r2 with
    | error e =>
      refine ⟨_, _, _, w12.bind_error, fun h => ?_, by intro _ x h; cases h⟩
      simp [n1 h.1.2]
    | ok sub =>
    obtain ⟨o3, c3, r3, w3, n3, v3⟩ := elementValue_writes py cfg tag text (addAttribs sub attrib) c1
    cases r3 with
    | error e =>
      refine ⟨_, _, _, w12.bind_ok w3.bind_error, fun h => ?_, by intro _ x h; cases h⟩
      simp [n1 h.1.2, n3 h.1.1]
    | ok p =>
    have w4 : Writes (P.ofExcept (addEntry root tag p.1 p.2)) c3 none c3 (addEntry root tag p.1 p.2) :=
      fun w => rfl
    cases h4 : addEntry root tag p.1 p.2 with
    | error e =>
      rw [h4] at w4
      refine ⟨_, _, _, w12.bind_ok (w3.bind_ok (by rw [h4]; exact w4.bind_error)), fun h => ?_, by intro _ x h; cases h⟩
      simp [n1 h.1.2, n3 h.1.1]
    | ok root' =>
    rw [h4] at w4
    obtain ⟨o5, c5, r5, w5, n5, v5⟩ := parseChildren_writes py cfg rest root' c3
    refine ⟨_, _, _, w12.bind_ok (w3.bind_ok (by rw [h4]; exact w4.bind_ok w5)), fun h => ?_, ?_⟩
    · simp [n1 h.1.2, n3 h.1.1, n5 h.2]
    · intro h x hx
      simp only [Bool.or_eq_true, Bool.and_eq_true, decide_eq_true_eq] at h
      rcases h with (⟨ht, htx⟩ | h) | h
      · have := v3 ht htx p rfl
        cases o5 <;> simp [this]
      · have := v1 h sub0 rfl
        cases o5 <;> cases o3 <;> simp_all
      · have := v5 h x hx
        cases o5 <;> simp_all
termination_by sizeOf chs

/-- C17 (what the code does). Loading a document: the result and the configuration path left behind do
not depend on the working resolution found by the load, and the load either leaves that resolution as
it was or overwrites it by a value that is determined by the document. It is always left as it was if
the document does not declare `working_R`, and always overwritten if it does and the load succeeds. -/
theorem load_working_R_partial (py : Py) (cfg : Option String) (doc : Xml) (c : Option Scalar) :
    ∃ (o c' : Option Scalar) (r : Except Exc (Dict String Opt)),
      (∀ w, parser py cfg doc ⟨c, w⟩ = (⟨c', o.getD w⟩, r)) ∧
      (hasTag "working_R" doc = false → o = none) ∧
      (hasValue "working_R" doc = true → ∀ x, r = .ok x → o.isSome = true) := by
  obtain ⟨tag, attrib, text, chs⟩ := doc
  obtain ⟨o1, c1, r1, w1, n1, v1⟩ := parseChildren_writes py cfg chs [] c
  simp only [parser, hasTag, hasValue]
  cases r1 with
  | error e => exact ⟨_, _, _, w1.bind_error, n1, by intro _ x h; cases h⟩
  | ok sub0 =>
    obtain ⟨r2, w2⟩ := finish_writes py sub0 c1
    refine ⟨_, _, _, w1.bind_ok w2, ?_, ?_⟩
    · intro h; simp [n1 h]
    · intro h x _; simpa using v1 h sub0 rfl

/-- Loading a history of documents, each with a fresh `LoadOptions` object (`configPath = None`), in
one process; failed loads are caught by the caller. Returns the working resolution left behind. -/
def loadAll (py : Py) (cfg : Option String) : List Xml → Scalar → Scalar
  | [], w => w
  | doc :: docs, w => loadAll py cfg docs (parser py cfg doc ⟨none, w⟩).1.workingR

/-- C17, failure in general: after any history of loads, a document that does not declare `working_R`
is used with the resolution left by the history, not with the documented default. -/
theorem working_R_leaks (py : Py) (cfg : Option String) (history : List Xml) (w : Scalar) (doc : Xml)
    (h : hasTag "working_R" doc = false) :
    (parser py cfg doc ⟨none, loadAll py cfg history w⟩).1.workingR = loadAll py cfg history w := by
  obtain ⟨o, c', r, hw, hn, _⟩ := load_working_R_partial py cfg doc none
  rw [hw, hn h]; rfl

/-- C17, what holds: a document that declares `working_R` and loads successfully gets a resolution that
is the same after any two histories. -/
theorem declared_working_R_partial (py : Py) (cfg : Option String) (hist hist' : List Xml) (w w' : Scalar)
    (doc : Xml) (hd : hasValue "working_R" doc = true) (x : Dict String Opt)
    (hok : (parser py cfg doc ⟨none, loadAll py cfg hist w⟩).2 = .ok x) :
    parser py cfg doc ⟨none, loadAll py cfg hist w⟩ = parser py cfg doc ⟨none, loadAll py cfg hist' w'⟩ := by
  obtain ⟨o, c', r, hw, _, hv⟩ := load_working_R_partial py cfg doc none
  rw [hw] at hok ⊢
  rw [hw]
  obtain ⟨v, hv⟩ := Option.isSome_iff_exists.mp (hv hd x hok)
  rw [hv]; rfl

/-- C17, failure on a concrete history: after a payload with `<working_R>100</working_R>`, a payload
without it is used with 100, not with the default 6000. -/
theorem working_R_leak_witness :
    (parser pyDemo none (.node "root" [] (some "") []) ⟨none, loadAll pyDemo none
      [.node "root" [] (some "") [.node "working_R" [] (some "100") []]] St.init.workingR⟩).1.workingR
      = .int 100 ∧ St.init.workingR = .int 6000 := by
  have e2 : compactString "100" = "100" := by decide
  have g2 : typeNumber pyDemo "100" = .int 100 := by simp [typeNumber, pyDemo]
  constructor
  · simp [loadAll, parser, parseChildren, P.bind, P.pure, finish, loadDatafile, loadDatadict, loadConfigDict,
      Dict.get?, addAttribs, Dict.set, P.ofExcept, addEntry, elementValue, e2, withUnit, unitName, g2,
      typeBool, substConfig, effects, St.init]
  · rfl

/-! ## C18 substitution of the configuration path -/

/-- A configuration path that cannot itself introduce the placeholder: it does not contain it, its
first character (for instance `/`, `.` or `~`) does not occur in the placeholder, and no end part of it
is a beginning of the placeholder. -/
structure GoodPath (p : List Char) : Prop where
  notInfix : ¬ placeholder.toList <:+: p
  head : ∃ c l, p = c :: l ∧ c ∉ placeholder.toList
  noTail : ∀ b, b ≠ [] → b <:+ p → ¬ b <+: placeholder.toList

theorem infix_append_cases {P a b : List Char} (hP : P ≠ []) (h : P <:+: a ++ b) :
    (∃ a1 a2, a = a1 ++ a2 ∧ a2 ≠ [] ∧ P <+: a2 ++ b) ∨ P <:+: b := by
  induction a with
  | nil => right; simpa using h
  | cons x a ih =>
    rw [List.cons_append, List.infix_cons_iff] at h
    rcases h with h | h
    · left; exact ⟨[], x :: a, rfl, by simp, by simpa using h⟩
    · rcases ih h with ⟨a1, a2, rfl, h2, h3⟩ | h
      · left; exact ⟨x :: a1, a2, rfl, h2, h3⟩
      · right; exact h

theorem prefix_append_cases {P a b : List Char} (h : P <+: a ++ b) : P <+: a ∨ a <+: P := by
  rcases Nat.le_total P.length a.length with hl | hl
  · left; exact List.prefix_of_prefix_length_le h (List.prefix_append a b) hl
  · right; exact List.prefix_of_prefix_length_le (List.prefix_append a b) h hl

/-- Characters of the pattern that lead the output lead the input. -/
theorem replaceFrom_prefix (P : List Char) (c0 : Char) (l : List Char) (hc : c0 ∉ P) :
    ∀ (s q : List Char), (∀ x ∈ q, x ∈ P) → q <+: replaceFrom P (c0 :: l) 0 s → q <+: s := by
  intro s
  induction s with
  | nil => intro q _ h; simpa [replaceFrom] using h
  | cons c s ih =>
    intro q hq h
    cases q with
    | nil => exact List.nil_prefix
    | cons x q =>
      rw [replaceFrom] at h
      split at h
      · simp only [List.cons_append, List.cons_prefix_cons] at h
        exact absurd (hq x (by simp)) (h.1 ▸ hc)
      · simp only [List.cons_prefix_cons] at h ⊢
        exact ⟨h.1, ih q (fun y hy => hq y (by simp [hy])) h.2⟩

theorem replaceFrom_clean (p : List Char) (hp : GoodPath p) :
    ∀ (s : List Char) (k : Nat), ¬ placeholder.toList <:+: replaceFrom placeholder.toList p k s := by
  obtain ⟨c0, l, rfl, hc0⟩ := hp.head
  have hne : placeholder.toList ≠ [] := by decide
  intro s
  induction s with
  | nil =>
    intro k h
    have : replaceFrom placeholder.toList (c0 :: l) k [] = [] := by cases k <;> rfl
    rw [this] at h
    exact hne (List.infix_nil.mp h)
  | cons c s ih =>
    intro k
    cases k with
    | succ k => rw [replaceFrom]; exact ih k
    | zero =>
      rw [replaceFrom]
      split
      · intro h
        rcases infix_append_cases hne h with ⟨a1, a2, ha, h2, h3⟩ | h
        · rcases prefix_append_cases h3 with h4 | h4
          · exact hp.notInfix (ha ▸ h4.isInfix.trans (List.suffix_append a1 a2).isInfix)
          · exact hp.noTail a2 h2 (ha ▸ List.suffix_append a1 a2) h4
        · exact ih _ h
      · rename_i hnp
        intro h
        rw [List.infix_cons_iff] at h
        rcases h with h | h
        · apply hnp
          rw [List.isPrefixOf_iff_prefix]
          generalize hP : placeholder.toList = P at *
          cases P with
          | nil => exact List.nil_prefix
          | cons x P' =>
            simp only [List.cons_prefix_cons] at h ⊢
            exact ⟨h.1, replaceFrom_prefix (x :: P') c0 l hc0 s P'
              (fun y hy => by simp [hy]) h.2⟩
        · exact ih 0 h

theorem isInfixOfChars_iff (q s : List Char) : isInfixOfChars q s = true ↔ q <:+: s := by
  induction s with
  | nil => simp [isInfixOfChars]
  | cons c s ih =>
    simp [isInfixOfChars, ih, List.infix_cons_iff]

theorem substr_iff (q s : String) : substr q s = true ↔ q.toList <:+: s.toList :=
  isInfixOfChars_iff _ _

/-- The text split at the placeholders is reassembled with the path in their place: an independent
description of `str.replace`. -/
inductive Replaced (P p : List Char) : List Char → List Char → Prop where
  | nil : Replaced P p [] []
  | hit {s r : List Char} : Replaced P p s r → Replaced P p (P ++ s) (p ++ r)
  | skip {c : Char} {s r : List Char} : ¬ P <+: c :: s → Replaced P p s r → Replaced P p (c :: s) (c :: r)

theorem replaceFrom_drop (P p : List Char) : ∀ (k : Nat) (s : List Char), k ≤ s.length →
    replaceFrom P p k s = replaceFrom P p 0 (s.drop k) := by
  intro k
  induction k with
  | zero => intro s _; simp
  | succ k ih =>
    intro s hs
    cases s with
    | nil => simp at hs
    | cons c s => rw [replaceFrom, ih s (by simpa using hs)]; rfl

theorem replaceFrom_replaced (P p : List Char) (hP : P ≠ []) (n : Nat) :
    ∀ s : List Char, s.length ≤ n → Replaced P p s (replaceFrom P p 0 s) := by
  induction n with
  | zero => intro s hs; have : s = [] := by simpa using hs
            subst this; exact .nil
  | succ n ih =>
    intro s hs
    cases s with
    | nil => exact .nil
    | cons c s =>
      rw [replaceFrom]
      split
      · rename_i hpre
        rw [List.isPrefixOf_iff_prefix] at hpre
        obtain ⟨z, hz⟩ := hpre
        cases P with
        | nil => exact absurd rfl hP
        | cons x P' =>
          simp only [List.cons_append, List.cons.injEq] at hz
          obtain ⟨rfl, rfl⟩ := hz
          have hl : (x :: P').length - 1 ≤ (P' ++ z).length := by simp
          rw [replaceFrom_drop _ _ _ _ hl]
          have : (P' ++ z).drop ((x :: P').length - 1) = z := by simp
          rw [this]
          refine Replaced.hit (ih z ?_)
          simp at hs; omega
      · rename_i hnp
        rw [List.isPrefixOf_iff_prefix] at hnp
        exact .skip hnp (ih s (by simpa using hs))

theorem elementValue_str (py : Py) (cfg : Option String) (tag t : String) (retval : Dict String Opt)
    (s : St) (y : Scalar) (hne : compactString t ≠ "")
    (hu : "unit" ∉ retval.keys) (hnum : typeNumber py (compactString t) = .str (compactString t))
    (hT : compactString t ≠ "True") (hF : compactString t ≠ "False")
    (hy : substConfig (.str (compactString t)) s = (s, .ok y)) :
    elementValue py cfg tag (some t) retval s
      = ((effects cfg tag y s).1, .ok (y, retval.set "value" (.scalar y))) := by
  have hun : unitName retval = none := by
    simp [unitName, (Dict.get?_eq_none_iff retval "unit").mpr hu]
  simp only [elementValue, if_neg hne, withUnit, hun, hnum, P.bind, P.ofExcept, P.pure, typeBool, if_neg hT,
    if_neg hF, hy]
  rfl

theorem replaceFrom_id (P p : List Char) : ∀ x : List Char, ¬ P <:+: x → replaceFrom P p 0 x = x := by
  intro x
  induction x with
  | nil => intro _; rfl
  | cons c x ih =>
    intro hx
    rw [List.infix_cons_iff, not_or] at hx
    rw [replaceFrom, if_neg (by rw [List.isPrefixOf_iff_prefix]; exact hx.1), ih hx.2]

/-- C18, values: once a configuration path `p` is known, a text that is not a number, `True`, `False`
or given a unit is stored with every placeholder replaced by `p`, and, for a path that does not itself
introduce it, without any placeholder left. -/
theorem config_path_substituted (py : Py) (cfg : Option String) (tag t : String) (retval : Dict String Opt)
    (s : St) (p : String) (hcp : s.configPath = some (.str p)) (hne : compactString t ≠ "")
    (hu : "unit" ∉ retval.keys) (hnum : typeNumber py (compactString t) = .str (compactString t))
    (hT : compactString t ≠ "True") (hF : compactString t ≠ "False") :
    ∃ s' r, elementValue py cfg tag (some t) retval s = (s', .ok (.str r, retval.set "value" (.scalar (.str r)))) ∧
      Replaced placeholder.toList p.toList (compactString t).toList r.toList ∧
      (GoodPath p.toList → substr placeholder r = false) := by
  have hPne : placeholder.toList ≠ [] := by decide
  have hrep : ∃ r : String, r.toList = replaceFrom placeholder.toList p.toList 0 (compactString t).toList ∧
      substConfig (.str (compactString t)) s = (s, .ok (.str r)) := by
    by_cases hs : substr placeholder (compactString t) = true
    · refine ⟨String.ofList (replaceFrom placeholder.toList p.toList 0 (compactString t).toList),
        String.toList_ofList, ?_⟩
      simp only [substConfig, if_pos hs, replaceConfig, hcp]
    · refine ⟨compactString t, ?_, ?_⟩
      · rw [replaceFrom_id]; rw [← substr_iff]; exact hs
      · simp only [substConfig, if_neg hs]
  obtain ⟨r, hr, hy⟩ := hrep
  refine ⟨(effects cfg tag (.str r) s).1, r,
    elementValue_str py cfg tag t retval s (.str r) hne hu hnum hT hF hy, ?_, ?_⟩
  · rw [hr]; exact replaceFrom_replaced _ _ hPne _ _ (le_refl _)
  · intro hg
    rw [Bool.eq_false_iff, Ne, substr_iff, hr]
    exact replaceFrom_clean _ hg _ _

theorem bind_ok_inv {β γ : Type} {m : P β} {f : β → P γ} {s s' : St} {y : γ}
    (h : P.bind m f s = (s', .ok y)) : ∃ s1 x, m s = (s1, .ok x) ∧ f x s1 = (s', .ok y) := by
  unfold P.bind at h
  split at h
  · rename_i s1 x hx; exact ⟨s1, x, hx, h⟩
  · simp at h

theorem substConfig_state (v : Scalar) (s : St) : (substConfig v s).1 = s := by
  unfold substConfig
  repeat' (first | rfl | split)

/-- C18, which path: a non-empty `config_path` argument wins after any element with a text; otherwise a
`ConfigPath` element sets the path to its value; any other element leaves it. -/
theorem config_path_after (py : Py) (cfg : Option String) (tag t : String) (retval : Dict String Opt)
    (s s' : St) (x : Scalar × Dict String Opt) (hne : compactString t ≠ "")
    (h : elementValue py cfg tag (some t) retval s = (s', .ok x)) :
    (∀ c, cfg = some c → c ≠ "" → s'.configPath = some (.str c)) ∧
    (cfg = none ∨ cfg = some "" → s'.configPath = if tag = "ConfigPath" then some x.1 else s.configPath) := by
  simp only [elementValue, if_neg hne] at h
  obtain ⟨s1, v1, h1, ha⟩ := bind_ok_inv h
  have hs1 : s = s1 := by
    simp only [P.ofExcept, Prod.mk.injEq] at h1
    exact h1.1
  obtain ⟨s2, v2, h2, hb⟩ := bind_ok_inv ha
  have hs2 : s1 = s2 := by
    have := congrArg Prod.fst h2
    rw [substConfig_state] at this
    exact this
  obtain ⟨s3, v3, h3, hc⟩ := bind_ok_inv hb
  subst hs1 hs2
  simp only [P.pure, Prod.mk.injEq, Except.ok.injEq] at hc
  obtain ⟨rfl, rfl⟩ := hc
  simp only [effects, Prod.mk.injEq] at h3
  obtain ⟨h3, _⟩ := h3
  constructor
  · rintro c rfl hc
    rw [← h3]
    by_cases ht : tag = "ConfigPath" <;> by_cases hw : tag = "working_R" <;> simp [ht, hw, hc]
  · rintro (rfl | rfl) <;> rw [← h3] <;>
      by_cases ht : tag = "ConfigPath" <;> by_cases hw : tag = "working_R" <;> simp [ht, hw]

/-- C18, before any path is known: a placeholder in the first element with a text raises TypeError,
even when a `config_path` argument is given (it is only read after the substitution). -/
theorem config_path_first_value (py : Py) (cfg : Option String) (tag t : String) (retval : Dict String Opt)
    (s : St) (hcp : s.configPath = none) (hu : "unit" ∉ retval.keys)
    (hnum : typeNumber py (compactString t) = .str (compactString t))
    (hp : substr placeholder (compactString t) = true) :
    elementValue py cfg tag (some t) retval s = (s, .error .typeError) := by
  have hun : unitName retval = none := by
    simp [unitName, (Dict.get?_eq_none_iff retval "unit").mpr hu]
  have hT : compactString t ≠ "True" := by rintro h; rw [h] at hp; revert hp; decide
  have hF : compactString t ≠ "False" := by rintro h; rw [h] at hp; revert hp; decide
  have hne : compactString t ≠ "" := by rintro h; rw [h] at hp; revert hp; decide
  simp [elementValue, hne, withUnit, P.ofExcept, hun, hnum, P.bind, P.pure, typeBool, hT, hF, substConfig, hp, replaceConfig, hcp]

/-! Non-vacuity of C18. -/
theorem goodPath_demo : GoodPath "/data/my_payload".toList := by
  refine ⟨by rw [← isInfixOfChars_iff]; decide, ⟨'/', "data/my_payload".toList, by decide, by decide⟩, ?_⟩
  intro b hb hs hpre
  have hm : b ∈ ("/data/my_payload".toList).tails := by rwa [List.mem_tails]
  have hall : ∀ b ∈ ("/data/my_payload".toList).tails, b ≠ [] → b.isPrefixOf placeholder.toList = false := by
    decide
  have := hall b hm hb
  rw [← List.isPrefixOf_iff_prefix] at hpre
  simp [this] at hpre

example : ∃ s' r, elementValue pyDemo none "datafile" (some "__ConfigPath__/qe.csv") []
      ⟨some (.str "/data/my_payload"), .int 6000⟩ = (s', .ok (.str r, [("value", .scalar (.str r))])) ∧
      substr placeholder r = false := by
  have e : compactString "__ConfigPath__/qe.csv" = "__ConfigPath__/qe.csv" := by decide
  obtain ⟨s', r, h1, _, h3⟩ := config_path_substituted pyDemo none "datafile" "__ConfigPath__/qe.csv" []
    ⟨some (.str "/data/my_payload"), .int 6000⟩ "/data/my_payload" rfl (by rw [e]; decide) (by simp)
    (by rw [e]; simp [typeNumber, pyDemo]) (by rw [e]; decide) (by rw [e]; decide)
  exact ⟨s', r, h1, h3 goodPath_demo⟩

/-! ## C55: the file of the options -/

/-- C55: loading options reads the file if its name ends in `.xml` and it exists; it raises OSError, and changes nothing, in every other case. -/
theorem load_options (py : Py) (files : String → Option Xml) (cfg : Option String) (s : St) (filename : String) :
    (∀ stem root, filename = stem ++ ".xml" → files filename = some root → loadOptions py files filename cfg s = parser py cfg root s) ∧
    ((¬ ∃ stem root, filename = stem ++ ".xml" ∧ files filename = some root) → loadOptions py files filename cfg s = (s, .error .osError)) := by
  have suf : ∀ stem, filename = stem ++ ".xml" → ".xml".toList.isSuffixOf filename.toList = true := by
    intro stem h
    rw [List.isSuffixOf_iff_suffix]
    exact ⟨stem.toList, by rw [h, String.toList_append]⟩
  refine ⟨fun stem root h hf => ?_, fun h => ?_⟩
  · unfold loadOptions
    rw [if_pos (suf stem h), hf]
  · unfold loadOptions
    split
    · rename_i hs
      rw [List.isSuffixOf_iff_suffix] at hs
      obtain ⟨l, hl⟩ := hs
      cases hf : files filename with
      | none => rfl
      | some root => exact absurd ⟨String.ofList l, root, by rw [← String.toList_inj, String.toList_append, String.toList_ofList, hl], hf⟩ h
    · rfl

example : (loadOptions pyDemo (fun _ => some (.node "p" [] none [])) "a.xml.txt" none St.init).2 = .error .osError := by
  rw [(load_options pyDemo _ none St.init "a.xml.txt").2]
  rintro ⟨stem, root, h, _⟩
  have h1 := congrArg (fun t => t.toList.reverse.head?) h
  simp at h1

example : (loadOptions pyDemo (fun f => if f = "p.xml" then some (.node "p" [] none []) else none) "p.xml" none St.init).2 = .ok [] := by
  rw [(load_options pyDemo _ none St.init "p.xml").1 "p" (.node "p" [] none []) (by decide) (by simp)]
  simp [parser, parseChildren, finish, P.bind, P.pure, loadDatafile, loadDatadict, loadConfigDict, Dict.get?]

/-! ## C63: files referenced by a section -/

/-- The file an entry `datafile`, `datadict` or `config_dict` names: its text value. -/
def names (root : Dict String Opt) (tag f : String) : Prop :=
  ∃ d, root.get? tag = some (.dict d) ∧ Dict.get? d "value" = some (.scalar (.str f))

theorem fileValue_of_names (wrong : Exc) {root : Dict String Opt} {tag f : String} (h : names root tag f) :
    ∃ o, root.get? tag = some o ∧ fileValue wrong o = .ok f := by
  obtain ⟨d, h1, h2⟩ := h
  exact ⟨_, h1, by simp [fileValue, h2]⟩

/-- The entry `tag` has the value `x` (repeated entries are a dictionary by value: theirs is the entry of the value `value`, another dictionary). -/
def HasValue (root : Dict String Opt) (tag : String) (x : Opt) : Prop :=
  (∃ d, root.get? tag = some (.dict d) ∧ Dict.get? d "value" = some x) ∨
    ∃ (d : List (Key × Opt)), root.get? tag = some (.odict d) ∧ Dict.get? d (.str "value") = some x ∧ ∀ t, x ≠ .scalar (.str t)

/-- The contents of a data file: an ecsv table, a csv table if the file is not in this format; other formats than ecsv are refused. -/
inductive Contents (py : Py) (root : Dict String Opt) (f : String) : Except Exc Opt → Prop where
  | ecsv (r) : (root.get? "datatype" = none ∨ names root "datatype" "ecsv") → py.readEcsv f = some r → Contents py root f r
  | csv : (root.get? "datatype" = none ∨ names root "datatype" "ecsv") → py.readEcsv f = none → Contents py root f (py.readCsv f)
  | other (x) : HasValue root "datatype" x → x ≠ .scalar (.str "ecsv") → Contents py root f (.error .osError)

theorem readTable_contents {py : Py} {root : Dict String Opt} {f : String} {r : Except Exc Opt} (h : Contents py root f r) :
    readTable py (isEcsv root) f = r := by
  have hy : (root.get? "datatype" = none ∨ names root "datatype" "ecsv") → isEcsv root = true := by
    rintro (h | ⟨d, h1, h2⟩)
    · simp [isEcsv, h]
    · simp [isEcsv, h1, h2]
  unfold readTable
  cases h with
  | ecsv r h hr => rw [if_pos (hy h), hr]
  | csv h hr => rw [if_pos (hy h), hr]
  | other x h hx =>
    have : isEcsv root = false := by
      rcases h with ⟨d, h1, h2⟩ | ⟨d, h1, h2, _⟩
      · unfold isEcsv
        rw [h1]
        simp only [h2]
        split
        · rename_i t ht
          exact decide_eq_false (fun he => hx (by rw [Option.some.inj ht, he]))
        · rfl
        · rename_i ht; cases ht
      · simp [isEcsv, h1, h2]
    rw [this]
    rfl

/-- The file a name stands for: the placeholder, if there is one, is the configuration path. -/
def Resolved (s : St) (f f' : String) : Prop :=
  (substr placeholder f = false ∧ f' = f) ∨
  (substr placeholder f = true ∧ ∃ p, s.configPath = some (.str p) ∧ f' = String.ofList (replaceFrom placeholder.toList p.toList 0 f.toList))

/-- C63: a section naming a `datafile` gets the table read from that file as its `data`; every
other entry is as it was; a failing read fails the load, so does a placeholder without a textual configuration path. -/
theorem section_datafile (py : Py) (root : Dict String Opt) (f : String) (s : St) (hf : names root "datafile" f)
    (h1 : root.get? "datadict" = none) (h2 : root.get? "config_dict" = none) :
    (∀ f', Resolved s f f' → (∀ e, Contents py root f' (.error e) → finish py root s = (s, .error e)) ∧
      (∀ t, Contents py root f' (.ok t) → ∃ r, finish py root s = (s, .ok r) ∧ r.get? "data" = some t ∧
        ∀ k, k ≠ "data" → r.get? k = root.get? k)) ∧
    (substr placeholder f = true → (∀ p, s.configPath ≠ some (.str p)) → finish py root s = (s, .error .typeError)) := by
  obtain ⟨o, ho, hfo⟩ := fileValue_of_names .typeError hf
  refine ⟨fun f' hr => ?_, fun hp hs => ?_⟩
  · have hl : ∀ x, Contents py root f' x → loadDatafile py root s = (match x with | .ok t => (s, .ok (root.set "data" t)) | .error e => (s, .error e)) := by
      intro x hx
      unfold loadDatafile
      have hq : (if substr placeholder f then replaceConfig f s.configPath else .ok f) = .ok f' := by
        rcases hr with ⟨hp, rfl⟩ | ⟨hp, p, hc, rfl⟩
        · simp [hp]
        · simp [hp, replaceConfig, hc]
      simp only [ho, hfo]
      rw [hq]
      simp only [readTable_contents hx]
      cases x <;> rfl
    constructor
    · intro e he
      unfold finish
      simp only [P.bind, hl _ he]
    · intro t ht
      refine ⟨root.set "data" t, ?_, by simp, fun k hk => by rw [Dict.get?_set_ne _ _ hk]⟩
      unfold finish
      simp only [P.bind, hl _ ht, loadDatadict, loadConfigDict]
      rw [Dict.get?_set_ne _ _ (by decide), h1]
      simp only
      rw [Dict.get?_set_ne _ _ (by decide), h2]
  · have hq : (if substr placeholder f then replaceConfig f s.configPath else .ok f) = .error .typeError := by
      rw [if_pos hp]
      unfold replaceConfig
      split
      · rename_i p hc; exact absurd hc (hs p)
      · rfl
    unfold finish loadDatafile
    simp only [P.bind, ho, hfo]
    rw [hq]

/-- A csv file under a section of a payload. -/
example : ∃ r, finish { pyDemo with readCsv := fun f => .ok (.table f) } [("value", .scalar (.str "qe")), ("datafile", .dict [("value", .scalar (.str "__ConfigPath__/qe.csv"))])]
      ⟨some (.str "/data"), .int 6000⟩ = (⟨some (.str "/data"), .int 6000⟩, .ok r) ∧
    r.get? "data" = some (.table (String.ofList (replaceFrom placeholder.toList "/data".toList 0 "__ConfigPath__/qe.csv".toList))) := by
  obtain ⟨h, _⟩ := section_datafile { pyDemo with readCsv := fun f => .ok (.table f) }
    [("value", .scalar (.str "qe")), ("datafile", .dict [("value", .scalar (.str "__ConfigPath__/qe.csv"))])] "__ConfigPath__/qe.csv"
    ⟨some (.str "/data"), .int 6000⟩ ⟨_, rfl, rfl⟩ rfl rfl
  obtain ⟨r, h1, h2, _⟩ := (h _ (.inr ⟨by decide, "/data", rfl, rfl⟩)).2 _ (.csv (.inl rfl) rfl)
  exact ⟨r, h1, h2⟩

/-- The name of a file in a directory: what follows the last slash. -/
theorem baseChars_spec (dir name : List Char) (h : '/' ∉ name) : baseChars name = name ∧ baseChars (dir ++ '/' :: name) = name := by
  have h0 : baseChars name = name := by
    cases name with
    | nil => rfl
    | cons c s => rw [baseChars, if_neg (by simpa using h)]
  refine ⟨h0, ?_⟩
  induction dir with
  | nil => rw [List.nil_append, baseChars, if_pos (by simp), h0]
  | cons c d ih => rw [List.cons_append, baseChars, if_pos (by simp), ih]

example : pathExt "~/payload.d/optics.hdf5" = ".hdf5" ∧ pathExt "data/.h5" = "" ∧ pathExt "a.h5/b" = "" ∧ pathExt "x.tar.pickle" = ".pickle" := by decide

/-- The dictionary in a file: HDF5 or pickle, by the extension of its name; other names are refused. -/
inductive Dictionary (py : Py) (f : String) : Except Exc (Dict String Opt) → Prop where
  | h5 : pathExt f = ".h5" ∨ pathExt f = ".hdf5" → Dictionary py f (py.loadH5 f)
  | pickle : pathExt f = ".pickle" → Dictionary py f (py.loadPickle f)
  | other : pathExt f ∉ [".h5", ".hdf5", ".pickle"] → Dictionary py f (.error .osError)

theorem readDict_dictionary {py : Py} {f : String} {r : Except Exc (Dict String Opt)} (h : Dictionary py f r) : readDict py f = r := by
  unfold readDict
  cases h with
  | h5 h => rw [if_pos h]
  | pickle h => rw [if_neg (by rw [h]; decide), if_pos h]
  | other h =>
    simp only [List.mem_cons, List.not_mem_nil, or_false, not_or] at h
    rw [if_neg (by simp [h.1, h.2.1]), if_neg h.2.2]

/-- What an entry that should name a file raises if it does not: TypeError for a `datafile` whose value is no text, AttributeError for the others, KeyError if there is no value. -/
inductive Unnamed (root : Dict String Opt) (tag : String) : Exc → Prop where
  | datafile (x) : tag = "datafile" → HasValue root tag x → (∀ f, x ≠ .scalar (.str f)) → Unnamed root tag .typeError
  | dict (x) : tag ≠ "datafile" → HasValue root tag x → (∀ f, x ≠ .scalar (.str f)) → Unnamed root tag .attributeError
  | empty : (∀ x, ¬ HasValue root tag x) → Unnamed root tag .keyError

/-- C63: an entry `datafile`, `datadict` or `config_dict` that names no file fails the load. (Repeated entries are dictionaries.) -/
theorem section_not_text (py : Py) (root : Dict String Opt) (s : St) (tag : String) (o : Opt) (ho : root.get? tag = some o) (hdd : ∀ d, o = .odict d → ∀ kv ∈ d, ∃ y, kv.2 = .dict y)
    (e : Exc) (he : Unnamed root tag e) :
    (tag = "datafile" → finish py root s = (s, .error e)) ∧
    (tag = "datadict" → root.get? "datafile" = none → finish py root s = (s, .error e)) ∧
    (tag = "config_dict" → root.get? "datafile" = none → root.get? "datadict" = none → finish py root s = (s, .error e)) := by
  have val : ∀ x w, HasValue root tag x → (∀ f, x ≠ .scalar (.str f)) → fileValue w o = .error w := by
    intro v w hv hn
    rcases hv with ⟨d, h2, h3⟩ | ⟨d, h2, h3, _⟩
    · rw [ho] at h2; cases h2
      unfold fileValue
      simp only [h3]
    · rw [ho] at h2; cases h2
      simp [fileValue, h3]
  have key : ∀ w, (if tag = "datafile" then Exc.typeError else .attributeError) = w → fileValue w o = .error e := by
    intro w hw
    cases he with
    | datafile x ht hv hn => rw [if_pos ht] at hw; subst hw; exact val x _ hv hn
    | dict x ht hv hn => rw [if_neg ht] at hw; subst hw; exact val x _ hv hn
    | empty h2 =>
      unfold fileValue
      cases o with
      | dict d =>
        cases hd : Dict.get? d "value" with
        | none => simp [hd]
        | some v => exact absurd (.inl ⟨d, ho, hd⟩) (h2 v)
      | odict d =>
        cases hd : Dict.get? d (.str "value") with
        | none => simp [hd]
        | some v =>
          obtain ⟨y, hy⟩ := hdd d rfl _ (Dict.mem_of_get? hd)
          exact absurd (.inr ⟨d, ho, hd, fun t ht => by simp only at hy; rw [hy] at ht; cases ht⟩) (h2 v)
      | _ => rfl
  refine ⟨?_, ?_, ?_⟩
  · rintro rfl
    unfold finish
    simp only [P.bind, loadDatafile, ho, key .typeError rfl]
  · rintro rfl h1
    unfold finish
    simp only [P.bind, loadDatafile, h1, loadDatadict, ho, key .attributeError (by decide)]
  · rintro rfl h1 h2
    unfold finish
    simp only [P.bind, loadDatafile, h1, loadDatadict, h2, loadConfigDict, ho, key .attributeError (by decide)]

/-- `<datafile>12</datafile>`, and a `datatype` that is the number 1. -/
example : finish pyDemo [("datafile", .dict [("value", .scalar (.int 12))])] St.init = (St.init, .error .typeError) :=
  (section_not_text pyDemo _ St.init "datafile" _ rfl (fun _ h => by cases h) _ (.datafile (.scalar (.int 12)) rfl (.inl ⟨_, rfl, rfl⟩) (fun _ h => by cases h))).1 rfl

example : readTable pyDemo (isEcsv [("datatype", .dict [("value", .scalar (.int 1))])]) "f" = .error .osError :=
  readTable_contents (.other (.scalar (.int 1)) (.inl ⟨_, rfl, rfl⟩) (fun h => by cases h))

theorem section_no_file (py : Py) (root : Dict String Opt) (s : St) (h0 : root.get? "datafile" = none)
    (h1 : root.get? "datadict" = none) (h2 : root.get? "config_dict" = none) : finish py root s = (s, .ok root) := by
  unfold finish
  simp only [P.bind, loadDatafile, loadDatadict, loadConfigDict, h0, h1, h2]

/-- C63: a `datadict` adds the dictionary read from the file (placeholder replaced by the current configuration
path) as `data`; without a textual configuration path the load is a TypeError, even if there is no placeholder in the
name. -/
theorem section_datadict (py : Py) (root : Dict String Opt) (f : String) (s : St) (hf : names root "datadict" f)
    (h1 : root.get? "datafile" = none) (h2 : root.get? "config_dict" = none) :
    ((∀ p, s.configPath ≠ some (.str p)) → finish py root s = (s, .error .typeError)) ∧
    (∀ p, s.configPath = some (.str p) →
      let f' := String.ofList (replaceFrom placeholder.toList p.toList 0 f.toList)
      (∀ e, Dictionary py f' (.error e) → finish py root s = (s, .error e)) ∧
      (∀ d, Dictionary py f' (.ok d) → ∃ r, finish py root s = (s, .ok r) ∧ r.get? "data" = some (.dict d) ∧
        ∀ k, k ≠ "data" → r.get? k = root.get? k)) := by
  obtain ⟨o, ho, hfo⟩ := fileValue_of_names .attributeError hf
  constructor
  · intro hs
    unfold finish
    simp only [P.bind, loadDatafile, h1, loadDatadict, ho, hfo]
    have : replaceConfig f s.configPath = .error .typeError := by
      unfold replaceConfig
      split
      · rename_i p hp; exact absurd hp (hs p)
      · rfl
    simp only [this]
  · intro p hp
    refine ⟨?_, ?_⟩
    · intro e he
      unfold finish
      simp only [P.bind, loadDatafile, h1, loadDatadict, ho, hfo, hp, replaceConfig, readDict_dictionary he]
    · intro d hd
      refine ⟨root.set "data" (.dict d), ?_, by simp, fun k hk => by rw [Dict.get?_set_ne _ _ hk]⟩
      unfold finish
      simp only [P.bind, loadDatafile, h1, loadDatadict, ho, hfo, hp, replaceConfig, readDict_dictionary hd, loadConfigDict]
      rw [Dict.get?_set_ne _ _ (by decide), h2]

/-- C63: a `config_dict` replaces the whole section by the contents of the file; only the name of the file is added. -/
theorem section_config_dict (py : Py) (root : Dict String Opt) (f p : String) (s : St) (hf : names root "config_dict" f)
    (h1 : root.get? "datafile" = none) (h2 : root.get? "datadict" = none) (hp : s.configPath = some (.str p)) :
    let f' := String.ofList (replaceFrom placeholder.toList p.toList 0 f.toList)
    (∀ e, Dictionary py f' (.error e) → finish py root s = (s, .error e)) ∧
    (∀ d, Dictionary py f' (.ok d) → ∃ r, finish py root s = (s, .ok r) ∧ r.get? "config_dict" = some (.scalar (.str f')) ∧
      ∀ k, k ≠ "config_dict" → r.get? k = d.get? k) := by
  obtain ⟨o, ho, hfo⟩ := fileValue_of_names .attributeError hf
  refine ⟨?_, ?_⟩
  · intro e he
    unfold finish
    simp only [P.bind, loadDatafile, h1, loadDatadict, h2, loadConfigDict, ho, hfo, hp, replaceConfig, readDict_dictionary he]
  · intro d hd
    refine ⟨_, ?_, Dict.get?_set_self _ _ _, fun k hk => by rw [Dict.get?_set_ne _ _ hk]⟩
    unfold finish
    simp only [P.bind, loadDatafile, h1, loadDatadict, h2, loadConfigDict, ho, hfo, hp, replaceConfig, readDict_dictionary hd]

end ExoRad.Options
