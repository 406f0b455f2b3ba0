import Verif.Model.FcCalculator
import Mathlib.Tactic.FinCases

/-!
C156: each order of force constants is computed by the calculator, with the options, that the user named
for it.
-/

namespace Phono3py.Props
open Phono3py

/-! ### What the user writes -/

/-- The text of an option: none, one text for both orders, or texts for fc2 and fc3 separated by a
bar. -/
inductive PerOrder where
  | nothing
  | both (s : Str)
  | each (s2 s3 : Str)

/-- As it is written. -/
def PerOrder.text : PerOrder → Option Str
  | .nothing => none
  | .both s => some s
  | .each s2 s3 => some (s2 ++ '|' :: s3)

/-- What it says of fc2 (`order = 2`) and of fc3 (`order = 3`); empty means no say. -/
def PerOrder.says : PerOrder → Nat → Str
  | .nothing, _ => []
  | .both s, _ => s
  | .each s2 s3, order => if order = 2 then s2 else s3

/-- No bars inside; one text for both orders is not blank. -/
def PerOrder.Sane (p : PerOrder) : Prop :=
  (∀ order, '|' ∉ p.says order) ∧ ∀ s, p = .both s → stripStr s ≠ []

/-- A text, or nothing when it is empty. -/
def orNone (s : Str) : Option Str := if s = [] then none else some s

/-! ### Bars -/

theorem splitBar_plain {a : Str} (h : '|' ∉ a) : splitBar a = [a] := by
  induction a with
  | nil => rfl
  | cons c a ih =>
    simp only [List.mem_cons, not_or] at h
    rw [splitBar, if_neg (fun e => h.1 e.symm), ih h.2]

theorem splitBar_bar {a : Str} (h : '|' ∉ a) (b : Str) : splitBar (a ++ '|' :: b) = a :: splitBar b := by
  induction a with
  | nil => simp [splitBar]
  | cons c a ih =>
    simp only [List.mem_cons, not_or] at h
    rw [List.cons_append, splitBar, if_neg (fun e => h.1 e.symm), ih h.2]

theorem splitBar_no_bar (s : Str) : ∀ p ∈ splitBar s, '|' ∉ p := by
  induction s with
  | nil => simp [splitBar]
  | cons c s ih =>
    intro p hp
    rw [splitBar] at hp
    split at hp
    · rcases List.mem_cons.1 hp with rfl | hp
      · simp
      · exact ih p hp
    · rename_i hc
      cases hs : splitBar s with
      | nil =>
        rw [hs] at hp
        obtain rfl : p = [c] := by simpa using hp
        simpa using fun e => hc e.symm
      | cons q qs =>
        rw [hs] at hp ih
        rcases List.mem_cons.1 hp with rfl | hp
        · have := ih q (by simp)
          simp only [List.mem_cons, not_or]
          exact ⟨fun e => hc e.symm, this⟩
        · exact ih p (by simp [hp])

theorem strip_no_bar {s : Str} (h : '|' ∉ s) : '|' ∉ stripStr s := by
  unfold stripStr
  intro hc
  rw [List.mem_reverse] at hc
  have := (List.dropWhile_sublist (p := Char.isWhitespace)).subset hc
  rw [List.mem_reverse] at this
  exact h ((List.dropWhile_sublist (p := Char.isWhitespace)).subset this)

/-- What comes out of the extraction has no bars. -/
theorem extract_no_bar (s : Option Str) (order : Nat) (p : Str) (h : extractCalculator s order = some p) :
    '|' ∉ p := by
  cases s with
  | none => simp [extractCalculator] at h
  | some s =>
    simp only [extractCalculator] at h
    split at h
    · split at h
      · simp at h
      · rename_i hne
        obtain rfl := Option.some.inj h
        rw [List.getD_eq_getElem?_getD] at hne ⊢
        cases hg : (splitBar s)[order - 2]? with
        | none => simp
        | some q => exact splitBar_no_bar s q (List.mem_of_getElem? hg)
    · split at h
      · simp at h
      · rename_i hb _
        obtain rfl := Option.some.inj h
        exact hb

/-- The extraction hands each order what the user wrote for it. -/
theorem extract_says {p : PerOrder} (hp : p.Sane) {order : Nat} (ho : order = 2 ∨ order = 3) :
    extractCalculator p.text order = orNone (p.says order) := by
  cases p with
  | nothing => rfl
  | both s =>
    have h1 : '|' ∉ s := hp.1 2
    have h2 := hp.2 s rfl
    have h3 : s ≠ [] := fun e => h2 (by rw [e]; rfl)
    have e : orNone s = some s := if_neg h3
    simp only [PerOrder.text, extractCalculator, if_neg h1, if_neg h2, PerOrder.says, e]
  | each s2 s3 =>
    have h2 : '|' ∉ s2 := hp.1 2
    have h3 : '|' ∉ s3 := hp.1 3
    have hm : '|' ∈ s2 ++ '|' :: s3 := by simp
    simp only [PerOrder.text, extractCalculator, if_pos hm, splitBar_bar h2, splitBar_plain h3]
    rcases ho with rfl | rfl <;> rfl

/-! ### Names -/

/-- What is needed of the list of known calculators: names in lower case that are words. -/
def WordNames (known : List Str) : Prop := ∀ n ∈ known, '|' ∉ n ∧ stripStr n ≠ []

/-- Each name is known (in any case of letters) or left empty. -/
def Named (known : List Str) (p : PerOrder) : Prop :=
  ∀ order, p.says order = [] ∨ (p.says order).map Char.toLower ∈ known

/-- `p` with all letters in lower case. -/
def PerOrder.lower : PerOrder → PerOrder
  | .nothing => .nothing
  | .both s => .both (s.map Char.toLower)
  | .each s2 s3 => .each (s2.map Char.toLower) (s3.map Char.toLower)

theorem lower_says (p : PerOrder) (order : Nat) : p.lower.says order = (p.says order).map Char.toLower := by
  cases p with
  | nothing => rfl
  | both s => rfl
  | each s2 s3 => simp only [PerOrder.lower, PerOrder.says]; split <;> rfl

/-- The list of calculators of a text whose names are known. -/
theorem params_name {known : List Str} {p : PerOrder} (hs : p.Sane) (hn : Named known p)
    (opts cutoff : Option Str) : (fcCalculatorParams known p.text opts cutoff).1 = p.lower.text := by
  have part : ∀ s : Str, s = [] ∨ s.map Char.toLower ∈ known →
      (if s = [] then some [] else if s.map Char.toLower ∈ known then some (s.map Char.toLower)
        else none) = some (s.map Char.toLower) := by
    intro s hk
    rcases hk with rfl | hk
    · rfl
    · by_cases h : s = []
      · rw [if_pos h, h]; rfl
      · rw [if_neg h, if_pos hk]
  cases p with
  | nothing => rfl
  | both s =>
    have h1 : '|' ∉ s := hs.1 2
    have h2 := part s (hn 2)
    simp only [fcCalculatorParams, PerOrder.text, fcCalculatorList, splitBar_plain h1,
      List.filterMap_cons, h2, List.filterMap_nil, PerOrder.lower]
    simp [joinBar]
  | each s2 s3 =>
    have h2 := part s2 (hn 2)
    have h3 := part s3 (hn 3)
    have b2 : '|' ∉ s2 := hs.1 2
    have b3 : '|' ∉ s3 := hs.1 3
    simp only [fcCalculatorParams, PerOrder.text, fcCalculatorList, splitBar_bar b2, splitBar_plain b3,
      List.filterMap_cons, h2, h3, List.filterMap_nil, PerOrder.lower]
    simp [joinBar]

theorem lower_sane {known : List Str} (hk : WordNames known) {p : PerOrder} (hs : p.Sane)
    (hn : Named known p) : p.lower.Sane := by
  refine ⟨fun order => ?_, fun s hp => ?_⟩
  · rw [lower_says]
    rcases hn order with h | h
    · rw [h]; simp
    · exact (hk _ h).1
  · cases p with
    | nothing => simp [PerOrder.lower] at hp
    | each s2 s3 => simp [PerOrder.lower] at hp
    | both t =>
      obtain rfl : t.map Char.toLower = s := by simpa [PerOrder.lower] using hp
      rcases hn 2 with h | h
      · exact absurd (by rw [show t = [] from h]; rfl) (hs.2 t rfl)
      · exact (hk _ h).2

/-- **C156 (calculators).** When every calculator named is a known one, each order gets the calculator
written for it, or the built-in one when none is written, whatever the options and the cutoff. -/
theorem C156_calculators {known : List Str} (hk : WordNames known) {p : PerOrder} (hs : p.Sane)
    (hn : Named known p) (opts cutoff : Option Str) {order : Nat} (ho : order = 2 ∨ order = 3) :
    extractCalculator (fcCalculatorParams known p.text opts cutoff).1 order =
      orNone ((p.says order).map Char.toLower) := by
  rw [params_name hs hn, extract_says (lower_sane hk hs hn) ho, lower_says]

/-! ### Options -/

/-- **C156 (options).** Without a cutoff distance each order gets the options written for it. -/
theorem C156_options (known : List Str) (tool : Option Str) {o : PerOrder} (hs : o.Sane) {order : Nat}
    (ho : order = 2 ∨ order = 3) :
    extractCalculator (fcCalculatorParams known tool o.text none).2 order = orNone (o.says order) :=
  extract_says hs ho

/-- Options of an order as the cutoff procedure keeps them: leading and trailing blanks are dropped when
the orders have texts of their own. -/
def PerOrder.kept : PerOrder → Nat → Str
  | .each s2 s3, order => stripStr (PerOrder.says (.each s2 s3) order)
  | p, order => p.says order

/-- The text `cutoff=c`. -/
def cutoffText (c : Str) : Str := ['c', 'u', 't', 'o', 'f', 'f', '='] ++ c

/-- Options with a cutoff distance added unless they have one. -/
def withCutoff (s c : Str) : Str :=
  if s = [] then cutoffText c
  else if ['c', 'u', 't', 'o', 'f', 'f'] <:+: s then s
  else s ++ [',', ' '] ++ cutoffText c

theorem appendCutoff_eq (s c : Str) : appendCutoff s c = withCutoff s c := by
  unfold appendCutoff withCutoff hasCutoff cutoffText
  simp only [decide_eq_true_eq, List.append_assoc]

theorem optionPair_kept {o : PerOrder} (hs : o.Sane) : optionPair o.text = (o.kept 2, o.kept 3) := by
  cases o with
  | nothing => rfl
  | both s =>
    have h1 : '|' ∉ s := hs.1 2
    exact if_neg h1
  | each s2 s3 =>
    have b2 : '|' ∉ s2 := hs.1 2
    have b3 : '|' ∉ s3 := hs.1 3
    have hm : '|' ∈ s2 ++ '|' :: s3 := by simp
    have e : splitBar (s2 ++ '|' :: s3) = [s2, s3] := by rw [splitBar_bar b2, splitBar_plain b3]
    refine (if_pos hm).trans ?_
    show (((splitBar (s2 ++ '|' :: s3)).map stripStr).getD 0 [],
      ((splitBar (s2 ++ '|' :: s3)).map stripStr).getD 1 []) = _
    rw [e]
    rfl

theorem setCutoff_each {o : PerOrder} (hs : o.Sane) (c : Str) :
    setCutoffInOptions o.text c = o.kept 2 ++ '|' :: withCutoff (o.kept 3) c := by
  rw [setCutoffInOptions, optionPair_kept hs, appendCutoff_eq]

theorem kept_no_bar {o : PerOrder} (hs : o.Sane) (order : Nat) : '|' ∉ o.kept order := by
  cases o with
  | nothing => simp [PerOrder.kept, PerOrder.says]
  | both s => exact hs.1 2
  | each s2 s3 => exact strip_no_bar (hs.1 order)

theorem withCutoff_ne (s c : Str) : withCutoff s c ≠ [] := by
  unfold withCutoff cutoffText
  split
  · simp
  · split
    · assumption
    · simp

theorem withCutoff_has (s c : Str) : hasCutoff (withCutoff s c) = true := by
  rw [hasCutoff, decide_eq_true_eq]
  unfold withCutoff cutoffText
  split
  · exact ⟨[], '=' :: c, rfl⟩
  · split
    · assumption
    · exact ⟨s ++ [',', ' '], '=' :: c, by simp⟩

theorem withCutoff_no_bar {s c : Str} (hs : '|' ∉ s) (hc : '|' ∉ c) : '|' ∉ withCutoff s c := by
  unfold withCutoff cutoffText
  split
  · simpa using hc
  · split
    · exact hs
    · simp [hs, hc]

/-- The calculator that is said to make fc3. -/
def fc3Tool (known : List Str) (p : PerOrder) (name : Str) : Prop :=
  name ∈ known ∧ name ≠ [] ∧ (p.says 3).map Char.toLower = name

/-- The last calculator of the list is the one for fc3. -/
theorem list_last {known : List Str} {p : PerOrder} (hs : p.Sane) (hn : Named known p) (t : Str)
    (ht : p.text = some t) :
    (fcCalculatorList known t).getLast? = some ((p.says 3).map Char.toLower) := by
  have part : ∀ s : Str, s = [] ∨ s.map Char.toLower ∈ known →
      (if s = [] then some [] else if s.map Char.toLower ∈ known then some (s.map Char.toLower)
        else none) = some (s.map Char.toLower) := by
    intro s hk
    by_cases h : s = []
    · rw [if_pos h, h]; rfl
    · rw [if_neg h, if_pos (hk.resolve_left h)]
  cases p with
  | nothing => simp [PerOrder.text] at ht
  | both s =>
    obtain rfl := Option.some.inj ht
    have b : '|' ∉ s := hs.1 2
    simp only [fcCalculatorList, splitBar_plain b, List.filterMap_cons, part s (hn 2),
      List.filterMap_nil]
    rfl
  | each s2 s3 =>
    obtain rfl := Option.some.inj ht
    have b2 : '|' ∉ s2 := hs.1 2
    have b3 : '|' ∉ s3 := hs.1 3
    simp only [fcCalculatorList, splitBar_bar b2, splitBar_plain b3, List.filterMap_cons,
      part s2 (hn 2), part s3 (hn 3), List.filterMap_nil]
    rfl

/-- **C156 (cutoff distance).** With a cutoff distance and symfc or ALM as the calculator of fc3, the
options of fc3 gain the cutoff unless they have one, and those of fc2 keep (up to blanks at the ends). -/
theorem C156_cutoff {known : List Str} {p : PerOrder} (hp : p.Sane)
    (hn : Named known p) {o : PerOrder} (ho : o.Sane) {c : Str} (hc : '|' ∉ c) {name : Str}
    (hname : fc3Tool known p name) (ht : name = "symfc".toList ∨ name = "alm".toList) :
    let value := if name = "alm".toList then "-1 ".toList ++ c else c
    extractCalculator (fcCalculatorParams known p.text o.text (some c)).2 3 =
      some (withCutoff (o.kept 3) value) ∧
    extractCalculator (fcCalculatorParams known p.text o.text (some c)).2 2 = orNone (o.kept 2) := by
  intro value
  have hv : '|' ∉ value := by
    show '|' ∉ (if name = "alm".toList then "-1 ".toList ++ c else c)
    split
    · simp [hc]
    · exact hc
  have htext : ∃ t, p.text = some t := by
    cases p with
    | nothing =>
      obtain ⟨h1, h0, h2⟩ := hname
      exact absurd h2.symm h0
    | both s => exact ⟨_, rfl⟩
    | each s2 s3 => exact ⟨_, rfl⟩
  obtain ⟨t, htx⟩ := htext
  have hlast := list_last hp hn t htx
  rw [hname.2.2] at hlast
  have hopt : (fcCalculatorParams known p.text o.text (some c)).2 =
      some (o.kept 2 ++ '|' :: withCutoff (o.kept 3) value) := by
    rw [← setCutoff_each ho]
    simp only [fcCalculatorParams, htx, hlast]
    rcases ht with rfl | rfl
    · simp [value]
    · simp [value]
  rw [hopt]
  have hk := kept_no_bar ho 2
  have hw := withCutoff_no_bar (kept_no_bar ho 3) hv
  have hm : '|' ∈ o.kept 2 ++ '|' :: withCutoff (o.kept 3) value := by simp
  constructor
  · simp only [extractCalculator, if_pos hm, splitBar_bar hk, splitBar_plain hw]
    show (if withCutoff (o.kept 3) value = [] then none else some (withCutoff (o.kept 3) value)) = _
    rw [if_neg (withCutoff_ne _ _)]
  · simp only [extractCalculator, if_pos hm, splitBar_bar hk]
    rfl

/-- C156: with other calculators of fc3 the options remain as they are written. -/
theorem C156_no_cutoff {known : List Str} {p : PerOrder} (hp : p.Sane) (hn : Named known p)
    {o : PerOrder} (ho : o.Sane) (c : Str)
    (h : (p.says 3).map Char.toLower ≠ "symfc".toList ∧ (p.says 3).map Char.toLower ≠ "alm".toList)
    {order : Nat} (hord : order = 2 ∨ order = 3) :
    extractCalculator (fcCalculatorParams known p.text o.text (some c)).2 order =
      orNone (o.says order) := by
  have hopt : (fcCalculatorParams known p.text o.text (some c)).2 = o.text := by
    cases htx : p.text with
    | none => simp [fcCalculatorParams]
    | some t =>
      have hl := list_last hp hn t htx
      have n1 : (fcCalculatorList known t).getLast? ≠ some "symfc".toList := by
        rw [hl]; exact fun e => h.1 (Option.some.inj e)
      have n2 : (fcCalculatorList known t).getLast? ≠ some "alm".toList := by
        rw [hl]; exact fun e => h.2 (Option.some.inj e)
      simp only [fcCalculatorParams, if_neg n1, if_neg n2]
  rw [hopt, extract_says ho hord]

/-! ### Where it goes wrong -/

/-- **C156 (violation).** A calculator that is not known is left out, and the other one takes its place:
with `x|symfc` and with `symfc|x` both orders are computed by symfc. -/
theorem C156_unknown_shifts {known : List Str} (hk : WordNames known) {x n : Str} (hx : '|' ∉ x)
    (hx0 : x ≠ []) (hxk : x.map Char.toLower ∉ known) (hn : '|' ∉ n) (hn0 : n ≠ [])
    (hnk : n.map Char.toLower ∈ known) (opts cutoff : Option Str) {order : Nat}
    (p : PerOrder) (hp : p = .each x n ∨ p = .each n x) :
    extractCalculator (fcCalculatorParams known p.text opts cutoff).1 order =
      some (n.map Char.toLower) := by
  have h := hk _ hnk
  have hl : (fcCalculatorParams known p.text opts cutoff).1 = some (n.map Char.toLower) := by
    rcases hp with rfl | rfl <;>
      simp [fcCalculatorParams, PerOrder.text, fcCalculatorList, splitBar_bar, splitBar_plain, hx, hn,
        hx0, hn0, hxk, hnk, joinBar]
  rw [hl]
  simp only [extractCalculator, if_neg h.1, if_neg h.2]

/-- **C156 (violation).** A single calculator that is not known is ignored without a message: the built-in
solver is used. -/
theorem C156_unknown_ignored {known : List Str} {x : Str} (hx : '|' ∉ x) (hx0 : x ≠ [])
    (hxk : x.map Char.toLower ∉ known) (opts cutoff : Option Str) (order : Nat) :
    extractCalculator (fcCalculatorParams known (PerOrder.both x).text opts cutoff).1 order = none := by
  have : (fcCalculatorParams known (PerOrder.both x).text opts cutoff).1 = none := by
    simp [fcCalculatorParams, PerOrder.text, fcCalculatorList, splitBar_plain, hx, hx0, hxk]
  rw [this]
  rfl

/-- **C156 (violation).** A dictionary of options with a cutoff distance in
`compute_force_constants_from_datasets`: fc2 gets the cutoff as well. -/
theorem C156_dict_shared (d : OptionDict) (h : d.cutoff = none) (c : Str) :
    (loadDictOptions d (some c)).2.1.cutoff = some c := by
  simp [loadDictOptions, updateCutoffDict, h]

/-- **C156 (violation).** ... and a second call with the same dictionary and another cutoff distance still
uses the first one. -/
theorem C156_dict_stale (d : OptionDict) (h : d.cutoff = none) (c c' : Str) :
    (loadDictOptions (loadDictOptions d (some c)).2.2 (some c')).1.cutoff = some c := by
  simp [loadDictOptions, updateCutoffDict, h]

/-! ### `phono3py-load` -/

/-- The built-in solver cannot do general displacements; symfc is used then. -/
def fallback (general : Bool) (tool : Option Str) : Option Str :=
  if builtIn tool && general then some "symfc".toList else tool

theorem extract_symfc (order : Nat) :
    extractCalculator (some "symfc".toList) order = some "symfc".toList := by
  have h1 : '|' ∉ "symfc".toList := by decide
  have h2 : stripStr "symfc".toList ≠ [] := by decide
  simp only [extractCalculator, if_neg h1, if_neg h2]

theorem extract_contains (s : Option Str) (order : Nat) :
    ((extractCalculator s order).getD []).contains '|' = false := by
  cases h : extractCalculator s order with
  | none => rfl
  | some p =>
    have := extract_no_bar s order p h
    simpa using this

/-- Options of fc3 with a cutoff that the solver call adds itself unless they have one. -/
def withCutoffSpaced (s c : Str) : Str :=
  if s = [] then ['c', 'u', 't', 'o', 'f', 'f', ' ', '=', ' '] ++ c
  else if ['c', 'u', 't', 'o', 'f', 'f'] <:+: s then s
  else s ++ [',', ' ', 'c', 'u', 't', 'o', 'f', 'f', ' ', '=', ' '] ++ c

/-- The options the user asks for: those written for the order, and for fc3 a cutoff distance if one is
given and they have none. `t3` is the calculator written for fc3. -/
def askedOptions (o : PerOrder) (cutoff : Option Str) (t3 : Str) (order : Nat) : Option Str :=
  match cutoff with
  | none => orNone (o.says order)
  | some c =>
    if t3 = "symfc".toList ∨ t3 = "alm".toList then
      if order = 2 then orNone (o.kept 2)
      else some (withCutoff (o.kept 3) (if t3 = "alm".toList then "-1 ".toList ++ c else c))
    else if order = 2 then orNone (o.says 2)
    else some (withCutoffSpaced (o.says 3) c)

/-- What is needed of the parser of options: it finds a cutoff only in options that name one. -/
def ParserSane (parse : Option Str → Option Str) : Prop :=
  ∀ x c, parse x = some c → ∃ s, x = some s ∧ ['c', 'u', 't', 'o', 'f', 'f'] <:+: s

theorem update_has {s : Str} (h : ['c', 'u', 't', 'o', 'f', 'f'] <:+: s) (cutoff : Option Str) :
    updateCutoffOptions (some s) cutoff = some s := by
  have : hasCutoff s = true := decide_eq_true h
  cases cutoff with
  | none => rfl
  | some c => exact if_pos this

theorem update_orNone (s c : Str) : updateCutoffOptions (orNone s) (some c) = some (withCutoffSpaced s c) := by
  by_cases h : s = []
  · subst h; rfl
  · have e : orNone s = some s := if_neg h
    rw [e]
    unfold withCutoffSpaced
    rw [if_neg h]
    by_cases h2 : ['c', 'u', 't', 'o', 'f', 'f'] <:+: s
    · rw [if_pos h2, update_has h2]
    · rw [if_neg h2]
      have : ¬ hasCutoff s = true := by rw [hasCutoff, decide_eq_true_eq]; exact h2
      exact if_neg this

/-- The cutoff handed to the solver call in `phono3py-load`. -/
theorem load_options {known : List Str} {parse : Option Str → Option Str} (hparse : ParserSane parse)
    {p : PerOrder} (hp : p.Sane) (hn : Named known p)
    {o : PerOrder} (ho : o.Sane) (cutoff : Option Str) (hc : ∀ c, cutoff = some c → '|' ∉ c) :
    let opts := (fcCalculatorParams known p.text o.text cutoff).2
    let cut := cutoffPairDistance parse opts cutoff
    updateCutoffOptions (extractCalculator opts 3) cut =
      askedOptions o cutoff ((p.says 3).map Char.toLower) 3 ∧
    extractCalculator opts 2 = askedOptions o cutoff ((p.says 3).map Char.toLower) 2 := by
  intro opts cut
  cases cutoff with
  | none =>
    have e3 : extractCalculator opts 3 = orNone (o.says 3) := C156_options known p.text ho (Or.inr rfl)
    have e2 : extractCalculator opts 2 = orNone (o.says 2) := C156_options known p.text ho (Or.inl rfl)
    refine ⟨?_, e2⟩
    show updateCutoffOptions (extractCalculator opts 3) (parse (extractCalculator opts 3)) = orNone (o.says 3)
    cases hq : parse (extractCalculator opts 3) with
    | none => exact e3
    | some c =>
      obtain ⟨s, hs, hcs⟩ := hparse _ _ hq
      rw [hs, update_has hcs, ← e3, hs]
  | some c =>
    by_cases ht : (p.says 3).map Char.toLower = "symfc".toList ∨
        (p.says 3).map Char.toLower = "alm".toList
    · have hf : fc3Tool known p ((p.says 3).map Char.toLower) := by
        have hne : (p.says 3).map Char.toLower ≠ [] := by
          rcases ht with h | h <;> rw [h] <;> decide
        refine ⟨?_, hne, rfl⟩
        rcases hn 3 with h | h
        · exact absurd (by rw [h]; rfl) hne
        · exact h
      obtain ⟨e3, e2⟩ := C156_cutoff hp hn ho (hc c rfl) hf ht
      refine ⟨?_, ?_⟩
      · have := withCutoff_has (o.kept 3)
          (if (p.says 3).map Char.toLower = "alm".toList then "-1 ".toList ++ c else c)
        rw [hasCutoff, decide_eq_true_eq] at this
        show updateCutoffOptions (extractCalculator opts 3) (some c) = _
        refine (congrArg (updateCutoffOptions · (some c)) e3).trans ?_
        refine (update_has this _).trans ?_
        unfold askedOptions
        simp only [if_pos ht]
        rfl
      · refine e2.trans ?_
        unfold askedOptions
        simp only [if_pos ht]
        rfl
    · have h' := not_or.1 ht
      have e3 : extractCalculator opts 3 = orNone (o.says 3) :=
        C156_no_cutoff hp hn ho c h' (Or.inr rfl)
      have e2 : extractCalculator opts 2 = orNone (o.says 2) :=
        C156_no_cutoff hp hn ho c h' (Or.inl rfl)
      refine ⟨?_, ?_⟩
      · show updateCutoffOptions (extractCalculator opts 3) (some c) = _
        rw [e3, update_orNone]
        unfold askedOptions
        simp only [if_neg ht]
        rfl
      · refine e2.trans ?_
        unfold askedOptions
        simp only [if_neg ht]
        rfl

/-- A run with the calculators `t2`, `t3` and the options `e2`, `e3` after they have been told apart. -/
def attempt (d : FcData) (t2 t3 e2 e3 : Option Str) (s : FcState) : FcState × Bool :=
  let first : Option FcState :=
    if s.fc3.isNone && d.forces then produceFc3Origin d t3 e3 s else some s
  match first with
  | none => (s, true)
  | some s1 =>
    if s.fc2.isSome then (s1, false)
    else if (!d.matrix && d.forces) || (d.matrix && d.phononForces) then
      match produceFc2Origin d t2 e2 s1 with
      | none => (s1, true)
      | some s2 => (s2, false)
    else (s1, false)

/-- `phono3py-load` after the calculators and options have been told apart. -/
def attempts (d : FcData) (t2 t3 e2 e3 : Option Str) (s : FcState) : Option FcState :=
  let r := attempt d t2 t3 e2 e3 s
  let r' := if r.2 then attempt d (some "symfc".toList) (some "symfc".toList) e2 e3 r.1 else r
  if r'.2 || r'.1.fc2.isNone || r'.1.fc3.isNone then none else some r'.1

theorem compute_attempt (d : FcData) (tool opts cut : Option Str) (s : FcState) :
    computeFcOrigins d tool opts cut s =
      attempt d (extractCalculator tool 2) (extractCalculator tool 3) (extractCalculator opts 2)
        (updateCutoffOptions (extractCalculator opts 3) cut) s := rfl

theorem load_attempts {known : List Str} (hk : WordNames known) {parse : Option Str → Option Str}
    (hparse : ParserSane parse) {p : PerOrder} (hp : p.Sane) (hn : Named known p) {o : PerOrder}
    (ho : o.Sane) (cutoff : Option Str) (hc : ∀ c, cutoff = some c → '|' ∉ c) (d : FcData) (s : FcState) :
    loadCommandOrigins known parse d p.text o.text cutoff s =
      attempts d (orNone ((p.says 2).map Char.toLower)) (orNone ((p.says 3).map Char.toLower))
        (askedOptions o cutoff ((p.says 3).map Char.toLower) 2)
        (askedOptions o cutoff ((p.says 3).map Char.toLower) 3) s := by
  obtain ⟨h3, h2⟩ := load_options hparse hp hn ho cutoff hc
  have c3 := C156_calculators hk hp hn o.text cutoff (Or.inr rfl : 3 = 2 ∨ 3 = 3)
  have c2 := C156_calculators hk hp hn o.text cutoff (Or.inl rfl : 2 = 2 ∨ 2 = 3)
  rw [← h3, ← h2, ← c3, ← c2]
  unfold attempts loadCommandOrigins
  simp only [compute_attempt, extract_symfc]

theorem builtIn_symfc : builtIn (some "symfc".toList) = false := by decide

theorem attempts_fc3 (d : FcData) (t2 t3 e2 e3 : Option Str) (s r : FcState)
    (hb : ((t3.getD []).contains '|' || (e3.getD []).contains '|') = false)
    (h : attempts d t2 t3 e2 e3 s = some r) :
    r.fc3 = if s.fc3.isSome then s.fc3 else some (FcOrigin.solver 3 (fallback d.general t3) e3) := by
  obtain ⟨matrix, forces, phononForces, general, phononGeneral⟩ := d
  obtain ⟨fc2, fc3⟩ := s
  unfold attempts attempt produceFc3Origin produceFc2Origin at h
  unfold fallback
  rw [builtIn_symfc] at h
  rw [hb] at h
  generalize builtIn t2 = b2 at *
  generalize builtIn t3 = b3 at *
  generalize (((some "symfc".toList).getD []).contains '|' || (e3.getD []).contains '|') = b4 at *
  cases fc3 <;> cases fc2 <;> cases forces <;> cases matrix <;> cases phononForces <;> cases general <;>
    cases phononGeneral <;> cases b2 <;> cases b3 <;> simp_all <;> (try subst h) <;> rfl

/-- Where fc2 comes from. -/
theorem attempts_fc2 (d : FcData) (t2 t3 e2 e3 : Option Str) (s r : FcState)
    (hb : ((t3.getD []).contains '|' || (e3.getD []).contains '|') = false)
    (h : attempts d t2 t3 e2 e3 s = some r) :
    r.fc2 = if s.fc2.isSome then s.fc2
      else if s.fc3.isNone && builtIn t3 && d.general then
        some (FcOrigin.solver 2 (some "symfc".toList) e2)
      else if builtIn t2 && (if d.matrix then d.phononGeneral else d.general) then
        if s.fc3.isNone && !d.matrix then some (FcOrigin.solver 3 t3 e3)
        else some (FcOrigin.solver 2 (some "symfc".toList) e2)
      else some (FcOrigin.solver 2 t2 e2) := by
  obtain ⟨matrix, forces, phononForces, general, phononGeneral⟩ := d
  obtain ⟨fc2, fc3⟩ := s
  unfold attempts attempt produceFc3Origin produceFc2Origin at h
  rw [builtIn_symfc] at h
  rw [hb] at h
  generalize builtIn t2 = b2 at *
  generalize builtIn t3 = b3 at *
  generalize (((some "symfc".toList).getD []).contains '|' || (e3.getD []).contains '|') = b4 at *
  cases fc3 <;> cases fc2 <;> cases forces <;> cases matrix <;> cases phononForces <;> cases general <;>
    cases phononGeneral <;> cases b2 <;> cases b3 <;> simp_all <;> (try subst h) <;> rfl

theorem contains_orNone {s : Str} (h : '|' ∉ s) : ((orNone s).getD []).contains '|' = false := by
  unfold orNone
  split
  · rfl
  · simpa using h

theorem asked_no_bar {o : PerOrder} (ho : o.Sane) {cutoff : Option Str}
    (hc : ∀ c, cutoff = some c → '|' ∉ c) (t3 : Str) :
    ((askedOptions o cutoff t3 3).getD []).contains '|' = false := by
  cases cutoff with
  | none => exact contains_orNone (ho.1 3)
  | some c =>
    have hc' := hc c rfl
    unfold askedOptions
    simp only
    split
    · have hv : '|' ∉ (if t3 = "alm".toList then "-1 ".toList ++ c else c) := by
        split
        · simp [hc']
        · exact hc'
      have := withCutoff_no_bar (kept_no_bar ho 3) hv
      simpa using this
    · have : '|' ∉ withCutoffSpaced (o.says 3) c := by
        unfold withCutoffSpaced
        split
        · simp [hc']
        · split
          · exact ho.1 3
          · simp [hc', ho.1 3]
      simpa using this

/-- What the user asks `phono3py-load` for: calculators `p`, options `o` and a cutoff distance. -/
structure LoadRequest where
  p : PerOrder
  o : PerOrder
  cutoff : Option Str

/-- The calculator asked for: `none` is the built-in one. -/
def LoadRequest.tool (q : LoadRequest) (order : Nat) : Option Str :=
  orNone ((q.p.says order).map Char.toLower)

/-- The options asked for. -/
def LoadRequest.options (q : LoadRequest) (order : Nat) : Option Str :=
  askedOptions q.o q.cutoff ((q.p.says 3).map Char.toLower) order

/-- Only known calculators are named and the texts have no stray bars. -/
structure LoadRequest.Sane (known : List Str) (q : LoadRequest) : Prop where
  names : WordNames known
  p : q.p.Sane
  named : Named known q.p
  o : q.o.Sane
  cutoff : ∀ c, q.cutoff = some c → '|' ∉ c

/-- The run of `phono3py-load` for a request. -/
def runLoad (known : List Str) (parse : Option Str → Option Str) (d : FcData) (q : LoadRequest)
    (s : FcState) : Option FcState :=
  loadCommandOrigins known parse d q.p.text q.o.text q.cutoff s

theorem request_no_bar {known : List Str} {q : LoadRequest} (hq : q.Sane known) :
    (((q.tool 3).getD []).contains '|' || ((q.options 3).getD []).contains '|') = false := by
  rw [Bool.or_eq_false_iff]
  refine ⟨contains_orNone ?_, asked_no_bar hq.o hq.cutoff _⟩
  rcases hq.named 3 with h | h
  · rw [h]; simp
  · exact (hq.names _ h).1

/-- **C156 (fc3 of `phono3py-load`).** Whenever the force constants are obtained, fc3 is the one read from
a file, or the one of the calculator asked for with the options asked for; symfc stands in where the
built-in calculator cannot treat the displacements. -/
theorem C156_load_fc3 {known : List Str} {parse : Option Str → Option Str} (hparse : ParserSane parse)
    {q : LoadRequest} (hq : q.Sane known) (d : FcData) (s r : FcState)
    (h : runLoad known parse d q s = some r) :
    r.fc3 = if s.fc3.isSome then s.fc3
      else some (FcOrigin.solver 3 (fallback d.general (q.tool 3)) (q.options 3)) := by
  unfold runLoad at h
  rw [load_attempts hq.names hparse hq.p hq.named hq.o q.cutoff hq.cutoff] at h
  exact attempts_fc3 d _ _ _ _ s r (request_no_bar hq) h

theorem load_fc2 {known : List Str} {parse : Option Str → Option Str} (hparse : ParserSane parse)
    {q : LoadRequest} (hq : q.Sane known) (d : FcData) (s r : FcState)
    (h : runLoad known parse d q s = some r) :
    r.fc2 = if s.fc2.isSome then s.fc2
      else if s.fc3.isNone && builtIn (q.tool 3) && d.general then
        some (FcOrigin.solver 2 (some "symfc".toList) (q.options 2))
      else if builtIn (q.tool 2) && (if d.matrix then d.phononGeneral else d.general) then
        if s.fc3.isNone && !d.matrix then some (FcOrigin.solver 3 (q.tool 3) (q.options 3))
        else some (FcOrigin.solver 2 (some "symfc".toList) (q.options 2))
      else some (FcOrigin.solver 2 (q.tool 2) (q.options 2)) := by
  unfold runLoad at h
  rw [load_attempts hq.names hparse hq.p hq.named hq.o q.cutoff hq.cutoff] at h
  exact attempts_fc2 d _ _ _ _ s r (request_no_bar hq) h

/-- **C156 (fc2 of `phono3py-load`).** Full claim: whenever the force constants are obtained, fc2 is the
one read from a file, or the one of the calculator asked for with the options asked for, symfc standing in
where the built-in calculator cannot treat the displacements. Missing: the displacements for fc3 are
general ones (random displacements), fc3 is to be computed, and the built-in calculator is asked for one
order only, or can treat the displacements of the extra supercell for fc2. The claim fails there
(`C156_fc2_from_fc3`, `C156_fc2_renamed`). -/
theorem C156_load_fc2_partial {known : List Str} {parse : Option Str → Option Str}
    (hparse : ParserSane parse) {q : LoadRequest} (hq : q.Sane known) (d : FcData) (s r : FcState)
    (hg : s.fc3 = none → d.general = true → builtIn (q.tool 2) = builtIn (q.tool 3) ∧
      (builtIn (q.tool 2) = true → d.matrix = true → d.phononGeneral = true))
    (h : runLoad known parse d q s = some r) :
    r.fc2 = if s.fc2.isSome then s.fc2
      else some (FcOrigin.solver 2
        (fallback (if d.matrix then d.phononGeneral else d.general) (q.tool 2)) (q.options 2)) := by
  rw [load_fc2 hparse hq d s r h]
  unfold fallback
  obtain ⟨matrix, forces, phononForces, general, phononGeneral⟩ := d
  obtain ⟨fc2, fc3⟩ := s
  generalize builtIn (q.tool 2) = b2 at *
  generalize builtIn (q.tool 3) = b3 at *
  cases fc3 <;> cases fc2 <;> cases matrix <;> cases general <;>
    cases phononGeneral <;> cases b2 <;> cases b3 <;> simp_all

/-- **C156 (violation).** With general displacements, no extra supercell, an external calculator for fc3
and none for fc2 (such as `|symfc`), fc2 is the one fitted along with fc3, with the options written for
fc3; those written for fc2 are not used. -/
theorem C156_fc2_from_fc3 {known : List Str} {parse : Option Str → Option Str}
    (hparse : ParserSane parse) {q : LoadRequest} (hq : q.Sane known) (d : FcData)
    (h2 : builtIn (q.tool 2) = true) (h3 : builtIn (q.tool 3) = false) (hg : d.general = true)
    (hm : d.matrix = false) (r : FcState) (h : runLoad known parse d q ⟨none, none⟩ = some r) :
    r.fc2 = some (FcOrigin.solver 3 (q.tool 3) (q.options 3)) := by
  rw [load_fc2 hparse hq d _ r h]
  simp [h2, h3, hg, hm]

/-- **C156 (violation).** With general displacements and an external calculator for fc2 only (such as
`alm|`), symfc computes fc2, whichever calculator was asked for. -/
theorem C156_fc2_renamed {known : List Str} {parse : Option Str → Option Str}
    (hparse : ParserSane parse) {q : LoadRequest} (hq : q.Sane known) (d : FcData)
    (h3 : builtIn (q.tool 3) = true) (hg : d.general = true)
    (r : FcState) (h : runLoad known parse d q ⟨none, none⟩ = some r) :
    r.fc2 = some (FcOrigin.solver 2 (some "symfc".toList) (q.options 2)) := by
  rw [load_fc2 hparse hq d _ r h]
  simp [h3, hg]

/-- C156: with all forces at hand the command does obtain force constants. -/
theorem C156_load_succeeds {known : List Str} {parse : Option Str → Option Str}
    (hparse : ParserSane parse) {q : LoadRequest} (hq : q.Sane known) (d : FcData) (s : FcState)
    (h3 : d.forces = true) (h2 : d.matrix = true → d.phononForces = true) :
    (runLoad known parse d q s).isSome := by
  unfold runLoad
  rw [load_attempts hq.names hparse hq.p hq.named hq.o q.cutoff hq.cutoff]
  have hb := request_no_bar hq
  change (((orNone ((q.p.says 3).map Char.toLower)).getD []).contains '|' ||
    ((askedOptions q.o q.cutoff ((q.p.says 3).map Char.toLower) 3).getD []).contains '|') = false at hb
  obtain ⟨matrix, forces, phononForces, general, phononGeneral⟩ := d
  obtain ⟨fc2, fc3⟩ := s
  unfold attempts attempt produceFc3Origin produceFc2Origin
  rw [builtIn_symfc, hb]
  generalize builtIn (orNone ((q.p.says 2).map Char.toLower)) = b2 at *
  generalize builtIn (orNone ((q.p.says 3).map Char.toLower)) = b3 at *
  generalize (((some "symfc".toList).getD []).contains '|' || ((askedOptions q.o q.cutoff
    ((q.p.says 3).map Char.toLower) 3).getD []).contains '|') = b4 at *
  cases fc3 <;> cases fc2 <;> cases forces <;> cases matrix <;> cases phononForces <;> cases general <;>
    cases phononGeneral <;> cases b2 <;> cases b3 <;> simp_all

/-! ### Examples -/

/-- A list of names such as phonopy's `fc_calculator_names`. -/
def knownNames : List Str := ["traditional".toList, "alm".toList, "symfc".toList]

theorem each_all {P : Str → Prop} {s2 s3 : Str} (h2 : P s2) (h3 : P s3) (order : Nat) :
    P ((PerOrder.each s2 s3).says order) := by
  show P (if order = 2 then s2 else s3)
  split <;> assumption

theorem known_words : WordNames knownNames := by
  intro n hn
  fin_cases hn <;> constructor <;> decide

/-- Calculators `alm|SYMFC`, options `solver = dense | use_mkl=true`, cutoff distance 4. -/
def mixedRequest : LoadRequest where
  p := .each "alm".toList "SYMFC".toList
  o := .each "solver = dense ".toList " use_mkl=true".toList
  cutoff := some "4.0".toList

theorem mixed_sane : mixedRequest.Sane knownNames where
  names := known_words
  p := ⟨each_all (P := fun s => '|' ∉ s) (by decide) (by decide), fun s h => by cases h⟩
  named := each_all (P := fun s => s = [] ∨ s.map Char.toLower ∈ knownNames) (by decide) (by decide)
  o := ⟨each_all (P := fun s => '|' ∉ s) (by decide) (by decide), fun s h => by cases h⟩
  cutoff c h := by
    obtain rfl := Option.some.inj h
    decide

theorem noParser_sane : ParserSane fun _ => none := by
  intro x c h
  cases h

/-- Random displacements with forces, one supercell. -/
def randomData : FcData := ⟨false, true, false, true, false⟩

/-- The hypotheses of the theorems on `phono3py-load` are met, and what comes out. -/
example : ∃ r, runLoad knownNames (fun _ => none) randomData mixedRequest ⟨none, none⟩ = some r ∧
    r.fc3 = some (FcOrigin.solver 3 (some "symfc".toList) (some "use_mkl=true, cutoff=4.0".toList)) ∧
    r.fc2 = some (FcOrigin.solver 2 (some "alm".toList) (some "solver = dense".toList)) := by
  have hs := C156_load_succeeds noParser_sane mixed_sane randomData ⟨none, none⟩ rfl (by simp [randomData])
  obtain ⟨r, hr⟩ := Option.isSome_iff_exists.1 hs
  refine ⟨r, hr, ?_, ?_⟩
  · rw [C156_load_fc3 noParser_sane mixed_sane _ _ r hr]
    decide
  · rw [C156_load_fc2_partial noParser_sane mixed_sane _ _ r (fun _ _ => by decide) hr]
    decide

/-- `|symfc` with options for fc2. -/
def halfRequest : LoadRequest where
  p := .each [] "symfc".toList
  o := .each "a=1".toList "b=2".toList
  cutoff := none

theorem half_sane : halfRequest.Sane knownNames where
  names := known_words
  p := ⟨each_all (P := fun s => '|' ∉ s) (by decide) (by decide), fun s h => by cases h⟩
  named := each_all (P := fun s => s = [] ∨ s.map Char.toLower ∈ knownNames) (by decide) (by decide)
  o := ⟨each_all (P := fun s => '|' ∉ s) (by decide) (by decide), fun s h => by cases h⟩
  cutoff c h := by cases h

/-- The first violation occurs: fc2 has the options of fc3. -/
example : ∃ r, runLoad knownNames (fun _ => none) randomData halfRequest ⟨none, none⟩ = some r ∧
    r.fc2 = some (FcOrigin.solver 3 (some "symfc".toList) (some "b=2".toList)) := by
  have hs := C156_load_succeeds noParser_sane half_sane randomData ⟨none, none⟩ rfl (by simp [randomData])
  obtain ⟨r, hr⟩ := Option.isSome_iff_exists.1 hs
  refine ⟨r, hr, ?_⟩
  rw [C156_fc2_from_fc3 noParser_sane half_sane _ (by decide) (by decide) rfl rfl r hr]
  decide

/-- `alm|`. -/
def almRequest : LoadRequest where
  p := .each "alm".toList []
  o := .nothing
  cutoff := none

theorem alm_sane : almRequest.Sane knownNames where
  names := known_words
  p := ⟨each_all (P := fun s => '|' ∉ s) (by decide) (by decide), fun s h => by cases h⟩
  named := each_all (P := fun s => s = [] ∨ s.map Char.toLower ∈ knownNames) (by decide) (by decide)
  o := ⟨fun order => by simp [almRequest, PerOrder.says], fun s h => by cases h⟩
  cutoff c h := by cases h

/-- The second violation occurs: ALM was asked for, symfc computes. -/
example : ∃ r, runLoad knownNames (fun _ => none) randomData almRequest ⟨none, none⟩ = some r ∧
    almRequest.tool 2 = some "alm".toList ∧
    r.fc2 = some (FcOrigin.solver 2 (some "symfc".toList) none) := by
  have hs := C156_load_succeeds noParser_sane alm_sane randomData ⟨none, none⟩ rfl (by simp [randomData])
  obtain ⟨r, hr⟩ := Option.isSome_iff_exists.1 hs
  refine ⟨r, hr, by decide, ?_⟩
  rw [C156_fc2_renamed noParser_sane alm_sane _ (by decide) rfl r hr]
  decide

/-- A misspelt calculator of fc2 lets symfc compute both. -/
example (order : Nat) : extractCalculator (fcCalculatorParams knownNames
    (PerOrder.each "simfc".toList "symfc".toList).text none none).1 order = some "symfc".toList := by
  have h := C156_unknown_shifts known_words (x := "simfc".toList) (n := "symfc".toList) (by decide)
    (by decide) (by decide) (by decide) (by decide) (by decide) none none (order := order) _ (Or.inl rfl)
  exact h

/-- ... and so does `symfc | alm` with blanks go unheeded. -/
example (order : Nat) : extractCalculator (fcCalculatorParams knownNames
    (PerOrder.each "symfc ".toList " alm".toList).text none none).1 order = none := by
  have : (fcCalculatorParams knownNames (PerOrder.each "symfc ".toList " alm".toList).text none none).1
      = none := by decide
  rw [this]
  rfl

/-- A dictionary of options without a cutoff. -/
example : (loadDictOptions (loadDictOptions ⟨none, []⟩ (some "4.0".toList)).2.2 (some "5.0".toList)).1.cutoff
    = some "4.0".toList := C156_dict_stale ⟨none, []⟩ rfl _ _

end Phono3py.Props
