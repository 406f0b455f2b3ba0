import Verif.Spec.Settings
import Mathlib.Data.List.Induction

/-!
# C144: command options and setting tags
-/

namespace Phono3py.Props

open Phono3py Phono3py.Spec

variable {V : Type}

/-! ## The tables, one row at a time -/

/-- The kind of a row agrees with the code. -/
def kindCheck (row : DocRow) (a : ArgRow) (o : OptRow) : Bool :=
  !o.test.holds a.default &&
  match row.kind with
  | .on => a.action = .storeTrue && o.value = .const ".true."
  | .off => a.action = .storeTrue && o.value = .const ".false."
  | .value => a.action = .one && o.value = .keep && o.test = .notNone
  | .filename => a.action = .one && o.value = .keep
  | .values => a.action = .many && o.value = .join && o.test = .notNone
  | .files => a.action = .many && o.value = .keep

/-- The key of a row is read as the row says. -/
def keyCheck (row : DocRow) (k : String) : Bool :=
  match row.kind with
  | .on | .off => k ∈ boolKeys
  | _ => k ∉ boolKeys && k ∈ otherKeys && row.tag.toLower = k

/-- The option of a row reaches its setting. -/
def optionCheck (load : Bool) (row : DocRow) : Bool :=
  match setTable.filter (fun (r : String × String) => r.2 = row.setting) with
  | [r] =>
    keyCheck row r.1 &&
    match optTable.filter (fun (o : OptRow) => o.key = r.1) with
    | [o] =>
      match (argRows load).filter (fun (a : ArgRow) => a.dest = o.dest) with
      | [] => row.options load = []
      | [a] => a.flags = row.options load && kindCheck row a o &&
          (argRows load).all (fun (a' : ArgRow) => a'.dest = o.dest ∨ ∀ f ∈ a.flags, f ∉ a'.flags)
      | _ => false
    | _ => false
  | _ => false

/-- The tag of a row reaches its setting. -/
def tagCheck (row : DocRow) : Bool :=
  match setTable.filter (fun (r : String × String) => r.2 = row.setting) with
  | [r] => row.tag.toLower = r.1
  | _ => false

/-- Rows whose option is not read. -/
def badOptions : List String := ["pp_conversion_factor", "is_fc3_r0_average"]

/-- Rows whose tag is not read. -/
def badTags : List String := ["is_N_U", "write_LBTE_solution"]

theorem options_checked : ∀ load, ∀ row ∈ docRows, row.setting ∉ badOptions →
    optionCheck load row = true := by
  decide +kernel

theorem tags_checked : ∀ row ∈ docRows, row.setting ∉ badTags → tagCheck row = true := by
  decide +kernel

/-! ## Loops -/

theorem foldl_at {A B C : Type} [DecidableEq B] (step : (B → C) → A → (B → C)) (key : A → B) (k : B)
    (h1 : ∀ c a, key a ≠ k → step c a k = c k)
    (h2 : ∀ c c' a, key a = k → c k = c' k → step c a k = step c' a k) (l : List A) :
    ∀ c c' : B → C, c k = c' k →
      l.foldl step c k = (l.filter (fun a => key a = k)).foldl step c' k := by
  induction l with
  | nil => intro c c' h; exact h
  | cons a l ih =>
    intro c c' h
    by_cases ha : key a = k
    · rw [List.filter_cons_of_pos (by simpa using ha)]
      exact ih _ _ (h2 c c' a ha h)
    · rw [List.filter_cons_of_neg (by simpa using ha)]
      exact ih _ _ (by rw [h1 c a ha]; exact h)

theorem lastOption_snoc (flags : List String) (cmd : List (String × List String))
    (o : String × List String) :
    lastOption flags (cmd ++ [o]) = if o.1 ∈ flags then some o.2 else lastOption flags cmd := by
  unfold lastOption
  rw [List.reverse_append]
  simp only [List.reverse_cons, List.reverse_nil, List.nil_append, List.singleton_append,
    List.find?_cons]
  by_cases h : o.1 ∈ flags <;> simp [h]

theorem lastOption_none (cmd : List (String × List String)) : lastOption [] cmd = none := by
  unfold lastOption
  simp

/-- The attribute of one row after parsing. -/
theorem parseArgs_row {load : Bool} {d : String} {a : ArgRow}
    (ha : (argRows load).filter (fun (a : ArgRow) => a.dest = d) = [a])
    (hflags : ∀ a' ∈ argRows load, a'.dest = d ∨ ∀ f ∈ a.flags, f ∉ a'.flags)
    (cmd : List (String × List String)) :
    parseArgs load cmd d = some (match lastOption a.flags cmd with
      | some vals => a.action.value vals
      | none => a.default) := by
  have hmem : ∀ a', a' ∈ argRows load ∧ a'.dest = d ↔ a' = a := by
    intro a'
    have : a' ∈ (argRows load).filter (fun (a : ArgRow) => a.dest = d) ↔ a' = a := by
      rw [ha]; simp
    simpa using this
  induction cmd using List.reverseRecOn with
  | nil =>
    show ((argRows load).find? (fun (a : ArgRow) => a.dest = d)).map _ = some a.default
    have : (argRows load).find? (fun (a : ArgRow) => a.dest = d) = some a := by
      rw [← List.head?_filter, ha]; rfl
    rw [this]; rfl
  | append_singleton cmd o ih =>
    rw [lastOption_snoc]
    unfold parseArgs at ih ⊢
    rw [List.foldl_append]
    simp only [List.foldl_cons, List.foldl_nil]
    cases hf : (argRows load).find? (fun (a : ArgRow) => o.1 ∈ a.flags) with
    | none =>
      have hno : o.1 ∉ a.flags := by
        have := List.find?_eq_none.1 hf a ((hmem a).2 rfl).1
        simpa using this
      simp only [if_neg hno]
      exact ih
    | some a' =>
      have h1 : o.1 ∈ a'.flags := by simpa using List.find?_some hf
      have h2 := List.mem_of_find?_eq_some hf
      by_cases hd : a'.dest = d
      · have := (hmem a').1 ⟨h2, hd⟩
        subst this
        simp [hd, h1]
      · have hno : o.1 ∉ a.flags := by
          intro ho
          rcases hflags a' h2 with h | h
          · exact hd h
          · exact h _ ho h1
        simp only [if_neg hno, if_neg (Ne.symm hd)]
        exact ih

theorem parseArgs_absent {load : Bool} {d : String}
    (ha : (argRows load).filter (fun (a : ArgRow) => a.dest = d) = [])
    (cmd : List (String × List String)) : parseArgs load cmd d = none := by
  have hne : ∀ a ∈ argRows load, a.dest ≠ d := by
    intro a h hd
    have : a ∈ (argRows load).filter (fun (a : ArgRow) => a.dest = d) := by simp [h, hd]
    rw [ha] at this; simp at this
  induction cmd using List.reverseRecOn with
  | nil =>
    show ((argRows load).find? (fun (a : ArgRow) => a.dest = d)).map _ = none
    rw [← List.head?_filter, ha]; rfl
  | append_singleton cmd o ih =>
    unfold parseArgs at ih ⊢
    rw [List.foldl_append]
    simp only [List.foldl_cons, List.foldl_nil]
    cases hf : (argRows load).find? (fun (a : ArgRow) => o.1 ∈ a.flags) with
    | none => exact ih
    | some a =>
      simp only [if_neg (Ne.symm (hne a (List.mem_of_find?_eq_some hf)))]
      exact ih

/-- The entry of one key that one block may make. -/
theorem readOptions_key {base : BaseParser V} {args : ArgSpace} {k : String} {o : OptRow}
    (hb : base.options args k = none)
    (ho : optTable.filter (fun (o : OptRow) => o.key = k) = [o]) :
    readOptions base args k = (args o.dest).bind (fun v =>
      if o.test.holds v then some (o.value.of v) else none) := by
  have hkey : o.key = k := by
    have : o ∈ optTable.filter (fun (o : OptRow) => o.key = k) := by rw [ho]; simp
    simpa using (List.mem_filter.1 this).2
  unfold readOptions
  rw [foldl_at _ (fun (o : OptRow) => o.key) k _ _ _ _ _ rfl, ho]
  · simp only [List.foldl_cons, List.foldl_nil]
    cases args o.dest with
    | none => exact hb
    | some v =>
      simp only [Option.bind_some]
      by_cases ht : o.test.holds v = true
      · simp only [if_pos ht, if_pos hkey.symm]
      · simp only [if_neg ht]; exact hb
  · intro c a ha
    cases args a.dest with
    | none => rfl
    | some v =>
      by_cases ht : a.test.holds v = true
      · simp only [if_pos ht, if_neg (Ne.symm ha)]
      · simp only [if_neg ht]
  · intro c c' a ha hc
    cases args a.dest with
    | none => exact hc
    | some v =>
      by_cases ht : a.test.holds v = true
      · simp only [if_pos ht, if_pos ha.symm]
      · simp only [if_neg ht]; exact hc

theorem lastTag_snoc (tag : String) (lines : List (String × String)) (l : String × String) :
    lastTag tag (lines ++ [l]) = if l.1.toLower = tag.toLower then some l.2 else lastTag tag lines := by
  unfold lastTag
  rw [List.reverse_append]
  simp only [List.reverse_cons, List.reverse_nil, List.nil_append, List.singleton_append,
    List.find?_cons]
  by_cases h : l.1.toLower = tag.toLower <;> simp [h]

theorem readConfFile_tag (tag : String) (lines : List (String × String)) :
    readConfFile lines tag.toLower = (lastTag tag lines).map ConfVal.text := by
  induction lines using List.reverseRecOn with
  | nil => rfl
  | append_singleton lines l ih =>
    rw [lastTag_snoc]
    unfold readConfFile at ih ⊢
    rw [List.foldl_append]
    simp only [List.foldl_cons, List.foldl_nil]
    by_cases h : l.1.toLower = tag.toLower
    · rw [if_pos h.symm, if_pos h]; rfl
    · rw [if_neg (Ne.symm h), if_neg h]; exact ih

/-- The setting of one key after a pass. -/
theorem confPass_setting {base : BaseParser V} (hb : BaseApart base) {conv : ConfConv V} {confs : Confs}
    {s s' : String → V} (h : confPass base conv confs s = some s') {row : DocRow} (hrow : row ∈ docRows)
    {r : String × String}
    (hr : setTable.filter (fun (r : String × String) => r.2 = row.setting) = [r]) :
    s' row.setting = (((confs r.1).bind (fun v => (parseKey conv r.1 v).join)).getD (s row.setting)) ∧
    (r.1 ∈ boolKeys ++ otherKeys → ∀ v, confs r.1 = some v → (parseKey conv r.1 v).isSome) := by
  have hkey : r.2 = row.setting := by
    have : r ∈ setTable.filter (fun (r : String × String) => r.2 = row.setting) := by rw [hr]; simp
    simpa using (List.mem_filter.1 this).2
  unfold confPass at h
  obtain ⟨s1, h1, h⟩ := Option.bind_eq_some_iff.1 h
  obtain ⟨p, h2, rfl⟩ := Option.map_eq_some_iff.1 h
  unfold parseConf at h2
  split at h2
  · rename_i hall
    obtain rfl := Option.some.inj h2
    constructor
    · unfold setSettings
      rw [foldl_at _ (fun (r : String × String) => r.2) row.setting _ _ _ _ _ rfl, hr]
      · simp only [List.foldl_cons, List.foldl_nil]
        cases (confs r.1).bind (fun v => (parseKey conv r.1 v).join) with
        | none => exact hb.apply _ _ _ h1 row hrow
        | some x => simp [hkey]
      · intro c a ha
        dsimp only
        cases (confs a.1).bind (fun v => (parseKey conv a.1 v).join) with
        | none => rfl
        | some x => simp only [if_neg (Ne.symm ha)]
      · intro c c' a ha hc
        dsimp only
        cases (confs a.1).bind (fun v => (parseKey conv a.1 v).join) with
        | none => exact hc
        | some x => simp only [if_pos ha.symm]
    · intro hk v hv
      have := List.all_eq_true.1 hall r.1 hk
      rw [hv] at this
      exact this
  · simp at h2

/-! ## The theorem -/

theorem parse_bool {conv : ConfConv V} {k : String} (hk : k ∈ boolKeys) (t : String) :
    parseKey conv k (.text t) =
      if t.toLower = ".true." then some (some (conv.ofBool true))
      else if t.toLower = ".false." then some (some (conv.ofBool false))
      else some none := by
  unfold parseKey
  rw [if_pos hk]

theorem parse_other {conv : ConfConv V} {k : String} (hk : k ∉ boolKeys) (hk' : k ∈ otherKeys)
    (v : ConfVal) : parseKey conv k v = (conv.other k v).map some := by
  unfold parseKey
  rw [if_neg hk, if_pos hk']

theorem finish_other {x : Option V} {d : V} (h : (x.map some).isSome = true) :
    some ((x.map some).join.getD d) = x := by
  cases x with
  | none => simp at h
  | some _ => rfl

theorem keyCheck_known {row : DocRow} {k : String} (h : keyCheck row k = true) :
    k ∈ boolKeys ++ otherKeys := by
  unfold keyCheck at h
  split at h
  · exact List.mem_append_left _ (by simpa using h)
  · exact List.mem_append_left _ (by simpa using h)
  · simp only [Bool.and_eq_true, decide_eq_true_eq] at h
    exact List.mem_append_right _ h.1.2

/-- What the configuration file leaves in the setting of a row, and that nothing else is read. -/
theorem file_pass {base : BaseParser V} (hb : BaseApart base) {conv : ConfConv V}
    {lines : List (String × String)} {s s' : String → V}
    (h : confPass base conv (readConfFile lines) s = some s') {row : DocRow} (hrow : row ∈ docRows)
    {r : String × String}
    (hr : setTable.filter (fun (r : String × String) => r.2 = row.setting) = [r])
    (hk : keyCheck row r.1 = true) (htag : row.tag.toLower = r.1) :
    some (s' row.setting) = match lastTag row.tag lines with
      | some text => row.tagSays conv text (s row.setting)
      | none => some (s row.setting) := by
  obtain ⟨h1, h2⟩ := confPass_setting hb h hrow hr
  have h2 := h2 (keyCheck_known hk)
  rw [h1]
  rw [← htag] at hk h2 ⊢
  rw [readConfFile_tag] at h2 ⊢
  cases hl : lastTag row.tag lines with
  | none => rfl
  | some t =>
    rw [hl] at h2
    have h2 := h2 _ rfl
    simp only [Option.map_some, Option.bind_some]
    unfold keyCheck at hk
    unfold DocRow.tagSays
    split at hk
    · rename_i hkind
      rw [parse_bool (by simpa using hk)]
      simp only [hkind]
      split
      · rfl
      · split <;> rfl
    · rename_i hkind
      rw [parse_bool (by simpa using hk)]
      simp only [hkind]
      split
      · rfl
      · split <;> rfl
    · rename_i hne1 hne2
      simp only [Bool.and_eq_true, decide_eq_true_eq] at hk
      rw [parse_other hk.1.1 hk.1.2] at h2 ⊢
      rw [finish_other h2]
      split
      · rename_i hkind; exact absurd hkind hne1
      · rename_i hkind; exact absurd hkind hne2
      · rfl

/-- What the command options leave in the setting of a row. -/
theorem option_pass {base : BaseParser V} (hb : BaseApart base) {conv : ConfConv V} {load : Bool}
    {cmd : List (String × List String)} {s s' : String → V}
    (h : confPass base conv (readOptions base (parseArgs load cmd)) s = some s') {row : DocRow}
    (hrow : row ∈ docRows) (hc : optionCheck load row = true)
    (hv : ∀ vals, lastOption (row.options load) cmd = some vals → row.ValidTexts vals) :
    some (s' row.setting) = match lastOption (row.options load) cmd with
      | some vals => row.optionSays conv vals
      | none => some (s row.setting) := by
  unfold optionCheck at hc
  split at hc
  · rename_i r hr
    rw [Bool.and_eq_true] at hc
    obtain ⟨hk, hc⟩ := hc
    obtain ⟨h1, h2⟩ := confPass_setting hb h hrow hr
    have h2 := h2 (keyCheck_known hk)
    split at hc
    · rename_i o ho
      rw [readOptions_key (hb.options _ _ (keyCheck_known hk)) ho] at h1 h2
      split at hc
      · rename_i ha
        rw [parseArgs_absent ha] at h1
        have hnil : row.options load = [] := by simpa using hc
        rw [hnil, lastOption_none, h1]
        rfl
      · rename_i a ha
        simp only [Bool.and_eq_true, decide_eq_true_eq] at hc
        obtain ⟨⟨hflags, hkind⟩, hall⟩ := hc
        have hall' : ∀ a' ∈ argRows load, a'.dest = o.dest ∨ ∀ f ∈ a.flags, f ∉ a'.flags := by
          intro a' ha'
          simpa using List.all_eq_true.1 hall a' ha'
        rw [parseArgs_row ha hall', hflags] at h1 h2
        cases hlast : lastOption (row.options load) cmd with
        | none =>
          rw [hlast] at h1
          have : o.test.holds a.default = false := by
            unfold kindCheck at hkind
            simp only [Bool.and_eq_true, Bool.not_eq_true'] at hkind
            exact hkind.1
          simp only [Option.bind_some, this, Bool.false_eq_true, if_false, Option.bind_none,
            Option.getD_none] at h1
          rw [h1]
        | some vals =>
          rw [hlast] at h1 h2
          have hv := hv vals hlast
          simp only [Option.bind_some] at h1 h2
          unfold kindCheck at hkind
          rw [Bool.and_eq_true] at hkind
          have hkind := hkind.2
          unfold keyCheck at hk
          unfold DocRow.optionSays
          unfold DocRow.ValidTexts at hv
          split at hkind <;> rename_i hk0 <;> simp only [hk0] at hk hv ⊢ <;>
            simp only [Bool.and_eq_true, decide_eq_true_eq] at hkind hk
          · obtain ⟨ha1, ho1⟩ := hkind
            have ht : o.test.holds (.bool true) = true := by cases o.test <;> rfl
            rw [ha1, ho1] at h1
            simp only [ArgAction.value, ht, if_true, OptValue.of, Option.bind_some, parse_bool hk] at h1
            rw [h1]
            rw [if_pos (by decide +kernel)]
            rfl
          · obtain ⟨ha1, ho1⟩ := hkind
            have ht : o.test.holds (.bool true) = true := by cases o.test <;> rfl
            rw [ha1, ho1] at h1
            simp only [ArgAction.value, ht, if_true, OptValue.of, Option.bind_some, parse_bool hk] at h1
            rw [h1]
            rw [if_neg (by decide +kernel), if_pos (by decide +kernel)]
            rfl
          · obtain ⟨⟨ha1, ho1⟩, ho2⟩ := hkind
            rw [ha1, ho1, ho2] at h1 h2
            simp only [ArgAction.value, OptTest.holds, if_true, OptValue.of, Option.bind_some,
              parse_other hk.1.1 hk.1.2] at h1 h2
            rw [h1, hk.2]
            exact finish_other (h2 _ rfl)
          · obtain ⟨ha1, ho1⟩ := hkind
            have ht : o.test.holds (.text (vals.headD "")) = true := by
              cases o.test
              · rfl
              · simpa [OptTest.holds] using hv
            rw [ha1, ho1] at h1 h2
            simp only [ArgAction.value, ht, if_true, OptValue.of, Option.bind_some,
              parse_other hk.1.1 hk.1.2] at h1 h2
            rw [h1, hk.2]
            exact finish_other (h2 _ rfl)
          · obtain ⟨⟨ha1, ho1⟩, ho2⟩ := hkind
            rw [ha1, ho1, ho2] at h1 h2
            simp only [ArgAction.value, OptTest.holds, if_true, OptValue.of, Option.bind_some,
              parse_other hk.1.1 hk.1.2] at h1 h2
            rw [h1, hk.2]
            exact finish_other (h2 _ rfl)
          · obtain ⟨ha1, ho1⟩ := hkind
            have ht : o.test.holds (.words vals) = true := by
              cases o.test
              · rfl
              · simpa [OptTest.holds] using hv
            rw [ha1, ho1] at h1 h2
            simp only [ArgAction.value, ht, if_true, OptValue.of, Option.bind_some,
              parse_other hk.1.1 hk.1.2] at h1 h2
            rw [h1, hk.2]
            exact finish_other (h2 _ rfl)
      · simp at hc
    · simp at hc
  · simp at hc

variable {base : BaseParser V} {conv : ConfConv V} {load : Bool}
  {file : Option (List (String × String))} {cmd : List (String × List String)} {default s : String → V}
  {row : DocRow}

/-- **C144**, for all rows but four. A setting is what its option says, else what its tag says, else the
default. -/
theorem C144_says_partial (hb : BaseApart base)
    (h : commandSettings base conv load file cmd default = some s) (hrow : row ∈ docRows)
    (h1 : row.setting ∉ badOptions) (h2 : row.setting ∉ badTags)
    (hv : ∀ vals, lastOption (row.options load) cmd = some vals → row.ValidTexts vals) :
    some (s row.setting) = row.says conv load file cmd default := by
  unfold commandSettings at h
  obtain ⟨s1, hs1, h⟩ := Option.bind_eq_some_iff.1 h
  have hfile : some (s1 row.setting) = match file.bind (lastTag row.tag) with
      | some text => row.tagSays conv text (default row.setting)
      | none => some (default row.setting) := by
    cases file with
    | none => obtain rfl := Option.some.inj hs1; rfl
    | some lines =>
      have hc := options_checked load row hrow h1
      have ht := tags_checked row hrow h2
      unfold optionCheck at hc
      unfold tagCheck at ht
      split at hc
      · rename_i r hr
        rw [Bool.and_eq_true] at hc
        rw [hr] at ht
        exact file_pass hb hs1 hrow hr hc.1 (by simpa using ht)
      · simp at hc
  rw [option_pass hb h hrow (options_checked load row hrow h1) hv]
  unfold DocRow.says
  cases lastOption (row.options load) cmd with
  | none => exact hfile
  | some vals => rfl

/-- **C144**. A command option is preferred to the configuration file, for all rows but two. -/
theorem C144_option_preferred_partial (hb : BaseApart base)
    (h : commandSettings base conv load file cmd default = some s) (hrow : row ∈ docRows)
    (h1 : row.setting ∉ badOptions) {vals : List String}
    (hlast : lastOption (row.options load) cmd = some vals) (hv : row.ValidTexts vals) :
    some (s row.setting) = row.optionSays conv vals := by
  unfold commandSettings at h
  obtain ⟨s1, hs1, h⟩ := Option.bind_eq_some_iff.1 h
  rw [option_pass hb h hrow (options_checked load row hrow h1)
    (by intro v hv'; rw [hlast] at hv'; obtain rfl := Option.some.inj hv'; exact hv), hlast]

/-! ## What does not hold -/

theorem toLower_not_upper (c : Char) : ¬ (65 ≤ c.toLower.val.toNat ∧ c.toLower.val.toNat ≤ 90) := by
  unfold Char.toLower
  split
  · rename_i h
    obtain ⟨h1, h2⟩ := h
    have h1 : 65 ≤ c.val.toNat := h1
    have h2 : c.val.toNat ≤ 90 := h2
    have : (c.val + ('a'.val - 'A'.val)).toNat = c.val.toNat + 32 := by
      rw [UInt32.toNat_add]
      have : ('a'.val - 'A'.val).toNat = 32 := rfl
      omega
    show ¬ (65 ≤ (c.val + ('a'.val - 'A'.val)).toNat ∧ (c.val + ('a'.val - 'A'.val)).toNat ≤ 90)
    omega
  · rename_i h
    exact fun hh => h hh

theorem lower_ne {k : String} {c : Char} (hc : c ∈ k.toList) (h : 65 ≤ c.val.toNat ∧ c.val.toNat ≤ 90)
    (t : String) : t.toLower ≠ k := by
  rintro rfl
  unfold String.toLower at hc
  rw [String.toList_map] at hc
  obtain ⟨c', -, rfl⟩ := List.mem_map.1 hc
  exact toLower_not_upper c' h

theorem readConfFile_never {k : String} (hk : ∀ t : String, t.toLower ≠ k)
    (lines : List (String × String)) : readConfFile lines k = none := by
  induction lines using List.reverseRecOn with
  | nil => rfl
  | append_singleton lines l ih =>
    unfold readConfFile at ih ⊢
    rw [List.foldl_append]
    simp only [List.foldl_cons, List.foldl_nil]
    rw [if_neg (Ne.symm (hk _))]
    exact ih

/-- The key of `--nu` and of `--write-lbte-solution` has capital letters. -/
theorem badTags_keys : ∀ row ∈ docRows, row.setting ∈ badTags → ∃ r,
    setTable.filter (fun (r : String × String) => r.2 = row.setting) = [r] ∧
    ∃ c ∈ r.1.toList, 65 ≤ c.val.toNat ∧ c.val.toNat ≤ 90 := by
  have : ∀ row ∈ docRows, row.setting ∈ badTags →
      setTable.filter (fun (r : String × String) => r.2 = row.setting) = [("N_U", "is_N_U")] ∨
      setTable.filter (fun (r : String × String) => r.2 = row.setting) =
        [("write_LBTE_solution", "write_LBTE_solution")] := by
    decide +kernel
  intro row h1 h2
  rcases this row h1 h2 with h | h
  · exact ⟨_, h, 'N', by decide +kernel, by decide⟩
  · exact ⟨_, h, 'L', by decide +kernel, by decide⟩

/-- **C144**, the violation. The tags `N_U` and `WRITE_LBTE_SOLUTION` of a configuration file have no
effect. -/
theorem C144_tag_ignored (hb : BaseApart base)
    (h : commandSettings base conv load file cmd default = some s) (hrow : row ∈ docRows)
    (hbad : row.setting ∈ badTags) (hno : lastOption (row.options load) cmd = none) :
    s row.setting = default row.setting := by
  unfold commandSettings at h
  obtain ⟨s1, hs1, h⟩ := Option.bind_eq_some_iff.1 h
  have h1 : row.setting ∉ badOptions := by
    intro h1
    simp only [badTags, badOptions, List.mem_cons, List.not_mem_nil, or_false] at h1 hbad
    rcases hbad with h | h <;> rw [h] at h1 <;> revert h1 <;> decide +kernel
  have h2 := option_pass hb h hrow (options_checked load row hrow h1) (by rw [hno]; simp)
  rw [hno] at h2
  have h2 := Option.some.inj h2
  rw [h2]
  cases file with
  | none => obtain rfl := Option.some.inj hs1; rfl
  | some lines =>
    obtain ⟨r, hr, c, hc, hup⟩ := badTags_keys row hrow hbad
    have h3 := (confPass_setting hb hs1 hrow hr).1
    rw [readConfFile_never (lower_ne hc hup)] at h3
    exact h3

/-- The row of `--pp-unit-conversion`. -/
def unitRow : DocRow :=
  ⟨["--pp-unit-conversion"], "PP_CONVERSION_FACTOR", "pp_conversion_factor", .value, none⟩

/-- **C144**, the violation. The option `--pp-unit-conversion` has no effect: the setting is that of the
tag, else the default. -/
theorem C144_unit_conversion_ignored (hb : BaseApart base)
    (h : commandSettings base conv load file cmd default = some s) :
    some (s "pp_conversion_factor") = unitRow.says conv load file [] default := by
  have hrow : unitRow ∈ docRows := by decide +kernel
  have hr : setTable.filter (fun (r : String × String) => r.2 = unitRow.setting) =
      [("pp_conversion_factor", "pp_conversion_factor")] := by decide +kernel
  have ho : optTable.filter (fun (o : OptRow) => o.key = "pp_conversion_factor") =
      [⟨"pp_conversion_factor", .notNone, "pp_conversion_factor", .keep⟩] := by rfl
  have ha : (argRows load).filter (fun (a : ArgRow) => a.dest = "pp_conversion_factor") = [] := by
    cases load <;> rfl
  unfold commandSettings at h
  obtain ⟨s1, hs1, h⟩ := Option.bind_eq_some_iff.1 h
  have h1 := (confPass_setting hb h hrow hr).1
  rw [readOptions_key (hb.options _ _ (by decide +kernel)) ho, parseArgs_absent ha] at h1
  have h1 : s "pp_conversion_factor" = s1 "pp_conversion_factor" := h1
  rw [h1]
  show _ = match file.bind (lastTag unitRow.tag) with
    | some text => unitRow.tagSays conv text (default unitRow.setting)
    | none => some (default unitRow.setting)
  cases file with
  | none => obtain rfl := Option.some.inj hs1; rfl
  | some lines => exact file_pass hb hs1 hrow hr (by decide +kernel) (by decide +kernel)

/-- The row of `--v2`. -/
def averageRow : DocRow := ⟨["--v2"], "FC3_R0_AVERAGE", "is_fc3_r0_average", .off, none⟩

/-- **C144**, the violation. Without `--v2` the setting is on, whatever the tag `FC3_R0_AVERAGE` says; with
`--v2` it is what the tag says, if it is there. -/
theorem C144_v2_reversed (hb : BaseApart base)
    (h : commandSettings base conv load file cmd default = some s) :
    some (s "is_fc3_r0_average") = match lastOption ["--v2"] cmd with
      | none => some (conv.ofBool true)
      | some _ => averageRow.says conv load file [] default := by
  have hrow : averageRow ∈ docRows := by decide +kernel
  have hr : setTable.filter (fun (r : String × String) => r.2 = averageRow.setting) =
      [("fc3_r0_average", "is_fc3_r0_average")] := by decide +kernel
  have ho : optTable.filter (fun (o : OptRow) => o.key = "fc3_r0_average") =
      [⟨"is_fc3_r0_average", .truthy, "fc3_r0_average", .const ".true."⟩] := by rfl
  have ha : (argRows load).filter (fun (a : ArgRow) => a.dest = "is_fc3_r0_average") =
      [⟨["--v2"], "is_fc3_r0_average", .storeFalse, .bool true, none⟩] := by
    cases load <;> rfl
  have hall : ∀ load, ∀ a' ∈ argRows load, a'.dest = "is_fc3_r0_average" ∨
      ∀ f ∈ ["--v2"], f ∉ a'.flags := by
    decide +kernel
  unfold commandSettings at h
  obtain ⟨s1, hs1, h⟩ := Option.bind_eq_some_iff.1 h
  have h1 := (confPass_setting hb h hrow hr).1
  rw [readOptions_key (hb.options _ _ (by decide +kernel)) ho, parseArgs_row ha (hall load)] at h1
  cases hl : lastOption ["--v2"] cmd with
  | none =>
    rw [hl] at h1
    have h1 : s "is_fc3_r0_average" = ((parseKey conv "fc3_r0_average" (.text ".true.")).join).getD
        (s1 "is_fc3_r0_average") := h1
    rw [parse_bool (by decide +kernel), if_pos (by decide +kernel)] at h1
    rw [h1]
    rfl
  | some vals =>
    rw [hl] at h1
    have h1 : s "is_fc3_r0_average" = s1 "is_fc3_r0_average" := h1
    rw [h1]
    show _ = match file.bind (lastTag averageRow.tag) with
      | some text => averageRow.tagSays conv text (default averageRow.setting)
      | none => some (default averageRow.setting)
    cases file with
    | none => obtain rfl := Option.some.inj hs1; rfl
    | some lines => exact file_pass hb hs1 hrow hr (by decide +kernel) (by decide +kernel)

/-! ## Two options for one setting -/

/-- The tag of the options `--wigner` and `--kubo`. -/
def conductivityRow : DocRow := ⟨[], "CONDUCTIVITY_TYPE", "conductivity_type", .value, none⟩

/-- **C144**. `--kubo` is preferred to `--wigner`, these to the tag, and the tag to the default. -/
theorem C144_conductivity (hb : BaseApart base)
    (happly : ∀ confs s s', base.apply confs s = some s' → s' "conductivity_type" = s "conductivity_type")
    (h : commandSettings base conv load file cmd default = some s) :
    some (s "conductivity_type") =
      if (lastOption ["--kubo"] cmd).isSome then conv.other "conductivity_type" (.text "kubo")
      else if (lastOption ["--wigner"] cmd).isSome then conv.other "conductivity_type" (.text "wigner")
      else conductivityRow.says conv load file [] default := by
  have hr : setTable.filter (fun (r : String × String) => r.2 = "conductivity_type") =
      [("conductivity_type", "conductivity_type")] := by decide +kernel
  have ho : optTable.filter (fun (o : OptRow) => o.key = "conductivity_type") =
      [⟨"is_wigner_kappa", .truthy, "conductivity_type", .const "wigner"⟩,
       ⟨"is_kubo_kappa", .truthy, "conductivity_type", .const "kubo"⟩] := by rfl
  have haw : (argRows load).filter (fun (a : ArgRow) => a.dest = "is_wigner_kappa") =
      [⟨["--wigner"], "is_wigner_kappa", .storeTrue, .bool false, none⟩] := by
    cases load <;> rfl
  have hak : (argRows load).filter (fun (a : ArgRow) => a.dest = "is_kubo_kappa") =
      [⟨["--kubo"], "is_kubo_kappa", .storeTrue, .bool false, none⟩] := by
    cases load <;> rfl
  have hallw : ∀ load, ∀ a' ∈ argRows load, a'.dest = "is_wigner_kappa" ∨
      ∀ f ∈ ["--wigner"], f ∉ a'.flags := by decide +kernel
  have hallk : ∀ load, ∀ a' ∈ argRows load, a'.dest = "is_kubo_kappa" ∨
      ∀ f ∈ ["--kubo"], f ∉ a'.flags := by decide +kernel
  have hk1 : "conductivity_type" ∉ boolKeys := by decide +kernel
  have hk2 : "conductivity_type" ∈ otherKeys := by decide +kernel
  have hpass : ∀ {confs : Confs} {s s' : String → V}, confPass base conv confs s = some s' →
      some (s' "conductivity_type") = match confs "conductivity_type" with
        | none => some (s "conductivity_type")
        | some v => conv.other "conductivity_type" v := by
    intro confs s s' h
    unfold confPass at h
    obtain ⟨s1, h1, h⟩ := Option.bind_eq_some_iff.1 h
    obtain ⟨p, h2, rfl⟩ := Option.map_eq_some_iff.1 h
    unfold parseConf at h2
    split at h2
    · rename_i hall
      obtain rfl := Option.some.inj h2
      have hsome : ∀ v, confs "conductivity_type" = some v →
          (parseKey conv "conductivity_type" v).isSome := by
        intro v hv
        have := List.all_eq_true.1 hall "conductivity_type" (List.mem_append_right _ hk2)
        rw [hv] at this
        exact this
      unfold setSettings
      rw [foldl_at _ (fun (r : String × String) => r.2) "conductivity_type" _ _ _ _ _ rfl, hr]
      · simp only [List.foldl_cons, List.foldl_nil]
        cases hc : confs "conductivity_type" with
        | none => simp only [Option.bind_none]; rw [happly _ _ _ h1]
        | some v =>
          have := hsome v hc
          rw [parse_other hk1 hk2] at this
          simp only [Option.bind_some, parse_other hk1 hk2]
          cases ho : conv.other "conductivity_type" v with
          | none => rw [ho] at this; simp at this
          | some x => rfl
      · intro c a ha
        dsimp only
        cases (confs a.1).bind (fun v => (parseKey conv a.1 v).join) with
        | none => rfl
        | some x => simp only [if_neg (Ne.symm ha)]
      · intro c c' a ha hc
        dsimp only
        cases (confs a.1).bind (fun v => (parseKey conv a.1 v).join) with
        | none => exact hc
        | some x => simp only [if_pos ha.symm]
    · simp at h2
  unfold commandSettings at h
  obtain ⟨s1, hs1, h⟩ := Option.bind_eq_some_iff.1 h
  rw [hpass h]
  have hopt : readOptions base (parseArgs load cmd) "conductivity_type" =
      if (lastOption ["--kubo"] cmd).isSome then some (.text "kubo")
      else if (lastOption ["--wigner"] cmd).isSome then some (.text "wigner") else none := by
    unfold readOptions
    rw [foldl_at _ (fun (o : OptRow) => o.key) "conductivity_type" _ _ _ _ _ rfl, ho]
    · simp only [List.foldl_cons, List.foldl_nil, parseArgs_row haw (hallw load),
        parseArgs_row hak (hallk load)]
      have hb0 := hb.options (parseArgs load cmd) "conductivity_type" (List.mem_append_right _ hk2)
      cases lastOption ["--kubo"] cmd <;> cases lastOption ["--wigner"] cmd <;>
        simp [OptTest.holds, OptValue.of, ArgAction.value, hb0]
    · intro c a ha
      cases parseArgs load cmd a.dest with
      | none => rfl
      | some v =>
        by_cases ht : a.test.holds v = true
        · simp only [if_pos ht, if_neg (Ne.symm ha)]
        · simp only [if_neg ht]
    · intro c c' a ha hc
      cases parseArgs load cmd a.dest with
      | none => exact hc
      | some v =>
        by_cases ht : a.test.holds v = true
        · simp only [if_pos ht, if_pos ha.symm]
        · simp only [if_neg ht]; exact hc
  rw [hopt]
  by_cases h1 : (lastOption ["--kubo"] cmd).isSome = true
  · simp only [if_pos h1]
  · simp only [if_neg h1]
    by_cases h2 : (lastOption ["--wigner"] cmd).isSome = true
    · simp only [if_pos h2]
    · simp only [if_neg h2]
      show _ = match file.bind (lastTag conductivityRow.tag) with
        | some text => conductivityRow.tagSays conv text (default conductivityRow.setting)
        | none => some (default conductivityRow.setting)
      cases file with
      | none => obtain rfl := Option.some.inj hs1; rfl
      | some lines =>
        rw [hpass hs1]
        have : readConfFile lines "conductivity_type" =
            (lastTag "CONDUCTIVITY_TYPE" lines).map ConfVal.text := by
          rw [← readConfFile_tag]
          congr 1
          decide +kernel
        rw [this]
        show _ = match lastTag "CONDUCTIVITY_TYPE" lines with
          | some text => conductivityRow.tagSays conv text (default conductivityRow.setting)
          | none => some (default conductivityRow.setting)
        cases lastTag "CONDUCTIVITY_TYPE" lines with
        | none => rfl
        | some t =>
          show conv.other "conductivity_type" (.text t) =
            conv.other ("CONDUCTIVITY_TYPE".toLower) (.text t)
          congr 1
          decide +kernel

/-! ## A case -/

/-- A base class without options and tags. -/
def emptyBase : BaseParser String where
  options _ _ := none
  apply _ s := some s

theorem emptyBase_apart : BaseApart emptyBase where
  options _ _ _ := rfl
  apply _ _ _ h _ _ := by obtain rfl := Option.some.inj h; rfl

/-- Values that are texts. -/
def textConv : ConfConv String where
  ofBool b := if b then "True" else "False"
  other _ v := match v with
    | .text s => some s
    | .words l => some (" ".intercalate l)
    | _ => none

/-- A configuration file with the documented tags `FULL_PP`, `BOUNDARY_MFP`, `TEMPERATURES` and `N_U`, and a
command line with `--bmfp` and `--v2`. The option and two tags are followed; `N_U` is not. -/
example : (commandSettings emptyBase textConv false
    (some [("FULL_PP", ".TRUE."), ("Boundary_Mfp", "5"), ("TEMPERATURES", "300 400"), ("N_U", ".TRUE.")])
    [("--bmfp", ["10"]), ("--v2", [])] (fun _ => "default")).map
      (fun s => (s "is_full_pp", s "boundary_mfp", s "temperatures", s "is_N_U")) =
    some ("True", "10", "300 400", "default") := by
  decide +kernel

end Phono3py.Props
