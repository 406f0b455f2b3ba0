import Mathlib.Data.List.Basic
import Mathlib.Data.List.Infix

/-!
Model of the choice of force-constants calculators and their options
(`phono3py/cui/create_force_constants.py`, `phono3py/interface/fc_calculator.py`,
`phono3py/cui/load.py`, `phono3py/cui/phono3py_script.py`, `phono3py/api_phono3py.py`). Strings are
lists of characters.
-/

namespace Phono3py

/-- Python `str`, used at phono3py/interface/fc_calculator.py:108-131. -/
abbrev Str := List Char

/-- `s.split("|")`, cui/create_force_constants.py:317 and 351, interface/fc_calculator.py:124. -/
def splitBar : Str → List Str
  | [] => [[]]
  | c :: s =>
    if c = '|' then [] :: splitBar s
    else match splitBar s with
      | [] => [[c]]
      | p :: ps => (c :: p) :: ps

/-- `"|".join(l)`, cui/create_force_constants.py:323. -/
def joinBar : List Str → Str
  | [] => []
  | [p] => p
  | p :: q :: ps => p ++ '|' :: joinBar (q :: ps)

/-- `s.strip()`, cui/create_force_constants.py:351, interface/fc_calculator.py:129. -/
def stripStr (s : Str) : Str :=
  ((s.dropWhile Char.isWhitespace).reverse.dropWhile Char.isWhitespace).reverse

/-- `"cutoff" in s`, cui/create_force_constants.py:360, interface/fc_calculator.py:156. -/
def hasCutoff (s : Str) : Bool := decide (['c', 'u', 't', 'o', 'f', 'f'] <:+: s)

/-- `fc_calculator_list`, cui/create_force_constants.py:315-321: parts that are neither empty nor
a known name are left out. `known` is phonopy's `fc_calculator_names`. -/
def fcCalculatorList (known : List Str) (s : Str) : List Str :=
  (splitBar s).filterMap fun (p : Str) =>
    if p = [] then some [] else
      let q := p.map Char.toLower
      if q ∈ known then some q else none

/-- `calc_opts_fc2, calc_opts_fc3`, cui/create_force_constants.py:347-354. -/
def optionPair (opts : Option Str) : Str × Str :=
  if '|' ∈ opts.getD ['|'] then
    (((splitBar (opts.getD ['|'])).map stripStr).getD 0 [],
      ((splitBar (opts.getD ['|'])).map stripStr).getD 1 [])
  else (opts.getD ['|'], opts.getD ['|'])

/-- The options of fc3 with the cutoff, cui/create_force_constants.py:346 and 356-363. -/
def appendCutoff (opts3 cutoff : Str) : Str :=
  if opts3 = [] then ['c', 'u', 't', 'o', 'f', 'f', '='] ++ cutoff
  else if hasCutoff opts3 then opts3
  else opts3 ++ [',', ' '] ++ ['c', 'u', 't', 'o', 'f', 'f', '='] ++ cutoff

/-- `_set_cutoff_in_fc_calculator_options`, cui/create_force_constants.py:341-365. -/
def setCutoffInOptions (opts : Option Str) (cutoff : Str) : Str :=
  (optionPair opts).1 ++ '|' :: appendCutoff (optionPair opts).2 cutoff

/-- `get_fc_calculator_params`, cui/create_force_constants.py:310-338, without the log. `cutoff` is
`settings.cutoff_pair_distance` as it is formatted in an f-string; `none` stands for `None` and for
zero. -/
def fcCalculatorParams (known : List Str) (tool opts cutoff : Option Str) :
    Option Str × Option Str :=
  let l := match tool with
    | none => []
    | some s => fcCalculatorList known s
  let name := if l = [] then none else some (joinBar l)
  let options := match cutoff with
    | none => opts
    | some c =>
      if l.getLast? = some "alm".toList then
        some (setCutoffInOptions opts (['-', '1', ' '] ++ c))
      else if l.getLast? = some "symfc".toList then some (setCutoffInOptions opts c)
      else opts
  (name, options)

/-- `extract_fc2_fc3_calculators`, interface/fc_calculator.py:108-133, of a string or `None`;
`order` is 2 or 3. -/
def extractCalculator (s : Option Str) (order : Nat) : Option Str :=
  match s with
  | none => none
  | some s =>
    if '|' ∈ s then
      let p := (splitBar s).getD (order - 2) []
      if p = [] then none else some p
    else if stripStr s = [] then none else some s

/-- `update_cutoff_fc_calculator_options`, interface/fc_calculator.py:137-160, of a string or
`None`. -/
def updateCutoffOptions (opts cutoff : Option Str) : Option Str :=
  match cutoff with
  | none => opts
  | some c =>
    match opts with
    | some s => if hasCutoff s then some s else some (s ++ [',', ' ', 'c', 'u', 't', 'o', 'f', 'f', ' ', '=', ' '] ++ c)
    | none => some (['c', 'u', 't', 'o', 'f', 'f', ' ', '=', ' '] ++ c)

/-- Options given as a dictionary, as far as they matter here: its entry `"cutoff"` and what else it
holds (interface/fc_calculator.py:154-155). -/
structure OptionDict where
  cutoff : Option Str
  rest : Str

/-- `update_cutoff_fc_calculator_options` of a dictionary, interface/fc_calculator.py:154-155: the
caller's dictionary is changed in place and returned. -/
def updateCutoffDict (d : OptionDict) (cutoff : Option Str) : OptionDict :=
  match cutoff, d.cutoff with
  | some c, none => { d with cutoff := some c }
  | _, _ => d

/-- The options for fc3 and fc2 and the caller's dictionary afterwards, in
`compute_force_constants_from_datasets` (cui/load.py:460-464): `extract_fc2_fc3_calculators` returns
the dictionary itself (interface/fc_calculator.py:121-122), so all three are one object. -/
def loadDictOptions (d : OptionDict) (cutoff : Option Str) : OptionDict × OptionDict × OptionDict :=
  let d' := updateCutoffDict d cutoff
  (d', d', d')

/-! ### Which solver makes which force constants -/

/-- Where an array of force constants comes from: a file, or the solver of order 2 or 3 (the latter
fits fc2 along) with a calculator and options (api_phono3py.py:1485-1526, 1561-1570). -/
inductive FcOrigin where
  | file
  | solver (order : Nat) (tool opts : Option Str)
deriving DecidableEq

/-- `phono3py.fc2` and `phono3py.fc3`, api_phono3py.py:1511-1526. -/
structure FcState where
  fc2 : Option FcOrigin
  fc3 : Option FcOrigin

/-- The datasets at hand, cui/load.py:466, 480-485: whether `phonon_supercell_matrix` is given,
whether `dataset` and `phonon_dataset` have forces, and whether their displacements are general ones,
for which the built-in solver raises `ForceCalculatorRequiredError`. -/
structure FcData where
  matrix : Bool
  forces : Bool
  phononForces : Bool
  general : Bool
  phononGeneral : Bool

/-- The built-in solver is asked for (interface/fc_calculator.py:93, api_phono3py.py:1499). -/
def builtIn (tool : Option Str) : Bool := tool.isNone || tool == some "traditional".toList

/-- `Phono3py.produce_fc3`, api_phono3py.py:1485-1526, without symmetrization. `none` is
`ForceCalculatorRequiredError` of the solver. -/
def produceFc3Origin (d : FcData) (tool opts : Option Str) (s : FcState) : Option FcState :=
  if builtIn tool && d.general then none
  else
    let o := FcOrigin.solver 3 tool opts
    let fc2 : Option FcOrigin :=
      if (tool.getD []).contains '|' || (opts.getD []).contains '|' || d.matrix then none else some o
    some ⟨if s.fc2.isNone then fc2 else s.fc2, some o⟩

/-- `Phono3py.produce_fc2`, api_phono3py.py:1554-1576, without symmetrization. The dataset is
`phonon_dataset` if there is one; with forces at hand that is the one of the extra supercell. -/
def produceFc2Origin (d : FcData) (tool opts : Option Str) (s : FcState) : Option FcState :=
  if builtIn tool && (if d.matrix then d.phononGeneral else d.general) then none
  else some { s with fc2 := some (FcOrigin.solver 2 tool opts) }

/-- `compute_force_constants_from_datasets`, cui/load.py:437-491: the object afterwards and whether
`ForceCalculatorRequiredError` was raised. -/
def computeFcOrigins (d : FcData) (tool opts cutoff : Option Str) (s : FcState) :
    FcState × Bool :=
  let tool3 := extractCalculator tool 3
  let tool2 := extractCalculator tool 2
  let opts3 := updateCutoffOptions (extractCalculator opts 3) cutoff
  let opts2 := extractCalculator opts 2
  let existed := s.fc2.isSome
  let first : Option FcState :=
    if s.fc3.isNone && d.forces then produceFc3Origin d tool3 opts3 s else some s
  match first with
  | none => (s, true)
  | some s1 =>
    if existed then (s1, false)
    else if (!d.matrix && d.forces) || (d.matrix && d.phononForces) then
      match produceFc2Origin d tool2 opts2 s1 with
      | none => (s1, true)
      | some s2 => (s2, false)
    else (s1, false)

/-- `get_cutoff_pair_distance`, cui/create_force_constants.py:80-93, for options that
`get_fc_calculator_params` returned. `parse` is `cutoff[3]` of phonopy's `parse_symfc_options`. -/
def cutoffPairDistance (parse : Option Str → Option Str) (opts cutoff : Option Str) : Option Str :=
  match cutoff with
  | none => parse (extractCalculator opts 3)
  | some c => some c

/-- `_store_force_constants` of `phono3py-load`, cui/phono3py_script.py:592-658, for an object with
the force constants `s` read from files. `none`: the program ends with an error,
because fc2 or fc3 is missing, or the exception raised by the second attempt. A cutoff of zero is not
modelled. -/
def loadCommandOrigins (known : List Str) (parse : Option Str → Option Str) (d : FcData)
    (tool opts cutoff : Option Str) (s : FcState) : Option FcState :=
  let params := fcCalculatorParams known tool opts cutoff
  let cut := cutoffPairDistance parse params.2 cutoff
  let r := computeFcOrigins d params.1 params.2 cut s
  let r' := if r.2 then computeFcOrigins d (some "symfc".toList) params.2 cut r.1 else r
  if r'.2 || r'.1.fc2.isNone || r'.1.fc3.isNone then none else some r'.1

end Phono3py
