import Mathlib.Data.Int.Log
import Mathlib.Data.Rat.Floor
import Verif.Model.Settings

/-!
# Model of settings files in JSON format

The writer is `Dictionary::PrintInfo` (`queso/containers/dictionary.hpp`) with `DataSet::PrintValueVisit`
(`queso/containers/data_set.hpp`) behind `IO::WriteDictionaryToJSON` (`queso/io/io_utilities.tpp`).  The reader is
`queso/python/scripts/json_io.py` on top of Python's `json.load` and of the bindings
(`queso/python/bindings/dictionary_binder_helper.hpp`, casters of the copy of pybind11 in
`external_libraries/pybind11`).

Numbers of type `double` are rational numbers: infinities, NaN and the negative zero are left out.  Files are lists
of characters: the encoding of characters as bytes is left out.
-/
namespace QuESo.Json
open QuESo.Settings

/-- Texts are lists of characters. -/
abbrev Text := List Char

/-! ## Numbers as text -/

/-- The character of a digit. -/
def digitChar (n : Nat) : Char := Char.ofNat (48 + n)

/-- Decimal digits of a natural number, as `ostream <<` prints a `std::size_t`. -/
def decimal (n : Nat) : Text := if n < 10 then [digitChar n] else decimal (n / 10) ++ [digitChar (n % 10)]

/-- Rounding to the nearest natural number, ties to even (C library, default rounding mode). -/
def roundNat (x : ℚ) : Nat :=
  let f := ⌊x⌋₊
  if x - f < 1 / 2 then f else if 1 / 2 < x - f then f + 1 else if f % 2 = 0 then f else f + 1

/-- Ten significant digits of a number: the digits as a number between `10^9` and `10^10 - 1`, and the decimal exponent
of the first digit, as in the conversion `%.9e` of the C library. -/
def tenDigits (q : ℚ) : Nat × Int :=
  let x := Int.log 10 |q|
  let m := roundNat (|q| * 10 ^ (9 - x))
  if m = 10 ^ 10 then (10 ^ 9, x + 1) else (m, x)

/-- Trailing zeros are removed. -/
def stripZeros (t : Text) : Text := (t.reverse.dropWhile (· = '0')).reverse

/-- A fraction, with the point in front unless it is empty. -/
def fraction (t : Text) : Text := if stripZeros t = [] then [] else '.' :: stripZeros t

/-- An exponent: sign and at least two digits. -/
def exponent (x : Int) : Text :=
  'e' :: (if x < 0 then '-' else '+') :: (if x.natAbs < 10 then '0' :: decimal x.natAbs else decimal x.natAbs)

/-- The text of ten digits `ds` with decimal exponent `x`: fixed or scientific notation, the rule of `%g`. -/
def layout (ds : Text) (x : Int) : Text :=
  if x < -4 ∨ 10 ≤ x then ds.take 1 ++ fraction (ds.drop 1) ++ exponent x
  else if x < 0 then '0' :: fraction (List.replicate (-x - 1).toNat '0' ++ ds)
  else ds.take (x.toNat + 1) ++ fraction (ds.drop (x.toNat + 1))

/-- `ostream <<` of a `double` with `std::setprecision(10)` (dictionary.hpp L519) and no other flags: the conversion
`%.10g` of the C library (external). -/
def formatDouble (q : ℚ) : Text :=
  if q = 0 then ['0'] else (if q < 0 then ['-'] else []) ++ layout (decimal (tenDigits q).1) (tenDigits q).2

/-! ## The writer -/

/-- `operator<<` of `IntegrationMethod`, core_definitions.hpp L99-117. -/
def methodText : Nat → Text
  | 0 => "Gauss".toList
  | 1 => "Gauss_Reduced1".toList
  | 2 => "Gauss_Reduced2".toList
  | 3 => "GGQ_Optimal".toList
  | 4 => "GGQ_Reduced1".toList
  | 5 => "GGQ_Reduced2".toList
  | _ => []

/-- `operator<<` of `GridType`, core_definitions.hpp L134-145. -/
def gridText : Nat → Text
  | 0 => "b_spline_grid".toList
  | 1 => "hexahedral_fe_grid".toList
  | _ => []

/-- A text in quotation marks. -/
def quoted (t : Text) : Text := '"' :: t ++ ['"']

/-- Three texts as a JSON list, data_set.hpp L91-92. -/
def triple (a b c : Text) : Text := '[' :: a ++ ", ".toList ++ b ++ ", ".toList ++ c ++ [']']

/-- `PrintValueVisit`, data_set.hpp L87-103. -/
def printVal : Option (Val ℚ) → Text
  | none => quoted "Not Set.".toList
  | some (.point v) => triple (formatDouble v.x) (formatDouble v.y) (formatDouble v.z)
  | some (.vec3i v) => triple (decimal v.x) (decimal v.y) (decimal v.z)
  | some (.index n) => decimal n
  | some (.double q) => formatDouble q
  | some (.string s) => quoted s
  | some (.bool b) => if b then "true".toList else "false".toList
  | some (.method m) => quoted (methodText m)
  | some (.grid g) => quoted (gridText g)

/-- `a; b` for calls with results. -/
def _root_.QuESo.Settings.Res.bind {α β : Type _} : Res α → (α → Res β) → Res β
  | .ok a, f => f a
  | .error, _ => .error
  | .ub, _ => .ub

/-- A loop over the entries of a map that prints something for each and knows which one is the last. -/
def eachEntry {α : Type _} (f : α → Bool → Res Text) : List α → Res Text
  | [] => .ok []
  | a :: l => (f a l.isEmpty).bind fun t => (eachEntry f l).bind fun r => .ok (t ++ r)

/-- Four blanks (dictionary.hpp L337, L382). -/
def blanks : Text := "    ".toList

/-- `"name" : ` in a new line. -/
def label (indent : Text) (nm : Name) : Text := indent ++ quoted nm ++ " : ".toList

/-- First part of `PrintInfo`: the values, dictionary.hpp L344-354, with `PrintValue`, data_set.hpp L255-261.  The key
comes from the key set of the data set, so the check in `PrintValue` never fails. -/
def printData (indent : Text) (nItems : Nat) : Option (DataSet ℚ) → Res Text
  | none => .ok []
  | some d => eachEntry (fun e last =>
      match d.data[e.2.index]? with
      | none => .ub
      | some o => .ok (label indent e.1 ++ printVal o ++ (if last ∧ nItems = 0 then "\n".toList else ",\n".toList)))
      d.keys.map

/-- What `PrintInfo` finds at a pointer to a dictionary: a null pointer or what this dictionary prints, which depends
on the indentation. -/
abbrev Printer := Option (Text → Res Text)

/-- Second part of `PrintInfo`: the sub dictionaries, dictionary.hpp L357-373. -/
def printSubs (indent : Text) (nLists : Nat) (subs : List Printer) : Option KeySet → Res Text
  | none => .ok []
  | some ks => eachEntry (fun e last =>
      match subs[e.2.index]? with
      | none => .ub
      | some p =>
        (match p with
          | none => Res.ok []
          | some f => f indent).bind fun t =>
        .ok (label indent e.1 ++ "{\n".toList ++ t ++ indent ++
          (if last ∧ nLists = 0 then "}\n".toList else "},\n".toList))) ks.map

/-- Inner loop of the third part, dictionary.hpp L384-392.  A null pointer is dereferenced. -/
def printEntries (indent : Text) (l : List Printer) : Res Text :=
  eachEntry (fun p last =>
    match p with
    | none => .ub
    | some f => (f indent).bind fun t =>
        .ok (indent ++ "{\n".toList ++ t ++ indent ++ (if last then "}\n".toList else "},\n".toList))) l

/-- Third part of `PrintInfo`: the lists, dictionary.hpp L376-399. -/
def printLists (indent : Text) (lists : List (List Printer)) : Option KeySet → Res Text
  | none => .ok []
  | some ks => eachEntry (fun e last =>
      match lists[e.2.index]? with
      | none => .ub
      | some l => (printEntries (indent ++ blanks) l).bind fun t =>
        .ok (label indent e.1 ++ "[\n".toList ++ t ++ indent ++
          (if last then "]\n".toList else "],\n".toList))) ks.map

mutual
/-- `PrintInfo`, dictionary.hpp L336-401. -/
def print : Dict ℚ → Text → Res Text
  | .node data subKeys subs listKeys lists, rIndent =>
    (printData (rIndent ++ blanks) (subs.length + lists.length) data).bind fun a =>
    (printSubs (rIndent ++ blanks) lists.length (printers subs) subKeys).bind fun b =>
    (printLists (rIndent ++ blanks) (printerLists lists) listKeys).bind fun c => .ok (a ++ b ++ c)
def printers : List (Option (Dict ℚ)) → List Printer
  | [] => []
  | none :: l => none :: printers l
  | some d :: l => some (print d) :: printers l
def printerLists : List (List (Option (Dict ℚ))) → List (List Printer)
  | [] => []
  | x :: l => printers x :: printerLists l
end

/-- `operator<<` of `Dictionary`, dictionary.hpp L516-524, and `WriteDictionaryToJSON`, io_utilities.tpp L25-35: the
contents of the file. -/
def writeJSON (d : Dict ℚ) : Res Text := (print d []).bind fun t => .ok ("{\n".toList ++ t ++ ['}'])

/-! ## `json.load`

Python's standard library, after RFC 8259.  Left out: the escape `\u`, and the words `NaN` and `Infinity`, which
Python reads in addition (texts with them count as errors here; the writer prints neither). -/

/-- JSON values as Python objects. -/
inductive Json
  | null | bool (b : Bool) | int (z : Int) | float (q : ℚ) | str (s : Text)
  | list (l : List Json) | obj (l : List (Name × Json))

/-- Tokens. -/
inductive Tok
  | str (s : Text) | int (z : Int) | float (q : ℚ) | true_ | false_ | null
  | lbrace | rbrace | lbrack | rbrack | comma | colon
  deriving DecidableEq

/-- Value of a character as a digit. -/
def digitOf (c : Char) : Option Nat := if 48 ≤ c.toNat ∧ c.toNat ≤ 57 then some (c.toNat - 48) else none

/-- Value of a text of digits. -/
def digitsFrom : Nat → Text → Option Nat
  | a, [] => some a
  | a, c :: t => (digitOf c).bind fun d => digitsFrom (10 * a + d) t

/-- At least one digit. -/
def digitsOf (t : Text) : Option Nat := if t = [] then none else digitsFrom 0 t

/-- The part of a text up to the first character with a property, and the rest from this character on. -/
def cut (p : Char → Bool) : Text → Text × Text
  | [] => ([], [])
  | c :: t => if p c then ([], c :: t) else (c :: (cut p t).1, (cut p t).2)

/-- The exponent with its letter; an empty text means no exponent. -/
def exponentOf : Text → Option (Option Int)
  | [] => some none
  | _ :: '-' :: t => (digitsOf t).map fun n : Nat => some (-(n : Int))
  | _ :: '+' :: t => (digitsOf t).map fun n : Nat => some (n : Int)
  | _ :: t => (digitsOf t).map fun n : Nat => some (n : Int)

/-- The digits after the point, with the point; an empty text means no fraction. -/
def fractionOf : Text → Option (Option Text)
  | [] => some none
  | _ :: t => (digitsOf t).map fun _ => some t

/-- A number without sign: `(0|[1-9]\d*)(\.\d+)?([eE][-+]?\d+)?`.  An integer if there is neither fraction nor exponent;
else a `float`, rounded to the next `double` by `rnd`. -/
def unsignedTok (rnd : ℚ → ℚ) (neg : Bool) (t : Text) : Option Tok :=
  let (mantissa, e) := cut (fun c => c = 'e' ∨ c = 'E') t
  let (i, f) := cut (fun c => c = '.') mantissa
  (exponentOf e).bind fun ex =>
  (fractionOf f).bind fun fr =>
  (digitsOf i).bind fun n =>
    if i.length ≠ 1 ∧ i.head? = some '0' then none
    else match fr, ex with
      | none, none => some (.int (if neg then -(n : Int) else n))
      | _, _ => (digitsFrom n (fr.getD [])).map fun m : Nat =>
          .float (rnd ((if neg then -1 else 1) * (m : ℚ) * 10 ^ (ex.getD 0 - ((fr.getD []).length : Int))))

/-- A number with sign. -/
def numTok (rnd : ℚ → ℚ) : Text → Option Tok
  | '-' :: t => unsignedTok rnd true t
  | t => unsignedTok rnd false t

/-- Characters of numbers. -/
def isNumChar (c : Char) : Bool := (digitOf c).isSome || c = '-' || c = '+' || c = '.' || c = 'e' || c = 'E'

/-- A word. -/
def wordTok (t : Text) : Option Tok :=
  if t = "true".toList then some .true_ else if t = "false".toList then some .false_
  else if t = "null".toList then some .null else none

/-- An escape sequence without its backslash. -/
def escape (c : Char) : Option Char :=
  if c = '"' then some '"' else if c = '\\' then some '\\' else if c = '/' then some '/'
  else if c = 'b' then some '\x08' else if c = 'f' then some '\x0c' else if c = 'n' then some '\n'
  else if c = 'r' then some '\r' else if c = 't' then some '\t' else none

/-- Where the scanner is: between tokens, in a string (characters so far in reverse order), behind a backslash, in a
number or in a word. -/
inductive Mode | start | str (acc : Text) | esc (acc : Text) | num (acc : Text) | word (acc : Text)

/-- A character between tokens: the token it is, if any, and where the scanner is afterwards. -/
def begin (c : Char) : Option (List Tok × Mode) :=
  if c = ' ' ∨ c = '\t' ∨ c = '\n' ∨ c = '\r' then some ([], .start)
  else if c = '"' then some ([], .str [])
  else if c = '{' then some ([.lbrace], .start)
  else if c = '}' then some ([.rbrace], .start)
  else if c = '[' then some ([.lbrack], .start)
  else if c = ']' then some ([.rbrack], .start)
  else if c = ',' then some ([.comma], .start)
  else if c = ':' then some ([.colon], .start)
  else if c = '-' ∨ (digitOf c).isSome then some ([], .num [c])
  else if c.isAlpha then some ([], .word [c])
  else none

/-- One character. -/
def step (rnd : ℚ → ℚ) (m : Mode) (c : Char) : Option (List Tok × Mode) :=
  match m with
  | .start => begin c
  | .str acc =>
    if c = '"' then some ([.str acc.reverse], .start)
    else if c = '\\' then some ([], .esc acc)
    else if c.toNat < 32 then none
    else some ([], .str (c :: acc))
  | .esc acc => (escape c).map fun d => ([], .str (d :: acc))
  | .num acc =>
    if isNumChar c then some ([], .num (c :: acc))
    else (numTok rnd acc.reverse).bind fun t => (begin c).map fun r => (t :: r.1, r.2)
  | .word acc =>
    if c.isAlpha then some ([], .word (c :: acc))
    else (wordTok acc.reverse).bind fun t => (begin c).map fun r => (t :: r.1, r.2)

/-- The end of the file. -/
def finish (rnd : ℚ → ℚ) : Mode → Option (List Tok)
  | .start => some []
  | .num acc => (numTok rnd acc.reverse).map ([·])
  | .word acc => (wordTok acc.reverse).map ([·])
  | _ => none

/-- The tokens of a text. -/
def scan (rnd : ℚ → ℚ) : Mode → Text → Option (List Tok)
  | m, [] => finish rnd m
  | m, c :: t => (step rnd m c).bind fun r => (scan rnd r.2 t).map (r.1 ++ ·)

/-- An entry of a Python dictionary: a name that is present keeps its place and gets the new value. -/
def pyInsert (l : List (Name × Json)) (nm : Name) (v : Json) : List (Name × Json) :=
  if l.any (fun e => decide (e.1 = nm)) then l.map (fun e => if e.1 = nm then (nm, v) else e) else l ++ [(nm, v)]

/-- The Python dictionary of the members of a JSON object. -/
def pyDict (l : List (Name × Json)) : List (Name × Json) := l.foldl (fun d e => pyInsert d e.1 e.2) []

mutual
/-- A JSON value; the number bounds the depth of the recursion. -/
def parseValue : Nat → List Tok → Option (Json × List Tok)
  | 0, _ => none
  | _ + 1, .str s :: r => some (.str s, r)
  | _ + 1, .int z :: r => some (.int z, r)
  | _ + 1, .float q :: r => some (.float q, r)
  | _ + 1, .true_ :: r => some (.bool true, r)
  | _ + 1, .false_ :: r => some (.bool false, r)
  | _ + 1, .null :: r => some (.null, r)
  | _ + 1, .lbrace :: .rbrace :: r => some (.obj [], r)
  | n + 1, .lbrace :: r => (parseMembers n r).map fun x => (.obj (pyDict x.1), x.2)
  | _ + 1, .lbrack :: .rbrack :: r => some (.list [], r)
  | n + 1, .lbrack :: r => (parseElements n r).map fun x => (.list x.1, x.2)
  | _ + 1, _ => none
/-- The members of an object up to the brace. -/
def parseMembers : Nat → List Tok → Option (List (Name × Json) × List Tok)
  | 0, _ => none
  | n + 1, .str k :: .colon :: r =>
    (parseValue n r).bind fun v =>
      match v.2 with
      | .comma :: r' => (parseMembers n r').map fun x => ((k, v.1) :: x.1, x.2)
      | .rbrace :: r' => some ([(k, v.1)], r')
      | _ => none
  | _ + 1, _ => none
/-- The elements of a list up to the bracket. -/
def parseElements : Nat → List Tok → Option (List Json × List Tok)
  | 0, _ => none
  | n + 1, r =>
    (parseValue n r).bind fun v =>
      match v.2 with
      | .comma :: r' => (parseElements n r').map fun x => (v.1 :: x.1, x.2)
      | .rbrack :: r' => some ([v.1], r')
      | _ => none
end

/-- `json.load` (json_io.py L38-39): the value of the whole text.  `none`: an exception. -/
def load (rnd : ℚ → ℚ) (t : Text) : Option Json :=
  (scan rnd .start t).bind fun ts =>
    match parseValue (ts.length + 1) ts with
    | some (v, []) => some v
    | _ => none

/-! ## Python values as arguments of `SetValue` -/

/-- Caster of `double`, pybind11/cast.h L143-148.  Integers are rounded to the next `double`; integers that are too
large for it are left out. -/
def loadDouble (rnd : ℚ → ℚ) (convert : Bool) : Json → Option ℚ
  | .float q => some q
  | .int z => if convert then some (rnd z) else none
  | .bool b => if convert then some (if b then 1 else 0) else none
  | _ => none

/-- Caster of `IndexType`, pybind11/cast.h L149-194.  Python's truth values are integers. -/
def loadIndex : Json → Option Nat
  | .int z => if 0 ≤ z ∧ z < 2 ^ 64 then some z.toNat else none
  | .bool b => some (if b then 1 else 0)
  | _ => none

/-- Caster of `bool`, pybind11/cast.h L312-352. -/
def loadBool (convert : Bool) : Json → Option Bool
  | .bool b => some b
  | .null => if convert then some false else none
  | .int z => if convert then some (decide (z ≠ 0)) else none
  | .float q => if convert then some (decide (q ≠ 0)) else none
  | _ => none

/-- Caster of `std::array<.., 3>`, pybind11/stl.h L220-237.  (A text is a sequence as well, but its characters are
neither `double` nor `IndexType`.) -/
def loadTriple {α : Type _} (f : Json → Option α) : Json → Option (V3 α)
  | .list [a, b, c] => (f a).bind fun x => (f b).bind fun y => (f c).bind fun z => some ⟨x, y, z⟩
  | _ => none

/-- Caster of `std::string`. -/
def loadString : Json → Option Text
  | .str s => some s
  | _ => none

/-- The overloads of `SetValue` in their order, dictionary_binder_helper.hpp L47-62, for values that are no
enumerators. -/
def overloads (rnd : ℚ → ℚ) (convert : Bool) (j : Json) : Option (Given ℚ) :=
  ((loadTriple (loadDouble rnd convert) j).map fun v => .other (.point v)) <|>
  ((loadTriple loadIndex j).map fun v => .vec3i v) <|>
  ((loadBool convert j).map fun b => .other (.bool b)) <|>
  ((loadDouble rnd convert j).map fun q => .other (.double q)) <|>
  ((loadIndex j).map fun n => .int n false) <|>
  ((loadString j).map fun s => .other (.string s))

/-- Choice of the overload: first without, then with conversions (pybind11.h, `dispatcher`).  `none`: `TypeError`. -/
def given (rnd : ℚ → ℚ) (j : Json) : Option (Given ℚ) := overloads rnd false j <|> overloads rnd true j

/-- `SetValue(name, value)` of a dictionary, dictionary.hpp L456-460. -/
def setValue (rnd : ℚ → ℚ) (nm : Name) (g : Given ℚ) : Dict ℚ → Res (Dict ℚ)
  | .node (some d) subKeys subs listKeys lists =>
    (d.setName (fun z => rnd z) nm g).bind fun d' => .ok (.node (some d') subKeys subs listKeys lists)
  | .node none _ _ _ _ => .error

/-- `string_to_enum_integration_method`, json_io.py L175-182; the enumerators of the bindings are those of the
code (`add_globals_to_python.cpp`). -/
def methodOf (s : Text) : Option Nat :=
  if s = "Gauss".toList then some 0 else if s = "Gauss_Reduced1".toList then some 1
  else if s = "Gauss_Reduced2".toList then some 2 else if s = "GGQ_Optimal".toList then some 3
  else if s = "GGQ_Reduced1".toList then some 4 else if s = "GGQ_Reduced2".toList then some 5 else none

/-- `string_to_enum_grid_type`, json_io.py L184-187. -/
def gridOf (s : Text) : Option Nat :=
  if s = "b_spline_grid".toList then some 0 else if s = "hexahedral_fe_grid".toList then some 1 else none

/-- Does a value equal the text? -/
def isText (t : Text) : Json → Bool
  | .str s => decide (s = t)
  | _ => false

/-- `_set_value`, json_io.py L105-129. -/
def setJson (rnd : ℚ → ℚ) (nm : Name) (j : Json) (d : Dict ℚ) : Res (Dict ℚ) :=
  if isText "Not Set.".toList j then .ok d
  else if nm = "integration_method".toList then
    match (loadString j).bind methodOf with
    | none => .error
    | some m => setValue rnd nm (.other (.method m)) d
  else if nm = "grid_type".toList then
    match (loadString j).bind gridOf with
    | none => .error
    | some g => setValue rnd nm (.other (.grid g)) d
  else
    match given rnd j with
    | none => .error
    | some g => setValue rnd nm g d

/-! ## The reader -/

/-- `settings[name]`, dictionary.hpp L428-444, and a change of this sub dictionary. -/
def onSub (nm : Name) (f : Dict ℚ → Res (Dict ℚ)) : Dict ℚ → Res (Dict ℚ)
  | .node data (some ks) subs listKeys lists =>
    match ks.getKey nm with
    | none => .error
    | some k =>
      match subs[k.index]? with
      | none => .ub
      | some none => .error
      | some (some d) => (f d).bind fun d' => .ok (.node data (some ks) (subs.set k.index (some d')) listKeys lists)
  | .node _ none _ _ _ => .error

/-- `settings.GetList(name)`, dictionary.hpp L449-460, and entries appended to the list. -/
def onList (nm : Name) (f : Res (List (Dict ℚ))) : Dict ℚ → Res (Dict ℚ)
  | .node data subKeys subs (some ks) lists =>
    match ks.getKey nm with
    | none => .error
    | some k =>
      match lists[k.index]? with
      | none => .ub
      | some l => f.bind fun new => .ok (.node data subKeys subs (some ks) (lists.set k.index (l ++ new.map some)))
  | .node _ _ _ none _ => .error

mutual
/-- One entry of `_read_dict`, json_io.py L58-65; with `_read_list`, L81-85: an empty list raises an `IndexError`.
`cond` is the dictionary `Dictionary.Create("ConditionSettings")` returns. -/
def readEntry (rnd : ℚ → ℚ) (cond : Dict ℚ) : Name → Json → Dict ℚ → Res (Dict ℚ)
  | nm, .obj l, d => onSub nm (readMembers rnd cond l) d
  | nm, .list [], _ => .error
  | nm, .list (.obj l :: r), d =>
    onList nm ((readMembers rnd cond l cond).bind fun x => (readList rnd cond r).bind fun y => .ok (x :: y)) d
  | nm, .list l, d =>
    match given rnd (.list l) with
    | none => .error
    | some g => setValue rnd nm g d
  | nm, j, d => setJson rnd nm j d
/-- `_read_dict`, json_io.py L46-65. -/
def readMembers (rnd : ℚ → ℚ) (cond : Dict ℚ) : List (Name × Json) → Dict ℚ → Res (Dict ℚ)
  | [], d => .ok d
  | e :: l, d => (readPair rnd cond e d).bind (readMembers rnd cond l)
def readPair (rnd : ℚ → ℚ) (cond : Dict ℚ) : Name × Json → Dict ℚ → Res (Dict ℚ)
  | (nm, j), d => readEntry rnd cond nm j d
/-- `_read_conditions_settings_list`, json_io.py L87-102; entries that are no objects have no `items`. -/
def readList (rnd : ℚ → ℚ) (cond : Dict ℚ) : List Json → Res (List (Dict ℚ))
  | [] => .ok []
  | .obj l :: r => (readMembers rnd cond l cond).bind fun x => (readList rnd cond r).bind fun y => .ok (x :: y)
  | _ :: _ => .error
end

/-- `read_settings`, json_io.py L27-44.  `settings` is the dictionary `Dictionary.Create("Settings")` returns. -/
def readSettings (rnd : ℚ → ℚ) (settings cond : Dict ℚ) (file : Text) : Res (Dict ℚ) :=
  match load rnd file with
  | some (.obj l) => readMembers rnd cond l settings
  | _ => .error

end QuESo.Json
