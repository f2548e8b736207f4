import Mathlib.Data.List.Lex
import Mathlib.Data.Char

/-!
# Properties: Properties.cpp / Properties.hpp

Strings are `List Char`; a file is its whole text (`none` = cannot be opened).
-/

namespace ISO

/-- `std::string` -/
abbrev Str := List Char

/-- `std::transform(.., ::tolower)` in the "C" locale: ASCII letters only (Properties.cpp:153, 160,
168, 175, 210). -/
def lower (s : Str) : Str := s.map Char.toLower

namespace Properties

/-- characters removed at the end by `str_trim` (Properties.cpp:23) -/
def isTrail (c : Char) : Bool := c == ' ' || c == '\t' || c == '\r'

/-- characters removed at the beginning by `str_trim` (Properties.cpp:26) -/
def isLead (c : Char) : Bool := c == ' ' || c == '\t'

/-- Properties.cpp:21-33. `find_last_not_of` + `erase` is `dropWhile` on the reversed string,
`find_first_not_of` + `erase` is `dropWhile`; a string of trailing characters only becomes "". -/
def strTrim (s : Str) : Str := ((s.reverse.dropWhile isTrail).reverse).dropWhile isLead

/-- `while (std::getline(in, line))` (Properties.cpp:189): the lines of a text; no extra empty line
after a final newline. -/
def getlines : Str → List Str :=
  go []
where
  /-- `cur` is the current line, reversed -/
  go : Str → Str → List Str
  | [], [] => []
  | cur@(_ :: _), [] => [cur.reverse]
  | cur, c :: t => if c = '\n' then cur.reverse :: go [] t else go (c :: cur) t

/-- the exceptions of `readFile` (Properties.cpp:196, 200, 208, 216) -/
inductive Error where
  | invalidFormat (line : Nat)
  | missingKey (line : Nat)
  | missingValue (line : Nat)
  | cannotOpen
  deriving DecidableEq, Repr

/-- what one line of the file does -/
inductive LineResult where
  | skip
  | define (key value : Str)
  | noEquals
  | noKey
  | noValue
  deriving DecidableEq, Repr

/-- Properties.cpp:191-211, the body of the loop, without the map insertion. -/
def parseLine (line : Str) : LineResult :=
  let line := strTrim line
  if line = [] ∨ line.head? = some '#' then .skip
  else if '=' ∈ line then
    let key := strTrim (line.takeWhile (· ≠ '='))
    if key = [] then .noKey
    else
      let value := strTrim ((line.dropWhile (· ≠ '=')).tail)
      if value = [] then .noValue
      else .define (lower key) value
  else .noEquals

/-- `std::map<std::string, std::string>`: entries in ascending key order. -/
abbrev Store := List (Str × Str)

/-- `std::map::insert` (Properties.cpp:211): does nothing if the key is present. -/
def insertNew (k v : Str) : Store → Store
  | [] => [(k, v)]
  | (k', v') :: t =>
    if k < k' then (k, v) :: (k', v') :: t
    else if k = k' then (k', v') :: t
    else (k', v') :: insertNew k v t

/-- `map[k] = value` (Properties.cpp:154, 161): overwrites. -/
def insertOver (k v : Str) : Store → Store
  | [] => [(k, v)]
  | (k', v') :: t =>
    if k < k' then (k, v) :: (k', v') :: t
    else if k = k' then (k', v) :: t
    else (k', v') :: insertOver k v t

/-- `std::map::find` -/
def find (k : Str) : Store → Option Str
  | [] => none
  | (k', v') :: t => if k = k' then some v' else find k t

/-- Properties.cpp:189-213: the loop over the lines; `n` lines have been read before. -/
def readLines (n : Nat) : List Str → Store → Except Error Store
  | [], m => .ok m
  | l :: ls, m =>
    match parseLine l with
    | .skip => readLines (n + 1) ls m
    | .define k v => readLines (n + 1) ls (insertNew k v m)
    | .noEquals => .error (.invalidFormat (n + 1))
    | .noKey => .error (.missingKey (n + 1))
    | .noValue => .error (.missingValue (n + 1))

/-- Properties.cpp:183-218. -/
def readFile (file : Option Str) (m : Store) : Except Error Store :=
  match file with
  | none => .error .cannotOpen
  | some text => readLines 0 (getlines text) m

/-- Properties.cpp:35-37 -/
def empty : Store := []

/-- Properties.cpp:39-41 -/
def ofFile (file : Option Str) : Except Error Store := readFile file empty

/-- Properties.cpp:43-49 -/
def ofFiles (buildingFile defaultsFile : Option Str) : Except Error Store := do
  let m ← readFile buildingFile empty
  readFile defaultsFile m

/-- Properties.cpp:150-155 (the `double` overload 157-162 stores `std::to_string(value)` the same way) -/
def putProperty (key value : Str) (m : Store) : Store := insertOver (lower key) value m

/-- Properties.cpp:164-170 -/
def contains (key : Str) (m : Store) : Bool := (find (lower key) m).isSome

/-- Properties.cpp:172-181 -/
def getProperty (key : Str) (m : Store) : Option Str := find (lower key) m

/-- Properties.cpp:134-148 -/
def getPropertyAsBool (key : Str) (m : Store) : Option Bool :=
  match getProperty key m with
  | none => none
  | some v => if v = "true".toList then some true else if v = "false".toList then some false else none

/-- exceptions of `std::stoi` / `std::stod` -/
inductive ConvError where
  | invalidArgument
  | outOfRange
  deriving DecidableEq, Repr

/-- `isspace` in the "C" locale, skipped by `strtol` -/
def isSpace (c : Char) : Bool :=
  c == ' ' || c == '\t' || c == '\n' || c == '\r' || c == Char.ofNat 11 || c == Char.ofNat 12

def isDigit (c : Char) : Bool := '0' ≤ c && c ≤ '9'

def digitVal (c : Char) : Nat := c.toNat - '0'.toNat

/-- value of a digit string -/
def digitsVal (s : Str) : Nat := s.foldl (fun n c => 10 * n + digitVal c) 0

/-- the digits at the front, after an optional sign -/
def signAndDigits (s : Str) : Bool × Str :=
  match s with
  | '-' :: t => (true, t.takeWhile isDigit)
  | '+' :: t => (false, t.takeWhile isDigit)
  | t => (false, t.takeWhile isDigit)

/-- `std::stoi` (library function used at Properties.cpp:123): white space, optional sign, decimal
digits; the rest is ignored; throws `invalid_argument` without digits and `out_of_range` outside the
32-bit range. -/
def stoi (s : Str) : Except ConvError Int :=
  let (negative, digits) := signAndDigits (s.dropWhile isSpace)
  if digits = [] then .error .invalidArgument
  else
    let v : Int := if negative then -(digitsVal digits : Int) else (digitsVal digits : Int)
    if -2147483648 ≤ v ∧ v ≤ 2147483647 then .ok v else .error .outOfRange

/-- Properties.cpp:119-132: `invalid_argument` is caught, `out_of_range` escapes. -/
def getPropertyAsInt (key : Str) (m : Store) : Except ConvError (Option Int) :=
  match getProperty key m with
  | none => .ok none
  | some v =>
    match stoi v with
    | .ok n => .ok (some n)
    | .error .invalidArgument => .ok none
    | .error .outOfRange => .error .outOfRange

/-- Properties.cpp:104-117, for any `std::stod`: `invalid_argument` is caught, `out_of_range` escapes. -/
def getPropertyAsDouble {α : Type} (stod : Str → Except ConvError α) (key : Str) (m : Store) :
    Except ConvError (Option α) :=
  match getProperty key m with
  | none => .ok none
  | some v =>
    match stod v with
    | .ok n => .ok (some n)
    | .error .invalidArgument => .ok none
    | .error .outOfRange => .error .outOfRange

/-- `escaped_list_error`: the text ends with a backslash, or an unknown character follows one -/
inductive EscapeError where
  | badEscape
  deriving DecidableEq

/-- `boost::escaped_list_separator<char>` with its default characters (used at Properties.cpp:55, 77), all tokens one after
the other: `quoted` is `bInQuote`, `tok` the token so far.  At the end of the text a token is complete, also within quotes; a
comma as the last character is followed by one more, empty, token. -/
def scan : Bool → Str → Str → Except EscapeError (List Str)
  | _, tok, [] => .ok [tok]
  | quoted, tok, c :: t =>
    if c = '\\' then
      match t with
      | [] => .error .badEscape
      | d :: t =>
        if d = 'n' then scan quoted (tok ++ ['\n']) t
        else if d = '"' ∨ d = ',' ∨ d = '\\' then scan quoted (tok ++ [d]) t
        else .error .badEscape
    else if c = ',' then
      if quoted then scan quoted (tok ++ [c]) t
      else match scan false [] t with
        | .ok ts => .ok (tok :: ts)
        | .error e => .error e
    else if c = '"' then scan (!quoted) tok t
    else scan quoted (tok ++ [c]) t

/-- The tokens of a stored value (Properties.cpp:55, 77).  Stored values are never empty (Properties.cpp:207) except through
`putProperty`, where the tokenizer yields no token. -/
def tokens (v : Str) : Except EscapeError (List Str) := if v = [] then .ok [] else scan false [] v

/-- `std::stod` on every token, in order; stops at the first failure. -/
def stodAll {α : Type} (stod : Str → Except ConvError α) : List Str → Except ConvError (List α)
  | [] => .ok []
  | t :: ts =>
    match stod t with
    | .error e => .error e
    | .ok x => match stodAll stod ts with
      | .error e => .error e
      | .ok xs => .ok (x :: xs)

/-- the exceptions that leave `getPropertyAsDoubleVector` -/
inductive VectorError where
  | outOfRange
  | badEscape
  deriving DecidableEq

/-- Properties.cpp:73-102, the overload for `Vector`: the tokens are counted first, so a bad escape throws whatever the tokens
before it are.  `none`: the function returned false (missing key or unreadable number). -/
def getPropertyAsDoubleVector {α : Type} (stod : Str → Except ConvError α) (key : Str) (m : Store) :
    Except VectorError (Option (List α)) :=
  match getProperty key m with
  | none => .ok none
  | some v =>
    match tokens v with
    | .error _ => .error .badEscape
    | .ok ts =>
      match stodAll stod ts with
      | .ok xs => .ok (some xs)
      | .error .invalidArgument => .ok none
      | .error .outOfRange => .error .outOfRange

/-- Properties.cpp:57-61: token by token, each converted before the next one is looked for -/
def scanNumbers {α : Type} (stod : Str → Except ConvError α) : Bool → Str → Str → Except (ConvError ⊕ EscapeError) (List α)
  | _, tok, [] =>
    match stod tok with
    | .ok x => .ok [x]
    | .error e => .error (.inl e)
  | quoted, tok, c :: t =>
    if c = '\\' then
      match t with
      | [] => .error (.inr .badEscape)
      | d :: t =>
        if d = 'n' then scanNumbers stod quoted (tok ++ ['\n']) t
        else if d = '"' ∨ d = ',' ∨ d = '\\' then scanNumbers stod quoted (tok ++ [d]) t
        else .error (.inr .badEscape)
    else if c = ',' then
      if quoted then scanNumbers stod quoted (tok ++ [c]) t
      else match stod tok with
        | .error e => .error (.inl e)
        | .ok x => match scanNumbers stod false [] t with
          | .ok xs => .ok (x :: xs)
          | .error e => .error e
    else if c = '"' then scanNumbers stod (!quoted) tok t
    else scanNumbers stod quoted (tok ++ [c]) t

/-- Properties.cpp:51-71, the overload for `std::vector<double>` -/
def getPropertyAsDoubleStdVector {α : Type} (stod : Str → Except ConvError α) (key : Str) (m : Store) :
    Except VectorError (Option (List α)) :=
  match getProperty key m with
  | none => .ok none
  | some v =>
    match (if v = [] then .ok [] else scanNumbers stod false [] v) with
    | .ok xs => .ok (some xs)
    | .error (.inl .invalidArgument) => .ok none
    | .error (.inl .outOfRange) => .error .outOfRange
    | .error (.inr _) => .error .badEscape

/-- Properties.hpp:190-193 -/
def size (m : Store) : Nat := m.length

/-- Properties.hpp:170-183: the keys in iteration order -/
def keys (m : Store) : List Str := m.map Prod.fst

end Properties
end ISO
