import Verif.Model.Inputs

/-!
# CSV files

`src/disc_solver/solve/utils.py:180-318`, and the reader and writer of Python's `csv`
module for the dialect `unix` (every field quoted, quotes doubled, lines ended by
`\n`).  A file is the list of lines iterating over it gives, with their ends.
-/

namespace DiscSolver

namespace Csv

/-! ## The library's writer and reader -/

/-- `list(file)`: the lines of a text with their ends. -/
def rawLines : Text → List Text
  | [] => []
  | c :: t =>
    if c = '\n' then ['\n'] :: rawLines t
    else
      match rawLines t with
      | [] => [[c]]
      | l :: ls => (c :: l) :: ls

/-- A field as `csv.writer` writes it. -/
def writeField (t : Text) : Text :=
  '"' :: (t.flatMap fun c => if c = '"' then ['"', '"'] else [c]) ++ ['"']

/-- A row as `csv.writer` writes it. -/
def writeRow (r : List Text) : Text := Text.joinComma (r.map writeField) ++ ['\n']

/-- The states of `csv.reader`. -/
inductive RState where
  | startRecord | startField | inField | inQuoted | quoteInQuoted | eatCrnl
deriving DecidableEq

/-- `csv.reader` within a record. -/
structure Reader where
  state : RState := .startRecord
  field : Text := []
  fields : List Text := []

/-- `parse_save_field`. -/
def Reader.save (r : Reader) (s : RState) : Reader :=
  { state := s, field := [], fields := r.fields ++ [r.field] }

/-- `parse_add_char`. -/
def Reader.add (r : Reader) (c : Char) (s : RState) : Reader :=
  { r with state := s, field := r.field ++ [c] }

/-- `c` ends a line. -/
def isNl (c : Char) : Bool := c = '\n' || c = '\r'

/-- A character at the start of a field. -/
def Reader.startField (r : Reader) (c : Char) : Reader :=
  if isNl c then r.save .eatCrnl
  else if c = '"' then { r with state := .inQuoted }
  else if c = ',' then r.save .startField
  else r.add c .inField

/-- `parse_process_char`. -/
def Reader.char (r : Reader) (c : Char) : Except PyErr Reader :=
  match r.state with
  | .startRecord =>
    if isNl c then .ok { r with state := .eatCrnl } else .ok (r.startField c)
  | .startField => .ok (r.startField c)
  | .inField =>
    if isNl c then .ok (r.save .eatCrnl)
    else if c = ',' then .ok (r.save .startField)
    else .ok (r.add c .inField)
  | .inQuoted =>
    if c = '"' then .ok { r with state := .quoteInQuoted } else .ok (r.add c .inQuoted)
  | .quoteInQuoted =>
    if c = '"' then .ok (r.add c .inQuoted)
    else if c = ',' then .ok (r.save .startField)
    else if isNl c then .ok (r.save .eatCrnl)
    else .ok (r.add c .inField)
  | .eatCrnl => if isNl c then .ok r else .error .CsvError

/-- `parse_process_char` at the end of a line. -/
def Reader.endLine (r : Reader) : Reader :=
  match r.state with
  | .startRecord => r
  | .startField => r.save .startRecord
  | .inField => r.save .startRecord
  | .inQuoted => r
  | .quoteInQuoted => r.save .startRecord
  | .eatCrnl => { r with state := .startRecord }

/-- The characters of a line. -/
def Reader.chars (r : Reader) : Text → Except PyErr Reader
  | [] => .ok r
  | c :: l =>
    match r.char c with
    | .error e => .error e
    | .ok r => r.chars l

/-- One line. -/
def Reader.line (r : Reader) (l : Text) : Except PyErr Reader :=
  match r.chars l with
  | .error e => .error e
  | .ok r => .ok r.endLine

/-- `list(csv.reader(lines))` from the middle of a record: a record goes on while its
last field is open. -/
def readRows (r : Reader) : List Text → Except PyErr (List (List Text))
  | [] => if r.state = .inQuoted then .ok [r.fields ++ [r.field]] else .ok []
  | l :: ls =>
    match r.line l with
    | .error e => .error e
    | .ok r' =>
      if r'.state = .startRecord then
        match readRows {} ls with
        | .error e => .error e
        | .ok rows => .ok (r'.fields :: rows)
      else readRows r' ls

/-- A row of a `csv.DictReader`; extra fields, kept by Python under the key `None`,
are left out, since `filter_csv_columns` drops that key. -/
def dictRow (fieldnames row : List Text) : Dict Text (Option Text) :=
  let d := (fieldnames.zip row).foldl (fun d p => Dict.set d p.1 (some p.2)) []
  (fieldnames.drop row.length).foldl (fun d k => Dict.set d k none) d

/-- `list(csv.DictReader(lines))`: the first row gives the names, empty rows are
skipped. -/
def dictReader (lines : List Text) : Except PyErr (List (Dict Text (Option Text))) :=
  match readRows {} lines with
  | .error e => .error e
  | .ok [] => .ok []
  | .ok (fieldnames :: rows) => .ok ((rows.filter (· ≠ [])).map (dictRow fieldnames))

/-! ## The code -/

/-- `line.strip().startswith('#')` (`utils.py:229`). -/
def isComment (line : Text) : Bool := (Text.strip line).head? = some '#'

/-- The lines `CSVReaderHelper.__iter__` (`utils.py:210-215`) passes on. -/
def dataLines (lines : List Text) : List Text := lines.filter fun l => !isComment l

/-- `CSVReaderHelper.comments` (`utils.py:234-238, 262-267`) after reading the file. -/
def comments (lines : List Text) : List Text :=
  (lines.filter isComment).map fun l => (Text.strip l).drop 1

/-- `CSVReaderHelper.has_csv_header` (`utils.py:232-239`).  Only the first line is
given to `Sniffer.has_header`.  That reads it as the header, finds no rows to compare it
with, so that the type of each column stays `None`, and counts a column as evidence for
a header when calling its type fails, which calling `None` does.  `sniff` is the
library's guess of the dialect, and gives the fields of the line. -/
def has_csv_header (sniff : Text → Except PyErr (List Text)) (lines : List Text) :
    Except PyErr Bool :=
  match dataLines lines with
  | [] => .error .StopIteration
  | l :: _ =>
    match sniff l with
    | .error e => .error e
    | .ok header => .ok (decide (0 < header.length))

/-- `add_labels` (`utils.py:180-188`). -/
def add_labels (seq : List (Dict Text (Option Text))) (label : Text) :
    List (Dict Text (Option Text)) :=
  seq.map fun d => Dict.set d "label".toList (some label)

/-- `filter_csv_columns` (`utils.py:191-198`). -/
def filter_csv_columns (seq : List (Dict Text (Option Text))) (columns : List Text) :
    List (Dict Text (Option Text)) :=
  seq.map fun d => d.filter fun p => decide (p.1 ∈ columns)

/-- `CONFIG_FIELDS + SOLUTION_IDENTIFICATION_FIELDS` (`utils.py:25`). -/
def columns : List Text :=
  CField.all.map (fun f => f.name.toList) ++ ["filename".toList, "solution_name".toList]

/-- `list(csv.DictReader(lines, fieldnames))`. -/
def dictReaderNamed (fieldnames : List Text) (lines : List Text) :
    Except PyErr (List (Dict Text (Option Text))) :=
  match readRows {} lines with
  | .error e => .error e
  | .ok rows => .ok ((rows.filter (· ≠ [])).map (dictRow fieldnames))

/-- `get_csv_inputs` (`utils.py:301-318`). -/
def get_csv_inputs (sniff : Text → Except PyErr (List Text)) (lines : List Text)
    (label : Text) : Except PyErr (List (Dict Text (Option Text))) :=
  match has_csv_header sniff lines with
  | .error e => .error e
  | .ok has_header =>
    let read := if has_header then dictReader (dataLines lines)
      else dictReaderNamed (SField.all.map fun f => f.name.toList) (dataLines lines)
    match read with
    | .error e => .error e
    | .ok rows => .ok (filter_csv_columns (add_labels rows label) columns)

/-- `CSVWriterHelper.add_metadata` (`utils.py:293-298`). -/
def metadataLines (m : List (Text × Text)) : List Text :=
  m.map fun p => '#' :: p.1 ++ ['='] ++ p.2 ++ ['\n']

end Csv

end DiscSolver
