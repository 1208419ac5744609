import Verif.Model.RFront
import Verif.Spec.PyFront

/-!
# What an R program should see
-/

namespace Sas.Spec

/-- The names an argument `include` or `exclude` stands for: none for `NULL`, the elements of a character vector. -/
def RArgNames : RArg → List (List Byte) → Prop
  | .null, names => names = []
  | .chr items, names => names = items
  | .other, _ => False

/-- `YYYY-MM-DD HH:MM:SS[.ffffff]` for an instant. -/
def IsoInstant (us : Int) (t : List Byte) : Prop :=
  ∃ y, IsDay (us / 86400000000) y ∧ t = isoDate y ++ [32] ++ isoTime (us % 86400000000).toNat

/-- A time stamp in the years 1400 to 9999 and its text. -/
def IsoStamp (x : DateTime) (t : List Byte) : Prop :=
  ∃ us, x = at1960 us ∧ CalendarDay (us / 86400000000) ∧ IsoInstant us t

/-- A time stamp in the years 1400 to 9999. -/
def InYears (x : DateTime) : Prop := ∃ us, x = at1960 us ∧ CalendarDay (us / 86400000000)

/-- The list of properties of a file, with its texts as R strings. -/
def PropertiesList (p : Properties) (l : RList) : Prop :=
  ∃ created modified, IsoStamp p.header.dateCreated created ∧ IsoStamp p.header.dateModified modified ∧
    l = [ (ascii "endianness", .text (endianName p.header.endian)),
          (ascii "platform", .text (platformName p.header.platform)),
          (ascii "date_created", .text created),
          (ascii "date_modified", .text modified),
          (ascii "dataset_name", .text (upToZero p.header.datasetName)),
          (ascii "encoding", .text (ascii p.header.encoding)),
          (ascii "file_type", .text (upToZero p.header.fileType)),
          (ascii "sas_release", .text (upToZero p.header.sasRelease)),
          (ascii "sas_server_type", .text (upToZero p.header.serverType)),
          (ascii "os_type", .text (upToZero p.header.osType)),
          (ascii "os_name", .text (upToZero p.header.osName)),
          (ascii "header_length", .num p.header.headerLength),
          (ascii "page_length", .num p.header.pageLength),
          (ascii "page_count", .num p.header.pageCount),
          (ascii "compression", .text (compressionName p.md.compression)),
          (ascii "creator", .text (upToZero p.md.creator)),
          (ascii "creator_proc", .text (upToZero p.md.creatorProc)),
          (ascii "row_length", .num p.md.rowLength),
          (ascii "row_count", .num p.md.rowCount),
          (ascii "column_count", .num p.md.columnCount),
          (ascii "col_count_p1", .num p.md.p1),
          (ascii "col_count_p2", .num p.md.p2),
          (ascii "mix_page_row_count", .num p.md.mixCount),
          (ascii "lcs", .num p.md.lcs),
          (ascii "lcp", .num p.md.lcp),
          (ascii "columns", .columns (p.columns.map fun c => (upToZero c.name,
            [(ascii "name", upToZero c.name), (ascii "label", upToZero c.label), (ascii "format", upToZero c.format),
             (ascii "type", typeName c.type)]))) ]

/-- The element of an R vector for a value of a data set. -/
def RMeans : Value → RVal → Prop
  | .text t, x => x = .str t
  | .integer i, x => x = .int i
  | .number b, x => x = .num (.bits b)
  | .datetime us, x => ∃ t, IsoInstant us t ∧ x = .str t
  | .date n, x => ∃ y, IsDay n y ∧ x = .str (isoDate y)
  | .time us, x => x = .str (isoTime us.toNat)
  | .missing, x => x = .na

/-- A table holds exactly the typed columns, sorted by type, under these names, and in each exactly these rows. -/
def TableHolds (names : List (List Byte)) (cols : List Column) (rows : List (Nat × Row)) (t : RTable) : Prop :=
  t.map Prod.fst = names ∧
  List.Forall₂ (fun c l => List.Forall₂ (fun r x => ∃ v, c.value r.2.mem = .ok (some v) ∧ RShows v x) rows l)
    (byType cols) (t.map Prod.snd)

/-- The place of a kind of value among the columns of a table. A missing value may be of any kind of date or time. -/
def Value.rank : Value → Option Nat
  | .number _ => some 0
  | .integer _ => some 1
  | .datetime _ => some 2
  | .date _ => some 3
  | .time _ => some 4
  | .text _ => some 5
  | .missing => none

/-- The table of a data set: each of the wanted columns once, under its name, with the value of every row. `values`
are the rows. Numbers come first, then integers, time stamps, dates, times of day and texts; columns of one kind are in the
order of the data set. -/
def TableOf (columns : List ColumnDesc) (wanted : List Byte → Prop) (values : List (List Value)) (t : RTable) : Prop :=
  ∃ js : List Nat, js.Nodup ∧ (∀ j, j ∈ js ↔ ∃ c, columns[j]? = some c ∧ wanted c.name) ∧
    js.Pairwise (fun a b => ∀ row ∈ values, ∀ row' ∈ values, ∀ v v' n n', row[a]? = some v → row'[b]? = some v' →
      v.rank = some n → v'.rank = some n' → n < n' ∨ n = n' ∧ a < b) ∧
    List.Forall₂ (fun j e => (∃ c, columns[j]? = some c ∧ e.1 = c.name) ∧
      List.Forall₂ (fun row x => ∃ v, row[j]? = some v ∧ RMeans v x) values e.2) js t

/-- The words that are no names in R. -/
def reservedWords : List (List Byte) :=
  [ascii "NULL", ascii "NA", ascii "TRUE", ascii "FALSE", ascii "Inf", ascii "NaN", ascii "NA_integer_",
   ascii "NA_real_", ascii "NA_character_", ascii "NA_complex_", ascii "function", ascii "while", ascii "repeat",
   ascii "for", ascii "if", ascii "in", ascii "else", ascii "next", ascii "break", ascii "..."]

/-- A letter of ASCII. -/
def Letter (b : Byte) : Prop := (65 ≤ b.toNat ∧ b.toNat ≤ 90) ∨ (97 ≤ b.toNat ∧ b.toNat ≤ 122)

/-- A name of a variable in R: letters, digits, dots and underscores; it starts with a letter, or with a dot that is
not followed by a digit; it is not a reserved word. -/
structure SyntacticName (n : List Byte) : Prop where
  chars : ∀ b ∈ n, Letter b ∨ (48 ≤ b.toNat ∧ b.toNat ≤ 57) ∨ b = 46 ∨ b = 95
  start : (∃ b, n.head? = some b ∧ Letter b) ∨
    (n.head? = some 46 ∧ ∀ b, n[1]? = some b → ¬ (48 ≤ b.toNat ∧ b.toNat ≤ 57))
  free : n ∉ reservedWords

end Sas.Spec
