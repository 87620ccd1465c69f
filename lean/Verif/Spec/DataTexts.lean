import Verif.Spec.Text
import Verif.Model.DataTexts
/-!
# The tables of the data directory

A table is a text of lines; the fields of a line are separated by tabs.  The first line names the columns, in any order.
-/
namespace Spec
open KT

/-- The lines of a text. -/
def textLines (text : Str) : List Str := dropEmptyLast (split 0x0a text)

/-- The names in the first line. -/
def tableHeader (text : Str) : List Str :=
  match textLines text with
  | [] => []
  | h :: _ => dropEmptyLast (split 0x09 h)

/-- The lines after the first one. -/
def tableLines (text : Str) : List Str := (textLines text).tail

/-- A line with `n` fields, perhaps with another tab at the end. -/
def RowFits (n : Nat) (line : Str) : Prop :=
  (split 0x09 line).length = n ∨ ((split 0x09 line).length = n + 1 ∧ (split 0x09 line).getLast? = some [])

instance (n : Nat) (line : Str) : Decidable (RowFits n line) := inferInstanceAs (Decidable (_ ∨ _))

/-- A text is a table with the given columns: the first line has each name once and nothing else, and the other lines have
a field for each. -/
structure TableText (names : List Str) (text : Str) : Prop where
  header : (tableHeader text).Perm names
  rows : ∀ line ∈ tableLines text, RowFits names.length line

/-- The field of a line below a name of the first line. -/
def cellOf (header : List Str) (line name : Str) : Str := ((split 0x09 line)[header.idxOf name]?).getD []

/-- The rows of a table: their cells by the names of the columns. -/
def tableRows (text : Str) : List (Str → Str) := (tableLines text).map (cellOf (tableHeader text))

/-! ## The tables of this program -/

/-- A row of 'ucd.txt'. -/
def ucdRowOf (cell : Str → Str) : UcdRow where
  code := cell (u8!"Code")
  name := cell (u8!"Name")
  block := cell (u8!"Block")
  version := cell (u8!"Version")
  radical := cell (u8!"Radical")
  strokes := cell (u8!"Strokes")
  vStrokes := cell (u8!"VStrokes")
  pinyin := cell (u8!"Pinyin")
  morohashiId := cell (u8!"MorohashiId")
  nelsonIds := cell (u8!"NelsonIds")
  sources := cell (u8!"Sources")
  jSource := cell (u8!"JSource")
  joyo := cell (u8!"Joyo")
  jinmei := cell (u8!"Jinmei")
  linkCodes := cell (u8!"LinkCodes")
  linkNames := cell (u8!"LinkNames")
  linkType := cell (u8!"LinkType")
  meaning := cell (u8!"Meaning")
  on := cell (u8!"On")
  kun := cell (u8!"Kun")

/-- A row of 'jouyou.txt'. -/
def jouyouRowOf (cell : Str → Str) : CellRow where
  number := cell (u8!"Number")
  name := cell (u8!"Name")
  radical := cell (u8!"Radical")
  oldNames := cell (u8!"OldNames")
  year := cell (u8!"Year")
  strokes := cell (u8!"Strokes")
  grade := cell (u8!"Grade")
  meaning := cell (u8!"Meaning")
  reading := cell (u8!"Reading")

/-- A row of 'jinmei.txt'. -/
def jinmeiRowOf (cell : Str → Str) : CellRow where
  number := cell (u8!"Number")
  name := cell (u8!"Name")
  radical := cell (u8!"Radical")
  oldNames := cell (u8!"OldNames")
  year := cell (u8!"Year")
  reason := cell (u8!"Reason")
  reading := cell (u8!"Reading")

/-- A row of 'extra.txt'. -/
def extraRowOf (cell : Str → Str) : CellRow where
  number := cell (u8!"Number")
  name := cell (u8!"Name")
  radical := cell (u8!"Radical")
  strokes := cell (u8!"Strokes")
  meaning := cell (u8!"Meaning")
  reading := cell (u8!"Reading")

/-- A row of a file with groups. -/
def groupRowOf (cell : Str → Str) : GroupRow := ⟨cell (u8!"Number"), cell (u8!"Name"), cell (u8!"Members")⟩

/-- A row of 'frequency-readings.txt'. -/
def readingRowOf (cell : Str → Str) : Str × Str := (cell (u8!"Name"), cell (u8!"Reading"))

/-- A row of 'radicals.txt': the number, the forms, the long name and the reading. -/
def radicalRowOf (cell : Str → Str) : Str × Str × Str × Str :=
  (cell (u8!"Number"), cell (u8!"Name"), cell (u8!"LongName"), cell (u8!"Reading"))

/-- The names of the columns of each kind of table. -/
def ucdHeader : List Str :=
  [u8!"Code", u8!"Name", u8!"Block", u8!"Version", u8!"Radical", u8!"Strokes", u8!"VStrokes", u8!"Pinyin", u8!"MorohashiId",
   u8!"NelsonIds", u8!"Sources", u8!"JSource", u8!"Joyo", u8!"Jinmei", u8!"LinkCodes", u8!"LinkNames", u8!"LinkType",
   u8!"Meaning", u8!"On", u8!"Kun", u8!"Japanese"]
@[inherit_doc ucdHeader]
def radicalHeader : List Str := [u8!"Number", u8!"Name", u8!"LongName", u8!"Reading"]
@[inherit_doc ucdHeader]
def readingHeader : List Str := [u8!"Name", u8!"Reading"]
@[inherit_doc ucdHeader]
def jouyouHeader : List Str :=
  [u8!"Number", u8!"Name", u8!"Radical", u8!"OldNames", u8!"Year", u8!"Strokes", u8!"Grade", u8!"Meaning", u8!"Reading"]
@[inherit_doc ucdHeader]
def jinmeiHeader : List Str :=
  [u8!"Number", u8!"Name", u8!"Radical", u8!"OldNames", u8!"Year", u8!"Reason", u8!"Reading"]
@[inherit_doc ucdHeader]
def extraHeader : List Str := [u8!"Number", u8!"Name", u8!"Radical", u8!"Strokes", u8!"Meaning", u8!"Reading"]
@[inherit_doc ucdHeader]
def groupTableHeader : List Str := [u8!"Number", u8!"Name", u8!"Members"]

/-! ## The data directory -/

/-- The file of a path without extension: the file itself or the one with '.txt'. -/
def diskPath (x : Disk) (p : Str) : Str := if x.fs p = .regular then p else p ++ u8!".txt"

/-- There is a file for a path. -/
def OnDisk (x : Disk) (p : Str) : Prop := x.fs (diskPath x p) = .regular

/-- The contents of the file of a path. -/
def diskText (x : Disk) (p : Str) : Str := x.content (diskPath x p)

/-- The names of the files of the levels and kyus. -/
def levelFile : JlptLevel → Str
  | .n5 => u8!"n5" | .n4 => u8!"n4" | .n3 => u8!"n3" | .n2 => u8!"n2" | .n1 => u8!"n1"
@[inherit_doc levelFile]
def kyuFile : KenteiKyu → Str
  | .k10 => u8!"k10" | .k9 => u8!"k9" | .k8 => u8!"k8" | .k7 => u8!"k7" | .k6 => u8!"k6" | .k5 => u8!"k5" | .k4 => u8!"k4"
  | .k3 => u8!"k3" | .kj2 => u8!"kJ2" | .k2 => u8!"k2" | .kj1 => u8!"kJ1" | .k1 => u8!"k1"

/-- The files in the directory itself. -/
def dirFiles : List Str :=
  [u8!"frequency", u8!"ucd", u8!"radicals", u8!"frequency-readings", u8!"jouyou", u8!"linked-jinmei", u8!"jinmei",
   u8!"extra", u8!"meaning-groups", u8!"pattern-groups"]

/-- The files in the directory 'jukugo'. -/
def jukugoNames : List Str := [u8!"g1", u8!"g2", u8!"g3", u8!"g4", u8!"g5", u8!"g6", u8!"other"]

/-- A directory with all files. -/
structure CompleteDir (x : Disk) (dir : Str) : Prop where
  isDir : x.fs dir = .directory
  files : ∀ f ∈ dirFiles, OnDisk x (joinPath dir f)
  levels : ∀ l, OnDisk x (joinPath (joinPath dir (u8!"jlpt")) (levelFile l))
  kyus : ∀ k, OnDisk x (joinPath (joinPath dir (u8!"kentei")) (kyuFile k))
  jukugoDir : x.fs (joinPath dir (u8!"jukugo")) = .directory
  jukugo : ∀ f ∈ jukugoNames, OnDisk x (joinPath (joinPath dir (u8!"jukugo")) f)

/-- The contents of a file in the directory. -/
def dirText (x : Disk) (dir file : Str) : Str := diskText x (joinPath dir file)

/-- All tables of a directory are tables with the right columns. -/
structure TablesFit (x : Disk) (dir : Str) : Prop where
  ucd : TableText ucdHeader (dirText x dir (u8!"ucd"))
  radicals : TableText radicalHeader (dirText x dir (u8!"radicals"))
  readings : TableText readingHeader (dirText x dir (u8!"frequency-readings"))
  jouyou : TableText jouyouHeader (dirText x dir (u8!"jouyou"))
  jinmei : TableText jinmeiHeader (dirText x dir (u8!"jinmei"))
  extra : TableText extraHeader (dirText x dir (u8!"extra"))
  meanings : TableText groupTableHeader (dirText x dir (u8!"meaning-groups"))
  patterns : TableText groupTableHeader (dirText x dir (u8!"pattern-groups"))

/-- The radicals as columns and an open file (`Model/Radical.lean`), for the text of 'radicals.txt'. -/
def radicalTable (text : Str) : RadicalCols × ColumnFile :=
  match openTable [] radicalHeader text with
  | .ok t => (radicalCols t.1, t.2)
  | _ => (radicalCols [], ⟨0x09, 0, [], [], []⟩)

/-- The texts, rows and lines of the files of a directory. -/
def dirData (x : Disk) (dir : Str) : DataFiles where
  levels := fun l => dirText x (joinPath dir (u8!"jlpt")) (levelFile l)
  kyus := fun k => dirText x (joinPath dir (u8!"kentei")) (kyuFile k)
  frequency := dirText x dir (u8!"frequency")
  ucd := (tableRows (dirText x dir (u8!"ucd"))).map ucdRowOf
  radicalCols := (radicalTable (dirText x dir (u8!"radicals"))).1
  radicals := (radicalTable (dirText x dir (u8!"radicals"))).2
  kanji := {
    frequencyReadings := (tableRows (dirText x dir (u8!"frequency-readings"))).map readingRowOf
    jouyou := (tableRows (dirText x dir (u8!"jouyou"))).map jouyouRowOf
    linkedJinmei := textLines (dirText x dir (u8!"linked-jinmei"))
    jinmei := (tableRows (dirText x dir (u8!"jinmei"))).map jinmeiRowOf
    extra := (tableRows (dirText x dir (u8!"extra"))).map extraRowOf }
  meanings := (tableRows (dirText x dir (u8!"meaning-groups"))).map groupRowOf
  patterns := (tableRows (dirText x dir (u8!"pattern-groups"))).map groupRowOf
  jukugo := jukugoNames.map (dirText x (joinPath dir (u8!"jukugo")))

end Spec
