import Verif.Model.UnicodeBlock
import Verif.Model.Utf8Char
import Verif.Model.ColumnFile
import Verif.Model.KanjiData
import Verif.Model.Stats
/-!
# Model of libs/quiz/src/Jukugo.cpp and JukugoData.cpp
-/
namespace KT

/-- `Jukugo` (Jukugo.h).  A `JukugoPtr` is modelled by the object: two pointers of a `JukugoData` are
the same exactly when name and reading are, since `_uniqueJukugo` has one entry for both. -/
structure Jukugo where
  name : Str
  reading : Str
  grade : KanjiGrade
  deriving DecidableEq, Repr

/-- `Kana::ProlongMark` (libs/kana/include/kt_kana/Kana.h). -/
def jukugoProlong : Str := u8!"ー"

/-- The kanji of a name in order: the loops over `nameChars` (Jukugo.cpp:12-13 and
JukugoData.cpp:116-117). -/
def kanjiOf (name : Str) : Option (List Str) := (utf8Chars name).map fun r => r.1.filter isKanji

/-- The constructor of `Jukugo` (Jukugo.cpp:8-20). -/
def createJukugo (name reading : Str) (grade : KanjiGrade) : Res Jukugo :=
  match kanjiOf name with
  | none => .ub
  | some ks =>
    if ks.length = 0 then .throw .domain
    else if ks.length < 2 then .throw .domain
    else match utf8Chars reading with
      | none => .ub
      | some (cs, _) =>
        if cs.any fun c => !isHiragana c && c != jukugoProlong then .throw .domain
        else .ok ⟨name, reading, grade⟩

/-- The maps of `JukugoData` (JukugoData.h:50-51), in order of insertion. -/
structure JukugoStore where
  unique : List ((Str × Str) × Jukugo) := []
  kanjiTo : List (Str × List Jukugo) := []
  deriving DecidableEq, Repr

/-- `find` (JukugoData.cpp:49-52). -/
def JukugoStore.find (st : JukugoStore) (kanji : Str) : List Jukugo := (st.kanjiTo.lookup kanji).getD []

/-- `findOpenBracket` (JukugoData.cpp:82-88). -/
def findOpenBracket (line : Str) (onePerLine : Bool) : Res Nat :=
  match strFind (u8!"(") line with
  | none => .throw .domain
  | some i =>
    if onePerLine ∧ (i < 2 ∨ line[i - 1]? ≠ some 0x20) then .throw .domain else .ok i

/-- `findCloseBracket` (JukugoData.cpp:90-96). -/
def findCloseBracket (line : Str) (onePerLine : Bool) : Res Nat :=
  match strFind (u8!")") line with
  | none => .throw .domain
  | some i => if onePerLine ∧ i ≠ line.length - 1 then .throw .domain else .ok i

/-- Lines 102-105 of `createJukugo`: name and reading.  The length `close - open - 1` is of type
`size_t`, so it is huge if the close bracket comes first and `substr` then goes to the end; the
positions are in the line, so that `substr` doesn't throw. -/
def splitEntry (line : Str) (onePerLine : Bool) : Res (Str × Str) :=
  (findOpenBracket line onePerLine).bind fun opn =>
  (findCloseBracket line onePerLine).bind fun close =>
  .ok (line.take (if onePerLine then opn - 1 else opn),
    if close < opn then line.drop (opn + 1) else (line.drop (opn + 1)).take (close - opn - 1))

/-- `createJukugo` (JukugoData.cpp:100-122). -/
def JukugoStore.create (st : JukugoStore) (line : Str) (grade : KanjiGrade) (onePerLine : Bool) :
    Res JukugoStore :=
  (splitEntry line onePerLine).bind fun key =>
  match st.unique.lookup key with
  | none =>
    (createJukugo key.1 key.2 grade).bind fun jukugo =>
    match kanjiOf key.1 with
    | none => .ub
    | some ks => .ok ⟨st.unique ++ [(key, jukugo)], ks.foldl (fun m c => mapPush m c jukugo) st.kanjiTo⟩
  | some j => if j.grade ≠ grade then .throw .domain else .ok st

/-- Calls of `createJukugo` for several entries. -/
def JukugoStore.createAll (grade : KanjiGrade) (onePerLine : Bool) : List Str → JukugoStore → Res JukugoStore
  | [], st => .ok st
  | e :: es, st => (st.create e grade onePerLine).bind (JukugoStore.createAll grade onePerLine es)

/-- The entries of a line of other.txt (JukugoData.cpp:68-72). -/
def otherEntries (line : Str) : Res (List Str) :=
  match strFind (u8!"...") line with
  | none => .throw .domain
  | some i => (substrFrom line (i + 3 + 1)).bind fun rest => .ok (fields 0x20 rest)

/-- The loop over the lines of other.txt (JukugoData.cpp:66-74). -/
def JukugoStore.loadOther : List Str → JukugoStore → Res JukugoStore
  | [], st => .ok st
  | l :: ls, st =>
    (otherEntries l).bind fun es =>
    (JukugoStore.createAll .s false es st).bind (JukugoStore.loadOther ls)

/-- `catch (const std::exception& e) { error(...); }` (JukugoData.cpp:75-78). -/
def asDomain {α : Type} : Res α → Res α
  | .throw _ => .throw .domain
  | r => r

/-- `loadFile` (JukugoData.cpp:54-80) for the contents of a file: the maps afterwards (the number of
loaded jukugo is the difference of the sizes).  An exception leaves the constructor, so there is no
object with a partly loaded file. -/
def JukugoStore.loadFile (st : JukugoStore) (text : Str) (grade : KanjiGrade) : Res JukugoStore :=
  asDomain (if grade ≠ .s then JukugoStore.createAll grade true (fields 0x0a text) st
    else JukugoStore.loadOther (fields 0x0a text) st)

/-- The files of the constructor (JukugoData.cpp:25-31). -/
def jukugoGrades : List KanjiGrade := [.g1, .g2, .g3, .g4, .g5, .g6, .s]

def JukugoStore.loadFiles : List (Str × KanjiGrade) → JukugoStore → Res JukugoStore
  | [], st => .ok st
  | (t, g) :: fs, st => (st.loadFile t g).bind (JukugoStore.loadFiles fs)

/-- The constructor (JukugoData.cpp:17-47) for the contents of the seven files. -/
def loadJukugo (texts : List Str) : Res JukugoStore := JukugoStore.loadFiles (texts.zip jukugoGrades) {}

end KT
