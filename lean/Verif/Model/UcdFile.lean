import Verif.Model.UcdScript
/-!
# The file written by scripts/parseUcdAllFlat.sh

`echo -e` replaces sequences that start with a backslash; the model is for texts without backslashes.
-/
namespace KT

/-- The first line (lines 566-568). -/
def ucdFileHeader : Str :=
  u8!"Code\tName\tBlock\tVersion\tRadical\tStrokes\tVStrokes\tPinyin\tMorohashiId\tNelsonIds\tSources\tJSource\tJoyo\tJinmei\tLinkCodes\tLinkNames\tLinkType\tMeaning\tOn\tKun\tJapanese"

/-- The `echo` of `processRecord` (lines 558-561) without the newline. -/
def ScriptRow.line (r : ScriptRow) : Str :=
  r.row.code ++ u8!"\t" ++ r.row.name ++ u8!"\t" ++ r.row.block ++ u8!"\t" ++ r.row.version ++ u8!"\t" ++ r.row.radical ++
  u8!"\t" ++ r.row.strokes ++ u8!"\t" ++ r.row.vStrokes ++ u8!"\t" ++ r.row.pinyin ++ u8!"\t" ++ r.row.morohashiId ++
  u8!"\t" ++ r.row.nelsonIds ++ u8!"\t" ++ r.row.sources ++ u8!"\t" ++ r.row.jSource ++ u8!"\t" ++ r.row.joyo ++ u8!"\t" ++
  r.row.jinmei ++ u8!"\t" ++ r.row.linkCodes ++ u8!"\t" ++ r.row.linkNames ++ u8!"\t" ++ r.row.linkType ++ u8!"\t" ++
  r.row.meaning ++ u8!"\t" ++ r.row.on ++ u8!"\t" ++ r.row.kun ++ u8!"\t" ++ r.japanese

/-- The output file: `>$outFile` for the first line and `>>$outFile` for the others. -/
def ucdFile (rows : List ScriptRow) : Str :=
  ucdFileHeader ++ u8!"\n" ++ rows.flatMap fun r => r.line ++ u8!"\n"

end KT
