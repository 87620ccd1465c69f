import Verif.Props.DataDirectory
/-!
# C180: an example

A small data directory, evaluated.  Some files have the extension '.txt', some not; the columns of 'jouyou' are in another
order than those of the program; some lines end with a tab.
-/
namespace KT
open Spec

/-- The files of the directory 'd'. -/
def sampleDisk : List (Str × Str) :=
  [(u8!"d/jlpt/n5.txt", u8!"一\n"), (u8!"d/jlpt/n4.txt", []), (u8!"d/jlpt/n3.txt", []), (u8!"d/jlpt/n2.txt", []),
   (u8!"d/jlpt/n1.txt", []), (u8!"d/kentei/k10.txt", u8!"一\n"), (u8!"d/kentei/k9.txt", []), (u8!"d/kentei/k8.txt", []),
   (u8!"d/kentei/k7.txt", []), (u8!"d/kentei/k6.txt", []), (u8!"d/kentei/k5.txt", []), (u8!"d/kentei/k4.txt", []),
   (u8!"d/kentei/k3.txt", []), (u8!"d/kentei/kJ2.txt", []), (u8!"d/kentei/k2.txt", []), (u8!"d/kentei/kJ1.txt", []),
   (u8!"d/kentei/k1.txt", u8!"七\n"), (u8!"d/frequency.txt", u8!"一\n三\n"),
   (u8!"d/ucd.txt",
    u8!"Code	Name	Block	Version	Radical	Strokes	VStrokes	Pinyin	MorohashiId	NelsonIds	Sources	JSource	Joyo	Jinmei	LinkCodes	LinkNames	LinkType	Meaning	On	Kun	Japanese\n" ++
    u8!"4E00	一			1	1		yī										number	ICHI		\n" ++
    u8!"58F1	壱			2	7		yī										number	ITSU		\n" ++
    u8!"4E09	三			1	3		yī										number	SAN		\n" ++
    u8!"4E03	七			1	2		yī										number	SHICHI		\n"),
   (u8!"d/radicals", u8!"Number	Name	LongName	Reading\n1	一	L1	いち\n2	丨 亅	L2	ぼう\n"),
   (u8!"d/frequency-readings.txt", u8!"Reading	Name\nサン、み	三	\n"),
   (u8!"d/jouyou", u8!"Name	Number	OldNames	Radical	Grade	Strokes	Year	Reading	Meaning\n一	1	壱	一	1	1		イチ、ひと	one\n"),
   (u8!"d/linked-jinmei.txt", []),
   (u8!"d/jinmei.txt", u8!"Number	Name	Radical	OldNames	Year	Reason	Reading\n"),
   (u8!"d/extra.txt", u8!"Number	Name	Radical	Strokes	Meaning	Reading"),
   (u8!"d/meaning-groups.txt", u8!"Number	Name	Members\n1	数	一,三,七\n"),
   (u8!"d/pattern-groups.txt", u8!"Members	Number	Name\n"),
   (u8!"d/jukugo/g1.txt", u8!"一三 (いちさん)\n"), (u8!"d/jukugo/g2.txt", []), (u8!"d/jukugo/g3.txt", []), (u8!"d/jukugo/g4.txt", []),
   (u8!"d/jukugo/g5.txt", []), (u8!"d/jukugo/g6.txt", []), (u8!"d/jukugo/other.txt", [])]

/-- The disk with the given files. -/
def diskOf (files : List (Str × Str)) : Disk where
  fs := fun p => if (files.lookup p).isSome then .regular
    else if p = u8!"d" ∨ p = u8!"d/jlpt" ∨ p = u8!"d/kentei" ∨ p = u8!"d/jukugo" then .directory else .missing
  content := fun p => (files.lookup p).getD []

/-- The kanji that are loaded. -/
def loadedTexts (r : Res DetailStore) : Res (List (Str × KanjiType × Str × Str)) :=
  r.bind fun d => .ok (d.store.all.map fun k => (k.kanji.name, k.kanji.type, k.kanji.reading, k.kanji.meaning))

/-- The groups and the jukugo that are loaded. -/
def loadedGroups (r : Res DetailStore) : Res (List (List Str) × List Str) :=
  r.bind fun d => .ok (d.detail.meanings.groups.map fun g => g.name :: g.members.map (·.kanji.name),
    d.detail.jukugo.unique.map (·.2.name))

example : loadedTexts (loadDataFrom [] true (diskOf sampleDisk) (u8!"d")) = .ok
    [(u8!"一", .jouyou, u8!"イチ、ひと", u8!"one"), (u8!"壱", .linkedOld, u8!"イチ、ひと", u8!"one"),
     (u8!"三", .frequency, u8!"サン、み", u8!"number"), (u8!"七", .kentei, u8!"シチ", u8!"number")] := by decide +kernel

example : loadedGroups (loadDataFrom [] true (diskOf sampleDisk) (u8!"d")) = .ok
    ([[u8!"数", u8!"一", u8!"三", u8!"七"]], [u8!"一三"]) := by decide +kernel

/-- Columns made before. -/
example : loadedTexts (loadDataFrom [u8!"Reading", u8!"x", u8!"Kun"] true (diskOf sampleDisk) (u8!"d")) =
    loadedTexts (loadDataFrom [] true (diskOf sampleDisk) (u8!"d")) := by decide +kernel

/-- A missing file, and a table with a missing column. -/
example : loadedTexts (loadDataFrom [] true (diskOf (sampleDisk.filter fun p => p.1 ≠ u8!"d/jukugo/g3.txt")) (u8!"d")) =
    .throw .domain := by decide +kernel
example : loadedTexts (loadDataFrom [] true (diskOf (sampleDisk.map fun p =>
    if p.1 = u8!"d/pattern-groups.txt" then (p.1, u8!"Members	Number\n") else p)) (u8!"d")) = .throw .domain := by
  decide +kernel

end KT
