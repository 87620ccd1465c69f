import Verif.Props.ProgramOutputEnds
import Verif.Props.StatsOutput
import Verif.Props.QuizFilesExample
/-!
# C188: the fill character of the report changes the list of Jukugo

Files with a radical without kanji, without meaning groups, and with five Jukugo for one kanji.
-/
namespace KT
open Spec

def zeroTree : FsNode := .dir ((filesBelow (u8!"d")).map (fun p =>
      if p.1 = u8!"radicals.txt" then (p.1, .file (u8!"Number	Name	LongName	Reading\n1	一	L1	いち\n2	丨 亅	L2	ぼう\n3	丶	L3	てん\n"))
      else if p.1 = u8!"meaning-groups.txt" then (p.1, .file (u8!"Number	Name	Members\n"))
      else p) ++
  [(u8!"jlpt", .dir (filesBelow (u8!"d/jlpt"))), (u8!"kentei", .dir (filesBelow (u8!"d/kentei"))),
   (u8!"jukugo", .dir ((filesBelow (u8!"d/jukugo")).map fun p =>
      if p.1 = u8!"g1.txt" then
        (p.1, .file (u8!"一三 (いちさん)\n一七 (いちしち)\n三一 (さんいち)\n七一三 (しちいちさん)\n一三七 (いちさんしち)\n"))
      else p))])

def zeroWorld : World where
  root := .dir [(u8!"d", zeroTree)]
  cwd := u8!"/"

/-- What the program writes. -/
def zeroRun (argv : List Str) : Option ProgramOutput :=
  match kanjiQuizOutput zeroWorld [] true id ⟨u8!"stoul", u8!"stoul"⟩ argv 9 { answers := [] } { rest := [] } with
  | some (.ok o) => some o
  | _ => none

def zeroArgs : List Str := [u8!"kanjiQuiz", u8!"-debug", u8!"-data", u8!"/d", u8!"一"]

/-- What is written after the report. -/
def zeroTail (fill : Str) : Str := u8!">>> Legend:
Fields: N[1-5]=JLPT Level, K[1-10]=Kentei Kyu, G[1-6]=Grade (S=Secondary School)
Suffix: .=常用 '=JLPT \"=Freq ^=人名用 ~=LinkJ %=LinkO +=Extra @=検定 #=1級 *=Ucd
Sources: G=China / Singapore, H=Hong Kong, J=Japan, K=Korea, T=Taiwan, V=Vietnam

一 [4E00], Blk , Ver , Jouyou (#1)
Rad 一(1), Strokes 1, yī, G1, N5, Frq 1, Old 壱, K10
    Meaning: one
    Reading: イチ、ひと
     Jukugo: 5
一三（いちさん）" ++ fill ++ fill ++ fill ++ fill ++ u8!"一七（いちしち）" ++ fill ++ fill ++ fill ++ fill ++ u8!"三一（さんいち）" ++ fill ++ u8!"
七一三（しちいちさん）" ++ fill ++ u8!"一三七（いちさんしち）" ++ fill ++ u8!"

"

/-- The program writes the list with zeros after the report, and with blanks without it. -/
theorem zero_tail : (zeroRun zeroArgs).map (fun o => (zeroTail (u8!"00")).isSuffixOf o.out) = some true ∧
    (zeroRun (zeroArgs.eraseIdx 1)).map (·.out) = some (zeroTail (u8!"  ")) := by decide +kernel

theorem zero_dir : getDataDir zeroWorld.dirs zeroWorld.cwd zeroArgs = .ok ⟨true, [u8!"d"]⟩ := by rfl

theorem zero_loads : ∃ v, loadDataFrom [] true zeroWorld.disk (u8!"/d") = .ok v := by
  have h : (match loadDataFrom [] true zeroWorld.disk (u8!"/d") with
      | .ok _ => true
      | _ => false) = true := by decide +kernel
  cases hx : loadDataFrom [] true zeroWorld.disk (u8!"/d") with
  | ok v => exact ⟨v, rfl⟩
  | throw x => rw [hx] at h; cases h
  | ub => rw [hx] at h; cases h

theorem zero_variants : ∀ t, loadTextData true (dirData zeroWorld.disk (u8!"/d")) = .ok t → ∀ p ∈ t.1.nameMap, p.2.kanji.variant = false := by
  have h : (match loadTextData true (dirData zeroWorld.disk (u8!"/d")) with
      | .ok t => t.1.nameMap.all fun p => !p.2.kanji.variant
      | _ => true) = true := by decide +kernel
  intro t ht k hk
  rw [ht] at h
  have := List.all_eq_true.mp h k hk
  simpa using this

theorem zero_blank : ∃ err code, kanjiQuiz zeroWorld [] true id ⟨u8!"stoul", u8!"stoul"⟩ zeroArgs 9 { answers := [] } { rest := [] } =
    some (.ok (.ran (zeroTail (u8!"  ")) (some (err, code)))) := by
  have h : (match kanjiQuiz zeroWorld [] true id ⟨u8!"stoul", u8!"stoul"⟩ zeroArgs 9 { answers := [] } { rest := [] } with
    | some (.ok (.ran o (some _))) => some o
    | _ => none) = some (zeroTail (u8!"  ")) := by decide +kernel
  generalize kanjiQuiz zeroWorld [] true id ⟨u8!"stoul", u8!"stoul"⟩ zeroArgs 9 { answers := [] } { rest := [] } = q at h
  match q, h with
  | some (.ok (.ran o (some (a, b)))), h =>
    cases h
    exact ⟨a, b, rfl⟩

/-- **C188** does not hold: with a radical without kanji and no meaning groups the columns of the list of Jukugo are filled with
zeros when full debug is on. -/
theorem C188_violated : ¬ C188_statement := by
  intro h
  obtain ⟨v, hv⟩ := zero_loads
  have ht : FsPath.text ⟨true, [u8!"d"]⟩ = u8!"/d" := by decide
  have key := h zeroWorld [] true id ⟨u8!"stoul", u8!"stoul"⟩ zeroArgs 9 { answers := [] } { rest := [] } _ .full v (by simp) zero_dir
    rfl (by rw [ht]; exact hv) (by
      rintro ⟨_, d, u, l, h1, h2⟩
      rw [ht] at h1
      have := zero_variants _ h1
      obtain ⟨k, hk, hx, _⟩ := h2
      rw [this k hk] at hx
      cases hx)
  obtain ⟨err, code, hq⟩ := zero_blank
  rw [hq] at key
  have h1 := zero_tail.1
  unfold zeroRun at h1
  rw [key] at h1
  simp only [quizAfter, afterLoading, Option.map_some, Res.bind, Option.some.injEq, List.isSuffixOf_iff_suffix] at h1
  obtain ⟨a, ha⟩ := h1
  exact absurd (List.append_inj' ha (by decide +kernel)).2 (by decide +kernel)

/-! ## The other cases -/

/-- A message about the arguments after the report, and the exit code. -/
example : (zeroRun [u8!"kanjiQuiz", u8!"-debug", u8!"-data", u8!"/d", u8!"-zz"]).map (fun o => (o.err, o.ending)) =
    some (u8!"ERROR[0001] --- 一 [4E00] not marked as 'Joyo' in _ucd\nillegal option '-zz', use -h for help\n", .exit 1) := by
  decide +kernel

/-- The program doesn't crash with these files and full debug, whatever is drawn and typed. -/
example (e : StoulTexts) (n : Nat) (r : Drawn) (s : InStream) :
    ∃ o, kanjiQuizOutput (worldAt (u8!"/home/k/build/x")) [] true id e [u8!"kanjiQuiz", u8!"-debug", u8!"一"] n r s =
      some (.ok o) := by
  have ht : FsPath.text ⟨true, [u8!"home", u8!"k", u8!"data"]⟩ = u8!"/home/k/data" := by decide
  have hd : ∀ d, getDataDir (worldAt (u8!"/home/k/build/x")).dirs (worldAt (u8!"/home/k/build/x")).cwd
      [u8!"kanjiQuiz", u8!"-debug", u8!"一"] = .ok d → d.text = u8!"/home/k/data" := by
    intro d h
    have := (C127_current _ _ _ (by decide) _ sample_up).symm.trans h
    cases this
    exact ht
  refine C188_ends _ [] (by simp) true id e _ (by decide) n r s (fun d h => ?_) (fun d v h hv => ?_)
  · rw [hd d h, world_data]; exact sample_fits
  · rw [hd d h] at hv ⊢; rw [world_data]; exact world_limits v hv

/-- kanjiStats with info only: the report is all. -/
example : (match kanjiStatsOutput zeroWorld [] true id (fun _ => id) [u8!"kanjiStats", u8!"-info", u8!"-data", u8!"/d"] with
    | some (.ok o) => some ((loadTextDataPrinting .info id true (dirData zeroWorld.disk (u8!"/d"))).prints.out == o.out, o.ending)
    | _ => none) = some (true, .exit 0) := by decide +kernel
example : (match kanjiStatsOutput zeroWorld [] true id (fun _ => id) [u8!"kanjiStats", u8!"-data", u8!"/d"] with
    | some (.ok o) => some (o.out, o.err, o.ending)
    | _ => none) = some ([], u8!"ERROR[0001] --- 一 [4E00] not marked as 'Joyo' in _ucd
please specify at least one option or '-h' for help\n", .exit 1) := by decide +kernel

end KT
