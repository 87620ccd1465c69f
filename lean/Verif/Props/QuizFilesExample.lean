import Verif.Props.QuizFiles
import Verif.Props.DataDirectoryExample
/-!
# C182: an example

The files of the example of C180 in '/home/k/data', and the program run in '/home/k/build/x'.
-/
namespace KT
open Spec

/-- The files of a directory of the sample. -/
def filesBelow (dir : Str) : List (Str × FsNode) :=
  sampleDisk.filterMap fun p =>
    if (slashParts p.1).dropLast = slashParts dir then
      let n := fileNameOf p.1
      some (if hasExtension n then n else n ++ u8!".txt", .file p.2)
    else none

def sampleTree : FsNode := .dir (filesBelow (u8!"d") ++
  [(u8!"jlpt", .dir (filesBelow (u8!"d/jlpt"))), (u8!"kentei", .dir (filesBelow (u8!"d/kentei"))),
   (u8!"jukugo", .dir (filesBelow (u8!"d/jukugo")))])

def worldAt (cwd : Str) : World where
  root := .dir [(u8!"home", .dir [(u8!"k", .dir [(u8!"data", sampleTree), (u8!"build", .dir [(u8!"x", .dir [])])])]),
    (u8!"other", .dir [(u8!"copy", sampleTree), (u8!"data", .dir [])])]
  cwd := cwd

/-- A run of the program. -/
def quizRun (cwd : Str) (argv : List Str) (input : Str) : Option QuizEnd :=
  match kanjiQuiz (worldAt cwd) [] true id ⟨u8!"stoul", u8!"stoul"⟩ argv 9 { answers := [(0, []), (0, [])] } { rest := input } with
  | some (.ok o) => some o
  | _ => none

theorem sample_up : searchUp (worldAt (u8!"/home/k/build/x")).dirs (pathOf (u8!"/home/k/build/x")) =
    some ⟨true, [u8!"home", u8!"k", u8!"data"]⟩ := by
  rw [searchUp_eq _ _ _ rfl]; decide +kernel

theorem sample_dir : getDataDir (worldAt (u8!"/home/k/build/x")).dirs (u8!"/home/k/build/x") [u8!"kanjiQuiz", u8!"-r1", u8!"-f0"] =
    .ok ⟨true, [u8!"home", u8!"k", u8!"data"]⟩ := C127_current _ _ _ (by decide) _ sample_up

/-- Found by searching up, or given with `-data`. -/
example : quizRun (u8!"/home/k/build/x") [u8!"kanjiQuiz", u8!"-r1", u8!"-f0"] (u8!"/\n") =
    quizRun (u8!"/home/k/build/x") [u8!"kanjiQuiz", u8!"-data", u8!"/home/k/data", u8!"-r1", u8!"-f0"] (u8!"/\n") := by
  have h := C182_below (worldAt (u8!"/home/k/build/x")) [] true id ⟨u8!"stoul", u8!"stoul"⟩ (u8!"kanjiQuiz") [u8!"-r1", u8!"-f0"] 9
    { answers := [(0, []), (0, [])] } { rest := u8!"/\n" } _ (by decide) (by decide) sample_up
  rw [show FsPath.text ⟨true, [u8!"home", u8!"k", u8!"data"]⟩ = u8!"/home/k/data" by decide] at h
  unfold quizRun
  rw [h]

-- a review with the files in another directory, given with a slash at the end
example : quizRun (u8!"/other") [u8!"kanjiQuiz", u8!"-data", u8!"copy/", u8!"-r1", u8!"-f0"] (u8!"/\n") = some (.ran (u8!">>>
>>> Starting review for 2 kanji
>>>
>>> Legend:
Fields: N[1-5]=JLPT Level, K[1-10]=Kentei Kyu, G[1-6]=Grade (S=Secondary School)
Suffix: .=常用 '=JLPT \"=Freq ^=人名用 ~=LinkJ %=LinkO +=Extra @=検定 #=1級 *=Ucd

1/2:  一  Rad 一(1), Strokes 1, yī, G1, N5, Old 壱, K10, Jouyou (#1)
    Reading: イチ、ひと
   Category: [数]
     Jukugo: 一三（いちさん）

  Select (-=show meanings, .=next, /=quit): ") (some ([], 0))) := by decide +kernel

example : quizRun (u8!"/other") [u8!"kanjiQuiz", u8!"-debug", u8!"-data", u8!"copy/", u8!"-info"] [] =
    some (.usage oneDebugOption) := by decide +kernel
example : quizRun (u8!"/other") [u8!"kanjiQuiz", u8!"-data", u8!"data"] [] =
    some (.usage (u8!"'data' does not contain 10 expected '.txt' files")) := by decide +kernel

/-! ## The hypotheses of `C182_ends` can be met -/

theorem world_data : dirData (worldAt (u8!"/home/k/build/x")).disk (u8!"/home/k/data") = sampleData := by
  have top : ∀ f ∈ [u8!"frequency", u8!"ucd", u8!"radicals", u8!"frequency-readings", u8!"jouyou", u8!"linked-jinmei",
      u8!"jinmei", u8!"extra", u8!"meaning-groups", u8!"pattern-groups"],
      dirText (worldAt (u8!"/home/k/build/x")).disk (u8!"/home/k/data") f = dirText (diskOf sampleDisk) (u8!"d") f := by
    decide +kernel
  have lv : ∀ l ∈ levelOrder, dirText (worldAt (u8!"/home/k/build/x")).disk (joinPath (u8!"/home/k/data") (u8!"jlpt")) (levelFile l) =
      dirText (diskOf sampleDisk) (joinPath (u8!"d") (u8!"jlpt")) (levelFile l) := by decide +kernel
  have ky : ∀ k ∈ kyuOrder, dirText (worldAt (u8!"/home/k/build/x")).disk (joinPath (u8!"/home/k/data") (u8!"kentei")) (kyuFile k) =
      dirText (diskOf sampleDisk) (joinPath (u8!"d") (u8!"kentei")) (kyuFile k) := by decide +kernel
  have jk : jukugoNames.map (dirText (worldAt (u8!"/home/k/build/x")).disk (joinPath (u8!"/home/k/data") (u8!"jukugo"))) =
      jukugoNames.map (dirText (diskOf sampleDisk) (joinPath (u8!"d") (u8!"jukugo"))) := by decide +kernel
  have lv' := fun l => lv l (by cases l <;> decide)
  have ky' := fun k => ky k (by cases k <;> decide)
  simp only [List.forall_mem_cons] at top
  obtain ⟨t1, t2, t3, t4, t5, t6, t7, t8, t9, t10, _⟩ := top
  unfold sampleData dirData
  simp only [lv', ky', jk, t1, t2, t3, t4, t5, t6, t7, t8, t9, t10]

/-- What is shown of a member of a group isn't too long. -/
def rowFitsCheck (i : GroupItem) : Bool :=
  (i.shown.pinyin.all fun p => decide (displaySize p ≤ 8) && decide ((0 : UInt8) ∉ p) &&
    (p.head?.all fun x => decide (¬ (0x80 ≤ x.toNat ∧ x.toNat < 0xc0))) && decide (p.length < 1000)) &&
  decide (i.shown.qualifiedName.length < 1000) && i.shown.other.all fun n => decide (n < 65536)

theorem rowFits_of {i : GroupItem} (h : rowFitsCheck i = true) : KT.RowFits i := by
  simp only [rowFitsCheck, Bool.and_eq_true, decide_eq_true_eq] at h
  obtain ⟨⟨h1, h2⟩, h4⟩ := h
  refine ⟨fun p hp => ?_, h2, fun p hp => ?_, fun n hn => ?_⟩
  · rw [hp] at h1
    simp only [Option.all_some, Bool.and_eq_true, decide_eq_true_eq] at h1
    obtain ⟨⟨⟨a, b⟩, c⟩, _⟩ := h1
    refine ⟨a, b, fun x y e => ?_⟩
    subst e
    simp only [List.head?_cons, Option.all_some, decide_eq_true_eq] at c
    exact c
  · rw [hp] at h1
    simp only [Option.all_some, Bool.and_eq_true, decide_eq_true_eq] at h1
    exact h1.2
  · rw [hn] at h4; simpa using h4

/-- The loaded data has no variants, and its groups can be asked. -/
def worldLoads : Bool :=
  match loadDataFrom [] true (worldAt (u8!"/home/k/build/x")).disk (u8!"/home/k/data") with
  | .ok d => d.store.all.all (fun k => !k.kanji.variant) &&
      ([GroupType.meaning, .pattern].all fun t => decide ((groupsOf d.detail t).length < 65536) &&
        (groupsOf d.detail t).all fun g => [MemberType.jouyou, .jlpt, .frequency, .all].all fun mt =>
          decide (1 ≤ (shownMembers mt g).length) && decide ((shownMembers mt g).length ≤ 26) &&
            (shownMembers mt g).all rowFitsCheck)
  | _ => false

theorem world_limits (v : DetailStore)
    (h : loadDataFrom [] true (worldAt (u8!"/home/k/build/x")).disk (u8!"/home/k/data") = .ok v) :
    WithinLimits sampleData v := by
  have hw : worldLoads = true := by decide +kernel
  unfold worldLoads at hw
  rw [h] at hw
  simp only [Bool.and_eq_true, List.all_eq_true, Bool.not_eq_true', decide_eq_true_eq] at hw
  obtain ⟨h1, h2⟩ := hw
  refine ⟨by decide +kernel, by decide +kernel, fun k hk _ _ hv => ?_, fun t mt => ?_⟩
  · rw [h1 k hk] at hv; cases hv
  · obtain ⟨h3, h4⟩ := h2 t (by cases t <;> decide)
    refine ⟨h3, fun g hg _ => ?_⟩
    obtain ⟨⟨h5, h6⟩, h7⟩ := h4 g hg mt (by cases mt <;> decide)
    exact ⟨h5, h6, fun i hi => rowFits_of (h7 i hi)⟩

/-- The program doesn't crash with these files, whatever is drawn and typed. -/
example (e : StoulTexts) (n : Nat) (r : Drawn) (s : InStream) :
    ∃ o, kanjiQuiz (worldAt (u8!"/home/k/build/x")) [] true id e [u8!"kanjiQuiz", u8!"-r1", u8!"-f0"] n r s = some (.ok o) := by
  have ht : FsPath.text ⟨true, [u8!"home", u8!"k", u8!"data"]⟩ = u8!"/home/k/data" := by decide
  have hd : ∀ d, getDataDir (worldAt (u8!"/home/k/build/x")).dirs (worldAt (u8!"/home/k/build/x")).cwd
      [u8!"kanjiQuiz", u8!"-r1", u8!"-f0"] = .ok d → d.text = u8!"/home/k/data" := by
    intro d h
    have := sample_dir.symm.trans h
    cases this
    exact ht
  refine C182_ends _ [] (by simp) true id e _ (by decide) n r s (fun d h => ?_) (fun d v h hv => ?_)
  · rw [hd d h, world_data]; exact sample_fits
  · rw [hd d h] at hv ⊢; rw [world_data]; exact world_limits v hv

end KT
