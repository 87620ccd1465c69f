import Verif.Spec.QuizPrint
import Verif.Props.Jukugo
import Verif.Props.LoadPrintAll
/-!
# C185: what is printed while the Jukugo are loaded

Model: `Verif/Model/QuizPrint.lean`.
-/
namespace KT
open Spec

/-! ## The kanji with Jukugo -/

theorem insertInOrder_mem (k x : Str) (r : List Str) : x ∈ insertInOrder k r ↔ x = k ∨ x ∈ r := by
  induction r with
  | nil => simp [insertInOrder]
  | cons y r ih =>
    rw [insertInOrder]
    split
    · simp
    · simp only [List.mem_cons, ih]
      grind

theorem insertInOrder_length (k : Str) (r : List Str) : (insertInOrder k r).length = r.length + 1 := by
  induction r with
  | nil => rfl
  | cons y r ih =>
    rw [insertInOrder]
    split
    · rfl
    · simp [ih]

theorem insertInOrder_sorted (k : Str) (r : List Str) (h : r.Pairwise fun a b => strLt a b = true) (hn : k ∉ r) :
    (insertInOrder k r).Pairwise fun a b => strLt a b = true := by
  induction r with
  | nil => simp [insertInOrder]
  | cons y r ih =>
    rw [List.pairwise_cons] at h
    rw [insertInOrder]
    split
    · rename_i hlt
      rw [List.pairwise_cons, List.pairwise_cons]
      refine ⟨fun z hz => ?_, h⟩
      rcases List.mem_cons.mp hz with rfl | hz
      · exact hlt
      · exact strLt_total.trans _ _ _ hlt (h.1 z hz)
    · rename_i hlt
      rw [List.pairwise_cons]
      refine ⟨fun z hz => ?_, ih h.2 fun hx => hn (List.mem_cons_of_mem _ hx)⟩
      rcases (insertInOrder_mem k z r).mp hz with rfl | hz
      · rcases strLt_total.total y z with g | g | g
        · exact g
        · exact absurd (by simp [g]) hn
        · exact absurd g hlt
      · exact h.1 z hz

theorem nameOrder_spec (names : List Str) (hn : names.Nodup) :
    (∀ x, x ∈ nameOrder names ↔ x ∈ names) ∧ ((nameOrder names).Pairwise fun a b => strLt a b = true) ∧
      (nameOrder names).length = names.length := by
  have gen : ∀ (B r : List Str), (r.Pairwise fun a b => strLt a b = true) → B.Nodup → (∀ x ∈ r, x ∉ B) →
      (∀ x, x ∈ B.foldl (fun r n => insertInOrder n r) r ↔ x ∈ r ∨ x ∈ B) ∧
      ((B.foldl (fun r n => insertInOrder n r) r).Pairwise fun a b => strLt a b = true) ∧
      (B.foldl (fun r n => insertInOrder n r) r).length = r.length + B.length := by
    intro B
    induction B with
    | nil => intro r h _ _; simpa using h
    | cons b B ih =>
      intro r hs hn hd
      rw [List.nodup_cons] at hn
      have hb : b ∉ r := fun h => hd b h (by simp)
      have := ih (insertInOrder b r) (insertInOrder_sorted b r hs hb) hn.2 (by
        intro x hx
        rcases (insertInOrder_mem b x r).mp hx with rfl | hx
        · exact hn.1
        · exact fun h => hd x hx (by simp [h]))
      rw [List.foldl_cons]
      refine ⟨fun x => ?_, this.2.1, ?_⟩
      · rw [this.1, insertInOrder_mem]; simp; grind
      · rw [this.2.2, insertInOrder_length]; simp; omega
  have := gen names [] .nil hn (by simp)
  simpa [nameOrder] using this

theorem mapPush_keys {β : Type} (m : List (Str × List β)) (c : Str) (v : β) :
    (∀ k, k ∈ (mapPush m c v).map (·.1) ↔ k = c ∨ k ∈ m.map (·.1)) ∧
    ((m.map (·.1)).Nodup → ((mapPush m c v).map (·.1)).Nodup) := by
  induction m with
  | nil => simp [mapPush]
  | cons p m ih =>
    obtain ⟨a, l⟩ := p
    rw [mapPush]
    split
    · rename_i he
      have : a = c := by simpa using he
      subst this
      refine ⟨fun k => by simp, fun h => by simpa using h⟩
    · rename_i he
      have he : a ≠ c := by simpa using he
      refine ⟨fun k => ?_, fun h => ?_⟩
      · rw [List.map_cons, List.map_cons, List.mem_cons, List.mem_cons, ih.1]; grind
      · rw [List.map_cons, List.nodup_cons] at h ⊢
        refine ⟨fun h2 => ?_, ih.2 h.2⟩
        rcases (ih.1 _).mp h2 with h2 | h2
        · exact he h2
        · exact h.1 h2

theorem foldPush_keys {β : Type} (cs : List Str) (v : β) : ∀ m : List (Str × List β),
    (∀ k, k ∈ (cs.foldl (fun m c => mapPush m c v) m).map (·.1) ↔ k ∈ cs ∨ k ∈ m.map (·.1)) ∧
    ((m.map (·.1)).Nodup → ((cs.foldl (fun m c => mapPush m c v) m).map (·.1)).Nodup) := by
  induction cs with
  | nil => intro m; simp
  | cons c cs ih =>
    intro m
    rw [List.foldl_cons]
    refine ⟨fun k => ?_, fun h => (ih _).2 ((mapPush_keys m c v).2 h)⟩
    rw [(ih _).1, (mapPush_keys m c v).1]
    simp
    grind

/-- The keys of the map are the kanji of the words. -/
structure KeyInv (st : JukugoStore) : Prop where
  nodup : (st.kanjiTo.map (·.1)).Nodup
  keys : ∀ k, k ∈ st.kanjiTo.map (·.1) ↔ ∃ j ∈ st.words, k ∈ kanjiIn j.name

theorem addWords_keys (ws : List Jukugo) : ∀ {st st' : JukugoStore}, KeyInv st → JukugoStore.addWords ws st = .ok st' →
    KeyInv st' := by
  induction ws with
  | nil => intro st st' h e; cases e; exact h
  | cons j ws ih =>
    intro st st' h e
    rw [JukugoStore.addWords] at e
    obtain ⟨s, e1, e2⟩ := Res.bind_eq_ok e
    refine ih ?_ e2
    unfold JukugoStore.addWord at e1
    split at e1
    · cases e1
      have := foldPush_keys (kanjiIn j.name) j st.kanjiTo
      refine ⟨this.2 h.nodup, fun k => ?_⟩
      rw [this.1, h.keys]
      simp only [JukugoStore.words, List.map_append, List.mem_append, List.map_cons, List.map_nil, List.mem_singleton]
      constructor
      · rintro (g | ⟨i, g1, g2⟩)
        · exact ⟨j, .inr rfl, g⟩
        · exact ⟨i, .inl g1, g2⟩
      · rintro ⟨i, g1 | rfl, g2⟩
        · exact .inr ⟨i, g1, g2⟩
        · exact .inl g2
    · split at e1
      · cases e1
      · cases e1; exact h

theorem keyInv_empty : KeyInv {} := ⟨by simp, fun k => by simp [JukugoStore.words]⟩

/-! ## The lines -/

theorem jukugoExamples_eq : ∀ (names : List Str) (j : Nat), 0 < j →
    jukugoExamples j names = ((names.take (12 - j)).map fun n => u8!" " ++ n).flatten
  | [], _, _ => by simp [jukugoExamples]
  | n :: ns, j, h => by
    rw [jukugoExamples]
    by_cases hj : j < 12
    · rw [if_pos hj, if_neg (by omega), jukugoExamples_eq ns (j + 1) (by omega),
        show 12 - j = (12 - (j + 1)) + 1 by omega]
      simp [List.take_succ_cons]
    · rw [if_neg hj, show 12 - j = 0 by omega]
      rfl

theorem intercalate_spaces (a : Str) (l : List Str) :
    (u8!" ").intercalate (a :: l) = a ++ (l.map fun n => u8!" " ++ n).flatten := by
  induction l generalizing a with
  | nil => simp [List.intercalate]
  | cons b l ih =>
    have := ih b
    simp only [List.intercalate, List.intersperse_cons_cons, List.flatten_cons, List.map_cons] at this ⊢
    rw [this]
    simp

theorem jukugoTypeLine_eq (f : OutFormat) (t : Option KanjiType) (names : List Str) (h : names ≠ []) :
    jukugoTypeLine f t names = jukugoLine f.fill t names := by
  obtain ⟨n, ns, rfl⟩ := List.exists_cons_of_ne_nil h
  unfold jukugoTypeLine jukugoLine
  rw [jukugoExamples, if_pos (by omega), if_pos rfl, jukugoExamples_eq ns 1 (by omega), List.take_succ_cons,
    intercalate_spaces]
  have : ((14 : Int) - ((anyTypeText t).length : Int)).toNat = 14 - (anyTypeText t).length := by omega
  simp [OutFormat.setw, this]

theorem jukugoTypeLines_eq (typeOf : Str → Option KanjiType) (names : List Str) : ∀ (ts : List (Option KanjiType))
    (f : OutFormat), jukugoTypeLines f typeOf names ts =
      (ts.map fun t =>
        let ks := names.filter fun k => decide (typeOf k = t)
        if ks = [] then [] else jukugoLine f.fill t ks).flatten
  | [], _ => rfl
  | t :: ts, f => by
    rw [jukugoTypeLines, List.map_cons, List.flatten_cons]
    simp only
    by_cases h : (names.filter fun k => decide (typeOf k = t)) = []
    · rw [if_pos (by rw [h]; rfl), if_pos h, jukugoTypeLines_eq typeOf names ts f]
      rfl
    · rw [if_neg (by simpa using h), if_neg h, jukugoTypeLine_eq f t _ h, jukugoTypeLines_eq typeOf names ts]

/-! ## Files -/

theorem loadJukugoPrintingFiles_result (debug : Bool) : ∀ (fs : List (Str × KanjiGrade)) (st : JukugoStore),
    (loadJukugoPrintingFiles debug fs st).result = JukugoStore.loadFiles fs st
  | [], _ => rfl
  | (t, g) :: fs, st => by
    rw [loadJukugoPrintingFiles, JukugoStore.loadFiles, quietly_bind_result]
    congr 1
    funext s
    rw [Printing.bind_result]
    exact loadJukugoPrintingFiles_result debug fs s

theorem loadJukugoPrintingFiles_silent : ∀ (fs : List (Str × KanjiGrade)) (st : JukugoStore),
    Silent (loadJukugoPrintingFiles false fs st)
  | [], _ => rfl
  | (t, g) :: fs, st => by
    rw [loadJukugoPrintingFiles]
    refine (silent_quietly _).bind fun s => Silent.bind rfl fun _ => loadJukugoPrintingFiles_silent fs s

theorem loadJukugoPrintingFiles_errors (debug : Bool) : ∀ (fs : List (Str × KanjiGrade)) (st : JukugoStore),
    (loadJukugoPrintingFiles debug fs st).prints.errors = []
  | [], _ => rfl
  | (t, g) :: fs, st => by
    rw [loadJukugoPrintingFiles]
    unfold Printing.bind quietly
    cases st.loadFile t g with
    | ok s => exact loadJukugoPrintingFiles_errors debug fs s
    | throw _ => rfl
    | ub => rfl

theorem newWords_length (acc ws : List Jukugo) :
    (acc ++ ws).eraseDups.length - acc.eraseDups.length = (ws.filter fun j => decide (j ∉ acc)).eraseDups.length := by
  rw [List.eraseDups_append, List.length_append, Nat.add_sub_cancel_left]
  congr 2
  unfold List.removeAll
  apply List.filter_congr
  intro x _
  simp

/-- The files are loaded up to the first that is rejected; each has a line. -/
theorem loadJukugoPrintingFiles_text : ∀ (fs : List (Str × KanjiGrade)) (acc : List Jukugo) {st : JukugoStore}, JInv st →
    KeyInv st → st.words = acc.eraseDups → OneGrade acc →
    ∃ (n : Nat) (wss : List (List Jukugo)), n ≤ fs.length ∧ (fs.take n).mapM fileWords = some wss ∧
      (loadJukugoPrintingFiles true fs st).prints.out = loadedLines ((newWords acc wss).zip (fs.map (·.2))) ∧
      ((∃ st', n = fs.length ∧ JukugoStore.loadFiles fs st = .ok st' ∧ KeyInv st' ∧ st'.words = (acc ++ wss.flatten).eraseDups) ∨
       (n < fs.length ∧ JukugoStore.loadFiles fs st = .throw .domain ∧ (∃ st', JukugoStore.loadFiles (fs.take n) st = .ok st') ∧
         JukugoStore.loadFiles (fs.take (n + 1)) st = .throw .domain))
  | [], acc, st, h, hk, ha, ho =>
    ⟨0, [], by simp, rfl, rfl, .inl ⟨st, rfl, rfl, hk, by simpa using ha⟩⟩
  | (t, g) :: fs, acc, st, h, hk, ha, ho => by
    have he := loadFile_eq h (t, g)
    rw [loadJukugoPrintingFiles]
    rw [show JukugoStore.loadFiles ((t, g) :: fs) st = (st.loadFile t g).bind (JukugoStore.loadFiles fs) from rfl]
    simp only at he
    have stop : st.loadFile t g = .throw .domain → ∃ (n : Nat) (wss : List (List Jukugo)), n ≤ ((t, g) :: fs).length ∧
        (((t, g) :: fs).take n).mapM fileWords = some wss ∧
        ((quietly (st.loadFile t g)).bind fun st' => (printing (if true then u8!">>> " ++ u8!"Loaded " ++
            toDec (st'.unique.length - st.unique.length) ++ u8!" for Grade: " ++ g.toString ++ u8!"\n" else [])).bind fun _ =>
            loadJukugoPrintingFiles true fs st').prints.out = loadedLines ((newWords acc wss).zip (((t, g) :: fs).map (·.2))) ∧
        ((∃ st', n = ((t, g) :: fs).length ∧ (st.loadFile t g).bind (JukugoStore.loadFiles fs) = .ok st' ∧ KeyInv st' ∧
            st'.words = (acc ++ wss.flatten).eraseDups) ∨
         (n < ((t, g) :: fs).length ∧ (st.loadFile t g).bind (JukugoStore.loadFiles fs) = .throw .domain ∧
          (∃ st', JukugoStore.loadFiles (((t, g) :: fs).take n) st = .ok st') ∧
          JukugoStore.loadFiles (((t, g) :: fs).take (n + 1)) st = .throw .domain)) := by
      intro e
      refine ⟨0, [], by simp, rfl, ?_, .inr ⟨by simp, by rw [e]; rfl, ⟨st, rfl⟩, ?_⟩⟩
      · rw [e]; rfl
      · simp [JukugoStore.loadFiles, e, Res.bind]
    cases hw : fileWords (t, g) with
    | none =>
      rw [hw] at he
      exact stop he
    | some ws =>
      rw [hw] at he
      simp only [runWords] at he
      rcases addWords_spec ws (fileWords_valid _ _ hw) acc h ha ho with ⟨s, e1, h1, h2, h3⟩ | ⟨e1, h2⟩
      · rw [e1] at he
        obtain ⟨n, wss, g1, g2, g3, g4⟩ := loadJukugoPrintingFiles_text fs (acc ++ ws) h1 (addWords_keys ws hk e1) h3 h2
        refine ⟨n + 1, ws :: wss, by simp; omega, ?_, ?_, ?_⟩
        · rw [List.take_succ_cons, List.mapM_cons, hw, g2]; rfl
        · have hl : s.unique.length - st.unique.length = (ws.filter fun j => decide (j ∉ acc)).eraseDups.length := by
            rw [← newWords_length, ← h3, ← ha]
            simp [JukugoStore.words]
          rw [he, Printing.bind_out (a := s) rfl, Printing.bind_out (a := ()) rfl, g3, hl, newWords, List.map_cons, List.zip_cons_cons]
          simp [quietly, printing, loadedLines]
        · rw [he]
          simp only [Res.bind, List.take_succ_cons, JukugoStore.loadFiles, List.length_cons, he]
          rcases g4 with ⟨s', k1, k2, k3, k4⟩ | ⟨k1, k2, k3, k4⟩
          · exact .inl ⟨s', by omega, k2, k3, by rw [k4]; simp⟩
          · exact .inr ⟨by omega, k2, k3, k4⟩
      · rw [e1] at he
        exact stop he

/-! ## The property -/

/-- **C185** (result): printing doesn't change what is loaded; no message is printed as an error, and nothing at all without
debug. -/
theorem C185_result (debug : Bool) (f : OutFormat) (typeOf : Str → Option KanjiType) (texts : List Str) :
    (loadJukugoPrinting debug f typeOf texts).result = loadJukugo texts ∧
    (loadJukugoPrinting debug f typeOf texts).prints.errors = [] ∧
    (debug = false → (loadJukugoPrinting debug f typeOf texts).prints.out = []) := by
  have hr : (loadJukugoPrinting debug f typeOf texts).result = loadJukugo texts := by
    unfold loadJukugoPrinting loadJukugo
    rw [Printing.bind_result]
    show Printing.result _ = _
    rw [Printing.bind_result, loadJukugoPrintingFiles_result]
    show ((JukugoStore.loadFiles (texts.zip jukugoGrades) {}).bind fun a => _) = _
    simp only [Printing.bind_result]
    cases JukugoStore.loadFiles (texts.zip jukugoGrades) {} <;> rfl
  refine ⟨hr, ?_, fun h => ?_⟩
  · unfold loadJukugoPrinting
    unfold Printing.bind printing quietly
    simp only [Prints.add, List.nil_append]
    have := loadJukugoPrintingFiles_errors debug (texts.zip jukugoGrades) {}
    cases (loadJukugoPrintingFiles debug (texts.zip jukugoGrades) {}).result <;> simp [this]
  · subst h
    unfold loadJukugoPrinting
    refine Silent.bind rfl fun _ => Silent.bind (loadJukugoPrintingFiles_silent _ _) fun _ => Silent.bind rfl fun _ => rfl

/-- **C185** (loaded): when all files are loaded the output has the heading, for each file the number of words that weren't in
the files before, the number of different kanji and words, and the kanji of each type with the first ones in the order of
their bytes. -/
theorem C185_loaded (f : OutFormat) (typeOf : Str → Option KanjiType) (texts : List Str) (st : JukugoStore)
    (h : loadJukugo texts = .ok st) :
    ∃ (wss : List (List Jukugo)) (kanji : List Str), (texts.zip jukugoGrades).mapM fileWords = some wss ∧
      st.words = wss.flatten.eraseDups ∧
      (kanji.Pairwise fun a b => strLt a b = true) ∧ (∀ k, k ∈ kanji ↔ ∃ j ∈ wss.flatten, k ∈ kanjiIn j.name) ∧
      (loadJukugoPrinting true f typeOf texts).prints.out =
        u8!">>>\n>>> Begin Loading Jukugo\n>>>\n" ++
        loadedLines ((newWords [] wss).zip ((texts.zip jukugoGrades).map (·.2))) ++
        (u8!">>> Total Kanji with Jukugo: " ++ toDec kanji.length ++ u8!", unique jukugo: " ++
          toDec wss.flatten.eraseDups.length ++ u8!"\n") ++
        jukugoLines f.fill typeOf kanji := by
  obtain ⟨n, wss, h1, h2, h3, h4⟩ := loadJukugoPrintingFiles_text (texts.zip jukugoGrades) [] jinv_empty keyInv_empty rfl
    (by intro a ha; simp at ha)
  unfold loadJukugo at h
  rcases h4 with ⟨s, k1, k2, k3, k4⟩ | ⟨_, k2, _⟩
  · rw [k2] at h
    cases h
    rw [k1, List.take_length] at h2
    simp only [List.nil_append] at k4
    obtain ⟨o1, o2, o3⟩ := nameOrder_spec (st.kanjiTo.map (·.1)) k3.nodup
    refine ⟨wss, nameOrder (st.kanjiTo.map (·.1)), h2, k4, o2, fun k => ?_, ?_⟩
    · rw [o1, k3.keys, k4]
      simp only [List.mem_eraseDups]
    · unfold loadJukugoPrinting
      rw [Printing.bind_out (a := ()) rfl, Printing.bind_out (a := st) (by rw [loadJukugoPrintingFiles_result]; exact k2), h3,
        Printing.bind_out (a := ()) rfl]
      rw [o3, ← k4, List.length_map]
      simp only [printing, quietly, jukugoSummary, jukugoTypeLines_eq, if_true, JukugoStore.words, List.length_map]
      simp [jukugoLines]
  · rw [k2] at h; cases h

/-- **C185** (rejected): otherwise the lines of the files before the first that is rejected. -/
theorem C185_rejected (f : OutFormat) (typeOf : Str → Option KanjiType) (texts : List Str)
    (h : ∀ st, loadJukugo texts ≠ .ok st) :
    ∃ (n : Nat) (wss : List (List Jukugo)), n < (texts.zip jukugoGrades).length ∧
      (∃ st, JukugoStore.loadFiles ((texts.zip jukugoGrades).take n) {} = .ok st) ∧
      JukugoStore.loadFiles ((texts.zip jukugoGrades).take (n + 1)) {} = .throw .domain ∧
      ((texts.zip jukugoGrades).take n).mapM fileWords = some wss ∧
      (loadJukugoPrinting true f typeOf texts).prints.out =
        u8!">>>\n>>> Begin Loading Jukugo\n>>>\n" ++
        loadedLines ((newWords [] wss).zip ((texts.zip jukugoGrades).map (·.2))) := by
  obtain ⟨n, wss, h1, h2, h3, h4⟩ := loadJukugoPrintingFiles_text (texts.zip jukugoGrades) [] jinv_empty keyInv_empty rfl
    (by intro a ha; simp at ha)
  unfold loadJukugo at h
  rcases h4 with ⟨s, k1, k2, k3, k4⟩ | ⟨k1, k2, k3, k4⟩
  · exact absurd k2 (h s)
  · refine ⟨n, wss, k1, k3, k4, h2, ?_⟩
    unfold loadJukugoPrinting
    rw [Printing.bind_out (a := ()) rfl]
    have hr := loadJukugoPrintingFiles_result true (texts.zip jukugoGrades) {}
    rw [k2] at hr
    generalize hg : loadJukugoPrintingFiles true (texts.zip jukugoGrades) {} = r at hr h3
    unfold Printing.bind
    rw [hr]
    simp only [h3]
    simp [printing]

theorem newWords_sum : ∀ (wss : List (List Jukugo)) (acc : List Jukugo),
    (newWords acc wss).sum + acc.eraseDups.length = (acc ++ wss.flatten).eraseDups.length
  | [], acc => by simp [newWords]
  | ws :: wss, acc => by
    have h1 := newWords_sum wss (acc ++ ws)
    have h2 := newWords_length acc ws
    have h3 : acc.eraseDups.length ≤ (acc ++ ws).eraseDups.length := by
      rw [List.eraseDups_append, List.length_append]; omega
    rw [newWords, List.sum_cons, List.flatten_cons, ← List.append_assoc, ← h1]
    omega

/-- **C185** (sum): the numbers of the files add up to the number of words, those of the types to the number of kanji: each is
counted once. -/
theorem C185_sum (wss : List (List Jukugo)) (typeOf : Str → Option KanjiType) (kanji : List Str) :
    (newWords [] wss).sum = wss.flatten.eraseDups.length ∧
    (allKanjiTypes.map fun t => (kanji.filter fun k => decide (typeOf k = t)).length).sum = kanji.length := by
  refine ⟨by simpa using newWords_sum wss [], ?_⟩
  induction kanji with
  | nil => rfl
  | cons k ks ih =>
    rw [List.length_cons, ← ih]
    simp only [List.filter_cons]
    generalize typeOf k = t
    rcases t with _ | t
    · simp [allKanjiTypes]; omega
    · cases t <;> simp [allKanjiTypes] <;> omega

end KT
