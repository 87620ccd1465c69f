import Verif.Model.UcdDiff
import Verif.Spec.UcdDiff
/-! # Lemmas for C200: records of UCD files and their lines -/
namespace KT
open Spec

theorem hasText_iff (t s : Str) : hasText t s = true ↔ t <:+: s := by
  induction s with
  | nil => simp [hasText]
  | cons b s ih =>
    rw [hasText, Bool.or_eq_true, ih, List.isPrefixOf_iff_prefix, List.infix_cons_iff]

/-! ## Lines -/

/-- A text in front of the first line. -/
def glue (u : Str) : List Str → List Str
  | [] => [u]
  | l :: ls => (u ++ l) :: ls

theorem glue_nil (ls : List Str) (h : ls ≠ []) : glue [] ls = ls := by
  cases ls with
  | nil => exact absurd rfl h
  | cons l ls => rfl

theorem splitQuoted_ne (s : Str) : splitQuoted s ≠ [] := by
  cases s with
  | nil => simp [splitQuoted]
  | cons b s =>
    rw [splitQuoted]
    split
    · simp
    · split <;> simp

theorem splitQuoted_step (b : UInt8) (s : Str) (h : ¬ (b = 0x22 ∧ s.head? = some 0x20)) :
    splitQuoted (b :: s) = glue [b] (splitQuoted s) := by
  rw [splitQuoted, if_neg h]
  cases hs : splitQuoted s with
  | nil => rfl
  | cons l ls => rfl

theorem splitQuoted_plain (u s : Str) (h : 0x22 ∉ u) : splitQuoted (u ++ s) = glue u (splitQuoted s) := by
  induction u with
  | nil => rw [List.nil_append, glue_nil _ (splitQuoted_ne s)]
  | cons b u ih =>
    rw [List.cons_append, splitQuoted_step _ _ (fun hx => h (by rw [hx.1]; exact List.mem_cons_self)),
      ih fun hx => h (List.mem_cons_of_mem _ hx)]
    cases splitQuoted s <;> rfl

theorem splitQuoted_fields : ∀ fs : List (Str × Str), (∀ p ∈ fs, 0x22 ∉ p.1) → (∀ p ∈ fs, 0x22 ∉ p.2 ∧ p.2.head? ≠ some 0x20) →
    splitQuoted (0x22 :: fs.flatMap fun p => u8!" " ++ fieldText p) = [0x22] :: fs.map fieldText
  | [], _, _ => by simp [splitQuoted]
  | p :: fs, h1, h2 => by
    have ih := splitQuoted_fields fs (fun q hq => h1 q (List.mem_cons_of_mem _ hq)) fun q hq => h2 q (List.mem_cons_of_mem _ hq)
    have e : ((p :: fs).flatMap fun p => u8!" " ++ fieldText p) =
        0x20 :: ((p.1 ++ [0x3d]) ++ 0x22 :: (p.2 ++ 0x22 :: fs.flatMap fun p => u8!" " ++ fieldText p)) := by
      rw [List.flatMap_cons]; simp [fieldText]
    rw [e, splitQuoted, if_pos ⟨rfl, rfl⟩]
    have hp1 := h1 p List.mem_cons_self
    have hp2 := h2 p List.mem_cons_self
    rw [List.tail_cons, splitQuoted_plain _ _ (by simpa using hp1), splitQuoted_step _ _ ?_, splitQuoted_plain _ _ hp2.1, ih]
    · simp [glue, fieldText]
    · rintro ⟨-, hx⟩
      cases hv : p.2 with
      | nil => rw [hv] at hx; cases hx
      | cons b v => rw [hv] at hx; exact hp2.2 (by rw [hv]; exact hx)

theorem withoutEnd_append (s : Str) : withoutEnd (s ++ u8!"/>") = s := by
  unfold withoutEnd
  rw [if_pos (List.isSuffixOf_iff_suffix.mpr (List.suffix_append _ _))]
  simp

/-- The text in front of the fields. -/
def CharRecord.start (r : CharRecord) : Str := r.indent ++ u8!"<char cp=\"" ++ r.cp

theorem text_eq (r : CharRecord) :
    r.text = CharRecord.start r ++ 0x22 :: (r.fields.flatMap fun p => u8!" " ++ fieldText p) ++ u8!"/>" := by
  simp [CharRecord.text, CharRecord.start]

theorem record_lines (r : CharRecord) (h : r.Fits) :
    splitQuoted (withoutEnd r.text) = (CharRecord.start r ++ [0x22]) :: r.fields.map fieldText := by
  rw [text_eq, withoutEnd_append]
  have hi : 0x22 ∉ r.indent := fun hx => absurd (h.indent _ hx) (by decide)
  have e : CharRecord.start r ++ 0x22 :: (r.fields.flatMap fun p => u8!" " ++ fieldText p) =
      (r.indent ++ u8!"<char cp=") ++ 0x22 :: (r.cp ++ 0x22 :: r.fields.flatMap fun p => u8!" " ++ fieldText p) := by
    simp [CharRecord.start]
  rw [e, splitQuoted_plain _ _ (by
    intro hx
    rcases List.mem_append.mp hx with hx | hx
    · exact hi hx
    · exact absurd hx (by decide))]
  have hn : ∀ s : Str, ¬ ((0x22 : UInt8) = 0x22 ∧ (r.cp ++ 0x22 :: s).head? = some 0x20) := by
    rintro s ⟨-, hx⟩
    cases hv : r.cp with
    | nil => rw [hv] at hx; cases hx
    | cons b v =>
      rw [hv] at hx
      cases hx
      exact h.cp.2.2 (by rw [hv]; exact List.mem_cons_self)
  rw [splitQuoted_step _ _ (hn _), splitQuoted_plain _ _ h.cp.1,
    splitQuoted_fields _ (fun p hp => (h.name p hp).1) fun p hp => ⟨(h.value p hp).1, (h.value p hp).2.2.1⟩]
  simp [glue, CharRecord.start]

theorem fieldText_noAngle (p : Str × Str) (h1 : 0x3c ∉ p.1) (h2 : 0x3c ∉ p.2) : 0x3c ∉ fieldText p := by
  unfold fieldText
  simp [h1, h2]

theorem hasText_char_field (p : Str × Str) (h1 : 0x3c ∉ p.1) (h2 : 0x3c ∉ p.2) :
    hasText (u8!"<char cp=") (fieldText p) = false := by
  rw [Bool.eq_false_iff]
  intro hx
  exact fieldText_noAngle p h1 h2 (((hasText_iff _ _).mp hx).subset (by decide))

theorem record_fields (r : CharRecord) (h : r.Fits) :
    ((splitQuoted (withoutEnd r.text)).filter fun l => !hasText (u8!"<char cp=") l) = r.fields.map fieldText := by
  rw [record_lines r h, List.filter_cons_of_neg]
  · rw [List.filter_eq_self]
    intro l hl
    obtain ⟨p, hp, rfl⟩ := List.mem_map.mp hl
    rw [hasText_char_field p (h.name p hp).2.1 (h.value p hp).2.1]; rfl
  · have : hasText (u8!"<char cp=") (CharRecord.start r ++ [0x22]) = true :=
      (hasText_iff _ _).mpr ⟨r.indent, u8!"\"" ++ r.cp ++ [0x22], by simp [CharRecord.start]⟩
    simp [this]

/-! ## Records of a file -/

theorem split_unique {x : UInt8} : ∀ {a i b c : Str}, x ∉ i → x ∉ c → a ++ x :: b = i ++ x :: c → a = i ∧ b = c
  | [], [], b, c, _, _, h => ⟨rfl, by simpa using h⟩
  | [], y :: i, b, c, h1, _, h => absurd (List.cons.inj h).1 fun e => h1 (by rw [e]; exact List.mem_cons_self)
  | y :: a, [], b, c, _, h2, h => absurd (show x ∈ c from by
      rw [← (List.cons.inj h).2]; simp) h2
  | y :: a, z :: i, b, c, h1, h2, h => by
    obtain ⟨e1, e2⟩ := List.cons.inj h
    have := split_unique (fun hx => h1 (List.mem_cons_of_mem _ hx)) h2 e2
    exact ⟨by rw [e1, this.1], this.2⟩

theorem split_before {x : UInt8} : ∀ {a i b c : Str}, x ∉ a → x ∉ i → a ++ x :: b = i ++ x :: c → a = i
  | [], [], b, c, _, _, h => rfl
  | [], y :: i, b, c, _, h1, h => absurd (List.cons.inj h).1 fun e => h1 (by rw [e]; exact List.mem_cons_self)
  | y :: a, [], b, c, h2, _, h => absurd (List.cons.inj h).1 fun e => h2 (by rw [e]; exact List.mem_cons_self)
  | y :: a, z :: i, b, c, h1, h2, h => by
    obtain ⟨e1, e2⟩ := List.cons.inj h
    rw [e1, split_before (fun hx => h1 (List.mem_cons_of_mem _ hx)) (fun hx => h2 (List.mem_cons_of_mem _ hx)) e2]

theorem hasText_record (r : CharRecord) (h : r.Fits) (code : Str) (hc : 0x22 ∉ code) :
    hasText (u8!"<char cp=\"" ++ code ++ u8!"\"") r.text = true ↔ r.cp = code := by
  rw [hasText_iff]
  have hx : 0x3c ∉ r.indent := fun hx => absurd (h.indent _ hx) (by decide)
  have ht : r.text = r.indent ++ 0x3c :: (u8!"char cp=\"" ++ (r.cp ++ 0x22 ::
      ((r.fields.flatMap fun p => u8!" " ++ fieldText p) ++ u8!"/>"))) := by simp [CharRecord.text]
  constructor
  · rintro ⟨a, b, e⟩
    rw [ht] at e
    have e' : a ++ 0x3c :: (u8!"char cp=\"" ++ (code ++ 0x22 :: b)) = r.indent ++ 0x3c :: (u8!"char cp=\"" ++ (r.cp ++ 0x22 ::
      ((r.fields.flatMap fun p => u8!" " ++ fieldText p) ++ u8!"/>"))) := by
      rw [← e]; simp
    have hn : 0x3c ∉ (u8!"char cp=\"" ++ (r.cp ++ 0x22 :: ((r.fields.flatMap fun p => u8!" " ++ fieldText p) ++ u8!"/>"))) := by
      intro hy
      rcases List.mem_append.mp hy with hy | hy
      · exact absurd hy (by decide)
      rcases List.mem_append.mp hy with hy | hy
      · exact h.cp.2.1 hy
      rcases List.mem_cons.mp hy with hy | hy
      · exact absurd hy (by decide)
      rcases List.mem_append.mp hy with hy | hy
      · obtain ⟨p, hp, hy⟩ := List.mem_flatMap.mp hy
        rcases List.mem_append.mp hy with hy | hy
        · exact absurd hy (by decide)
        · exact fieldText_noAngle p (h.name p hp).2.1 (h.value p hp).2.1 hy
      · exact absurd hy (by decide)
    have := (split_unique hx hn e').2
    exact (split_before hc h.cp.1 (List.append_cancel_left this)).symm
  · rintro rfl
    exact ⟨r.indent, (r.fields.flatMap fun p => u8!" " ++ fieldText p) ++ u8!"/>", by simp [CharRecord.text]⟩

theorem file_lines (code : Str) (hc : 0x22 ∉ code) : ∀ (ls : List Str) (rs : List CharRecord), CharFile ls rs →
    (ls.filter fun l => hasText (u8!"<char cp=\"" ++ code ++ u8!"\"") l) =
      (rs.filter fun r => r.cp == code).map CharRecord.text
  | [], rs, h => by rw [show rs = [] from h]; rfl
  | l :: ls, rs, h => by
    rcases h with ⟨hn, h⟩ | ⟨r, rs', rfl, rfl, hr, h⟩
    · rw [List.filter_cons_of_neg, file_lines code hc ls rs h]
      intro hx
      refine hn (List.IsInfix.trans ?_ ((hasText_iff _ _).mp hx))
      exact ⟨[], u8!"\"" ++ code ++ u8!"\"", by simp⟩
    · have ih := file_lines code hc ls rs' h
      by_cases e : r.cp = code
      · rw [List.filter_cons_of_pos ((hasText_record r hr code hc).mpr e), ih, List.filter_cons_of_pos (by simpa using e)]
        rfl
      · rw [List.filter_cons_of_neg (fun hx => e ((hasText_record r hr code hc).mp hx)), ih,
          List.filter_cons_of_neg (by simpa using e)]

theorem file_fits : ∀ (ls : List Str) (rs : List CharRecord), CharFile ls rs → ∀ r ∈ rs, r.Fits
  | [], rs, h, r, hr => by rw [show rs = [] from h] at hr; cases hr
  | l :: ls, rs, h, r, hr => by
    rcases h with ⟨-, h⟩ | ⟨r', rs', rfl, rfl, hr', h⟩
    · exact file_fits ls rs h r hr
    · rcases List.mem_cons.mp hr with rfl | hr2
      · exact hr'
      · exact file_fits ls rs' h r hr2

theorem filter_cp (r : CharRecord) : ∀ (rs : List CharRecord), (rs.map CharRecord.cp).Nodup → r ∈ rs →
    (rs.filter fun x => x.cp == r.cp) = [r]
  | [], _, h => by cases h
  | x :: rs, hd, h => by
    rw [List.map_cons, List.nodup_cons] at hd
    rcases List.mem_cons.mp h with rfl | h2
    · rw [List.filter_cons_of_pos (by simp), List.filter_eq_nil_iff.mpr]
      intro y hy hx
      exact hd.1 (List.mem_map.mpr ⟨y, hy, by simpa using hx⟩)
    · rw [List.filter_cons_of_neg, filter_cp r rs hd.2 h2]
      intro hx
      exact hd.1 (List.mem_map.mpr ⟨r, h2, by simpa using (Eq.symm (by simpa using hx))⟩)

theorem getXml_found (files : DiffFiles) (file : Str) (ls : List Str) (rs : List CharRecord) (r : CharRecord)
    (hf : files file = some ls) (h : CharFile ls rs) (hd : (rs.map CharRecord.cp).Nodup) (hr : r ∈ rs) :
    getXml files file r.cp = some (r.fields.map fieldText) := by
  have hfit := file_fits ls rs h r hr
  unfold getXml
  rw [hf, Option.getD_some, file_lines r.cp hfit.cp.1 ls rs h, filter_cp r rs hd hr]
  simp only [List.map_cons, List.map_nil, List.reverse_cons, List.reverse_nil, List.nil_append, List.flatMap_cons,
    List.flatMap_nil, List.append_nil]
  rw [record_fields r hfit]

theorem getXml_missing (files : DiffFiles) (file code : Str) (ls : List Str) (rs : List CharRecord) (hc : 0x22 ∉ code)
    (hf : files file = some ls) (h : CharFile ls rs) (hr : ∀ r ∈ rs, r.cp ≠ code) : getXml files file code = none := by
  unfold getXml
  rw [hf, Option.getD_some, file_lines code hc ls rs h, List.filter_eq_nil_iff.mpr]
  · rfl
  · intro r h1 h2
    exact hr r h1 (by simpa using h2)

end KT
