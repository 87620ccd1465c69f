import Verif.Lemmas.UcdDiff
import Verif.Lemmas.UcdLoad
/-! # Lemmas for C200: the arguments -/
namespace KT
open Spec

/-! ## Codes -/

theorem rxUni_upper (b : UInt8) : rxUni (shUpper b) = true ↔
    (0x30 ≤ b ∧ b ≤ 0x39) ∨ (0x41 ≤ b ∧ b ≤ 0x46) ∨ (0x61 ≤ b ∧ b ≤ 0x66) := by
  have : ∀ n : Fin 256, rxUni (shUpper (UInt8.ofNat n)) = true ↔
      (0x30 ≤ UInt8.ofNat n ∧ UInt8.ofNat n ≤ 0x39) ∨ (0x41 ≤ UInt8.ofNat n ∧ UInt8.ofNat n ≤ 0x46) ∨
        (0x61 ≤ UInt8.ofNat n ∧ UInt8.ofNat n ≤ 0x66) := by decide +kernel
  have h := this ⟨b.toNat, b.toNat_lt⟩
  simpa using h

theorem shUpper_capital (b : UInt8) (h : (0x30 ≤ b ∧ b ≤ 0x39) ∨ (0x41 ≤ b ∧ b ≤ 0x46) ∨ (0x61 ≤ b ∧ b ≤ 0x66)) :
    shUpper b = capital b := by
  have : ∀ n : Fin 256, (0x30 ≤ UInt8.ofNat n ∧ UInt8.ofNat n ≤ 0x39) ∨ (0x41 ≤ UInt8.ofNat n ∧ UInt8.ofNat n ≤ 0x46) ∨
        (0x61 ≤ UInt8.ofNat n ∧ UInt8.ofNat n ≤ 0x66) → shUpper (UInt8.ofNat n) = capital (UInt8.ofNat n) := by decide +kernel
  have h := this ⟨b.toNat, b.toNat_lt⟩ (by simpa using h)
  simpa using h

theorem upper_first (b : UInt8) (h : (0x30 ≤ b ∧ b ≤ 0x39) ∨ (0x41 ≤ b ∧ b ≤ 0x46) ∨ (0x61 ≤ b ∧ b ≤ 0x66)) :
    (shUpper b ≠ 0x30 ∧ shUpper b ≠ 0x46) ↔ (b ≠ 0x30 ∧ b ≠ 0x46 ∧ b ≠ 0x66) := by
  have : ∀ n : Fin 256, (0x30 ≤ UInt8.ofNat n ∧ UInt8.ofNat n ≤ 0x39) ∨ (0x41 ≤ UInt8.ofNat n ∧ UInt8.ofNat n ≤ 0x46) ∨
        (0x61 ≤ UInt8.ofNat n ∧ UInt8.ofNat n ≤ 0x66) → ((shUpper (UInt8.ofNat n) ≠ 0x30 ∧ shUpper (UInt8.ofNat n) ≠ 0x46) ↔
          (UInt8.ofNat n ≠ 0x30 ∧ UInt8.ofNat n ≠ 0x46 ∧ UInt8.ofNat n ≠ 0x66)) := by decide +kernel
  have h := this ⟨b.toNat, b.toNat_lt⟩ (by simpa using h)
  simpa using h

theorem isDiffCode_iff (w : Str) : isDiffCode (w.map shUpper) = true ↔ GivenCode w := by
  unfold isDiffCode GivenCode
  rw [Bool.and_eq_true, List.all_map, List.all_eq_true]
  have h1 : (∀ x ∈ w, (rxUni ∘ shUpper) x = true) ↔
      ∀ b ∈ w, (0x30 ≤ b ∧ b ≤ 0x39) ∨ (0x41 ≤ b ∧ b ≤ 0x46) ∨ (0x61 ≤ b ∧ b ≤ 0x66) :=
    forall_congr' fun b => imp_congr_right fun _ => rxUni_upper b
  rw [h1]
  apply and_congr_right
  intro h
  cases w with
  | nil => simp
  | cons b w =>
    have := upper_first b (h b List.mem_cons_self)
    simp [and_assoc] at this ⊢
    constructor
    · rintro (h | ⟨h, h2⟩)
      · exact Or.inl h
      · exact Or.inr ⟨h, this.mp h2⟩
    · rintro (h | ⟨h, h2⟩)
      · exact Or.inl h
      · exact Or.inr ⟨h, this.mpr h2⟩

theorem capital_map (w : Str) (h : GivenCode w) : w.map shUpper = w.map capital :=
  List.map_congr_left fun b hb => shUpper_capital b (h.1 b hb)

theorem given_word (w : Str) (h : GivenCode w) : w ≠ [] ∧ (∀ b ∈ w, isShBlank b = false) ∧ w.any rxUtf = false := by
  have h1 : ∀ b ∈ w, isShBlank b = false ∧ rxUtf b = false := by
    intro b hb
    have : ∀ n : Fin 256, (0x30 ≤ UInt8.ofNat n ∧ UInt8.ofNat n ≤ 0x39) ∨ (0x41 ≤ UInt8.ofNat n ∧ UInt8.ofNat n ≤ 0x46) ∨
        (0x61 ≤ UInt8.ofNat n ∧ UInt8.ofNat n ≤ 0x66) →
        isShBlank (UInt8.ofNat n) = false ∧ rxUtf (UInt8.ofNat n) = false := by decide +kernel
    have h := this ⟨b.toNat, b.toNat_lt⟩ (by simpa using h.1 b hb)
    simpa using h
  refine ⟨?_, fun b hb => (h1 b hb).1, ?_⟩
  · rintro rfl
    rcases h.2 with h | h
    · cases h
    · cases h.1
  · rw [List.any_eq_false]
    intro b hb
    rw [(h1 b hb).2]; simp

/-! ## Options -/

def isCjkOption : PrintOption → Bool
  | .cjk => true
  | .file _ => false

theorem printOptions_ok (files : DiffFiles) : ∀ (opts : List PrintOption) (rest : List Str) (file : Str) (cjk : Bool),
    (∀ f, PrintOption.file f ∈ opts → (files f).isSome) → (rest.head? ≠ some (u8!"-f") ∧ rest.head? ≠ some (u8!"-p")) →
    printOptions files (opts.flatMap PrintOption.words ++ rest) file cjk =
      .ok (printFile opts file, cjk || opts.any isCjkOption, rest)
  | [], rest, file, cjk, _, h => by
    rw [show printFile [] file = file from rfl, List.flatMap_nil, List.nil_append]
    match rest with
    | [] => simp [printOptions]
    | [a] =>
      rw [printOptions, if_neg (by rintro rfl; exact h.1 rfl), if_neg (by rintro rfl; exact h.2 rfl)]; simp
    | a :: b :: rest =>
      rw [printOptions, if_neg (by rintro rfl; exact h.1 rfl), if_neg (by rintro rfl; exact h.2 rfl)]; simp
  | .file f :: opts, rest, file, cjk, hf, h => by
    have ih := printOptions_ok files opts rest f cjk (fun g hg => hf g (List.mem_cons_of_mem _ hg)) h
    rw [List.flatMap_cons, PrintOption.words, List.append_assoc, List.cons_append, List.cons_append, List.nil_append, printOptions,
      if_pos rfl, if_pos (hf f List.mem_cons_self), ih]
    have : printFile (.file f :: opts) file = printFile opts f := by
      unfold printFile
      simp only [List.filterMap_cons, List.getLast?_cons, Option.getD_some]
    rw [this]; simp [isCjkOption]
  | .cjk :: opts, rest, file, cjk, hf, h => by
    have ih := printOptions_ok files opts rest file true (fun g hg => hf g (List.mem_cons_of_mem _ hg)) h
    have : printFile (.cjk :: opts) file = printFile opts file := by
      unfold printFile
      rw [List.filterMap_cons_none rfl]
    rw [List.flatMap_cons, PrintOption.words, List.append_assoc, List.cons_append, List.nil_append, this]
    cases ht : opts.flatMap PrintOption.words ++ rest with
    | nil =>
      rw [ht] at ih
      rw [printOptions, if_neg (by decide), if_pos rfl]
      simp only [printOptions] at ih
      rw [ih]; simp [isCjkOption]
    | cons x l =>
      rw [ht] at ih
      rw [printOptions, if_neg (by decide), if_pos rfl, ih]; simp [isCjkOption]

theorem printOptions_inv (files : DiffFiles) : ∀ (args : List Str) (file : Str) (cjk : Bool) (r : Str × Bool × List Str),
    printOptions files args file cjk = .ok r → ∃ opts : List PrintOption, ∃ rest, args = opts.flatMap PrintOption.words ++ rest ∧
      (∀ f, PrintOption.file f ∈ opts → (files f).isSome) ∧ (rest.head? ≠ some (u8!"-f") ∧ rest.head? ≠ some (u8!"-p"))
  | [], file, cjk, r, _ => ⟨[], [], rfl, by simp, by simp⟩
  | [a], file, cjk, r, h => by
    rw [printOptions] at h
    by_cases h1 : a = u8!"-f"
    · rw [if_pos h1] at h; cases h
    · by_cases h2 : a = u8!"-p"
      · exact ⟨[.cjk], [], by simp [PrintOption.words, h2], by simp, by simp⟩
      · exact ⟨[], [a], rfl, by simp, by simpa using ⟨h1, h2⟩⟩
  | a :: f :: rest, file, cjk, r, h => by
    rw [printOptions] at h
    by_cases h1 : a = u8!"-f"
    · rw [if_pos h1] at h
      by_cases hf : (files f).isSome
      · rw [if_pos hf] at h
        obtain ⟨opts, rest', e, k1, k2⟩ := printOptions_inv files rest f cjk r h
        refine ⟨.file f :: opts, rest', by rw [e, h1]; simp [PrintOption.words], ?_, k2⟩
        intro g hg
        rcases List.mem_cons.mp hg with hg2 | hg2
        · cases hg2; exact hf
        · exact k1 g hg2
      · rw [if_neg hf] at h; cases h
    · rw [if_neg h1] at h
      by_cases h2 : a = u8!"-p"
      · rw [if_pos h2] at h
        obtain ⟨opts, rest', e, k1, k2⟩ := printOptions_inv files (f :: rest) file true r h
        refine ⟨.cjk :: opts, rest', by rw [e, h2]; simp [PrintOption.words], ?_, k2⟩
        intro g hg
        rcases List.mem_cons.mp hg with hg2 | hg2
        · cases hg2
        · exact k1 g hg2
      · exact ⟨[], a :: f :: rest, rfl, by simp, by simpa using ⟨h1, h2⟩⟩

theorem oldOf_old (f : Str) (opts : List DiffOption) (file : Str) : oldOf (.old f :: opts) file = oldOf opts f := by
  unfold oldOf
  simp only [List.filterMap_cons, List.getLast?_cons, Option.getD_some]

theorem newOf_new (f : Str) (opts : List DiffOption) (file : Str) : newOf (.new f :: opts) file = newOf opts f := by
  unfold newOf
  simp only [List.filterMap_cons, List.getLast?_cons, Option.getD_some]

theorem oldOf_new (f : Str) (opts : List DiffOption) (file : Str) : oldOf (.new f :: opts) file = oldOf opts file := by
  unfold oldOf
  rw [List.filterMap_cons_none rfl]

theorem newOf_old (f : Str) (opts : List DiffOption) (file : Str) : newOf (.old f :: opts) file = newOf opts file := by
  unfold newOf
  rw [List.filterMap_cons_none rfl]

theorem diffOptions_ok (files : DiffFiles) : ∀ (opts : List DiffOption) (rest : List Str) (old new : Str),
    (∀ f, DiffOption.old f ∈ opts ∨ DiffOption.new f ∈ opts → (files f).isSome) →
    (rest.head? ≠ some (u8!"-o") ∧ rest.head? ≠ some (u8!"-n")) →
    diffOptions files (opts.flatMap DiffOption.words ++ rest) old new = .ok (oldOf opts old, newOf opts new, rest)
  | [], rest, old, new, _, h => by
    rw [show oldOf [] old = old from rfl, show newOf [] new = new from rfl, List.flatMap_nil, List.nil_append]
    match rest with
    | [] => simp [diffOptions]
    | [a] =>
      rw [diffOptions, if_neg (by
        rintro (rfl | rfl)
        · exact h.1 rfl
        · exact h.2 rfl)]
    | a :: b :: rest =>
      rw [diffOptions, if_neg (by rintro rfl; exact h.1 rfl), if_neg (by rintro rfl; exact h.2 rfl)]
  | .old f :: opts, rest, old, new, hf, h => by
    have ih := diffOptions_ok files opts rest f new (fun g hg => hf g (hg.imp (List.mem_cons_of_mem _) (List.mem_cons_of_mem _))) h
    rw [List.flatMap_cons, DiffOption.words, List.append_assoc, List.cons_append, List.cons_append, List.nil_append, diffOptions,
      if_pos rfl, if_pos (hf f (Or.inl List.mem_cons_self)), ih, oldOf_old, newOf_old]
  | .new f :: opts, rest, old, new, hf, h => by
    have ih := diffOptions_ok files opts rest old f (fun g hg => hf g (hg.imp (List.mem_cons_of_mem _) (List.mem_cons_of_mem _))) h
    rw [List.flatMap_cons, DiffOption.words, List.append_assoc, List.cons_append, List.cons_append, List.nil_append, diffOptions,
      if_neg (by decide), if_pos rfl, if_pos (hf f (Or.inr List.mem_cons_self)), ih, oldOf_new, newOf_new]

theorem diffOptions_inv (files : DiffFiles) : ∀ (args : List Str) (old new : Str) (r : Str × Str × List Str),
    diffOptions files args old new = .ok r → ∃ opts : List DiffOption, ∃ rest, args = opts.flatMap DiffOption.words ++ rest ∧
      (∀ f, DiffOption.old f ∈ opts ∨ DiffOption.new f ∈ opts → (files f).isSome) ∧
      (rest.head? ≠ some (u8!"-o") ∧ rest.head? ≠ some (u8!"-n"))
  | [], old, new, r, _ => ⟨[], [], rfl, by simp, by simp⟩
  | [a], old, new, r, h => by
    rw [diffOptions] at h
    by_cases h1 : a = u8!"-o" ∨ a = u8!"-n"
    · rw [if_pos h1] at h; cases h
    · exact ⟨[], [a], rfl, by simp, by simpa [not_or] using h1⟩
  | a :: f :: rest, old, new, r, h => by
    rw [diffOptions] at h
    by_cases h1 : a = u8!"-o"
    · rw [if_pos h1] at h
      by_cases hf : (files f).isSome
      · rw [if_pos hf] at h
        obtain ⟨opts, rest', e, k1, k2⟩ := diffOptions_inv files rest f new r h
        refine ⟨.old f :: opts, rest', by rw [e, h1]; simp [DiffOption.words], ?_, k2⟩
        intro g hg
        simp only [List.mem_cons, DiffOption.old.injEq, reduceCtorEq, false_or] at hg
        rcases hg with (rfl | hg) | hg
        · exact hf
        · exact k1 g (Or.inl hg)
        · exact k1 g (Or.inr hg)
      · rw [if_neg hf] at h; cases h
    · rw [if_neg h1] at h
      by_cases h2 : a = u8!"-n"
      · rw [if_pos h2] at h
        by_cases hf : (files f).isSome
        · rw [if_pos hf] at h
          obtain ⟨opts, rest', e, k1, k2⟩ := diffOptions_inv files rest old f r h
          refine ⟨.new f :: opts, rest', by rw [e, h2]; simp [DiffOption.words], ?_, k2⟩
          intro g hg
          simp only [List.mem_cons, DiffOption.new.injEq, reduceCtorEq, false_or] at hg
          rcases hg with hg | (rfl | hg)
          · exact k1 g (Or.inl hg)
          · exact hf
          · exact k1 g (Or.inr hg)
        · rw [if_neg hf] at h; cases h
      · exact ⟨[], a :: f :: rest, rfl, by simp, by simpa using ⟨h1, h2⟩⟩

end KT
