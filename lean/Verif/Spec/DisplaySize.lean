import Verif.Spec.Unicode
/-!
# Specification of the display width

The table was made from the property `East_Asian_Width` of Unicode 14.0 (values `W` and `F`), not from the
program: runs of wide characters by the first code and the number of codes.  As the property file says, all codes
of the block `CJK Compatibility Ideographs` and of the planes 2 and 3 (except the last two) are wide, including
those that are not assigned.
-/
namespace Spec

/-- Runs of wide characters. -/
def wideRuns : List (Nat × Nat) :=
  [(0x1100, 96), (0x231a, 2), (0x2329, 2), (0x23e9, 4), (0x23f0, 1), (0x23f3, 1), (0x25fd, 2),
   (0x2614, 2), (0x2648, 12), (0x267f, 1), (0x2693, 1), (0x26a1, 1), (0x26aa, 2), (0x26bd, 2),
   (0x26c4, 2), (0x26ce, 1), (0x26d4, 1), (0x26ea, 1), (0x26f2, 2), (0x26f5, 1), (0x26fa, 1),
   (0x26fd, 1), (0x2705, 1), (0x270a, 2), (0x2728, 1), (0x274c, 1), (0x274e, 1), (0x2753, 3),
   (0x2757, 1), (0x2795, 3), (0x27b0, 1), (0x27bf, 1), (0x2b1b, 2), (0x2b50, 1), (0x2b55, 1),
   (0x2e80, 26), (0x2e9b, 89), (0x2f00, 214), (0x2ff0, 12), (0x3000, 63), (0x3041, 86), (0x3099, 103),
   (0x3105, 43), (0x3131, 94), (0x3190, 84), (0x31f0, 47), (0x3220, 40), (0x3250, 7024),
   (0x4e00, 22157), (0xa490, 55), (0xa960, 29), (0xac00, 11172), (0xf900, 512), (0xfe10, 10),
   (0xfe30, 35), (0xfe54, 19), (0xfe68, 4), (0xff01, 96), (0xffe0, 7), (0x16fe0, 5), (0x16ff0, 2),
   (0x17000, 6136), (0x18800, 1238), (0x18d00, 9), (0x1aff0, 4), (0x1aff5, 7), (0x1affd, 2),
   (0x1b000, 291), (0x1b150, 3), (0x1b164, 4), (0x1b170, 396), (0x1f004, 1), (0x1f0cf, 1), (0x1f18e, 1),
   (0x1f191, 10), (0x1f200, 3), (0x1f210, 44), (0x1f240, 9), (0x1f250, 2), (0x1f260, 6), (0x1f300, 33),
   (0x1f32d, 9), (0x1f337, 70), (0x1f37e, 22), (0x1f3a0, 43), (0x1f3cf, 5), (0x1f3e0, 17), (0x1f3f4, 1),
   (0x1f3f8, 71), (0x1f440, 1), (0x1f442, 187), (0x1f4ff, 63), (0x1f54b, 4), (0x1f550, 24),
   (0x1f57a, 1), (0x1f595, 2), (0x1f5a4, 1), (0x1f5fb, 85), (0x1f680, 70), (0x1f6cc, 1), (0x1f6d0, 3),
   (0x1f6d5, 3), (0x1f6dd, 3), (0x1f6eb, 2), (0x1f6f4, 9), (0x1f7e0, 12), (0x1f7f0, 1), (0x1f90c, 47),
   (0x1f93c, 10), (0x1f947, 185), (0x1fa70, 5), (0x1fa78, 5), (0x1fa80, 7), (0x1fa90, 29),
   (0x1fab0, 11), (0x1fac0, 6), (0x1fad0, 10), (0x1fae0, 8), (0x1faf0, 7), (0x20000, 65534),
   (0x30000, 65534)]

/-- A character that is two columns wide. -/
def WideChar (c : Nat) : Prop := ∃ p ∈ wideRuns, p.1 ≤ c ∧ c < p.1 + p.2

instance : DecidablePred WideChar := fun c => by unfold WideChar; infer_instance

/-- Columns taken by one code point: none for NUL and for marks that modify the character before, two for wide
characters, one otherwise. -/
def columns (c : Nat) : Nat := if c = 0 ∨ NonSpacing c then 0 else if WideChar c then 2 else 1

end Spec
