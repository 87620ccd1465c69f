#!/usr/bin/env python3
"""Writes lean/Verif/Model/KanaTable.lean from the three lists in libs/kana/src/Kana.cpp."""
import re
src = open("/repo/libs/kana/src/Kana.cpp", encoding="utf-8").read()


def body(name):
    i = src.index("const std::array " + name + "{")
    j = src.index("};", i)
    while src[j:j + 3] == "}};":
        j += 1
    # the list ends with '}};' - find it
    j = src.index("}};", i) + 1
    t = src[i + len("const std::array " + name + "{"):j]
    t = re.sub(r"//[^\n]*", "", t)
    return t


tok_re = re.compile(r'\s*(?:([KVDH])\{|("[^"]*")|(true)|(\})|(,))')


def parse(t):
    pos = 0
    stack = [("L", [])]
    while pos < len(t):
        m = tok_re.match(t, pos)
        if not m:
            assert t[pos:].strip() == "", t[pos:pos + 40]
            break
        pos = m.end()
        if m.group(1):
            stack.append((m.group(1), []))
        elif m.group(2):
            stack[-1][1].append(m.group(2))
        elif m.group(3):
            stack[-1][1].append(True)
        elif m.group(4):
            x = stack.pop()
            stack[-1][1].append(x)
    assert len(stack) == 1
    return stack[0][1]


def s(x):
    return "(u8!" + x + ")"


def kana(args):
    r, h, k = args[:3]
    rest = args[3:]
    if not rest:
        return f"mk0 {s(r)} {s(h)} {s(k)}"
    if len(rest) == 2:
        return f"mk2 {s(r)} {s(h)} {s(k)} {s(rest[0])} {s(rest[1])}"
    assert len(rest) == 1 and rest[0][0] == "V"
    v = rest[0][1]
    kun = v[-1] is True
    v = [x for x in v if x is not True]
    return f"mkV {s(r)} {s(h)} {s(k)} [{', '.join('u8!' + x for x in v)}] {'true' if kun else 'false'}"


K = parse(body("KanaList"))
D = parse(body("DakutenKanaList"))
H = parse(body("HanDakutenKanaList"))
out = []
out.append("""import Verif.Model.Basic
/-!
# The tables of libs/kana/src/Kana.cpp

Generated from the source text by `tools/gen_kana_table.py`, in source order.
-/
namespace KT

/-- Data members of class `Kana` (libs/kana/include/kt_kana/Kana.h:252-276); `variants` and
`kunreiVariant` are the two members of `_variants` (`RomajiVariants`, Kana.h:61-98). -/
structure KanaRec where
  romaji : Str
  hiragana : Str
  katakana : Str
  hepburn : Option Str
  kunrei : Option Str
  variants : List Str
  kunreiVariant : Bool
  deriving DecidableEq, Repr

/-- `Kana` constructor with three arguments (Kana.cpp:379-381). -/
def KanaRec.mk0 (r h k : Str) : KanaRec := ⟨r, h, k, none, none, [], false⟩
/-- `Kana` constructor with Hepburn and Kunrei values (Kana.cpp:383-395). -/
def KanaRec.mk2 (r h k hep kun : Str) : KanaRec := ⟨r, h, k, some hep, some kun, [], false⟩
/-- `Kana` constructor with variants (Kana.cpp:397-400). -/
def KanaRec.mkV (r h k : Str) (v : List Str) (kun : Bool) : KanaRec := ⟨r, h, k, none, none, v, kun⟩

open KanaRec
""")
out.append("/-- `KanaList` (Kana.cpp:20-70). -/\ndef kanaList : List KanaRec := [")
out.append(",\n".join("  " + kana(x[1]) for x in K) + "]\n")
out.append("/-- `DakutenKanaList` (Kana.cpp:74-137): plain and voiced. -/\ndef dakutenKanaList : List (KanaRec × KanaRec) := [")
for x in D:
    assert x[0] == "D" and x[1][0][0] == "K"
out.append(",\n".join("  (" + kana(x[1][1:]) + ", " + kana(x[1][0][1]) + ")" for x in D) + "]\n")
out.append("/-- `HanDakutenKanaList` (Kana.cpp:142-159): plain, voiced and semi-voiced. -/\ndef hanDakutenKanaList : List (KanaRec × KanaRec × KanaRec) := [")
out.append(",\n".join("  (" + kana(x[1][2:]) + ", " + kana(x[1][1][1]) + ",\n    " + kana(x[1][0][1]) + ")" for x in H) + "]\n")
out.append("end KT")
open("/verif/lean/Verif/Model/KanaTable.lean", "w", encoding="utf-8").write("\n".join(out) + "\n")
print(len(K), len(D), len(H))
