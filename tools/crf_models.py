#!/usr/bin/env python3
"""Writes lean/Verif/Conformance/CrfModels.lean: the weights in the CRF models of two of the test models in /repo, and the
lines of their stems and gazetteers about the words of the tests.

usage: crf_models.py /repo OUT.lean
"""
import glob, os, struct, sys

repo, out = sys.argv[1], sys.argv[2]
base = os.path.join(repo, "data/tests/models")
WORDS = "make me two cups of coffee please hot tea i want to play invader brew three boiling a cup cold".split()

def strings(b, off):
    """A constant quark database: the texts by their number."""
    cid, _, _, _, n, boff = struct.unpack_from("<4s5I", b, off)
    assert cid == b"CQDB"
    res = {}
    for i in range(n):
        o, = struct.unpack_from("<I", b, off + boff + 4 * i)
        if o:
            k, size = struct.unpack_from("<II", b, off + o)
            res[k] = b[off + o + 8:off + o + 8 + size - 1].decode()
    return res

def crf(path):
    """Labels, weights of (attribute, label) and of (label, label)."""
    b = open(path, "rb").read()
    magic, _, kind, _, _, _, _, of, ol, oa, _, _ = struct.unpack_from("<4sI4sI8I", b, 0)
    assert (magic, kind) == (b"lCRF", b"FOMC")
    labels, attrs = strings(b, ol), strings(b, oa)
    cid, _, num = struct.unpack_from("<4sII", b, of)
    assert cid == b"FEAT"
    state, trans = [], []
    for i in range(num):
        t, src, dst, w = struct.unpack_from("<IIId", b, of + 12 + 20 * i)
        w = round(w * 10 ** 9)
        if t == 0: state.append((attrs[src], labels[dst], w))
        else: trans.append((labels[src], labels[dst], w))
    return [labels[i] for i in sorted(labels)], state, trans

def lit(s): return '"' + s.replace("\\", "\\\\").replace('"', '\\"').replace("\n", "\\n").replace("\t", "\\t") + '"'

def table(rows, indent="  "):
    lines, line = [], indent + "["
    for i, (a, b, w) in enumerate(rows):
        piece = f"({lit(a)}, {lit(b)}, {w})" + ("," if i + 1 < len(rows) else "]")
        if len(line) + 1 + len(piece) > 116: lines.append(line.rstrip()); line = indent + "  "
        line += piece + " "
    return "\n".join(lines + [line.rstrip()])

O = ["import Verif.Conformance.Support", "",
     "/-! # The trained CRF models and the language resources of the test models", "",
     "Written by tools/crf_models.py from the files in /repo/data/tests/models.  Weights are in units of 10⁻⁹. -/", "",
     "namespace Snips.Conformance", "",
     "/-- A linear-chain CRF: its labels, the weights of attributes at labels, the weights of labels following labels. -/",
     "structure CrfWeights where", "  labels : List String", "  state : List (String × String × Int)",
     "  transition : List (String × String × Int)", ""]
for name, rel in [("crfCoffee", "nlu_engine_beverage/probabilistic_intent_parser/slot_filler_0/*.crfsuite"),
                  ("crfTea", "nlu_engine_beverage/probabilistic_intent_parser/slot_filler_1/*.crfsuite"),
                  ("crfGame", "nlu_engine_game/probabilistic_intent_parser/slot_filler_0/*.crfsuite")]:
    path, = glob.glob(os.path.join(base, rel))
    labels, state, trans = crf(path)
    O += [f"/-- {os.path.relpath(path, repo)} -/", f"def {name} : CrfWeights where",
          "  labels := [" + ", ".join(map(lit, labels)) + "]",
          "  state :=", table(state, "    "), "  transition :=", table(trans, "    "), ""]
res = os.path.join(base, "nlu_engine_beverage/resources/en")
assert all(open(os.path.join(res, f)).read() == open(os.path.join(base, "nlu_engine_game/resources/en", f)).read()
           for f in ["stop_words.txt", "stemming/stems.txt", "gazetteers/top_10000_words_stemmed.txt"])
stop = open(os.path.join(res, "stop_words.txt")).read()
stems = [l for l in open(os.path.join(res, "stemming/stems.txt")) if set(l.strip().split(",")) & set(WORDS)]
roots = set(WORDS) | {l.strip().split(",")[0] for l in stems}
common = [l for l in open(os.path.join(res, "gazetteers/top_10000_words_stemmed.txt")) if l.strip() in roots]
O += ["/-- resources/en/stop_words.txt of both models -/", f"def stopWordsFile : Text := s {lit(stop)}", "",
      "/-- The lines of resources/en/stemming/stems.txt of both models with one of the words of the tests. -/",
      f"def stemsFile : Text := s {lit(''.join(stems))}", "",
      "/-- The lines of resources/en/gazetteers/top_10000_words_stemmed.txt of both models with one of these words or their",
      "stems. -/",
      f"def commonWordsFile : Text := s {lit(''.join(common))}", "", "end Snips.Conformance"]
open(out, "w", encoding="utf-8").write("\n".join(O) + "\n")
